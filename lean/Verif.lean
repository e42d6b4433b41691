import Verif.Props.Curve2
import Verif.Props.CurveValues
import Verif.Props.Standalone
import Verif.Spec.Ext
import Verif.Spec.Halo2
import Verif.Props.Kyc
import Verif.Props.Signature
import Verif.Props.Transcript
import Verif.Props.Applied
import Verif.Props.Digest
import Verif.Props.FinalCheck
import Verif.Props.Field
import Verif.Props.FieldValues
import Verif.Props.Hints
import Verif.Model.Define
import Verif.Lemmas.Steps
import Verif.Lemmas.AuxRaw
import Verif.Props.Steps
import Verif.Lemmas.HintsIn
import Verif.Lemmas.Frame
import Verif.Lemmas.Define
import Verif.Props.Whole
import Verif.Spec.Verifier
import Verif.Lemmas.Sound
import Verif.Props.Soundness
import Verif.Props.Witness
import Verif.Lemmas.Exact
import Verif.Lemmas.Progress
import Verif.Lemmas.Conds
import Verif.Lemmas.StepConds
import Verif.Lemmas.StepTerms
import Verif.Lemmas.StepPoints
import Verif.Lemmas.Steps3
import Verif.Lemmas.Complete
import Verif.Props.Cases
import Verif.Props.Completeness
import Verif.Math.Jacobian
import Verif.Spec.Hashes
import Verif.Lemmas.Necessary
import Verif.Lemmas.Words
import Verif.Props.Exact
import Verif.Lemmas.Eval
import Verif.Lemmas.Shipped
import Verif.Props.Shipped
import Verif.Props.Degenerate
import Verif.Math.AllBut
import Verif.Math.GrandProduct
import Verif.Spec.Knowledge
import Verif.Lemmas.OpeningPoly
import Verif.Lemmas.Rows
import Verif.Lemmas.QuotientPoly
import Verif.Lemmas.Prover
import Verif.Props.Knowledge
import Verif.Math.Honest
import Verif.Lemmas.Honest
import Verif.Props.Prover
import Verif.Props.Unique
import Verif.Spec.Ate
import Verif.Math.Fp12
import Verif.Math.AteN
import Verif.Spec.Twist
import Verif.Math.TwistN
import Verif.Lemmas.G2Order
import Verif.Props.G2
import Verif.Lemmas.ShippedPairing
import Verif.Props.ShippedReal
import Verif.Props.Recorded
import Verif.Spec.Interactive
import Verif.Lemmas.Counting
import Verif.Props.Interactive
import Verif.Props.Instances
import Verif.Spec.RandomOracle
import Verif.Lemmas.RandomOracle
import Verif.Lemmas.OracleChain
import Verif.Props.RandomOracle
import Verif.Lemmas.HintCalls
import Verif.Props.HintCalls
import Verif.Lemmas.SameRun
import Verif.Props.ExactInt
import Verif.Math.Coeff
import Verif.Lemmas.Rare
import Verif.Lemmas.RareTerms
import Verif.Lemmas.RareProver
import Verif.Spec.Honest
import Verif.Props.Rare
import Verif.Props.OracleComplete
import Verif.Props.BestProver
import Verif.Lemmas.Outcome
import Verif.Props.Outcome
import Verif.Props.FrString
import Verif.Props.InstanceLists
import Verif.Math.Fp12Field
import Verif.Math.Reciprocity
import Verif.Math.AteLinear
import Verif.Math.AteHom
import Verif.Math.TwistEval
import Verif.Math.AteG2
import Verif.Math.TwistCyclic
import Verif.Props.AtePairing
import Verif.Props.Secret
import Verif.Model.Public
import Verif.Props.Public
import Verif.Props.InstanceCommitment
import Verif.Props.RepoTests
import Verif.Props.Compile
import Verif.Props.NewWitness
import Verif.Props.StepFrame
import Verif.Props.BufferFrame
import Verif.Props.Source
import Verif.Props.SourceDefine
import Verif.Props.SourceGadgets
import Verif.Props.SourceHash
import Verif.Props.SourceHints
import Verif.Props.SourceMain
import Verif.Props.SourcePlain
