/-
The model against the Go text: the generated programs of Verif/Model/StepProgs, the definition of
GetChallengesShPlonkCircuit in Verif/Model/Transcript, and the constants are what the files of /repo say. These are
statements about the model, not properties of the program; they take the generator tools/gen_steps.py and the eye of the
reader out of the trusted base.
-/
import Verif.Model.StepSource
import Verif.Model.StepProgs
import Verif.Model.ChalText
import Verif.Model.Kyc
import Verif.Model.Pairing
import Verif.Lemmas.Shipped

namespace Verif

open Go

theorem toList_lit {s : String} (l : List Char) (h : s = String.ofList l) : s.toList = l := by rw [h, String.toList_ofList]

section
set_option maxRecDepth 1000000

/-- The text of AggregatorVerifierStep1.go, read as Go, is the program `step1`. -/
theorem source_step1 : Go.file goHead1.toList goStep1.toList = some step1 := by
  rw [toList_lit (s := goHead1) _ (by unfold goHead1; rfl), toList_lit (s := goStep1) _ (by unfold goStep1; rfl)]
  decide +kernel

/-- The text of AggregatorVerifierStep2.go, read as Go, is the program `step2`. -/
theorem source_step2 : Go.file goHead2.toList goStep2.toList = some step2 := by
  rw [toList_lit (s := goHead2) _ (by unfold goHead2; rfl), toList_lit (s := goStep2) _ (by unfold goStep2; rfl)]
  decide +kernel

/-- The text of AggregatorVerifierStep3.go, read as Go, is the program `step3`. -/
theorem source_step3 : Go.file goHead3.toList goStep3.toList = some step3 := by
  rw [toList_lit (s := goHead3) _ (by unfold goHead3; rfl), toList_lit (s := goStep3) _ (by unfold goStep3; rfl)]
  decide +kernel

/-- The decimal constants of main.go: the shipped proof, aux values and instances. -/
theorem source_main : Go.decimals goMain.toList = shippedProof ++ shippedAux ++ shippedVerifyInst ++ shippedTargetInst := by
  rw [toList_lit (s := goMain) _ (by unfold goMain; rfl)]
  decide +kernel

/-- The decimal constants of aggregator_lib_circuit.go: the two moduli, the point of the instance commitment, the seed of the transcript. -/
theorem source_lib : Go.decimals goLib.toList = [pMod, rMod, lagrangeX, lagrangeY, absorb0] := by
  rw [toList_lit (s := goLib) _ (by unfold goLib; rfl)]
  decide +kernel

/-- The decimal constants of kyc.go: the key of the issuer. -/
theorem source_kyc : Go.decimals goKyc.toList = [kycKeyX, kycKeyY] := by
  rw [toList_lit (s := goKyc) _ (by unfold goKyc; rfl)]
  decide +kernel

/-- The decimal constants of pairing_circuit.go: the two points of G2, with Z = 1. -/
theorem source_pairing : (Go.decimals goPairing.toList).map (fun n => (n : Fp)) =
    [g20.1.1, g20.1.2, g20.2.1, g20.2.2, 1, 0, g21.1.1, g21.1.2, g21.2.1, g21.2.2, 1, 0] := by
  rw [toList_lit (s := goPairing) _ (by unfold goPairing; rfl)]
  decide +kernel

/-- The text of GetChallengesShPlonkCircuit is the program `challengeProg`. -/
theorem source_challenges : Go.challenges goLib.toList = some Go.challengeProg := by
  rw [toList_lit (s := goLib) _ (by unfold goLib; rfl)]
  decide +kernel

end

theorem runLoop_points (X : Ext) (T : List Var) (l : List ChalTop) : ∀ (n : ℕ) (B A : List Var) (p t : ℕ),
    runChal X T (.loop n pointBody :: l) ⟨B, A, p, t⟩ = (do
      let (err, A) ← absorbPoints T n A p t
      match err with | some m => pure (some m, B) | none => runChal X T l ⟨B, A, p + 2 * n, t + 2 * n⟩)
  | 0, B, A, p, t => by simp [runChal, runLoop, absorbPoints]
  | n + 1, B, A, p, t => by
    have ih := fun A => runLoop_points X T l n B A (p + 2) (t + 2)
    simp only [runChal] at ih
    simp only [runChal, runLoop, absorbPoints, bind_assoc, pointBody, runStmts, ChalStmt.exec, ChalExpr.eval, pure_bind]
    congr 1; funext x; congr 1; funext y; congr 1; funext e
    cases e with
    | some m => simp
    | none =>
      simp only [pure_bind, bind_assoc]
      congr 1; funext x; congr 1; funext A1; congr 1; funext x; congr 1; funext A2
      rw [show p + 2 * (n + 1) = p + 2 + 2 * n by ring, show t + 2 * (n + 1) = t + 2 + 2 * n by ring]
      exact ih A2

theorem runLoop_scalars (X : Ext) (T : List Var) (l : List ChalTop) : ∀ (n : ℕ) (B A : List Var) (p t : ℕ),
    runChal X T (.loop n scalarBody :: l) ⟨B, A, p, t⟩ = (do
      let A ← absorbScalars T n A p t
      runChal X T l ⟨B, A, p + n, t + n⟩)
  | 0, B, A, p, t => by simp [runChal, runLoop, absorbScalars]
  | n + 1, B, A, p, t => by
    have ih := fun A => runLoop_scalars X T l n B A (p + 1) (t + 1)
    simp only [runChal] at ih
    simp only [runChal, runLoop, absorbScalars, bind_assoc, scalarBody, runStmts, ChalStmt.exec, ChalExpr.eval, pure_bind]
    congr 1; funext x; congr 1; funext A1
    rw [show p + (n + 1) = p + 1 + n by ring, show t + (n + 1) = t + 1 + n by ring]
    exact ih A1

theorem runChal_one (X : Ext) (T : List Var) (s : ChalStmt) (l : List ChalTop) (st : ChalState) :
    runChal X T (.one s :: l) st = (do
      let (err, st) ← s.exec X T st
      match err with | some m => pure (some m, st.buf) | none => runChal X T l st) := by
  rw [runChal]; rfl

section
/-- One binding of the function body. -/
local macro "one" : tactic => `(tactic| refine bind_congr fun _ => ?_)
/-- A block of points. -/
local macro "pts" : tactic => `(tactic| (refine bind_congr fun ⟨e, _⟩ => ?_; cases e <;> dsimp only))
/-- A squeeze. -/
local macro "sqz" : tactic => `(tactic| (refine bind_congr fun ⟨⟨_, e⟩, _⟩ => bind_congr fun _ => ?_; cases e <;> dsimp only))
/-- A check of one point. -/
local macro "chk" : tactic => `(tactic| (refine bind_congr fun _ => bind_congr fun _ => bind_congr fun e => ?_; cases e <;> dsimp only [pure_bind]))

/-- Running the text is the definition. -/
theorem run_challenges (X : Ext) (T B A : List Var) (p t : ℕ) :
    runChal X T challengeProg ⟨B, A, p, t⟩ = GetChallengesShPlonkCircuit X B T := by
  simp only [challengeProg, runChal_one, ChalStmt.exec, ChalExpr.eval, pure_bind, bind_assoc, runLoop_points, runLoop_scalars,
    GetChallengesShPlonkCircuit, squeezeTo, absorb0, Nat.reduceMul, Nat.reduceAdd]
  one; one; one; one; one; pts; sqz; pts; sqz; sqz; pts; sqz; pts; sqz; one; sqz; sqz
  simp only [absorbPoints, bind_assoc]
  chk
  · simp only [pure_bind, bind_assoc]
    one; one; one; one; sqz
    refine bind_congr fun _ => bind_congr fun _ => ?_
    refine bind_congr fun e => ?_
    cases e <;> simp [runChal]
  · simp

end

end Verif
