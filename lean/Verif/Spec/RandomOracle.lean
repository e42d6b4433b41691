/-
The random-oracle model of the Fiat–Shamir transcript: the hash function is drawn uniformly among all functions from a finite
set of messages to 256-bit digests, and a prover asks for hash values one after the other before it presents a circuit.
Models nothing of /repo.
-/
import Verif.Spec.Knowledge
import Verif.Spec.Verifier
import Verif.Model.Define
import Verif.Spec.Ext

namespace Verif
open Halo2 Polynomial

/-- A 256-bit digest. -/
abbrev Digest := Fin (2 ^ 256)

/-- The external functions of the circuit with another hash function in the place of SHA-256. -/
def Ext.withSha (X : Ext) (sha : List UInt8 → List UInt8) : Ext := { X with sha256 := sha }

/-- The hash function that answers with the digests `H` on the messages in `M`, and with `rest` on all others. -/
def oracleHash (M : Finset (List UInt8)) (H : M → Digest) (rest : List UInt8 → List UInt8) (m : List UInt8) : List UInt8 :=
  if h : m ∈ M then beBytes (H ⟨m, h⟩).val 32 else rest m

/-- What a prover knows of the things it commits to: the instance value, the columns, the quotient pieces, the claimed
evaluations, and the polynomial of the first opening proof. -/
structure Claim where
  k : Fr
  P : Columns
  h : ℕ → Fr[X]
  e : Evals
  q : Fr[X]

/-- Two claims agree on all that has been sent before challenge number `j` (0 for θ, …, 7 for u) is drawn. -/
structure Claim.AgreesBefore (A B : Claim) (j : ℕ) : Prop where
  k : A.k = B.k
  a : A.P.a = B.P.a
  perm : 1 ≤ j → A.P.permA = B.P.permA ∧ A.P.permS = B.P.permS
  columns : 3 ≤ j → A.P = B.P
  h : 4 ≤ j → A.h = B.h
  e : 5 ≤ j → A.e = B.e
  q : 7 ≤ j → A.q = B.q

/-- A prover that asks for the hashes of messages in `M`. What it asks next depends on the answers so far; with each question it
knows polynomials behind the points it hashes (this is the algebraic group model: points are made from the
points of the trusted setup). At the end it presents a circuit, that is an instance and a proof. -/
structure OracleProver (M : Finset (List UInt8)) where
  /-- the next message to hash, for the answers so far -/
  query : List Digest → M
  /-- what it then knows of the points and values in that message and in the messages before it; more than one claim, if
  the same message stands for several sequences of points and values (a word and its negative are hashed alike) -/
  claims : List Digest → List Claim
  /-- the circuit presented at the end -/
  circuit : List Digest → AggregatorCircuit
  /-- what it knows at the end, and the polynomial of the second opening proof -/
  final : List Digest → Claim
  w : List Digest → Fr[X]

variable {M : Finset (List UInt8)}

/-- The answers to the first `i` questions. -/
def OracleProver.answers (R : OracleProver M) (H : M → Digest) : ℕ → List Digest
  | 0 => []
  | i + 1 => R.answers H i ++ [H (R.query (R.answers H i))]

/-- The message of question number `i`. -/
def OracleProver.asks (R : OracleProver M) (H : M → Digest) (i : ℕ) : M := R.query (R.answers H i)

/-- All polynomials presented at the end have degree at most `d`, and there are at most `v` claims with each question. -/
structure OracleProver.Bounded (R : OracleProver M) (d v : ℕ) : Prop where
  claims : ∀ l, (R.claims l).length ≤ v
  columns : ∀ l, (R.final l).P.Bounded d
  h : ∀ l i, ((R.final l).h i).natDegree ≤ d
  q : ∀ l, (R.final l).q.natDegree ≤ d
  w : ∀ l, (R.w l).natDegree ≤ d

/-- The instance value of a circuit: the Keccak hash of its instance values. -/
def AggregatorCircuit.instanceValue (c : AggregatorCircuit) (X : Ext) : Fr :=
  (beNat (X.keccak ((c.TargetInst ++ c.VerifyInst).flatMap fun v => beBytes v.fr.val 32)) : ℕ)

/-- The eight messages hashed for the proof in a circuit with instance value `k`, whose first 102 words are `t`. -/
noncomputable def transcriptMessages (sha : List UInt8 → List UInt8) (k : Fr) (t : List ℤ) : List (List UInt8) :=
  fsMessages sha fsSeed (fsBlocks (enc (instCommitment k)).1.val (enc (instCommitment k)).2.val (t.map Int.natAbs))

/-- With hash function `sha`, some run of the test engine accepts the circuit (with the Keccak hint of the repo). -/
def AggregatorCircuit.AcceptedWith (c : AggregatorCircuit) (X : Ext) : Prop :=
  (∀ v ∈ c.TargetInst ++ c.VerifyInst, v.Good) ∧
  ∃ (E : Engine) (s : St), E.mode = .test ∧ (∀ k n ins, E.strat .keccakHint k n ins = Keccak256Hint X n ins) ∧ s.sat = true ∧
    (c.Define X).Accepted E s

/-- After `Q` questions to the hash function `H` the prover presents an accepted proof, all of whose transcript it has hashed, and
knew the polynomials behind each part of the proof when it first hashed that part. -/
structure OracleProver.Convinces (R : OracleProver M) (X : Ext) (rest : List UInt8 → List UInt8) (τ : Fr) (K : VkPolys) (Q : ℕ)
    (H : M → Digest) : Prop where
  accepted : (R.circuit (R.answers H Q)).AcceptedWith (X.withSha (oracleHash M H rest))
  /-- each transcript message was asked for, and when it first was, the prover knew what it had sent so far -/
  hashed : ∀ t : List ℤ, (R.circuit (R.answers H Q)).Proof.take 102 = t.map .big → ∀ (j : ℕ) (m : List UInt8),
    (transcriptMessages (oracleHash M H rest) ((R.circuit (R.answers H Q)).instanceValue X) t)[j]? = some m →
    ∃ i < Q, (R.asks H i : List UInt8) = m ∧ (∀ l < i, (R.asks H l : List UInt8) ≠ m) ∧
      ∃ A ∈ R.claims (R.answers H i), A.AgreesBefore (R.final (R.answers H Q)) j
  instance_eq : (R.final (R.answers H Q)).k = (R.circuit (R.answers H Q)).instanceValue X
  evals_eq : (R.final (R.answers H Q)).e = .ofProof (frAt (R.circuit (R.answers H Q)).Proof)
  opens : Opens τ K (R.final (R.answers H Q)).k (R.final (R.answers H Q)).P (R.final (R.answers H Q)).h (R.final (R.answers H Q)).q
    (R.w (R.answers H Q)) (.ofProof (instCommitment (R.final (R.answers H Q)).k) (proofPoint (R.circuit (R.answers H Q)).Proof))

end Verif
