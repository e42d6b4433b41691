/- Honest provers, and the degenerate values in which the curve arithmetic of the circuit has no answer. Models nothing of /repo. -/
import Verif.Spec.Knowledge

namespace Verif
namespace Halo2

open Polynomial

/-- The challenges for which an honest prover has no running products: at most 2(n-6) values of β and 9(n-6) of γ. -/
structure ProductExceptions where
  β : (θ : Fr) → Finset Fr
  γ : (θ β : Fr) → Finset Fr
  β_card : ∀ θ, (β θ).card ≤ 2 * (n - 6)
  γ_card : ∀ θ b, (γ θ b).card ≤ 9 * (n - 6)

/-- An honest prover: outside the exceptions its quotient pieces are those of the constraint expressions, and its opening
proofs open the true evaluations. The trapdoor does not occur: these are identities of polynomials. -/
structure Prover.Honest (Q : Prover) (K : VkPolys) (k : Fr) (B : ProductExceptions) : Prop where
  quotient : ∀ c : Challenges, c.β ∉ B.β c.θ → c.γ ∉ B.γ c.θ c.β →
    QuotientIdentity c (.at c.x) (trueEvals K k (Q.columns c.θ c.β c.γ) c.x) (trueQuotient (Q.h c.θ c.β c.γ c.y) c.x)
  opening : ∀ c : Challenges, c.x ≠ 0 → vanish (points c.x [2, -1]) c.u ≠ 0 →
    openingPoly c K k (Q.columns c.θ c.β c.γ) (Q.h c.θ c.β c.γ c.y) (Q.q c.θ c.β c.γ c.y c.x c.y' c.v) (Q.w c)
      (trueEvals K k (Q.columns c.θ c.β c.γ) c.x) (trueQuotient (Q.h c.θ c.β c.γ c.y) c.x) = 0

/-- The commitments to the columns and to the quotient pieces are not the point at infinity. -/
structure FiniteCommitments (τ : Fr) (K : VkPolys) (k : Fr) (P : Columns) (h : ℕ → Fr[X]) : Prop where
  inst : com τ (C k * K.inst) ≠ 0
  a : ∀ i < 8, com τ (P.a i) ≠ 0
  permA : ∀ i < 2, com τ (P.permA i) ≠ 0
  permS : ∀ i < 2, com τ (P.permS i) ≠ 0
  z : ∀ i < 4, com τ (P.z i) ≠ 0
  Z : ∀ i < 2, com τ (P.Z i) ≠ 0
  random : com τ P.random ≠ 0
  h : ∀ i < 3, com τ (h i) ≠ 0

/-- No degenerate value occurs when a proof with commitments `C` and evaluations `e` is verified under the challenges `c`: no
division by zero, and no point stored on the way is infinite or has a coordinate that is not below r. -/
structure Regular (c : Challenges) (C : Commitments) (e : Evals) : Prop where
  x_ne : c.x ≠ 0
  x_outside : ∀ i < n, c.x ≠ ω ^ i
  denom_ne : vanish (points c.x [2, -1]) c.u ≠ 0
  witness : Representable C.W'
  terms : GoodTerms (openingTerms c C e (quotientValue c e))

/-- The challenges for which the prover has no infinite commitment, and yet the verification of its proof meets a degenerate value
or fails. -/
def Prover.failures (Q : Prover) (τ : Fr) (K : VkPolys) (k : Fr) : Set Challenges :=
  {c | FiniteCommitments τ K k (Q.columns c.θ c.β c.γ) (Q.h c.θ c.β c.γ c.y) ∧ ∃ (I : G1) (p : ℕ → G1) (e : Evals),
    Q.Sends τ K k c (.ofProof I p) e ∧ ¬ (Regular c (.ofProof I p) e ∧
      Halo2.opening c (.ofProof I p) e (quotientValue c e) = τ • (Commitments.ofProof I p).W')}

/-! ### The words of a proof -/

/-- The words of points. -/
def ptWords (l : List G1) : List ℕ := l.flatMap fun P => [(enc P).1.val, (enc P).2.val]

/-- The evaluations of a proof in the order in which they are sent. -/
def evalList (e : Evals) : List Fr :=
  [e.inst, e.a0, e.a1, e.a2, e.a3, e.a4, e.a4ω, e.a5, e.a6, e.a7, e.a7ω, e.a6ω, e.a7ωω, e.a6ωω] ++
  (List.range 13).map e.f ++ [e.random] ++ (List.range 7).map e.σ ++
  [e.z 0, e.zω 0, e.zlast 0, e.z 1, e.zω 1, e.zlast 1, e.z 2, e.zω 2, e.zlast 2, e.z 3, e.zω 3] ++
  [e.lookup0.Z, e.lookup0.Zω, e.lookup0.A, e.lookup0.Aprev, e.lookup0.S] ++
  [e.lookup1.Z, e.lookup1.Zω, e.lookup1.A, e.lookup1.Aprev, e.lookup1.S]

/-- What the prover sends when it has drawn `j` challenges, the first `j` of `c`: at first the instance commitment and the advice
columns, at last the second opening proof. Between γ and β, and between v and y', it sends nothing. -/
noncomputable def Prover.message (Q : Prover) (τ : Fr) (K : VkPolys) (k : Fr) (c : Challenges) : (j : ℕ) → List ℕ
  | 0 => ptWords (instCommitment k :: (List.range 8).map fun i => com τ (Q.a i))
  | 1 => ptWords [com τ (Q.permA c.θ 0), com τ (Q.permS c.θ 0), com τ (Q.permA c.θ 1), com τ (Q.permS c.θ 1)]
  | 2 => []
  | 3 => ptWords [com τ (Q.z c.θ c.β c.γ 0), com τ (Q.z c.θ c.β c.γ 1), com τ (Q.z c.θ c.β c.γ 2), com τ (Q.z c.θ c.β c.γ 3),
    com τ (Q.Z c.θ c.β c.γ 0), com τ (Q.Z c.θ c.β c.γ 1), com τ (Q.random c.θ c.β c.γ)]
  | 4 => ptWords ((List.range 3).map fun i => com τ (Q.h c.θ c.β c.γ c.y i))
  | 5 => (evalList (trueEvals K k (Q.columns c.θ c.β c.γ) c.x)).map ZMod.val
  | 6 => []
  | 7 => ptWords [com τ (Q.q c.θ c.β c.γ c.y c.x c.y' c.v)]
  | _ => ptWords [com τ (Q.w c)]

/-- What the prover sends when it has drawn the challenges with digests `ds`. -/
noncomputable def Prover.block (Q : Prover) (τ : Fr) (K : VkPolys) (k : Fr) (ds : List ℕ) : List ℕ :=
  Q.message τ K k (.ofDigests ds) ds.length

/-- The message the prover then hashes to draw the next challenge. -/
noncomputable def Prover.question (Q : Prover) (τ : Fr) (K : VkPolys) (k : Fr) (ds : List ℕ) : List UInt8 :=
  fsMessage (ds.getLastD fsSeed) (Q.block τ K k ds)

/-- The first digests of the prover's run with transcript hash `sha`. -/
noncomputable def Prover.digests (Q : Prover) (τ : Fr) (K : VkPolys) (k : Fr) (sha : List UInt8 → List UInt8) : ℕ → List ℕ
  | 0 => []
  | i + 1 => Q.digests τ K k sha i ++ [beNat (sha (Q.question τ K k (Q.digests τ K k sha i)))]

/-- The proof the prover writes down, when the transcript hash is `sha`: all it sends, without the instance commitment. -/
noncomputable def Prover.proof (Q : Prover) (τ : Fr) (K : VkPolys) (k : Fr) (sha : List UInt8 → List UInt8) : List ℕ :=
  ((List.range 9).flatMap fun i => Q.block τ K k (Q.digests τ K k sha i)).drop 2

end Halo2
end Verif
