/-
Provers that need not follow the protocol, against a verifier that draws its challenges at random. Models nothing of /repo.
-/
import Verif.Spec.Knowledge
import Verif.Spec.Verifier

namespace Verif
namespace Halo2
open Polynomial

/-- An arbitrary strategy of a prover: every message is any function of the challenges drawn before it. -/
structure Strategy where
  /-- the instance value -/
  k : Fr
  /-- advice columns -/
  a : ℕ → Fr[X]
  /-- permuted inputs and permuted tables, after θ -/
  permA : (θ : Fr) → ℕ → Fr[X]
  permS : (θ : Fr) → ℕ → Fr[X]
  /-- running products and the random polynomial, after β and γ -/
  z : (θ β γ : Fr) → ℕ → Fr[X]
  Z : (θ β γ : Fr) → ℕ → Fr[X]
  random : (θ β γ : Fr) → Fr[X]
  /-- quotient pieces, after y -/
  h : (θ β γ y : Fr) → ℕ → Fr[X]
  /-- claimed evaluations, after x: they need not be the true ones -/
  e : (θ β γ y x : Fr) → Evals
  /-- the first opening proof, after y' and v -/
  q : (θ β γ y x y' v : Fr) → Fr[X]
  /-- the second opening proof, after u -/
  w : Challenges → Fr[X]

/-- All columns, once γ is known. -/
def Strategy.columns (S : Strategy) (θ β γ : Fr) : Columns := ⟨S.a, S.permA θ, S.permS θ, S.z θ β γ, S.Z θ β γ, S.random θ β γ⟩

/-- All polynomials the prover commits to have degree at most `d`. -/
structure Strategy.Bounded (S : Strategy) (d : ℕ) : Prop where
  columns : ∀ θ β γ, (S.columns θ β γ).Bounded d
  h : ∀ θ β γ y i, (S.h θ β γ y i).natDegree ≤ d
  q : ∀ θ β γ y x y' v, (S.q θ β γ y x y' v).natDegree ≤ d
  w : ∀ c, (S.w c).natDegree ≤ d

/-- With challenges `c`, the commitments to the prover's polynomials and its claimed evaluations pass the verifier's
equations, for some Lagrange values and the quotient value `hv` that the prover may choose at the very end. -/
def Strategy.Passes (S : Strategy) (τ : Fr) (K : VkPolys) (c : Challenges) (hv : Fr) : Prop :=
  ∃ (C : Commitments) (L : LagrangeVals),
    Opens τ K S.k (S.columns c.θ c.β c.γ) (S.h c.θ c.β c.γ c.y) (S.q c.θ c.β c.γ c.y c.x c.y' c.v) (S.w c) C ∧
    LagrangeRelations c.x L ∧ QuotientIdentity c L (S.e c.θ c.β c.γ c.y c.x) hv ∧
    opening c C (S.e c.θ c.β c.γ c.y c.x) hv = τ • C.W'

/-- The polynomial of the opening equation for the prover's messages. -/
noncomputable def Strategy.openingPoly (S : Strategy) (K : VkPolys) (c : Challenges) (hv : Fr) : Fr[X] :=
  Halo2.openingPoly c K S.k (S.columns c.θ c.β c.γ) (S.h c.θ c.β c.γ c.y) (S.q c.θ c.β c.γ c.y c.x c.y' c.v) (S.w c)
    (S.e c.θ c.β c.γ c.y c.x) hv

end Halo2
end Verif
