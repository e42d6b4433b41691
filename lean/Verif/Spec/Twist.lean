/-
The group of the twist of BN254, y² = x³ + 3/(9+u) over Fp2, as Mathlib's group of points. Specification only.
-/
import Verif.Model.Pairing
import Mathlib.NumberTheory.LegendreSymbol.Basic
import Mathlib.Algebra.QuadraticAlgebra.Basic
import Mathlib.AlgebraicGeometry.EllipticCurve.Affine.Point

namespace Verif

/-- -1 is not a square modulo p. -/
instance : Fact (∀ x : Fp, x ^ 2 ≠ -1 + 0 * x) := ⟨fun x h => by
  have h1 : x ^ 2 = -1 := by linear_combination h
  have h2 : ¬ IsSquare (-1 : Fp) := by
    rw [ZMod.exists_sq_eq_neg_one_iff]
    decide +kernel
  exact h2 ⟨x, by rw [← h1]; ring⟩⟩

/-- Fp2 = Fp(u), u² = -1, as a field. -/
abbrev Fp2F := QuadraticAlgebra Fp (-1) 0

/-- The pair (a0, a1) as a0 + a1·u. -/
def toF (a : Fp2) : Fp2F := ⟨a.1, a.2⟩

/-- The twist. -/
def twist : WeierstrassCurve.Affine Fp2F := ⟨0, 0, 0, 0, toF twistB⟩

/-- `P` is the point with coordinates `A`. -/
def IsTwistPoint (A : Aff2) (P : twist.Point) : Prop := ∃ x y h, P = .some x y h ∧ x = toF A.1 ∧ y = toF A.2

end Verif
