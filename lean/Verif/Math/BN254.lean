/-
BN254: the two prime fields, the curve E : y² = x³ + 3 over Fp and its group (Mathlib's group law), the
encoding of points as coordinate pairs with (0,0) for the point at infinity, and #E(Fp) = r.
Specification-level mathematics; the constants are those of /repo/aggregator_lib_circuit.go:24-26.
-/
import Verif.Math.Primes
import Mathlib.AlgebraicGeometry.EllipticCurve.Affine.Point
import Mathlib.GroupTheory.Perm.Cycle.Type
import Mathlib.Algebra.Module.ZMod
import Mathlib.FieldTheory.Finite.Basic
import Mathlib.Tactic.LinearCombination

namespace Verif

/-- Base-field modulus, /repo/aggregator_lib_circuit.go:24. -/
def pMod : ℕ := 21888242871839275222246405745257275088696311157297823662689037894645226208583
/-- Scalar-field modulus, /repo/aggregator_lib_circuit.go:25 (and MODULUS, line 26). -/
def rMod : ℕ := 21888242871839275222246405745257275088548364400416034343698204186575808495617

instance pMod_prime : Fact (Nat.Prime pMod) := ⟨prime_pMod_lit⟩
instance rMod_prime : Fact (Nat.Prime rMod) := ⟨prime_rMod_lit⟩

/-- Base field. -/
abbrev Fp := ZMod pMod
/-- Scalar field (also the native field of every circuit of the repo). -/
abbrev Fr := ZMod rMod

theorem rMod_lt_pMod : rMod < pMod := by decide +kernel
theorem pMod_lt : pMod < 2 ^ 254 := by decide +kernel
theorem rMod_lt : rMod < 2 ^ 254 := rMod_lt_pMod.trans pMod_lt
theorem rMod_pos : 0 < rMod := by decide +kernel
theorem pMod_pos : 0 < pMod := by decide +kernel

/-- The curve y² = x³ + 3. -/
def curve : WeierstrassCurve.Affine Fp := ⟨0, 0, 0, 0, 3⟩

/-- The group of points of BN254 G1 (all Fp-points, with the point at infinity). -/
abbrev G1 := curve.Point

/-- Affine on-curve predicate. -/
def OnCurve (x y : Fp) : Prop := y ^ 2 = x ^ 3 + 3

instance (x y : Fp) : Decidable (OnCurve x y) := inferInstanceAs (Decidable (_ = _))

theorem fp_natCast_ne_zero {n : ℕ} (h : n % pMod ≠ 0) : (n : Fp) ≠ 0 := by
  intro h0
  rw [ZMod.natCast_eq_zero_iff] at h0
  exact h (Nat.mod_eq_zero_of_dvd h0)

theorem fp_two_ne : (2 : Fp) ≠ 0 := by
  exact_mod_cast fp_natCast_ne_zero (n := 2) (by decide +kernel)
theorem fp_three_ne : (3 : Fp) ≠ 0 := by
  exact_mod_cast fp_natCast_ne_zero (n := 3) (by decide +kernel)

theorem equation_iff (x y : Fp) : curve.Equation x y ↔ OnCurve x y := by
  rw [WeierstrassCurve.Affine.equation_iff]
  simp [curve, OnCurve]

theorem not_sq_three (y : Fp) : y ^ 2 ≠ 3 := by
  intro h
  have hy : y ≠ 0 := by
    rintro rfl
    exact fp_three_ne (by rw [← h]; ring)
  have h1 : y ^ (pMod - 1) = 1 := ZMod.pow_card_sub_one_eq_one hy
  have h2 : pMod - 1 = 2 * ((pMod - 1) / 2) := by decide +kernel
  rw [h2, pow_mul, h] at h1
  have h3 := powMod_cast pMod 3 ((pMod - 1) / 2) (by decide +kernel)
  rw [show ((3 : ℕ) : ZMod pMod) = 3 by norm_cast, h1] at h3
  have h4 := (ZMod.natCast_eq_natCast_iff' (powMod pMod 3 ((pMod - 1) / 2)) 1 pMod).1 (h3.trans Nat.cast_one.symm)
  exact absurd h4 (by decide +kernel)

theorem not_cube_neg_three (x : Fp) : x ^ 3 ≠ -3 := by
  intro h
  have hx : x ≠ 0 := by
    rintro rfl
    apply fp_three_ne
    linear_combination h
  have h1 : x ^ (pMod - 1) = 1 := ZMod.pow_card_sub_one_eq_one hx
  have h2 : pMod - 1 = 3 * ((pMod - 1) / 3) := by decide +kernel
  rw [h2, pow_mul, h] at h1
  have h3 := powMod_cast pMod (pMod - 3) ((pMod - 1) / 3) (by decide +kernel)
  rw [show ((pMod - 3 : ℕ) : ZMod pMod) = -3 by
    rw [Nat.cast_sub (by decide +kernel)]; simp, h1] at h3
  have h4 := (ZMod.natCast_eq_natCast_iff' (powMod pMod (pMod - 3) ((pMod - 1) / 3)) 1 pMod).1
    (h3.trans Nat.cast_one.symm)
  exact absurd h4 (by decide +kernel)

theorem OnCurve.x_ne {x y : Fp} (h : OnCurve x y) : x ≠ 0 := by
  rintro rfl
  exact not_sq_three y (by rw [h]; ring)

theorem OnCurve.y_ne {x y : Fp} (h : OnCurve x y) : y ≠ 0 := by
  rintro rfl
  refine not_cube_neg_three x ?_
  unfold OnCurve at h
  linear_combination -h

theorem not_onCurve_zero : ¬ OnCurve 0 0 := fun h => h.x_ne rfl

theorem nonsingular_iff (x y : Fp) : curve.Nonsingular x y ↔ OnCurve x y := by
  rw [WeierstrassCurve.Affine.nonsingular_iff, equation_iff]
  refine ⟨fun h => h.1, fun h => ⟨h, Or.inr ?_⟩⟩
  simp only [curve]
  intro h2
  have : (2 : Fp) * y = 0 := by linear_combination h2
  rcases mul_eq_zero.1 this with h3 | h3
  · exact fp_two_ne h3
  · exact h.y_ne h3

/-- The point with given on-curve coordinates. -/
def mkPt (x y : Fp) (h : OnCurve x y) : G1 := .some x y ((nonsingular_iff x y).2 h)

/-- Coordinates of a point; the point at infinity is encoded as (0,0)
(gnark, gnark-crypto and EVM convention). -/
def enc : G1 → Fp × Fp
  | .zero => (0, 0)
  | .some x y _ => (x, y)

/-- A pair is a valid encoding: it is on the curve or it is (0,0). -/
def ValidEnc (c : Fp × Fp) : Prop := OnCurve c.1 c.2 ∨ c = (0, 0)

instance (c : Fp × Fp) : Decidable (ValidEnc c) := inferInstanceAs (Decidable (_ ∨ _))

@[simp] theorem enc_zero : enc 0 = (0, 0) := rfl
@[simp] theorem enc_mkPt (x y : Fp) (h : OnCurve x y) : enc (mkPt x y h) = (x, y) := rfl

theorem mkPt_ne_zero (x y : Fp) (h : OnCurve x y) : mkPt x y h ≠ 0 :=
  WeierstrassCurve.Affine.Point.some_ne_zero _

theorem exists_of_ne_zero {P : G1} (h : P ≠ 0) : ∃ x y, ∃ h' : OnCurve x y, P = mkPt x y h' := by
  cases P with
  | zero => exact absurd rfl h
  | some x y hn => exact ⟨x, y, (nonsingular_iff x y).1 hn, rfl⟩

theorem G1.cases (P : G1) : P = 0 ∨ ∃ x y, ∃ h' : OnCurve x y, P = mkPt x y h' := by
  by_cases h : P = 0
  · exact .inl h
  · exact .inr (exists_of_ne_zero h)

theorem enc_injective : Function.Injective enc := by
  intro P Q h
  rcases G1.cases P with rfl | ⟨x, y, hxy, rfl⟩ <;> rcases G1.cases Q with rfl | ⟨x', y', hxy', rfl⟩
  · rfl
  · simp only [enc_zero, enc_mkPt, Prod.mk.injEq] at h
    exact absurd h.1.symm hxy'.x_ne
  · simp only [enc_zero, enc_mkPt, Prod.mk.injEq] at h
    exact absurd h.1 hxy.x_ne
  · simp only [enc_mkPt, Prod.mk.injEq] at h
    obtain ⟨rfl, rfl⟩ := h
    rfl

theorem validEnc_enc (P : G1) : ValidEnc (enc P) := by
  rcases G1.cases P with rfl | ⟨x, y, hxy, rfl⟩
  · exact .inr rfl
  · exact .inl hxy

theorem validEnc_iff (c : Fp × Fp) : ValidEnc c ↔ ∃ P : G1, enc P = c := by
  constructor
  · rintro (h | h)
    · exact ⟨mkPt _ _ h, rfl⟩
    · exact ⟨0, h.symm⟩
  · rintro ⟨P, rfl⟩
    exact validEnc_enc P

/-- The point of a valid encoding (0 on invalid pairs; only used on valid ones). -/
def dec (c : Fp × Fp) : G1 := if h : OnCurve c.1 c.2 then mkPt c.1 c.2 h else 0

theorem dec_enc (P : G1) : dec (enc P) = P := by
  rcases G1.cases P with rfl | ⟨x, y, hxy, rfl⟩
  · simp [dec, not_onCurve_zero]
  · simp [dec, hxy]

theorem enc_dec {c : Fp × Fp} (h : ValidEnc c) : enc (dec c) = c := by
  obtain ⟨P, rfl⟩ := (validEnc_iff c).1 h
  rw [dec_enc]

/-- The generator (1, 2). -/
def G1gen : G1 := mkPt 1 2 (by unfold OnCurve; norm_num)

end Verif
