/-
Weil reciprocity for lines on y² = x³ + 3, and what it says about the optimal ate pairing of Spec/Ate.lean: for a fixed
second argument the Miller values of collinear points multiply to 1 under the final exponentiation. Models nothing of /repo.
-/
import Verif.Math.Fp12Field
import Verif.Math.TwistN

namespace Verif
open Ate

/-! ### Lines -/

/-- The line y = a x + b meets the curve y² = x³ + 3 in the points with abscissas x1, x2, x3. -/
structure Tri {K : Type*} [CommRing K] (a b x1 x2 x3 : K) : Prop where
  e1 : x1 + x2 + x3 = a ^ 2
  e2 : x1 * x2 + x1 * x3 + x2 * x3 = -2 * a * b
  e3 : x1 * x2 * x3 = b ^ 2 - 3

theorem Tri.map {K L : Type*} [CommRing K] [CommRing L] (f : K →+* L) {a b x1 x2 x3 : K} (h : Tri a b x1 x2 x3) :
    Tri (f a) (f b) (f x1) (f x2) (f x3) where
  e1 := by simpa [map_ofNat] using congrArg f h.e1
  e2 := by simpa [map_ofNat] using congrArg f h.e2
  e3 := by simpa [map_ofNat] using congrArg f h.e3

theorem Tri.chord {K : Type*} [Field K] {a x1 y1 x2 y2 : K} (h1 : y1 ^ 2 = x1 ^ 3 + 3) (h2 : y2 ^ 2 = x2 ^ 3 + 3)
    (hx : x1 ≠ x2) (ha : a * (x2 - x1) = y2 - y1) : Tri a (y1 - a * x1) x1 x2 (a ^ 2 - x1 - x2) := by
  have hx' : x1 - x2 ≠ 0 := sub_ne_zero.2 hx
  have e2 : x1 * x2 + x1 * (a ^ 2 - x1 - x2) + x2 * (a ^ 2 - x1 - x2) = -2 * a * (y1 - a * x1) := by
    refine mul_left_cancel₀ hx' ?_
    linear_combination h1 - h2 - (y2 + y1 + a * (x2 - x1)) * ha
  refine ⟨by ring, e2, ?_⟩
  linear_combination x1 * e2 - h1

theorem Tri.tangent {K : Type*} [CommRing K] {a x y : K} (h : y ^ 2 = x ^ 3 + 3) (ha : 2 * y * a = 3 * x ^ 2) :
    Tri a (y - a * x) x x (a ^ 2 - x - x) where
  e1 := by ring
  e2 := by linear_combination ha
  e3 := by linear_combination x * ha - h

/-- Weil reciprocity for two lines. -/
theorem Tri.recip {K : Type*} [CommRing K] {a b x1 x2 x3 L M X1 X2 X3 : K} (h : Tri a b x1 x2 x3) (H : Tri L M X1 X2 X3) :
    (a * x1 + b - L * x1 - M) * (a * x2 + b - L * x2 - M) * (a * x3 + b - L * x3 - M) =
    -((L * X1 + M - a * X1 - b) * (L * X2 + M - a * X2 - b) * (L * X3 + M - a * X3 - b)) := by
  linear_combination (a - L) ^ 3 * h.e3 + (a - L) ^ 2 * (b - M) * h.e2 + (a - L) * (b - M) ^ 2 * h.e1 -
    (a - L) ^ 3 * H.e3 - (a - L) ^ 2 * (b - M) * H.e2 - (a - L) * (b - M) ^ 2 * H.e1

/-- Weil reciprocity for a line and a vertical line. -/
theorem Tri.recip_vertical {K : Type*} [CommRing K] {x y L M X1 X2 X3 : K} (h : y ^ 2 = x ^ 3 + 3) (H : Tri L M X1 X2 X3) :
    (y - L * x - M) * (-y - L * x - M) = (X1 - x) * (X2 - x) * (X3 - x) := by
  linear_combination -h - H.e3 + x * H.e2 - x ^ 2 * H.e1

/-! ### Fp2 in Fp12 -/

theorem emb2_conj_mul (a : Fp2) : emb2 a * emb2 (conj2 a) = emb (a.1 ^ 2 + a.2 ^ 2) := by
  simp only [emb2, conj2, emb, map_neg, map_add, map_pow]
  linear_combination (-(algebraMap Fp Fp12 a.2) ^ 2) * u_sq

theorem norm2_ne {a : Fp2} (h : a ≠ (0, 0)) : a.1 ^ 2 + a.2 ^ 2 ≠ 0 := by
  intro h0
  have h1 : toF a ≠ 0 := fun h1 => h (toF_injective h1)
  have h2 : toF a * toF (conj2 a) = 0 := by
    ext
    · simp [toF, conj2]; linear_combination h0
    · simp [toF, conj2]; ring
  rcases mul_eq_zero.1 h2 with h3 | h3
  · exact h1 h3
  · have h4 : conj2 a = (0, 0) := toF_injective h3
    simp only [conj2, Prod.mk.injEq, neg_eq_zero] at h4
    exact h (Prod.ext h4.1 h4.2)

theorem emb_injective : Function.Injective emb := (algebraMap Fp Fp12).injective

theorem emb2_ne {a : Fp2} (h : a ≠ (0, 0)) : emb2 a ≠ 0 := by
  intro h0
  have h1 := emb2_conj_mul a
  rw [h0, zero_mul] at h1
  refine norm2_ne h (emb_injective ?_)
  rw [← h1, emb, map_zero]

theorem emb2_inj {a b : Fp2} (h : emb2 a = emb2 b) : a = b := by
  by_contra hab
  have h1 : sub2 a b ≠ (0, 0) := by
    intro h0
    rw [sub2, Prod.mk.injEq, sub_eq_zero, sub_eq_zero] at h0
    exact hab (Prod.ext h0.1 h0.2)
  exact emb2_ne h1 (by rw [emb2_sub, h, sub_self])

theorem emb2_inv {a : Fp2} (h : a ≠ (0, 0)) : emb2 (inv2 a) * emb2 a = 1 := by
  rw [inv2, emb2_scale, mul_assoc, mul_comm (emb2 (conj2 a)), emb2_conj_mul, emb, emb, ← map_mul, inv_mul_cancel₀ (norm2_ne h), map_one]

theorem emb_pow_p (a : Fp) : emb a ^ pMod = emb a := by rw [emb, ← map_pow, ZMod.pow_card]

theorem emb2_conj (a : Fp2) : emb2 (conj2 a) = emb2 a ^ pMod := by
  have hp : Fact pMod.Prime := inferInstance
  rw [emb2, emb2, add_pow_char, mul_pow, u_pow_p, emb_pow_p, emb_pow_p, conj2]
  simp only [emb, map_neg]
  ring

theorem emb2_pow_p2 (a : Fp2) : emb2 a ^ (pMod ^ 2) = emb2 a := by
  rw [pow_two, pow_mul, ← emb2_conj, ← emb2_conj]
  simp [conj2]

theorem w_ne : w ≠ 0 := by
  intro h
  have := w6_unit
  rw [h, zero_pow (by norm_num)] at this
  exact not_isUnit_zero this

/-! ### Points of the twist on the curve over Fp12 -/

/-- The abscissa on the curve of a point of the twist. -/
noncomputable def px (A : Aff2) : Fp12 := emb2 A.1 * w ^ 2
/-- The ordinate. -/
noncomputable def py (A : Aff2) : Fp12 := emb2 A.2 * w ^ 3

/-- The point is on the curve and its abscissa is not 0. -/
structure OkPt (A : Aff2) : Prop where
  on : py A ^ 2 = px A ^ 3 + 3
  ne : A.1 ≠ (0, 0)

theorem line_eq (l : Fp2) (A : Aff2) (P : Aff) :
    line l A P = emb P.2 - emb2 l * w * emb P.1 - (py A - emb2 l * w * px A) := by
  simp only [line, px, py]
  ring

theorem third_px (l : Fp2) (A B : Aff2) : px (third l A B) = (emb2 l * w) ^ 2 - px A - px B := by
  simp only [third, px, emb2_sub, emb2_mul]
  ring

theorem third_py (l : Fp2) (A B : Aff2) : py (third l A B) = -(emb2 l * w * px (third l A B) + (py A - emb2 l * w * px A)) := by
  rw [third_px]
  simp only [third, px, py, emb2_sub, emb2_mul]
  ring

/-- The line of slope l through A and B, and the third point. -/
structure LineThrough (l : Fp2) (A B : Aff2) : Prop where
  tri : Tri (emb2 l * w) (py A - emb2 l * w * px A) (px A) (px B) (px (third l A B))
  onB : py B = emb2 l * w * px B + (py A - emb2 l * w * px A)

theorem LineThrough.third_on {l : Fp2} {A B : Aff2} (h : LineThrough l A B) (hne : (third l A B).1 ≠ (0, 0)) :
    OkPt (third l A B) := by
  refine ⟨?_, hne⟩
  rw [third_py]
  obtain ⟨e1, e2, e3⟩ := h.tri
  linear_combination (-e3) + px (third l A B) * e2 - px (third l A B) ^ 2 * e1

theorem emb_two : emb 2 = 2 := by rw [emb, map_ofNat]
theorem emb_three : emb 3 = 3 := by rw [emb, map_ofNat]

theorem tangent_line {A : Aff2} (h : OkPt A) (hy : A.2 ≠ (0, 0)) : LineThrough (tangent A) A A := by
  have h2 : scale2 2 A.2 ≠ (0, 0) := by
    intro h0
    simp only [scale2, Prod.mk.injEq, mul_eq_zero, fp_two_ne, false_or] at h0
    exact hy (Prod.ext h0.1 h0.2)
  have hl : 2 * py A * (emb2 (tangent A) * w) = 3 * px A ^ 2 := by
    have h3 := emb2_inv h2
    rw [emb2_scale, emb_two] at h3
    rw [tangent, emb2_mul, emb2_scale, emb2_mul, emb_three, px, py]
    linear_combination (3 * emb2 A.1 * emb2 A.1 * w ^ 4) * h3
  refine ⟨?_, by ring⟩
  rw [third_px]
  exact Tri.tangent h.on hl

theorem px_inj {A B : Aff2} (h : px A = px B) : A.1 = B.1 :=
  emb2_inj (mul_right_cancel₀ (pow_ne_zero 2 w_ne) h)

theorem chord_line {A B : Aff2} (hA : OkPt A) (hB : OkPt B) (hx : A.1 ≠ B.1) : LineThrough (chord A B) A B := by
  have h2 : sub2 B.1 A.1 ≠ (0, 0) := by
    intro h0
    simp only [sub2, Prod.mk.injEq, sub_eq_zero] at h0
    exact hx (Prod.ext h0.1 h0.2).symm
  have hl : emb2 (chord A B) * w * (px B - px A) = py B - py A := by
    have h3 := emb2_inv h2
    rw [emb2_sub] at h3
    rw [chord, emb2_mul, emb2_sub, px, px, py, py]
    linear_combination ((emb2 B.2 - emb2 A.2) * w ^ 3) * h3
  refine ⟨?_, by linear_combination -hl⟩
  rw [third_px]
  exact Tri.chord hA.on hB.on (fun h => hx (px_inj h)) hl

theorem frob_px (A : Aff2) : px (frob A) = px A ^ pMod := by
  have hp : w ^ (2 * pMod) = (w ^ 6) ^ ((pMod - 1) / 3) * w ^ 2 := by
    rw [← pow_mul, ← pow_add]
    exact congrArg (fun k : ℕ => w ^ k) (by decide +kernel)
  rw [px, px, frob, mul_pow, ← emb2_conj, ← pow_mul, hp, emb2_mul, emb2_pow, emb2_ξ]
  ring

theorem frob_py (A : Aff2) : py (frob A) = py A ^ pMod := by
  have hp : w ^ (3 * pMod) = (w ^ 6) ^ ((pMod - 1) / 2) * w ^ 3 := by
    rw [← pow_mul, ← pow_add]
    exact congrArg (fun k : ℕ => w ^ k) (by decide +kernel)
  rw [py, py, frob, mul_pow, ← emb2_conj, ← pow_mul, hp, emb2_mul, emb2_pow, emb2_ξ]
  ring

theorem neg_px (A : Aff2) : px (neg A) = px A := rfl
theorem neg_py (A : Aff2) : py (neg A) = -py A := by
  have : emb2 (0, 0) = 0 := by simp [emb2, emb]
  rw [py, py, neg, emb2_sub, this]
  ring

theorem OkPt.frob {A : Aff2} (h : OkPt A) : OkPt (frob A) := by
  have hp : Fact pMod.Prime := inferInstance
  refine ⟨?_, fun h0 => ?_⟩
  · rw [frob_px, frob_py, ← pow_mul, mul_comm, pow_mul, h.on, add_pow_char, ← pow_mul, mul_comm, pow_mul, ← emb_three, emb_pow_p]
  · have h1 := frob_px A
    have h2 : px A ≠ 0 := mul_ne_zero (emb2_ne h.ne) (pow_ne_zero 2 w_ne)
    rw [px, h0] at h1
    have h3 : emb2 (0, 0) = 0 := by simp [emb2, emb]
    rw [h3, zero_mul] at h1
    exact pow_ne_zero _ h2 h1.symm

theorem OkPt.neg {A : Aff2} (h : OkPt A) : OkPt (neg A) :=
  ⟨by rw [neg_px, neg_py, neg_sq, h.on], h.ne⟩

theorem px_pow_p2 (A : Aff2) : px A ^ (pMod ^ 2) = emb ((zetaN : Fp) ^ 2) * px A := by
  rw [px, mul_pow, emb2_pow_p2, ← pow_mul, mul_comm 2, pow_mul, w_pow_p2, mul_pow, emb, map_pow, map_natCast]
  ring

theorem px_pow_p6 (A : Aff2) : px A ^ (pMod ^ 6) = px A := by
  have e : pMod ^ 6 = pMod ^ 2 * pMod ^ 2 * pMod ^ 2 := by ring
  have hz : emb ((zetaN : Fp) ^ 2) * emb ((zetaN : Fp) ^ 2) * emb ((zetaN : Fp) ^ 2) = 1 := by
    rw [emb, ← map_mul, ← map_mul, ← pow_add, ← pow_add, zeta_pow6, map_one]
  have hk : ∀ a : Fp, emb a ^ (pMod ^ 2) = emb a := fun a => by rw [emb, ← map_pow, ZMod.pow_card_pow]
  rw [e, pow_mul, pow_mul, px_pow_p2, mul_pow, px_pow_p2, mul_pow, mul_pow, px_pow_p2]
  simp only [hk]
  linear_combination px A * hz

theorem px_ne_emb {A : Aff2} (h : A.1 ≠ (0, 0)) (x : Fp) : px A ≠ emb x := by
  intro h0
  have h1 := px_pow_p2 A
  have hk : emb x ^ (pMod ^ 2) = emb x := by rw [emb, ← map_pow, ZMod.pow_card_pow]
  have h2 : px A ≠ 0 := mul_ne_zero (emb2_ne h) (pow_ne_zero 2 w_ne)
  rw [h0, hk] at h1
  rw [h0] at h2
  have h3 : emb ((zetaN : Fp) ^ 2) = 1 := by
    refine mul_right_cancel₀ h2 ?_
    rw [one_mul, ← h1]
  have h4 : (zetaN : Fp) ^ 2 = 1 := emb_injective (by rw [h3, emb, map_one])
  exact zeta_pow_ne (by norm_num) (by norm_num) h4

end Verif
