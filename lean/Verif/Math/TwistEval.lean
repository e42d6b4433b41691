/-
Functions on the twist of BN254 (Mathlib's coordinate ring), their values at a point of y² = x³ + 3 over Fp, and the ideals of points.
Models nothing of /repo.
-/
import Verif.Math.AteLinear

namespace Verif
open Ate Polynomial WeierstrassCurve.Affine
open scoped Polynomial.Bivariate

/-! ### Fp2 as a subfield of Fp12 -/

/-- The embedding of Fp2 in Fp12 as a ring homomorphism. -/
noncomputable def embF : Fp2F →+* Fp12 where
  toFun z := emb2 (z.re, z.im)
  map_one' := by
    have h : ((1 : Fp2F).re, (1 : Fp2F).im) = ((1, 0) : Fp2) := rfl
    rw [h]
    simp [emb2, emb]
  map_zero' := by simp [emb2, emb]
  map_add' a b := by simp only [emb2, emb, QuadraticAlgebra.re_add, QuadraticAlgebra.im_add, map_add]; ring
  map_mul' a b := by
    rw [← emb2_mul]
    refine congrArg emb2 (Prod.ext ?_ ?_)
    · simp [Fp2.mul]; ring
    · simp [Fp2.mul]

theorem embF_toF (a : Fp2) : embF (toF a) = emb2 a := rfl

theorem toF_surj (z : Fp2F) : ∃ a, toF a = z := ⟨(z.re, z.im), rfl⟩

theorem embF_injective : Function.Injective embF := embF.injective

instance : CharP Fp2F pMod := (CharP.of_ringHom_of_ne_zero (algebraMap Fp Fp2F) pMod (by decide +kernel))

theorem toF_conj (a : Fp2) : toF (conj2 a) = toF a ^ pMod :=
  embF_injective (by rw [map_pow, embF_toF, embF_toF, emb2_conj])

theorem toF_pow (a : Fp2) : ∀ k, toF (pow2 a k) = toF a ^ k
  | 0 => by rw [pow2, pow_zero]; rfl
  | k + 1 => by rw [pow2, toF_mul, toF_pow a k, pow_succ]

theorem twistB_ξ : toF twistB * toF ξ = 3 := by
  have : Fp2.mul twistB ξ = (3, 0) := by decide +kernel
  rw [← toF_mul, this]
  rfl

theorem ξ_ne : toF ξ ≠ 0 := fun h => by
  have h1 := congrArg QuadraticAlgebra.im h
  exact one_ne_zero (α := Fp) h1

/-! ### Values -/

/-- The functions on the twist. -/
abbrev TwR := twist.CoordinateRing

theorem twist_root {A : Type*} [CommRing A] (g : Fp2F[X] →+* A) (y : A) (h : y ^ 2 = g X ^ 3 + g (C (toF twistB))) :
    twist.polynomial.eval₂ g y = 0 := by
  simp only [WeierstrassCurve.Affine.polynomial, twist, map_zero, zero_mul, add_zero, eval₂_sub, eval₂_add, eval₂_pow,
    eval₂_X, eval₂_C, map_add, map_pow]
  rw [h]
  ring

/-- The homomorphism on functions given by the images of the constants, of x and of y. -/
noncomputable def twHom {A : Type*} [CommRing A] (c : Fp2F →+* A) (x y : A) (h : y ^ 2 = x ^ 3 + c (toF twistB)) : TwR →+* A :=
  AdjoinRoot.lift (Polynomial.eval₂RingHom c x) y (twist_root _ y (by simpa using h))

section
variable {A : Type*} [CommRing A] {c : Fp2F →+* A} {x y : A} {h : y ^ 2 = x ^ 3 + c (toF twistB)}

theorem twHom_C (z : Fp2F) : twHom c x y h (CoordinateRing.mk twist (C (C z))) = c z := by
  unfold twHom
  erw [AdjoinRoot.lift_mk]
  simp
theorem twHom_X : twHom c x y h (CoordinateRing.mk twist (C X)) = x := by
  unfold twHom
  erw [AdjoinRoot.lift_mk]
  simp
theorem twHom_Y : twHom c x y h (CoordinateRing.mk twist Y) = y := by
  unfold twHom
  erw [AdjoinRoot.lift_mk]
  simp
end

theorem twR_ext {A : Type*} [CommRing A] {f g : TwR →+* A} (hc : ∀ z, f (CoordinateRing.mk twist (C (C z))) = g (CoordinateRing.mk twist (C (C z))))
    (hx : f (CoordinateRing.mk twist (C X)) = g (CoordinateRing.mk twist (C X))) (hy : f (CoordinateRing.mk twist Y) = g (CoordinateRing.mk twist Y)) : f = g := by
  refine Ideal.Quotient.ringHom_ext ?_
  refine Polynomial.ringHom_ext (fun a => ?_) hy
  have : ((f.comp (CoordinateRing.mk twist)).comp (C : Fp2F[X] →+* Fp2F[X][Y])) = ((g.comp (CoordinateRing.mk twist)).comp C) :=
    Polynomial.ringHom_ext hc hx
  exact congrArg (fun k : Fp2F[X] →+* A => k a) this

/-- The constant functions. -/
noncomputable def twConst : Fp2F →+* TwR := (CoordinateRing.mk twist).comp ((C : Fp2F[X] →+* Fp2F[X][Y]).comp C)

theorem twConst_eq (z : Fp2F) : CoordinateRing.mk twist (C (C z)) = twConst z := rfl

/-- The function x. -/
noncomputable def twX : TwR := CoordinateRing.mk twist (C X)
/-- The function y. -/
noncomputable def twY : TwR := CoordinateRing.mk twist Y

theorem tw_eq : twY ^ 2 = twX ^ 3 + twConst (toF twistB) := by
  have h := AdjoinRoot.mk_self (f := twist.polynomial)
  have e : twist.polynomial = Y ^ 2 - (C X ^ 3 + C (C (toF twistB))) := by
    simp only [WeierstrassCurve.Affine.polynomial, twist, map_zero, zero_mul, add_zero, map_add, map_pow]
  have h' : CoordinateRing.mk twist (Y ^ 2 - (C X ^ 3 + C (C (toF twistB)))) = 0 := by rw [← e]; exact h
  rw [map_sub, map_add, map_pow, map_pow, sub_eq_zero] at h'
  exact h'

theorem XClass_eq (a : Fp2F) : CoordinateRing.XClass twist a = twX - twConst a := by
  rw [CoordinateRing.XClass, C_sub, map_sub]
  rfl

theorem YClass_eq (a : Fp2F) : CoordinateRing.YClass twist (C a) = twY - twConst a := by
  rw [CoordinateRing.YClass, map_sub]
  rfl

section
variable {x y : Fp}

theorem ev_eq (h : OnCurve x y) : (emb y / w ^ 3) ^ 2 = (emb x / w ^ 2) ^ 3 + embF (toF twistB) := by
  have h1 : emb y ^ 2 = emb x ^ 3 + 3 := by
    rw [OnCurve] at h
    rw [emb, emb, ← map_pow, h, map_add, map_pow, map_ofNat]
  have hb : embF (toF twistB) * w ^ 6 = 3 := by
    rw [← emb2_ξ, ← embF_toF, ← map_mul, twistB_ξ, map_ofNat]
  have hw : w ^ 6 ≠ 0 := pow_ne_zero 6 w_ne
  rw [div_pow, div_pow, ← pow_mul, ← pow_mul]
  refine mul_right_cancel₀ hw ?_
  rw [add_mul, hb, div_mul_cancel₀ _ hw, div_mul_cancel₀ _ hw, h1]

/-- The value of a function on the twist at the image of the point (x, y) of the curve. -/
noncomputable def twEv (h : OnCurve x y) : TwR →+* Fp12 := twHom embF (emb x / w ^ 2) (emb y / w ^ 3) (ev_eq h)

theorem twEv_const (h : OnCurve x y) (z : Fp2F) : twEv h (twConst z) = embF z := twHom_C z
theorem twEv_X (h : OnCurve x y) : twEv h twX = emb x / w ^ 2 := twHom_X
theorem twEv_Y (h : OnCurve x y) : twEv h twY = emb y / w ^ 3 := twHom_Y

/-! ### Frobenius -/

/-- The factors of the Frobenius map on the twist. -/
noncomputable def frobX : Fp2F := (toF ξ ^ ((pMod - 1) / 3))⁻¹
noncomputable def frobY : Fp2F := (toF ξ ^ ((pMod - 1) / 2))⁻¹

theorem frobX_ne : frobX ≠ 0 := inv_ne_zero (pow_ne_zero _ ξ_ne)
theorem frobY_ne : frobY ≠ 0 := inv_ne_zero (pow_ne_zero _ ξ_ne)

theorem frobX3 : frobX ^ 3 = (toF ξ ^ (pMod - 1))⁻¹ := by
  rw [frobX, inv_pow, ← pow_mul]
  exact congrArg (fun k : ℕ => (toF ξ ^ k)⁻¹) (by decide +kernel)
theorem frobY2 : frobY ^ 2 = (toF ξ ^ (pMod - 1))⁻¹ := by
  rw [frobY, inv_pow, ← pow_mul]
  exact congrArg (fun k : ℕ => (toF ξ ^ k)⁻¹) (by decide +kernel)

theorem twistB_pow : toF twistB ^ pMod = frobY ^ 2 * toF twistB := by
  have hp : Fact pMod.Prime := inferInstance
  have h3 : (3 : Fp2F) ^ pMod = 3 := by
    have h : algebraMap Fp Fp2F 3 = 3 := map_ofNat _ 3
    rw [← h, ← map_pow, ZMod.pow_card]
  have h1 : toF twistB ^ pMod * toF ξ ^ pMod = toF twistB * toF ξ := by rw [← mul_pow, twistB_ξ, h3]
  have h2 : toF ξ ^ pMod = toF ξ ^ (pMod - 1) * toF ξ := by
    rw [← pow_succ, Nat.sub_add_cancel (by decide +kernel)]
  rw [h2, ← mul_assoc] at h1
  have h4 := mul_right_cancel₀ ξ_ne h1
  have h5 : toF ξ ^ (pMod - 1) ≠ 0 := pow_ne_zero _ ξ_ne
  rw [frobY2]
  refine (eq_inv_mul_iff_mul_eq₀ h5).2 ?_
  rw [mul_comm]
  exact h4

instance : ExpChar Fp2F pMod := ExpChar.prime (Fact.out : pMod.Prime)

/-- Composition with the p-power Frobenius of the curve. -/
noncomputable def twFrob : TwR →+* TwR :=
  twHom (twConst.comp (frobenius Fp2F pMod)) (twConst frobX * twX) (twConst frobY * twY) (by
    rw [RingHom.comp_apply, frobenius_def, twistB_pow, mul_pow, mul_pow, tw_eq, map_mul, ← map_pow, ← map_pow, frobX3, frobY2]
    ring)

theorem twFrob_const (z : Fp2F) : twFrob (twConst z) = twConst (z ^ pMod) := twHom_C z
theorem twFrob_X : twFrob twX = twConst frobX * twX := twHom_X
theorem twFrob_Y : twFrob twY = twConst frobY * twY := twHom_Y

theorem w_pow_div2 : w ^ (2 * pMod) = (w ^ 6) ^ ((pMod - 1) / 3) * w ^ 2 := by
  rw [← pow_mul, ← pow_add]
  exact congrArg (fun k : ℕ => w ^ k) (by decide +kernel)
theorem w_pow_div3 : w ^ (3 * pMod) = (w ^ 6) ^ ((pMod - 1) / 2) * w ^ 3 := by
  rw [← pow_mul, ← pow_add]
  exact congrArg (fun k : ℕ => w ^ k) (by decide +kernel)

instance : ExpChar Fp12 pMod := ExpChar.prime (Fact.out : pMod.Prime)

theorem twEv_frob (h : OnCurve x y) (f : TwR) : twEv h (twFrob f) = twEv h f ^ pMod := by
  have e : (twEv h).comp twFrob = (frobenius Fp12 pMod).comp (twEv h) := by
    refine twR_ext (fun z => ?_) ?_ ?_
    · rw [RingHom.comp_apply, RingHom.comp_apply, frobenius_def, twConst_eq, twFrob_const, twEv_const, twEv_const, map_pow]
    · change twEv h (twFrob twX) = frobenius Fp12 pMod (twEv h twX)
      rw [frobenius_def, twFrob_X, map_mul, twEv_X, twEv_const, frobX, map_inv₀, map_pow, embF_toF, emb2_ξ, div_pow, emb_pow_p, ← pow_mul w 2,
        w_pow_div2, mul_comm, ← div_eq_mul_inv, div_div, mul_comm (w ^ 2)]
    · change twEv h (twFrob twY) = frobenius Fp12 pMod (twEv h twY)
      rw [frobenius_def, twFrob_Y, map_mul, twEv_Y, twEv_const, frobY, map_inv₀, map_pow, embF_toF, emb2_ξ, div_pow, emb_pow_p, ← pow_mul w 3,
        w_pow_div3, mul_comm, ← div_eq_mul_inv, div_div, mul_comm (w ^ 3)]
  exact congrArg (fun k : TwR →+* Fp12 => k f) e

/-! ### Ideals of points -/

/-- The ideal of the functions that vanish at the point. -/
noncomputable def ptI (A : Aff2) : Ideal TwR := CoordinateRing.XYIdeal twist (toF A.1) (C (toF A.2))

theorem ptI_eq (A : Aff2) : ptI A = Ideal.span {twX - twConst (toF A.1), twY - twConst (toF A.2)} := by
  rw [ptI, CoordinateRing.XYIdeal, XClass_eq, YClass_eq]

theorem span_pair_unit {R : Type*} [CommRing R] {u v a b : R} (hu : IsUnit u) (hv : IsUnit v) :
    Ideal.span {u * a, v * b} = Ideal.span {a, b} := by
  rw [Ideal.span_insert, Ideal.span_insert, Ideal.span_singleton_mul_left_unit hu, Ideal.span_singleton_mul_left_unit hv]

theorem frobX_mul (A : Aff2) : frobX * toF (frob A).1 = toF A.1 ^ pMod := by
  have e : toF (frob A).1 = toF A.1 ^ pMod * toF ξ ^ ((pMod - 1) / 3) := by
    rw [← toF_conj, ← toF_pow, ← toF_mul, frob]
  rw [e, frobX]
  have h := pow_ne_zero ((pMod - 1) / 3) ξ_ne
  generalize toF ξ ^ ((pMod - 1) / 3) = z at *
  field_simp

theorem frobY_mul (A : Aff2) : frobY * toF (frob A).2 = toF A.2 ^ pMod := by
  have e : toF (frob A).2 = toF A.2 ^ pMod * toF ξ ^ ((pMod - 1) / 2) := by
    rw [← toF_conj, ← toF_pow, ← toF_mul, frob]
  rw [e, frobY]
  have h := pow_ne_zero ((pMod - 1) / 2) ξ_ne
  generalize toF ξ ^ ((pMod - 1) / 2) = z at *
  field_simp

theorem ptI_frob (A : Aff2) : (ptI A).map twFrob = ptI (frob A) := by
  rw [ptI_eq, ptI_eq, Ideal.map_span, Set.image_pair, map_sub, map_sub, twFrob_X, twFrob_Y, twFrob_const, twFrob_const]
  have hu := (isUnit_iff_ne_zero.2 frobX_ne).map twConst
  have hv := (isUnit_iff_ne_zero.2 frobY_ne).map twConst
  rw [← span_pair_unit hu hv (a := twX - twConst (toF (frob A).1))]
  rw [mul_sub, mul_sub, ← map_mul, ← map_mul, frobX_mul, frobY_mul]

end

end Verif
