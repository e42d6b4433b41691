/-
The optimal ate pairing with each of the two fixed points of G2 is a homomorphism from G1 to the r-th roots of unity of Fp12,
and the one with `g21` is injective. Models nothing of /repo.
-/
import Verif.Math.AteLinear
import Verif.Lemmas.G2Order
import Mathlib.RingTheory.RootsOfUnity.Basic

namespace Verif
open Ate

/-! ### Lines through points of G1 -/

theorem zeroFun_line {a b x1 x2 x3 : Fp} (h : Tri a b x1 x2 x3) :
    ZeroFun [(x1, a * x1 + b), (x2, a * x2 + b), (x3, a * x3 + b)] (fun X Y => Y - emb a * X - emb b) where
  recip := by
    refine ⟨-1, .inr rfl, fun L M X1 X2 X3 H => ?_⟩
    have := (h.map (algebraMap Fp Fp12)).recip H
    simp only [List.map_cons, List.map_nil, List.prod_cons, List.prod_nil, emb, map_add, map_mul]
    linear_combination this
  norm := by
    refine ⟨-1, .inr rfl, fun X Y hY => ?_⟩
    obtain ⟨e1, e2, e3⟩ := h.map (algebraMap Fp Fp12)
    simp only [List.map_cons, List.map_nil, List.prod_cons, List.prod_nil, emb]
    linear_combination (-hY) - e3 + X * e2 - X ^ 2 * e1
  frob X Y := by
    have hp : Fact pMod.Prime := inferInstance
    rw [sub_pow_char, sub_pow_char, mul_pow, emb_pow_p, emb_pow_p]

theorem zeroFun_vertical {x y : Fp} (h : OnCurve x y) : ZeroFun [(x, y), (x, -y)] (fun X _ => X - emb x) where
  recip := by
    refine ⟨1, .inl rfl, fun L M X1 X2 X3 H => ?_⟩
    have h' : emb y ^ 2 = emb x ^ 3 + 3 := by
      rw [OnCurve] at h
      rw [emb, emb, ← map_pow, h, map_add, map_pow, map_ofNat]
    have := Tri.recip_vertical h' H
    simp only [List.map_cons, List.map_nil, List.prod_cons, List.prod_nil]
    rw [show emb (-y) = -emb y by rw [emb, emb, map_neg]]
    linear_combination this
  norm := by
    refine ⟨1, .inl rfl, fun X Y _ => ?_⟩
    simp only [List.map_cons, List.map_nil, List.prod_cons, List.prod_nil]
    ring
  frob X Y := by
    have hp : Fact pMod.Prime := inferInstance
    rw [sub_pow_char, emb_pow_p]

/-- Points of G1 with sum 0 are the zeros of a function. -/
theorem zeroFun_sum {P Q : G1} (hP : P ≠ 0) (hQ : Q ≠ 0) (hs : P + Q ≠ 0) :
    ∃ g, ZeroFun [enc P, enc Q, enc (-(P + Q))] g := by
  obtain ⟨x1, y1, h1, rfl⟩ := exists_of_ne_zero hP
  obtain ⟨x2, y2, h2, rfl⟩ := exists_of_ne_zero hQ
  have hxy : ¬(x1 = x2 ∧ y1 = curve.negY x2 y2) := by
    rintro ⟨hx, hy⟩
    exact hs (WeierstrassCurve.Affine.Point.add_of_Y_eq hx hy)
  have hneg : curve.negY x2 y2 = -y2 := by simp [WeierstrassCurve.Affine.negY, curve]
  have hadd := WeierstrassCurve.Affine.Point.add_some hxy (h₁ := (nonsingular_iff x1 y1).2 h1) (h₂ := (nonsingular_iff x2 y2).2 h2)
  obtain ⟨a, ha⟩ : ∃ a, a = curve.slope x1 x2 y1 y2 := ⟨_, rfl⟩
  have ht : Tri a (y1 - a * x1) x1 x2 (a ^ 2 - x1 - x2) ∧ y2 = a * x2 + (y1 - a * x1) := by
    by_cases hx : x1 = x2
    · subst hx
      have hy : y1 ≠ -y2 := fun h => hxy ⟨rfl, h.trans hneg.symm⟩
      have hyy : y1 = y2 := by
        have e : (y1 - y2) * (y1 + y2) = 0 := by
          rw [OnCurve] at h1 h2
          linear_combination h1 - h2
        rcases mul_eq_zero.1 e with e | e
        · exact sub_eq_zero.1 e
        · exact absurd (eq_neg_of_add_eq_zero_left e) hy
      subst hyy
      have hne : y1 ≠ curve.negY x1 y1 := by rw [hneg]; exact hy
      have hs' : 2 * y1 * a = 3 * x1 ^ 2 := by
        rw [ha, WeierstrassCurve.Affine.slope_of_Y_ne rfl hne, hneg]
        simp only [curve]
        have h2y : y1 - -y1 ≠ 0 := sub_ne_zero.2 hy
        rw [show 2 * y1 = y1 - -y1 by ring, mul_div_cancel₀ _ h2y]
        ring
      exact ⟨Tri.tangent h1 hs', by ring⟩
    · have hs' : a * (x2 - x1) = y2 - y1 := by
        rw [ha, WeierstrassCurve.Affine.slope_of_X_ne hx]
        have h2x : x1 - x2 ≠ 0 := sub_ne_zero.2 hx
        field_simp
        ring
      exact ⟨Tri.chord h1 h2 hx hs', by linear_combination -hs'⟩
  obtain ⟨ht, hy2⟩ := ht
  have hz := zeroFun_line ht
  have e1 : a * x1 + (y1 - a * x1) = y1 := by ring
  rw [e1, ← hy2] at hz
  have e3 : enc (-(mkPt x1 y1 h1 + mkPt x2 y2 h2)) = (a ^ 2 - x1 - x2, a * (a ^ 2 - x1 - x2) + (y1 - a * x1)) := by
    rw [mkPt, mkPt, hadd, WeierstrassCurve.Affine.Point.neg_some]
    simp only [enc, WeierstrassCurve.Affine.addX, WeierstrassCurve.Affine.addY, WeierstrassCurve.Affine.negAddY,
      WeierstrassCurve.Affine.negY]
    rw [← ha]
    simp only [curve]
    exact Prod.ext (by simp only []; ring) (by simp only []; ring)
  rw [enc_mkPt, enc_mkPt, e3]
  exact ⟨_, hz⟩

theorem zeroFun_neg {P : G1} (hP : P ≠ 0) : ∃ g, ZeroFun [enc P, enc (-P)] g := by
  obtain ⟨x, y, h, rfl⟩ := exists_of_ne_zero hP
  have e : enc (-(mkPt x y h)) = (x, -y) := by
    rw [mkPt, WeierstrassCurve.Affine.Point.neg_some]
    simp only [enc, WeierstrassCurve.Affine.negY, curve]
    exact Prod.ext rfl (by simp only []; ring)
  rw [e, enc_mkPt]
  exact ⟨_, zeroFun_vertical h⟩

/-! ### The homomorphism -/

/-- What the second argument of the pairing has to satisfy. -/
structure AteArg (Q : Aff2) : Prop where
  ne : Q ≠ ((0, 0), (0, 0))
  one : ∀ {Ps g}, ZeroFun Ps g → overall Ps (fun P => Ate.miller P Q) = 1

theorem on_of_twist {A : Aff2} (h : isOnTwist A = true) : py A ^ 2 = px A ^ 3 + 3 := by
  rw [isOnTwist, decide_eq_true_eq] at h
  have h1 := congrArg emb2 h
  have hadd : ∀ a b : Fp2, emb2 (Fp2.add a b) = emb2 a + emb2 b := fun a b => by
    simp only [emb2, Fp2.add, emb, map_add]
    ring
  have hb : emb2 twistB * w ^ 6 = 3 := by
    have : Fp2.mul twistB ξ = (3, 0) := by decide +kernel
    rw [← emb2_ξ, ← emb2_mul, this]
    simp only [emb2, emb, map_zero, zero_mul, add_zero, map_ofNat]
  rw [hadd, emb2_mul, emb2_mul, emb2_mul] at h1
  rw [py, px]
  linear_combination w ^ 6 * h1 + hb

theorem ateArg_of {Q : Tw} (h : isOnTwist (valT Q) = true) (hne : valT Q ≠ ((0, 0), (0, 0))) (hok : ateOk Q = true) : AteArg (valT Q) :=
  ⟨hne, fun hg => hg.miller (on_of_twist h) hok⟩

theorem g20_ateOk : ateOk g20N = true := by decide +kernel
theorem g21_ateOk : ateOk g21N = true := by decide +kernel

theorem g20_ateArg : AteArg g20 := ateArg_of (Q := g20N) (by rw [g20N_val]; decide +kernel) (by rw [g20N_val]; decide +kernel) g20_ateOk
theorem g21_ateArg : AteArg g21 := ateArg_of (Q := g21N) (by rw [g21N_val]; decide +kernel) (by rw [g21N_val]; decide +kernel) g21_ateOk

theorem AteArg.pairing_eq {Q : Aff2} (hQ : AteArg Q) {P : G1} (hP : P ≠ 0) : Ate.pairing (enc P) Q = fexp (Ate.miller (enc P) Q) := by
  have h0 : enc P ≠ (0, 0) := fun h0 => hP (enc_injective (h0.trans enc_zero.symm))
  rw [Ate.pairing, if_neg (not_or.2 ⟨h0, hQ.ne⟩), fexp]

theorem pairing_zero (Q : Aff2) : Ate.pairing (enc 0) Q = 1 := by
  rw [Ate.pairing, if_pos (.inl enc_zero)]

theorem AteArg.neg {Q : Aff2} (hQ : AteArg Q) (P : G1) : Ate.pairing (enc P) Q * Ate.pairing (enc (-P)) Q = 1 := by
  by_cases hP : P = 0
  · subst hP
    rw [neg_zero, pairing_zero, one_mul]
  · obtain ⟨g, hg⟩ := zeroFun_neg hP
    have := hQ.one hg
    simp only [overall, List.map_cons, List.map_nil, List.prod_cons, List.prod_nil, mul_one] at this
    rw [hQ.pairing_eq hP, hQ.pairing_eq (neg_ne_zero.2 hP), this]

/-- The pairing is additive in its first argument. -/
theorem AteArg.add {Q : Aff2} (hQ : AteArg Q) (P P' : G1) :
    Ate.pairing (enc (P + P')) Q = Ate.pairing (enc P) Q * Ate.pairing (enc P') Q := by
  by_cases hP : P = 0
  · subst hP
    rw [zero_add, pairing_zero, one_mul]
  by_cases hP' : P' = 0
  · subst hP'
    rw [add_zero, pairing_zero, mul_one]
  by_cases hs : P + P' = 0
  · rw [hs, pairing_zero]
    obtain rfl : P' = -P := (neg_eq_of_add_eq_zero_right hs).symm
    exact (hQ.neg P).symm
  · obtain ⟨g, hg⟩ := zeroFun_sum hP hP' hs
    have h1 := hQ.one hg
    simp only [overall, List.map_cons, List.map_nil, List.prod_cons, List.prod_nil, mul_one] at h1
    rw [← hQ.pairing_eq hP, ← hQ.pairing_eq hP', ← hQ.pairing_eq (neg_ne_zero.2 hs)] at h1
    have h2 := hQ.neg (P + P')
    linear_combination (Ate.pairing (enc P) Q * Ate.pairing (enc P') Q) * h2 - Ate.pairing (enc (P + P')) Q * h1

/-- The r-th roots of unity of Fp12. -/
noncomputable abbrev GT := rootsOfUnity rMod Fp12

theorem AteArg.pow {Q : Aff2} (hQ : AteArg Q) (P : G1) : ∀ k : ℕ, Ate.pairing (enc (k • P)) Q = Ate.pairing (enc P) Q ^ k
  | 0 => by rw [zero_nsmul, pairing_zero, pow_zero]
  | k + 1 => by rw [succ_nsmul, hQ.add, hQ.pow P k, pow_succ]

theorem AteArg.pow_r {Q : Aff2} (hQ : AteArg Q) (P : G1) : Ate.pairing (enc P) Q ^ rMod = 1 := by
  rw [← hQ.pow, r_smul, pairing_zero]

/-- The value as a root of unity. -/
noncomputable def AteArg.root {Q : Aff2} (hQ : AteArg Q) (P : G1) : GT := rootsOfUnity.mkOfPowEq (Ate.pairing (enc P) Q) (hQ.pow_r P)

theorem AteArg.root_val {Q : Aff2} (hQ : AteArg Q) (P : G1) : ((hQ.root P : Fp12ˣ) : Fp12) = Ate.pairing (enc P) Q :=
  rootsOfUnity.val_mkOfPowEq_coe _ _

theorem gt_ext {a b : GT} (h : ((a : Fp12ˣ) : Fp12) = ((b : Fp12ˣ) : Fp12)) : a = b := Subtype.ext (Units.ext h)

theorem gt_mul (a b : GT) : (((a * b : GT) : Fp12ˣ) : Fp12) = ((a : Fp12ˣ) : Fp12) * ((b : Fp12ˣ) : Fp12) := by
  rw [Subgroup.coe_mul, Units.val_mul]

theorem gt_one : (((1 : GT) : Fp12ˣ) : Fp12) = 1 := by rw [Subgroup.coe_one, Units.val_one]

/-- The pairing with a fixed second argument. -/
noncomputable def AteArg.hom {Q : Aff2} (hQ : AteArg Q) : G1 →+ Additive GT where
  toFun P := Additive.ofMul (hQ.root P)
  map_zero' := by
    rw [← ofMul_one]
    refine congrArg Additive.ofMul (gt_ext ?_)
    rw [hQ.root_val, pairing_zero, gt_one]
  map_add' P P' := by
    rw [← ofMul_mul]
    refine congrArg Additive.ofMul (gt_ext ?_)
    rw [gt_mul, hQ.root_val, hQ.root_val, hQ.root_val, hQ.add]

theorem AteArg.hom_eq {Q : Aff2} (hQ : AteArg Q) (P : G1) : hQ.hom P = Additive.ofMul (hQ.root P) := rfl

theorem AteArg.hom_zero {Q : Aff2} (hQ : AteArg Q) (P : G1) : hQ.hom P = 0 ↔ Ate.pairing (enc P) Q = 1 := by
  rw [hQ.hom_eq, ← ofMul_one, Additive.ofMul.apply_eq_iff_eq]
  constructor
  · intro h
    rw [← hQ.root_val, h, gt_one]
  · intro h
    exact gt_ext (by rw [hQ.root_val, h, gt_one])

/-- The two-fold check in additive form. -/
theorem check_iff {Q Q' : Aff2} (hQ : AteArg Q) (hQ' : AteArg Q') (P P' : G1) :
    Ate.check [enc P, enc P'] [Q, Q'] = true ↔ hQ.hom P + hQ'.hom P' = 0 := by
  rw [Ate.check, decide_eq_true_iff, List.zipWith_cons_cons, List.zipWith_cons_cons, List.zipWith_nil_left, List.prod_cons,
    List.prod_cons, List.prod_nil, mul_one, hQ.hom_eq, hQ'.hom_eq, ← ofMul_mul, ← ofMul_one, Additive.ofMul.apply_eq_iff_eq]
  constructor
  · intro h
    exact gt_ext (by rw [gt_mul, hQ.root_val, hQ'.root_val, h, gt_one])
  · intro h
    rw [← hQ.root_val, ← hQ'.root_val, ← gt_mul, h, gt_one]

/-- A non-zero pairing value makes the homomorphism injective: G1 has prime order. -/
theorem AteArg.injective {Q : Aff2} (hQ : AteArg Q) {P : G1} (h : Ate.pairing (enc P) Q ≠ 1) : Function.Injective hQ.hom := by
  rw [injective_iff_map_eq_zero]
  intro R hR
  by_contra h0
  have : Fact rMod.Prime := inferInstance
  obtain ⟨k, hk⟩ := exists_smul_gen R
  obtain ⟨m, hm⟩ := exists_smul_gen P
  have hk0 : k ≠ 0 := by
    rintro rfl
    exact h0 (hk.trans ((fr_smul_eq_zero).2 (.inl rfl)))
  have e : P = (m / k) • R := by rw [hk, ← mul_smul, div_mul_cancel₀ _ hk0, hm]
  apply h
  rw [← hQ.hom_zero, e, fr_smul_eq, map_nsmul, hR, nsmul_zero]

theorem card_GT {Q : Aff2} (hQ : AteArg Q) (h : Function.Injective hQ.hom) : Nat.card (Additive GT) = rMod := by
  have : NeZero rMod := ⟨rMod_pos.ne'⟩
  have h1 : Nat.card GT ≤ rMod := card_rootsOfUnity Fp12 rMod
  have hfin : Finite (Additive GT) := Finite.of_equiv GT Additive.ofMul
  have h2 : Nat.card G1 ≤ Nat.card (Additive GT) := Nat.card_le_card_of_injective _ h
  rw [card_G1] at h2
  exact le_antisymm h1 h2

end Verif
