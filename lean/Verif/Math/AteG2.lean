/-
The optimal ate pairing of Spec/Ate.lean with a fixed first argument, by the ideals of points of the twist: a relation a·A + b·B = 0 between points
of the twist that pass the check `ateOk` gives the same relation between their pairings. Models nothing of /repo.
-/
import Verif.Math.TwistEval

namespace Verif
open Ate Polynomial WeierstrassCurve.Affine
open scoped Polynomial.Bivariate

/-! ### The final exponentiation of constants and powers of w -/

theorem fexp_embF {z : Fp2F} (h : z ≠ 0) : fexp (embF z) = 1 := by
  obtain ⟨a, rfl⟩ := toF_surj z
  refine fexp_sub ((map_ne_zero embF).2 h) ?_
  have e : pMod ^ 6 = pMod ^ 2 * pMod ^ 2 * pMod ^ 2 := by ring
  rw [embF_toF, e, pow_mul, pow_mul, emb2_pow_p2, emb2_pow_p2, emb2_pow_p2]

theorem fexp_w2 : fexp (w ^ 2) = 1 := by
  refine fexp_sub (pow_ne_zero 2 w_ne) ?_
  have e : px ((1, 0), (0, 0)) = w ^ 2 := by simp [px, emb2, emb]
  rw [← e]
  exact px_pow_p6 _

theorem fexp_w3 : fexp (w ^ 3) = 1 := by
  have h1 : (w ^ 6) ^ (pMod ^ 2 - 1) = 1 := by
    refine mul_right_cancel₀ (pow_ne_zero 6 w_ne) ?_
    rw [← pow_succ, Nat.sub_add_cancel (by decide +kernel), w6_pow_p2, one_mul]
  obtain ⟨k, hk⟩ : ∃ k, 3 * ((pMod ^ 12 - 1) / rMod) = 6 * (pMod ^ 2 - 1) * k :=
    ⟨3 * ((pMod ^ 12 - 1) / rMod) / (6 * (pMod ^ 2 - 1)), by decide +kernel⟩
  rw [fexp, ← pow_mul, hk, pow_mul, pow_mul, h1, one_pow]

/-! ### Functions without zeros -/

theorem twR_unit {u : TwR} (hu : IsUnit u) : ∃ z : Fp2F, z ≠ 0 ∧ u = twConst z := by
  obtain ⟨p, q, rfl⟩ := CoordinateRing.exists_smul_basis_eq u
  have h1 : (Algebra.norm Fp2F[X] (p • (1 : TwR) + q • CoordinateRing.mk twist Y)).degree = 0 :=
    Polynomial.degree_eq_zero_of_isUnit (hu.map (Algebra.norm Fp2F[X]))
  rw [CoordinateRing.degree_norm_smul_basis] at h1
  have hq : q = 0 := by
    by_contra hq
    rw [degree_eq_natDegree hq] at h1
    have h2 : (3 : WithBot ℕ) ≤ 2 • (q.natDegree : WithBot ℕ) + 3 := by
      have : (2 • (q.natDegree : WithBot ℕ) + 3) = ((2 * q.natDegree + 3 : ℕ) : WithBot ℕ) := by
        rw [two_nsmul]; push_cast; ring
      rw [this]
      exact_mod_cast Nat.le_add_left 3 _
    have h3 := h2.trans (le_max_right (2 • p.degree) _)
    rw [h1] at h3
    exact absurd h3 (by decide)
  subst hq
  have hp : p.degree = 0 := by
    rw [degree_zero] at h1
    have hp0 : p ≠ 0 := by
      rintro rfl
      rw [degree_zero] at h1
      revert h1
      decide
    rw [degree_eq_natDegree hp0] at h1 ⊢
    have h2 : 2 • (p.natDegree : WithBot ℕ) ≤ 0 := by rw [← h1]; exact le_max_left _ _
    have h3 : 2 • (p.natDegree : WithBot ℕ) = ((2 * p.natDegree : ℕ) : WithBot ℕ) := by
      rw [two_nsmul]; push_cast; ring
    rw [h3] at h2
    have h4 : 2 * p.natDegree ≤ 0 := by exact_mod_cast h2
    have h5 : p.natDegree = 0 := by omega
    rw [h5]
    rfl
  obtain ⟨z, hz⟩ : ∃ z, p = C z := ⟨_, eq_C_of_degree_eq_zero hp⟩
  subst hz
  refine ⟨z, ?_, ?_⟩
  · rintro rfl
    rw [C_0, degree_zero] at hp
    revert hp
    decide
  · rw [zero_smul, add_zero, CoordinateRing.smul, mul_one]
    rfl

/-! ### Equivalence of ideals with a value -/

section
variable {x y : Fp} (h : OnCurve x y)

/-- The ideals I and J differ by the divisor of a quotient of functions, whose value at (x, y) is c after the final exponentiation. -/
def Rel (I J : Ideal TwR) (c : Fp12) : Prop := ∃ a b : TwR, twEv h a ≠ 0 ∧ twEv h b ≠ 0 ∧
  Ideal.span {a} * I = Ideal.span {b} * J ∧ fexp (twEv h b) = c * fexp (twEv h a)

variable {h}

theorem Rel.refl (I : Ideal TwR) : Rel h I I 1 := ⟨1, 1, by rw [map_one]; exact one_ne_zero, by rw [map_one]; exact one_ne_zero, rfl, (one_mul _).symm⟩

theorem Rel.ne {I J : Ideal TwR} {c : Fp12} (r : Rel h I J c) : c ≠ 0 := by
  obtain ⟨a, b, ha, hb, -, e⟩ := r
  rintro rfl
  rw [zero_mul] at e
  exact fexp_ne hb e

theorem Rel.symm {I J : Ideal TwR} {c : Fp12} (r : Rel h I J c) : Rel h J I c⁻¹ := by
  have hc := r.ne
  obtain ⟨a, b, ha, hb, e1, e2⟩ := r
  exact ⟨b, a, hb, ha, e1.symm, by rw [e2, inv_mul_cancel_left₀ hc]⟩

theorem Rel.mul {I J I' J' : Ideal TwR} {c c' : Fp12} (r : Rel h I J c) (r' : Rel h I' J' c') : Rel h (I * I') (J * J') (c * c') := by
  obtain ⟨a, b, ha, hb, e1, e2⟩ := r
  obtain ⟨a', b', ha', hb', e1', e2'⟩ := r'
  refine ⟨a * a', b * b', by rw [map_mul]; exact mul_ne_zero ha ha', by rw [map_mul]; exact mul_ne_zero hb hb', ?_, ?_⟩
  · rw [← Ideal.span_singleton_mul_span_singleton, ← Ideal.span_singleton_mul_span_singleton, mul_mul_mul_comm, e1, e1', mul_mul_mul_comm]
  · rw [map_mul, map_mul, fexp_mul, fexp_mul, e2, e2', mul_mul_mul_comm]

theorem Rel.trans {I J K : Ideal TwR} {c d : Fp12} (r : Rel h I J c) (r' : Rel h J K d) : Rel h I K (c * d) := by
  obtain ⟨a, b, ha, hb, e1, e2⟩ := r
  obtain ⟨a', b', ha', hb', e1', e2'⟩ := r'
  refine ⟨a * a', b * b', by rw [map_mul]; exact mul_ne_zero ha ha', by rw [map_mul]; exact mul_ne_zero hb hb', ?_, ?_⟩
  · rw [← Ideal.span_singleton_mul_span_singleton, ← Ideal.span_singleton_mul_span_singleton, mul_comm (Ideal.span {a}), mul_assoc, e1,
      mul_left_comm, e1', mul_assoc]
  · rw [map_mul, map_mul, fexp_mul, fexp_mul, e2, e2', mul_mul_mul_comm]

theorem Rel.pow {I J : Ideal TwR} {c : Fp12} (r : Rel h I J c) : ∀ k : ℕ, Rel h (I ^ k) (J ^ k) (c ^ k)
  | 0 => by rw [pow_zero, pow_zero, pow_zero]; exact .refl 1
  | k + 1 => by rw [pow_succ, pow_succ, pow_succ]; exact (r.pow k).mul r

/-- Composition with Frobenius raises the value to the p-th power. -/
theorem Rel.frob {I J : Ideal TwR} {c : Fp12} (r : Rel h I J c) : Rel h (I.map twFrob) (J.map twFrob) (c ^ pMod) := by
  obtain ⟨a, b, ha, hb, e1, e2⟩ := r
  refine ⟨twFrob a, twFrob b, by rw [twEv_frob]; exact pow_ne_zero _ ha, by rw [twEv_frob]; exact pow_ne_zero _ hb, ?_, ?_⟩
  · have e3 := congrArg (Ideal.map twFrob) e1
    rwa [Ideal.map_mul, Ideal.map_mul, Ideal.map_span, Ideal.map_span, Set.image_singleton, Set.image_singleton] at e3
  · rw [twEv_frob, twEv_frob, fexp_pow, fexp_pow, e2, mul_pow]

/-- Only constants have no divisor, and they have value 1. -/
theorem Rel.one {c : Fp12} (r : Rel h 1 1 c) : c = 1 := by
  obtain ⟨a, b, ha, hb, e1, e2⟩ := r
  rw [mul_one, mul_one, Ideal.span_singleton_eq_span_singleton] at e1
  obtain ⟨u, rfl⟩ := e1
  obtain ⟨z, hz, hu⟩ := twR_unit u.isUnit
  rw [map_mul, hu, twEv_const, fexp_mul, fexp_embF hz, mul_one] at e2
  exact (mul_right_cancel₀ (fexp_ne ha) ((one_mul _).trans e2)).symm

end

/-! ### Points and lines -/

theorem OkPt.equation {A : Aff2} (hA : OkPt A) : toF A.2 ^ 2 = toF A.1 ^ 3 + toF twistB := by
  apply embF_injective
  have hb : embF (toF twistB) * w ^ 6 = 3 := by
    rw [← emb2_ξ, ← embF_toF, ← map_mul, twistB_ξ, map_ofNat]
  have h1 := hA.on
  rw [px, py] at h1
  rw [map_add, map_pow, map_pow, embF_toF, embF_toF]
  refine mul_right_cancel₀ (pow_ne_zero 6 w_ne) ?_
  linear_combination h1 - hb

theorem twist_eq_iff (a b : Fp2F) : twist.Equation a b ↔ b ^ 2 = a ^ 3 + toF twistB := by
  rw [WeierstrassCurve.Affine.equation_iff]
  simp only [twist, zero_mul, add_zero]

theorem twist_three : (3 : Fp2F) ≠ 0 := by
  intro h
  have h1 : ((3 : Fp2F)).re = 0 := by rw [h]; rfl
  have h2 : (3 : Fp) ≠ 0 := by decide +kernel
  exact h2 h1

theorem OkPt.nonsingular {A : Aff2} (hA : OkPt A) : twist.Nonsingular (toF A.1) (toF A.2) := by
  rw [WeierstrassCurve.Affine.nonsingular_iff, twist_eq_iff]
  refine ⟨hA.equation, .inl ?_⟩
  have h0 : toF A.1 ≠ 0 := fun h0 => hA.ne (toF_injective h0)
  simp only [twist, zero_mul, mul_zero, add_zero]
  exact (mul_ne_zero twist_three (pow_ne_zero 2 h0)).symm

theorem toF_neg (A : Aff2) : toF (Ate.neg A).2 = -toF A.2 := by
  have h00 : toF (0, 0) = 0 := rfl
  rw [Ate.neg, toF_sub, h00, zero_sub]

theorem twist_negY (a b : Fp2F) : twist.negY a b = -b := by
  simp only [negY, twist, zero_mul, sub_zero]

section
variable {x y : Fp} (h : OnCurve x y)

theorem twEv_vert {A : Aff2} (hA : A.1 ≠ (0, 0)) : twEv h (twX - twConst (toF A.1)) ≠ 0 ∧ fexp (twEv h (twX - twConst (toF A.1))) = 1 := by
  have hp : Fact pMod.Prime := inferInstance
  have hw : w ^ 2 ≠ 0 := pow_ne_zero 2 w_ne
  have e : twEv h (twX - twConst (toF A.1)) * w ^ 2 = -(px A - emb x) := by
    rw [map_sub, twEv_X, twEv_const, embF_toF, px, sub_mul, div_mul_cancel₀ _ hw]
    ring
  have h1 : px A - emb x ≠ 0 := sub_ne_zero.2 (px_ne_emb hA x)
  have h2 : fexp (px A - emb x) = 1 := by
    refine fexp_sub h1 ?_
    rw [sub_pow_char_pow, px_pow_p6, show emb x ^ (pMod ^ 6) = emb x by rw [emb, ← map_pow, ZMod.pow_card_pow]]
  constructor
  · intro h0
    rw [h0, zero_mul] at e
    exact h1 (neg_eq_zero.1 e.symm)
  · have e2 := congrArg fexp e
    rw [fexp_mul, fexp_w2, mul_one] at e2
    rw [e2, ← h2, ← neg_one_mul, fexp_mul, fexp_neg_one, one_mul]

/-- Some function of the ideal does not vanish at (x, y). -/
def NV (I : Ideal TwR) : Prop := ∃ z ∈ I, twEv h z ≠ 0

variable {h}

theorem NV.mul {I J : Ideal TwR} (hI : NV h I) (hJ : NV h J) : NV h (I * J) := by
  obtain ⟨a, ha, ha0⟩ := hI
  obtain ⟨b, hb, hb0⟩ := hJ
  exact ⟨a * b, Ideal.mul_mem_mul ha hb, by rw [map_mul]; exact mul_ne_zero ha0 hb0⟩

theorem NV.pow {I : Ideal TwR} (hI : NV h I) : ∀ k : ℕ, NV h (I ^ k)
  | 0 => by
    rw [pow_zero]
    exact ⟨1, by rw [Ideal.one_eq_top]; trivial, by rw [map_one]; exact one_ne_zero⟩
  | k + 1 => by rw [pow_succ]; exact (NV.pow hI k).mul hI

theorem NV.span {a b : TwR} {I J : Ideal TwR} (hI : NV h I) (ha : twEv h a ≠ 0) (e : Ideal.span {a} * I = Ideal.span {b} * J) : twEv h b ≠ 0 := by
  obtain ⟨z, hz, hz0⟩ := hI
  intro hb
  have h0 : Ideal.span {b} * J ≤ RingHom.ker (twEv h) := by
    refine Ideal.mul_le_left.trans ?_
    rw [Ideal.span_singleton_le_iff_mem, RingHom.mem_ker]
    exact hb
  rw [← e] at h0
  have h1 := h0 (Ideal.mul_mem_mul (Ideal.mem_span_singleton_self a) hz)
  rw [RingHom.mem_ker, map_mul] at h1
  exact mul_ne_zero ha hz0 h1

theorem OkPt.nv {A : Aff2} (hA : OkPt A) : NV h (ptI A) :=
  ⟨twX - twConst (toF A.1), by rw [ptI_eq]; exact Ideal.subset_span (.inl rfl), (twEv_vert h hA.ne).1⟩

theorem Rel.neg {A : Aff2} (hA : OkPt A) : Rel h (ptI A * ptI (Ate.neg A)) 1 1 := by
  have e := CoordinateRing.XYIdeal_neg_mul hA.nonsingular
  rw [twist_negY, ← toF_neg, CoordinateRing.XIdeal, XClass_eq] at e
  refine ⟨1, twX - twConst (toF A.1), by rw [map_one]; exact one_ne_zero, (twEv_vert h hA.ne).1, ?_, ?_⟩
  · rw [Ideal.span_singleton_one, Ideal.top_mul, mul_one, ← e, mul_comm]
    rfl
  · rw [(twEv_vert h hA.ne).2, map_one, fexp_one, one_mul]

theorem Rel.line {l : Fp2} {A B : Aff2} (hA : OkPt A) (hB : OkPt B) (hC : (third l A B).1 ≠ (0, 0))
    (hs : twist.slope (toF A.1) (toF B.1) (toF A.2) (toF B.2) = toF l) (hxy : ¬(toF A.1 = toF B.1 ∧ toF A.2 = twist.negY (toF B.1) (toF B.2))) :
    Rel h (ptI A * ptI B) (ptI (third l A B)) (fexp (Ate.line l A (x, y))) := by
  have e := CoordinateRing.XYIdeal_mul_XYIdeal hA.nonsingular.left hB.nonsingular.left hxy
  rw [hs] at e
  have eX : twist.addX (toF A.1) (toF B.1) (toF l) = toF (third l A B).1 := by
    simp only [addX, twist, third, toF_sub, toF_mul]
    ring
  have eY : twist.addY (toF A.1) (toF B.1) (toF A.2) (toF l) = toF (third l A B).2 := by
    simp only [addY, negAddY, negY, addX, twist, third, toF_sub, toF_mul]
    ring
  rw [eX, eY, CoordinateRing.XIdeal, CoordinateRing.YIdeal, XClass_eq] at e
  have hv := twEv_vert h hC
  have hb := (hA.nv.mul hB.nv).span hv.1 e
  refine ⟨_, _, hv.1, hb, e, ?_⟩
  have eL : twEv h (CoordinateRing.YClass twist (linePolynomial (toF A.1) (toF A.2) (toF l))) * w ^ 3 = Ate.line l A (x, y) := by
    have e1 : CoordinateRing.YClass twist (linePolynomial (toF A.1) (toF A.2) (toF l)) =
        twY - (twConst (toF l) * (twX - twConst (toF A.1)) + twConst (toF A.2)) := by
      rw [CoordinateRing.YClass, linePolynomial, map_sub, C_add, C_mul, C_sub, map_add, map_mul, map_sub]
      rfl
    rw [e1, map_sub, map_add, map_mul, map_sub, twEv_X, twEv_Y, twEv_const, twEv_const, twEv_const, embF_toF, embF_toF, embF_toF, Ate.line]
    have hw := w_ne
    field_simp
    ring
  rw [hv.2, mul_one, ← eL, fexp_mul, fexp_w3, mul_one]

theorem Rel.tangent {A : Aff2} (hA : OkPt A) (hy : A.2 ≠ (0, 0)) (hC : (third (tangent A) A A).1 ≠ (0, 0)) :
    Rel h (ptI A * ptI A) (ptI (third (tangent A) A A)) (fexp (Ate.line (tangent A) A (x, y))) := by
  have hy0 : toF A.2 ≠ 0 := fun h0 => hy (toF_injective h0)
  have hne : toF A.2 ≠ twist.negY (toF A.1) (toF A.2) := by
    rw [twist_negY]
    intro h0
    have : (2 : Fp2F) * toF A.2 = 0 := by linear_combination h0
    exact (mul_ne_zero twist_two hy0) this
  refine Rel.line hA hA hC ?_ fun h0 => hne h0.2
  rw [slope_of_Y_ne rfl hne, Ate.tangent, toF_mul, toF_inv]
  have e3 := toF_scale 3 (Fp2.mul A.1 A.1)
  have e2 := toF_scale 2 A.2
  push_cast at e3 e2
  rw [e3, e2, toF_mul, div_eq_mul_inv, twist_negY]
  simp only [twist]
  congr 1
  · ring
  · congr 1
    ring

theorem Rel.chord {A B : Aff2} (hA : OkPt A) (hB : OkPt B) (hx : A.1 ≠ B.1) (hC : (third (chord A B) A B).1 ≠ (0, 0)) :
    Rel h (ptI A * ptI B) (ptI (third (chord A B) A B)) (fexp (Ate.line (chord A B) A (x, y))) := by
  have hne : toF A.1 ≠ toF B.1 := fun h0 => hx (toF_injective h0)
  refine Rel.line hA hB hC ?_ fun h0 => hne h0.1
  rw [slope_of_X_ne hne, Ate.chord, toF_mul, toF_inv, toF_sub, toF_sub, ← div_eq_mul_inv,
      ← neg_sub (toF B.2), ← neg_sub (toF B.1), neg_div_neg_eq]

/-! ### The Miller loop -/

theorem Rel.loop {Q : Tw} (hQ : OkPt (valT Q)) : ∀ (bs : List Bool) (T S : Tw) (m : ℕ) (f : Fp12),
    OkPt (valT T) → loopOk Q bs T = some S → Rel h (ptI (valT Q) ^ m) (ptI (valT T)) (fexp f) →
    OkPt (valT S) ∧ (bs.foldl (step (x, y) (valT Q)) (valT T, f)).1 = valT S ∧
    Rel h (ptI (valT Q) ^ bitsFrom m bs) (ptI (valT S)) (fexp (bs.foldl (step (x, y) (valT Q)) (valT T, f)).2)
  | [], T, S, m, f, hT, hl, hf => by
    rw [loopOk, Option.some.injEq] at hl
    subst hl
    exact ⟨hT, rfl, hf⟩
  | b :: bs, T, S, m, f, hT, hl, hf => by
    rw [loopOk] at hl
    cases hy : beq2 T.2 (0, 0) with
    | true => rw [hy, cond_true] at hl; cases hl
    | false =>
      rw [hy, cond_false, force2_id, forceT_id] at hl
      have hy' : (valT T).2 ≠ (0, 0) := by
        have := beq2_false hy
        rwa [val2_zero] at this
      cases hx : beq2 (thirdN (tangentN T) T T).1 (0, 0) with
      | true => rw [hx, cond_true] at hl; cases hl
      | false =>
        rw [hx, cond_false] at hl
        have hx' : (third (Ate.tangent (valT T)) (valT T) (valT T)).1 ≠ (0, 0) := by
          have := beq2_false hx
          rw [val2_zero] at this
          rw [← tangentN_val, ← thirdN_val]
          exact this
        have hT' := (tangent_line hT hy').third_on hx'
        have hf' : Rel h (ptI (valT Q) ^ (2 * m)) (ptI (third (Ate.tangent (valT T)) (valT T) (valT T)))
            (fexp (f ^ 2 * Ate.line (Ate.tangent (valT T)) (valT T) (x, y))) := by
          rw [pow_two f, fexp_mul, fexp_mul, two_mul, pow_add]
          exact (hf.mul hf).trans (Rel.tangent hT hy' hx')
        cases b with
        | false =>
          simp only [] at hl
          have := Rel.loop hQ bs (thirdN (tangentN T) T T) S (2 * m) _ (by rw [thirdN_val, tangentN_val]; exact hT') hl
            (by rw [thirdN_val, tangentN_val]; exact hf')
          rw [thirdN_val, tangentN_val] at this
          exact this
        | true =>
          simp only [] at hl
          cases hc : beq2 (thirdN (tangentN T) T T).1 Q.1 with
          | true => rw [hc, cond_true] at hl; cases hl
          | false =>
            rw [hc, cond_false, force2_id, forceT_id] at hl
            cases hx2 : beq2 (thirdN (chordTN (thirdN (tangentN T) T T) Q) (thirdN (tangentN T) T T) Q).1 (0, 0) with
            | true => rw [hx2, cond_true] at hl; cases hl
            | false =>
              rw [hx2, cond_false] at hl
              have eT : valT (thirdN (tangentN T) T T) = third (Ate.tangent (valT T)) (valT T) (valT T) := by
                rw [thirdN_val, tangentN_val]
              have hc' : (third (Ate.tangent (valT T)) (valT T) (valT T)).1 ≠ (valT Q).1 := by
                rw [← eT]
                exact beq2_false hc
              have eT2 : valT (thirdN (chordTN (thirdN (tangentN T) T T) Q) (thirdN (tangentN T) T T) Q) =
                  third (Ate.chord (third (Ate.tangent (valT T)) (valT T) (valT T)) (valT Q)) (third (Ate.tangent (valT T)) (valT T) (valT T)) (valT Q) := by
                rw [thirdN_val, chordTN_val, eT]
              have hx2' : (third (Ate.chord (third (Ate.tangent (valT T)) (valT T) (valT T)) (valT Q))
                  (third (Ate.tangent (valT T)) (valT T) (valT T)) (valT Q)).1 ≠ (0, 0) := by
                have := beq2_false hx2
                rw [val2_zero] at this
                rw [← eT2]
                exact this
              have hT2 := (chord_line hT' hQ hc').third_on hx2'
              have := Rel.loop hQ bs _ S (2 * m + 1) (f ^ 2 * Ate.line (Ate.tangent (valT T)) (valT T) (x, y) *
                Ate.line (Ate.chord (third (Ate.tangent (valT T)) (valT T) (valT T)) (valT Q)) (third (Ate.tangent (valT T)) (valT T) (valT T)) (x, y))
                (by rw [eT2]; exact hT2) hl (by
                  rw [eT2, fexp_mul (f ^ 2 * _), pow_succ]
                  have r := (hf'.mul (.refl (ptI (valT Q)))).trans (Rel.chord hT' hQ hc' hx2')
                  rw [mul_one] at r
                  exact r)
              rw [eT2] at this
              exact this

/-- The ideal that the Miller function of Q belongs to. -/
theorem Rel.miller {Q : Tw} (hon : py (valT Q) ^ 2 = px (valT Q) ^ 3 + 3) (hok : ateOk Q = true) : OkPt (valT Q) ∧
    Rel h (ptI (valT Q) ^ loopCount * ptI (Ate.frob (valT Q)) * ptI (Ate.neg (Ate.frob (Ate.frob (valT Q)))))
      (ptI (Ate.neg (Ate.frob (Ate.frob (Ate.frob (valT Q)))))) (fexp (Ate.miller (x, y) (valT Q))) := by
  rw [ateOk] at hok
  cases hS : loopOk Q loopBits Q with
  | none => rw [hS] at hok; cases hok
  | some S =>
    rw [hS] at hok
    simp only [forceT_id, force2_id, Bool.and_eq_true, Bool.not_eq_true'] at hok
    obtain ⟨⟨⟨⟨⟨h0, h1⟩, h2⟩, h3⟩, h4⟩, h5⟩ := hok
    have hQ : OkPt (valT Q) := ⟨hon, by have := beq2_false h0; rwa [val2_zero] at this⟩
    obtain ⟨hSok, hT, hf⟩ := Rel.loop (h := h) hQ loopBits Q S 1 1 hQ hS (by rw [pow_one, fexp_one]; exact .refl _)
    rw [loopBits_val] at hf
    have e1 : valT (frobN Q) = Ate.frob (valT Q) := frobN_val Q
    have e2 : valT (negTN (frobN (frobN Q))) = Ate.neg (Ate.frob (Ate.frob (valT Q))) := by
      rw [negTN_val, frobN_val, e1]
    have hQ1 : OkPt (Ate.frob (valT Q)) := hQ.frob
    have hQ2 : OkPt (Ate.neg (Ate.frob (Ate.frob (valT Q)))) := hQ.frob.frob.neg
    have hx1 : (valT S).1 ≠ (Ate.frob (valT Q)).1 := by rw [← e1]; exact beq2_false h1
    have eT : valT (thirdN (chordTN S (frobN Q)) S (frobN Q)) = third (Ate.chord (valT S) (Ate.frob (valT Q))) (valT S) (Ate.frob (valT Q)) := by
      rw [thirdN_val, chordTN_val, e1]
    have hn1 : (third (Ate.chord (valT S) (Ate.frob (valT Q))) (valT S) (Ate.frob (valT Q))).1 ≠ (0, 0) := by
      have := beq2_false h2
      rw [val2_zero] at this
      rw [← eT]
      exact this
    have hTok := (chord_line hSok hQ1 hx1).third_on hn1
    have hx2 : (third (Ate.chord (valT S) (Ate.frob (valT Q))) (valT S) (Ate.frob (valT Q))).1 ≠ (Ate.neg (Ate.frob (Ate.frob (valT Q)))).1 := by
      rw [← eT, ← e2]; exact beq2_false h3
    have eT2 : third (Ate.chord (third (Ate.chord (valT S) (Ate.frob (valT Q))) (valT S) (Ate.frob (valT Q))) (Ate.neg (Ate.frob (Ate.frob (valT Q)))))
        (third (Ate.chord (valT S) (Ate.frob (valT Q))) (valT S) (Ate.frob (valT Q))) (Ate.neg (Ate.frob (Ate.frob (valT Q)))) =
        Ate.neg (Ate.frob (Ate.frob (Ate.frob (valT Q)))) := by
      have e3 : valT (negTN (frobN (frobN (frobN Q)))) = Ate.neg (Ate.frob (Ate.frob (Ate.frob (valT Q)))) := by
        rw [negTN_val, frobN_val, frobN_val, e1]
      rw [← e3, ← eT, ← e2, ← chordTN_val, ← thirdN_val]
      exact Prod.ext (beq2_true h4) (beq2_true h5)
    refine ⟨hQ, ?_⟩
    have r1 := Rel.chord (h := h) hSok hQ1 hx1 hn1
    have r2 := Rel.chord (h := h) hTok hQ2 hx2 (by rw [eT2]; exact hQ.frob.frob.frob.ne)
    rw [eT2] at r2
    rw [miller_eq, hT, fexp_mul, fexp_mul]
    have r3 := (hf.mul (.refl (ptI (Ate.frob (valT Q))))).trans r1
    rw [mul_one] at r3
    have r4 := (r3.mul (.refl (ptI (Ate.neg (Ate.frob (Ate.frob (valT Q))))))).trans r2
    rwa [mul_one] at r4

theorem Rel.pow_r {I J : Ideal TwR} {c : Fp12} (r : Rel h I J c) : c ^ rMod = 1 := by
  obtain ⟨a, b, ha, hb, -, e⟩ := r
  have e1 := congrArg (fun z => z ^ rMod) e
  simp only [mul_pow, fexp_r ha, fexp_r hb, mul_one] at e1
  exact e1.symm

theorem Rel.map_one {I : Ideal TwR} {c : Fp12} (r : Rel h I 1 c) : Rel h (I.map twFrob) 1 (c ^ pMod) := by
  have := r.frob
  rwa [Ideal.one_eq_top, Ideal.map_top, ← Ideal.one_eq_top] at this

theorem Rel.miller' {Q : Tw} (hon : py (valT Q) ^ 2 = px (valT Q) ^ 3 + 3) (hok : ateOk Q = true) :
    Rel h (ptI (valT Q) ^ loopCount * (ptI (valT Q)).map twFrob * (((ptI (valT Q)).map twFrob).map twFrob).map twFrob)
      (((ptI (valT Q)).map twFrob).map twFrob) (fexp (Ate.miller (x, y) (valT Q))) := by
  obtain ⟨hQ, r⟩ := Rel.miller (h := h) hon hok
  rw [ptI_frob, ptI_frob, ptI_frob]
  have n2 := Rel.neg (h := h) hQ.frob.frob
  have n3 := Rel.neg (h := h) hQ.frob.frob.frob
  generalize ptI (valT Q) ^ loopCount = J0 at *
  generalize ptI (Ate.frob (valT Q)) = J1 at *
  generalize ptI (Ate.frob (Ate.frob (valT Q))) = J2 at *
  generalize ptI (Ate.frob (Ate.frob (Ate.frob (valT Q)))) = J3 at *
  generalize ptI (Ate.neg (Ate.frob (Ate.frob (valT Q)))) = J2' at *
  generalize ptI (Ate.neg (Ate.frob (Ate.frob (Ate.frob (valT Q))))) = J3' at *
  generalize fexp (Ate.miller (x, y) (valT Q)) = m at *
  have r1 := (n2.mul (.refl (J0 * J1 * J3))).symm.trans (((r.mul (.refl (J2 * J3))).trans (d := 1) (K := J2) (by
    have := n3.mul (.refl J2)
    rw [one_mul, one_mul] at this
    rwa [show J3' * (J2 * J3) = J3 * J3' * J2 by ring])) |> fun r => by
      rwa [show J0 * J1 * J2' * (J2 * J3) = J2 * J2' * (J0 * J1 * J3) by ring] at r)
  simpa only [one_mul, mul_one, inv_one] using r1

/-- A relation between points gives the relation between their pairings. -/
theorem miller_rel {A B : Tw} (hA : py (valT A) ^ 2 = px (valT A) ^ 3 + 3) (okA : ateOk A = true)
    (hB : py (valT B) ^ 2 = px (valT B) ^ 3 + 3) (okB : ateOk B = true) {P Q : twist.Point} (hP : IsTwistPoint (valT A) P)
    (hQ : IsTwistPoint (valT B) Q) {k : ℕ} (hk : P + k • Q = 0) (h : OnCurve x y) :
    fexp (Ate.miller (x, y) (valT A)) * fexp (Ate.miller (x, y) (valT B)) ^ k = 1 := by
  have mA := Rel.miller' (h := h) hA okA
  have mB := (Rel.miller' (h := h) hB okB).pow k
  have okA' := (Rel.miller (h := h) hA okA).1
  have okB' := (Rel.miller (h := h) hB okB).1
  obtain ⟨c, r0⟩ : ∃ c, Rel h (ptI (valT A) * ptI (valT B) ^ k) 1 c := by
    have h1 := congrArg Point.toClass hk
    rw [map_add, map_nsmul, map_zero] at h1
    obtain ⟨a1, b1, hn1, rfl, rfl, rfl⟩ := hP
    obtain ⟨a2, b2, hn2, rfl, rfl, rfl⟩ := hQ
    rw [Point.toClass_some, Point.toClass_some] at h1
    have h2 : ClassGroup.mk twist.FunctionField (CoordinateRing.XYIdeal' (W := twist) hn1 * CoordinateRing.XYIdeal' (W := twist) hn2 ^ k) = 1 := by
      rw [map_mul, map_pow]
      exact h1
    obtain ⟨f, hf, e⟩ := (ClassGroup.mk_eq_one_of_coe_ideal (I' := ptI (valT A) * ptI (valT B) ^ k) (by
      rw [Units.val_mul, Units.val_pow_eq_pow_val, CoordinateRing.XYIdeal'_eq, CoordinateRing.XYIdeal'_eq, FractionalIdeal.coeIdeal_mul,
        FractionalIdeal.coeIdeal_pow]
      rfl)).1 h2
    have e' : Ideal.span {1} * (ptI (valT A) * ptI (valT B) ^ k) = Ideal.span {f} * 1 := by
      rw [Ideal.span_singleton_one, Ideal.top_mul, mul_one, e]
    have h1' : twEv h 1 ≠ 0 := by rw [_root_.map_one]; exact one_ne_zero
    exact ⟨fexp (twEv h f), 1, f, h1', (okA'.nv.mul (okB'.nv.pow k)).span h1' e', e', by rw [_root_.map_one, fexp_one, mul_one]⟩
  have r1 := r0.map_one
  have r2 := r1.map_one
  have r3 := r2.map_one
  have hc := r0.pow_r
  have hc0 := r0.ne
  have m := mA.mul mB
  simp only [Ideal.map_mul, Ideal.map_pow] at r1 r2 r3
  have r := (r0.pow loopCount).mul (r1.mul r3)
  rw [show (1 : Ideal TwR) ^ loopCount * (1 * 1) = 1 by rw [one_pow (M := Ideal TwR), one_mul, one_mul]] at r
  generalize ptI (valT A) = JA at *
  generalize ptI (valT B) = JB at *
  have e : (JA * JB ^ k) ^ loopCount * (JA.map twFrob * JB.map twFrob ^ k *
      (((JA.map twFrob).map twFrob).map twFrob * ((JB.map twFrob).map twFrob).map twFrob ^ k)) =
      JA ^ loopCount * JA.map twFrob * ((JA.map twFrob).map twFrob).map twFrob *
      (JB ^ loopCount * JB.map twFrob * ((JB.map twFrob).map twFrob).map twFrob) ^ k := by
    rw [mul_pow, mul_pow, mul_pow, ← pow_mul, mul_comm k loopCount, pow_mul]
    ring
  rw [e] at r
  have fin := ((r.symm.trans m).trans r2).one
  obtain ⟨t, ht⟩ : ∃ t, loopCount + (pMod + pMod * (pMod * pMod)) = pMod * pMod + rMod * t :=
    ⟨(loopCount + (pMod + pMod * (pMod * pMod)) - pMod * pMod) / rMod, by decide +kernel⟩
  have hcc : c ^ loopCount * (c ^ pMod * ((c ^ pMod) ^ pMod) ^ pMod) = (c ^ pMod) ^ pMod := by
    rw [← pow_mul, ← pow_mul, ← pow_add, ← pow_add, ht, pow_add, pow_mul c rMod, hc, one_pow, mul_one, pow_mul]
  rw [hcc] at fin
  have hz : (c ^ pMod) ^ pMod ≠ 0 := pow_ne_zero _ (pow_ne_zero _ hc0)
  generalize (c ^ pMod) ^ pMod = z at *
  generalize fexp (Ate.miller (x, y) (valT A)) * fexp (Ate.miller (x, y) (valT B)) ^ k = v at *
  rwa [mul_assoc, mul_comm v, inv_mul_cancel_left₀ hz] at fin

end

end Verif
