/-
Kernel-computable multiples of points of the twist. Models nothing of /repo.
-/
import Verif.Math.AteN
import Verif.Spec.Twist

namespace Verif
open Ate

theorem toF_mul (a b : Fp2) : toF (Fp2.mul a b) = toF a * toF b := by
  ext
  · simp [toF, Fp2.mul]; ring
  · simp [toF, Fp2.mul]

theorem toF_sub (a b : Fp2) : toF (sub2 a b) = toF a - toF b := by
  ext <;> simp [toF, sub2]

theorem toF_scale (k : ℕ) (a : Fp2) : toF (scale2 (k : Fp) a) = (k : Fp2F) * toF a := by
  ext <;> simp [toF, scale2]

theorem toF_inv (a : Fp2) : toF (inv2 a) = (toF a)⁻¹ := by
  rw [QuadraticAlgebra.inv_def]
  ext
  · simp [toF, inv2, scale2, conj2, QuadraticAlgebra.norm_def]
    left; ring
  · simp [toF, inv2, scale2, conj2, QuadraticAlgebra.norm_def]
    left; ring

theorem toF_injective {a b : Fp2} (h : toF a = toF b) : a = b :=
  Prod.ext (congrArg QuadraticAlgebra.re h) (congrArg QuadraticAlgebra.im h)

theorem twist_two : (2 : Fp2F) ≠ 0 := by
  intro h
  have h1 : ((2 : Fp2F)).re = 0 := by rw [h]; rfl
  exact fp_two_ne h1

theorem twist_dbl {A : Aff2} {P : twist.Point} (h : IsTwistPoint A P) (hy : A.2 ≠ (0, 0)) :
    IsTwistPoint (third (tangent A) A A) (P + P) := by
  obtain ⟨x, y, hn, rfl, rfl, rfl⟩ := h
  have hy0 : toF A.2 ≠ 0 := fun h0 => hy (toF_injective h0)
  have hne : toF A.2 ≠ twist.negY (toF A.1) (toF A.2) := by
    intro h0
    simp only [WeierstrassCurve.Affine.negY, twist] at h0
    have : (2 : Fp2F) * toF A.2 = 0 := by linear_combination h0
    exact (mul_ne_zero twist_two hy0) this
  have hs : twist.slope (toF A.1) (toF A.1) (toF A.2) (toF A.2) = toF (tangent A) := by
    rw [WeierstrassCurve.Affine.slope_of_Y_ne rfl hne, tangent, toF_mul, toF_inv]
    have e3 := toF_scale 3 (Fp2.mul A.1 A.1)
    have e2 := toF_scale 2 A.2
    push_cast at e3 e2
    rw [e3, e2, toF_mul, div_eq_mul_inv]
    simp only [WeierstrassCurve.Affine.negY, twist]
    congr 1
    · ring
    · congr 1
      ring
  refine ⟨_, _, _, WeierstrassCurve.Affine.Point.add_self_of_Y_ne hne, ?_, ?_⟩
  · rw [hs]
    simp only [WeierstrassCurve.Affine.addX, twist, third, toF_sub, toF_mul]
    ring
  · rw [hs]
    simp only [WeierstrassCurve.Affine.addY, WeierstrassCurve.Affine.negAddY, WeierstrassCurve.Affine.negY,
      WeierstrassCurve.Affine.addX, twist, third, toF_sub, toF_mul]
    ring

theorem twist_add {A B : Aff2} {P Q : twist.Point} (h : IsTwistPoint A P) (h' : IsTwistPoint B Q) (hx : A.1 ≠ B.1) :
    IsTwistPoint (third (chord A B) A B) (P + Q) := by
  obtain ⟨x, y, hn, rfl, rfl, rfl⟩ := h
  obtain ⟨x', y', hn', rfl, rfl, rfl⟩ := h'
  have hne : toF A.1 ≠ toF B.1 := fun h0 => hx (toF_injective h0)
  have hs : twist.slope (toF A.1) (toF B.1) (toF A.2) (toF B.2) = toF (chord A B) := by
    rw [WeierstrassCurve.Affine.slope_of_X_ne hne, chord, toF_mul, toF_inv, toF_sub, toF_sub, ← div_eq_mul_inv,
      ← neg_sub (toF B.2), ← neg_sub (toF B.1), neg_div_neg_eq]
  refine ⟨_, _, _, WeierstrassCurve.Affine.Point.add_of_X_ne hne, ?_, ?_⟩
  · rw [hs]
    simp only [WeierstrassCurve.Affine.addX, twist, third, toF_sub, toF_mul]
    ring
  · rw [hs]
    simp only [WeierstrassCurve.Affine.addY, WeierstrassCurve.Affine.negAddY, WeierstrassCurve.Affine.negY,
      WeierstrassCurve.Affine.addX, twist, third, toF_sub, toF_mul]
    ring

/-- Equality modulo p of pairs. -/
def beq2 (a b : ℕ × ℕ) : Bool := Nat.beq (a.1 % pMod) (b.1 % pMod) && Nat.beq (a.2 % pMod) (b.2 % pMod)

theorem beq2_false {a b : ℕ × ℕ} (h : beq2 a b = false) : val2 a ≠ val2 b := by
  intro h0
  rw [val2, val2, Prod.mk.injEq, ZMod.natCast_eq_natCast_iff', ZMod.natCast_eq_natCast_iff'] at h0
  rw [beq2, h0.1, h0.2, beq_true rfl, beq_true rfl] at h
  cases h

theorem beq2_true {a b : ℕ × ℕ} (h : beq2 a b = true) : val2 a = val2 b := by
  rw [beq2, Bool.and_eq_true] at h
  rw [val2, val2, Prod.mk.injEq, ZMod.natCast_eq_natCast_iff', ZMod.natCast_eq_natCast_iff']
  exact ⟨Nat.eq_of_beq_eq_true h.1, Nat.eq_of_beq_eq_true h.2⟩

/-- Double-and-add over bits given from the top: the multiple of `Q` accumulated in `T`; `none` when a special case of the
formulas is met. -/
def twistMulN (Q : Tw) : List Bool → Tw → Option Tw
  | [], T => some T
  | b :: bs, T => bif beq2 T.2 (0, 0) then none else
    force2 (tangentN T) fun l => forceT (thirdN l T T) fun T' =>
    match b with
    | false => twistMulN Q bs T'
    | true => bif beq2 T'.1 Q.1 then none else
      force2 (chordTN T' Q) fun m => forceT (thirdN m T' Q) fun T'' => twistMulN Q bs T''

/-- The number with the given bits after the leading part `a`. -/
def bitsFrom (a : ℕ) : List Bool → ℕ
  | [] => a
  | b :: bs => bitsFrom (2 * a + b.toNat) bs

theorem twistMulN_ok {Q : Tw} {P : twist.Point} (hQ : IsTwistPoint (valT Q) P) : ∀ (bs : List Bool) (T R : Tw) (a : ℕ),
    IsTwistPoint (valT T) (a • P) → twistMulN Q bs T = some R → IsTwistPoint (valT R) (bitsFrom a bs • P)
  | [], T, R, a, hT, h => by
    rw [twistMulN, Option.some.injEq] at h
    exact h ▸ hT
  | b :: bs, T, R, a, hT, h => by
    rw [twistMulN] at h
    cases hy : beq2 T.2 (0, 0) with
    | true => rw [hy, cond_true] at h; cases h
    | false =>
      rw [hy, cond_false, force2_id, forceT_id] at h
      have hy' : (valT T).2 ≠ (0, 0) := by
        have := beq2_false hy
        simpa [valT, val2] using this
      have hD := twist_dbl hT hy'
      rw [← tangentN_val, ← thirdN_val, ← two_nsmul, ← mul_nsmul'] at hD
      cases b with
      | false =>
        rw [bitsFrom]
        exact twistMulN_ok hQ bs _ R _ hD h
      | true =>
        simp only [] at h
        cases hx : beq2 (thirdN (tangentN T) T T).1 Q.1 with
        | true => rw [hx, cond_true] at h; cases h
        | false =>
          rw [hx, cond_false, force2_id, forceT_id] at h
          have hA := twist_add hD hQ (beq2_false hx)
          rw [← chordTN_val, ← thirdN_val, ← succ_nsmul] at hA
          rw [bitsFrom]
          exact twistMulN_ok hQ bs _ R _ hA h

/-- The bits of r - 1 below the top one, from the top. -/
def orderBits : List Bool := ((List.range 253).map fun i => (rMod - 1).testBit i).reverse

theorem orderBits_val : bitsFrom 1 orderBits = rMod - 1 := by decide +kernel

/-- Does (r - 1)·Q come out as -Q? -/
def orderCheck (Q : Tw) : Bool := match twistMulN Q orderBits Q with
  | none => false
  | some R => beq2 R.1 Q.1 && beq2 R.2 (sub2N (0, 0) Q.2)

theorem order_of_check {Q : Tw} {P : twist.Point} (hQ : IsTwistPoint (valT Q) P) (h : orderCheck Q = true) : addOrderOf P = rMod := by
  have h0 : P ≠ 0 := by
    obtain ⟨x, y, hn, rfl, -, -⟩ := hQ
    exact WeierstrassCurve.Affine.Point.some_ne_zero _
  have h1 : rMod • P = 0 := by
    rw [orderCheck] at h
    cases hR : twistMulN Q orderBits Q with
    | none => rw [hR] at h; cases h
    | some R =>
      rw [hR] at h
      simp only [Bool.and_eq_true] at h
      have hP := twistMulN_ok hQ orderBits Q R 1 (by rw [one_nsmul]; exact hQ) hR
      rw [orderBits_val] at hP
      have e1 := beq2_true h.1
      have e2 := beq2_true h.2
      have h2 : (rMod - 1) • P + P = 0 := by
        obtain ⟨x, y, hn, e, rfl, rfl⟩ := hP
        obtain ⟨x', y', hn', e', rfl, rfl⟩ := hQ
        rw [e, e']
        refine WeierstrassCurve.Affine.Point.add_of_Y_eq ?_ ?_
        · exact congrArg toF e1
        · refine (congrArg toF e2).trans ?_
          rw [sub2N_val, toF_sub]
          simp only [WeierstrassCurve.Affine.negY, twist]
          have h00 : toF (val2 (0, 0)) = 0 := by ext <;> simp [toF, val2]
          rw [h00, valT]
          ring
      rw [← succ_nsmul, Nat.sub_add_cancel (by decide +kernel)] at h2
      exact h2
  have hp : Fact rMod.Prime := inferInstance
  exact addOrderOf_eq_prime h1 h0

end Verif
