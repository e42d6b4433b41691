/-
The points of order r of the twist of BN254 form one cyclic group: the twist has a point of order 10069, and too few points for two independent points
of order r beside it. Models nothing of /repo.
-/
import Verif.Math.TwistN
import Verif.Lemmas.G2Order
import Mathlib.Data.Finset.Card
import Mathlib.GroupTheory.OrderOfElement

namespace Verif
open Ate WeierstrassCurve.Affine

/-- In a group with few elements a point of order r is a multiple of any other. -/
theorem multiple_of_bound {G : Type*} [AddCommGroup G] {r q N : ℕ} (hr : r.Prime) (hq : Nat.Coprime r q) {P Q D : G}
    (hP : addOrderOf P = r) (hQ : addOrderOf Q = r) (hD : addOrderOf D = q) (hN : ∀ s : Finset G, s.card ≤ N) (hlt : N < r * (r * q)) :
    ∃ k : ℤ, P = k • Q := by
  classical
  by_contra hno
  have hinj : Set.InjOn (fun t : ℕ × ℕ × ℕ => t.1 • P + t.2.1 • Q + t.2.2 • D)
      (Finset.range r ×ˢ (Finset.range r ×ˢ Finset.range q) : Finset (ℕ × ℕ × ℕ)) := by
    rintro ⟨a, b, c⟩ h1 ⟨a', b', c'⟩ h2 h
    simp only [Finset.coe_product, Set.mem_prod, Finset.mem_coe, Finset.mem_range] at h1 h2 h
    have e0 : ((a : ℤ) - a') • P + ((b : ℤ) - b') • Q + ((c : ℤ) - c') • D = 0 := by
      rw [sub_smul, sub_smul, sub_smul, natCast_zsmul, natCast_zsmul, natCast_zsmul, natCast_zsmul, natCast_zsmul, natCast_zsmul]
      rw [← sub_eq_zero] at h
      rw [← h]
      abel
    have hqD : (q : ℤ) • D = 0 := by rw [natCast_zsmul, ← hD, addOrderOf_nsmul_eq_zero]
    have e1 : ((q : ℤ) * (a - a')) • P + ((q : ℤ) * (b - b')) • Q = 0 := by
      have := congrArg (fun z => (q : ℤ) • z) e0
      simp only [smul_add, smul_zero] at this
      rw [smul_comm (q : ℤ) ((c : ℤ) - c') D, hqD, smul_zero, add_zero, ← mul_smul, ← mul_smul] at this
      exact this
    have hcop : IsCoprime (r : ℤ) (q : ℤ) := Nat.isCoprime_iff_coprime.2 hq
    have ha : (r : ℤ) ∣ (a : ℤ) - a' := by
      by_contra hna
      have hc : IsCoprime (r : ℤ) ((q : ℤ) * (a - a')) :=
        hcop.mul_right ((Nat.prime_iff_prime_int.1 hr).coprime_iff_not_dvd.2 hna)
      obtain ⟨u, v, huv⟩ := hc
      apply hno
      refine ⟨-(v * ((q : ℤ) * (b - b'))), ?_⟩
      have hrP : (r : ℤ) • P = 0 := by rw [natCast_zsmul, ← hP, addOrderOf_nsmul_eq_zero]
      have e2 : P = (u * r + v * ((q : ℤ) * (a - a'))) • P := by rw [huv, one_smul]
      rw [add_smul, mul_smul, hrP, smul_zero, zero_add, mul_smul, eq_neg_of_add_eq_zero_left e1] at e2
      rw [neg_smul, mul_smul]
      rw [smul_neg] at e2
      exact e2
    have ha' : a = a' := by
      have := Int.eq_zero_of_abs_lt_dvd ha (by rw [abs_lt]; omega)
      omega
    subst ha'
    rw [sub_self, mul_zero, zero_smul, zero_add] at e1
    have hb : (r : ℤ) ∣ (q : ℤ) * (b - b') := by rw [← hQ]; exact addOrderOf_dvd_iff_zsmul_eq_zero.2 e1
    have hb' : b = b' := by
      have := Int.eq_zero_of_abs_lt_dvd (hcop.dvd_of_dvd_mul_left hb) (by rw [abs_lt]; omega)
      omega
    subst hb'
    rw [sub_self, sub_self, zero_smul, zero_smul, zero_add, zero_add] at e0
    have hc : (q : ℤ) ∣ (c : ℤ) - c' := by rw [← hD]; exact addOrderOf_dvd_iff_zsmul_eq_zero.2 e0
    have hc' : c = c' := by
      have := Int.eq_zero_of_abs_lt_dvd hc (by rw [abs_lt]; omega)
      omega
    rw [hc']
  have h1 := hN (Finset.image (fun t : ℕ × ℕ × ℕ => t.1 • P + t.2.1 • Q + t.2.2 • D)
    (Finset.range r ×ˢ (Finset.range r ×ˢ Finset.range q)))
  rw [Finset.card_image_of_injOn hinj, Finset.card_product, Finset.card_product, Finset.card_range, Finset.card_range] at h1
  omega

/-- At most two points of the twist have a given abscissa. -/
theorem twist_card (s : Finset twist.Point) : s.card ≤ 2 * (pMod ^ 2 + 1) := by
  classical
  have : Fintype Fp2F := Fintype.ofEquiv (Fp × Fp) ⟨fun a => ⟨a.1, a.2⟩, fun z => (z.re, z.im), fun _ => rfl, fun _ => rfl⟩
  have hcard : Fintype.card (Option Fp2F) = pMod ^ 2 + 1 := by
    rw [Fintype.card_option, ← Fintype.card_congr (α := Fp × Fp) ⟨fun a => (⟨a.1, a.2⟩ : Fp2F), fun z => (z.re, z.im), fun _ => rfl, fun _ => rfl⟩,
      Fintype.card_prod, ZMod.card, pow_two]
  let f : twist.Point → Option Fp2F := fun P => match P with
    | .zero => none
    | .some x _ _ => some x
  have h1 : s.card ≤ 2 * (s.image f).card := by
    refine Finset.card_le_mul_card_image s 2 fun a _ => ?_
    by_cases h0 : ∃ P ∈ s, f P = a
    · obtain ⟨P, -, hP⟩ := h0
      refine (Finset.card_le_card (t := {P, -P}) ?_).trans Finset.card_le_two
      intro Q hQ
      rw [Finset.mem_filter] at hQ
      have hPQ : f Q = f P := hQ.2.trans hP.symm
      rw [Finset.mem_insert, Finset.mem_singleton]
      cases P with
      | zero =>
        cases Q with
        | zero => exact .inl rfl
        | some x y hn => cases hPQ
      | some x y hn =>
        cases Q with
        | zero => cases hPQ
        | some x' y' hn' =>
          have hx : x' = x := Option.some.inj hPQ
          subst hx
          rcases Y_eq_of_X_eq hn'.left hn.left rfl with h | h
          · left; subst h; rfl
          · right
            rw [Point.neg_some]
            subst h
            rfl
    · rw [Finset.card_eq_zero.2]
      · exact Nat.zero_le _
      · rw [Finset.filter_eq_empty_iff]
        exact fun Q hQ h => h0 ⟨Q, hQ, h⟩
  have h2 : (s.image f).card ≤ pMod ^ 2 + 1 := hcard ▸ Finset.card_le_univ _
  exact h1.trans (Nat.mul_le_mul_left 2 h2)

/-- A point of order 10069. -/
def smallN : Tw :=
  ((10055336645499400472467866896663583646658575655654246678460509670547343162740,
    14066267285379327547571384912244839003486979581938646491273947181561574398417),
   (14646107077736400806773013424225588621110742892896383938808720506698569140753,
    2586544175131426305409667600075131878999631858911295927522049773227777873633))

/-- The bits of 10068 below the top one. -/
def smallBits : List Bool := [false, false, true, true, true, false, true, false, true, false, true, false, false]

theorem small_check : (match twistMulN smallN smallBits smallN with
  | none => false
  | some R => beq2 R.1 smallN.1 && beq2 R.2 (sub2N (0, 0) smallN.2)) = true := by decide +kernel

theorem small_point : ∃ D : twist.Point, addOrderOf D = 10069 := by
  obtain ⟨P, hQ⟩ := twist_point (A := valT smallN) (by decide +kernel) (by decide +kernel)
  refine ⟨P, ?_⟩
  have h := small_check
  cases hR : twistMulN smallN smallBits smallN with
  | none => rw [hR] at h; cases h
  | some R =>
    rw [hR] at h
    simp only [Bool.and_eq_true] at h
    have hP := twistMulN_ok hQ smallBits smallN R 1 (by rw [one_nsmul]; exact hQ) hR
    rw [show bitsFrom 1 smallBits = 10068 by decide +kernel] at hP
    have e1 := beq2_true h.1
    have e2 := beq2_true h.2
    have h0 : P ≠ 0 := by
      obtain ⟨x, y, hn, rfl, -, -⟩ := hQ
      exact Point.some_ne_zero _
    have h2 : 10068 • P + P = 0 := by
      obtain ⟨x, y, hn, e, rfl, rfl⟩ := hP
      obtain ⟨x', y', hn', e', rfl, rfl⟩ := hQ
      rw [e, e']
      refine Point.add_of_Y_eq ?_ ?_
      · exact congrArg toF e1
      · refine (congrArg toF e2).trans ?_
        rw [sub2N_val, toF_sub]
        simp only [negY, twist]
        have h00 : toF (val2 (0, 0)) = 0 := by ext <;> simp [toF, val2]
        rw [h00, valT]
        ring
    have hp : Fact (Nat.Prime 10069) := ⟨by norm_num⟩
    refine addOrderOf_eq_prime ?_ h0
    rw [show (10069 : ℕ) = 10068 + 1 from rfl, succ_nsmul]
    exact h2

/-- Each point of order r of the twist is a multiple of each other one. -/
theorem twist_multiple {P Q : twist.Point} (hP : addOrderOf P = rMod) (hQ : addOrderOf Q = rMod) : ∃ k : ℤ, P = k • Q := by
  have hr : Fact rMod.Prime := inferInstance
  obtain ⟨D, hD⟩ := small_point
  exact multiple_of_bound hr.out (by decide +kernel) hP hQ hD twist_card (by decide +kernel)

end Verif
