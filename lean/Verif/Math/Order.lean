/-
The group of BN254 G1 has prime order r, hence is a ZMod r module. Models nothing of /repo.
-/
import Verif.Math.Compute
import Mathlib.GroupTheory.Perm.Cycle.Type
import Mathlib.Data.ZMod.Basic
import Mathlib.Algebra.Module.ZMod

namespace Verif

theorem gen_ne_zero : G1gen ≠ 0 := by
  intro h
  have := encN_gen
  rw [h, encN_zero] at this
  exact absurd this (by decide)

theorem addOrderOf_gen : addOrderOf G1gen = rMod :=
  addOrderOf_eq_prime r_smul_gen gen_ne_zero

/-- Injection of the points into x-coordinate and parity of y. -/
def ptKey (P : G1) : Option (Fp × Bool) :=
  if P = 0 then none else some ((enc P).1, decide ((enc P).2.val % 2 = 0))

theorem neg_parity (y : Fp) (h : y ≠ 0) : ((-y).val % 2 = 0) ↔ ¬ (y.val % 2 = 0) := by
  have h1 := fp_val_lt y
  have : (-y).val = pMod - y.val := by
    rw [ZMod.neg_val, if_neg h]
  have h0 : pMod % 2 = 1 := by decide +kernel
  omega

theorem ptKey_injective : Function.Injective ptKey := by
  intro P Q h
  rcases G1.cases P with rfl | ⟨x1, y1, h1, rfl⟩ <;> rcases G1.cases Q with rfl | ⟨x2, y2, h2, rfl⟩
  · rfl
  · simp [ptKey, mkPt_ne_zero] at h
  · simp [ptKey, mkPt_ne_zero] at h
  · simp only [ptKey, mkPt_ne_zero, if_false, enc_mkPt, Option.some.injEq, Prod.mk.injEq] at h
    obtain ⟨rfl, hp⟩ := h
    have : (y1 - y2) * (y1 + y2) = 0 := by
      unfold OnCurve at h1 h2
      linear_combination h1 - h2
    rcases mul_eq_zero.1 this with h | h
    · obtain rfl := sub_eq_zero.1 h; rfl
    · exfalso
      have hy : y1 = -y2 := eq_neg_of_add_eq_zero_left h
      subst hy
      have := neg_parity y2 h2.y_ne
      have hp' := decide_eq_decide.1 hp
      tauto

instance : Finite G1 := Finite.of_injective ptKey ptKey_injective

theorem card_option_aux (α : Type) [Finite α] : Nat.card (Option (α × Bool)) = 2 * Nat.card α + 1 := by
  rw [Finite.card_option, Nat.card_prod]
  simp [mul_comm]

theorem card_le : Nat.card G1 ≤ 2 * pMod + 1 := by
  have h := Nat.card_le_card_of_injective ptKey ptKey_injective
  have e : Nat.card Fp = pMod := Nat.card_zmod pMod
  rw [card_option_aux, e] at h
  exact h

theorem no_two_torsion (P : G1) (h : P + P = 0) : P = 0 := by
  rcases G1.cases P with rfl | ⟨x, y, h1, rfl⟩
  · rfl
  · exfalso
    have h2 : mkPt x y h1 = - mkPt x y h1 := eq_neg_of_add_eq_zero_left h
    have h3 : enc (mkPt x y h1) = (x, -y) := by
      rw [h2]; unfold mkPt
      rw [WeierstrassCurve.Affine.Point.neg_some]
      simp [enc, WeierstrassCurve.Affine.negY, curve]
    rw [enc_mkPt] at h3
    have h4 : y = -y := (Prod.mk.inj h3).2
    have h5 : 2 * y = 0 := by linear_combination h4
    rcases mul_eq_zero.1 h5 with h6 | h6
    · exact fp_two_ne h6
    · exact h1.y_ne h6

/-- The number of points on y² = x³ + 3 over F_p is r. -/
theorem card_G1 : Nat.card G1 = rMod := by
  have hd : rMod ∣ Nat.card G1 := addOrderOf_gen ▸ addOrderOf_dvd_natCard G1gen
  obtain ⟨k, hk⟩ := hd
  have hle := card_le
  have hpos : 0 < Nat.card G1 := Nat.card_pos
  have h3 : 2 * pMod + 1 < rMod * 3 := by decide +kernel
  have hk3 : k < 3 := by
    by_contra hc
    have : rMod * 3 ≤ rMod * k := Nat.mul_le_mul_left _ (by omega)
    omega
  have hk0 : k ≠ 0 := by rintro rfl; omega
  have hk2 : k ≠ 2 := by
    rintro rfl
    obtain ⟨P, hP⟩ := exists_prime_addOrderOf_dvd_card' (G := G1) 2 ⟨rMod, by rw [hk]; ring⟩
    have : P + P = 0 := by rw [← two_nsmul, ← hP]; exact addOrderOf_nsmul_eq_zero P
    have := no_two_torsion P this
    rw [this] at hP
    simp at hP
  obtain rfl : k = 1 := by omega
  rw [hk, mul_one]

/-- Lagrange: every point is killed by r. -/
theorem r_smul (P : G1) : rMod • P = 0 := by
  rw [← card_G1]; exact card_nsmul_eq_zero'

noncomputable instance : Module Fr G1 := AddCommGroup.zmodModule r_smul

theorem fr_smul_eq (s : Fr) (P : G1) : s • P = s.val • P := by
  conv_lhs => rw [← ZMod.natCast_zmod_val s]
  exact Nat.cast_smul_eq_nsmul Fr s.val P

/-- G1 is generated by (1,2). -/
theorem exists_smul_gen (P : G1) : ∃ k : Fr, P = k • G1gen := by
  have htop : AddSubgroup.zmultiples G1gen = ⊤ :=
    AddSubgroup.eq_top_of_card_eq _ ((Nat.card_zmultiples G1gen).trans (addOrderOf_gen.trans card_G1.symm))
  have hP : P ∈ AddSubgroup.zmultiples G1gen := htop.symm ▸ AddSubgroup.mem_top P
  obtain ⟨n, hn⟩ := AddSubgroup.mem_zmultiples_iff.1 hP
  exact ⟨((n : ℤ) : Fr), hn.symm.trans (Int.cast_smul_eq_zsmul Fr n G1gen).symm⟩

theorem fr_smul_eq_zero {s : Fr} {P : G1} : s • P = 0 ↔ s = 0 ∨ P = 0 := by
  constructor
  · intro h
    by_cases hs : s = 0
    · exact Or.inl hs
    · refine Or.inr ?_
      have := congrArg (fun Q => s⁻¹ • Q) h
      simpa [smul_smul, inv_mul_cancel₀ hs] using this
  · rintro (rfl | rfl) <;> simp

end Verif
