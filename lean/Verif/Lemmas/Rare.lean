/- How rare the points are that the circuit cannot store. Models nothing of /repo. -/
import Verif.Math.Coeff
import Verif.Lemmas.OpeningPoly
import Mathlib.Algebra.Polynomial.Roots

namespace Verif
open Halo2 Polynomial

/-- The numbers from r up to p, as elements of the base field. -/
theorem card_large : (Finset.univ.filter fun x : Fp => rMod ≤ x.val).card ≤ pMod - rMod := by
  classical
  have h : ((Finset.univ.filter fun x : Fp => rMod ≤ x.val).image ZMod.val).card ≤ pMod - rMod := by
    rw [← Nat.card_Ico]
    refine Finset.card_le_card fun k hk => ?_
    obtain ⟨x, hx, rfl⟩ := Finset.mem_image.1 hk
    exact Finset.mem_Ico.2 ⟨(Finset.mem_filter.1 hx).2, ZMod.val_lt x⟩
  rwa [Finset.card_image_of_injective _ (ZMod.val_injective pMod)] at h

/-- A set of points over each of whose values of `f` there are at most `k`. -/
theorem card_fibres {α : Type} [Fintype α] [DecidableEq α] (f : α → Fp) (k : ℕ) (h : ∀ z : Fp, rMod ≤ z.val → (Finset.univ.filter fun a => f a = z).card ≤ k) :
    (Finset.univ.filter fun a => rMod ≤ (f a).val).card ≤ k * (pMod - rMod) := by
  classical
  refine (Finset.card_le_mul_card_image (f := f) _ k fun z hz => ?_).trans (Nat.mul_le_mul_left k ?_)
  · obtain ⟨a, ha, rfl⟩ := Finset.mem_image.1 hz
    refine (Finset.card_le_card fun b hb => ?_).trans (h (f a) (Finset.mem_filter.1 ha).2)
    exact Finset.mem_filter.2 ⟨Finset.mem_univ _, (Finset.mem_filter.1 hb).2⟩
  · refine (Finset.card_le_card fun z hz => ?_).trans card_large
    obtain ⟨a, ha, rfl⟩ := Finset.mem_image.1 hz
    exact Finset.mem_filter.2 ⟨Finset.mem_univ _, (Finset.mem_filter.1 ha).2⟩

theorem card_roots_le (p : Fp[X]) (hp : p ≠ 0) (s : Finset Fp) (h : ∀ z ∈ s, p.eval z = 0) : s.card ≤ p.natDegree := by
  classical
  refine (Finset.card_le_card fun z hz => ?_).trans ((Multiset.toFinset_card_le p.roots).trans (card_roots' p))
  rw [Multiset.mem_toFinset, mem_roots hp]
  exact h z hz

/-- The scalars `b` for which b·G cannot be stored: at most 5(p - r) + 1. -/
theorem exists_bad : ∃ B : Finset Fr, B.card ≤ 5 * (pMod - rMod) + 1 ∧ ∀ b ∉ B, Representable (b • G1gen) := by
  classical
  have hinj : ∀ a b : Fr, enc (a • G1gen) = enc (b • G1gen) → a = b := fun a b h => com_eval_inj (τ := 0) (enc_injective h)
  have hcur : ∀ b : Fr, rMod ≤ (enc (b • G1gen)).1.val ∨ rMod ≤ (enc (b • G1gen)).2.val →
      (enc (b • G1gen)).2 ^ 2 = (enc (b • G1gen)).1 ^ 3 + 3 := by
    intro b hb
    rcases validEnc_enc (b • G1gen) with h | h
    · exact h
    · exfalso
      have hr : 0 < rMod := by decide +kernel
      rw [h] at hb
      simp only [ZMod.val_zero] at hb
      omega
  have h1 := card_fibres (fun b : Fr => (enc (b • G1gen)).1) 2 fun z hz => by
    obtain ⟨p, hp⟩ : ∃ p : Fp[X], p = X ^ 2 - C (z ^ 3 + 3) := ⟨_, rfl⟩
    have hd : p.natDegree = 2 := by rw [hp]; exact natDegree_X_pow_sub_C
    have hp0 : p ≠ 0 := by rintro rfl; simp at hd
    rw [← Finset.card_image_of_injOn (f := fun b : Fr => (enc (b • G1gen)).2), ← hd]
    · refine card_roots_le p hp0 _ fun w hw => ?_
      obtain ⟨b, hb, rfl⟩ := Finset.mem_image.1 hw
      have hbz := (Finset.mem_filter.1 hb).2
      have := hcur b (.inl (by rw [hbz]; exact hz))
      rw [hp, eval_sub, eval_pow, eval_X, eval_C, this, hbz, sub_self]
    · intro a ha b hb hab
      have ha := (Finset.mem_filter.1 (Finset.mem_coe.1 ha)).2
      have hb := (Finset.mem_filter.1 (Finset.mem_coe.1 hb)).2
      exact hinj a b (Prod.ext (ha.trans hb.symm) hab)
  have h2 := card_fibres (fun b : Fr => (enc (b • G1gen)).2) 3 fun z hz => by
    obtain ⟨p, hp⟩ : ∃ p : Fp[X], p = X ^ 3 - C (z ^ 2 - 3) := ⟨_, rfl⟩
    have hd : p.natDegree = 3 := by rw [hp]; exact natDegree_X_pow_sub_C
    have hp0 : p ≠ 0 := by rintro rfl; simp at hd
    rw [← Finset.card_image_of_injOn (f := fun b : Fr => (enc (b • G1gen)).1), ← hd]
    · refine card_roots_le p hp0 _ fun w hw => ?_
      obtain ⟨b, hb, rfl⟩ := Finset.mem_image.1 hw
      have hbz := (Finset.mem_filter.1 hb).2
      have := hcur b (.inr (by rw [hbz]; exact hz))
      rw [hp, eval_sub, eval_pow, eval_X, eval_C, ← hbz]
      linear_combination -this
    · intro a ha b hb hab
      have ha := (Finset.mem_filter.1 (Finset.mem_coe.1 ha)).2
      have hb := (Finset.mem_filter.1 (Finset.mem_coe.1 hb)).2
      exact hinj a b (Prod.ext hab (ha.trans hb.symm))
  refine ⟨(Finset.univ.filter fun b : Fr => rMod ≤ (enc (b • G1gen)).1.val) ∪
    (Finset.univ.filter fun b : Fr => rMod ≤ (enc (b • G1gen)).2.val) ∪ {0}, ?_, fun b hb => ?_⟩
  · refine (Finset.card_union_le _ _).trans ?_
    rw [Finset.card_singleton]
    refine Nat.add_le_add_right ((Finset.card_union_le _ _).trans ((Nat.add_le_add h1 h2).trans (le_of_eq (by ring)))) 1
  · rw [Finset.mem_union, Finset.mem_union, not_or, not_or, Finset.mem_filter, Finset.mem_filter, Finset.mem_singleton] at hb
    obtain ⟨⟨g1, g2⟩, g3⟩ := hb
    refine ⟨fun h0 => g3 ?_, ?_, ?_⟩
    · exact com_eval_inj (τ := 0) (h0.trans (zero_smul Fr G1gen).symm)
    · exact not_le.1 fun h => g1 ⟨Finset.mem_univ _, h⟩
    · exact not_le.1 fun h => g2 ⟨Finset.mem_univ _, h⟩

end Verif
