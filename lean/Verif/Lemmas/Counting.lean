/- Counting tuples of challenges. Models nothing of /repo. -/
import Verif.Math.AllBut
import Verif.Spec.Halo2
import Mathlib.Data.Set.Card
import Mathlib.Data.Set.Finite.Basic
import Mathlib.SetTheory.Cardinal.Finite
import Mathlib.Algebra.BigOperators.Group.Finset.Basic

namespace Verif
open Halo2

/-- If the fibre over all but `m` elements has at most `N` elements then the whole set has at most m |R| + |F| N. -/
theorem AllBut.ncard_le {F R : Type} [Fintype F] [Fintype R] {m N : ℕ} {P : F → Prop} (h : AllBut m P) {S : Set (F × R)}
    (hS : ∀ x, P x → {r | (x, r) ∈ S}.ncard ≤ N) : S.ncard ≤ m * Fintype.card R + Fintype.card F * N := by
  classical
  obtain ⟨B, hB, hP⟩ := h
  have key : S.ncard = ∑ x : F, {r | (x, r) ∈ S}.ncard := by
    rw [Set.ncard_eq_toFinset_card' S, Finset.card_eq_sum_card_fiberwise (f := Prod.fst) (t := Finset.univ) (by intro x _; simp)]
    refine Finset.sum_congr rfl fun x _ => ?_
    rw [Set.ncard_eq_toFinset_card']
    refine Finset.card_bij' (fun p _ => p.2) (fun r _ => (x, r)) ?_ ?_ ?_ ?_
    · rintro ⟨a, b⟩ hp
      simp only [Finset.mem_filter, Set.mem_toFinset] at hp
      obtain ⟨h1, rfl⟩ := hp
      simpa using h1
    · intro r hr
      simpa using hr
    · rintro ⟨a, b⟩ hp
      simp only [Finset.mem_filter, Set.mem_toFinset] at hp
      rw [← hp.2]
    · intro r hr
      rfl
  rw [key, ← Finset.sum_add_sum_compl B]
  refine Nat.add_le_add ?_ ?_
  · refine (Finset.sum_le_card_nsmul B _ (Fintype.card R) fun x _ => ?_).trans ?_
    · rw [Set.ncard_eq_toFinset_card']
      exact Finset.card_le_univ _
    · rw [smul_eq_mul]
      exact Nat.mul_le_mul_right _ hB
  · refine (Finset.sum_le_card_nsmul Bᶜ _ N fun x hx => hS x (hP x (Finset.mem_compl.1 hx))).trans ?_
    rw [smul_eq_mul]
    exact Nat.mul_le_mul_right _ (Finset.card_le_univ _)

/-- The last step: no fibre left. -/
theorem AllBut.ncard_last {F : Type} [Fintype F] {m : ℕ} {P : F → Prop} (h : AllBut m P) {S : Set F}
    (hS : ∀ x, P x → x ∉ S) : S.ncard ≤ m := by
  classical
  obtain ⟨B, hB, hP⟩ := h
  refine (Set.ncard_le_ncard (t := (B : Set F)) (fun x hx => ?_) (Finset.finite_toSet B)).trans ?_
  · by_contra hb
    exact hS x (hP x hb) hx
  · rwa [Set.ncard_coe_finset]

/-- Challenges as nested pairs. -/
def tupleEquiv : Fr × Fr × Fr × Fr × Fr × Fr × Fr × Fr ≃ Challenges where
  toFun t := ⟨t.1, t.2.1, t.2.2.1, t.2.2.2.1, t.2.2.2.2.1, t.2.2.2.2.2.1, t.2.2.2.2.2.2.1, t.2.2.2.2.2.2.2⟩
  invFun c := (c.θ, c.β, c.γ, c.y, c.x, c.y', c.v, c.u)
  left_inv _ := rfl
  right_inv _ := rfl

theorem ncard_challenges (S : Set Challenges) : S.ncard = (tupleEquiv ⁻¹' S).ncard :=
  (Set.ncard_preimage_of_injective_subset_range tupleEquiv.injective (by simp [tupleEquiv.surjective.range_eq])).symm

/-- One challenge of several. -/
theorem AllBut.ncard_step {R : Type} [Fintype R] {m N k : ℕ} (hR : Fintype.card R = rMod ^ (k + 1)) {P : Fr → Prop} (h : AllBut m P)
    {S : Set (Fr × R)} (hS : ∀ x, P x → {r | (x, r) ∈ S}.ncard ≤ N * rMod ^ k) : S.ncard ≤ (m + N) * rMod ^ (k + 1) := by
  refine (h.ncard_le hS).trans (le_of_eq ?_)
  rw [hR, ZMod.card, pow_succ]
  ring

theorem card_pair {R : Type} [Fintype R] {k : ℕ} (hR : Fintype.card R = rMod ^ k) : Fintype.card (Fr × R) = rMod ^ (k + 1) := by
  rw [Fintype.card_prod, hR, ZMod.card, pow_succ, mul_comm]

end Verif
