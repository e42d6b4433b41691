/- Grand-product arguments over the rows 0, …, m-1 of a table. Models nothing of /repo. -/
import Verif.Math.AllBut
import Mathlib.Algebra.BigOperators.Fin
import Mathlib.Tactic.LinearCombination

namespace Verif
open Polynomial

variable {F : Type} [Field F] [DecidableEq F]

/-- A running product with ratios A i / B i, denominators cleared. -/
theorem running_product {z A B : ℕ → F} {m : ℕ} (h : ∀ i < m, z (i + 1) * B i = z i * A i) :
    z m * ∏ i ∈ Finset.range m, B i = z 0 * ∏ i ∈ Finset.range m, A i := by
  induction m with
  | zero => simp
  | succ m ih =>
    have h1 := ih fun i hi => h i (by omega)
    have h2 := h m (by omega)
    rw [Finset.prod_range_succ, Finset.prod_range_succ]
    calc z (m + 1) * ((∏ i ∈ Finset.range m, B i) * B m) = (z (m + 1) * B m) * ∏ i ∈ Finset.range m, B i := by ring
      _ = (z m * ∏ i ∈ Finset.range m, B i) * A m := by rw [h2]; ring
      _ = z 0 * ((∏ i ∈ Finset.range m, A i) * A m) := by rw [h1]; ring

theorem prod_polyFn {ι : Type} (s : Finset ι) (a : ι → F) : PolyFn s.card fun γ => ∏ i ∈ s, (a i + γ) := by
  refine (PolyFn.prod s (d := 1) (f := fun i γ => a i + γ) fun i _ => (PolyFn.const 1 (a i)).add (.id le_rfl)).mono ?_
  rw [mul_one]

theorem prod_zero_at {ι : Type} {s : Finset ι} {a : ι → F} {γ : F} : ∏ i ∈ s, (a i + γ) = 0 ↔ ∃ i ∈ s, a i = -γ := by
  rw [Finset.prod_eq_zero_iff]
  simp only [add_eq_zero_iff_eq_neg]

/-- A product of linear factors vanishes at few points. -/
theorem prod_ne_zero_allBut {ι : Type} (s : Finset ι) (a : ι → F) : AllBut s.card fun γ => ∏ i ∈ s, (a i + γ) ≠ 0 := by
  classical
  refine ⟨s.image fun i => -a i, Finset.card_image_le, fun γ hγ h => hγ ?_⟩
  obtain ⟨i, hi, h⟩ := prod_zero_at.1 h
  exact Finset.mem_image.2 ⟨i, hi, by rw [h, neg_neg]⟩

/-- Two products of linear factors, one with a factor the other does not have, differ at all but few points. -/
theorem prod_ne_allBut {ι κ : Type} (s : Finset ι) (t : Finset κ) (hst : s.card = t.card) (a : ι → F) (b : κ → F) {k : κ} (hk : k ∈ t)
    (h : ∀ i ∈ s, a i ≠ b k) : AllBut s.card fun γ => ∏ i ∈ s, (a i + γ) ≠ ∏ j ∈ t, (b j + γ) := by
  refine PolyFn.allBut_ne (prod_polyFn s a) (by rw [hst]; exact prod_polyFn t b) (a := -b k) ?_
  rw [prod_zero_at.2 ⟨k, hk, by rw [neg_neg]⟩, Ne, prod_zero_at]
  rintro ⟨i, hi, h'⟩
  rw [neg_neg] at h'
  exact h i hi h'

/-- The permutation argument: if two cells joined by π differ, the products differ and do not vanish for all but a few
β, γ. -/
theorem copy_sound {ι : Type} [Fintype ι] [DecidableEq ι] (w name : ι → F) (hinj : Function.Injective name) (π : Equiv.Perm ι)
    {c : ι} (hc : w c ≠ w (π c)) :
    AllBut (Fintype.card ι) fun β => AllBut (2 * Fintype.card ι) fun γ =>
      ∏ d, (w d + β * name d + γ) ≠ 0 ∧ ∏ d, (w d + β * name d + γ) ≠ ∏ d, (w d + β * name (π d) + γ) := by
  have h1 : AllBut (Finset.univ : Finset ι).card fun β => ∀ d ∈ (Finset.univ : Finset ι),
      w d + β * name d ≠ w c + β * name (π c) := by
    refine AllBut.forall_mem _ fun d _ => ?_
    by_cases hd : d = π c
    · subst hd
      refine .of_forall fun β h => hc ?_
      exact (add_right_cancel h).symm
    · have hne : name d - name (π c) ≠ 0 := sub_ne_zero.2 fun h => hd (hinj h)
      refine (AllBut.ne ((w c - w d) / (name d - name (π c)))).mono le_rfl fun β hβ h => hβ ?_
      rw [eq_div_iff hne]
      linear_combination h
  rw [← Finset.card_univ]
  refine h1.mono le_rfl fun β hβ => ?_
  refine ((prod_ne_zero_allBut Finset.univ fun d => w d + β * name d).and
    (prod_ne_allBut Finset.univ Finset.univ rfl (fun d => w d + β * name d) (fun d => w d + β * name (π d)) (Finset.mem_univ c) hβ)).mono
    (by omega) fun γ h => h

/-- What the row constraints of a lookup argument say, over the usable rows 0, …, m-1. -/
structure LookupRows (m : ℕ) (β γ : F) (inp tab A S Z : ℕ → F) : Prop where
  first : Z 0 = 1
  last : Z m ^ 2 = Z m
  step : ∀ i < m, Z (i + 1) * (A i + β) * (S i + γ) = Z i * (inp i + β) * (tab i + γ)
  start : A 0 = S 0
  order : ∀ i, i + 1 < m → A (i + 1) = S (i + 1) ∨ A (i + 1) = A i

theorem LookupRows.product {m : ℕ} {β γ : F} {inp tab A S Z : ℕ → F} (h : LookupRows m β γ inp tab A S Z) :
    (∏ i ∈ Finset.range m, (inp i + β)) * ∏ i ∈ Finset.range m, (tab i + γ) = 0 ∨
    (∏ i ∈ Finset.range m, (inp i + β)) * ∏ i ∈ Finset.range m, (tab i + γ) =
      (∏ i ∈ Finset.range m, (A i + β)) * ∏ i ∈ Finset.range m, (S i + γ) := by
  have h1 := running_product (z := Z) (A := fun i => (inp i + β) * (tab i + γ)) (B := fun i => (A i + β) * (S i + γ)) (m := m)
    fun i hi => by rw [← mul_assoc, ← mul_assoc]; exact h.step i hi
  rw [h.first, one_mul, Finset.prod_mul_distrib, Finset.prod_mul_distrib] at h1
  have h2 : Z m = 0 ∨ Z m = 1 := by
    have : Z m * (Z m - 1) = 0 := by linear_combination h.last
    rcases mul_eq_zero.1 this with h | h
    · exact .inl h
    · exact .inr (sub_eq_zero.1 h)
  rcases h2 with h2 | h2
  · left; rw [← h1, h2, zero_mul]
  · right; rw [← h1, h2, one_mul]

/-- Every permuted input is a permuted table entry. -/
theorem LookupRows.mem {m : ℕ} {β γ : F} {inp tab A S Z : ℕ → F} (h : LookupRows m β γ inp tab A S Z) {i : ℕ} (hi : i < m) :
    ∃ j < m, A i = S j := by
  induction i with
  | zero => exact ⟨0, hi, h.start⟩
  | succ i ih =>
    rcases h.order i hi with h1 | h1
    · exact ⟨i + 1, hi, h1⟩
    · obtain ⟨j, hj, h2⟩ := ih (by omega)
      exact ⟨j, hj, h1.trans h2⟩

theorem linear_prod_ne {m : ℕ} {a b : ℕ → F} {i : ℕ} (hi : i < m) (h : ∀ j < m, a i ≠ b j) :
    AllBut m fun γ => ∏ j ∈ Finset.range m, (b j + γ) ≠ ∏ j ∈ Finset.range m, (a j + γ) := by
  have := prod_ne_allBut (Finset.range m) (Finset.range m) rfl b a (Finset.mem_range.2 hi)
    fun j hj h' => h j (Finset.mem_range.1 hj) h'.symm
  rwa [Finset.card_range] at this

theorem linear_prod_monic (m : ℕ) (a : ℕ → F) : ∃ p : F[X], p.Monic ∧ p.natDegree = m ∧
    ∀ γ, p.eval γ = ∏ j ∈ Finset.range m, (a j + γ) := by
  refine ⟨∏ j ∈ Finset.range m, (X + C (a j)), monic_prod_of_monic _ _ fun j _ => monic_X_add_C (a j), ?_, fun γ => ?_⟩
  · rw [natDegree_prod_of_monic _ _ fun j _ => monic_X_add_C (a j)]
    simp
  · rw [eval_prod]
    exact Finset.prod_congr rfl fun j _ => by rw [eval_add, eval_X, eval_C, add_comm]

/-- The lookup argument: if some input is not in the table, then for all but a few β, γ no running product satisfies the
row constraints. -/
theorem lookup_sound {m : ℕ} {inp tab : ℕ → F} {i : ℕ} (hi : i < m) (h : ∀ j < m, inp i ≠ tab j) (A S : ℕ → F) :
    AllBut (2 * m) fun β => AllBut (2 * m) fun γ => ∀ Z, ¬ LookupRows m β γ inp tab A S Z := by
  have n1 : ∀ a : ℕ → F, AllBut m fun γ => ∏ j ∈ Finset.range m, (a j + γ) ≠ 0 := fun a => by
    have := prod_ne_zero_allBut (Finset.range m) a
    rwa [Finset.card_range] at this
  by_cases hA : ∃ j < m, A j = inp i
  · obtain ⟨j, hj, hA⟩ := hA
    refine ((n1 inp).and (n1 inp)).mono (by omega) fun β hβ => ?_
    by_cases hS : ∃ l < m, A j = S l
    · obtain ⟨l, hl, hS⟩ := hS
      -- S has an entry that the table does not have
      have h2 : AllBut m fun γ => ∏ j ∈ Finset.range m, (tab j + γ) ≠ ∏ j ∈ Finset.range m, (S j + γ) :=
        linear_prod_ne hl fun j hj h' => h j hj (by rw [← h', ← hS, hA])
      by_cases hβA : ∏ j ∈ Finset.range m, (inp j + β) = ∏ j ∈ Finset.range m, (A j + β)
      · refine (h2.and (n1 tab)).mono (by omega) fun γ hγ Z hZ => ?_
        rcases hZ.product with h3 | h3
        · exact mul_ne_zero hβ.1 hγ.2 h3
        · rw [← hβA] at h3
          exact hγ.1 (mul_left_cancel₀ hβ.1 h3)
      · exact lead tab S (n1 tab) hβ.1 hβA
    · refine .of_forall fun γ Z hZ => hS (hZ.mem hj)
  · -- the input is not among the permuted inputs
    have h2 : AllBut m fun β => ∏ j ∈ Finset.range m, (A j + β) ≠ ∏ j ∈ Finset.range m, (inp j + β) :=
      linear_prod_ne hi fun j hj h' => hA ⟨j, hj, h'.symm⟩
    refine ((n1 inp).and h2).mono (by omega) fun β hβ => ?_
    exact lead tab S (n1 tab) hβ.1 (Ne.symm hβ.2)
where
  lead {β : F} {m : ℕ} {inp : ℕ → F} {A : ℕ → F} (tab S : ℕ → F) (n1 : AllBut m fun γ => ∏ j ∈ Finset.range m, (tab j + γ) ≠ 0)
      (h0 : ∏ j ∈ Finset.range m, (inp j + β) ≠ 0)
      (hne : ∏ j ∈ Finset.range m, (inp j + β) ≠ ∏ j ∈ Finset.range m, (A j + β)) :
      AllBut (2 * m) fun γ => ∀ Z, ¬ LookupRows m β γ inp tab A S Z := by
    obtain ⟨p, hp, hpd, hpe⟩ := linear_prod_monic m tab
    obtain ⟨q, hq, hqd, hqe⟩ := linear_prod_monic m S
    generalize hP : ∏ j ∈ Finset.range m, (inp j + β) = a at h0 hne
    generalize hQ : ∏ j ∈ Finset.range m, (A j + β) = b at hne
    have hD : C a * p - C b * q ≠ 0 := by
      intro h
      have := congrArg (fun p => p.coeff m) h
      simp only [coeff_sub, coeff_C_mul, coeff_zero] at this
      rw [← hpd, hp.coeff_natDegree, hpd, ← hqd, hq.coeff_natDegree] at this
      exact hne (by linear_combination this)
    have hdeg : (C a * p - C b * q).natDegree ≤ m :=
      (natDegree_sub_le _ _).trans (max_le ((natDegree_C_mul_le _ _).trans hpd.le) ((natDegree_C_mul_le _ _).trans hqd.le))
    have h2 : AllBut m fun γ => (C a * p - C b * q).eval γ ≠ 0 := by
      refine ⟨(C a * p - C b * q).roots.toFinset, (Multiset.toFinset_card_le _).trans ((card_roots' _).trans hdeg), fun x hx h0 => ?_⟩
      rw [Multiset.mem_toFinset, mem_roots hD] at hx
      exact hx h0
    refine (h2.and n1).mono (by omega) fun γ hγ Z hZ => ?_
    rcases hZ.product with h3 | h3
    · rw [hP] at h3
      exact mul_ne_zero h0 hγ.2 h3
    · rw [hP, hQ, ← hpe, ← hqe] at h3
      apply hγ.1
      rw [eval_sub, Polynomial.eval_mul, Polynomial.eval_mul, eval_C, eval_C, h3, sub_self]

/-- Compression by θ: a pair that is not in the table stays outside for all but a few θ. -/
theorem compress_sound {m : ℕ} {a b : F} {t s : ℕ → F} (h : ∀ j < m, ¬ (a = t j ∧ b = s j)) :
    AllBut m fun θ => ∀ j < m, θ * a + b ≠ θ * t j + s j := by
  have h1 : AllBut (Finset.range m).card fun θ => ∀ j ∈ Finset.range m, θ * a + b ≠ θ * t j + s j := by
    refine AllBut.forall_mem _ fun j hj => ?_
    by_cases ha : a = t j
    · refine .of_forall fun θ h' => h j (Finset.mem_range.1 hj) ⟨ha, ?_⟩
      rw [ha] at h'
      exact add_left_cancel h'
    · have hne : a - t j ≠ 0 := sub_ne_zero.2 ha
      refine (AllBut.ne ((s j - b) / (a - t j))).mono le_rfl fun θ hθ h' => hθ ?_
      rw [eq_div_iff hne]
      linear_combination h'
  rw [Finset.card_range] at h1
  exact h1.mono le_rfl fun θ h j hj => h j (Finset.mem_range.2 hj)

end Verif
