/- The honest side of the permutation and lookup arguments: running products and permuted columns. Models nothing of /repo. -/
import Verif.Math.GrandProduct
import Mathlib.Data.Multiset.FinsetOps
import Mathlib.Data.List.GetD
import Mathlib.Algebra.Polynomial.Div
import Mathlib.Algebra.Polynomial.Roots

namespace Verif
open Polynomial

variable {F : Type} [Field F] [DecidableEq F]

/-- The running product of A i / B i. -/
noncomputable def runningProduct (z0 : F) (A B : ℕ → F) (i : ℕ) : F := z0 * ∏ j ∈ Finset.range i, (A j / B j)

omit [DecidableEq F] in
theorem runningProduct_zero (z0 : F) (A B : ℕ → F) : runningProduct z0 A B 0 = z0 := by
  rw [runningProduct, Finset.range_zero, Finset.prod_empty, mul_one]

omit [DecidableEq F] in
theorem runningProduct_succ (z0 : F) (A B : ℕ → F) {i : ℕ} (h : B i ≠ 0) :
    runningProduct z0 A B (i + 1) * B i = runningProduct z0 A B i * A i := by
  rw [runningProduct, runningProduct, Finset.prod_range_succ, ← mul_assoc, mul_assoc, div_mul_cancel₀ _ h]

omit [DecidableEq F] in
theorem runningProduct_mul (z0 : F) (A B : ℕ → F) {m : ℕ} (h : ∀ i < m, B i ≠ 0) :
    runningProduct z0 A B m * ∏ i ∈ Finset.range m, B i = z0 * ∏ i ∈ Finset.range m, A i := by
  rw [runningProduct, mul_assoc, ← Finset.prod_mul_distrib]
  congr 1
  exact Finset.prod_congr rfl fun i hi => div_mul_cancel₀ _ (h i (Finset.mem_range.1 hi))

/-- Permuted input and table entries, as a list of pairs: each entry is its table entry, or repeats the previous entry. -/
def PermutedFrom : Option F → List (F × F) → Prop
  | _, [] => True
  | prev, p :: l => (p.1 = p.2 ∨ prev = some p.1) ∧ PermutedFrom (some p.1) l

omit [Field F] [DecidableEq F] in
theorem PermutedFrom.insert {prev : Option F} {l : List (F × F)} (h : PermutedFrom prev l) {a : F} (b : F) (ha : a ∈ l.map Prod.fst) :
    ∃ l', l'.Perm ((a, b) :: l) ∧ PermutedFrom prev l' := by
  induction l generalizing prev with
  | nil => simp at ha
  | cons p l ih =>
    by_cases hp : p.1 = a
    · refine ⟨p :: (a, b) :: l, List.Perm.swap _ _ _, h.1, .inr (by rw [hp]), ?_⟩
      have := h.2
      rw [hp] at this
      exact this
    · have ha' : a ∈ l.map Prod.fst := by
        rw [List.map_cons, List.mem_cons] at ha
        exact ha.resolve_left fun h => hp h.symm
      obtain ⟨l', h1, h2⟩ := ih h.2 ha'
      exact ⟨p :: l', (h1.cons p).trans (List.Perm.swap _ _ _), h.1, h2⟩

omit [Field F] [DecidableEq F] in
theorem PermutedFrom.of_none {prev : Option F} {l : List (F × F)} (h : PermutedFrom none l) : PermutedFrom prev l := by
  cases l with
  | nil => trivial
  | cons p l => exact ⟨.inl (h.1.resolve_right (by simp)), h.2⟩

omit [Field F] in
/-- Some table entry can be dropped. -/
theorem exists_spare {I T : List F} (hlen : I.length < T.length) (hsub : I ⊆ T) : ∃ b ∈ T, I ⊆ T.erase b := by
  have h1 : List.Subperm I.dedup T := List.subperm_of_subset (List.nodup_dedup I) fun a ha => hsub (List.mem_dedup.1 ha)
  have h2 : ((I.dedup : List F) : Multiset F) ≤ (T : Multiset F) := h1
  obtain ⟨R, hR⟩ := Multiset.le_iff_exists_add.1 h2
  have hc : R ≠ 0 := by
    rintro rfl
    have := congrArg Multiset.card hR
    simp only [Multiset.coe_card, add_zero] at this
    have h3 := List.Sublist.length_le (List.dedup_sublist I)
    omega
  obtain ⟨b, hb⟩ := Multiset.exists_mem_of_ne_zero hc
  refine ⟨b, ?_, fun a ha => ?_⟩
  · rw [← Multiset.mem_coe, hR]
    exact Multiset.mem_add.2 (.inr hb)
  · rw [← Multiset.mem_coe, ← Multiset.coe_erase, hR, Multiset.erase_add_right_pos _ hb, Multiset.mem_add]
    exact .inl (by rw [Multiset.mem_coe, List.mem_dedup]; exact ha)

omit [Field F] in
theorem exists_permuted {I T : List F} (hlen : I.length = T.length) (hsub : I ⊆ T) :
    ∃ l : List (F × F), (l.map Prod.fst).Perm I ∧ (l.map Prod.snd).Perm T ∧ PermutedFrom none l := by
  induction I generalizing T with
  | nil =>
    obtain rfl := List.length_eq_zero_iff.1 hlen.symm
    exact ⟨[], .refl _, .refl _, trivial⟩
  | cons a I ih =>
    rw [List.length_cons] at hlen
    by_cases ha : a ∈ I
    · obtain ⟨b, hb, hs⟩ := exists_spare (I := I) (T := T) (by omega) fun c hc => hsub (List.mem_cons_of_mem _ hc)
      obtain ⟨l, h1, h2, h3⟩ := ih (T := T.erase b) (by rw [List.length_erase_of_mem hb]; omega) hs
      obtain ⟨l', h4, h5⟩ := h3.insert b (h1.mem_iff.2 ha)
      refine ⟨l', (h4.map _).trans ?_, (h4.map _).trans ?_, h5⟩
      · exact h1.cons a
      · exact (h2.cons b).trans (List.perm_cons_erase hb).symm
    · have haT := hsub (List.mem_cons_self (a := a) (l := I))
      obtain ⟨l, h1, h2, h3⟩ := ih (T := T.erase a) (by rw [List.length_erase_of_mem haT]; omega) fun c hc => by
        rw [List.mem_erase_of_ne fun h : c = a => ha (h ▸ hc)]
        exact hsub (List.mem_cons_of_mem _ hc)
      exact ⟨(a, a) :: l, h1.cons a, (h2.cons a).trans (List.perm_cons_erase haT).symm, .inl rfl, h3.of_none⟩

omit [Field F] [DecidableEq F] in
theorem PermutedFrom.order {prev : Option F} {l : List (F × F)} (h : PermutedFrom prev l) (i : ℕ) (hi : i + 1 < l.length) :
    (l[i + 1]).1 = (l[i + 1]).2 ∨ (l[i + 1]).1 = (l[i]'(by omega)).1 := by
  induction l generalizing prev i with
  | nil => simp at hi
  | cons p l ih =>
    cases i with
    | zero =>
      cases l with
      | nil => simp at hi
      | cons q l =>
        rcases h.2.1 with h1 | h1
        · exact .inl h1
        · exact .inr (Option.some.inj h1).symm
    | succ i => exact ih h.2 i (by simpa using hi)

/-- The permuted columns of the lookup argument. -/
theorem exists_permuted_columns {m : ℕ} (hm : 0 < m) {inp tab : ℕ → F} (h : ∀ i < m, ∃ j < m, inp i = tab j) :
    ∃ A S : ℕ → F, A 0 = S 0 ∧ (∀ i, i + 1 < m → A (i + 1) = S (i + 1) ∨ A (i + 1) = A i) ∧
      (∀ b, ∏ i ∈ Finset.range m, (A i + b) = ∏ i ∈ Finset.range m, (inp i + b)) ∧
      (∀ b, ∏ i ∈ Finset.range m, (S i + b) = ∏ i ∈ Finset.range m, (tab i + b)) := by
  obtain ⟨l, h1, h2, h3⟩ := exists_permuted (I := (List.range m).map inp) (T := (List.range m).map tab) (by simp) (by
    intro a ha
    obtain ⟨i, hi, rfl⟩ := List.mem_map.1 ha
    obtain ⟨j, hj, he⟩ := h i (List.mem_range.1 hi)
    exact List.mem_map.2 ⟨j, List.mem_range.2 hj, he.symm⟩)
  have hl : l.length = m := by have := h1.length_eq; simpa using this
  have hprod : ∀ (g : F × F → F) (v : ℕ → F), (l.map g).Perm ((List.range m).map v) → ∀ b,
      ∏ i ∈ Finset.range m, (g (l.getD i (0, 0)) + b) = ∏ i ∈ Finset.range m, (v i + b) := by
    intro g v hp b
    have e1 : ∀ w : ℕ → F, ∏ i ∈ Finset.range m, (w i + b) = (((List.range m).map w).map (· + b)).prod := fun w => by
      rw [List.map_map]
      rfl
    rw [e1 v, e1 fun i => g (l.getD i (0, 0)), ← (hp.map (· + b)).prod_eq]
    congr 2
    refine List.ext_getElem (by simp [hl]) fun i hi1 hi2 => ?_
    have hi : i < l.length := by simpa using hi2
    rw [List.getElem_map, List.getElem_range, List.getElem_map, List.getD_eq_getElem _ _ hi]
  refine ⟨fun i => (l.getD i (0, 0)).1, fun i => (l.getD i (0, 0)).2, ?_, fun i hi => ?_, hprod Prod.fst inp h1, hprod Prod.snd tab h2⟩
  · cases l with
    | nil => simp at hl; omega
    | cons p l => exact h3.1.resolve_right (by simp)
  · beta_reduce
    rw [List.getD_eq_getElem _ _ (by omega : i + 1 < l.length), List.getD_eq_getElem _ _ (by omega : i < l.length)]
    exact h3.order i (by omega)

omit [DecidableEq F] in
/-- The honest running product of the lookup argument. -/
theorem lookup_complete {m : ℕ} {inp tab A S : ℕ → F} (hs : A 0 = S 0)
    (ho : ∀ i, i + 1 < m → A (i + 1) = S (i + 1) ∨ A (i + 1) = A i)
    (hA : ∀ b, ∏ i ∈ Finset.range m, (A i + b) = ∏ i ∈ Finset.range m, (inp i + b))
    (hS : ∀ b, ∏ i ∈ Finset.range m, (S i + b) = ∏ i ∈ Finset.range m, (tab i + b)) {β γ : F}
    (hβ : ∀ i < m, A i + β ≠ 0) (hγ : ∀ i < m, S i + γ ≠ 0) : ∃ Z, LookupRows m β γ inp tab A S Z ∧ Z m = 1 := by
  have hB : ∀ i < m, (A i + β) * (S i + γ) ≠ 0 := fun i hi => mul_ne_zero (hβ i hi) (hγ i hi)
  have h1 : runningProduct 1 (fun i => (inp i + β) * (tab i + γ)) (fun i => (A i + β) * (S i + γ)) m = 1 := by
    have h := runningProduct_mul 1 (fun i => (inp i + β) * (tab i + γ)) (fun i => (A i + β) * (S i + γ)) hB
    rw [one_mul, Finset.prod_mul_distrib, Finset.prod_mul_distrib, ← hA, ← hS, ← Finset.prod_mul_distrib] at h
    have hne : ∏ i ∈ Finset.range m, (A i + β) * (S i + γ) ≠ 0 := Finset.prod_ne_zero_iff.2 fun i hi => hB i (Finset.mem_range.1 hi)
    exact mul_right_cancel₀ hne (h.trans (one_mul _).symm)
  refine ⟨_, ⟨runningProduct_zero _ _ _, by rw [h1, one_pow], fun i hi => ?_, hs, ho⟩, h1⟩
  rw [mul_assoc, mul_assoc]
  exact runningProduct_succ 1 (fun i => (inp i + β) * (tab i + γ)) (fun i => (A i + β) * (S i + γ)) (hB i hi)

theorem ne_allBut (m : ℕ) (a : ℕ → F) : AllBut m fun b => ∀ i < m, a i + b ≠ 0 := by
  have := prod_ne_zero_allBut (Finset.range m) a
  rw [Finset.card_range] at this
  exact this.mono le_rfl fun b hb i hi => Finset.prod_ne_zero_iff.1 hb i (Finset.mem_range.2 hi)

/-- A polynomial of degree at most 4m that vanishes on the m-th roots of unity is (X^m - 1)(h₀ + X^m h₁ + X^2m h₂). -/
theorem exists_pieces {m : ℕ} (hm : 0 < m) {ζ : F} (h1 : ζ ^ m = 1) (hinj : Set.InjOn (fun j => ζ ^ j) (Finset.range m : Set ℕ))
    {p : F[X]} (hp : p.natDegree ≤ 4 * m) (h0 : ∀ i < m, p.eval (ζ ^ i) = 0) :
    ∃ h : ℕ → F[X], (∀ i, (h i).natDegree ≤ m) ∧
      ∀ x, ((h 0).eval x + x ^ m * (h 1).eval x + (x ^ m) ^ 2 * (h 2).eval x) * (x ^ m - 1) = p.eval x := by
  have hmon : (X ^ m - C 1 : F[X]).Monic := monic_X_pow_sub_C 1 hm.ne'
  have hdeg : (X ^ m - C 1 : F[X]).natDegree = m := natDegree_X_pow_sub_C
  have hne : (X ^ m - C 1 : F[X]) ≠ 1 := fun h => by rw [h, natDegree_one] at hdeg; omega
  have hX : (X ^ m : F[X]).Monic := monic_X_pow m
  have hXd : (X ^ m : F[X]).natDegree = m := natDegree_X_pow m
  have hXne : (X ^ m : F[X]) ≠ 1 := fun h => by rw [h, natDegree_one] at hXd; omega
  have hr : p %ₘ (X ^ m - C 1) = 0 := by
    refine eq_zero_of_natDegree_lt_card_of_eval_eq_zero' _ ((Finset.range m).image fun j => ζ ^ j) ?_ ?_
    · intro a ha
      obtain ⟨i, hi, rfl⟩ := Finset.mem_image.1 ha
      have h3 := congrArg (eval (ζ ^ i)) (modByMonic_add_div p (X ^ m - C 1))
      have h4 : (X ^ m - C 1 : F[X]).eval (ζ ^ i) = 0 := by
        rw [eval_sub, eval_pow, eval_X, eval_C, ← pow_mul, mul_comm, pow_mul, h1, one_pow, sub_self]
      rw [eval_add, eval_mul, h0 i (Finset.mem_range.1 hi), h4, zero_mul, add_zero] at h3
      exact h3
    · rw [Finset.card_image_of_injOn hinj, Finset.card_range]
      have := natDegree_modByMonic_lt p hmon hne
      rwa [hdeg] at this
  have hpq := modByMonic_add_div p (X ^ m - C 1)
  rw [hr, zero_add] at hpq
  have hqd : (p /ₘ (X ^ m - C 1)).natDegree ≤ 3 * m := by
    rw [natDegree_divByMonic p hmon, hdeg]; omega
  generalize p /ₘ (X ^ m - C 1) = q at hpq hqd
  have e1 := modByMonic_add_div q (X ^ m)
  have e2 := modByMonic_add_div (q /ₘ X ^ m) (X ^ m)
  have d0 : (q %ₘ X ^ m).natDegree ≤ m := (natDegree_modByMonic_lt q hX hXne).le.trans hXd.le
  have d1 : ((q /ₘ X ^ m) %ₘ X ^ m).natDegree ≤ m := (natDegree_modByMonic_lt _ hX hXne).le.trans hXd.le
  have d2 : ((q /ₘ X ^ m) /ₘ X ^ m).natDegree ≤ m := by
    rw [natDegree_divByMonic _ hX, natDegree_divByMonic _ hX, hXd]; omega
  refine ⟨fun i => if i = 0 then q %ₘ X ^ m else if i = 1 then (q /ₘ X ^ m) %ₘ X ^ m else (q /ₘ X ^ m) /ₘ X ^ m, fun i => ?_, fun x => ?_⟩
  · beta_reduce
    split
    · exact d0
    · split
      · exact d1
      · exact d2
  · simp only [if_true, if_neg (by decide : ¬ (1 = 0)), if_neg (by decide : ¬ (2 = 0)), if_neg (by decide : ¬ (2 = 1))]
    rw [← hpq, ← e1, ← e2]
    simp only [eval_mul, eval_add, eval_sub, eval_pow, eval_X, eval_C]
    rw [e2, e1]
    ring

end Verif
