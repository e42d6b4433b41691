/- Lemmas about adaptive questions to a random function. -/
import Verif.Spec.RandomOracle
import Mathlib.Data.Fintype.BigOperators
import Mathlib.Data.Finset.Card

namespace Verif
open Halo2 Polynomial

/-- If question and target do not depend on the answer, then the answer to a question falls into a target of at most `e`
values for at most a fraction `e / |D|` of all functions. -/
theorem fresh_card {M D : Type} [Fintype M] [DecidableEq M] [Fintype D] [DecidableEq D] (F : (M → D) → Prop)
    (q : (M → D) → M) (T : (M → D) → Finset D) {e : ℕ} (hT : ∀ H, (T H).card ≤ e)
    (hs : ∀ H, F H → ∀ x, F (Function.update H (q H) x) ∧ q (Function.update H (q H) x) = q H ∧ T (Function.update H (q H) x) = T H) :
    {H | F H ∧ H (q H) ∈ T H}.ncard * Fintype.card D ≤ e * Fintype.card D ^ Fintype.card M := by
  classical
  have h1 : {H : M → D | F H ∧ H (q H) ∈ T H}.ncard = (Finset.univ.filter fun H : M → D => F H ∧ H (q H) ∈ T H).card := by
    rw [← Set.ncard_coe_finset]
    congr 1
    ext H
    simp
  rw [h1, ← Finset.card_univ (α := D), ← Finset.card_product]
  have h2 : (Finset.univ.sigma fun H : M → D => T H).card ≤ e * Fintype.card D ^ Fintype.card M := by
    rw [Finset.card_sigma, ← Fintype.card_fun, mul_comm]
    refine (Finset.sum_le_card_nsmul _ _ e fun H _ => hT H).trans ?_
    rw [smul_eq_mul, Finset.card_univ]
  rw [Finset.card_univ] at *
  refine le_trans ?_ h2
  refine Finset.card_le_card_of_injOn (fun p => ⟨Function.update p.1 (q p.1) p.2, p.1 (q p.1)⟩) ?_ ?_
  · rintro ⟨H, x⟩ hp
    simp only [Finset.coe_product, Set.mem_prod, Finset.mem_coe, Finset.mem_filter, Finset.mem_univ, true_and] at hp
    simp only [Finset.mem_coe, Finset.mem_sigma, Finset.mem_univ, true_and]
    rw [(hs H hp.1.1 x).2.2]
    exact hp.1.2
  · rintro ⟨H, x⟩ hp ⟨H', x'⟩ hp' he
    simp only [Finset.coe_product, Set.mem_prod, Finset.mem_coe, Finset.mem_filter, Finset.mem_univ, true_and] at hp hp'
    rw [Sigma.mk.injEq] at he
    obtain ⟨e1, e2⟩ := he
    have e3 : H (q H) = H' (q H') := eq_of_heq e2
    have e4 : q H = q H' := by
      rw [← (hs H hp.1.1 x).2.1, ← (hs H' hp'.1.1 x').2.1]
      exact congrArg q e1
    have e1 : Function.update H (q H) x = Function.update H' (q H') x' := e1
    have e5 : x = x' := by
      have := congrFun e1 (q H)
      rw [Function.update_self, e4, Function.update_self] at this
      exact this
    have e6 : H = H' := by
      funext m
      by_cases hm : m = q H
      · rw [hm, e3, e4]
      · have := congrFun e1 m
        rw [Function.update_of_ne hm, Function.update_of_ne (e4 ▸ hm)] at this
        exact this
    rw [e5, e6]

variable {M : Finset (List UInt8)}

theorem OracleProver.answers_length (R : OracleProver M) (H : M → Digest) (i : ℕ) : (R.answers H i).length = i := by
  induction i with
  | zero => rfl
  | succ i ih => rw [answers, List.length_append, ih]; rfl

theorem OracleProver.answers_take (R : OracleProver M) (H : M → Digest) {l i : ℕ} (h : l ≤ i) :
    (R.answers H i).take l = R.answers H l := by
  induction i with
  | zero => rw [Nat.le_zero.1 h]; rfl
  | succ i ih =>
    rcases Nat.lt_or_ge i l with h1 | h1
    · rw [show l = i + 1 by omega, List.take_of_length_le (by rw [answers_length])]
    · rw [answers, List.take_append_of_le_length (by rw [answers_length]; exact h1), ih h1]

theorem OracleProver.answers_get (R : OracleProver M) (H : M → Digest) {l i : ℕ} (h : l < i) :
    (R.answers H i)[l]? = some (H (R.asks H l)) := by
  have h1 : ((R.answers H i).take (l + 1))[l]? = some (H (R.asks H l)) := by
    rw [R.answers_take H h, answers, List.getElem?_append_right (by rw [answers_length]), answers_length, Nat.sub_self]
    rfl
  rwa [List.getElem?_take_of_lt (by omega)] at h1

/-- Changing an answer changes nothing before the question is asked. -/
theorem OracleProver.answers_update (R : OracleProver M) (H : M → Digest) (m : M) (x : Digest) {i : ℕ}
    (h : ∀ l < i, R.asks H l ≠ m) {l : ℕ} (hl : l ≤ i) : R.answers (Function.update H m x) l = R.answers H l := by
  induction l with
  | zero => rfl
  | succ l ih =>
    rw [answers, answers, ih (by omega), Function.update_of_ne (show R.query (R.answers H l) ≠ m from h l (by omega))]

/-- The questions before number `i` were all different from question number `i`. -/
def OracleProver.Fresh (R : OracleProver M) (H : M → Digest) (i : ℕ) : Prop := ∀ l < i, R.asks H l ≠ R.asks H i

/-- A prover's answer to a new question falls into a set of at most `e` values, chosen before the answer, with probability at most
e / 2^256. -/
theorem OracleProver.card_hit (R : OracleProver M) (i : ℕ) (T : List Digest → Finset Digest) {e : ℕ}
    (hT : ∀ l, l.length = i → (T l).card ≤ e) :
    {H : M → Digest | R.Fresh H i ∧ H (R.asks H i) ∈ T (R.answers H i)}.ncard * 2 ^ 256 ≤ e * (2 ^ 256) ^ M.card := by
  have h := fresh_card (M := M) (D := Digest) (fun H => R.Fresh H i) (fun H => R.asks H i) (fun H => T (R.answers H i)) (e := e)
    (fun H => hT _ (R.answers_length H i)) (fun H hF x => by
      have h1 : ∀ {l}, l ≤ i → R.answers (Function.update H (R.asks H i) x) l = R.answers H l := fun hl => R.answers_update H _ x hF hl
      have h2 : ∀ {l}, l ≤ i → R.asks (Function.update H (R.asks H i) x) l = R.asks H l := fun hl => congrArg R.query (h1 hl)
      refine ⟨fun l hl => ?_, h2 le_rfl, by rw [h1 le_rfl]⟩
      rw [h2 hl.le, h2 le_rfl]
      exact hF l hl)
  rwa [Fintype.card_fin, Fintype.card_coe] at h

/-- Union over all questions. -/
theorem OracleProver.card_hits_sum (R : OracleProver M) (Q : ℕ) (T : List Digest → Finset Digest) {e : ℕ → ℕ}
    (hT : ∀ l, l.length < Q → (T l).card ≤ e l.length) :
    {H : M → Digest | ∃ i < Q, R.Fresh H i ∧ H (R.asks H i) ∈ T (R.answers H i)}.ncard * 2 ^ 256 ≤
      (∑ i ∈ Finset.range Q, e i) * (2 ^ 256) ^ M.card := by
  induction Q with
  | zero =>
    have : {H : M → Digest | ∃ i < 0, R.Fresh H i ∧ H (R.asks H i) ∈ T (R.answers H i)} = ∅ := by
      ext H
      simp
    rw [this, Set.ncard_empty, Nat.zero_mul]
    exact Nat.zero_le _
  | succ Q ih =>
    have h1 := ih fun l hl => hT l (by omega)
    have h2 := R.card_hit Q T (e := e Q) fun l hl => hl ▸ hT l (by omega)
    have h3 : {H : M → Digest | ∃ i < Q + 1, R.Fresh H i ∧ H (R.asks H i) ∈ T (R.answers H i)} ⊆
        {H : M → Digest | ∃ i < Q, R.Fresh H i ∧ H (R.asks H i) ∈ T (R.answers H i)} ∪
        {H : M → Digest | R.Fresh H Q ∧ H (R.asks H Q) ∈ T (R.answers H Q)} := by
      rintro H ⟨i, hi, h⟩
      rcases Nat.lt_or_ge i Q with h4 | h4
      · exact .inl ⟨i, h4, h⟩
      · have : i = Q := by omega
        subst this
        exact .inr h
    have h4 := (Set.ncard_le_ncard h3 (Set.toFinite _)).trans (Set.ncard_union_le _ _)
    rw [Finset.sum_range_succ]
    generalize Set.ncard _ = A at *
    generalize Set.ncard {H : M → Digest | ∃ i < Q, R.Fresh H i ∧ H (R.asks H i) ∈ T (R.answers H i)} = B at *
    generalize Set.ncard {H : M → Digest | R.Fresh H Q ∧ H (R.asks H Q) ∈ T (R.answers H Q)} = C at *
    generalize (2 ^ 256) ^ M.card = Z at *
    generalize (2 : ℕ) ^ 256 = Y at *
    nlinarith

theorem OracleProver.card_hits (R : OracleProver M) (Q : ℕ) (T : List Digest → Finset Digest) {e : ℕ}
    (hT : ∀ l, l.length < Q → (T l).card ≤ e) :
    {H : M → Digest | ∃ i < Q, R.Fresh H i ∧ H (R.asks H i) ∈ T (R.answers H i)}.ncard * 2 ^ 256 ≤ Q * e * (2 ^ 256) ^ M.card := by
  have h := R.card_hits_sum Q T (e := fun _ => e) hT
  rwa [Finset.sum_const, Finset.card_range, smul_eq_mul] at h

end Verif
