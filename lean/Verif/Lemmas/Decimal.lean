/- What setString10 accepts (no property theorems here). -/
import Verif.Model.FrString
import Verif.Spec.Decimal
import Verif.Lemmas.Strings
import Mathlib.Tactic.Ring
import Mathlib.Tactic.IntervalCases

namespace Verif

theorem decChar_iff (c : Char) (d : ℕ) : "0123456789".toList[d]? = some c ↔ ('0' ≤ c ∧ c ≤ '9') ∧ c.toNat - '0'.toNat = d := by
  constructor
  · intro h
    have hd : d < 10 := (List.getElem?_eq_some_iff.1 h).1
    interval_cases d <;> (cases h; decide)
  · rintro ⟨⟨h1, h2⟩, rfl⟩
    have e1 : 48 ≤ c.toNat := h1
    have e2 : c.toNat ≤ 57 := h2
    have e3 : c = Char.ofNat c.toNat := (Char.ofNat_toNat c).symm
    generalize c.toNat = n at *
    subst e3
    interval_cases n <;> rfl

theorem foldl_decStep_none (l : List Char) : l.foldl decStep none = none := by
  induction l with
  | nil => rfl
  | cons c l ih => exact ih

theorem foldl_decStep_iff (l : List Char) (a v : ℕ) : l.foldl decStep (some a) = some v ↔
    ∃ ds : List ℕ, List.Forall₂ (fun c d => "0123456789".toList[d]? = some c) l ds ∧ v = Nat.ofDigits 10 (ds.reverse ++ [a]) := by
  induction l generalizing a with
  | nil =>
    simp only [List.foldl_nil, Option.some.injEq, List.forall₂_nil_left_iff, exists_eq_left, List.reverse_nil, List.nil_append,
      Nat.ofDigits_singleton]
    exact eq_comm
  | cons c l ih =>
    rw [List.foldl_cons]
    by_cases hc : '0' ≤ c ∧ c ≤ '9'
    · have : decStep (some a) c = some (10 * a + (c.toNat - '0'.toNat)) := by simp [decStep, hc]
      rw [this, ih]
      constructor
      · rintro ⟨ds, h, rfl⟩
        refine ⟨(c.toNat - '0'.toNat) :: ds, .cons ((decChar_iff _ _).2 ⟨hc, rfl⟩) h, ?_⟩
        simp [Nat.ofDigits_append, Nat.ofDigits_cons]
        ring
      · rintro ⟨ds, h, rfl⟩
        cases h with
        | cons hd h =>
          rename_i d ds
          obtain ⟨-, rfl⟩ := (decChar_iff _ _).1 hd
          refine ⟨ds, h, ?_⟩
          simp [Nat.ofDigits_append, Nat.ofDigits_cons]
          ring
    · have : decStep (some a) c = none := by simp only [decStep, Option.bind_eq_bind, Option.bind_some, if_neg hc]
      rw [this, foldl_decStep_none]
      refine ⟨nofun, ?_⟩
      rintro ⟨ds, h, -⟩
      cases h with
      | cons hd h => exact absurd ((decChar_iff _ _).1 hd).1 hc

theorem parseDec_iff (l : List Char) (v : ℕ) : parseDec l = some v ↔ DecNumeral l v := by
  unfold parseDec DecNumeral
  by_cases h : l = []
  · simp [h]
  · rw [if_neg h, foldl_decStep_iff]
    simp only [Nat.ofDigits_append, Nat.ofDigits_singleton, mul_zero, add_zero, ne_eq, h, not_false_eq_true, true_and]

theorem setString10_iff (l : List Char) (z : ℤ) : setString10 l = some z ↔ DecInteger l z := by
  have sign : ∀ {b : List Char} {v : ℕ} {c : Char} {t : List Char}, DecNumeral b v → b = c :: t → '0' ≤ c := by
    rintro b v c t ⟨-, ds, h, -⟩ rfl
    cases h with
    | cons hd h => exact ((decChar_iff _ _).1 hd).1.1
  unfold setString10 DecInteger
  split
  · rename_i s
    simp only [Option.map_eq_some_iff, parseDec_iff]
    constructor
    · rintro ⟨v, h, rfl⟩
      exact ⟨s, v, h, .inr (.inl ⟨rfl, rfl⟩)⟩
    · rintro ⟨b, v, h, ⟨h1, rfl⟩ | ⟨h1, rfl⟩ | ⟨h1, rfl⟩⟩
      · exact absurd (sign h h1.symm) (by decide)
      · cases h1; exact ⟨v, h, rfl⟩
      · cases h1
  · rename_i s
    simp only [Option.map_eq_some_iff, parseDec_iff]
    constructor
    · rintro ⟨v, h, rfl⟩
      exact ⟨s, v, h, .inr (.inr ⟨rfl, rfl⟩)⟩
    · rintro ⟨b, v, h, ⟨h1, rfl⟩ | ⟨h1, rfl⟩ | ⟨h1, rfl⟩⟩
      · exact absurd (sign h h1.symm) (by decide)
      · cases h1
      · cases h1; exact ⟨v, h, rfl⟩
  · rename_i n1 n2
    simp only [Option.map_eq_some_iff, parseDec_iff]
    constructor
    · rintro ⟨v, h, rfl⟩
      exact ⟨l, v, h, .inl ⟨rfl, rfl⟩⟩
    · rintro ⟨b, v, h, ⟨h1, rfl⟩ | ⟨h1, rfl⟩ | ⟨h1, rfl⟩⟩
      · subst h1; exact ⟨v, h, rfl⟩
      · exact absurd h1 (n1 _)
      · exact absurd h1 (n2 _)

end Verif
