/- The decimal and hexadecimal texts of the model are the standard ones. -/
import Verif.Model.Strings
import Verif.Spec.Regex
import Mathlib.Tactic.IntervalCases

namespace Verif

theorem decDigit_eq {n : ℕ} (h : n < 10) : decDigit n = n.digitChar := by
  interval_cases n <;> rfl

theorem hexDigit_eq {n : ℕ} (h : n < 16) : hexDigit n = n.digitChar := by
  interval_cases n <;> rfl

/-- The decimal text of a number is the standard one. -/
theorem decString_eq (n : ℕ) : decString n = Nat.toDigits 10 n := by
  induction n using Nat.strong_induction_on with
  | _ n ih =>
    rw [decString]
    split
    · rename_i h
      rw [Nat.toDigits_of_lt_base h, decDigit_eq h]
    · rename_i h
      rw [Nat.toDigits_of_base_le (by norm_num) (by omega), ih _ (by omega), decDigit_eq (Nat.mod_lt _ (by norm_num))]

theorem hexFixed_zero : ∀ k, hexFixed 0 k = List.replicate k '0'
  | 0 => rfl
  | k + 1 => by
    rw [hexFixed, Nat.zero_div, hexFixed_zero k, List.replicate_succ']
    rfl

/-- The fixed-width hexadecimal text of a number is the standard one with zeros in front. -/
theorem hexFixed_eq : ∀ (k : ℕ) {n : ℕ}, n < 16 ^ (k + 1) → hexFixed n (k + 1) = List.leftpad (k + 1) '0' (Nat.toDigits 16 n) := by
  intro k
  induction k with
  | zero =>
    intro n h
    rw [zero_add, pow_one] at h
    rw [hexFixed, hexFixed, Nat.toDigits_of_lt_base h, hexDigit_eq (Nat.mod_lt _ (by norm_num)), Nat.mod_eq_of_lt h]
    rfl
  | succ k ih =>
    intro n h
    rw [hexFixed, hexDigit_eq (Nat.mod_lt _ (by norm_num))]
    by_cases h16 : n < 16
    · rw [Nat.div_eq_of_lt h16, hexFixed_zero, Nat.mod_eq_of_lt h16, Nat.toDigits_of_lt_base h16]
      rfl
    · rw [Nat.toDigits_of_base_le (by norm_num) (by omega), ih (by rw [pow_succ] at h; omega)]
      simp only [List.leftpad, List.length_append, List.length_singleton, ← List.append_assoc]
      congr 2
      congr 1
      omega

theorem hexFixed_64 {n : ℕ} (h : n < 2 ^ 256) : hexFixed n 64 = hexText n := hexFixed_eq 63 (by rw [show 16 ^ (63 + 1) = 2 ^ 256 by norm_num]; exact h)

end Verif
