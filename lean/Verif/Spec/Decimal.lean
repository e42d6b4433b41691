/- Specification of decimal numbers as text (independent of the model). -/
import Mathlib.Data.Nat.Digits.Defs

namespace Verif

/-- One or more decimal digits whose value is v. -/
def DecNumeral (l : List Char) (v : ℕ) : Prop :=
  l ≠ [] ∧ ∃ ds : List ℕ, List.Forall₂ (fun c d => "0123456789".toList[d]? = some c) l ds ∧ v = Nat.ofDigits 10 ds.reverse

/-- A decimal number: digits, with or without a sign in front, whose value is z. -/
def DecInteger (l : List Char) (z : ℤ) : Prop :=
  ∃ body v, DecNumeral body v ∧ ((l = body ∧ z = v) ∨ (l = '+' :: body ∧ z = v) ∨ (l = '-' :: body ∧ z = -v))

end Verif
