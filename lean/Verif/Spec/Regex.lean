/-
Specification for C09: the decimal and hexadecimal text of a number, what it means that a text contains a match of the pattern `bn256\.G1\((\w+),\s(\w+)\)`, and
what number a hexadecimal numeral denotes. Independent of the model.
-/
import Mathlib.Data.Nat.Digits.Defs

namespace Verif

/-- A letter, a digit or `_`. -/
def Regex.Word (c : Char) : Prop := c.isAlphanum = true ∨ c = '_'

/-- White space. -/
def Regex.Space (c : Char) : Prop := c ∈ ['\t', '\n', '\x0c', '\r', ' ']

/-- The text `t` begins with a match of `bn256\.G1\((\w+),\s(\w+)\)` with the groups x and y. -/
def Regex.MatchesAt (t x y : List Char) : Prop :=
  x ≠ [] ∧ y ≠ [] ∧ (∀ c ∈ x, Regex.Word c) ∧ (∀ c ∈ y, Regex.Word c) ∧
    ∃ (c : Char) (suf : List Char), Regex.Space c ∧ t = "bn256.G1(".toList ++ x ++ ',' :: c :: y ++ ')' :: suf

/-- The leftmost match of the pattern in the text has the groups x and y. -/
def Regex.Leftmost (s x y : List Char) : Prop :=
  ∃ pre t, s = pre ++ t ∧ Regex.MatchesAt t x y ∧
    ∀ pre' t', s = pre' ++ t' → pre'.length < pre.length → ∀ x' y', ¬ Regex.MatchesAt t' x' y'

/-- An even number of hexadecimal digits, of either case, whose value is v. -/
def HexNumeral (l : List Char) (v : ℕ) : Prop :=
  Even l.length ∧ ∃ ds : List ℕ, List.Forall₂ (fun c d => "0123456789abcdef".toList[d]? = some c ∨
    "0123456789ABCDEF".toList[d]? = some c) l ds ∧ v = Nat.ofDigits 16 ds.reverse

/-- The decimal text of a number (the characters of Lean's `toString n`). -/
def decText (n : ℕ) : List Char := Nat.toDigits 10 n

/-- The hexadecimal text of a number, lower case, with zeros in front up to 64 characters. -/
def hexText (n : ℕ) : List Char := List.leftpad 64 '0' (Nat.toDigits 16 n)

end Verif
