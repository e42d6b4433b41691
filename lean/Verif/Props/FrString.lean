/- Property C67: fr_from_string. -/
import Verif.Lemmas.Decimal
import Verif.Lemmas.Digits

namespace Verif

/-- C67: for every string and every integer, `fr_from_string` returns this integer exactly if the string is a decimal number
with this value, with or without a sign, leading zeros allowed. There is no reduction modulo r. -/
theorem C67_exact (str : String) (z : ℤ) : frFromString str = .big z ↔ DecInteger str.toList z := by
  rw [← setString10_iff, frFromString]
  cases setString10 str.toList with
  | none => exact ⟨nofun, nofun⟩
  | some w => simp only [Var.big.injEq, Option.some.injEq]

/-- C67: on the decimal literal of a number it returns the number: this is the function the verification steps are modelled
with. -/
theorem C67_literal (n : ℕ) : frFromString (toString n) = .big n ∧ fr_from_string n = .big n := by
  refine ⟨(C67_exact _ _).2 ⟨decString n, n, (parseDec_iff _ _).1 (parseDec_decString n), .inl ⟨?_, rfl⟩⟩, rfl⟩
  rw [decString_eq, Nat.toString_eq_repr, Nat.repr_eq_ofList_toDigits, String.toList_ofList]

/-- C67: on a string that is not a decimal number it reports nothing, but every use of what it returns panics: as an operand of
the field operations, on either side of an assertion, and as an exponent, in every engine. -/
theorem C67_bad {str : String} (h : ∀ z, ¬ DecInteger str.toList z) (a : Var) (E : Engine) (s : St) :
    (∃ p, fr_add a (frFromString str) E s = .error p) ∧ (∃ p, fr_sub a (frFromString str) E s = .error p) ∧
    (∃ p, fr_mul a (frFromString str) E s = .error p) ∧ (∃ p, fr_neg (frFromString str) E s = .error p) ∧
    (∃ p, fr_pow a (frFromString str) E s = .error p) ∧
    (∃ p, apiAssertIsEqual a (frFromString str) E s = .error p) ∧ (∃ p, apiAssertIsEqual (frFromString str) a E s = .error p) := by
  have hn : frFromString str = .nil := by
    cases hf : setString10 str.toList with
    | none => rw [frFromString, hf]
    | some z => exact absurd ((setString10_iff _ _).1 hf) (h z)
  rw [hn]
  cases a <;> refine ⟨⟨_, rfl⟩, ⟨_, rfl⟩, ⟨_, rfl⟩, ⟨_, rfl⟩, ⟨_, rfl⟩, ⟨_, rfl⟩, ⟨_, rfl⟩⟩

/-- C67_exact, C67_bad: texts that are numbers, and texts that are not. -/
example : frFromString "-007" = .big (-7) ∧ frFromString "+12" = .big 12 ∧ (∀ z, ¬ DecInteger "0x10".toList z) ∧
    (∀ z, ¬ DecInteger "".toList z) ∧ (∀ z, ¬ DecInteger "1_000".toList z) := by
  have bad : ∀ {l : List Char}, setString10 l = none → ∀ z, ¬ DecInteger l z := by
    intro l h z hz
    rw [← setString10_iff, h] at hz
    cases hz
  exact ⟨by decide +kernel, by decide +kernel, bad (by decide +kernel), bad (by decide +kernel), bad (by decide +kernel)⟩

end Verif
