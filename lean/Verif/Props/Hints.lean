/-
Properties C09–C11: string parsing, the point hints, and the byte helpers of /repo/hash.go.
-/
import Verif.Lemmas.Hints
import Verif.Lemmas.Digits

namespace Verif

/-! ### C09 -/

/-- C09: the text printed for affine coordinates x, y < 2^256 is
"bn256.G1(" + 64 hex digits of x + ", " + 64 hex digits of y + ")". -/
theorem C09_format {x y : ℕ} (hx : x < 2 ^ 256) (hy : y < 2 ^ 256) : g1String x y =
    "bn256.G1(".toList ++ hexText x ++ ", ".toList ++ hexText y ++ ")".toList := by
  rw [← hexFixed_64 hx, ← hexFixed_64 hy]
  simp [g1String, gfPString_eq, g1Prefix]

/-- C09: parsing that text gives the decimal strings of x and y, whatever text follows, and whatever text precedes
that does not contain "bn256.G1(". -/
theorem C09_roundtrip {x y : ℕ} (hx : x < 2 ^ 256) (hy : y < 2 ^ 256) (pre suf : List Char)
    (hp : ¬ "bn256.G1(".toList <:+: pre) :
    extractAndConvert (pre ++ ("bn256.G1(".toList ++ hexText x ++ ", ".toList ++ hexText y ++ ")".toList) ++ suf)
      = some (decText x, decText y) := by
  rw [← C09_format hx hy, List.append_assoc, decText, decText, ← decString_eq, ← decString_eq]
  exact extract_g1 hx hy pre suf hp

/-- C09: parsing the decimal strings gives back the numbers (for all numbers). -/
theorem C09_decimal (n : ℕ) : parseDec (decText n) = some n := by rw [decText, ← decString_eq]; exact parseDec_decString n

/-- C09: hence the text determines the coordinates. -/
theorem C09_injective {x y x' y' : ℕ} (hx : x < 2 ^ 256) (hy : y < 2 ^ 256) (hx' : x' < 2 ^ 256)
    (hy' : y' < 2 ^ 256) (h : g1String x y = g1String x' y') : x = x' ∧ y = y' := by
  have e1 := extract_g1 hx hy [] [] (by decide)
  have e2 := extract_g1 hx' hy' [] [] (by decide)
  rw [h, e2] at e1
  simp only [Option.some.injEq, Prod.mk.injEq] at e1
  constructor
  · have := congrArg parseDec e1.1
    rw [parseDec_decString, parseDec_decString] at this
    exact (Option.some.inj this).symm
  · have := congrArg parseDec e1.2
    rw [parseDec_decString, parseDec_decString] at this
    exact (Option.some.inj this).symm

/-- C09: a text that does not contain "bn256.G1(" is an error. -/
theorem C09_no_match (s : List Char) (h : ¬ "bn256.G1(".toList <:+: s) : extractAndConvert s = none := by
  unfold extractAndConvert
  rw [findMatch_none s (by simpa [g1Prefix] using h)]
  rfl

/-- C09: exactly what the parser does with any text: it succeeds iff the text contains a match of the pattern and both groups of the
leftmost match are an even number of hexadecimal digits, with or without 0x in front; it then returns the decimal strings of the two
numbers. -/
theorem C09_exact (s a b : List Char) : extractAndConvert s = some (a, b) ↔ ∃ x y x' y' u v, Regex.Leftmost s x y ∧
    (x = x' ∨ x = "0x".toList ++ x') ∧ (y = y' ∨ y = "0x".toList ++ y') ∧ HexNumeral x' u ∧ HexNumeral y' v ∧
    a = decText u ∧ b = decText v := by
  simp only [extract_iff, hexToDecimalString_iff, decString_eq, decText]
  constructor
  · rintro ⟨x, y, h, ⟨x', u, h1, h2, h3⟩, y', v, h4, h5, h6⟩
    exact ⟨x, y, x', y', u, v, h, h1, h4, h2, h5, h3, h6⟩
  · rintro ⟨x, y, x', y', u, v, h, h1, h4, h2, h5, h3, h6⟩
    exact ⟨x, y, h, ⟨x', u, h1, h2, h3⟩, y', v, h4, h5, h6⟩

-- the second group may carry 0x and capital digits, the white space may be a tab
example : extractAndConvert "bn256.G1(1, 2) bn256.G1(0f,\t0xFF) bn256.G1(00, 00)".toList = none := by decide +kernel
example : extractAndConvert "bn256.G1(), bn256.G1(0f,\t0xFF) bn256.G1(00, 00)".toList = some ("15".toList, "255".toList) :=
  (C09_exact _ _ _).2 ⟨"0f".toList, "0xFF".toList, "0f".toList, "FF".toList, 15, 255,
    (findMatch_iff _ _ _).1 (by decide +kernel), .inl rfl, .inr rfl,
    ⟨by decide, [0, 15], .cons (.inl rfl) (.cons (.inl rfl) .nil), by decide⟩,
    ⟨by decide, [15, 15], .cons (.inr rfl) (.cons (.inr rfl) .nil), by decide⟩, rfl, rfl⟩

example : decText 255 = "255".toList := by decide +kernel
example : hexText 255 = (String.ofList (List.replicate 62 '0') ++ "ff").toList := by decide +kernel
example : extractAndConvert ("x = ".toList ++ ("bn256.G1(".toList ++ hexText 255 ++ ", ".toList ++
    hexText 10 ++ ")".toList) ++ " tail".toList) = some ("255".toList, "10".toList) :=
  C09_roundtrip (by norm_num) (by norm_num) _ _ (by decide +kernel)
example : extractAndConvert "bn256.G2(1, 2)".toList = none := C09_no_match _ (by decide +kernel)

/-! ### C10 -/

/-- C10: scalar-multiplication hint on the canonical encoding of P: the affine coordinates of k·P. -/
theorem C10_msm {a b k : ℤ} {P : G1} (ha : a.natAbs = (enc P).1.val) (hb : b.natAbs = (enc P).2.val)
    (h : k • P ≠ 0) : MsmHint [a, b, k] = .ok [((enc (k • P)).1.val : ℤ), ((enc (k • P)).2.val : ℤ)] := by
  rw [MsmHint_eq ha hb, bn256Affine_ne h]

/-- C10: if k·P is the point at infinity the hint answers (0, 1). -/
theorem C10_msm_infinity {a b k : ℤ} {P : G1} (ha : a.natAbs = (enc P).1.val) (hb : b.natAbs = (enc P).2.val)
    (h : k • P = 0) : MsmHint [a, b, k] = .ok [0, 1] := by
  rw [MsmHint_eq ha hb, h, bn256Affine_zero]; rfl

/-- C10: a pair that is not canonical, or neither on the curve nor (0,0), is an error. -/
theorem C10_msm_bad_point {a b k : ℤ} (ha : a.natAbs < 2 ^ 256) (hb : b.natAbs < 2 ^ 256)
    (h : ¬ (a.natAbs < pMod ∧ b.natAbs < pMod ∧
      ((b.natAbs : Fp) ^ 2 = (a.natAbs : Fp) ^ 3 + 3 ∨ (a.natAbs = 0 ∧ b.natAbs = 0)))) :
    MsmHint [a, b, k] = .err := by
  simp only [MsmHint, fillBytes32_of_lt ha, fillBytes32_of_lt hb, unmarshal_none ha hb (exists_enc_iff.not.2 h)]

/-- C10: a coordinate of 2^256 or more in absolute value panics. -/
theorem C10_msm_too_big {a b k : ℤ} (h : 2 ^ 256 ≤ a.natAbs ∨ 2 ^ 256 ≤ b.natAbs) : MsmHint [a, b, k] = .panic := by
  rcases h with h | h
  · simp only [MsmHint, fillBytes32_none h]
  · simp only [MsmHint]
    rw [fillBytes32_none h]
    cases fillBytes32 a <;> rfl

/-- C10: wrong arity panics. -/
theorem C10_msm_arity {ins : List ℤ} (h : ins.length ≠ 3) : MsmHint ins = .panic := by
  match ins, h with
  | [], _ => rfl
  | [_], _ => rfl
  | [_, _], _ => rfl
  | [_, _, _], h => simp at h
  | _ :: _ :: _ :: _ :: _, _ => rfl

/-- C10: addition hint on canonical encodings of P and Q: the affine coordinates of P + Q. -/
theorem C10_add {a b c d : ℤ} {P Q : G1} (ha : a.natAbs = (enc P).1.val) (hb : b.natAbs = (enc P).2.val)
    (hc : c.natAbs = (enc Q).1.val) (hd : d.natAbs = (enc Q).2.val) (h : P + Q ≠ 0) :
    AddHint [a, b, c, d] = .ok [((enc (P + Q)).1.val : ℤ), ((enc (P + Q)).2.val : ℤ)] := by
  rw [AddHint_eq ha hb hc hd, bn256Affine_ne h]

/-- C10: an infinite sum is answered by (0, 1). -/
theorem C10_add_infinity {a b c d : ℤ} {P Q : G1} (ha : a.natAbs = (enc P).1.val) (hb : b.natAbs = (enc P).2.val)
    (hc : c.natAbs = (enc Q).1.val) (hd : d.natAbs = (enc Q).2.val) (h : P + Q = 0) :
    AddHint [a, b, c, d] = .ok [0, 1] := by
  rw [AddHint_eq ha hb hc hd, h, bn256Affine_zero]; rfl

/-- C10: a bad first point is an error (whatever the second). -/
theorem C10_add_bad_first {a b c d : ℤ} (ha : a.natAbs < 2 ^ 256) (hb : b.natAbs < 2 ^ 256)
    (h : ¬ (a.natAbs < pMod ∧ b.natAbs < pMod ∧
      ((b.natAbs : Fp) ^ 2 = (a.natAbs : Fp) ^ 3 + 3 ∨ (a.natAbs = 0 ∧ b.natAbs = 0)))) :
    AddHint [a, b, c, d] = .err := by
  simp only [AddHint, fillBytes32_of_lt ha, fillBytes32_of_lt hb, unmarshal_none ha hb (exists_enc_iff.not.2 h)]

/-- C10: a bad second point is an error. -/
theorem C10_add_bad_second {a b c d : ℤ} {P : G1} (ha : a.natAbs = (enc P).1.val) (hb : b.natAbs = (enc P).2.val)
    (hc : c.natAbs < 2 ^ 256) (hd : d.natAbs < 2 ^ 256)
    (h : ¬ (c.natAbs < pMod ∧ d.natAbs < pMod ∧
      ((d.natAbs : Fp) ^ 2 = (c.natAbs : Fp) ^ 3 + 3 ∨ (c.natAbs = 0 ∧ d.natAbs = 0)))) :
    AddHint [a, b, c, d] = .err := by
  have h1 : a.natAbs < 2 ^ 256 := ha ▸ (fp_val_lt _).trans p_lt_256
  have h2 : b.natAbs < 2 ^ 256 := hb ▸ (fp_val_lt _).trans p_lt_256
  simp only [AddHint, fillBytes32_of_lt h1, fillBytes32_of_lt h2, fillBytes32_of_lt hc, fillBytes32_of_lt hd,
    unmarshal_enc P ha hb, unmarshal_none hc hd (exists_enc_iff.not.2 h)]

/-- C10: an oversized coordinate panics (if the first point is readable; a bad first point is an error first). -/
theorem C10_add_too_big {a b c d : ℤ} (h : 2 ^ 256 ≤ a.natAbs ∨ 2 ^ 256 ≤ b.natAbs ∨
    (∃ P : G1, a.natAbs = (enc P).1.val ∧ b.natAbs = (enc P).2.val) ∧
      (2 ^ 256 ≤ c.natAbs ∨ 2 ^ 256 ≤ d.natAbs)) : AddHint [a, b, c, d] = .panic := by
  rcases h with h | h | ⟨⟨P, ha, hb⟩, h⟩
  · simp only [AddHint, fillBytes32_none h]
  · simp only [AddHint, fillBytes32_none h]
    cases fillBytes32 a <;> rfl
  · have h1 : a.natAbs < 2 ^ 256 := ha ▸ (fp_val_lt _).trans p_lt_256
    have h2 : b.natAbs < 2 ^ 256 := hb ▸ (fp_val_lt _).trans p_lt_256
    simp only [AddHint, fillBytes32_of_lt h1, fillBytes32_of_lt h2, unmarshal_enc P ha hb]
    rcases h with h | h
    · simp only [fillBytes32_none h]
    · simp only [fillBytes32_none h]
      cases fillBytes32 c <;> rfl

/-- C10: wrong arity panics. -/
theorem C10_add_arity {ins : List ℤ} (h : ins.length ≠ 4) : AddHint ins = .panic := by
  match ins, h with
  | [], _ => rfl
  | [_], _ => rfl
  | [_, _], _ => rfl
  | [_, _, _], _ => rfl
  | [_, _, _, _], h => simp at h
  | _ :: _ :: _ :: _ :: _ :: _, _ => rfl

-- 2·(1,2), a concrete case: the hint computes the doubled generator
example : MsmHint [1, 2, 2] =
    .ok [1368015179489954701390400359078579693043519447331113978918064868415326638035,
         9918110051302171585080402603319702774565515993150576347155970296011118125764] := by
  have e : encN ((2 : ℕ) • G1gen) = (1368015179489954701390400359078579693043519447331113978918064868415326638035,
         9918110051302171585080402603319702774565515993150576347155970296011118125764) := by
    rw [← mulN_encN _ _ (by norm_num), encN_gen]; decide +kernel
  have e2 : ((2 : ℤ) • G1gen) = (2 : ℕ) • G1gen := by norm_cast
  have hne : (2 : ℤ) • G1gen ≠ 0 := by
    rw [e2]; intro h; rw [h, encN_zero] at e; exact absurd e (by decide)
  have g := encN_gen
  unfold encN at g e
  simp only [Prod.mk.injEq] at g e
  rw [C10_msm (P := G1gen) (by rw [g.1]; rfl) (by rw [g.2]; rfl) hne, e2, e.1, e.2]
  rfl
example : MsmHint [0, 0, 5] = .ok [0, 1] := C10_msm_infinity (a := 0) (b := 0) (P := 0) (by simp) (by simp) (zsmul_zero _)
example : MsmHint [1, 3, 5] = .err := C10_msm_bad_point (by norm_num) (by norm_num) (by decide +kernel)

/-! ### C11 -/

/-- What C11 asks of `toBytes`: on a single number below 2^256 and 32 result slots it succeeds with bytes whose
little-endian value is the number. -/
def ToBytesCorrect : Prop := ∀ n : ℕ, n < 2 ^ 256 →
  ∃ outs : List ℤ, toBytes 32 [(n : ℤ)] = .ok outs ∧ outs.length = 32 ∧ (∀ b ∈ outs, 0 ≤ b ∧ b < 256) ∧
    outs.foldr (fun b acc => b + 256 * acc) (0 : ℤ) = (n : ℤ)

/-- C11 is false: `toBytes` never succeeds, on any inputs and any number of result slots. -/
theorem C11_toBytes_never (nOut : ℕ) (ins outs : List ℤ) : toBytes nOut ins ≠ .ok outs := by
  unfold toBytes
  split
  · simp
  · rename_i h
    split
    · simp
    · have : ins[1]? = none := by
        rw [List.getElem?_eq_none]; push Not at h; omega
      rw [this]; simp

theorem C11_toBytes_false : ¬ ToBytesCorrect := fun h => by
  obtain ⟨outs, h1, -⟩ := h 0 (by norm_num)
  exact C11_toBytes_never _ _ _ h1

/-- C11: the exact failure: error unless there is one input and 32 slots, and then a panic. -/
theorem C11_toBytes_outcome (nOut : ℕ) (ins : List ℤ) :
    toBytes nOut ins = if ins.length = 1 ∧ nOut = 32 then .panic else .err := by
  unfold toBytes
  by_cases h1 : ins.length = 1
  · by_cases h2 : nOut = 32
    · simp [h1, h2]
    · simp [h1, h2]
  · simp [h1]

/-- C11 is false: `ValueOf` returns the same 32·n empty bytes for all inputs of length n. -/
theorem C11_valueOf_ignores (a b : List Var) (h : a.length = b.length) : ValueOf a = ValueOf b := by
  simp [ValueOf, h]

theorem C11_valueOf_nil (a : List Var) : (ValueOf a).length = 32 * a.length ∧ ∀ v ∈ ValueOf a, v = .nil := by
  simp [ValueOf]

example : ValueOf [.big 1] = ValueOf [.big 2] := C11_valueOf_ignores _ _ rfl

end Verif
