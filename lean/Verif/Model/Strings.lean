/-
Model of the string handling in /repo/aggregator_lib_circuit.go (extractAndConvert, hexToDecimalString) and of
the Go library functions it uses. Strings are lists of characters.
-/
import Verif.Spec.Bytes

namespace Verif

/-- Regexp class `\w` of Go's RE2: [0-9A-Za-z_]. /repo/aggregator_lib_circuit.go:267. -/
def isWord (c : Char) : Bool :=
  ('0' ≤ c ∧ c ≤ '9') ∨ ('A' ≤ c ∧ c ≤ 'Z') ∨ ('a' ≤ c ∧ c ≤ 'z') ∨ c = '_'

/-- Regexp class `\s` of Go's RE2: [\t\n\f\r ]. /repo/aggregator_lib_circuit.go:267. -/
def isSpace (c : Char) : Bool :=
  c = '\t' ∨ c = '\n' ∨ c = Char.ofNat 12 ∨ c = '\r' ∨ c = ' '

/-- The literal part `bn256\.G1\(` of the regexp, /repo/aggregator_lib_circuit.go:267. -/
def g1Prefix : List Char := ['b', 'n', '2', '5', '6', '.', 'G', '1', '(']

/-- Strip a literal prefix. For the pattern of /repo/aggregator_lib_circuit.go:267 and the prefix of line 293. -/
def stripPrefix : List Char → List Char → Option (List Char)
  | [], l => some l
  | _ :: _, [] => none
  | p :: ps, c :: cs => if p = c then stripPrefix ps cs else none

/-- Match the regexp `bn256\.G1\((\w+),\s(\w+)\)` at the start of the string and return the two groups
(/repo/aggregator_lib_circuit.go:267). `\w+` is greedy; no backtracking can help because the character
required after each group is not in `\w`. -/
def matchHere (s : List Char) : Option (List Char × List Char) := do
  let s1 ← stripPrefix g1Prefix s
  let x := s1.takeWhile isWord
  if x = [] then none
  let s2 ← stripPrefix [','] (s1.dropWhile isWord)
  match s2 with
  | [] => none
  | c :: s3 =>
    if isSpace c = false then none
    let y := s3.takeWhile isWord
    if y = [] then none
    let _ ← stripPrefix [')'] (s3.dropWhile isWord)
    some (x, y)

/-- `regexp.FindStringSubmatch`: leftmost match. Called at /repo/aggregator_lib_circuit.go:269. -/
def findMatch : List Char → Option (List Char × List Char)
  | [] => matchHere []
  | c :: cs => match matchHere (c :: cs) with
    | some m => some m
    | none => findMatch cs

/-- Value of a hexadecimal digit (`encoding/hex` accepts both cases). For /repo/aggregator_lib_circuit.go:296. -/
def hexVal (c : Char) : Option ℕ :=
  if '0' ≤ c ∧ c ≤ '9' then some (c.toNat - '0'.toNat)
  else if 'a' ≤ c ∧ c ≤ 'f' then some (c.toNat - 'a'.toNat + 10)
  else if 'A' ≤ c ∧ c ≤ 'F' then some (c.toNat - 'A'.toNat + 10)
  else none

/-- `hex.DecodeString`: pairs of digits; odd length or a bad digit is an error (`none`).
Called at /repo/aggregator_lib_circuit.go:296. -/
def hexDecode : List Char → Option (List UInt8)
  | [] => some []
  | [_] => none
  | a :: b :: rest => do
    let x ← hexVal a
    let y ← hexVal b
    let l ← hexDecode rest
    some (UInt8.ofNat (16 * x + y) :: l)

/-- Decimal digit character. For /repo/aggregator_lib_circuit.go:305. -/
def decDigit (n : ℕ) : Char := Char.ofNat ('0'.toNat + n)

/-- `big.Int.String` on a non-negative number. Called at /repo/aggregator_lib_circuit.go:305. -/
def decString (n : ℕ) : List Char :=
  if n < 10 then [decDigit n] else decString (n / 10) ++ [decDigit (n % 10)]
termination_by n
decreasing_by omega

/-- One step of decimal parsing. For /repo/aggregator_lib_circuit.go:122-123, 210-211. -/
def decStep (acc : Option ℕ) (c : Char) : Option ℕ := do
  let a ← acc
  if '0' ≤ c ∧ c ≤ '9' then some (10 * a + (c.toNat - '0'.toNat)) else none

/-- `new(big.Int).SetString(s, 10)`; `none` is failure. Signs, never produced here, are handled in `setString10`.
Called at /repo/aggregator_lib_circuit.go:122-123, 210-211. -/
def parseDec (s : List Char) : Option ℕ :=
  if s = [] then none else s.foldl decStep (some 0)

/-- `strings.TrimPrefix(s, "0x")`. Called at /repo/aggregator_lib_circuit.go:293. -/
def trim0x (s : List Char) : List Char := (stripPrefix ['0', 'x'] s).getD s

/-- `hexToDecimalString`, /repo/aggregator_lib_circuit.go:291-306. `none` is a Go error. -/
def hexToDecimalString (s : List Char) : Option (List Char) := do
  let bytes ← hexDecode (trim0x s)
  some (decString (beNat bytes))

/-- `extractAndConvert`, /repo/aggregator_lib_circuit.go:266-288. `none` is a Go error. -/
def extractAndConvert (input : List Char) : Option (List Char × List Char) := do
  let (x, y) ← findMatch input
  let x10 ← hexToDecimalString x
  let y10 ← hexToDecimalString y
  some (x10, y10)

/-- Hexadecimal digit character as printed by `%x`. For the string of /repo/aggregator_lib_circuit.go:121, 209. -/
def hexDigit (n : ℕ) : Char := if n < 10 then Char.ofNat ('0'.toNat + n) else Char.ofNat ('a'.toNat + (n - 10))

/-- The last `k` hexadecimal digits of `n` (`fmt.Sprintf("%16.16x", w)` is `hexFixed w 16` for a 64-bit word).
For the string of /repo/aggregator_lib_circuit.go:121, 209. -/
def hexFixed (n : ℕ) : ℕ → List Char
  | 0 => []
  | k + 1 => hexFixed (n / 16) k ++ [hexDigit (n % 16)]

/-- go-ethereum `gfP.String`: four 64-bit words, most significant first. Part of `bn256.G1.String`, called at
/repo/aggregator_lib_circuit.go:121 and 209. -/
def gfPString (n : ℕ) : List Char :=
  hexFixed (n / 2 ^ 192 % 2 ^ 64) 16 ++ hexFixed (n / 2 ^ 128 % 2 ^ 64) 16 ++
    hexFixed (n / 2 ^ 64 % 2 ^ 64) 16 ++ hexFixed (n % 2 ^ 64) 16

/-- go-ethereum `bn256.G1.String` on affine coordinates, called at /repo/aggregator_lib_circuit.go:121 and 209. -/
def g1String (x y : ℕ) : List Char :=
  g1Prefix ++ gfPString x ++ [',', ' '] ++ gfPString y ++ [')']

end Verif
