/-
A reader and a meaning for the text of `extractAndConvert` and `hexToDecimalString` (/repo/aggregator_lib_circuit.go:266-306),
with the regular expression in it, to check the hand-written definitions of Verif/Model/Strings against the source (theorems in
Verif/Props/SourceHints).
-/
import Verif.Model.Strings
import Verif.Model.KeccakText

namespace Verif.Go

/-! ### The regular expression -/

/-- A set of characters: a character, `\w` or `\s`. /repo/aggregator_lib_circuit.go:267. -/
inductive ReSet where
  | char (c : Char)
  | word
  | space
deriving DecidableEq

/-- What a regular expression is made of: a set, one or more and any number of characters of a set, the two ends of a group.
/repo/aggregator_lib_circuit.go:267. -/
inductive ReItem where
  | one (s : ReSet)
  | plus (s : ReSet)
  | star (s : ReSet)
  | left
  | right
deriving DecidableEq

/-- The characters of a set. /repo/aggregator_lib_circuit.go:267. -/
def ReSet.has : ReSet → Char → Bool
  | .char c, d => c == d
  | .word, d => isWord d
  | .space, d => isSpace d

/-- Match at the start of a text, taking repetitions as long as possible first and going back if the rest does not match. `gs` are the
groups that are complete, `g` is the text of the group that is open. The result is the groups. Go's `regexp` (leftmost-first).
Called at /repo/aggregator_lib_circuit.go:269. -/
def matchRe : List ReItem → List Char → List (List Char) → Option (List Char) → Option (List (List Char))
  | [], _, gs, _ => some gs
  | .left :: re, s, gs, _ => matchRe re s gs (some [])
  | .right :: re, s, gs, g => matchRe re s (gs ++ [g.getD []]) none
  | .one _ :: _, [], _, _ => none
  | .one a :: re, c :: s, gs, g => if a.has c then matchRe re s gs (g.map (· ++ [c])) else none
  | .plus _ :: _, [], _, _ => none
  | .plus a :: re, c :: s, gs, g => if a.has c then matchRe (.star a :: re) s gs (g.map (· ++ [c])) else none
  | .star _ :: re, [], gs, g => matchRe re [] gs g
  | .star a :: re, c :: s, gs, g =>
    if a.has c then
      match matchRe (.star a :: re) s gs (g.map (· ++ [c])) with
      | some r => some r
      | none => matchRe re (c :: s) gs g
    else matchRe re (c :: s) gs g
termination_by re s => re.length + s.length

/-- `FindStringSubmatch`: the groups of the leftmost match. Called at /repo/aggregator_lib_circuit.go:269. -/
def findRe (re : List ReItem) : List Char → Option (List (List Char))
  | [] => matchRe re [] [] none
  | c :: s => match matchRe re (c :: s) [] none with
    | some r => some r
    | none => findRe re s

/-- The characters that have a special meaning in a regular expression outside of `\`. Go's regexp/syntax, for
/repo/aggregator_lib_circuit.go:267. -/
def reSpecial : List Char := ['.', '*', '?', '[', ']', '{', '}', '|', '^', '$', '+', '\\']

/-- The items of a regular expression, with `+` after a set. /repo/aggregator_lib_circuit.go:267. -/
def readRe : List Char → Option (List ReItem)
  | [] => some []
  | '(' :: s => (readRe s).map (.left :: ·)
  | ')' :: s => (readRe s).map (.right :: ·)
  | '\\' :: 'w' :: '+' :: s => (readRe s).map (.plus .word :: ·)
  | '\\' :: 'w' :: s => (readRe s).map (.one .word :: ·)
  | '\\' :: 's' :: '+' :: s => (readRe s).map (.plus .space :: ·)
  | '\\' :: 's' :: s => (readRe s).map (.one .space :: ·)
  | '\\' :: c :: '+' :: s => if isLetter c || isDec c then none else (readRe s).map (.plus (.char c) :: ·)
  | '\\' :: c :: s => if isLetter c || isDec c then none else (readRe s).map (.one (.char c) :: ·)
  | c :: '+' :: s => if c ∈ reSpecial then none else (readRe s).map (.plus (.char c) :: ·)
  | c :: s => if c ∈ reSpecial then none else (readRe s).map (.one (.char c) :: ·)

/-- The items of the regular expression of `extractAndConvert`. /repo/aggregator_lib_circuit.go:267. -/
def reItems : List ReItem :=
  g1Prefix.map (fun c => .one (.char c)) ++ [.left, .plus .word, .right, .one (.char ','), .one .space, .left, .plus .word, .right,
    .one (.char ')')]

/-! ### The two functions -/

/-- What the text of `extractAndConvert` determines: the regular expression, the number of matches that is asked for, and the indices
of the matches that are converted and returned first and second. /repo/aggregator_lib_circuit.go:266-288. -/
structure Extract where
  re : List ReItem
  count : ℕ
  fst : ℕ
  snd : ℕ
deriving DecidableEq

/-- The body of `hexToDecimalString` with the prefix in its text; `none` is an error. /repo/aggregator_lib_circuit.go:291-306. -/
def runHex (pre s : List Char) : Option (List Char) := do
  let bytes ← hexDecode ((stripPrefix pre s).getD s)
  return decString (beNat bytes)

/-- The body of `extractAndConvert`; `none` is an error. Entry 0 of the matches is the whole match, which is not used here, and no match
gives an empty list (so a count of 0 is outside this meaning). /repo/aggregator_lib_circuit.go:266-288. -/
def runExtract (e : Extract) (hex : List Char → Option (List Char)) (input : List Char) : Option (List Char × List Char) := do
  let gs ← findRe e.re input
  if gs.length + 1 ≠ e.count ∨ e.fst = 0 ∨ e.snd = 0 then none
  let x ← gs[e.fst - 1]?
  let y ← gs[e.snd - 1]?
  let a ← hex x
  let b ← hex y
  return (a, b)

/-- `func hexToDecimalString(hexStr string) (string, error) { hexStr = strings.TrimPrefix(hexStr,`.
/repo/aggregator_lib_circuit.go:291-293. -/
def rxHexHead : List Tok :=
  [.id ['f', 'u', 'n', 'c'],
   .id ['h', 'e', 'x', 'T', 'o', 'D', 'e', 'c', 'i', 'm', 'a', 'l', 'S', 't', 'r', 'i', 'n', 'g'], .sym '(',
   .id ['h', 'e', 'x', 'S', 't', 'r'], .id ['s', 't', 'r', 'i', 'n', 'g'], .sym ')', .sym '(',
   .id ['s', 't', 'r', 'i', 'n', 'g'], .sym ',', .id ['e', 'r', 'r', 'o', 'r'], .sym ')', .sym '{',
   .id ['h', 'e', 'x', 'S', 't', 'r'], .sym '=', .id ['s', 't', 'r', 'i', 'n', 'g', 's'], .sym '.',
   .id ['T', 'r', 'i', 'm', 'P', 'r', 'e', 'f', 'i', 'x'], .sym '(', .id ['h', 'e', 'x', 'S', 't', 'r'], .sym ',']

/-- `) bytes, err := hex.DecodeString(hexStr) if err != nil { return "", err } bigInt := new(big.Int).SetBytes(bytes) return bigInt.String(), nil }`.
/repo/aggregator_lib_circuit.go:293-306. -/
def rxHexBody : List Tok :=
  [.sym ')', .id ['b', 'y', 't', 'e', 's'], .sym ',', .id ['e', 'r', 'r'], .sym ':', .sym '=', .id ['h', 'e', 'x'],
   .sym '.', .id ['D', 'e', 'c', 'o', 'd', 'e', 'S', 't', 'r', 'i', 'n', 'g'], .sym '(',
   .id ['h', 'e', 'x', 'S', 't', 'r'], .sym ')', .id ['i', 'f'], .id ['e', 'r', 'r'], .sym '!', .sym '=',
   .id ['n', 'i', 'l'], .sym '{', .id ['r', 'e', 't', 'u', 'r', 'n'], .str [], .sym ',', .id ['e', 'r', 'r'], .sym '}',
   .id ['b', 'i', 'g', 'I', 'n', 't'], .sym ':', .sym '=', .id ['n', 'e', 'w'], .sym '(', .id ['b', 'i', 'g'],
   .sym '.', .id ['I', 'n', 't'], .sym ')', .sym '.', .id ['S', 'e', 't', 'B', 'y', 't', 'e', 's'], .sym '(',
   .id ['b', 'y', 't', 'e', 's'], .sym ')', .id ['r', 'e', 't', 'u', 'r', 'n'], .id ['b', 'i', 'g', 'I', 'n', 't'],
   .sym '.', .id ['S', 't', 'r', 'i', 'n', 'g'], .sym '(', .sym ')', .sym ',', .id ['n', 'i', 'l'], .sym '}']

/-- `func extractAndConvert(input string) (string, string, error) { re := regexp.MustCompile(`.
/repo/aggregator_lib_circuit.go:266-267. -/
def rxHead : List Tok :=
  [.id ['f', 'u', 'n', 'c'], .id ['e', 'x', 't', 'r', 'a', 'c', 't', 'A', 'n', 'd', 'C', 'o', 'n', 'v', 'e', 'r', 't'],
   .sym '(', .id ['i', 'n', 'p', 'u', 't'], .id ['s', 't', 'r', 'i', 'n', 'g'], .sym ')', .sym '(',
   .id ['s', 't', 'r', 'i', 'n', 'g'], .sym ',', .id ['s', 't', 'r', 'i', 'n', 'g'], .sym ',',
   .id ['e', 'r', 'r', 'o', 'r'], .sym ')', .sym '{', .id ['r', 'e'], .sym ':', .sym '=',
   .id ['r', 'e', 'g', 'e', 'x', 'p'], .sym '.', .id ['M', 'u', 's', 't', 'C', 'o', 'm', 'p', 'i', 'l', 'e'], .sym '(']

/-- `) matches := re.FindStringSubmatch(input) if len(matches) !=`. /repo/aggregator_lib_circuit.go:267-270. -/
def rxFind : List Tok :=
  [.sym ')', .id ['m', 'a', 't', 'c', 'h', 'e', 's'], .sym ':', .sym '=', .id ['r', 'e'], .sym '.',
   .id ['F', 'i', 'n', 'd', 'S', 't', 'r', 'i', 'n', 'g', 'S', 'u', 'b', 'm', 'a', 't', 'c', 'h'], .sym '(',
   .id ['i', 'n', 'p', 'u', 't'], .sym ')', .id ['i', 'f'], .id ['l', 'e', 'n'], .sym '(',
   .id ['m', 'a', 't', 'c', 'h', 'e', 's'], .sym ')', .sym '!', .sym '=']

/-- `{ return "", "", fmt.Errorf("invalid input format") } xStr := matches[`. /repo/aggregator_lib_circuit.go:270-274. -/
def rxFormat : List Tok :=
  [.sym '{', .id ['r', 'e', 't', 'u', 'r', 'n'], .str [], .sym ',', .str [], .sym ',', .id ['f', 'm', 't'], .sym '.',
   .id ['E', 'r', 'r', 'o', 'r', 'f'], .sym '(',
   .str ['i', 'n', 'v', 'a', 'l', 'i', 'd', ' ', 'i', 'n', 'p', 'u', 't', ' ', 'f', 'o', 'r', 'm', 'a', 't'], .sym ')',
   .sym '}', .id ['x', 'S', 't', 'r'], .sym ':', .sym '=', .id ['m', 'a', 't', 'c', 'h', 'e', 's'], .sym '[']

/-- `] yStr := matches[`. /repo/aggregator_lib_circuit.go:274-275. -/
def rxSecond : List Tok :=
  [.sym ']', .id ['y', 'S', 't', 'r'], .sym ':', .sym '=', .id ['m', 'a', 't', 'c', 'h', 'e', 's'], .sym '[']

/-- `] x10Str, err := hexToDecimalString(xStr) if err != nil { return "", "", fmt.Errorf("failed to decode x: %v", err) } y10Str, err := hexToDecimalString(yStr) if err != nil { return "", "", fmt.Errorf("failed to decode y: %v", err) } return x10Str, y10Str, nil }`.
/repo/aggregator_lib_circuit.go:275-288. -/
def rxRest : List Tok :=
  [.sym ']', .id ['x', '1', '0', 'S', 't', 'r'], .sym ',', .id ['e', 'r', 'r'], .sym ':', .sym '=',
   .id ['h', 'e', 'x', 'T', 'o', 'D', 'e', 'c', 'i', 'm', 'a', 'l', 'S', 't', 'r', 'i', 'n', 'g'], .sym '(',
   .id ['x', 'S', 't', 'r'], .sym ')', .id ['i', 'f'], .id ['e', 'r', 'r'], .sym '!', .sym '=', .id ['n', 'i', 'l'],
   .sym '{', .id ['r', 'e', 't', 'u', 'r', 'n'], .str [], .sym ',', .str [], .sym ',', .id ['f', 'm', 't'], .sym '.',
   .id ['E', 'r', 'r', 'o', 'r', 'f'], .sym '(',
   .str ['f', 'a', 'i', 'l', 'e', 'd', ' ', 't', 'o', ' ', 'd', 'e', 'c', 'o', 'd', 'e', ' ', 'x', ':', ' ', '%', 'v'],
   .sym ',', .id ['e', 'r', 'r'], .sym ')', .sym '}', .id ['y', '1', '0', 'S', 't', 'r'], .sym ',',
   .id ['e', 'r', 'r'], .sym ':', .sym '=',
   .id ['h', 'e', 'x', 'T', 'o', 'D', 'e', 'c', 'i', 'm', 'a', 'l', 'S', 't', 'r', 'i', 'n', 'g'], .sym '(',
   .id ['y', 'S', 't', 'r'], .sym ')', .id ['i', 'f'], .id ['e', 'r', 'r'], .sym '!', .sym '=', .id ['n', 'i', 'l'],
   .sym '{', .id ['r', 'e', 't', 'u', 'r', 'n'], .str [], .sym ',', .str [], .sym ',', .id ['f', 'm', 't'], .sym '.',
   .id ['E', 'r', 'r', 'o', 'r', 'f'], .sym '(',
   .str ['f', 'a', 'i', 'l', 'e', 'd', ' ', 't', 'o', ' ', 'd', 'e', 'c', 'o', 'd', 'e', ' ', 'y', ':', ' ', '%', 'v'],
   .sym ',', .id ['e', 'r', 'r'], .sym ')', .sym '}', .id ['r', 'e', 't', 'u', 'r', 'n'],
   .id ['x', '1', '0', 'S', 't', 'r'], .sym ',', .id ['y', '1', '0', 'S', 't', 'r'], .sym ',', .id ['n', 'i', 'l'],
   .sym '}']

/-- The text of `hexToDecimalString`: the prefix. For the text of /repo/aggregator_lib_circuit.go:266-288. -/
def hexFun (s : List Char) : Option (List Char) :=
  match after rxHexHead (tokens s) with
  | some (.str p :: ts) => do
    let _ ← expect rxHexBody ts
    return p
  | _ => none

/-- The text of `extractAndConvert`. For the text of /repo/aggregator_lib_circuit.go:266-288. -/
def extractFun (s : List Char) : Option Extract :=
  match after rxHead (tokens s) with
  | some (.str re :: ts) => do
    let re ← readRe re
    match expect rxFind ts with
    | some (.num n :: ts) => match expect rxFormat ts with
      | some (.num i :: ts) => match expect rxSecond ts with
        | some (.num j :: ts) => do
          let _ ← expect rxRest ts
          return ⟨re, n, i, j⟩
        | _ => none
      | _ => none
    | _ => none
  | _ => none

end Verif.Go
