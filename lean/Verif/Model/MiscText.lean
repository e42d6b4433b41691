/-
A reader and a meaning for the text of `fr_from_string` (/repo/fr.go:101-104), of `toBytes` and `ValueOf` (/repo/hash.go:11-47) and of
`VerifyMultiScalarMul` (/repo/msm.go:21-40), to check the hand-written definitions of Verif/Model/FrString, Verif/Model/Hints and
Verif/Model/Curve against the source (theorems in Verif/Props/SourcePlain).
-/
import Verif.Model.FrString
import Verif.Model.PlainText

namespace Verif.Go

/-- What the text of `toBytes` determines: the number of inputs, the number of outputs, the index of the input that is tested and taken
apart (twice in the text), the bits per output (twice), the index of the input that is written out at the end, and its number of bytes.
/repo/hash.go:26-47. -/
structure ToBytes where
  nIn : ℕ
  nOut : ℕ
  test : ℕ
  base : ℕ
  take : ℕ
  shift : ℕ
  last : ℕ
  fill : ℕ
deriving DecidableEq

/-- The body of `toBytes`; an index out of range panics, and so does `FillBytes` if the number does not fit. The value of the tested input
is not negative, so that `Mod` and `Rsh` are those of natural numbers. /repo/hash.go:26-47. -/
def runToBytes (p : ToBytes) (nOut : ℕ) (ins : List ℤ) : HintRes :=
  if ins.length ≠ p.nIn then .err
  else if nOut ≠ p.nOut then .err
  else match ins[p.test]? with
    | none => .panic
    | some n => if ¬ (0 ≤ n ∧ n < 2 ^ 64) then .err
      else match ins[p.take]? with
      | none => .panic
      | some t => match ins[p.last]? with
        | none => .panic
        | some m =>
          if m.natAbs < 2 ^ (8 * p.fill) then .ok ((List.range p.nOut).map fun i => t / 2 ^ (p.shift * i) % 2 ^ p.base) else .panic

/-- `func toBytes(m *big.Int, inputs []*big.Int, outputs []*big.Int) error { if len(inputs) !=`. /repo/hash.go:26-27. -/
def msHead : List Tok :=
  [.id ['f', 'u', 'n', 'c'], .id ['t', 'o', 'B', 'y', 't', 'e', 's'], .sym '(', .id ['m'], .sym '*',
   .id ['b', 'i', 'g'], .sym '.', .id ['I', 'n', 't'], .sym ',', .id ['i', 'n', 'p', 'u', 't', 's'], .sym '[',
   .sym ']', .sym '*', .id ['b', 'i', 'g'], .sym '.', .id ['I', 'n', 't'], .sym ',',
   .id ['o', 'u', 't', 'p', 'u', 't', 's'], .sym '[', .sym ']', .sym '*', .id ['b', 'i', 'g'], .sym '.',
   .id ['I', 'n', 't'], .sym ')', .id ['e', 'r', 'r', 'o', 'r'], .sym '{', .id ['i', 'f'], .id ['l', 'e', 'n'],
   .sym '(', .id ['i', 'n', 'p', 'u', 't', 's'], .sym ')', .sym '!', .sym '=']

/-- `{ return fmt.Errorf("input must be 1 elements") } nbLimbs :=`. /repo/hash.go:27-30. -/
def msLimbs : List Tok :=
  [.sym '{', .id ['r', 'e', 't', 'u', 'r', 'n'], .id ['f', 'm', 't'], .sym '.', .id ['E', 'r', 'r', 'o', 'r', 'f'],
   .sym '(',
   .str ['i', 'n', 'p', 'u', 't', ' ', 'm', 'u', 's', 't', ' ', 'b', 'e', ' ', '1', ' ', 'e', 'l', 'e', 'm', 'e', 'n', 't', 's'],
   .sym ')', .sym '}', .id ['n', 'b', 'L', 'i', 'm', 'b', 's'], .sym ':', .sym '=']

/-- `if len(outputs) != nbLimbs { return fmt.Errorf("output must be 8 elements") } if !inputs[`. /repo/hash.go:31-34. -/
def msTest : List Tok :=
  [.id ['i', 'f'], .id ['l', 'e', 'n'], .sym '(', .id ['o', 'u', 't', 'p', 'u', 't', 's'], .sym ')', .sym '!',
   .sym '=', .id ['n', 'b', 'L', 'i', 'm', 'b', 's'], .sym '{', .id ['r', 'e', 't', 'u', 'r', 'n'],
   .id ['f', 'm', 't'], .sym '.', .id ['E', 'r', 'r', 'o', 'r', 'f'], .sym '(',
   .str ['o', 'u', 't', 'p', 'u', 't', ' ', 'm', 'u', 's', 't', ' ', 'b', 'e', ' ', '8', ' ', 'e', 'l', 'e', 'm', 'e', 'n', 't', 's'],
   .sym ')', .sym '}', .id ['i', 'f'], .sym '!', .id ['i', 'n', 'p', 'u', 't', 's'], .sym '[']

/-- `].IsUint64() { return fmt.Errorf("input must be 64 bits") } base := new(big.Int).Lsh(big.NewInt(1), uint(`.
/repo/hash.go:34-37. -/
def msBase : List Tok :=
  [.sym ']', .sym '.', .id ['I', 's', 'U', 'i', 'n', 't', '6', '4'], .sym '(', .sym ')', .sym '{',
   .id ['r', 'e', 't', 'u', 'r', 'n'], .id ['f', 'm', 't'], .sym '.', .id ['E', 'r', 'r', 'o', 'r', 'f'], .sym '(',
   .str ['i', 'n', 'p', 'u', 't', ' ', 'm', 'u', 's', 't', ' ', 'b', 'e', ' ', '6', '4', ' ', 'b', 'i', 't', 's'],
   .sym ')', .sym '}', .id ['b', 'a', 's', 'e'], .sym ':', .sym '=', .id ['n', 'e', 'w'], .sym '(',
   .id ['b', 'i', 'g'], .sym '.', .id ['I', 'n', 't'], .sym ')', .sym '.', .id ['L', 's', 'h'], .sym '(',
   .id ['b', 'i', 'g'], .sym '.', .id ['N', 'e', 'w', 'I', 'n', 't'], .sym '(', .num 1, .sym ')', .sym ',',
   .id ['u', 'i', 'n', 't'], .sym '(']

/-- `)) tmp := new(big.Int).Set(inputs[`. /repo/hash.go:37-38. -/
def msTake : List Tok :=
  [.sym ')', .sym ')', .id ['t', 'm', 'p'], .sym ':', .sym '=', .id ['n', 'e', 'w'], .sym '(', .id ['b', 'i', 'g'],
   .sym '.', .id ['I', 'n', 't'], .sym ')', .sym '.', .id ['S', 'e', 't'], .sym '(',
   .id ['i', 'n', 'p', 'u', 't', 's'], .sym '[']

/-- `]) for i := 0; i < nbLimbs; i++ { outputs[i].Mod(tmp, base) tmp.Rsh(tmp,`. /repo/hash.go:38-41. -/
def msLoop : List Tok :=
  [.sym ']', .sym ')', .id ['f', 'o', 'r'], .id ['i'], .sym ':', .sym '=', .num 0, .sym ';', .id ['i'], .sym '<',
   .id ['n', 'b', 'L', 'i', 'm', 'b', 's'], .sym ';', .id ['i'], .sym '+', .sym '+', .sym '{',
   .id ['o', 'u', 't', 'p', 'u', 't', 's'], .sym '[', .id ['i'], .sym ']', .sym '.', .id ['M', 'o', 'd'], .sym '(',
   .id ['t', 'm', 'p'], .sym ',', .id ['b', 'a', 's', 'e'], .sym ')', .id ['t', 'm', 'p'], .sym '.',
   .id ['R', 's', 'h'], .sym '(', .id ['t', 'm', 'p'], .sym ',']

/-- `) } inputs[`. /repo/hash.go:41-44. -/
def msLast : List Tok :=
  [.sym ')', .sym '}', .id ['i', 'n', 'p', 'u', 't', 's'], .sym '[']

/-- `].FillBytes(make([]byte,`. /repo/hash.go:44. -/
def msFill : List Tok :=
  [.sym ']', .sym '.', .id ['F', 'i', 'l', 'l', 'B', 'y', 't', 'e', 's'], .sym '(', .id ['m', 'a', 'k', 'e'], .sym '(',
   .sym '[', .sym ']', .id ['b', 'y', 't', 'e'], .sym ',']

/-- `)) return nil }`. /repo/hash.go:44-47. -/
def msEnd : List Tok :=
  [.sym ')', .sym ')', .id ['r', 'e', 't', 'u', 'r', 'n'], .id ['n', 'i', 'l'], .sym '}']

/-- `func ValueOf(api frontend.API, a []frontend.Variable) []uints.U8 { length :=`. /repo/hash.go:11-12. -/
def msValueOf : List Tok :=
  [.id ['f', 'u', 'n', 'c'], .id ['V', 'a', 'l', 'u', 'e', 'O', 'f'], .sym '(', .id ['a', 'p', 'i'],
   .id ['f', 'r', 'o', 'n', 't', 'e', 'n', 'd'], .sym '.', .id ['A', 'P', 'I'], .sym ',', .id ['a'], .sym '[',
   .sym ']', .id ['f', 'r', 'o', 'n', 't', 'e', 'n', 'd'], .sym '.', .id ['V', 'a', 'r', 'i', 'a', 'b', 'l', 'e'],
   .sym ')', .sym '[', .sym ']', .id ['u', 'i', 'n', 't', 's'], .sym '.', .id ['U', '8'], .sym '{',
   .id ['l', 'e', 'n', 'g', 't', 'h'], .sym ':', .sym '=']

/-- `* len(a) var r = make([]uints.U8, length) return r[:] }`. /repo/hash.go:12-24. -/
def msValueEnd : List Tok :=
  [.sym '*', .id ['l', 'e', 'n'], .sym '(', .id ['a'], .sym ')', .id ['v', 'a', 'r'], .id ['r'], .sym '=',
   .id ['m', 'a', 'k', 'e'], .sym '(', .sym '[', .sym ']', .id ['u', 'i', 'n', 't', 's'], .sym '.', .id ['U', '8'],
   .sym ',', .id ['l', 'e', 'n', 'g', 't', 'h'], .sym ')', .id ['r', 'e', 't', 'u', 'r', 'n'], .id ['r'], .sym '[',
   .sym ':', .sym ']', .sym '}']

/-- `func fr_from_string(str string) frontend.Variable { ele, _ := new(big.Int).SetString(str,`. /repo/fr.go:101-102. -/
def msFromString : List Tok :=
  [.id ['f', 'u', 'n', 'c'], .id ['f', 'r', '_', 'f', 'r', 'o', 'm', '_', 's', 't', 'r', 'i', 'n', 'g'], .sym '(',
   .id ['s', 't', 'r'], .id ['s', 't', 'r', 'i', 'n', 'g'], .sym ')', .id ['f', 'r', 'o', 'n', 't', 'e', 'n', 'd'],
   .sym '.', .id ['V', 'a', 'r', 'i', 'a', 'b', 'l', 'e'], .sym '{', .id ['e', 'l', 'e'], .sym ',', .id ['_'],
   .sym ':', .sym '=', .id ['n', 'e', 'w'], .sym '(', .id ['b', 'i', 'g'], .sym '.', .id ['I', 'n', 't'], .sym ')',
   .sym '.', .id ['S', 'e', 't', 'S', 't', 'r', 'i', 'n', 'g'], .sym '(', .id ['s', 't', 'r'], .sym ',']

/-- `) return ele }`. /repo/fr.go:102-104. -/
def msFromEnd : List Tok :=
  [.sym ')', .id ['r', 'e', 't', 'u', 'r', 'n'], .id ['e', 'l', 'e'], .sym '}']

/-- `func VerifyMultiScalarMul[T, S emulated.FieldParams](api frontend.API, points []sw_emulated.AffinePoint[T], scalars []emulated.Element[S], expected sw_emulated.AffinePoint[T]) error { cr, err := sw_emulated.New[T, S](api, sw_emulated.GetCurveParams[T]()) if err != nil { return err }`.
/repo/msm.go:21-25. -/
def msMulti : List Tok :=
  [.id ['f', 'u', 'n', 'c'],
   .id ['V', 'e', 'r', 'i', 'f', 'y', 'M', 'u', 'l', 't', 'i', 'S', 'c', 'a', 'l', 'a', 'r', 'M', 'u', 'l'], .sym '[',
   .id ['T'], .sym ',', .id ['S'], .id ['e', 'm', 'u', 'l', 'a', 't', 'e', 'd'], .sym '.',
   .id ['F', 'i', 'e', 'l', 'd', 'P', 'a', 'r', 'a', 'm', 's'], .sym ']', .sym '(', .id ['a', 'p', 'i'],
   .id ['f', 'r', 'o', 'n', 't', 'e', 'n', 'd'], .sym '.', .id ['A', 'P', 'I'], .sym ',',
   .id ['p', 'o', 'i', 'n', 't', 's'], .sym '[', .sym ']', .id ['s', 'w', '_', 'e', 'm', 'u', 'l', 'a', 't', 'e', 'd'],
   .sym '.', .id ['A', 'f', 'f', 'i', 'n', 'e', 'P', 'o', 'i', 'n', 't'], .sym '[', .id ['T'], .sym ']', .sym ',',
   .id ['s', 'c', 'a', 'l', 'a', 'r', 's'], .sym '[', .sym ']', .id ['e', 'm', 'u', 'l', 'a', 't', 'e', 'd'], .sym '.',
   .id ['E', 'l', 'e', 'm', 'e', 'n', 't'], .sym '[', .id ['S'], .sym ']', .sym ',',
   .id ['e', 'x', 'p', 'e', 'c', 't', 'e', 'd'], .id ['s', 'w', '_', 'e', 'm', 'u', 'l', 'a', 't', 'e', 'd'], .sym '.',
   .id ['A', 'f', 'f', 'i', 'n', 'e', 'P', 'o', 'i', 'n', 't'], .sym '[', .id ['T'], .sym ']', .sym ')',
   .id ['e', 'r', 'r', 'o', 'r'], .sym '{', .id ['c', 'r'], .sym ',', .id ['e', 'r', 'r'], .sym ':', .sym '=',
   .id ['s', 'w', '_', 'e', 'm', 'u', 'l', 'a', 't', 'e', 'd'], .sym '.', .id ['N', 'e', 'w'], .sym '[', .id ['T'],
   .sym ',', .id ['S'], .sym ']', .sym '(', .id ['a', 'p', 'i'], .sym ',',
   .id ['s', 'w', '_', 'e', 'm', 'u', 'l', 'a', 't', 'e', 'd'], .sym '.',
   .id ['G', 'e', 't', 'C', 'u', 'r', 'v', 'e', 'P', 'a', 'r', 'a', 'm', 's'], .sym '[', .id ['T'], .sym ']', .sym '(',
   .sym ')', .sym ')', .id ['i', 'f'], .id ['e', 'r', 'r'], .sym '!', .sym '=', .id ['n', 'i', 'l'], .sym '{',
   .id ['r', 'e', 't', 'u', 'r', 'n'], .id ['e', 'r', 'r'], .sym '}']

/-- `sw_emulated.AffinePoint[T]`. /repo/msm.go:21, 26. -/
def msPoints : List Tok :=
  [.id ['s', 'w', '_', 'e', 'm', 'u', 'l', 'a', 't', 'e', 'd'], .sym '.',
   .id ['A', 'f', 'f', 'i', 'n', 'e', 'P', 'o', 'i', 'n', 't'], .sym '[', .id ['T'], .sym ']']

/-- `emulated.Element[S]`. /repo/msm.go:21, 30. -/
def msScalars : List Tok :=
  [.id ['e', 'm', 'u', 'l', 'a', 't', 'e', 'd'], .sym '.', .id ['E', 'l', 'e', 'm', 'e', 'n', 't'], .sym '[',
   .id ['S'], .sym ']']

/-- `:= make([]*`. /repo/msm.go:26, 30. -/
def msMake : List Tok :=
  [.sym ':', .sym '=', .id ['m', 'a', 'k', 'e'], .sym '(', .sym '[', .sym ']', .sym '*']

/-- `, len(`. For the text of /repo/fr.go:101-104; /repo/hash.go:11-47; /repo/msm.go:21-40. -/
def msLen : List Tok :=
  [.sym ',', .id ['l', 'e', 'n'], .sym '(']

/-- `)) for i := range`. /repo/msm.go:26-27, 30-31. -/
def msRange : List Tok :=
  [.sym ')', .sym ')', .id ['f', 'o', 'r'], .id ['i'], .sym ':', .sym '=', .id ['r', 'a', 'n', 'g', 'e']]

/-- `[i] = &`. For the text of /repo/fr.go:101-104; /repo/hash.go:11-47; /repo/msm.go:21-40. -/
def msEntry : List Tok :=
  [.sym '[', .id ['i'], .sym ']', .sym '=', .sym '&']

/-- `[i] }`. For the text of /repo/fr.go:101-104; /repo/hash.go:11-47; /repo/msm.go:21-40. -/
def msEntryEnd : List Tok :=
  [.sym '[', .id ['i'], .sym ']', .sym '}']

/-- `res, err := cr.MultiScalarMul(`. /repo/msm.go:34. -/
def msCall : List Tok :=
  [.id ['r', 'e', 's'], .sym ',', .id ['e', 'r', 'r'], .sym ':', .sym '=', .id ['c', 'r'], .sym '.',
   .id ['M', 'u', 'l', 't', 'i', 'S', 'c', 'a', 'l', 'a', 'r', 'M', 'u', 'l'], .sym '(']

/-- `) if err != nil { return err } cr.AssertIsEqual(res, &`. /repo/msm.go:34-38. -/
def msAssert : List Tok :=
  [.sym ')', .id ['i', 'f'], .id ['e', 'r', 'r'], .sym '!', .sym '=', .id ['n', 'i', 'l'], .sym '{',
   .id ['r', 'e', 't', 'u', 'r', 'n'], .id ['e', 'r', 'r'], .sym '}', .id ['c', 'r'], .sym '.',
   .id ['A', 's', 's', 'e', 'r', 't', 'I', 's', 'E', 'q', 'u', 'a', 'l'], .sym '(', .id ['r', 'e', 's'], .sym ',',
   .sym '&']

/-- `) return nil }`. /repo/hash.go:44-47; /repo/msm.go:38-40. -/
def msMultiEnd : List Tok :=
  [.sym ')', .id ['r', 'e', 't', 'u', 'r', 'n'], .id ['n', 'i', 'l'], .sym '}']

/-- The name `points`. /repo/msm.go:21, 26, 27, 28. -/
def msNamePoints : List Char := ['p', 'o', 'i', 'n', 't', 's']

/-- The name `scalars`. /repo/msm.go:21, 30, 31, 32. -/
def msNameScalars : List Char := ['s', 'c', 'a', 'l', 'a', 'r', 's']

/-- The name `expected`. /repo/msm.go:21, 38. -/
def msNameExpected : List Char := ['e', 'x', 'p', 'e', 'c', 't', 'e', 'd']

/-- A number and the given text. For the text of /repo/fr.go:101-104; /repo/hash.go:11-47; /repo/msm.go:21-40. -/
def numThen (p : List Tok) : List Tok → Option (ℕ × List Tok)
  | .num n :: ts => do
    let ts ← expect p ts
    return (n, ts)
  | _ => none

/-- The text of `toBytes`. For the text of /repo/fr.go:101-104; /repo/hash.go:11-47; /repo/msm.go:21-40. -/
def toBytesFun (s : List Char) : Option ToBytes := do
  let ts ← after msHead (tokens s)
  let (a, ts) ← numThen msLimbs ts
  let (b, ts) ← numThen msTest ts
  let (c, ts) ← numThen msBase ts
  let (d, ts) ← numThen msTake ts
  let (e, ts) ← numThen msLoop ts
  let (f, ts) ← numThen msLast ts
  let (g, ts) ← numThen msFill ts
  let (h, _) ← numThen msEnd ts
  return ⟨a, b, c, d, e, f, g, h⟩

/-- The text of `ValueOf`: the number of bytes per variable.
For the text of /repo/fr.go:101-104; /repo/hash.go:11-47; /repo/msm.go:21-40. -/
def valueOfFun (s : List Char) : Option ℕ := do
  let ts ← after msValueOf (tokens s)
  let (n, _) ← numThen msValueEnd ts
  return n

/-- What `ValueOf` returns: values that are not assigned. /repo/hash.go:11-24. -/
def runValueOf (n : ℕ) (a : List Var) : List Var := List.replicate (n * a.length) .nil

/-- The text of `fr_from_string`: the base. For the text of /repo/fr.go:101-104; /repo/hash.go:11-47; /repo/msm.go:21-40. -/
def fromStringFun (s : List Char) : Option ℕ := do
  let ts ← after msFromString (tokens s)
  let (n, _) ← numThen msFromEnd ts
  return n

/-- What `fr_from_string` returns; other bases than 10 are outside this meaning. /repo/fr.go:101-104. -/
def runFromString (base : ℕ) (s : String) : Option Var :=
  if base = 10 then some (match setString10 s.toList with
    | some z => .big z
    | none => .nil)
  else none

/-- The text of `VerifyMultiScalarMul`: for each of the two slices of pointers the parameter (0 for `points`, 1 for `scalars`) whose
entries it points to, the slices passed to `MultiScalarMul` (0 for the first) and the point that the result is compared with
(2 for `expected`). For the text of /repo/fr.go:101-104; /repo/hash.go:11-47; /repo/msm.go:21-40. -/
def multiFun (s : List Char) : Option ((ℕ × ℕ) × (ℕ × ℕ) × ℕ) := do
  let ts ← after msMulti (tokens s)
  let (p, a, ts) ← ptrs msPoints ts
  let (q, b, ts) ← ptrs msScalars ts
  if p = q then none
  match expect msCall ts with
  | some (.id c :: .sym ',' :: .id d :: ts) => match expect msAssert ts with
    | some (.id e :: ts) => do
      let _ ← expect msMultiEnd ts
      let c ← [p, q].idxOf? c
      let d ← [p, q].idxOf? d
      let e ← params.idxOf? e
      return ((a, b), (c, d), e)
    | _ => none
  | _ => none
where
  /-- The names of the parameters. -/
  params : List (List Char) := [msNamePoints, msNameScalars, msNameExpected]
  /-- `p := make([]*T, len(a)) for i := range a { p[i] = &a[i] }`: the name `p` and the number of `a`. -/
  ptrs (type ts : List Tok) : Option (List Char × ℕ × List Tok) :=
    match ts with
    | .id p :: ts => match expect (msMake ++ type ++ msLen) ts with
      | some (.id a :: ts) => do
        let ts ← expect (msRange ++ [.id a, .sym '{', .id p] ++ msEntry ++ [.id a] ++ msEntryEnd) ts
        let n ← params.idxOf? a
        return (p, n, ts)
      | _ => none
    | _ => none

/-- The body of `VerifyMultiScalarMul`. gnark's `MultiScalarMul` takes points and scalars in this order (other arguments are outside this
meaning), returns an error if their numbers differ, and indexes out of range if there are none. /repo/msm.go:21-40. -/
def runMulti (X : Ext) (p : (ℕ × ℕ) × (ℕ × ℕ) × ℕ) (points : List Aff) (scalars : List Fr) (expected : Aff) : Circ GoErr :=
  if [p.1.1, p.1.2][p.2.1.1]? = some 0 ∧ [p.1.1, p.1.2][p.2.1.2]? = some 1 ∧ p.2.2 = 2 then
    if points.length ≠ scalars.length then pure (some "mismatching points and scalars slice lengths")
    else if points.length = 0 then Circ.panic "index out of range"
    else do
      let res := X.msm points scalars
      gadget res.isSome
      gadget (res == some expected)
      pure none
  else Circ.panic "not modelled"

end Verif.Go
