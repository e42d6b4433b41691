/-
A reader and a meaning for the text of `GetVerifyCircuitsG2Jac`, `FillVerifyCircuitsG2`, `VerifyBN256Pairing` and
`BN256PairingCircuit.Define` (/repo/pairing_circuit.go:20-46, 69-113), to check the hand-written definitions of
Verif/Model/Pairing against the source (theorems in Verif/Props/SourceHints).
-/
import Verif.Model.CurveText
import Verif.Model.Pairing

namespace Verif.Go

/-- The three coordinates of a `G2Jac`, /repo/pairing_circuit.go:85-93. -/
inductive JacCoord where
  | X | Y | Z
deriving DecidableEq

/-- Statements of `GetVerifyCircuitsG2Jac`; the points are numbered. /repo/pairing_circuit.go:84-112. -/
inductive JacStmt where
  /-- `var g = bn254.G2Jac{}` -/
  | point
  /-- `g.X.SetString("m", "n")` -/
  | set (g : ℕ) (c : JacCoord) (m n : ℕ)
  /-- `if !g.IsOnCurve() { panic("is not on Curve") }` -/
  | check (g : ℕ)
  /-- `return g, h }` -/
  | ret (g h : ℕ)
deriving DecidableEq

/-! ### Meaning -/

/-- The coordinates of a `G2Jac`. /repo/pairing_circuit.go:84-93. -/
structure Jac where
  x : Fp2
  y : Fp2
  z : Fp2

/-- Write a coordinate. /repo/pairing_circuit.go:85-93. -/
def Jac.set (p : Jac) (c : JacCoord) (a : Fp2) : Jac :=
  match c with
  | .X => { p with x := a }
  | .Y => { p with y := a }
  | .Z => { p with z := a }

/-- The body; the result is the two points in affine coordinates, `none` a panic. Simplification: a point is only used with
Z = 1 (another Z is outside this meaning, and reads as a run that ends in `none`). /repo/pairing_circuit.go:84-112. -/
def runJac : List JacStmt → List Jac → Option (Aff2 × Aff2)
  | [], _ => none
  | .point :: l, st => runJac l (st ++ [⟨(0, 0), (0, 0), (0, 0)⟩])
  | .set g c m n :: l, st => runJac l (st.modify g fun p => p.set c ((m : Fp), (n : Fp)))
  | .check g :: l, st => match st[g]? with
    | none => none
    | some p => if p.z = (1, 0) ∧ isOnTwist (p.x, p.y) = true then runJac l st else none
  | .ret g h :: _, st => match st[g]?, st[h]? with
    | some p, some q => if p.z = (1, 0) ∧ q.z = (1, 0) then some ((p.x, p.y), (q.x, q.y)) else none
    | _, _ => none

/-! ### Reading -/

/-- `if !`. For the text of /repo/pairing_circuit.go:84-112. -/
def wIf : List Tok :=
  [.id ['i', 'f'], .sym '!']

/-- `.IsOnCurve() { panic("is not on Curve") }`. /repo/pairing_circuit.go:94-96, 108-110. -/
def wPanic : List Tok :=
  [.sym '.', .id ['I', 's', 'O', 'n', 'C', 'u', 'r', 'v', 'e'], .sym '(', .sym ')', .sym '{',
   .id ['p', 'a', 'n', 'i', 'c'], .sym '(',
   .str ['i', 's', ' ', 'n', 'o', 't', ' ', 'o', 'n', ' ', 'C', 'u', 'r', 'v', 'e'], .sym ')', .sym '}']

/-- `= bn254.G2Jac{}`. /repo/pairing_circuit.go:84, 98. -/
def wPoint : List Tok :=
  [.sym '=', .id ['b', 'n', '2', '5', '4'], .sym '.', .id ['G', '2', 'J', 'a', 'c'], .sym '{', .sym '}']

/-- `SetString(`. /repo/pairing_circuit.go:85, 89, 93 and more. -/
def wSetString : List Tok :=
  [.id ['S', 'e', 't', 'S', 't', 'r', 'i', 'n', 'g'], .sym '(']

/-- `func GetVerifyCircuitsG2Jac() (bn254.G2Jac, bn254.G2Jac) {`. /repo/pairing_circuit.go:83. -/
def wHeadJac : List Tok :=
  [.id ['f', 'u', 'n', 'c'],
   .id ['G', 'e', 't', 'V', 'e', 'r', 'i', 'f', 'y', 'C', 'i', 'r', 'c', 'u', 'i', 't', 's', 'G', '2', 'J', 'a', 'c'],
   .sym '(', .sym ')', .sym '(', .id ['b', 'n', '2', '5', '4'], .sym '.', .id ['G', '2', 'J', 'a', 'c'], .sym ',',
   .id ['b', 'n', '2', '5', '4'], .sym '.', .id ['G', '2', 'J', 'a', 'c'], .sym ')', .sym '{']

/-- `.FromJacobian(&`. /repo/pairing_circuit.go:73, 74. -/
def wFrom : List Tok :=
  [.sym '.', .id ['F', 'r', 'o', 'm', 'J', 'a', 'c', 'o', 'b', 'i', 'a', 'n'], .sym '(', .sym '&']

/-- `:= sw_bn254.NewG2Affine(`. /repo/pairing_circuit.go:77, 78. -/
def wNew : List Tok :=
  [.sym ':', .sym '=', .id ['s', 'w', '_', 'b', 'n', '2', '5', '4'], .sym '.',
   .id ['N', 'e', 'w', 'G', '2', 'A', 'f', 'f', 'i', 'n', 'e'], .sym '(']

/-- `func (c *BN256PairingCircuit) FillVerifyCircuitsG2() {`. /repo/pairing_circuit.go:69. -/
def wHeadFill : List Tok :=
  [.id ['f', 'u', 'n', 'c'], .sym '(', .id ['c'], .sym '*',
   .id ['B', 'N', '2', '5', '6', 'P', 'a', 'i', 'r', 'i', 'n', 'g', 'C', 'i', 'r', 'c', 'u', 'i', 't'], .sym ')',
   .id ['F', 'i', 'l', 'l', 'V', 'e', 'r', 'i', 'f', 'y', 'C', 'i', 'r', 'c', 'u', 'i', 't', 's', 'G', '2'], .sym '(',
   .sym ')', .sym '{']

/-- `:= GetVerifyCircuitsG2Jac() var g20GenAff, g21GenAff bn254.G2Affine`. /repo/pairing_circuit.go:70-72. -/
def wCall : List Tok :=
  [.sym ':', .sym '=',
   .id ['G', 'e', 't', 'V', 'e', 'r', 'i', 'f', 'y', 'C', 'i', 'r', 'c', 'u', 'i', 't', 's', 'G', '2', 'J', 'a', 'c'],
   .sym '(', .sym ')', .id ['v', 'a', 'r'], .id ['g', '2', '0', 'G', 'e', 'n', 'A', 'f', 'f'], .sym ',',
   .id ['g', '2', '1', 'G', 'e', 'n', 'A', 'f', 'f'], .id ['b', 'n', '2', '5', '4'], .sym '.',
   .id ['G', '2', 'A', 'f', 'f', 'i', 'n', 'e']]

/-- `log.Println("GenAff IsOnCurve", g20GenAff.IsOnCurve(), g21GenAff.IsOnCurve())`. /repo/pairing_circuit.go:75. -/
def wLog : List Tok :=
  [.id ['l', 'o', 'g'], .sym '.', .id ['P', 'r', 'i', 'n', 't', 'l', 'n'], .sym '(',
   .str ['G', 'e', 'n', 'A', 'f', 'f', ' ', 'I', 's', 'O', 'n', 'C', 'u', 'r', 'v', 'e'], .sym ',',
   .id ['g', '2', '0', 'G', 'e', 'n', 'A', 'f', 'f'], .sym '.', .id ['I', 's', 'O', 'n', 'C', 'u', 'r', 'v', 'e'],
   .sym '(', .sym ')', .sym ',', .id ['g', '2', '1', 'G', 'e', 'n', 'A', 'f', 'f'], .sym '.',
   .id ['I', 's', 'O', 'n', 'C', 'u', 'r', 'v', 'e'], .sym '(', .sym ')', .sym ')']

/-- `c.G2Points = [2]*sw_bn254.G2Affine{&`. /repo/pairing_circuit.go:80. -/
def wStore : List Tok :=
  [.id ['c'], .sym '.', .id ['G', '2', 'P', 'o', 'i', 'n', 't', 's'], .sym '=', .sym '[', .num 2, .sym ']', .sym '*',
   .id ['s', 'w', '_', 'b', 'n', '2', '5', '4'], .sym '.', .id ['G', '2', 'A', 'f', 'f', 'i', 'n', 'e'], .sym '{',
   .sym '&']

/-- `func VerifyBN256Pairing( api frontend.API, g1Points []*sw_bn254.G1Affine, g2Points []*sw_bn254.G2Affine, ) error { pairing, err := sw_bn254.NewPairing(api) if err != nil { return fmt.Errorf("NewPairing: %w", err) } err = pairing.PairingCheck(`.
/repo/pairing_circuit.go:28-38. -/
def wHeadPairing : List Tok :=
  [.id ['f', 'u', 'n', 'c'],
   .id ['V', 'e', 'r', 'i', 'f', 'y', 'B', 'N', '2', '5', '6', 'P', 'a', 'i', 'r', 'i', 'n', 'g'], .sym '(',
   .id ['a', 'p', 'i'], .id ['f', 'r', 'o', 'n', 't', 'e', 'n', 'd'], .sym '.', .id ['A', 'P', 'I'], .sym ',',
   .id ['g', '1', 'P', 'o', 'i', 'n', 't', 's'], .sym '[', .sym ']', .sym '*',
   .id ['s', 'w', '_', 'b', 'n', '2', '5', '4'], .sym '.', .id ['G', '1', 'A', 'f', 'f', 'i', 'n', 'e'], .sym ',',
   .id ['g', '2', 'P', 'o', 'i', 'n', 't', 's'], .sym '[', .sym ']', .sym '*',
   .id ['s', 'w', '_', 'b', 'n', '2', '5', '4'], .sym '.', .id ['G', '2', 'A', 'f', 'f', 'i', 'n', 'e'], .sym ',',
   .sym ')', .id ['e', 'r', 'r', 'o', 'r'], .sym '{', .id ['p', 'a', 'i', 'r', 'i', 'n', 'g'], .sym ',',
   .id ['e', 'r', 'r'], .sym ':', .sym '=', .id ['s', 'w', '_', 'b', 'n', '2', '5', '4'], .sym '.',
   .id ['N', 'e', 'w', 'P', 'a', 'i', 'r', 'i', 'n', 'g'], .sym '(', .id ['a', 'p', 'i'], .sym ')', .id ['i', 'f'],
   .id ['e', 'r', 'r'], .sym '!', .sym '=', .id ['n', 'i', 'l'], .sym '{', .id ['r', 'e', 't', 'u', 'r', 'n'],
   .id ['f', 'm', 't'], .sym '.', .id ['E', 'r', 'r', 'o', 'r', 'f'], .sym '(',
   .str ['N', 'e', 'w', 'P', 'a', 'i', 'r', 'i', 'n', 'g', ':', ' ', '%', 'w'], .sym ',', .id ['e', 'r', 'r'],
   .sym ')', .sym '}', .id ['e', 'r', 'r'], .sym '=', .id ['p', 'a', 'i', 'r', 'i', 'n', 'g'], .sym '.',
   .id ['P', 'a', 'i', 'r', 'i', 'n', 'g', 'C', 'h', 'e', 'c', 'k'], .sym '(']

/-- `if err != nil { return fmt.Errorf(`. /repo/pairing_circuit.go:34-35, 42-43. -/
def wErr : List Tok :=
  [.id ['i', 'f'], .id ['e', 'r', 'r'], .sym '!', .sym '=', .id ['n', 'i', 'l'], .sym '{',
   .id ['r', 'e', 't', 'u', 'r', 'n'], .id ['f', 'm', 't'], .sym '.', .id ['E', 'r', 'r', 'o', 'r', 'f'], .sym '(']

/-- `, err) } return nil }`. /repo/pairing_circuit.go:43-46. -/
def wEnd : List Tok :=
  [.sym ',', .id ['e', 'r', 'r'], .sym ')', .sym '}', .id ['r', 'e', 't', 'u', 'r', 'n'], .id ['n', 'i', 'l'], .sym '}']

/-- `func (c *BN256PairingCircuit) Define(api frontend.API) error { return VerifyBN256Pairing( api, c.G1Points[:], c.G2Points[:], ) }`.
/repo/pairing_circuit.go:20-26. -/
def wDefine : List Tok :=
  [.id ['f', 'u', 'n', 'c'], .sym '(', .id ['c'], .sym '*',
   .id ['B', 'N', '2', '5', '6', 'P', 'a', 'i', 'r', 'i', 'n', 'g', 'C', 'i', 'r', 'c', 'u', 'i', 't'], .sym ')',
   .id ['D', 'e', 'f', 'i', 'n', 'e'], .sym '(', .id ['a', 'p', 'i'], .id ['f', 'r', 'o', 'n', 't', 'e', 'n', 'd'],
   .sym '.', .id ['A', 'P', 'I'], .sym ')', .id ['e', 'r', 'r', 'o', 'r'], .sym '{',
   .id ['r', 'e', 't', 'u', 'r', 'n'],
   .id ['V', 'e', 'r', 'i', 'f', 'y', 'B', 'N', '2', '5', '6', 'P', 'a', 'i', 'r', 'i', 'n', 'g'], .sym '(',
   .id ['a', 'p', 'i'], .sym ',', .id ['c'], .sym '.', .id ['G', '1', 'P', 'o', 'i', 'n', 't', 's'], .sym '[',
   .sym ':', .sym ']', .sym ',', .id ['c'], .sym '.', .id ['G', '2', 'P', 'o', 'i', 'n', 't', 's'], .sym '[', .sym ':',
   .sym ']', .sym ',', .sym ')', .sym '}']

/-- The name `g1Points`. /repo/pairing_circuit.go:30, 39. -/
def wG1 : List Char := ['g', '1', 'P', 'o', 'i', 'n', 't', 's']

/-- The name `g2Points`. /repo/pairing_circuit.go:31, 40. -/
def wG2 : List Char := ['g', '2', 'P', 'o', 'i', 'n', 't', 's']

/-- `.X.`, `.Y.` or `.Z.`, and the text after it. For the text of /repo/pairing_circuit.go:84-112. -/
def jacCoord : List Tok → Option (JacCoord × List Tok)
  | .sym '.' :: .id ['X'] :: .sym '.' :: ts => some (.X, ts)
  | .sym '.' :: .id ['Y'] :: .sym '.' :: ts => some (.Y, ts)
  | .sym '.' :: .id ['Z'] :: .sym '.' :: ts => some (.Z, ts)
  | _ => none

/-- `"m", "n")`, possibly with a comma before the parenthesis. For the text of /repo/pairing_circuit.go:84-112. -/
def twoStrings : List Tok → Option ((ℕ × ℕ) × List Tok)
  | .str m :: .sym ',' :: .str n :: ts => do
    let m ← decimal? m
    let n ← decimal? n
    let ts ← expect [.sym ')'] ((expect [.sym ','] ts).getD ts)
    return ((m, n), ts)
  | _ => none

/-- Statements up to the closing brace; the first argument bounds their number.
For the text of /repo/pairing_circuit.go:84-112. -/
def jacBody : ℕ → List (List Char) → List Tok → Option (List JacStmt)
  | 0, _, _ => none
  | k + 1, points, ts =>
    match checkCall wIf wPanic points ts with
    | some (g, ts) => do
      let l ← jacBody k points ts
      return .check g :: l
    | none => match ts with
    | .id ['v', 'a', 'r'] :: .id g :: ts => do
      if g ∈ points then none
      let ts ← expect wPoint ts
      let l ← jacBody k (points ++ [g]) ts
      return .point :: l
    | .id ['r', 'e', 't', 'u', 'r', 'n'] :: .id g :: .sym ',' :: .id h :: .sym '}' :: _ => do
      let g ← points.idxOf? g
      let h ← points.idxOf? h
      return [.ret g h]
    | .id g :: ts => do
      let g ← points.idxOf? g
      let (c, ts) ← jacCoord ts
      let ts ← expect wSetString ts
      let ((m, n), ts) ← twoStrings ts
      let l ← jacBody k points ts
      return .set g c m n :: l
    | _ => none

/-- The body of `GetVerifyCircuitsG2Jac` in the text of a file. For the text of /repo/pairing_circuit.go:84-112. -/
def jacFun (s : List Char) : Option (List JacStmt) := do
  let ts ← after wHeadJac (tokens s)
  jacBody 30 [] ts

/-- `a.FromJacobian(&g)`: the pair of `a` and `g`. For the text of /repo/pairing_circuit.go:84-112. -/
def fromJac : List Tok → Option ((List Char × List Char) × List Tok)
  | .id a :: ts => match expect wFrom ts with
    | some (.id g :: .sym ')' :: ts) => some ((a, g), ts)
    | _ => none
  | _ => none

/-- `s := sw_bn254.NewG2Affine(a)`: the pair of `s` and `a`. For the text of /repo/pairing_circuit.go:84-112. -/
def newG2 : List Tok → Option ((List Char × List Char) × List Tok)
  | .id s :: ts => match expect wNew ts with
    | some (.id a :: .sym ')' :: ts) => some ((s, a), ts)
    | _ => none
  | _ => none

/-- The body of `FillVerifyCircuitsG2` in the text of a file: which of the two points that `GetVerifyCircuitsG2Jac` returns (0 or 1)
become the first and the second entry of `c.G2Points`. /repo/pairing_circuit.go:69-81. -/
def fillG2Fun (s : List Char) : Option (ℕ × ℕ) := do
  let ts ← after wHeadFill (tokens s)
  match ts with
  | .id p :: .sym ',' :: .id q :: ts => do
    let ts ← expect wCall ts
    let ((a, g), ts) ← fromJac ts
    let ((b, h), ts) ← fromJac ts
    let ts ← expect wLog ts
    let ((s, c), ts) ← newG2 ts
    let ((t, d), ts) ← newG2 ts
    match expect wStore ts with
    | some (.id u :: .sym ',' :: .sym '&' :: .id v :: .sym '}' :: .sym '}' :: _) => do
      if a = b ∨ p = q ∨ s = t then none
      let jac := [(p, 0), (q, 1)]
      let aff := [(a, g), (b, h)]
      let sw := [(s, c), (t, d)]
      let i ← sw.lookup u
      let i ← aff.lookup i
      let i ← jac.lookup i
      let j ← sw.lookup v
      let j ← aff.lookup j
      let j ← jac.lookup j
      return (i, j)
    | _ => none
  | _ => none

/-- What it does: the points are stored in this order, a panic of `GetVerifyCircuitsG2Jac` stays a panic.
/repo/pairing_circuit.go:69-81. -/
def runFillG2 (c : BN256PairingCircuit) (ij : ℕ × ℕ) (r : Option (Aff2 × Aff2)) : Option BN256PairingCircuit := do
  let r ← r
  let p ← [r.1, r.2][ij.1]?
  let q ← [r.1, r.2][ij.2]?
  return { c with g2Points := [p, q] }

/-- The text of `VerifyBN256Pairing`: the two arguments of `PairingCheck` by parameter (0 for `g1Points`, 1 for `g2Points`), and the
text put before the error. /repo/pairing_circuit.go:28-46. -/
def pairingFun (s : List Char) : Option (ℕ × ℕ × List Char) := do
  let ts ← after wHeadPairing (tokens s)
  match ts with
  | .id a :: .sym ',' :: .id b :: ts => do
    let ts ← expect [.sym ')'] ((expect [.sym ','] ts).getD ts)
    match expect wErr ts with
    | some (.str m :: ts) => do
      let _ ← expect wEnd ts
      let a ← [wG1, wG2].idxOf? a
      let b ← [wG1, wG2].idxOf? b
      return (a, b, m)
    | _ => none
  | _ => none

/-- What it does. gnark's `PairingCheck` takes the points of G1 and of G2 in this order (other arguments are outside this meaning),
returns an error if there are none or they differ in number, and otherwise emits the constraints. `%w` in the text of the error
is replaced by that error. /repo/pairing_circuit.go:28-46. -/
def runPairing (X : Ext) (p : ℕ × ℕ × List Char) (g1 : List Aff) (g2 : List Aff2) : Circ GoErr :=
  if p.1 = 0 ∧ p.2.1 = 1 then
    if g1.length = 0 ∨ g1.length ≠ g2.length then
      pure (some (String.ofList (p.2.2.takeWhile (· ≠ '%')) ++ "invalid inputs sizes"))
    else do
      gadget (X.pairing g1 g2)
      pure none
  else Circ.panic "not modelled"

end Verif.Go
