/-
A reader and a meaning for the text of the functions that test whether a point is on the curve: `VerifyCheckOnCurve`,
`VerifyCheckOnCurveVar` (/repo/aggregator_lib_circuit.go:381-423) and `FillVerifyCircuitsG1` (/repo/pairing_circuit.go:48-67), to
check the hand-written definitions of Verif/Model/Curve and Verif/Model/Pairing against the source (theorems in
Verif/Props/SourceHints).
-/
import Verif.Model.HintText

namespace Verif.Go

/-- Statements. Parameters after `api`, points, and field elements are numbered, each kind on its own. A coordinate is `Y` if the
flag is set, else `X`. /repo/aggregator_lib_circuit.go:386-398, 414-422, /repo/pairing_circuit.go:49-65. -/
inductive OnStmt where
  /-- `var g = bn254.G1Affine{}` -/
  | point
  /-- `v, _ := new(fp.Element).SetInterface(a)` -/
  | conv (a : ℕ)
  /-- `g.X.Set(v)` -/
  | set (g : ℕ) (y : Bool) (v : ℕ)
  /-- `g.X.SetInterface(a)` -/
  | setI (g : ℕ) (y : Bool) (a : ℕ)
  /-- `_, err1 := g.X.SetInterface(a)` for `err1` (or `err2` if the last flag is set) -/
  | setErr (g : ℕ) (y : Bool) (a : ℕ) (second : Bool)
  /-- `if !g.IsOnCurve() { return errors.New("bn256.G1Affine is not on curve") }` -/
  | check (g : ℕ)
  /-- `if err1 != nil || err2 != nil || !g.IsOnCurve() { panic(fmt.Sprintf("err1 = %v, err2 = %v", err1, err2)) }` -/
  | panicIf (g : ℕ)
  /-- `return nil` -/
  | retNil
  /-- `s := sw_bn254.NewG1Affine(g); t := sw_bn254.NewG1Affine(h); c.G1Points = [2]*sw_bn254.G1Affine{&s, &t} }` -/
  | fill (g h : ℕ)
deriving DecidableEq

/-! ### Meaning -/

/-- The variables: the points, the elements (`none` is nil), whether `err1` and `err2` are not nil.
/repo/aggregator_lib_circuit.go:386-398, /repo/pairing_circuit.go:49-65. -/
structure OnState where
  points : List Aff
  elems : List (Option Fp)
  err1 : Bool
  err2 : Bool

/-- The variables before the first statement of a function. /repo/aggregator_lib_circuit.go:385, 413, /repo/pairing_circuit.go:48. -/
def onStart : OnState := ⟨[], [], false, false⟩

/-- Write a coordinate of a point. /repo/aggregator_lib_circuit.go:390-391. -/
def setCoord (ps : List Aff) (g : ℕ) (y : Bool) (x : Fp) : List Aff :=
  ps.modify g fun p => if y then (p.1, x) else (x, p.2)

/-- What a run ends in: a Go error or nil, or the two points of `FillVerifyCircuitsG1`, or a panic.
For the text of /repo/aggregator_lib_circuit.go:381-423; /repo/pairing_circuit.go:48-67. -/
inductive OnRes where
  | ret (e : GoErr)
  | points (p q : Aff)
  | panic

/-- The body of a function. `SetInterface` leaves the element as it is when it returns an error.
/repo/aggregator_lib_circuit.go:386-398, 414-422, /repo/pairing_circuit.go:49-65. -/
def runOn (args : List Var) : List OnStmt → OnState → OnRes
  | [], _ => .panic
  | .point :: l, st => runOn args l { st with points := st.points ++ [(0, 0)] }
  | .conv a :: l, st => match args[a]? with
    | none => .panic
    | some v => runOn args l { st with elems := st.elems ++ [setInterface v] }
  | .set g y v :: l, st => match st.elems[v]? with
    | some (some x) => runOn args l { st with points := setCoord st.points g y x }
    | _ => .panic
  | .setI g y a :: l, st => match args[a]? with
    | none => .panic
    | some v => match setInterface v with
      | none => runOn args l st
      | some x => runOn args l { st with points := setCoord st.points g y x }
  | .setErr g y a second :: l, st => match args[a]? with
    | none => .panic
    | some v => match setInterface v with
      | none => runOn args l (if second then { st with err2 := true } else { st with err1 := true })
      | some x =>
        let st := { st with points := setCoord st.points g y x }
        runOn args l (if second then { st with err2 := false } else { st with err1 := false })
  | .check g :: l, st => match st.points[g]? with
    | none => .panic
    | some p => if isOnCurve p.1 p.2 then runOn args l st else .ret errNotOnCurve
  | .panicIf g :: l, st => match st.points[g]? with
    | none => .panic
    | some p => if st.err1 || st.err2 || !isOnCurve p.1 p.2 then .panic else runOn args l st
  | .retNil :: _, _ => .ret none
  | .fill g h :: _, st => match st.points[g]?, st.points[h]? with
    | some p, some q => .points p q
    | _, _ => .panic

/-! ### Reading -/

/-- `SetInterface(`. /repo/aggregator_lib_circuit.go:388, 389, 415 and more. -/
def oSetI : List Tok :=
  [.id ['S', 'e', 't', 'I', 'n', 't', 'e', 'r', 'f', 'a', 'c', 'e'], .sym '(']

/-- `Set(`. For the text of /repo/aggregator_lib_circuit.go:381-423; /repo/pairing_circuit.go:48-67. -/
def oSet : List Tok :=
  [.id ['S', 'e', 't'], .sym '(']

/-- `if !`. For the text of /repo/aggregator_lib_circuit.go:381-423; /repo/pairing_circuit.go:48-67. -/
def oIf : List Tok :=
  [.id ['i', 'f'], .sym '!']

/-- `.IsOnCurve() { return errors.New("bn256.G1Affine is not on curve") }`. /repo/aggregator_lib_circuit.go:394-396, 419-421. -/
def oReturn : List Tok :=
  [.sym '.', .id ['I', 's', 'O', 'n', 'C', 'u', 'r', 'v', 'e'], .sym '(', .sym ')', .sym '{',
   .id ['r', 'e', 't', 'u', 'r', 'n'], .id ['e', 'r', 'r', 'o', 'r', 's'], .sym '.', .id ['N', 'e', 'w'], .sym '(',
   .str ['b', 'n', '2', '5', '6', '.', 'G', '1', 'A', 'f', 'f', 'i', 'n', 'e', ' ', 'i', 's', ' ', 'n', 'o', 't', ' ', 'o', 'n', ' ', 'c', 'u', 'r', 'v', 'e'],
   .sym ')', .sym '}']

/-- `if err1 != nil || err2 != nil || !`. /repo/pairing_circuit.go:52, 59. -/
def oPanicIf : List Tok :=
  [.id ['i', 'f'], .id ['e', 'r', 'r', '1'], .sym '!', .sym '=', .id ['n', 'i', 'l'], .sym '|', .sym '|',
   .id ['e', 'r', 'r', '2'], .sym '!', .sym '=', .id ['n', 'i', 'l'], .sym '|', .sym '|', .sym '!']

/-- `.IsOnCurve() { panic(fmt.Sprintf("err1 = %v, err2 = %v", err1, err2)) }`. /repo/pairing_circuit.go:52-54, 59-61. -/
def oPanic : List Tok :=
  [.sym '.', .id ['I', 's', 'O', 'n', 'C', 'u', 'r', 'v', 'e'], .sym '(', .sym ')', .sym '{',
   .id ['p', 'a', 'n', 'i', 'c'], .sym '(', .id ['f', 'm', 't'], .sym '.', .id ['S', 'p', 'r', 'i', 'n', 't', 'f'],
   .sym '(', .str ['e', 'r', 'r', '1', ' ', '=', ' ', '%', 'v', ',', ' ', 'e', 'r', 'r', '2', ' ', '=', ' ', '%', 'v'],
   .sym ',', .id ['e', 'r', 'r', '1'], .sym ',', .id ['e', 'r', 'r', '2'], .sym ')', .sym ')', .sym '}']

/-- `= bn254.G1Affine{}`. /repo/aggregator_lib_circuit.go:386, 414; /repo/pairing_circuit.go:49, 56. -/
def oPoint : List Tok :=
  [.sym '=', .id ['b', 'n', '2', '5', '4'], .sym '.', .id ['G', '1', 'A', 'f', 'f', 'i', 'n', 'e'], .sym '{', .sym '}']

/-- `_ := new(fp.Element).SetInterface(`. /repo/aggregator_lib_circuit.go:388, 389. -/
def oConv : List Tok :=
  [.id ['_'], .sym ':', .sym '=', .id ['n', 'e', 'w'], .sym '(', .id ['f', 'p'], .sym '.',
   .id ['E', 'l', 'e', 'm', 'e', 'n', 't'], .sym ')', .sym '.',
   .id ['S', 'e', 't', 'I', 'n', 't', 'e', 'r', 'f', 'a', 'c', 'e'], .sym '(']

/-- `:= sw_bn254.NewG1Affine(`. /repo/pairing_circuit.go:63, 64. -/
def oNew : List Tok :=
  [.sym ':', .sym '=', .id ['s', 'w', '_', 'b', 'n', '2', '5', '4'], .sym '.',
   .id ['N', 'e', 'w', 'G', '1', 'A', 'f', 'f', 'i', 'n', 'e'], .sym '(']

/-- `c.G1Points = [2]*sw_bn254.G1Affine{&`. /repo/pairing_circuit.go:65. -/
def oFill : List Tok :=
  [.id ['c'], .sym '.', .id ['G', '1', 'P', 'o', 'i', 'n', 't', 's'], .sym '=', .sym '[', .num 2, .sym ']', .sym '*',
   .id ['s', 'w', '_', 'b', 'n', '2', '5', '4'], .sym '.', .id ['G', '1', 'A', 'f', 'f', 'i', 'n', 'e'], .sym '{',
   .sym '&']

/-- `func VerifyCheckOnCurve( api frontend.API, x frontend.Variable, y frontend.Variable, ) error {`.
/repo/aggregator_lib_circuit.go:381-385. -/
def oHead : List Tok :=
  [.id ['f', 'u', 'n', 'c'],
   .id ['V', 'e', 'r', 'i', 'f', 'y', 'C', 'h', 'e', 'c', 'k', 'O', 'n', 'C', 'u', 'r', 'v', 'e'], .sym '(',
   .id ['a', 'p', 'i'], .id ['f', 'r', 'o', 'n', 't', 'e', 'n', 'd'], .sym '.', .id ['A', 'P', 'I'], .sym ',',
   .id ['x'], .id ['f', 'r', 'o', 'n', 't', 'e', 'n', 'd'], .sym '.', .id ['V', 'a', 'r', 'i', 'a', 'b', 'l', 'e'],
   .sym ',', .id ['y'], .id ['f', 'r', 'o', 'n', 't', 'e', 'n', 'd'], .sym '.',
   .id ['V', 'a', 'r', 'i', 'a', 'b', 'l', 'e'], .sym ',', .sym ')', .id ['e', 'r', 'r', 'o', 'r'], .sym '{']

/-- `func VerifyCheckOnCurveVar( api frontend.API, x frontend.Variable, y frontend.Variable, ) error {`.
/repo/aggregator_lib_circuit.go:409-413. -/
def oHeadVar : List Tok :=
  [.id ['f', 'u', 'n', 'c'],
   .id ['V', 'e', 'r', 'i', 'f', 'y', 'C', 'h', 'e', 'c', 'k', 'O', 'n', 'C', 'u', 'r', 'v', 'e', 'V', 'a', 'r'],
   .sym '(', .id ['a', 'p', 'i'], .id ['f', 'r', 'o', 'n', 't', 'e', 'n', 'd'], .sym '.', .id ['A', 'P', 'I'],
   .sym ',', .id ['x'], .id ['f', 'r', 'o', 'n', 't', 'e', 'n', 'd'], .sym '.',
   .id ['V', 'a', 'r', 'i', 'a', 'b', 'l', 'e'], .sym ',', .id ['y'], .id ['f', 'r', 'o', 'n', 't', 'e', 'n', 'd'],
   .sym '.', .id ['V', 'a', 'r', 'i', 'a', 'b', 'l', 'e'], .sym ',', .sym ')', .id ['e', 'r', 'r', 'o', 'r'], .sym '{']

/-- `func (c *BN256PairingCircuit) FillVerifyCircuitsG1(x1, y1, x2, y2 frontend.Variable) {`. /repo/pairing_circuit.go:48. -/
def oHeadFill : List Tok :=
  [.id ['f', 'u', 'n', 'c'], .sym '(', .id ['c'], .sym '*',
   .id ['B', 'N', '2', '5', '6', 'P', 'a', 'i', 'r', 'i', 'n', 'g', 'C', 'i', 'r', 'c', 'u', 'i', 't'], .sym ')',
   .id ['F', 'i', 'l', 'l', 'V', 'e', 'r', 'i', 'f', 'y', 'C', 'i', 'r', 'c', 'u', 'i', 't', 's', 'G', '1'], .sym '(',
   .id ['x', '1'], .sym ',', .id ['y', '1'], .sym ',', .id ['x', '2'], .sym ',', .id ['y', '2'],
   .id ['f', 'r', 'o', 'n', 't', 'e', 'n', 'd'], .sym '.', .id ['V', 'a', 'r', 'i', 'a', 'b', 'l', 'e'], .sym ')',
   .sym '{']

/-- `.X.` or `.Y.`, and the text after it.
For the text of /repo/aggregator_lib_circuit.go:381-423; /repo/pairing_circuit.go:48-67. -/
def coord : List Tok → Option (Bool × List Tok)
  | .sym '.' :: .id ['X'] :: .sym '.' :: ts => some (false, ts)
  | .sym '.' :: .id ['Y'] :: .sym '.' :: ts => some (true, ts)
  | _ => none

/-- `g.X.SetInterface(a)`. For the text of /repo/aggregator_lib_circuit.go:381-423; /repo/pairing_circuit.go:48-67. -/
def setInterfaceCall (params points : List (List Char)) (ts : List Tok) : Option ((ℕ × Bool × ℕ) × List Tok) :=
  match ts with
  | .id g :: ts => do
    let (y, ts) ← coord ts
    let ts ← expect oSetI ts
    match ts with
    | .id a :: .sym ')' :: ts => do
      let g ← points.idxOf? g
      let a ← params.idxOf? a
      return ((g, y, a), ts)
    | _ => none
  | _ => none

/-- `g.X.Set(v)`. For the text of /repo/aggregator_lib_circuit.go:381-423; /repo/pairing_circuit.go:48-67. -/
def setCall (points elems : List (List Char)) (ts : List Tok) : Option ((ℕ × Bool × ℕ) × List Tok) :=
  match ts with
  | .id g :: ts => do
    let (y, ts) ← coord ts
    let ts ← expect oSet ts
    match ts with
    | .id v :: .sym ')' :: ts => do
      let g ← points.idxOf? g
      let v ← elems.idxOf? v
      return ((g, y, v), ts)
    | _ => none
  | _ => none

/-- `if !g.IsOnCurve() { return errors.New("bn256.G1Affine is not on curve") }` and the corresponding panic.
For the text of /repo/aggregator_lib_circuit.go:381-423; /repo/pairing_circuit.go:48-67. -/
def checkCall (p q : List Tok) (points : List (List Char)) (ts : List Tok) : Option (ℕ × List Tok) :=
  match expect p ts with
  | some (.id g :: ts) => do
    let ts ← expect q ts
    let g ← points.idxOf? g
    return (g, ts)
  | _ => none

/-- The end of `FillVerifyCircuitsG1`. For the text of /repo/aggregator_lib_circuit.go:381-423; /repo/pairing_circuit.go:48-67. -/
def fillCall (points : List (List Char)) (ts : List Tok) : Option (ℕ × ℕ) :=
  match ts with
  | .id s :: ts => match expect oNew ts with
    | some (.id g :: .sym ')' :: .id t :: ts) => match expect oNew ts with
      | some (.id h :: .sym ')' :: ts) => do
        let _ ← expect (oFill ++ [.id s, .sym ',', .sym '&', .id t, .sym '}', .sym '}']) ts
        let g ← points.idxOf? g
        let h ← points.idxOf? h
        if s = t then none
        return (g, h)
      | _ => none
    | _ => none
  | _ => none

/-- Statements up to the closing brace; the first argument bounds their number.
For the text of /repo/aggregator_lib_circuit.go:381-423; /repo/pairing_circuit.go:48-67. -/
def onBody (params : List (List Char)) : ℕ → List (List Char) → List (List Char) → List Tok → Option (List OnStmt)
  | 0, _, _, _ => none
  | k + 1, points, elems, ts =>
    match expect cRetNil ts with
    | some _ => some [.retNil]
    | none => match fillCall points ts with
    | some (g, h) => some [.fill g h]
    | none => match checkCall oIf oReturn points ts with
    | some (g, ts) => do
      let l ← onBody params k points elems ts
      return .check g :: l
    | none => match checkCall oPanicIf oPanic points ts with
    | some (g, ts) => do
      let l ← onBody params k points elems ts
      return .panicIf g :: l
    | none => match setInterfaceCall params points ts with
    | some ((g, y, a), ts) => do
      let l ← onBody params k points elems ts
      return .setI g y a :: l
    | none => match setCall points elems ts with
    | some ((g, y, v), ts) => do
      let l ← onBody params k points elems ts
      return .set g y v :: l
    | none => match ts with
    | .id ['v', 'a', 'r'] :: .id g :: ts => do
      let ts ← expect oPoint ts
      let l ← onBody params k (points ++ [g]) elems ts
      return .point :: l
    | .id v :: .sym ',' :: .id w :: ts => match expect oConv (.id w :: ts) with
      | some (.id a :: .sym ')' :: ts) => do
        let a ← params.idxOf? a
        let l ← onBody params k points (elems ++ [v]) ts
        return .conv a :: l
      | some _ => none
      | none => do
        if v ≠ ['_'] then none
        if w ≠ ['e', 'r', 'r', '1'] ∧ w ≠ ['e', 'r', 'r', '2'] then none
        let ts ← expect [.sym '='] ((expect [.sym ':'] ts).getD ts)
        let ((g, y, a), ts) ← setInterfaceCall params points ts
        let l ← onBody params k points elems ts
        return .setErr g y a (w == ['e', 'r', 'r', '2']) :: l
    | _ => none

/-- The body of the function with the given beginning (with its parameters, whose names are given) in a file.
For the text of /repo/aggregator_lib_circuit.go:381-423; /repo/pairing_circuit.go:48-67. -/
def onFun (head : List Tok) (params : List (List Char)) (s : List Char) : Option (List OnStmt) := do
  let ts ← after head (tokens s)
  onBody params 30 [] [] ts

end Verif.Go
