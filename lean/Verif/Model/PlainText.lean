/-
A reader and a meaning for the text of the functions on points outside the circuit: `VerifyBN256Msm`, `VerifyBN256Add`,
`CalcVerifyBN256Msm1` and `CalcVerifyBN256Add1` (/repo/aggregator_lib_circuit.go:52-63, 82-92, 127-157, 215-257), to check the
hand-written definitions of Verif/Model/Curve against the source (theorems in Verif/Props/SourcePlain). Also a reader for the `Define`
of the small circuits, which are calls of the functions.
-/
import Verif.Model.MainText

namespace Verif.Go

/-! ### VerifyBN256Msm and VerifyBN256Add -/

/-- A point: a parameter, numbered after `api`, or the result. /repo/aggregator_lib_circuit.go:58-61, 88-90. -/
inductive PlainPt where
  | arg (i : ℕ)
  | sum
deriving DecidableEq

/-- What the text of one of the two functions determines: the parameter the result is written to, the two operands, and the points and
coordinates (`Y` if the flag is set) of the assertions in order. /repo/aggregator_lib_circuit.go:58-61, 88-90. -/
structure Plain where
  recv : ℕ
  fst : ℕ
  snd : ℕ
  asserts : List ((PlainPt × Bool) × (PlainPt × Bool))
deriving DecidableEq

/-- A coordinate of the sum (or multiple) `g` or of `res`, the last parameter, number 2. Other points are outside this meaning.
/repo/aggregator_lib_circuit.go:60-61, 89-90. -/
def plainCoord (recv : ℕ) (g : G1) (res : Aff) : PlainPt × Bool → Option Var
  | (.arg i, y) =>
    if i = recv then some (fpVar (if y then (enc g).2 else (enc g).1))
    else if i = 2 then some (fpVar (if y then res.2 else res.1))
    else none
  | (.sum, y) => some (fpVar (if y then (enc g).2 else (enc g).1))

/-- The assertions in order. /repo/aggregator_lib_circuit.go:60-61, 89-90. -/
def plainAsserts (recv : ℕ) (g : G1) (res : Aff) : List ((PlainPt × Bool) × (PlainPt × Bool)) → Circ Unit
  | [] => pure ()
  | (a, b) :: l => match plainCoord recv g res a, plainCoord recv g res b with
    | some a, some b => do
      apiAssertIsEqual a b
      plainAsserts recv g res l
    | _, _ => Circ.panic "not modelled"

/-- The body of `VerifyBN256Msm`: `ScalarMultiplication` writes to its receiver, which has to be the first parameter (else it is outside
this meaning). /repo/aggregator_lib_circuit.go:52-63. -/
def runPlainMsm (p : Plain) (g : G1) (k : ℤ) (res : Aff) : Circ (GoErr × G1) :=
  if p.recv = 0 ∧ p.fst = 0 ∧ p.snd = 1 then do
    plainAsserts p.recv (k • g) res p.asserts
    pure (none, k • g)
  else Circ.panic "not modelled"

/-- The body of `VerifyBN256Add`: `Add` writes to its receiver, which has to be the first parameter.
/repo/aggregator_lib_circuit.go:82-92. -/
def runPlainAdd (p : Plain) (g h : G1) (res : Aff) : Circ (GoErr × G1) :=
  if p.recv = 0 ∧ p.fst < 2 ∧ p.snd < 2 then
    let a := if p.fst = 0 then g else h
    let b := if p.snd = 0 then g else h
    do
      plainAsserts p.recv (a + b) res p.asserts
      pure (none, a + b)
  else Circ.panic "not modelled"

/-- `func (`. /repo/aggregator_lib_circuit.go:43, 73, 313, 345, 377, 405; /repo/msm.go:17, 48, 101. -/
def wrFunc : List Tok :=
  [.id ['f', 'u', 'n', 'c'], .sym '(']

/-- `) Define(api frontend.API) error { return`.
/repo/aggregator_lib_circuit.go:43, 73, 313, 345, 377, 405; /repo/msm.go:17, 48, 101. -/
def wrDefine : List Tok :=
  [.sym ')', .id ['D', 'e', 'f', 'i', 'n', 'e'], .sym '(', .id ['a', 'p', 'i'],
   .id ['f', 'r', 'o', 'n', 't', 'e', 'n', 'd'], .sym '.', .id ['A', 'P', 'I'], .sym ')',
   .id ['e', 'r', 'r', 'o', 'r'], .sym '{', .id ['r', 'e', 't', 'u', 'r', 'n']]

/-- `api.AssertIsEqual(`. /repo/aggregator_lib_circuit.go:60, 61, 89, 90. -/
def plAssert : List Tok :=
  [.id ['a', 'p', 'i'], .sym '.', .id ['A', 's', 's', 'e', 'r', 't', 'I', 's', 'E', 'q', 'u', 'a', 'l'], .sym '(']

/-- `func VerifyBN256Msm( api frontend.API, g1Point *bn254.G1Affine, scalar *big.Int, res *bn254.G1Affine, ) error {`.
/repo/aggregator_lib_circuit.go:52-57. -/
def plHeadMsm : List Tok :=
  [.id ['f', 'u', 'n', 'c'], .id ['V', 'e', 'r', 'i', 'f', 'y', 'B', 'N', '2', '5', '6', 'M', 's', 'm'], .sym '(',
   .id ['a', 'p', 'i'], .id ['f', 'r', 'o', 'n', 't', 'e', 'n', 'd'], .sym '.', .id ['A', 'P', 'I'], .sym ',',
   .id ['g', '1', 'P', 'o', 'i', 'n', 't'], .sym '*', .id ['b', 'n', '2', '5', '4'], .sym '.',
   .id ['G', '1', 'A', 'f', 'f', 'i', 'n', 'e'], .sym ',', .id ['s', 'c', 'a', 'l', 'a', 'r'], .sym '*',
   .id ['b', 'i', 'g'], .sym '.', .id ['I', 'n', 't'], .sym ',', .id ['r', 'e', 's'], .sym '*',
   .id ['b', 'n', '2', '5', '4'], .sym '.', .id ['G', '1', 'A', 'f', 'f', 'i', 'n', 'e'], .sym ',', .sym ')',
   .id ['e', 'r', 'r', 'o', 'r'], .sym '{']

/-- `.ScalarMultiplication(`. /repo/aggregator_lib_circuit.go:58. -/
def plMul : List Tok :=
  [.sym '.', .id ['S', 'c', 'a', 'l', 'a', 'r', 'M', 'u', 'l', 't', 'i', 'p', 'l', 'i', 'c', 'a', 't', 'i', 'o', 'n'],
   .sym '(']

/-- `func VerifyBN256Add( api frontend.API, g10Point *bn254.G1Affine, g11Point *bn254.G1Affine, res *bn254.G1Affine, ) error { sum :=`.
/repo/aggregator_lib_circuit.go:82-88. -/
def plHeadAdd : List Tok :=
  [.id ['f', 'u', 'n', 'c'], .id ['V', 'e', 'r', 'i', 'f', 'y', 'B', 'N', '2', '5', '6', 'A', 'd', 'd'], .sym '(',
   .id ['a', 'p', 'i'], .id ['f', 'r', 'o', 'n', 't', 'e', 'n', 'd'], .sym '.', .id ['A', 'P', 'I'], .sym ',',
   .id ['g', '1', '0', 'P', 'o', 'i', 'n', 't'], .sym '*', .id ['b', 'n', '2', '5', '4'], .sym '.',
   .id ['G', '1', 'A', 'f', 'f', 'i', 'n', 'e'], .sym ',', .id ['g', '1', '1', 'P', 'o', 'i', 'n', 't'], .sym '*',
   .id ['b', 'n', '2', '5', '4'], .sym '.', .id ['G', '1', 'A', 'f', 'f', 'i', 'n', 'e'], .sym ',',
   .id ['r', 'e', 's'], .sym '*', .id ['b', 'n', '2', '5', '4'], .sym '.',
   .id ['G', '1', 'A', 'f', 'f', 'i', 'n', 'e'], .sym ',', .sym ')', .id ['e', 'r', 'r', 'o', 'r'], .sym '{',
   .id ['s', 'u', 'm'], .sym ':', .sym '=']

/-- `.Add(`. For the text of /repo/aggregator_lib_circuit.go:52-63, 82-92, 127-157, 215-257. -/
def plAdd : List Tok :=
  [.sym '.', .id ['A', 'd', 'd'], .sym '(']

/-- `return [2]frontend.Variable{`. /repo/aggregator_lib_circuit.go:143, 156, 230 and more. -/
def plRet : List Tok :=
  [.id ['r', 'e', 't', 'u', 'r', 'n'], .sym '[', .num 2, .sym ']', .id ['f', 'r', 'o', 'n', 't', 'e', 'n', 'd'],
   .sym '.', .id ['V', 'a', 'r', 'i', 'a', 'b', 'l', 'e'], .sym '{']

/-- `.X.BigInt(new(big.Int)),`. /repo/aggregator_lib_circuit.go:156, 256. -/
def plRetX : List Tok :=
  [.sym '.', .id ['X'], .sym '.', .id ['B', 'i', 'g', 'I', 'n', 't'], .sym '(', .id ['n', 'e', 'w'], .sym '(',
   .id ['b', 'i', 'g'], .sym '.', .id ['I', 'n', 't'], .sym ')', .sym ')', .sym ',']

/-- `.Y.BigInt(new(big.Int))},`. /repo/aggregator_lib_circuit.go:156, 256. -/
def plRetY : List Tok :=
  [.sym '.', .id ['Y'], .sym '.', .id ['B', 'i', 'g', 'I', 'n', 't'], .sym '(', .id ['n', 'e', 'w'], .sym '(',
   .id ['b', 'i', 'g'], .sym '.', .id ['I', 'n', 't'], .sym ')', .sym ')', .sym '}', .sym ',']

/-- `VerifyBN256Msm(api, &`. /repo/aggregator_lib_circuit.go:156. -/
def plRetMsm : List Tok :=
  [.id ['V', 'e', 'r', 'i', 'f', 'y', 'B', 'N', '2', '5', '6', 'M', 's', 'm'], .sym '(', .id ['a', 'p', 'i'], .sym ',',
   .sym '&']

/-- `.(*big.Int), &`. /repo/aggregator_lib_circuit.go:156. -/
def plBig : List Tok :=
  [.sym '.', .sym '(', .sym '*', .id ['b', 'i', 'g'], .sym '.', .id ['I', 'n', 't'], .sym ')', .sym ',', .sym '&']

/-- `VerifyBN256Add(api, &`. /repo/aggregator_lib_circuit.go:256. -/
def plRetAdd : List Tok :=
  [.id ['V', 'e', 'r', 'i', 'f', 'y', 'B', 'N', '2', '5', '6', 'A', 'd', 'd'], .sym '(', .id ['a', 'p', 'i'], .sym ',',
   .sym '&']

/-- `if err != nil { panic(err) }`. /repo/aggregator_lib_circuit.go:129-131, 135-137, 139-141 and more. -/
def plPanicErr : List Tok :=
  [.id ['i', 'f'], .id ['e', 'r', 'r'], .sym '!', .sym '=', .id ['n', 'i', 'l'], .sym '{',
   .id ['p', 'a', 'n', 'i', 'c'], .sym '(', .id ['e', 'r', 'r'], .sym ')', .sym '}']

/-- `.IsOnCurve() { return [2]frontend.Variable{}, errors.New("bn256.G1Affine is not on curve") }`.
/repo/aggregator_lib_circuit.go:142-144, 229-231, 242-244. -/
def plNotOn : List Tok :=
  [.sym '.', .id ['I', 's', 'O', 'n', 'C', 'u', 'r', 'v', 'e'], .sym '(', .sym ')', .sym '{',
   .id ['r', 'e', 't', 'u', 'r', 'n'], .sym '[', .num 2, .sym ']', .id ['f', 'r', 'o', 'n', 't', 'e', 'n', 'd'],
   .sym '.', .id ['V', 'a', 'r', 'i', 'a', 'b', 'l', 'e'], .sym '{', .sym '}', .sym ',',
   .id ['e', 'r', 'r', 'o', 'r', 's'], .sym '.', .id ['N', 'e', 'w'], .sym '(',
   .str ['b', 'n', '2', '5', '6', '.', 'G', '1', 'A', 'f', 'f', 'i', 'n', 'e', ' ', 'i', 's', ' ', 'n', 'o', 't', ' ', 'o', 'n', ' ', 'c', 'u', 'r', 'v', 'e'],
   .sym ')', .sym '}']

/-- `result, err := api.Compiler().NewHint(`. /repo/aggregator_lib_circuit.go:128, 216. -/
def plHint : List Tok :=
  [.id ['r', 'e', 's', 'u', 'l', 't'], .sym ',', .id ['e', 'r', 'r'], .sym ':', .sym '=', .id ['a', 'p', 'i'],
   .sym '.', .id ['C', 'o', 'm', 'p', 'i', 'l', 'e', 'r'], .sym '(', .sym ')', .sym '.',
   .id ['N', 'e', 'w', 'H', 'i', 'n', 't'], .sym '(']

/-- `func CalcVerifyBN256Msm1(api frontend.API, x, y, k frontend.Variable) ([2]frontend.Variable, error) {`.
/repo/aggregator_lib_circuit.go:127. -/
def plHeadMsm1 : List Tok :=
  [.id ['f', 'u', 'n', 'c'],
   .id ['C', 'a', 'l', 'c', 'V', 'e', 'r', 'i', 'f', 'y', 'B', 'N', '2', '5', '6', 'M', 's', 'm', '1'], .sym '(',
   .id ['a', 'p', 'i'], .id ['f', 'r', 'o', 'n', 't', 'e', 'n', 'd'], .sym '.', .id ['A', 'P', 'I'], .sym ',',
   .id ['x'], .sym ',', .id ['y'], .sym ',', .id ['k'], .id ['f', 'r', 'o', 'n', 't', 'e', 'n', 'd'], .sym '.',
   .id ['V', 'a', 'r', 'i', 'a', 'b', 'l', 'e'], .sym ')', .sym '(', .sym '[', .num 2, .sym ']',
   .id ['f', 'r', 'o', 'n', 't', 'e', 'n', 'd'], .sym '.', .id ['V', 'a', 'r', 'i', 'a', 'b', 'l', 'e'], .sym ',',
   .id ['e', 'r', 'r', 'o', 'r'], .sym ')', .sym '{']

/-- `func CalcVerifyBN256Add1(api frontend.API, x1, y1, x2, y2 frontend.Variable) ([2]frontend.Variable, error) {`.
/repo/aggregator_lib_circuit.go:215. -/
def plHeadAdd1 : List Tok :=
  [.id ['f', 'u', 'n', 'c'],
   .id ['C', 'a', 'l', 'c', 'V', 'e', 'r', 'i', 'f', 'y', 'B', 'N', '2', '5', '6', 'A', 'd', 'd', '1'], .sym '(',
   .id ['a', 'p', 'i'], .id ['f', 'r', 'o', 'n', 't', 'e', 'n', 'd'], .sym '.', .id ['A', 'P', 'I'], .sym ',',
   .id ['x', '1'], .sym ',', .id ['y', '1'], .sym ',', .id ['x', '2'], .sym ',', .id ['y', '2'],
   .id ['f', 'r', 'o', 'n', 't', 'e', 'n', 'd'], .sym '.', .id ['V', 'a', 'r', 'i', 'a', 'b', 'l', 'e'], .sym ')',
   .sym '(', .sym '[', .num 2, .sym ']', .id ['f', 'r', 'o', 'n', 't', 'e', 'n', 'd'], .sym '.',
   .id ['V', 'a', 'r', 'i', 'a', 'b', 'l', 'e'], .sym ',', .id ['e', 'r', 'r', 'o', 'r'], .sym ')', .sym '{']

/-- The name `api`. /repo/aggregator_lib_circuit.go:53, 60, 61 and more. -/
def wrApi : List Char := ['a', 'p', 'i']

/-- The name `sum`. /repo/aggregator_lib_circuit.go:88, 89, 90. -/
def plSum : List Char := ['s', 'u', 'm']

/-- The name `g1Point`. /repo/aggregator_lib_circuit.go:54, 58, 60, 61. -/
def plG1Point : List Char := ['g', '1', 'P', 'o', 'i', 'n', 't']

/-- The name `scalar`. /repo/aggregator_lib_circuit.go:55, 58. -/
def plScalar : List Char := ['s', 'c', 'a', 'l', 'a', 'r']

/-- The name `res`. /repo/aggregator_lib_circuit.go:56, 60, 61 and more. -/
def plRes : List Char := ['r', 'e', 's']

/-- The name `g10Point`. /repo/aggregator_lib_circuit.go:84, 88. -/
def plG10 : List Char := ['g', '1', '0', 'P', 'o', 'i', 'n', 't']

/-- The name `g11Point`. /repo/aggregator_lib_circuit.go:85, 88. -/
def plG11 : List Char := ['g', '1', '1', 'P', 'o', 'i', 'n', 't']

/-- The name `result`. /repo/aggregator_lib_circuit.go:128, 147, 151 and more. -/
def plResult : List Char := ['r', 'e', 's', 'u', 'l', 't']

/-- `p.X` or `p.Y` for a parameter or `sum`. For the text of /repo/aggregator_lib_circuit.go:52-63, 82-92, 127-157, 215-257. -/
def plainPt (params : List (List Char)) : List Tok → Option ((PlainPt × Bool) × List Tok)
  | .id p :: .sym '.' :: .id c :: ts => do
    if c ≠ ['X'] ∧ c ≠ ['Y'] then none
    if p = plSum then return ((.sum, c == ['Y']), ts)
    let i ← params.idxOf? p
    return ((.arg i, c == ['Y']), ts)
  | _ => none

/-- `api.AssertIsEqual(p.X, q.X)` up to `return nil }`; the first argument bounds their number.
For the text of /repo/aggregator_lib_circuit.go:52-63, 82-92, 127-157, 215-257. -/
def plainBody (params : List (List Char)) : ℕ → List Tok → Option (List ((PlainPt × Bool) × (PlainPt × Bool)))
  | 0, _ => none
  | k + 1, ts => match expect cRetNil ts with
    | some _ => some []
    | none => do
      let ts ← expect plAssert ts
      let (a, ts) ← plainPt params ts
      let ts ← expect [.sym ','] ts
      let (b, ts) ← plainPt params ts
      let ts ← expect [.sym ')'] ts
      let l ← plainBody params k ts
      return (a, b) :: l

/-- The text of `VerifyBN256Msm`: the result of `ScalarMultiplication` is assigned to its receiver.
For the text of /repo/aggregator_lib_circuit.go:52-63, 82-92, 127-157, 215-257. -/
def plainMsm (s : List Char) : Option Plain := do
  let params := [plG1Point, plScalar, plRes]
  match after plHeadMsm (tokens s) with
  | some (.id a :: .sym '=' :: .id b :: ts) => do
    if a ≠ b then none
    let r ← params.idxOf? a
    match expect plMul ts with
    | some (.id c :: .sym ',' :: .id d :: .sym ')' :: ts) => do
      let c ← params.idxOf? c
      let d ← params.idxOf? d
      let l ← plainBody params 10 ts
      return ⟨r, c, d, l⟩
    | _ => none
  | _ => none

/-- The text of `VerifyBN256Add`. For the text of /repo/aggregator_lib_circuit.go:52-63, 82-92, 127-157, 215-257. -/
def plainAdd (s : List Char) : Option Plain := do
  let params := [plG10, plG11, plRes]
  match after plHeadAdd (tokens s) with
  | some (.id a :: ts) => do
    let r ← params.idxOf? a
    match expect plAdd ts with
    | some (.id c :: .sym ',' :: .id d :: .sym ')' :: ts) => do
      let c ← params.idxOf? c
      let d ← params.idxOf? d
      let l ← plainBody params 10 ts
      return ⟨r, c, d, l⟩
    | _ => none
  | _ => none

/-! ### CalcVerifyBN256Msm1 and CalcVerifyBN256Add1 -/

/-- Where a coordinate comes from: a parameter after `api`, or an entry of `result`. /repo/aggregator_lib_circuit.go:134-154, 221-254. -/
inductive CalcSrc where
  | arg (i : ℕ)
  | result (i : ℕ)
deriving DecidableEq

/-- Statements; points are numbered. /repo/aggregator_lib_circuit.go:128-156, 216-256. -/
inductive Calc1Stmt where
  /-- `result, err := api.Compiler().NewHint(f, n, x, …)` -/
  | hint (f : HintId) (n : ℕ) (ins : List ℕ)
  /-- `if err != nil { panic(err) }` after the hint -/
  | panicErr
  /-- `var g = bn254.G1Affine{}` -/
  | point
  /-- `_, err = g.X.SetInterface(a) if err != nil { panic(err) }` -/
  | set (g : ℕ) (y : Bool) (a : CalcSrc)
  /-- `if !g.IsOnCurve() { return [2]frontend.Variable{}, errors.New("bn256.G1Affine is not on curve") }` -/
  | check (g : ℕ)
  /-- `return [2]frontend.Variable{r.X.BigInt(new(big.Int)), r.Y.BigInt(new(big.Int))}, VerifyBN256Msm(api, &g, k.(*big.Int), &r) }` -/
  | retMsm (x : ℕ) (y : ℕ) (g k r : ℕ)
  /-- the same with `VerifyBN256Add(api, &g, &h, &r)` -/
  | retAdd (x : ℕ) (y : ℕ) (g h r : ℕ)
deriving DecidableEq

/-- The variables: the result of the hint and the points. /repo/aggregator_lib_circuit.go:128-156, 216-256. -/
structure Calc1State where
  result : List Var
  points : List Aff

/-- The value of a source. /repo/aggregator_lib_circuit.go:134-154, 221-254. -/
def CalcSrc.get (args : List Var) (st : Calc1State) : CalcSrc → Circ Var
  | .arg i => idx args i
  | .result i => idx st.result i

/-- The body of one of the functions. `NewHint` panics or gives an empty error (see Verif/Model/Engine), so that the test after it does
nothing. The points passed on have passed the test of line 142, 229 or 242, else it is outside this meaning.
/repo/aggregator_lib_circuit.go:127-157, 215-257. -/
def runCalc1 (args : List Var) : List Calc1Stmt → Calc1State → Circ ((Var × Var) × GoErr)
  | [], _ => Circ.panic "not modelled"
  | .hint f n ins :: l, st => do
    let result ← newHint f n (ins.map fun i => args.getD i .nil)
    runCalc1 args l { st with result := result }
  | .panicErr :: l, st => runCalc1 args l st
  | .point :: l, st => runCalc1 args l { st with points := st.points ++ [(0, 0)] }
  | .set g y a :: l, st => do
    let v ← a.get args st
    let x ← setInterfaceOrPanic v
    runCalc1 args l { st with points := setCoord st.points g y x }
  | .check g :: l, st =>
    let p := st.points.getD g (0, 0)
    if isOnCurve p.1 p.2 then runCalc1 args l st else pure ((.nil, .nil), errNotOnCurve)
  | .retMsm x y g k r :: _, st =>
    let p := st.points.getD g (0, 0)
    let q := st.points.getD r (0, 0)
    match affPt p.1 p.2 with
    | none => Circ.panic "not modelled"
    | some p => do
      let kk ← asBigInt (args.getD k .nil)
      let (err, _) ← VerifyBN256Msm p kk q
      pure ((.big (st.points.getD x (0, 0)).1.val, .big (st.points.getD y (0, 0)).2.val), err)
  | .retAdd x y g h r :: _, st =>
    let p := st.points.getD g (0, 0)
    let p' := st.points.getD h (0, 0)
    let q := st.points.getD r (0, 0)
    match affPt p.1 p.2, affPt p'.1 p'.2 with
    | some p, some p' => do
      let (err, _) ← VerifyBN256Add p p' q
      pure ((.big (st.points.getD x (0, 0)).1.val, .big (st.points.getD y (0, 0)).2.val), err)
    | _, _ => Circ.panic "not modelled"

/-- Names separated by commas up to a closing parenthesis, as numbers of parameters; the first argument bounds their number.
For the text of /repo/aggregator_lib_circuit.go:52-63, 82-92, 127-157, 215-257. -/
def calc1Args (params : List (List Char)) : ℕ → List Tok → Option (List ℕ × List Tok)
  | 0, _ => none
  | k + 1, .id a :: .sym ',' :: ts => do
    let a ← params.idxOf? a
    let (l, ts) ← calc1Args params k ts
    return (a :: l, ts)
  | _ + 1, .id a :: .sym ')' :: ts => do
    let a ← params.idxOf? a
    return ([a], ts)
  | _, _ => none

/-- The return statement. For the text of /repo/aggregator_lib_circuit.go:52-63, 82-92, 127-157, 215-257. -/
def calcRet (params points : List (List Char)) (ts : List Tok) : Option Calc1Stmt :=
  match expect plRet ts with
  | some (.id x :: ts) => match expect plRetX ts with
    | some (.id y :: ts) => match expect plRetY ts with
      | some ts => do
        let x ← points.idxOf? x
        let y ← points.idxOf? y
        match expect plRetMsm ts with
        | some (.id g :: .sym ',' :: .id k :: ts) => match expect plBig ts with
          | some (.id r :: .sym ')' :: .sym '}' :: _) => do
            let g ← points.idxOf? g
            let k ← params.idxOf? k
            let r ← points.idxOf? r
            return .retMsm x y g k r
          | _ => none
        | _ => match expect plRetAdd ts with
          | some (.id g :: .sym ',' :: .sym '&' :: .id h :: .sym ',' :: .sym '&' :: .id r :: .sym ')' :: .sym '}' :: _) => do
            let g ← points.idxOf? g
            let h ← points.idxOf? h
            let r ← points.idxOf? r
            return .retAdd x y g h r
          | _ => none
      | _ => none
    | _ => none
  | _ => none

/-- `a)` or `result[i])`. For the text of /repo/aggregator_lib_circuit.go:52-63, 82-92, 127-157, 215-257. -/
def calcSrc (params : List (List Char)) : List Tok → Option (CalcSrc × List Tok)
  | .id a :: .sym ')' :: ts => (params.idxOf? a).map fun a => (.arg a, ts)
  | .id a :: .sym '[' :: .num i :: .sym ']' :: .sym ')' :: ts => if a = plResult then some (.result i, ts) else none
  | _ => none

/-- Statements up to the closing brace; the first argument bounds their number.
For the text of /repo/aggregator_lib_circuit.go:52-63, 82-92, 127-157, 215-257. -/
def calc1Body (params : List (List Char)) : ℕ → List (List Char) → List Tok → Option (List Calc1Stmt)
  | 0, _, _ => none
  | k + 1, points, ts =>
    match calcRet params points ts with
    | some s => some [s]
    | none => match expect plPanicErr ts with
    | some ts => do
      let l ← calc1Body params k points ts
      return .panicErr :: l
    | none => match checkCall oIf plNotOn points ts with
    | some (g, ts) => do
      let l ← calc1Body params k points ts
      return .check g :: l
    | none => match expect plHint ts with
    | some (.id f :: .sym ',' :: .num n :: .sym ',' :: ts) => do
      let f ← hintOf f
      let (ins, ts) ← calc1Args params 10 ts
      let l ← calc1Body params k points ts
      return .hint f n ins :: l
    | some _ => none
    | none => match ts with
    | .id ['v', 'a', 'r'] :: .id g :: ts => do
      if g ∈ points then none
      let ts ← expect oPoint ts
      let l ← calc1Body params k (points ++ [g]) ts
      return .point :: l
    | .id ['_'] :: .sym ',' :: .id ['e', 'r', 'r'] :: .sym '=' :: .id g :: ts => do
      let g ← points.idxOf? g
      let (y, ts) ← coord ts
      let ts ← expect oSetI ts
      let (a, ts) ← calcSrc params ts
      let ts ← expect plPanicErr ts
      let l ← calc1Body params k points ts
      return .set g y a :: l
    | _ => none

/-- The body of the function with the given beginning (with its parameters, whose names are given) in a file.
For the text of /repo/aggregator_lib_circuit.go:52-63, 82-92, 127-157, 215-257. -/
def calc1Fun (head : List Tok) (params : List (List Char)) (s : List Char) : Option (List Calc1Stmt) := do
  let ts ← after head (tokens s)
  calc1Body params 30 [] ts

/-! ### Define of the small circuits -/

/-- `recv.F, …` up to `) }`, possibly with a comma before it; the first argument bounds their number.
/repo/aggregator_lib_circuit.go:43, 73, 313, 345, 377, 405; /repo/msm.go:17, 48, 101. -/
def wrapArgs (recv : List Char) : ℕ → List Tok → Option (List (List Char))
  | 0, _ => none
  | k + 1, .id r :: .sym '.' :: .id f :: ts =>
    if r ≠ recv then none
    else match expect [.sym ')', .sym '}'] ((expect [.sym ','] ts).getD ts) with
    | some _ => some [f]
    | none => match ts with
      | .sym ',' :: ts => (wrapArgs recv k ts).map (f :: ·)
      | _ => none
  | _, _ => none

/-- A `Define` with the given receiver that is `return F(api, recv.A, recv.B, …)`: the name of the function and the fields.
/repo/aggregator_lib_circuit.go:43-50, 73-80, 313-315, 345-347, 377-379, 405-407, /repo/msm.go:17-19, 48-50, 101-103. -/
def wrapFun (recv : List Char) (type : List Tok) (s : List Char) : Option (List Char × List (List Char)) :=
  match after (wrFunc ++ [.id recv] ++ type ++ wrDefine) (tokens s) with
  | some (.id f :: .sym '(' :: .id a :: .sym ',' :: ts) => do
    if a ≠ wrApi then none
    let l ← wrapArgs recv 10 ts
    return (f, l)
  | _ => none

end Verif.Go
