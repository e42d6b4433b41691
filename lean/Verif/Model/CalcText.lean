/-
A reader and a meaning for the two functions that compute a curve operation by a hint and check it, `CalcVerifyBN256Msm` and
`CalcVerifyBN256Add`, and for the two range checks, `VerifyNotZero` and `VerifyRangeCheck`
(/repo/aggregator_lib_circuit.go:159-177, 259-264, 598-618), to check the hand-written definitions of Verif/Model/Curve
against the source (theorems in Verif/Props/SourceDefine).
-/
import Verif.Model.EccText

namespace Verif.Go

/-- Arguments: a variable, an entry of a slice, or an integer. Variables are numbered: the parameters after `api`, then the
local variables in the order of their declarations. /repo/aggregator_lib_circuit.go:159-177, 259-264, 598-618. -/
inductive CalcArg where
  | var (i : ℕ)
  | at (i k : ℕ)
  | int (n : ℕ)
deriving DecidableEq

/-- Statements; a pair of arguments is `[2]frontend.Variable{a, b}`.
/repo/aggregator_lib_circuit.go:159-177, 259-264, 598-618. -/
inductive CalcStmt where
  /-- `result, err := api.Compiler().NewHint(h, n, args)`, where the value of `err` is ignored or a reason to panic -/
  | hint (h : HintId) (n : ℕ) (args : List CalcArg)
  /-- `if err != nil { panic(err) }` -/
  | panicErr
  /-- `x, y := mod(api, a), mod(api, b)` -/
  | mods (a b : CalcArg)
  /-- `err = VerifyBN254ScalarMul(api, p, k, e)` -/
  | scalarMul (p : CalcArg × CalcArg) (k : CalcArg) (e : CalcArg × CalcArg)
  /-- `err = VerifyBN254Add(api, p, q, e)` -/
  | add (p q e : CalcArg × CalcArg)
  /-- `api.AssertIsLessOrEqual(a, b)` -/
  | le (a b : CalcArg)
  /-- `return p, err` -/
  | retPair (p : CalcArg × CalcArg)
  /-- `return nil` -/
  | retNil
deriving DecidableEq

/-! ### Meaning -/

/-- The value of an argument. /repo/aggregator_lib_circuit.go:159-177, 259-264, 598-618. -/
def CalcArg.eval (env : List FrVal) : CalcArg → Circ Var
  | .var i => FrVal.get env i
  | .at i k => match env[i]? with
    | some (.many l) => idx l k
    | _ => Circ.panic "type error"
  | .int n => pure (.int n)

/-- The value of `[2]frontend.Variable{a, b}`. /repo/aggregator_lib_circuit.go:175-176, 262-263. -/
def evalPair (env : List FrVal) (p : CalcArg × CalcArg) : Circ (Var × Var) := do
  let a ← p.1.eval env
  let b ← p.2.eval env
  pure (a, b)

/-- The body of a function; returns its values and its error. Simplification: `NewHint` returns no Go error, see
`Verif.mod`, so the variable `err` is nil after it. /repo/aggregator_lib_circuit.go:159-177, 259-264, 598-618. -/
def runCalc (X : Ext) : List CalcStmt → List FrVal → GoErr → Circ (List Var × GoErr)
  | [], _, _ => Circ.panic "missing return"
  | .hint h n args :: l, env, _ => do
    let vs ← args.mapM (·.eval env)
    let rs ← newHint h n vs
    runCalc X l (env ++ [.many rs]) none
  | .panicErr :: l, env, err => match err with
    | some m => Circ.panic m
    | none => runCalc X l env none
  | .mods a b :: l, env, err => do
    let x ← a.eval env
    let x ← Verif.mod x
    let y ← b.eval env
    let y ← Verif.mod y
    runCalc X l (env ++ [.one x, .one y]) err
  | .scalarMul p k e :: l, env, _ => do
    let p ← evalPair env p
    let k ← k.eval env
    let e ← evalPair env e
    let err ← VerifyBN254ScalarMul X p k e
    runCalc X l env err
  | .add p q e :: l, env, _ => do
    let p ← evalPair env p
    let q ← evalPair env q
    let e ← evalPair env e
    let err ← VerifyBN254Add X p q e
    runCalc X l env err
  | .le a b :: l, env, err => do
    let x ← a.eval env
    let y ← b.eval env
    apiAssertIsLessOrEqual x y
    runCalc X l env err
  | .retPair p :: _, env, err => do
    let p ← evalPair env p
    pure ([p.1, p.2], err)
  | .retNil :: _, _, _ => pure ([], none)

/-! ### Reading -/

/-- `[2]frontend.Variable{`. /repo/aggregator_lib_circuit.go:175, 176, 262, 263. -/
def cPair : List Tok :=
  [.sym '[', .num 2, .sym ']', .id ['f', 'r', 'o', 'n', 't', 'e', 'n', 'd'], .sym '.',
   .id ['V', 'a', 'r', 'i', 'a', 'b', 'l', 'e'], .sym '{']

/-- `if err != nil { panic(err) }`. /repo/aggregator_lib_circuit.go:161-163. -/
def cPanic : List Tok :=
  [.id ['i', 'f'], .id ['e', 'r', 'r'], .sym '!', .sym '=', .id ['n', 'i', 'l'], .sym '{',
   .id ['p', 'a', 'n', 'i', 'c'], .sym '(', .id ['e', 'r', 'r'], .sym ')', .sym '}']

/-- `err = VerifyBN254ScalarMul(api,`. /repo/aggregator_lib_circuit.go:175. -/
def cMul : List Tok :=
  [.id ['e', 'r', 'r'], .sym '=',
   .id ['V', 'e', 'r', 'i', 'f', 'y', 'B', 'N', '2', '5', '4', 'S', 'c', 'a', 'l', 'a', 'r', 'M', 'u', 'l'], .sym '(',
   .id ['a', 'p', 'i'], .sym ',']

/-- `err = VerifyBN254Add(api,`. /repo/aggregator_lib_circuit.go:262. -/
def cAdd : List Tok :=
  [.id ['e', 'r', 'r'], .sym '=', .id ['V', 'e', 'r', 'i', 'f', 'y', 'B', 'N', '2', '5', '4', 'A', 'd', 'd'], .sym '(',
   .id ['a', 'p', 'i'], .sym ',']

/-- `api.AssertIsLessOrEqual(`. /repo/aggregator_lib_circuit.go:603, 615, 616. -/
def cLe : List Tok :=
  [.id ['a', 'p', 'i'], .sym '.',
   .id ['A', 's', 's', 'e', 'r', 't', 'I', 's', 'L', 'e', 's', 's', 'O', 'r', 'E', 'q', 'u', 'a', 'l'], .sym '(']

/-- `err := api.Compiler().NewHint(`. /repo/aggregator_lib_circuit.go:160, 260. -/
def cHint : List Tok :=
  [.id ['e', 'r', 'r'], .sym ':', .sym '=', .id ['a', 'p', 'i'], .sym '.',
   .id ['C', 'o', 'm', 'p', 'i', 'l', 'e', 'r'], .sym '(', .sym ')', .sym '.', .id ['N', 'e', 'w', 'H', 'i', 'n', 't'],
   .sym '(']

/-- `return nil }`. /repo/aggregator_lib_circuit.go:605-606, 617-618. -/
def cRetNil : List Tok :=
  [.id ['r', 'e', 't', 'u', 'r', 'n'], .id ['n', 'i', 'l'], .sym '}']

/-- `, err }`. For the text of /repo/aggregator_lib_circuit.go:159-177, 259-264, 598-618. -/
def cRetEnd : List Tok :=
  [.sym ',', .id ['e', 'r', 'r'], .sym '}']

/-- `([2]frontend.Variable, error) {`. /repo/aggregator_lib_circuit.go:159, 259. -/
def cTwo : List Tok :=
  [.sym '(', .sym '[', .num 2, .sym ']', .id ['f', 'r', 'o', 'n', 't', 'e', 'n', 'd'], .sym '.',
   .id ['V', 'a', 'r', 'i', 'a', 'b', 'l', 'e'], .sym ',', .id ['e', 'r', 'r', 'o', 'r'], .sym ')', .sym '{']

/-- `error {`. /repo/aggregator_lib_circuit.go:598, 614. -/
def cErr : List Tok :=
  [.id ['e', 'r', 'r', 'o', 'r'], .sym '{']

/-- An argument. For the text of /repo/aggregator_lib_circuit.go:159-177, 259-264, 598-618. -/
def calcArg (names : List (List Char)) : List Tok → Option (CalcArg × List Tok)
  | .num n :: ts => some (.int n, ts)
  | .id v :: .sym '[' :: .num n :: .sym ']' :: ts => (names.idxOf? v).map fun i => (.at i n, ts)
  | .id v :: ts => (names.idxOf? v).map fun i => (.var i, ts)
  | _ => none

/-- Arguments up to the closing parenthesis; the first argument bounds their number.
For the text of /repo/aggregator_lib_circuit.go:159-177, 259-264, 598-618. -/
def calcArgs (names : List (List Char)) : ℕ → List Tok → Option (List CalcArg × List Tok)
  | 0, _ => none
  | k + 1, ts => match ts with
    | .sym ')' :: ts => some ([], ts)
    | .sym ',' :: ts => do
      let (a, ts) ← calcArg names ts
      let (l, ts) ← calcArgs names k ts
      return (a :: l, ts)
    | _ => none

/-- `[2]frontend.Variable{a, b}`. For the text of /repo/aggregator_lib_circuit.go:159-177, 259-264, 598-618. -/
def calcPair (names : List (List Char)) (ts : List Tok) : Option ((CalcArg × CalcArg) × List Tok) := do
  let ts ← expect cPair ts
  let (a, ts) ← calcArg names ts
  let ts ← expect [.sym ','] ts
  let (b, ts) ← calcArg names ts
  let ts ← expect [.sym '}'] ts
  return ((a, b), ts)

/-- One statement, with the names it declares. For the text of /repo/aggregator_lib_circuit.go:159-177, 259-264, 598-618. -/
def calcStmt (names : List (List Char)) (ts : List Tok) : Option (CalcStmt × List (List Char) × List Tok) :=
  match expect cPanic ts with
  | some ts => some (.panicErr, [], ts)
  | none =>
  match expect cMul ts with
  | some ts => do
    let (p, ts) ← calcPair names ts
    let ts ← expect [.sym ','] ts
    let (k, ts) ← calcArg names ts
    let ts ← expect [.sym ','] ts
    let (e, ts) ← calcPair names ts
    let ts ← expect [.sym ')'] ts
    return (.scalarMul p k e, [], ts)
  | none =>
  match expect cAdd ts with
  | some ts => do
    let (p, ts) ← calcPair names ts
    let ts ← expect [.sym ','] ts
    let (q, ts) ← calcPair names ts
    let ts ← expect [.sym ','] ts
    let (e, ts) ← calcPair names ts
    let ts ← expect [.sym ')'] ts
    return (.add p q e, [], ts)
  | none =>
  match expect cLe ts with
  | some ts => do
    let (a, ts) ← calcArg names ts
    let ts ← expect [.sym ','] ts
    let (b, ts) ← calcArg names ts
    let ts ← expect [.sym ')'] ts
    return (.le a b, [], ts)
  | none =>
  match ts with
  | .id v :: .sym ',' :: .id w :: ts =>
    match expect cHint (.id w :: ts) with
    | some (.id h :: .sym ',' :: .num n :: ts) => do
      let (as, ts) ← calcArgs names 10 ts
      if h = ['M', 's', 'm', 'H', 'i', 'n', 't'] then return (.hint .msmHint n as, [v], ts)
      if h = ['A', 'd', 'd', 'H', 'i', 'n', 't'] then return (.hint .addHint n as, [v], ts)
      none
    | _ => do
      let ts ← expect (.sym ':' :: .sym '=' :: kMod) ts
      let (a, ts) ← calcArg names ts
      let ts ← expect (.sym ')' :: .sym ',' :: kMod) ts
      let (b, ts) ← calcArg names ts
      let ts ← expect [.sym ')'] ts
      return (.mods a b, [v, w], ts)
  | _ => none

/-- Statements up to the closing brace; the first argument bounds their number.
For the text of /repo/aggregator_lib_circuit.go:159-177, 259-264, 598-618. -/
def calcBody : ℕ → List (List Char) → List Tok → Option (List CalcStmt)
  | 0, _, _ => none
  | k + 1, names, ts =>
    match expect cRetNil ts with
    | some _ => some [.retNil]
    | none =>
    match expect kRet ts with
    | some ts => do
      let (p, ts) ← calcPair names ts
      let _ ← expect cRetEnd ts
      return [.retPair p]
    | none => do
      let (s, ns, ts) ← calcStmt names ts
      let l ← calcBody k (names ++ ns) ts
      return s :: l

/-- Parameters of type frontend.Variable up to the closing parenthesis; the first argument bounds their number.
For the text of /repo/aggregator_lib_circuit.go:159-177, 259-264, 598-618. -/
def calcParams : ℕ → List Tok → Option (List (List Char) × List Tok)
  | 0, _ => none
  | k + 1, ts => match ts with
    | .sym ')' :: ts => some ([], ts)
    | .sym ',' :: .id v :: ts => do
      let (l, ts) ← calcParams k ((expect kVariable ts).getD ts)
      return (v :: l, ts)
    | _ => none

/-- The number of parameters after `api` and the body of the function of the given name and result type in a file.
For the text of /repo/aggregator_lib_circuit.go:159-177, 259-264, 598-618. -/
def calcFun (name : List Char) (type : List Tok) (s : List Char) : Option (ℕ × List CalcStmt) := do
  let ts ← after (.id ['f', 'u', 'n', 'c'] :: .id name :: kApi) (tokens s)
  let (names, ts) ← calcParams 10 ts
  let ts ← expect type ts
  let l ← calcBody 20 names ts
  return (names.length, l)

end Verif.Go
