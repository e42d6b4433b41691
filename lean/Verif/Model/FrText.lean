/-
A reader and a meaning for the field functions of /repo/fr.go, to check the hand-written definitions of
Verif/Model/Fr against the source (theorems in Verif/Props/Source).
-/
import Verif.Model.ChalText
import Verif.Model.Fr

namespace Verif.Go

/-- The two-place calls: `api.Mul`, `api.Add`, `api.Sub` and `fr_mul`. /repo/fr.go:42-99. -/
inductive FrOp where
  | mul | add | sub | frMul
deriving DecidableEq

/-- Expressions. Variables are numbered: the parameters after `api`, then the local variables in the order of their
declarations. /repo/fr.go:42-99. -/
inductive FrExpr where
  | var (i : ℕ)
  /-- `MODULUS` -/
  | modulus
  /-- `x[k]` for the i-th variable x -/
  | at (i k : ℕ)
  | op (o : FrOp) (a b : FrExpr)
  /-- `mod(api, a)` -/
  | mod (a : FrExpr)
  /-- `new(big.Int).Sub(MODULUS, a.(*big.Int))` -/
  | bigNeg (a : FrExpr)
deriving DecidableEq

/-- Statements. /repo/fr.go:42-99. -/
inductive FrStmt where
  /-- `x := e` -/
  | decl (e : FrExpr)
  /-- `results, err := api.Compiler().NewHint(modHint, n, e); if err != nil { return err }` -/
  | hint (n : ℕ) (e : FrExpr)
  /-- `api.AssertIsEqual(a, b)` -/
  | assertEq (a b : FrExpr)
  /-- `for i := new(big.Int).SetUint64(1); i.Cmp(p.(*big.Int)) < 0; { i = i.Add(i, big.NewInt(1)); x = api.Mul(x, a) }` -/
  | powLoop (p x a : ℕ)
  /-- `return e` -/
  | ret (e : FrExpr)
deriving DecidableEq

/-! ### Meaning -/

/-- A variable holds a circuit value or a slice of them. /repo/fr.go:42-99. -/
inductive FrVal where
  | one (v : Var)
  | many (l : List Var)

/-- The value of a variable; the other cases are type errors in Go. /repo/fr.go:42-99. -/
def FrVal.get (env : List FrVal) (i : ℕ) : Circ Var := match env[i]? with
  | some (.one v) => pure v
  | _ => Circ.panic "type error"

/-- Expressions: operands are evaluated left to right, before the call. /repo/fr.go:42-99. -/
def FrExpr.eval (env : List FrVal) : FrExpr → Circ Var
  | .var i => FrVal.get env i
  | .modulus => pure modulusVar
  | .at i k => match env[i]? with
    | some (.many l) => idx l k
    | _ => Circ.panic "type error"
  | .op o a b => do
    let x ← a.eval env
    let y ← b.eval env
    match o with
    | .mul => apiMul x y
    | .add => apiAdd x y
    | .sub => apiSub x y
    | .frMul => fr_mul x y
  | .mod a => do
    let x ← a.eval env
    Verif.mod x
  | .bigNeg a => do
    let x ← a.eval env
    let n ← asBigInt x
    pure (.big (rMod - n))

/-- The loop of `powLoop`, when `x` is another variable than `a` and `p`, for the values of `a`, `p`, `i` and `x`. /repo/fr.go:44-47. -/
def powRun (a : Var) (p i : ℤ) (x : Var) : Circ Var :=
  if i < p then do
    let y ← apiMul x a
    powRun a p (i + 1) y
  else pure x
termination_by (p - i).toNat
decreasing_by omega

/-- The body of a function. Simplification: `NewHint` returns no Go error, see `Verif.mod`. /repo/fr.go:42-99. -/
def runFr : List FrStmt → List FrVal → Circ Var
  | [], _ => Circ.panic "missing return"
  | .decl e :: l, env => do
    let v ← e.eval env
    runFr l (env ++ [.one v])
  | .hint n e :: l, env => do
    let v ← e.eval env
    let rs ← newHint .modHint n [v]
    runFr l (env ++ [.many rs])
  | .assertEq a b :: l, env => do
    let x ← a.eval env
    let y ← b.eval env
    apiAssertIsEqual x y
    runFr l env
  | .powLoop p x a :: l, env => do
    let n ← FrVal.get env p
    let n ← asBigInt n
    let b ← FrVal.get env a
    let y ← FrVal.get env x
    let y ← powRun b n 1 y
    runFr l (env.set x (.one y))
  | .ret e :: _, env => e.eval env

/-! ### Reading -/

/-- `api.Mul(`. /repo/fr.go:46, 53, 62. -/
def kMul : List Tok :=
  [.id ['a', 'p', 'i'], .sym '.', .id ['M', 'u', 'l'], .sym '(']

/-- `api.Add(`. /repo/fr.go:62, 82. -/
def kAdd : List Tok :=
  [.id ['a', 'p', 'i'], .sym '.', .id ['A', 'd', 'd'], .sym '(']

/-- `api.Sub(`. /repo/fr.go:87, 98. -/
def kSub : List Tok :=
  [.id ['a', 'p', 'i'], .sym '.', .id ['S', 'u', 'b'], .sym '(']

/-- `fr_mul(api,`. /repo/fr.go:77, 92. -/
def kFrMul : List Tok :=
  [.id ['f', 'r', '_', 'm', 'u', 'l'], .sym '(', .id ['a', 'p', 'i'], .sym ',']

/-- `mod(api,`. /repo/fr.go:49, 54, 83 and more. -/
def kMod : List Tok :=
  [.id ['m', 'o', 'd'], .sym '(', .id ['a', 'p', 'i'], .sym ',']

/-- `return`. /repo/fr.go:23, 27, 33 and more. -/
def kRet : List Tok :=
  [.id ['r', 'e', 't', 'u', 'r', 'n']]

/-- `api.AssertIsEqual(`. /repo/fr.go:62, 93. -/
def kAssert : List Tok :=
  [.id ['a', 'p', 'i'], .sym '.', .id ['A', 's', 's', 'e', 'r', 't', 'I', 's', 'E', 'q', 'u', 'a', 'l'], .sym '(']

/-- `err := api.Compiler().NewHint(modHint,`. /repo/fr.go:58. -/
def kHint : List Tok :=
  [.id ['e', 'r', 'r'], .sym ':', .sym '=', .id ['a', 'p', 'i'], .sym '.',
   .id ['C', 'o', 'm', 'p', 'i', 'l', 'e', 'r'], .sym '(', .sym ')', .sym '.', .id ['N', 'e', 'w', 'H', 'i', 'n', 't'],
   .sym '(', .id ['m', 'o', 'd', 'H', 'i', 'n', 't'], .sym ',']

/-- `(api frontend.API`. /repo/fr.go:9, 30, 42 and more. -/
def kApi : List Tok :=
  [.sym '(', .id ['a', 'p', 'i'], .id ['f', 'r', 'o', 'n', 't', 'e', 'n', 'd'], .sym '.', .id ['A', 'P', 'I']]

/-- `frontend.Variable`. /repo/fr.go:9, 30, 42 and more. -/
def kVariable : List Tok :=
  [.id ['f', 'r', 'o', 'n', 't', 'e', 'n', 'd'], .sym '.', .id ['V', 'a', 'r', 'i', 'a', 'b', 'l', 'e']]

/-- `) frontend.Variable {`. /repo/fr.go:42, 52, 57 and more. -/
def kParamEnd : List Tok :=
  [.sym ')', .id ['f', 'r', 'o', 'n', 't', 'e', 'n', 'd'], .sym '.', .id ['V', 'a', 'r', 'i', 'a', 'b', 'l', 'e'],
   .sym '{']

/-- `new(big.Int).Sub(MODULUS,`. /repo/fr.go:78. -/
def kBigSub : List Tok :=
  [.id ['n', 'e', 'w'], .sym '(', .id ['b', 'i', 'g'], .sym '.', .id ['I', 'n', 't'], .sym ')', .sym '.',
   .id ['S', 'u', 'b'], .sym '(', .id ['M', 'O', 'D', 'U', 'L', 'U', 'S'], .sym ',']

/-- `.(*big.Int))`. /repo/fr.go:44, 78. -/
def kBigEnd : List Tok :=
  [.sym '.', .sym '(', .sym '*', .id ['b', 'i', 'g'], .sym '.', .id ['I', 'n', 't'], .sym ')', .sym ')']

/-- `for i := new(big.Int).SetUint64(1); i.Cmp(`. /repo/fr.go:44. -/
def kPowFor : List Tok :=
  [.id ['f', 'o', 'r'], .id ['i'], .sym ':', .sym '=', .id ['n', 'e', 'w'], .sym '(', .id ['b', 'i', 'g'], .sym '.',
   .id ['I', 'n', 't'], .sym ')', .sym '.', .id ['S', 'e', 't', 'U', 'i', 'n', 't', '6', '4'], .sym '(', .num 1,
   .sym ')', .sym ';', .id ['i'], .sym '.', .id ['C', 'm', 'p'], .sym '(']

/-- `.(*big.Int)) < 0; { i = i.Add(i, big.NewInt(1))`. /repo/fr.go:44-45. -/
def kPowMid : List Tok :=
  [.sym '.', .sym '(', .sym '*', .id ['b', 'i', 'g'], .sym '.', .id ['I', 'n', 't'], .sym ')', .sym ')', .sym '<',
   .num 0, .sym ';', .sym '{', .id ['i'], .sym '=', .id ['i'], .sym '.', .id ['A', 'd', 'd'], .sym '(', .id ['i'],
   .sym ',', .id ['b', 'i', 'g'], .sym '.', .id ['N', 'e', 'w', 'I', 'n', 't'], .sym '(', .num 1, .sym ')', .sym ')']

/-- `= api.Mul(`. /repo/fr.go:46, 53. -/
def kPowMul : List Tok :=
  [.sym '=', .id ['a', 'p', 'i'], .sym '.', .id ['M', 'u', 'l'], .sym '(']

/-- `) }`. For the text of /repo/fr.go:42-99. -/
def kPowEnd : List Tok :=
  [.sym ')', .sym '}']

/-- The name of a two-place call, up to and with its first operand's opening. For the text of /repo/fr.go:42-99. -/
def frOp (ts : List Tok) : Option (FrOp × List Tok) :=
  match expect kMul ts, expect kAdd ts, expect kSub ts, expect kFrMul ts with
  | some ts, _, _, _ => some (.mul, ts)
  | _, some ts, _, _ => some (.add, ts)
  | _, _, some ts, _ => some (.sub, ts)
  | _, _, _, some ts => some (.frMul, ts)
  | _, _, _, _ => none

/-- Expressions; the first argument bounds the nesting depth. For the text of /repo/fr.go:42-99. -/
def frExpr (names : List (List Char)) : ℕ → List Tok → Option (FrExpr × List Tok)
  | 0, _ => none
  | k + 1, ts =>
    match frOp ts with
    | some (o, ts) => do
      let (x, ts) ← frExpr names k ts
      let ts ← expect [.sym ','] ts
      let (y, ts) ← frExpr names k ts
      let ts ← expect [.sym ')'] ts
      return (.op o x y, ts)
    | none =>
    match expect kMod ts with
    | some ts => do
      let (x, ts) ← frExpr names k ts
      let ts ← expect [.sym ')'] ts
      return (.mod x, ts)
    | none =>
    match expect kBigSub ts with
    | some ts => do
      let (x, ts) ← frExpr names k ts
      let ts ← expect kBigEnd ts
      return (.bigNeg x, ts)
    | none =>
    match ts with
    | .id v :: .sym '[' :: .num n :: .sym ']' :: ts => (names.idxOf? v).map fun i => (.at i n, ts)
    | .id v :: ts => if v = ['M', 'O', 'D', 'U', 'L', 'U', 'S'] then some (.modulus, ts) else (names.idxOf? v).map fun i => (.var i, ts)
    | _ => none

/-- Statements up to the closing brace; the first argument bounds their number. For the text of /repo/fr.go:42-99. -/
def frBody : ℕ → List (List Char) → List Tok → Option (List FrStmt)
  | 0, _, _ => none
  | k + 1, names, ts =>
    match expect kRet ts with
    | some ts => do
      let (e, ts) ← frExpr names 20 ts
      let _ ← expect [.sym '}'] ts
      return [.ret e]
    | none =>
    match expect kAssert ts with
    | some ts => do
      let (a, ts) ← frExpr names 20 ts
      let ts ← expect [.sym ','] ts
      let (b, ts) ← frExpr names 20 ts
      let ts ← expect [.sym ')'] ts
      let l ← frBody k names ts
      return .assertEq a b :: l
    | none =>
    match expect kPowFor ts with
    | some (.id p :: ts) => do
      let ts ← expect kPowMid ts
      match ts with
      | .id x :: ts => do
        let ts ← expect kPowMul ts
        match ts with
        | .id y :: .sym ',' :: .id a :: ts => do
          let ts ← expect kPowEnd ts
          let p ← names.idxOf? p
          let x ← names.idxOf? x
          let y ← names.idxOf? y
          let a ← names.idxOf? a
          if x ≠ y ∨ x = a ∨ x = p then none
          let l ← frBody k names ts
          return .powLoop p x a :: l
        | _ => none
      | _ => none
    | some _ => none
    | none =>
    match ts with
    | .id v :: .sym ':' :: .sym '=' :: ts => do
      let (e, ts) ← frExpr names 20 ts
      let l ← frBody k (names ++ [v]) ts
      return .decl e :: l
    | .id v :: .sym ',' :: ts => do
      let ts ← expect kHint ts
      match ts with
      | .num n :: .sym ',' :: ts => do
        let (e, ts) ← frExpr names 20 ts
        let ts ← expect (.sym ')' :: kIfErr) ts
        let l ← frBody k (names ++ [v]) ts
        return .hint n e :: l
      | _ => none
    | _ => none

/-- Parameters of type frontend.Variable up to the opening brace; the first argument bounds their number.
For the text of /repo/fr.go:42-99. -/
def frParams : ℕ → List Tok → Option (List (List Char) × List Tok)
  | 0, _ => none
  | k + 1, ts =>
    match expect kParamEnd ts with
    | some ts => some ([], ts)
    | none =>
    match ts with
    | .sym ',' :: .id v :: ts => do
      let ts ← expect kVariable ts
      let (l, ts) ← frParams k ts
      return (v :: l, ts)
    | _ => none

/-- The number of parameters after `api` and the body of the function of the given name in a file.
For the text of /repo/fr.go:42-99. -/
def frFun (name : List Char) (s : List Char) : Option (ℕ × List FrStmt) := do
  let ts ← after (.id ['f', 'u', 'n', 'c'] :: .id name :: kApi) (tokens s)
  let (names, ts) ← frParams 10 ts
  let l ← frBody 20 names ts
  return (names.length, l)

end Verif.Go
