/-
A reader and a meaning for the functions that work on a buffer of points: `ecc_mul`, `ecc_mul_add` (/repo/fr.go:9-40) and
`CalcVerifyCircuitLagrange` (/repo/aggregator_lib_circuit.go:94-102), to check the hand-written definitions of
Verif/Model/Curve against the source (theorems in Verif/Props/Source).
-/
import Verif.Model.FrText
import Verif.Model.Curve

namespace Verif.Go

/-- An index: a literal, or `offset`, or `offset+k`. /repo/fr.go:21-39. -/
inductive EccIdx where
  | lit (k : ℕ)
  | off (k : ℕ)
deriving DecidableEq

/-- An argument: an entry of the buffer, or a constant bound by `new(big.Int).SetString("n", 10)`.
/repo/fr.go:21-39, /repo/aggregator_lib_circuit.go:95-98. -/
inductive EccArg where
  | entry (i : EccIdx)
  | const (n : ℕ)
deriving DecidableEq

/-- Statements. `buf` stands for the buffer parameter, called `input` in `ecc_mul`. /repo/fr.go:9-40,
/repo/aggregator_lib_circuit.go:94-102. -/
inductive EccStmt where
  /-- `err := ecc_mul(api, buf, i)` -/
  | mul (i : EccIdx)
  /-- `res, err := CalcVerifyBN256Msm(api, a, b, c)` -/
  | msm (a b c : EccArg)
  /-- `res, err := CalcVerifyBN256Add(api, a, b, c, d)` -/
  | add (a b c d : EccArg)
  /-- `if err != nil { return err }` -/
  | ifErr
  /-- `buf[i] = res[0]` -/
  | put0 (i : EccIdx)
  /-- `buf[i] = res[1]` -/
  | put1 (i : EccIdx)
  /-- `return nil` -/
  | retNil
  /-- `return err` -/
  | retErr
deriving DecidableEq

/-! ### Meaning -/

/-- The variables: the buffer, `res`, `err`. /repo/fr.go:9-40. -/
structure EccState where
  buf : List Var
  res : Var × Var
  err : GoErr

/-- The value of an index. /repo/fr.go:21-39. -/
def EccIdx.val (offset : ℕ) : EccIdx → ℕ
  | .lit k => k
  | .off k => offset + k

/-- The value of an argument. /repo/fr.go:21-39. -/
def EccArg.eval (offset : ℕ) (buf : List Var) : EccArg → Circ Var
  | .entry i => idx buf (i.val offset)
  | .const n => pure (.big n)

/-- The body of a function; returns its error and the buffer. /repo/fr.go:9-40, /repo/aggregator_lib_circuit.go:94-102. -/
def runEcc (X : Ext) (offset : ℕ) : List EccStmt → EccState → Circ (GoErr × List Var)
  | [], _ => Circ.panic "missing return"
  | .mul i :: l, st => do
    let (err, buf) ← ecc_mul X st.buf (i.val offset)
    runEcc X offset l { st with err := err, buf := buf }
  | .msm a b c :: l, st => do
    let x ← a.eval offset st.buf
    let y ← b.eval offset st.buf
    let k ← c.eval offset st.buf
    let (res, err) ← CalcVerifyBN256Msm X x y k
    runEcc X offset l { st with res := res, err := err }
  | .add a b c d :: l, st => do
    let x ← a.eval offset st.buf
    let y ← b.eval offset st.buf
    let z ← c.eval offset st.buf
    let w ← d.eval offset st.buf
    let (res, err) ← CalcVerifyBN256Add X x y z w
    runEcc X offset l { st with res := res, err := err }
  | .ifErr :: l, st => match st.err with
    | some m => pure (some m, st.buf)
    | none => runEcc X offset l st
  | .put0 i :: l, st => do
    let buf ← setIdx st.buf (i.val offset) st.res.1
    runEcc X offset l { st with buf := buf }
  | .put1 i :: l, st => do
    let buf ← setIdx st.buf (i.val offset) st.res.2
    runEcc X offset l { st with buf := buf }
  | .retNil :: _, st => pure (none, st.buf)
  | .retErr :: _, st => pure (st.err, st.buf)

/-! ### Reading -/

/-- `res[`. For the text of /repo/fr.go:9-40; /repo/aggregator_lib_circuit.go:94-102. -/
def kRes : List Tok :=
  [.id ['r', 'e', 's'], .sym '[']

/-- `return err }`. /repo/fr.go:23-24, 33-34; /repo/aggregator_lib_circuit.go:101-102. -/
def kReturnErr : List Tok :=
  [.id ['r', 'e', 't', 'u', 'r', 'n'], .id ['e', 'r', 'r'], .sym '}']

/-- `err := ecc_mul(api,`. /repo/fr.go:31. -/
def kEccMul : List Tok :=
  [.id ['e', 'r', 'r'], .sym ':', .sym '=', .id ['e', 'c', 'c', '_', 'm', 'u', 'l'], .sym '(', .id ['a', 'p', 'i'],
   .sym ',']

/-- `res, err := CalcVerifyBN256Msm(api,`. /repo/fr.go:21; /repo/aggregator_lib_circuit.go:98. -/
def kMsm : List Tok :=
  [.id ['r', 'e', 's'], .sym ',', .id ['e', 'r', 'r'], .sym ':', .sym '=',
   .id ['C', 'a', 'l', 'c', 'V', 'e', 'r', 'i', 'f', 'y', 'B', 'N', '2', '5', '6', 'M', 's', 'm'], .sym '(',
   .id ['a', 'p', 'i'], .sym ',']

/-- `res, err := CalcVerifyBN256Add(api,`. /repo/fr.go:36. -/
def kAddCall : List Tok :=
  [.id ['r', 'e', 's'], .sym ',', .id ['e', 'r', 'r'], .sym ':', .sym '=',
   .id ['C', 'a', 'l', 'c', 'V', 'e', 'r', 'i', 'f', 'y', 'B', 'N', '2', '5', '6', 'A', 'd', 'd'], .sym '(',
   .id ['a', 'p', 'i'], .sym ',']

/-- `_ :=`. For the text of /repo/fr.go:9-40; /repo/aggregator_lib_circuit.go:94-102. -/
def kUnderscore : List Tok :=
  [.id ['_'], .sym ':', .sym '=']

/-- `[]frontend.Variable`. /repo/fr.go:9, 30; /repo/aggregator_lib_circuit.go:94. -/
def kSlice : List Tok :=
  [.sym '[', .sym ']', .id ['f', 'r', 'o', 'n', 't', 'e', 'n', 'd'], .sym '.',
   .id ['V', 'a', 'r', 'i', 'a', 'b', 'l', 'e']]

/-- `, offset int`. /repo/fr.go:9, 30. -/
def kOffset : List Tok :=
  [.sym ',', .id ['o', 'f', 'f', 's', 'e', 't'], .id ['i', 'n', 't']]

/-- `) error {`. /repo/fr.go:9, 30; /repo/aggregator_lib_circuit.go:94. -/
def kError : List Tok :=
  [.sym ')', .id ['e', 'r', 'r', 'o', 'r'], .sym '{']

/-- An index up to a given closing token. For the text of /repo/fr.go:9-40; /repo/aggregator_lib_circuit.go:94-102. -/
def eccIdx (close : Tok) (ts : List Tok) : Option (EccIdx × List Tok) :=
  match ts with
  | .num k :: t :: ts => if t = close then some (.lit k, ts) else none
  | .id v :: .sym '+' :: .num k :: t :: ts => if v = ['o', 'f', 'f', 's', 'e', 't'] ∧ t = close then some (.off k, ts) else none
  | .id v :: t :: ts => if v = ['o', 'f', 'f', 's', 'e', 't'] ∧ t = close then some (.off 0, ts) else none
  | _ => none

/-- An argument; `b` is the name of the buffer. For the text of /repo/fr.go:9-40; /repo/aggregator_lib_circuit.go:94-102. -/
def eccArg (b : List Char) (env : Env) (ts : List Tok) : Option (EccArg × List Tok) :=
  match ts with
  | .id v :: .sym '[' :: ts => if v = b then (eccIdx (.sym ']') ts).map fun r => (.entry r.1, r.2) else none
  | .id v :: ts => (env.lookup v).map fun n => (.const n, ts)
  | _ => none

/-- `res[k]`. For the text of /repo/fr.go:9-40; /repo/aggregator_lib_circuit.go:94-102. -/
def eccRes (ts : List Tok) : Option (ℕ × List Tok) :=
  match expect kRes ts with
  | some (.num k :: .sym ']' :: ts) => some (k, ts)
  | _ => none

/-- Statements up to the final return; the first argument bounds their number.
For the text of /repo/fr.go:9-40; /repo/aggregator_lib_circuit.go:94-102. -/
def eccBody (b : List Char) : ℕ → Env → List Tok → Option (List EccStmt)
  | 0, _, _ => none
  | k + 1, env, ts =>
    match expect kReturn ts, expect kReturnErr ts with
    | some _, _ => some [.retNil]
    | _, some _ => some [.retErr]
    | none, none =>
    match expect kIfErr ts with
    | some ts => (eccBody b k env ts).map (.ifErr :: ·)
    | none =>
    match expect kEccMul ts with
    | some (.id v :: .sym ',' :: ts) =>
      if v ≠ b then none
      else do
        let (i, ts) ← eccIdx (.sym ')') ts
        let l ← eccBody b k env ts
        return .mul i :: l
    | some _ => none
    | none =>
    match expect kMsm ts with
    | some ts => do
      let (x, ts) ← eccArg b env ts
      let ts ← expect [.sym ','] ts
      let (y, ts) ← eccArg b env ts
      let ts ← expect [.sym ','] ts
      let (z, ts) ← eccArg b env ts
      let ts ← expect [.sym ')'] ts
      let l ← eccBody b k env ts
      return .msm x y z :: l
    | none =>
    match expect kAddCall ts with
    | some ts => do
      let (x, ts) ← eccArg b env ts
      let ts ← expect [.sym ','] ts
      let (y, ts) ← eccArg b env ts
      let ts ← expect [.sym ','] ts
      let (z, ts) ← eccArg b env ts
      let ts ← expect [.sym ','] ts
      let (w, ts) ← eccArg b env ts
      let ts ← expect [.sym ')'] ts
      let l ← eccBody b k env ts
      return .add x y z w :: l
    | none =>
    match ts with
    | .id v :: .sym '[' :: ts =>
      if v ≠ b then none
      else do
        let (i, ts) ← eccIdx (.sym ']') ts
        let ts ← expect [.sym '='] ts
        let (r, ts) ← eccRes ts
        let l ← eccBody b k env ts
        if r = 0 then return .put0 i :: l
        else if r = 1 then return .put1 i :: l
        else none
    | .id v :: .sym ',' :: ts => do
      let ts ← expect kUnderscore ts
      let ts ← expect newBig ts
      match ts with
      | .str s :: ts => do
        let n ← decimal? s
        let ts ← expect [.sym ',', .num 10, .sym ')'] ts
        eccBody b k ((v, n) :: env) ts
      | _ => none
    | _ => none

/-- The body of the function of the given name in a file; `b` is the name of its buffer parameter, `params` what follows it
in the signature. For the text of /repo/fr.go:9-40; /repo/aggregator_lib_circuit.go:94-102. -/
def eccFun (name b : List Char) (params : List Tok) (s : List Char) : Option (List EccStmt) := do
  let ts ← after (.id ['f', 'u', 'n', 'c'] :: .id name :: kApi ++ [.sym ',', .id b] ++ kSlice ++ params ++ kError) (tokens s)
  eccBody b 20 [] ts

end Verif.Go
