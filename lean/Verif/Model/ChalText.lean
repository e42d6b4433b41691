/-
A reader and a meaning for the Go text of GetChallengesShPlonkCircuit, to check the hand-written definition of
Verif/Model/Transcript against the source: Verif/Props/Source proves that the text reads as `challengeProg`, and that
running `challengeProg` is the definition.
-/
import Verif.Model.GoText
import Verif.Model.Transcript

namespace Verif.Go

/-- Right-hand sides: a constant bound by `new(big.Int).SetString("n", 10)`, `buf[i]`, `transcript[transcriptPos]`.
/repo/aggregator_lib_circuit.go:460-593. -/
inductive ChalExpr where
  | const (n : ℕ)
  | buf (i : ℕ)
  | tr
deriving DecidableEq

/-- Statements without loops. /repo/aggregator_lib_circuit.go:460-593. -/
inductive ChalStmt where
  /-- `var absorbing = make([]frontend.Variable, n)` -/
  | make (n : ℕ)
  /-- `absorbing[n] = e` -/
  | put (n : ℕ) (e : ChalExpr)
  /-- `absorbing[pos] = e` -/
  | putPos (e : ChalExpr)
  /-- `pos := n` or `pos = n` -/
  | pos (n : ℕ)
  /-- `transcriptPos := n` -/
  | tpos (n : ℕ)
  /-- `pos++` -/
  | posInc
  /-- `transcriptPos++` -/
  | tposInc
  /-- `err = VerifyCheckOnCurve(api, transcript[transcriptPos], transcript[transcriptPos+1]); if err != nil { return err }` -/
  | check
  /-- `buf[i], err = SqueezeChallenge(api, absorbing, pos); if err != nil { return err }` -/
  | squeeze (i : ℕ)
deriving DecidableEq

/-- A statement, or `for i := 0; i < n; i++ { … }`. /repo/aggregator_lib_circuit.go:460-593. -/
inductive ChalTop where
  | one (s : ChalStmt)
  | loop (n : ℕ) (body : List ChalStmt)
deriving DecidableEq

/-! ### Meaning -/

/-- The variables of the function: `buf`, `absorbing`, `pos`, `transcriptPos`. /repo/aggregator_lib_circuit.go:455-468. -/
structure ChalState where
  buf : List Var
  absorbing : List Var
  pos : ℕ
  tpos : ℕ

/-- Value of a right-hand side. /repo/aggregator_lib_circuit.go:460-593. -/
def ChalExpr.eval (T : List Var) (st : ChalState) : ChalExpr → Circ Var
  | .const n => pure (.big n)
  | .buf i => idx st.buf i
  | .tr => idx T st.tpos

/-- One statement; an error ends the function. /repo/aggregator_lib_circuit.go:460-593. -/
def ChalStmt.exec (X : Ext) (T : List Var) (st : ChalState) : ChalStmt → Circ (GoErr × ChalState)
  | .make n => pure (none, { st with absorbing := List.replicate n .nil })
  | .put n e => do
    let v ← e.eval T st
    let a ← setIdx st.absorbing n v
    pure (none, { st with absorbing := a })
  | .putPos e => do
    let v ← e.eval T st
    let a ← setIdx st.absorbing st.pos v
    pure (none, { st with absorbing := a })
  | .pos n => pure (none, { st with pos := n })
  | .tpos n => pure (none, { st with tpos := n })
  | .posInc => pure (none, { st with pos := st.pos + 1 })
  | .tposInc => pure (none, { st with tpos := st.tpos + 1 })
  | .check => do
    let x ← idx T st.tpos
    let y ← idx T (st.tpos + 1)
    let err ← VerifyCheckOnCurve x y
    pure (err, st)
  | .squeeze i => do
    let ((c, err), a) ← SqueezeChallenge X st.absorbing st.pos
    let b ← setIdx st.buf i c
    pure (err, { st with buf := b, absorbing := a })

/-- Statements in sequence. /repo/aggregator_lib_circuit.go:460-593. -/
def runStmts (X : Ext) (T : List Var) : List ChalStmt → ChalState → Circ (GoErr × ChalState)
  | [], st => pure (none, st)
  | s :: l, st => do
    let (err, st) ← s.exec X T st
    match err with
    | some m => pure (some m, st)
    | none => runStmts X T l st

/-- `n` rounds of a loop. /repo/aggregator_lib_circuit.go:469-480 and the other loops. -/
def runLoop (X : Ext) (T : List Var) (body : List ChalStmt) : ℕ → ChalState → Circ (GoErr × ChalState)
  | 0, st => pure (none, st)
  | n + 1, st => do
    let (err, st) ← runStmts X T body st
    match err with
    | some m => pure (some m, st)
    | none => runLoop X T body n st

/-- The whole body; returns the error and `buf`. /repo/aggregator_lib_circuit.go:460-595. -/
def runChal (X : Ext) (T : List Var) : List ChalTop → ChalState → Circ (GoErr × List Var)
  | [], st => pure (none, st.buf)
  | .one s :: l, st => do
    let (err, st) ← s.exec X T st
    match err with
    | some m => pure (some m, st.buf)
    | none => runChal X T l st
  | .loop n body :: l, st => do
    let (err, st) ← runLoop X T body n st
    match err with
    | some m => pure (some m, st.buf)
    | none => runChal X T l st

/-! ### Reading -/

/-- `var absorbing = make([]frontend.Variable,`. /repo/aggregator_lib_circuit.go:460. -/
def kMake : List Tok :=
  [.id ['v', 'a', 'r'], .id ['a', 'b', 's', 'o', 'r', 'b', 'i', 'n', 'g'], .sym '=', .id ['m', 'a', 'k', 'e'],
   .sym '(', .sym '[', .sym ']', .id ['f', 'r', 'o', 'n', 't', 'e', 'n', 'd'], .sym '.',
   .id ['V', 'a', 'r', 'i', 'a', 'b', 'l', 'e'], .sym ',']

/-- `var err error = nil`. /repo/aggregator_lib_circuit.go:483. -/
def kErrDecl : List Tok :=
  [.id ['v', 'a', 'r'], .id ['e', 'r', 'r'], .id ['e', 'r', 'r', 'o', 'r'], .sym '=', .id ['n', 'i', 'l']]

/-- `err`. For the text of /repo/aggregator_lib_circuit.go:455-596. -/
def kErr : List Tok :=
  [.id ['e', 'r', 'r']]

/-- `VerifyCheckOnCurve(api, transcript[transcriptPos], transcript[transcriptPos+1])`.
/repo/aggregator_lib_circuit.go:470, 491, 518 and more. -/
def kCheck : List Tok :=
  [.id ['V', 'e', 'r', 'i', 'f', 'y', 'C', 'h', 'e', 'c', 'k', 'O', 'n', 'C', 'u', 'r', 'v', 'e'], .sym '(',
   .id ['a', 'p', 'i'], .sym ',', .id ['t', 'r', 'a', 'n', 's', 'c', 'r', 'i', 'p', 't'], .sym '[',
   .id ['t', 'r', 'a', 'n', 's', 'c', 'r', 'i', 'p', 't', 'P', 'o', 's'], .sym ']', .sym ',',
   .id ['t', 'r', 'a', 'n', 's', 'c', 'r', 'i', 'p', 't'], .sym '[',
   .id ['t', 'r', 'a', 'n', 's', 'c', 'r', 'i', 'p', 't', 'P', 'o', 's'], .sym '+', .num 1, .sym ']', .sym ')']

/-- `if err != nil { return err }`. /repo/aggregator_lib_circuit.go:471-473, 485-487, 492-494 and more. -/
def kIfErr : List Tok :=
  [.id ['i', 'f'], .id ['e', 'r', 'r'], .sym '!', .sym '=', .id ['n', 'i', 'l'], .sym '{',
   .id ['r', 'e', 't', 'u', 'r', 'n'], .id ['e', 'r', 'r'], .sym '}']

/-- `pos++`. For the text of /repo/aggregator_lib_circuit.go:455-596. -/
def kPosInc : List Tok :=
  [.id ['p', 'o', 's'], .sym '+', .sym '+']

/-- `transcriptPos++`. /repo/aggregator_lib_circuit.go:476, 479, 497 and more. -/
def kTposInc : List Tok :=
  [.id ['t', 'r', 'a', 'n', 's', 'c', 'r', 'i', 'p', 't', 'P', 'o', 's'], .sym '+', .sym '+']

/-- `err = SqueezeChallenge(api, absorbing, pos)`. /repo/aggregator_lib_circuit.go:484, 504, 511 and more. -/
def kSqueeze : List Tok :=
  [.id ['e', 'r', 'r'], .sym '=', .id ['S', 'q', 'u', 'e', 'e', 'z', 'e', 'C', 'h', 'a', 'l', 'l', 'e', 'n', 'g', 'e'],
   .sym '(', .id ['a', 'p', 'i'], .sym ',', .id ['a', 'b', 's', 'o', 'r', 'b', 'i', 'n', 'g'], .sym ',',
   .id ['p', 'o', 's'], .sym ')']

/-- `return nil }`. /repo/aggregator_lib_circuit.go:595-596. -/
def kReturn : List Tok :=
  [.id ['r', 'e', 't', 'u', 'r', 'n'], .id ['n', 'i', 'l'], .sym '}']

/-- `for i := 0; i <`. /repo/aggregator_lib_circuit.go:469, 490, 517 and more. -/
def kFor : List Tok :=
  [.id ['f', 'o', 'r'], .id ['i'], .sym ':', .sym '=', .num 0, .sym ';', .id ['i'], .sym '<']

/-- `; i++ {`. For the text of /repo/aggregator_lib_circuit.go:455-596. -/
def kForEnd : List Tok :=
  [.sym ';', .id ['i'], .sym '+', .sym '+', .sym '{']

/-- `transcript[transcriptPos]`. /repo/aggregator_lib_circuit.go:470, 474, 477 and more. -/
def kTr : List Tok :=
  [.id ['t', 'r', 'a', 'n', 's', 'c', 'r', 'i', 'p', 't'], .sym '[',
   .id ['t', 'r', 'a', 'n', 's', 'c', 'r', 'i', 'p', 't', 'P', 'o', 's'], .sym ']']

/-- `func GetChallengesShPlonkCircuit(api frontend.API, buf []frontend.Variable, transcript []frontend.Variable,) error {`.
For the text of /repo/aggregator_lib_circuit.go:455-596. -/
def kHead : List Tok :=
  [.id ['f', 'u', 'n', 'c'],
   .id ['G', 'e', 't', 'C', 'h', 'a', 'l', 'l', 'e', 'n', 'g', 'e', 's', 'S', 'h', 'P', 'l', 'o', 'n', 'k', 'C', 'i', 'r', 'c', 'u', 'i', 't'],
   .sym '(', .id ['a', 'p', 'i'], .id ['f', 'r', 'o', 'n', 't', 'e', 'n', 'd'], .sym '.', .id ['A', 'P', 'I'],
   .sym ',', .id ['b', 'u', 'f'], .sym '[', .sym ']', .id ['f', 'r', 'o', 'n', 't', 'e', 'n', 'd'], .sym '.',
   .id ['V', 'a', 'r', 'i', 'a', 'b', 'l', 'e'], .sym ',', .id ['t', 'r', 'a', 'n', 's', 'c', 'r', 'i', 'p', 't'],
   .sym '[', .sym ']', .id ['f', 'r', 'o', 'n', 't', 'e', 'n', 'd'], .sym '.',
   .id ['V', 'a', 'r', 'i', 'a', 'b', 'l', 'e'], .sym ',', .sym ')', .id ['e', 'r', 'r', 'o', 'r'], .sym '{']

/-- Right-hand sides. For the text of /repo/aggregator_lib_circuit.go:455-596. -/
def chalExpr (env : Env) (ts : List Tok) : Option (ChalExpr × List Tok) :=
  match expect kTr ts with
  | some ts => some (.tr, ts)
  | none =>
    match ts with
    | .id v :: .sym '[' :: .num i :: .sym ']' :: ts => if v = ['b', 'u', 'f'] then some (.buf i, ts) else none
    | .id v :: ts => (env.lookup v).map fun n => (.const n, ts)
    | _ => none

/-- One statement without loop. Constants are only remembered. `:=` and `=` are read alike: the only name declared twice is `err`,
which is read by the test after it and nowhere else. For the text of /repo/aggregator_lib_circuit.go:455-596. -/
def chalStmt (env : Env) (ts : List Tok) : Option ((Option ChalStmt × Env) × List Tok) :=
  match expect kMake ts with
  | some (.num n :: ts) => (expect [.sym ')'] ts).map fun ts => ((some (.make n), env), ts)
  | some _ => none
  | none =>
  match expect kErrDecl ts with
  | some ts => some ((none, env), ts)
  | none =>
  match expect kErr ts with
  | some ts => do
    let ts ← assign ts
    let ts ← expect (kCheck ++ kIfErr) ts
    return ((some .check, env), ts)
  | none =>
  match expect kPosInc ts, expect kTposInc ts with
  | some ts, _ => some ((some .posInc, env), ts)
  | _, some ts => some ((some .tposInc, env), ts)
  | none, none =>
  match ts with
  | .id v :: .sym ',' :: .id u :: ts =>
    if u ≠ ['_'] then none
    else do
      let ts ← assign ts
      let ts ← expect newBig ts
      match ts with
      | .str s :: ts => do
        let n ← decimal? s
        let ts ← expect [.sym ',', .num 10, .sym ')'] ts
        return ((none, (v, n) :: env), ts)
      | _ => none
  | .id v :: .sym '[' :: .num i :: .sym ']' :: .sym ',' :: ts =>
    if v ≠ ['b', 'u', 'f'] then none
    else do
      let ts ← expect (kSqueeze ++ kIfErr) ts
      return ((some (.squeeze i), env), ts)
  | .id v :: .sym '[' :: .num i :: .sym ']' :: .sym '=' :: ts =>
    if v ≠ ['a', 'b', 's', 'o', 'r', 'b', 'i', 'n', 'g'] then none
    else (chalExpr env ts).map fun r => ((some (.put i r.1), env), r.2)
  | .id v :: .sym '[' :: .id w :: .sym ']' :: .sym '=' :: ts =>
    if v ≠ ['a', 'b', 's', 'o', 'r', 'b', 'i', 'n', 'g'] ∨ w ≠ ['p', 'o', 's'] then none
    else (chalExpr env ts).map fun r => ((some (.putPos r.1), env), r.2)
  | .id v :: ts => do
    let ts ← assign ts
    match ts with
    | .num n :: ts =>
      if v = ['p', 'o', 's'] then some ((some (.pos n), env), ts)
      else if v = ['t', 'r', 'a', 'n', 's', 'c', 'r', 'i', 'p', 't', 'P', 'o', 's'] then some ((some (.tpos n), env), ts)
      else none
    | _ => none
  | _ => none

/-- The statements of a loop up to the closing brace; the first argument bounds their number.
For the text of /repo/aggregator_lib_circuit.go:455-596. -/
def chalBody (env : Env) : ℕ → List Tok → Option (List ChalStmt × List Tok)
  | 0, _ => none
  | k + 1, ts =>
    match ts with
    | .sym '}' :: ts => some ([], ts)
    | ts => do
      let ((s, _), ts) ← chalStmt env ts
      let (l, ts) ← chalBody env k ts
      return (s.toList ++ l, ts)

/-- The body of the function up to `return nil }`; the first argument bounds the number of statements.
For the text of /repo/aggregator_lib_circuit.go:455-596. -/
def chalFun : ℕ → Env → List Tok → Option (List ChalTop)
  | 0, _, _ => none
  | k + 1, env, ts =>
    match expect kReturn ts with
    | some _ => some []
    | none =>
    match expect kFor ts with
    | some (.num n :: ts) => do
      let ts ← expect kForEnd ts
      let (b, ts) ← chalBody env 100 ts
      let l ← chalFun k env ts
      return .loop n b :: l
    | some _ => none
    | none => do
      let ((s, env), ts) ← chalStmt env ts
      let l ← chalFun k env ts
      return (s.toList.map ChalTop.one) ++ l

/-- The text after the first occurrence of a given beginning; models no code of /repo. -/
def after (p : List Tok) : List Tok → Option (List Tok)
  | [] => none
  | t :: ts =>
    match expect p (t :: ts) with
    | some r => some r
    | none => after p ts

/-- The function GetChallengesShPlonkCircuit of a file. /repo/aggregator_lib_circuit.go:455-596. -/
def challenges (s : List Char) : Option (List ChalTop) := do
  let ts ← after kHead (tokens s)
  chalFun 200 [] ts

/-- The loop that absorbs points, without its head. /repo/aggregator_lib_circuit.go:470-479 and the other loops over points. -/
def pointBody : List ChalStmt := [.check, .putPos .tr, .posInc, .tposInc, .putPos .tr, .posInc, .tposInc]

/-- The loop that absorbs scalars, without its head. /repo/aggregator_lib_circuit.go:556-558. -/
def scalarBody : List ChalStmt := [.putPos .tr, .posInc, .tposInc]

/-- The statements of GetChallengesShPlonkCircuit, /repo/aggregator_lib_circuit.go:460-595. -/
def challengeProg : List ChalTop := [
  .one (.make 112), .one (.put 0 (.const 8025805240938309707562879759498205008153592202559235423490485577859843831056)),
  .one (.put 1 (.buf 0)), .one (.put 2 (.buf 1)),
  .one (.pos 3), .one (.tpos 0), .loop 8 pointBody, .one (.squeeze 2),
  .one (.pos 1), .loop 4 pointBody, .one (.squeeze 3),
  .one (.pos 1), .one (.squeeze 4),
  .one (.pos 1), .loop 7 pointBody, .one (.squeeze 5),
  .one (.pos 1), .loop 3 pointBody, .one (.squeeze 6),
  .one (.pos 1), .loop 56 scalarBody, .one (.squeeze 7),
  .one (.pos 1), .one (.squeeze 8),
  .one .check, .one (.putPos .tr), .one .posInc, .one .tposInc, .one (.putPos .tr), .one .posInc, .one .tposInc,
  .one (.squeeze 9), .one .check]

end Verif.Go
