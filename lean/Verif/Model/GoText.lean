/-
A reader for the Go text of the three verification steps, and for the string literals of any file. The theorems of
Verif/Props/Source apply it to the text of the files of /repo, and thereby check the generated programs of
Verif/Model/StepProgs and the constants of the model against the source in the kernel.
-/
import Verif.Model.StepLang

namespace Verif.Go

/-- Go tokens: identifiers and keywords, decimal integers, string literals, and single characters. The lexical elements
occurring in the files of /repo that are read here; models no code of /repo. -/
inductive Tok where
  | id (s : List Char)
  | num (n : ℕ)
  | str (s : List Char)
  | sym (c : Char)
deriving DecidableEq

/-- What the reader is in the middle of. The accumulated characters are in reverse order. Models no code of /repo. -/
inductive Mode where
  | start
  | id (acc : List Char)
  | num (n : ℕ)
  | str (acc : List Char)
  | raw (acc : List Char)
  | comment

/-- Letters and the underscore; models no code of /repo. -/
def isLetter (c : Char) : Bool := ('a' ≤ c && c ≤ 'z') || ('A' ≤ c && c ≤ 'Z') || c == '_'
/-- Decimal digits; models no code of /repo. -/
def isDec (c : Char) : Bool := '0' ≤ c && c ≤ '9'
/-- The value of a digit; models no code of /repo. -/
def decVal (c : Char) : ℕ := c.toNat - 48
/-- White space; models no code of /repo. -/
def isBlank (c : Char) : Bool := c == ' ' || c == '\t' || c == '\n' || c == '\r'

/-- The token a mode stands for when it ends; models no code of /repo. -/
def Mode.close : Mode → List Tok
  | .id acc => [.id acc.reverse]
  | .num n => [.num n]
  | _ => []

/-- The mode after a character that begins a new token, with the token it is if it is a single character; models no code
of /repo. -/
def openTok (c : Char) : List Tok × Mode :=
  if isLetter c then ([], .id [c])
  else if isDec c then ([], .num (decVal c))
  else if c == '"' then ([], .str [])
  else if c == '`' then ([], .raw [])
  else if isBlank c then ([], .start)
  else ([.sym c], .start)

/-- The tokens of a text. `//` begins a comment that ends with the line. Simplification: escapes in strings, block
comments, floats and character literals are not known; they do not occur in the files that are read here. Models no code
of /repo. -/
def lex : List Char → Mode → List Tok
  | [], m => m.close
  | c :: cs, .comment => lex cs (if c == '\n' then .start else .comment)
  | c :: cs, .str acc => if c == '"' then .str acc.reverse :: lex cs .start else lex cs (.str (c :: acc))
  | c :: cs, .raw acc => if c == '`' then .str acc.reverse :: lex cs .start else lex cs (.raw (c :: acc))
  | c :: cs, .id acc =>
    if isLetter c || isDec c then lex cs (.id (c :: acc))
    else .id acc.reverse :: ((openTok c).1 ++ lex cs (openTok c).2)
  | c :: cs, .num n =>
    if isDec c then lex cs (.num (10 * n + decVal c)) else .num n :: ((openTok c).1 ++ lex cs (openTok c).2)
  | c :: cs, .start =>
    if c == '/' && cs.head? == some '/' then lex cs .comment else (openTok c).1 ++ lex cs (openTok c).2

/-- The tokens of a Go text; models no code of /repo. -/
def tokens (s : List Char) : List Tok := lex s .start

/-- A decimal string as in `fr_from_string("123")`; models no code of /repo. -/
def decimal : List Char → ℕ → Option ℕ
  | [], n => some n
  | c :: cs, n => if isDec c then decimal cs (10 * n + decVal c) else none

/-- A non-empty decimal string; models no code of /repo. -/
def decimal? (s : List Char) : Option ℕ := if s = [] then none else decimal s 0

/-- The decimal string literals of a text, in order; models no code of /repo. -/
def decimals (s : List Char) : List ℕ := (tokens s).filterMap fun
  | .str d => decimal? d
  | _ => none

/-- Constants assigned so far, the latest first (`constFr`, /repo/AggregatorVerifierStep3.go:80-136). -/
abbrev Env := List (List Char × ℕ)

/-- Drop a given beginning; models no code of /repo. -/
def expect : List Tok → List Tok → Option (List Tok)
  | [], ts => some ts
  | p :: ps, t :: ts => if p = t then expect ps ts else none
  | _ :: _, [] => none

/-- A trailing comma, allowed by Go before a closing parenthesis; models no code of /repo. -/
def closeParen : List Tok → Option (List Tok)
  | .sym ',' :: .sym ')' :: ts => some ts
  | .sym ')' :: ts => some ts
  | _ => none

/-- Expressions; the first argument bounds the nesting depth. The expressions of
/repo/AggregatorVerifierStep1.go:13-883, AggregatorVerifierStep2.go and AggregatorVerifierStep3.go. -/
def expr (env : Env) : ℕ → List Tok → Option (Expr ℕ × List Tok)
  | 0, _ => none
  | _ + 1, .num n :: ts => some (.int n, ts)
  | _ + 1, .id v :: .sym '[' :: .num n :: .sym ']' :: ts =>
    if v = ['b', 'u', 'f'] then some (.buf n, ts)
    else if v = ['t', 'r', 'a', 'n', 's', 'c', 'r', 'i', 'p', 't'] then some (.tr n, ts)
    else if v = ['a', 'u', 'x'] then some (.aux n, ts)
    else none
  | k + 1, .id f :: .sym '(' :: .id a :: .sym ',' :: ts =>
    if a ≠ ['a', 'p', 'i'] then none
    else do
      let (x, ts) ← expr env k ts
      if f = ['f', 'r', '_', 'n', 'e', 'g'] then
        let ts ← closeParen ts
        return (.neg x, ts)
      let ts ← expect [.sym ','] ts
      let (y, ts) ← expr env k ts
      if f = ['f', 'r', '_', 'm', 'u', 'l'] then
        let ts ← closeParen ts
        return (.mul x y, ts)
      if f = ['f', 'r', '_', 'a', 'd', 'd'] then
        let ts ← closeParen ts
        return (.add x y, ts)
      if f = ['f', 'r', '_', 'p', 'o', 'w'] then
        match y with
        | .str n =>
          let ts ← closeParen ts
          return (.pow x n, ts)
        | _ => none
      else if f = ['f', 'r', '_', 'd', 'i', 'v'] then
        let ts ← expect [.sym ','] ts
        let (z, ts) ← expr env k ts
        let ts ← closeParen ts
        return (.div x y z, ts)
      else none
  | _ + 1, .id f :: .sym '(' :: .str s :: .sym ')' :: ts =>
    if f = ['f', 'r', '_', 'f', 'r', 'o', 'm', '_', 's', 't', 'r', 'i', 'n', 'g'] then (decimal? s).map fun n => (.str n, ts) else none
  | _ + 1, .id c :: ts => (env.lookup c).map fun n => (.str n, ts)
  | _, _ => none

/-- `new(big.Int).SetString(`. /repo/AggregatorVerifierStep3.go:80, 81, 89 and more. -/
def newBig : List Tok :=
  [.id ['n', 'e', 'w'], .sym '(', .id ['b', 'i', 'g'], .sym '.', .id ['I', 'n', 't'], .sym ')', .sym '.',
   .id ['S', 'e', 't', 'S', 't', 'r', 'i', 'n', 'g'], .sym '(']
/-- `(api, buf[:],`. /repo/AggregatorVerifierStep1.go:15; /repo/AggregatorVerifierStep2.go:357, 371 and more. -/
def callBuf : List Tok :=
  [.sym '(', .id ['a', 'p', 'i'], .sym ',', .id ['b', 'u', 'f'], .sym '[', .sym ':', .sym ']', .sym ',']
/-- `if err != nil { return [43]frontend.Variable{}, err }`.
/repo/AggregatorVerifierStep1.go:16-18; /repo/AggregatorVerifierStep2.go:358-360, 372-374 and more. -/
def ifErr : List Tok :=
  [.id ['i', 'f'], .id ['e', 'r', 'r'], .sym '!', .sym '=', .id ['n', 'i', 'l'], .sym '{',
   .id ['r', 'e', 't', 'u', 'r', 'n'], .sym '[', .num 43, .sym ']', .id ['f', 'r', 'o', 'n', 't', 'e', 'n', 'd'],
   .sym '.', .id ['V', 'a', 'r', 'i', 'a', 'b', 'l', 'e'], .sym '{', .sym '}', .sym ',', .id ['e', 'r', 'r'], .sym '}']
/-- `return buf, nil }`.
/repo/AggregatorVerifierStep1.go:885-886; /repo/AggregatorVerifierStep2.go:564-565; /repo/AggregatorVerifierStep3.go:175-176. -/
def returnBuf : List Tok :=
  [.id ['r', 'e', 't', 'u', 'r', 'n'], .id ['b', 'u', 'f'], .sym ',', .id ['n', 'i', 'l'], .sym '}']

/-- `buf[i], buf[j], … =`; the first argument bounds the number of targets.
For the text of /repo/AggregatorVerifierStep1.go:7-886; /repo/AggregatorVerifierStep2.go:7-565; /repo/AggregatorVerifierStep3.go:7-176. -/
def targets : ℕ → List Tok → Option (List ℕ × List Tok)
  | k + 1, .id v :: .sym '[' :: .num n :: .sym ']' :: .sym c :: ts =>
    if v ≠ ['b', 'u', 'f'] then none
    else if c = '=' then some ([n], ts)
    else if c = ',' then (targets k ts).map fun r => (n :: r.1, r.2)
    else none
  | _, _ => none

/-- `e, f, …`: as many expressions as there are targets.
For the text of /repo/AggregatorVerifierStep1.go:7-886; /repo/AggregatorVerifierStep2.go:7-565; /repo/AggregatorVerifierStep3.go:7-176. -/
def exprs (env : Env) : ℕ → List Tok → Option (List (Expr ℕ) × List Tok)
  | 0, ts => some ([], ts)
  | 1, ts => (expr env 100 ts).map fun r => ([r.1], r.2)
  | k + 1, ts => do
    let (x, ts) ← expr env 100 ts
    let ts ← expect [.sym ','] ts
    let (xs, ts) ← exprs env k ts
    return (x :: xs, ts)

/-- `:=` or `=`. All names of the three bodies are declared at the top level of the body, so the two do the same.
For the text of /repo/AggregatorVerifierStep1.go:7-886; /repo/AggregatorVerifierStep2.go:7-565; /repo/AggregatorVerifierStep3.go:7-176. -/
def assign : List Tok → Option (List Tok)
  | .sym ':' :: .sym '=' :: ts => some ts
  | .sym '=' :: ts => some ts
  | _ => none

/-- One statement: a list of assignments to `buf`; a call of `ecc_mul` or `ecc_mul_add` with the test of the error after it;
or the assignment of a constant, which is only remembered.
For the text of /repo/AggregatorVerifierStep1.go:7-886; /repo/AggregatorVerifierStep2.go:7-565; /repo/AggregatorVerifierStep3.go:7-176. -/
def stmt (env : Env) (ts : List Tok) : Option ((Option Stmt × Env) × List Tok) :=
  match ts with
  | .id v :: .sym ',' :: .id u :: ts =>
    if u ≠ ['_'] then none
    else do
      let ts ← assign ts
      let ts ← expect newBig ts
      match ts with
      | .str s :: ts => do
        let n ← decimal? s
        let ts ← expect [.sym ',', .num 10, .sym ')'] ts
        return ((none, (v, n) :: env), ts)
      | _ => none
  | .id v :: .sym '[' :: rest => do
    let (l, ts) ← targets 10 (.id v :: .sym '[' :: rest)
    let (es, ts) ← exprs env l.length ts
    return ((some (.set l es), env), ts)
  | .id v :: ts =>
    if v ≠ ['e', 'r', 'r'] then none
    else do
      let ts ← assign ts
      match ts with
      | .id f :: ts => do
        let ts ← expect callBuf ts
        match ts with
        | .num o :: ts => do
          let ts ← expect (.sym ')' :: ifErr) ts
          if f = ['e', 'c', 'c', '_', 'm', 'u', 'l'] then return ((some (.eccMul o), env), ts)
          else if f = ['e', 'c', 'c', '_', 'm', 'u', 'l', '_', 'a', 'd', 'd'] then return ((some (.eccMulAdd o), env), ts)
          else none
        | _ => none
      | _ => none
  | _ => none

/-- The body of a step up to `return buf, nil }` at the end of the file; the first argument bounds the number of
statements.
For the text of /repo/AggregatorVerifierStep1.go:7-886; /repo/AggregatorVerifierStep2.go:7-565; /repo/AggregatorVerifierStep3.go:7-176. -/
def body : ℕ → Env → List Tok → Option (List Stmt)
  | 0, _, _ => none
  | k + 1, env, ts =>
    if ts = returnBuf then some []
    else do
      let ((s, env), ts) ← stmt env ts
      let l ← body k env ts
      return s.toList ++ l

/-- A whole file: the given lines up to the opening brace of the function, then the body.
For the text of /repo/AggregatorVerifierStep1.go:7-886; /repo/AggregatorVerifierStep2.go:7-565; /repo/AggregatorVerifierStep3.go:7-176. -/
def file (head : List Char) (s : List Char) : Option (List Stmt) := do
  let ts ← expect (tokens head) (tokens s)
  body 1000 [] ts

end Verif.Go
