/-
The statement language in which the bodies of VerifyProof1, VerifyProof2 and VerifyProof3
(/repo/AggregatorVerifierStep{1,2,3}.go) are written, with its meaning in terms of the modelled Go functions.
The bodies are straight-line Go code; every statement has one of the three forms of `Stmt`. The programs themselves are
in Verif/Model/StepProgs.
-/
import Verif.Model.Curve

namespace Verif

/-- Go expressions of the three bodies. `ρ` names buffer cells: it is the index `i` of `buf[i]` in the programs.
For /repo/AggregatorVerifierStep1.go:7-886, /repo/AggregatorVerifierStep2.go:7-565, /repo/AggregatorVerifierStep3.go:7-176. -/
inductive Expr (ρ : Type) where
  /-- `fr_from_string("n")`, or a constant obtained by `new(big.Int).SetString("n", 10)` -/
  | str (n : ℕ)
  /-- a Go `int` literal -/
  | int (n : ℕ)
  /-- `buf[i]` -/
  | buf (r : ρ)
  /-- `transcript[i]` -/
  | tr (i : ℕ)
  /-- `aux[i]` -/
  | aux (i : ℕ)
  /-- `fr_mul(api, a, b)` -/
  | mul (a b : Expr ρ)
  /-- `fr_add(api, a, b)` -/
  | add (a b : Expr ρ)
  /-- `fr_neg(api, a)` -/
  | neg (a : Expr ρ)
  /-- `fr_div(api, a, b, c)` -/
  | div (a b c : Expr ρ)
  /-- `fr_pow(api, a, fr_from_string("n"))` -/
  | pow (a : Expr ρ) (n : ℕ)
deriving DecidableEq

/-- Go statements of the three bodies.
For /repo/AggregatorVerifierStep1.go:7-886, /repo/AggregatorVerifierStep2.go:7-565, /repo/AggregatorVerifierStep3.go:7-176. -/
inductive Stmt where
  /-- `buf[t₀], buf[t₁], … = e₀, e₁, …` -/
  | set (ts : List ℕ) (es : List (Expr ℕ))
  /-- `err = ecc_mul(api, buf[:], o); if err != nil { return [43]frontend.Variable{}, err }` -/
  | eccMul (o : ℕ)
  /-- the same with `ecc_mul_add` -/
  | eccMulAdd (o : ℕ)
deriving DecidableEq

/-- Evaluation of an expression: Go evaluates calls left to right, arguments first. `T`, `A`, `B` are the slices
`transcript`, `aux` and the array `buf`.
For /repo/AggregatorVerifierStep1.go:7-886, /repo/AggregatorVerifierStep2.go:7-565, /repo/AggregatorVerifierStep3.go:7-176. -/
def Expr.eval (T A B : List Var) : Expr ℕ → Circ Var
  | .str n => pure (fr_from_string n)
  | .int n => pure (.int n)
  | .buf i => idx B i
  | .tr i => idx T i
  | .aux i => idx A i
  | .mul a b => do
    let x ← a.eval T A B
    let y ← b.eval T A B
    fr_mul x y
  | .add a b => do
    let x ← a.eval T A B
    let y ← b.eval T A B
    fr_add x y
  | .neg a => do
    let x ← a.eval T A B
    fr_neg x
  | .div a b c => do
    let x ← a.eval T A B
    let y ← b.eval T A B
    let z ← c.eval T A B
    fr_div x y z
  | .pow a n => do
    let x ← a.eval T A B
    fr_pow x (fr_from_string n)

/-- The right-hand sides of an assignment, left to right.
As in /repo/AggregatorVerifierStep1.go, AggregatorVerifierStep2.go and AggregatorVerifierStep3.go. -/
def evalExprs (T A B : List Var) : List (Expr ℕ) → Circ (List Var)
  | [] => pure []
  | e :: es => do
    let v ← e.eval T A B
    let vs ← evalExprs T A B es
    pure (v :: vs)

/-- The stores of an assignment, left to right.
As in /repo/AggregatorVerifierStep1.go, AggregatorVerifierStep2.go and AggregatorVerifierStep3.go. -/
def setMany (B : List Var) : List ℕ → List Var → Circ (List Var)
  | t :: ts, v :: vs => do
    let B ← setIdx B t v
    setMany B ts vs
  | _, _ => pure B

/-- One statement: the error and the new array.
The statements of /repo/AggregatorVerifierStep1.go, AggregatorVerifierStep2.go and AggregatorVerifierStep3.go. -/
def Stmt.exec (X : Ext) (T A : List Var) (B : List Var) : Stmt → Circ (GoErr × List Var)
  | .set ts es => do
    let vs ← evalExprs T A B es
    let B ← setMany B ts vs
    pure (none, B)
  | .eccMul o => ecc_mul X B o
  | .eccMulAdd o => ecc_mul_add X B o

/-- `[43]frontend.Variable{}`.
Returned with an error in /repo/AggregatorVerifierStep1.go, AggregatorVerifierStep2.go and AggregatorVerifierStep3.go. -/
def emptyBuf : List Var := List.replicate 43 .nil

/-- A function body: an error returns the empty array with the error; falling off the end is `return buf, nil`.
The bodies of VerifyProof1, VerifyProof2 and VerifyProof3 in /repo/AggregatorVerifierStep1.go, AggregatorVerifierStep2.go and AggregatorVerifierStep3.go. -/
def execBody (X : Ext) (T A : List Var) : List Var → List Stmt → Circ (List Var × GoErr)
  | B, [] => pure (B, none)
  | B, st :: rest => do
    let (err, B) ← st.exec X T A B
    match err with
    | some m => pure (emptyBuf, some m)
    | none => execBody X T A B rest

end Verif
