/-
Model of /repo/fr.go (field part) and /repo/utils.go.
-/
import Verif.Model.Engine

namespace Verif

/-- `MODULUS`, /repo/aggregator_lib_circuit.go:26 (`emulated.BN254Fr{}.Modulus()`). -/
def modulusVar : Var := .big rMod

/-- `mod`, /repo/fr.go:57-64. `NewHint` never returns a Go error in the model, so the `return err` branch
(fr.go:59-61) is dropped. -/
def mod (a : Var) : Circ Var := do
  let results ← newHint .modHint 2 [a]
  let r1 ← idx results 1
  let r0 ← idx results 0
  let p ← apiMul r0 modulusVar
  let s ← apiAdd r1 p
  apiAssertIsEqual s a
  pure r1

/-- `modHint`, /repo/fr.go:66-74: Go's `Div`/`Mod` are Euclidean division, as Lean's `/`, `%` on `Int`.
`ins = []` is an index panic. -/
def modHint (ins : List ℤ) : HintRes := match ins with
  | [] => .panic
  | a :: _ => .ok [a / rMod, a % rMod]

/-- The loop of `fr_pow`, /repo/fr.go:44-47: `for i := 1; i < power; i++ { res = api.Mul(res, a) }`. -/
def frPowLoop (a : Var) (power i : ℤ) (res : Var) : Circ Var :=
  if i < power then do
    let res' ← apiMul res a
    frPowLoop a power (i + 1) res'
  else pure res
termination_by (power - i).toNat
decreasing_by omega

/-- `fr_pow`, /repo/fr.go:42-50. The type assertion on `power` is evaluated before the first iteration. -/
def fr_pow (a power : Var) : Circ Var := do
  let n ← asBigInt power
  let res ← frPowLoop a n 1 a
  mod res

/-- `fr_mul`, /repo/fr.go:52-55. -/
def fr_mul (a b : Var) : Circ Var := do
  let product ← apiMul a b
  mod product

/-- `fr_mul_neg`, /repo/fr.go:76-79. -/
def fr_mul_neg (a b : Var) : Circ Var := do
  let tmp ← fr_mul a b
  let t ← asBigInt tmp
  pure (.big (rMod - t))

/-- `fr_add`, /repo/fr.go:81-84. -/
def fr_add (a b : Var) : Circ Var := do
  let sum ← apiAdd a b
  mod sum

/-- `fr_sub`, /repo/fr.go:86-89. -/
def fr_sub (a b : Var) : Circ Var := do
  let dec ← apiSub a b
  mod dec

/-- `fr_div`, /repo/fr.go:91-95. -/
def fr_div (a b aux : Var) : Circ Var := do
  let r ← fr_mul b aux
  apiAssertIsEqual r a
  mod aux

/-- `fr_neg`, /repo/fr.go:97-99. -/
def fr_neg (a : Var) : Circ Var := apiSub modulusVar a

/-- `fr_from_string`, /repo/fr.go:101-104, on a decimal literal denoting `n`
(every call in the repo has a decimal literal as argument; for all strings see `frFromString`). -/
def fr_from_string (n : ℕ) : Var := .big n

/-- The loop of `PackUInt8Variables`, /repo/utils.go:10-13. -/
def packLoop : Var → List Var → Circ Var
  | res, [] => pure res
  | res, input :: rest => do
    let m ← apiMul res (.big (2 ^ 8))
    let res' ← apiAdd m input
    packLoop res' rest

/-- `PackUInt8Variables`, /repo/utils.go:8-15; `inputs[0]` of an empty list panics. -/
def PackUInt8Variables : List Var → Circ Var
  | [] => Circ.panic "index out of range"
  | v :: vs => packLoop v vs

end Verif
