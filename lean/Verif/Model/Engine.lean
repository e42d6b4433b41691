/-
The circuit engine: gnark's `frontend.API` as seen by the repo. gnark itself is not in /repo; this file is
the model of the part of gnark v0.10.0 the repo calls (see DESIGN.md, trusted base).
Two engines are modelled:
 * `Mode.test`    : `test.IsSolved`, where every variable is a concrete integer and a failed assertion panics;
 * `Mode.compile` : `frontend.Compile` followed by solving with a witness; circuit inputs and hint outputs are
                    wires, and a failed assertion makes the constraint system unsatisfied (`sat = false`).
-/
import Verif.Math.Order

namespace Verif

/-- `frontend.Variable` (an empty Go interface) as used by the repo: Go `nil`, a Go `int` literal (or any other constant that
is not a `*big.Int`: another integer type, a decimal string; gnark and `SetInterface` read them alike),
a `*big.Int` (not reduced), or a circuit wire. A wire carries the value the witness assigns to it;
the modelled code never branches on that value. In the test engine there are no wires; there `wire v` stands for a
value of a Go type that the engine accepts but `fp.Element.SetInterface` rejects, e.g. an `fr.Element`.
Type of gnark; for example /repo/circuit.go:14-19. -/
inductive Var where
  | nil
  | int (n : ℤ)
  | big (n : ℤ)
  | wire (v : Fr)
deriving DecidableEq

/-- Value of a variable in the native field (circuits of the repo are all over BN254 Fr).
Field of ecc.BN254.ScalarField(), /repo/main.go:180. -/
def Var.fr : Var → Fr
  | .nil => 0
  | .int n => (n : Fr)
  | .big n => (n : Fr)
  | .wire v => v

/-- Go `nil` is not a value.
Vocabulary of the theorems; the inputs are those of /repo/circuit.go:14-19. -/
def Var.IsVal : Var → Prop
  | .nil => False
  | _ => True

/-- Is the variable a wire of a compiled circuit?
(gnark engine, not code of /repo; the difference shows at the SetInterface calls, /repo/aggregator_lib_circuit.go:388-389.) -/
def Var.isWire : Var → Bool
  | .wire _ => true
  | _ => false

/-- The hint functions of the repo.
/repo/fr.go:66-74 (modHint), /repo/aggregator_lib_circuit.go:104-125 (MsmHint), 179-213 (AddHint), /repo/circuit.go:157-180 (Keccak256Hint), /repo/hash.go:26 (toBytes). -/
inductive HintId where
  | modHint | msmHint | addHint | keccakHint | toBytes
deriving DecidableEq

/-- A Go `error` value: `none` is `nil`.
For example /repo/circuit.go:21. -/
abbrev GoErr := Option String

/-- What calling a hint function does.
(gnark engine, not code of /repo: the results of `NewHint`, /repo/fr.go:58, /repo/aggregator_lib_circuit.go:128, 160, 216, 260, /repo/circuit.go:129.) -/
inductive HintRes where
  | ok (outs : List ℤ)
  | err
  | panic

/-- The two engines that run the repo's circuits: gnark's test engine (/repo/circuit_test.go) and the compiler with its solver
(/repo/main.go:180). -/
inductive Mode where
  | test | compile
deriving DecidableEq

/-- An engine. `strat id k nOut ins` is the behaviour of the `k`-th hint call of the run: the honest hint
functions, or anything else a prover may do. `raw` says whether the test engine uses unreduced `*big.Int`
values when it compares and passes them to hints (gnark v0.10.0 does; theorems hold for both unless said).
gnark, not code of /repo; the hint calls are /repo/aggregator_lib_circuit.go:128, 160, 216, 260, /repo/circuit.go:129, /repo/fr.go:58. -/
structure Engine where
  mode : Mode
  raw : Bool
  strat : HintId → ℕ → ℕ → List ℤ → HintRes

/-- State of a run: are all constraints emitted so far satisfied, and which hints were called.
(gnark engine, not code of /repo.) -/
structure St where
  sat : Bool
  hints : List HintId

/-- The state before a run. (gnark engine, not code of /repo.) -/
def St.init : St := ⟨true, []⟩

/-- A Go panic (or, in the test engine, a failed assertion).
For example /repo/aggregator_lib_circuit.go:106, 130. -/
inductive Panic where
  | mk (msg : String)

/-- A function using the circuit API.
Every function of /repo with a `frontend.API` parameter is modelled in this monad. -/
def Circ (α : Type) := Engine → St → Except Panic (α × St)

namespace Circ

/-- Go's sequencing of statements: a panic ends the run, as in every function of /repo (e.g. /repo/fr.go:9-41). -/
instance : Monad Circ where
  pure a := fun _ s => .ok (a, s)
  bind m f := fun E s => match m E s with
    | .ok (a, s') => f a E s'
    | .error p => .error p

theorem pure_run {α} (a : α) (E : Engine) (s : St) : (pure a : Circ α) E s = .ok (a, s) := rfl

theorem bind_run {α β} (m : Circ α) (f : α → Circ β) (E : Engine) (s : St) :
    (m >>= f) E s = match m E s with
      | .ok (a, s') => f a E s'
      | .error p => .error p := rfl

/-- The monad laws of the sequencing above; models no code of /repo. -/
instance : LawfulMonad Circ := LawfulMonad.mk'
  (id_map := by
    intro α x; funext E s; show (match x E s with | .ok (a, s') => _ | .error p => _) = _
    cases x E s <;> rfl)
  (pure_bind := by intros; rfl)
  (bind_assoc := by
    intro α β γ x f g; funext E s
    simp only [bind_run]
    cases x E s <;> rfl)

/-- Go `panic`.
For example /repo/aggregator_lib_circuit.go:106, 130. -/
def panic {α} (msg : String) : Circ α := fun _ _ => .error (.mk msg)

theorem panic_run {α} (msg : String) (E : Engine) (s : St) :
    (panic msg : Circ α) E s = .error (.mk msg) := rfl

theorem bind_ok {α β} {m : Circ α} {f : α → Circ β} {E s r} :
    (m >>= f) E s = .ok r ↔ ∃ a s', m E s = .ok (a, s') ∧ f a E s' = .ok r := by
  rw [bind_run]
  cases h : m E s with
  | ok x => cases x; simp
  | error p => simp

end Circ

/-- The run returned (no panic) with result `a` and all constraints satisfied. (gnark engine, not code of /repo.) -/
def Circ.Accepts {α} (m : Circ α) (E : Engine) (s : St) (a : α) : Prop :=
  ∃ s', m E s = .ok (a, s') ∧ s'.sat = true

/-- A circuit's `Define` is accepted: it returns a nil error, without panic, all constraints satisfied.
As judged by `test.IsSolved` at /repo/circuit_test.go:88 or by proving at /repo/main.go. -/
def Circ.Accepted (m : Circ GoErr) (E : Engine) (s : St) : Prop := m.Accepts E s none

/-- `toBigInt` of the engine: the integer the engine works with for a variable. (gnark engine, not code of /repo.) -/
def toBig (E : Engine) : Var → Option ℤ
  | .nil => none
  | .int n => some (n % rMod)
  | .big n => some (if E.mode = .test ∧ E.raw = true then n else n % rMod)
  | .wire v => some v.val

/-- Read the integer of a variable (a nil interface panics in `utils.FromInterface`).
(gnark engine, not code of /repo.) -/
def readBig (v : Var) : Circ ℤ := fun E s => match toBig E v with
  | some n => .ok (n, s)
  | none => .error (.mk "nil variable")

/-- The variable an arithmetic operation returns: a constant when the engine is the test engine or all
operands are constants, otherwise a wire. (gnark engine, not code of /repo.) -/
def mkRes (wires : Bool) (n : ℤ) : Circ Var := fun E s =>
  .ok (if E.mode = .compile ∧ wires = true then .wire (n : Fr) else .big (n % rMod), s)

/-- `api.Add` (two operands). Called at /repo/fr.go:62, 82, /repo/utils.go:12. -/
def apiAdd (a b : Var) : Circ Var := do
  let x ← readBig a; let y ← readBig b; mkRes (a.isWire || b.isWire) (x + y)
/-- `api.Sub`. Called at /repo/fr.go:87, 98, /repo/kyc.go:61. -/
def apiSub (a b : Var) : Circ Var := do
  let x ← readBig a; let y ← readBig b; mkRes (a.isWire || b.isWire) (x - y)
/-- `api.Mul`. Called at /repo/fr.go:46, 53, 62, /repo/utils.go:11. -/
def apiMul (a b : Var) : Circ Var := do
  let x ← readBig a; let y ← readBig b; mkRes (a.isWire || b.isWire) (x * y)
/-- `api.IsZero`. Called at /repo/kyc.go:61. -/
def apiIsZero (a : Var) : Circ Var := do
  let x ← readBig a; mkRes a.isWire (if x = 0 then 1 else 0)

/-- Emit a constraint over operands, some of which may be wires: a false constraint panics in the test engine
and (for constants) in the compiler, and is unsatisfiable for wires. (gnark engine, not code of /repo.) -/
def emit (wires : Bool) (c : Bool) : Circ Unit := fun E s =>
  if c then .ok ((), s)
  else if E.mode = .compile ∧ wires = true then .ok ((), { s with sat := false })
  else .error (.mk "assertion failed")

/-- `api.AssertIsEqual`.
Called at /repo/aggregator_lib_circuit.go:60-61, 89-90, /repo/fr.go:62, 93, /repo/kyc.go:64. -/
def apiAssertIsEqual (a b : Var) : Circ Unit := do
  let x ← readBig a; let y ← readBig b; emit (a.isWire || b.isWire) (x == y)

/-- `api.AssertIsLessOrEqual(v, bound)`; a negative bound panics.
Called at /repo/aggregator_lib_circuit.go:603, 615-616. -/
def apiAssertIsLessOrEqual (v bound : Var) : Circ Unit := do
  let b ← readBig bound
  if b < 0 then Circ.panic "bound must be positive"
  let x ← readBig v
  emit (v.isWire || bound.isWire) (decide (x ≤ b))

/-- `api.AssertIsBoolean`. Part of `api.Or`, called at /repo/kyc.go:62. -/
def apiAssertIsBoolean (a : Var) : Circ Unit := do
  let x ← readBig a; emit a.isWire (x == 0 || x == 1)

/-- `api.Or`: both operands are constrained to be boolean. Called at /repo/kyc.go:62. -/
def apiOr (a b : Var) : Circ Var := do
  apiAssertIsBoolean a; apiAssertIsBoolean b
  let x ← readBig a; let y ← readBig b
  mkRes (a.isWire || b.isWire) (if x = 0 ∧ y = 0 then 0 else 1)

/-- Read the integers of several variables. (gnark engine, not code of /repo: the inputs of `NewHint`.) -/
def readBigs : List Var → Circ (List ℤ)
  | [] => pure []
  | v :: vs => do let x ← readBig v; let xs ← readBigs vs; pure (x :: xs)

/-- Wrap hint outputs: exactly `nOut` of them, reduced modulo r; wires when compiling.
(gnark engine, not code of /repo: the outputs of `NewHint`.) -/
def hintOuts (E : Engine) (nOut : ℕ) (outs : List ℤ) : List Var :=
  (List.range nOut).map fun i =>
    match E.mode with
    | .test => Var.big (outs.getD i 0 % rMod)
    | .compile => Var.wire ((outs.getD i 0 : ℤ) : Fr)

/-- The hint call itself, on integer inputs.
Called at /repo/fr.go:58, /repo/aggregator_lib_circuit.go:128, 160, 216, 260, /repo/circuit.go:129. -/
def callHint (f : HintId) (nOut : ℕ) (xs : List ℤ) : Circ (List Var) := fun E s =>
  match E.strat f s.hints.length nOut xs with
  | .ok outs => .ok (hintOuts E nOut outs, { s with hints := s.hints ++ [f] })
  | .err | .panic => match E.mode with
    | .test => .error (.mk "NewHint")
    | .compile => .ok (hintOuts E nOut [], { sat := false, hints := s.hints ++ [f] })

/-- `api.Compiler().NewHint(f, nOut, ins...)`. In the test engine a failing hint panics inside `NewHint`. In a
compiled circuit the hint runs when solving; if it fails, the witness cannot be completed (`sat = false`).
The Go error result of `NewHint` is nil in every case modelled here.
gnark, called at /repo/aggregator_lib_circuit.go:128, 160, 216, 260, /repo/circuit.go:129, /repo/fr.go:58. -/
def newHint (f : HintId) (nOut : ℕ) (ins : List Var) : Circ (List Var) := do
  let xs ← readBigs ins
  callHint f nOut xs

/-- Go slice/array read `a[i]`.
For example /repo/aggregator_lib_circuit.go:94-102. -/
def idx (a : List Var) (i : ℕ) : Circ Var := match a[i]? with
  | some v => pure v
  | none => Circ.panic "index out of range"

/-- Go slice/array write `a[i] = v`.
For example /repo/aggregator_lib_circuit.go:94-102. -/
def setIdx (a : List Var) (i : ℕ) (v : Var) : Circ (List Var) :=
  if i < a.length then pure (a.set i v) else Circ.panic "index out of range"

/-- Go type assertion `v.(*big.Int)` (single-result form: panics when it fails).
/repo/aggregator_lib_circuit.go:437, /repo/fr.go:44. -/
def asBigInt : Var → Circ ℤ
  | .big n => pure n
  | _ => Circ.panic "interface conversion"

/-- `fp.Element.SetInterface(v)`: `none` is a non-nil Go error. Accepts constants, rejects nil and wires.
gnark-crypto, called at /repo/aggregator_lib_circuit.go:134-151, 221-251, 388-389, 415-416. -/
def setInterface : Var → Option Fp
  | .nil => none
  | .int n => some (n : Fp)
  | .big n => some (n : Fp)
  | .wire _ => none

/-- A test-engine integer that is the canonical representative of a field element.
(Vocabulary of the theorems; models no code.) -/
def Var.Canon (v : Var) : Prop := ∃ n : ℤ, v = .big n ∧ 0 ≤ n ∧ n < rMod

/-- An operand whose engine value is canonical whatever the engine does with unreduced integers.
(Vocabulary of the theorems; models no code.) -/
def Var.Good : Var → Prop
  | .nil => False
  | .big n => 0 ≤ n ∧ n < rMod
  | _ => True

end Verif
