/-
Model of VerifyProof1/2/3, of /repo/circuit.go `AggregatorCircuit.Define`, of the hint registration in
/repo/aggregator_lib_circuit.go `init`, and of the part of /repo/main.go `main` up to the end of compilation.
-/
import Verif.Model.StepProgs
import Verif.Model.Transcript
import Verif.Model.Pairing

namespace Verif

/-- `VerifyProof1`, /repo/AggregatorVerifierStep1.go:7-886. The array `buf` is passed and returned by value. -/
def VerifyProof1 (X : Ext) (transcript aux buf : List Var) : Circ (List Var × GoErr) := execBody X transcript aux buf step1
/-- `VerifyProof2`, /repo/AggregatorVerifierStep2.go:7-565. -/
def VerifyProof2 (X : Ext) (transcript aux buf : List Var) : Circ (List Var × GoErr) := execBody X transcript aux buf step2
/-- `VerifyProof3`, /repo/AggregatorVerifierStep3.go:8-176. -/
def VerifyProof3 (X : Ext) (transcript aux buf : List Var) : Circ (List Var × GoErr) := execBody X transcript aux buf step3

/-- `AggregatorCircuit`, /repo/circuit.go:14-19. -/
structure AggregatorCircuit where
  Proof : List Var
  VerifyInst : List Var
  Aux : List Var
  TargetInst : List Var

/-- The loops /repo/circuit.go:29-37 copying instance values into `buf` from position `bufLen` on. -/
def copyInst (buf : List Var) (bufLen : ℕ) : List Var → Circ (List Var)
  | [] => pure buf
  | v :: vs => do
    let buf ← setIdx buf bufLen v
    copyInst buf (bufLen + 1) vs

/-- `AggregatorCircuit.Define` from the pairing inputs on, /repo/circuit.go:101-125. -/
def finalCheck (X : Ext) (buf : List Var) : Circ GoErr := do
  let b10 ← idx buf 10
  let err ← VerifyNotZero b10
  match err with | some m => pure (some m) | none => do
  let b11 ← idx buf 11
  let err ← VerifyNotZero b11
  match err with | some m => pure (some m) | none => do
  let b12 ← idx buf 12
  let err ← VerifyNotZero b12
  match err with | some m => pure (some m) | none => do
  let b13 ← idx buf 13
  let err ← VerifyNotZero b13
  match err with | some m => pure (some m) | none => do
  let witnessCircuit : BN256PairingCircuit := ⟨[], []⟩
  let witnessCircuit ← FillVerifyCircuitsG1 witnessCircuit b10 b11 b12 b13
  let witnessCircuit ← FillVerifyCircuitsG2 witnessCircuit
  VerifyBN256Pairing X witnessCircuit.g1Points witnessCircuit.g2Points

/-- `AggregatorCircuit.Define` from the challenges on, /repo/circuit.go:80-125: `buf` holds the instance commitment. -/
def verifyFrom (X : Ext) (c : AggregatorCircuit) (buf : List Var) : Circ GoErr := do
  let (err, buf) ← GetChallengesShPlonkCircuit X buf c.Proof
  match err with | some m => pure (some m) | none => do
  let (buf, err) ← VerifyProof1 X c.Proof c.Aux buf
  match err with | some m => pure (some m) | none => do
  let (buf, err) ← VerifyProof2 X c.Proof c.Aux buf
  match err with | some m => pure (some m) | none => do
  let (buf, err) ← VerifyProof3 X c.Proof c.Aux buf
  match err with | some m => pure (some m) | none => do
  finalCheck X buf

/-- `AggregatorCircuit.Define`, /repo/circuit.go:21-125. Logging is dropped. -/
def AggregatorCircuit.Define (X : Ext) (c : AggregatorCircuit) : Circ GoErr := do
  let buf : List Var := List.replicate 43 (.big 0)
  let buf ← copyInst buf 0 c.TargetInst
  let buf ← copyInst buf c.TargetInst.length c.VerifyInst
  let (hashValBig, err) ← VerifyInstanceHash X (buf.take (c.TargetInst.length + c.VerifyInst.length))
  match err with | some m => pure (some m) | none => do
  let hashMod ← mod hashValBig
  let buf ← setIdx buf 2 hashMod
  let (err, buf) ← CalcVerifyCircuitLagrange X buf
  match err with | some m => pure (some m) | none => do
  verifyFrom X c buf

/-- `frontend.Compile` runs `Define` on wires; it turns a panic inside `Define` into an error. `none` is success.
As called at /repo/main.go:180 and /repo/kyc_test.go:27. -/
def compileResult (X : Ext) (c : AggregatorCircuit) (E : Engine) : GoErr := match c.Define X E .init with
  | .ok (e, _) => e
  | .error (.mk msg) => some msg

/-- `main`, /repo/main.go:151-248: compile, `panic(err)` on error (lines 180-183), then setup, proof and verification
(lines 185-247), which are gnark calls and stand as the arbitrary continuation `rest`. `c` is the circuit on wires. -/
def mainGo (X : Ext) (c : AggregatorCircuit) (E : Engine) (rest : Except Panic Unit) : Except Panic Unit :=
  match compileResult X c E with
  | some m => .error (.mk m)
  | none => rest

/-- The circuit `main` compiles: the shapes of /repo/main.go:152-157 (104 proof values, 21 aux values), every variable
a wire, with any values assigned to the wires. -/
def mainShape (c : AggregatorCircuit) : Prop :=
  c.Proof.length = 104 ∧ c.VerifyInst.length = 1 ∧ c.Aux.length = 21 ∧ c.TargetInst.length = 4 ∧
  ∀ v ∈ c.Proof ++ c.VerifyInst ++ c.Aux ++ c.TargetInst, v.isWire = true

end Verif
