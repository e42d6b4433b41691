/-
Model of /repo/msm.go, of the curve part of /repo/fr.go (ecc_mul, ecc_mul_add) and of the curve, range and
on-curve functions of /repo/aggregator_lib_circuit.go.
-/
import Verif.Model.Hints

namespace Verif

/-- Constraints of a gnark std gadget on emulated values (wires when compiling).
gnark, called at /repo/aggregator_lib_circuit.go:52-63, 82-92, /repo/msm.go:21-40, 52-157. -/
def gadget (c : Bool) : Circ Unit := emit true c

/-- Go error value of a failed `SetInterface` (only nil or not matters to the properties).
/repo/aggregator_lib_circuit.go:134-141, 221-254. -/
def errSetInterface : GoErr := some "can't set fp.Element"
/-- Go error value, /repo/aggregator_lib_circuit.go:143, 230, 243, 395, 420. -/
def errNotOnCurve : GoErr := some "bn256.G1Affine is not on curve"

/-- `VerifyBN254ScalarMul`, /repo/msm.go:52-93. The scalar is first read as an Fp element (line 74), then used as
an emulated Fr element (line 79). `sw_emulated.New` does not fail. -/
def VerifyBN254ScalarMul (X : Ext) (point : Var × Var) (scalar : Var) (expected : Var × Var) : Circ GoErr :=
  match setInterface point.1 with
  | none => pure errSetInterface
  | some x => match setInterface point.2 with
    | none => pure errSetInterface
    | some y => match setInterface scalar with
      | none => pure errSetInterface
      | some k => do
        let res := X.scalarMul (x, y) (k.val : Fr)
        gadget res.isSome
        match setInterface expected.1 with
        | none => pure errSetInterface
        | some ex => match setInterface expected.2 with
          | none => pure errSetInterface
          | some ey => do
            gadget (res == some (ex, ey))
            pure none

/-- `VerifyBN254Add`, /repo/msm.go:105-157. -/
def VerifyBN254Add (X : Ext) (point1 point2 expected : Var × Var) : Circ GoErr :=
  match setInterface point1.1 with
  | none => pure errSetInterface
  | some x1 => match setInterface point1.2 with
    | none => pure errSetInterface
    | some y1 => match setInterface point2.1 with
      | none => pure errSetInterface
      | some x2 => match setInterface point2.2 with
        | none => pure errSetInterface
        | some y2 => do
          let res := X.addUnified (x1, y1) (x2, y2)
          gadget res.isSome
          match setInterface expected.1 with
          | none => pure errSetInterface
          | some ex => match setInterface expected.2 with
            | none => pure errSetInterface
            | some ey => do
              gadget (res == some (ex, ey))
              pure none

/-- `BN254ScalarMul`, /repo/msm.go:42-46. -/
structure BN254ScalarMulC where
  point : Var × Var
  scalar : Var
  res : Var × Var
/-- `BN254ScalarMul.Define`, /repo/msm.go:48-50. -/
def BN254ScalarMulC.Define (X : Ext) (c : BN254ScalarMulC) : Circ GoErr :=
  VerifyBN254ScalarMul X c.point c.scalar c.res

/-- `BN254Add`, /repo/msm.go:95-99. -/
structure BN254AddC where
  point1 : Var × Var
  point2 : Var × Var
  expectedRes : Var × Var
/-- `BN254Add.Define`, /repo/msm.go:101-103. -/
def BN254AddC.Define (X : Ext) (c : BN254AddC) : Circ GoErr :=
  VerifyBN254Add X c.point1 c.point2 c.expectedRes

/-- `VerifyMultiScalarMul`, /repo/msm.go:21-40, for the BN254 instantiation; points and scalars are the values of
the emulated elements. `cr.MultiScalarMul` returns an error when the lengths differ, and indexes out of range on
empty lists. -/
def VerifyMultiScalarMul (X : Ext) (points : List Aff) (scalars : List Fr) (expected : Aff) : Circ GoErr :=
  if points.length ≠ scalars.length then pure (some "mismatching points and scalars slice lengths")
  else if points.length = 0 then Circ.panic "index out of range"
  else do
    let res := X.msm points scalars
    gadget res.isSome
    gadget (res == some expected)
    pure none

/-- `MultiScalarMul`, /repo/msm.go:11-15, for the BN254 instantiation. -/
structure MultiScalarMulC where
  points : List Aff
  scalars : List Fr
  res : Aff
/-- `MultiScalarMul.Define`, /repo/msm.go:17-19. -/
def MultiScalarMulC.Define (X : Ext) (c : MultiScalarMulC) : Circ GoErr :=
  VerifyMultiScalarMul X c.points c.scalars c.res

/-- `CalcVerifyBN256Msm`, /repo/aggregator_lib_circuit.go:159-177. -/
def CalcVerifyBN256Msm (X : Ext) (x y k : Var) : Circ ((Var × Var) × GoErr) := do
  let result ← newHint .msmHint 2 [x, y, k]
  let r0 ← idx result 0
  let expectedX ← mod r0
  let r1 ← idx result 1
  let expectedY ← mod r1
  let err ← VerifyBN254ScalarMul X (x, y) k (expectedX, expectedY)
  pure ((expectedX, expectedY), err)

/-- `CalcVerifyBN256Add`, /repo/aggregator_lib_circuit.go:259-264. -/
def CalcVerifyBN256Add (X : Ext) (x1 y1 x2 y2 : Var) : Circ ((Var × Var) × GoErr) := do
  let result ← newHint .addHint 2 [x1, y1, x2, y2]
  let r0 ← idx result 0
  let expectedX ← mod r0
  let r1 ← idx result 1
  let expectedY ← mod r1
  let err ← VerifyBN254Add X (x1, y1) (x2, y2) (expectedX, expectedY)
  pure ((expectedX, expectedY), err)

/-- `ecc_mul`, /repo/fr.go:9-28. Returns the error and the updated buffer. -/
def ecc_mul (X : Ext) (input : List Var) (offset : ℕ) : Circ (GoErr × List Var) := do
  let x ← idx input offset
  let y ← idx input (offset + 1)
  let k ← idx input (offset + 2)
  let (res, err) ← CalcVerifyBN256Msm X x y k
  match err with
  | some m => pure (some m, input)
  | none => do
    let input ← setIdx input offset res.1
    let input ← setIdx input (offset + 1) res.2
    pure (none, input)

/-- `ecc_mul_add`, /repo/fr.go:30-40. The error of `CalcVerifyBN256Add` is discarded (line 36-39). -/
def ecc_mul_add (X : Ext) (buf : List Var) (offset : ℕ) : Circ (GoErr × List Var) := do
  let (err, buf) ← ecc_mul X buf (offset + 2)
  match err with
  | some m => pure (some m, buf)
  | none => do
    let a ← idx buf offset
    let b ← idx buf (offset + 1)
    let c ← idx buf (offset + 2)
    let d ← idx buf (offset + 3)
    let (res, _) ← CalcVerifyBN256Add X a b c d
    let buf ← setIdx buf offset res.1
    let buf ← setIdx buf (offset + 1) res.2
    pure (none, buf)

/-- The fixed point, first coordinate, /repo/aggregator_lib_circuit.go:95. -/
def lagrangeX : ℕ := 13534086339230182803823178260078315691269243572458753455438283544709107378988
/-- The fixed point, second coordinate, /repo/aggregator_lib_circuit.go:96. -/
def lagrangeY : ℕ := 9053077977614827188269653632534212501565186534180282672519599630892718179094
/-- `CalcVerifyCircuitLagrange`, /repo/aggregator_lib_circuit.go:94-102. -/
def CalcVerifyCircuitLagrange (X : Ext) (buf : List Var) : Circ (GoErr × List Var) := do
  let k ← idx buf 2
  let (res, err) ← CalcVerifyBN256Msm X (.big lagrangeX) (.big lagrangeY) k
  let buf ← setIdx buf 0 res.1
  let buf ← setIdx buf 1 res.2
  pure (err, buf)

/-- gnark-crypto `bn254.G1Affine.IsOnCurve`: the curve equation, or (0,0) for infinity.
gnark-crypto, called at /repo/aggregator_lib_circuit.go:142, 229, 242, 394, 419, /repo/pairing_circuit.go:52, 59. -/
def isOnCurve (x y : Fp) : Bool := decide (y ^ 2 = x ^ 3 + 3) || decide (x = 0 ∧ y = 0)

/-- `VerifyCheckOnCurve`, /repo/aggregator_lib_circuit.go:381-398. A failed `SetInterface` returns a nil pointer,
dereferenced by `Set`. -/
def VerifyCheckOnCurve (x y : Var) : Circ GoErr :=
  match setInterface x, setInterface y with
  | some a, some b => pure (if isOnCurve a b then none else errNotOnCurve)
  | _, _ => Circ.panic "nil pointer dereference"

/-- `VerifyCheckOnCurveVar`, /repo/aggregator_lib_circuit.go:409-423. Errors of `SetInterface` are ignored and the
coordinate stays 0. -/
def VerifyCheckOnCurveVar (x y : Var) : Circ GoErr :=
  pure (if isOnCurve ((setInterface x).getD 0) ((setInterface y).getD 0) then none else errNotOnCurve)

/-- `CheckOnCurveCircuit`, /repo/aggregator_lib_circuit.go:372-375. -/
structure CheckOnCurveCircuit where
  x : Var
  y : Var
/-- `CheckOnCurveCircuit.Define`, /repo/aggregator_lib_circuit.go:377-379. -/
def CheckOnCurveCircuit.Define (c : CheckOnCurveCircuit) : Circ GoErr := VerifyCheckOnCurve c.x c.y

/-- `CheckOnCurveCircuitVar`, /repo/aggregator_lib_circuit.go:400-403. -/
structure CheckOnCurveCircuitVar where
  x : Var
  y : Var
/-- `CheckOnCurveCircuitVar.Define`, /repo/aggregator_lib_circuit.go:405-407. -/
def CheckOnCurveCircuitVar.Define (c : CheckOnCurveCircuitVar) : Circ GoErr := VerifyCheckOnCurveVar c.x c.y

/-- `VerifyNotZero`, /repo/aggregator_lib_circuit.go:598-606. -/
def VerifyNotZero (x : Var) : Circ GoErr := do
  apiAssertIsLessOrEqual (.int 1) x
  pure none

/-- `VerifyRangeCheck`, /repo/aggregator_lib_circuit.go:614-618. -/
def VerifyRangeCheck (x min max : Var) : Circ GoErr := do
  apiAssertIsLessOrEqual min x
  apiAssertIsLessOrEqual x max
  pure none

/-- An `fp.Element` passed as a `frontend.Variable`: the engine converts it to its canonical integer and reduces
that modulo r. As in the assertions of /repo/aggregator_lib_circuit.go:60-61, 89-90. -/
def fpVar (x : Fp) : Var := .int x.val

/-- `VerifyBN256Msm`, /repo/aggregator_lib_circuit.go:52-63, on a point of the curve. gnark-crypto's
`ScalarMultiplication` writes its result to the receiver, which is the argument itself (line 58), so the caller's
point changes: the function also returns the new value of `*g1Point`. -/
def VerifyBN256Msm (g1Point : G1) (scalar : ℤ) (res : Aff) : Circ (GoErr × G1) := do
  let g := scalar • g1Point
  apiAssertIsEqual (fpVar (enc g).1) (fpVar res.1)
  apiAssertIsEqual (fpVar (enc g).2) (fpVar res.2)
  pure (none, g)

/-- `VerifyBN256Add`, /repo/aggregator_lib_circuit.go:82-92, on points of the curve; `Add` writes to `*g10Point`. -/
def VerifyBN256Add (g10Point g11Point : G1) (res : Aff) : Circ (GoErr × G1) := do
  let g := g10Point + g11Point
  apiAssertIsEqual (fpVar (enc g).1) (fpVar res.1)
  apiAssertIsEqual (fpVar (enc g).2) (fpVar res.2)
  pure (none, g)

/-- `BN256MsmCircuit`, /repo/aggregator_lib_circuit.go:36-41. -/
structure BN256MsmCircuit where
  g1Point : G1
  scalar : ℤ
  res : Aff
/-- `BN256MsmCircuit.Define`, lines 43-50; returns the circuit after the call.
/repo/aggregator_lib_circuit.go:43-50. -/
def BN256MsmCircuit.Define (c : BN256MsmCircuit) : Circ (GoErr × BN256MsmCircuit) := do
  let (e, g) ← VerifyBN256Msm c.g1Point c.scalar c.res
  pure (e, { c with g1Point := g })

/-- `BN256AddCircuit`, /repo/aggregator_lib_circuit.go:66-71. -/
structure BN256AddCircuit where
  g10Point : G1
  g11Point : G1
  res : Aff
/-- `BN256AddCircuit.Define`, lines 73-80; returns the circuit after the call.
/repo/aggregator_lib_circuit.go:73-80. -/
def BN256AddCircuit.Define (c : BN256AddCircuit) : Circ (GoErr × BN256AddCircuit) := do
  let (e, g) ← VerifyBN256Add c.g10Point c.g11Point c.res
  pure (e, { c with g10Point := g })

/-- Constant Fp element of a variable, or panic: the `SetInterface` + `panic(err)` pattern of lines 134-141.
/repo/aggregator_lib_circuit.go:134-141, 147-154, 221-228, 234-241, 247-254. -/
def setInterfaceOrPanic (v : Var) : Circ Fp := match setInterface v with
  | some x => pure x
  | none => Circ.panic "SetInterface"

/-- Interpret coordinates that passed `IsOnCurve` as a point of the group.
The points built at /repo/aggregator_lib_circuit.go:132-142, 219-242, after the check of line 142 or 229, 242. -/
def affPt (x y : Fp) : Option G1 :=
  if h : OnCurve x y then some (mkPt x y h) else if x = 0 ∧ y = 0 then some 0 else none

/-- `CalcVerifyBN256Msm1`, /repo/aggregator_lib_circuit.go:127-157 (not called by the verifier). -/
def CalcVerifyBN256Msm1 (x y k : Var) : Circ ((Var × Var) × GoErr) := do
  let result ← newHint .msmHint 2 [x, y, k]
  let gx ← setInterfaceOrPanic x
  let gy ← setInterfaceOrPanic y
  match affPt gx gy with
  | none => pure ((.nil, .nil), errNotOnCurve)
  | some g10 => do
    let r0 ← idx result 0
    let rx ← setInterfaceOrPanic r0
    let r1 ← idx result 1
    let ry ← setInterfaceOrPanic r1
    let kk ← asBigInt k
    let (err, _) ← VerifyBN256Msm g10 kk (rx, ry)
    pure ((.big rx.val, .big ry.val), err)

/-- `CalcVerifyBN256Add1`, /repo/aggregator_lib_circuit.go:215-257 (not called by the verifier). -/
def CalcVerifyBN256Add1 (x1 y1 x2 y2 : Var) : Circ ((Var × Var) × GoErr) := do
  let result ← newHint .addHint 2 [x1, y1, x2, y2]
  let gx ← setInterfaceOrPanic x1
  let gy ← setInterfaceOrPanic y1
  match affPt gx gy with
  | none => pure ((.nil, .nil), errNotOnCurve)
  | some g10 => do
    let hx ← setInterfaceOrPanic x2
    let hy ← setInterfaceOrPanic y2
    match affPt hx hy with
    | none => pure ((.nil, .nil), errNotOnCurve)
    | some g11 => do
      let r0 ← idx result 0
      let rx ← setInterfaceOrPanic r0
      let r1 ← idx result 1
      let ry ← setInterfaceOrPanic r1
      let (err, _) ← VerifyBN256Add g10 g11 (rx, ry)
      pure ((.big rx.val, .big ry.val), err)

end Verif
