/-
Model of the hash gadgets, SqueezeChallenge and GetChallengesShPlonkCircuit
(/repo/aggregator_lib_circuit.go) and of VerifyInstanceHash (/repo/circuit.go).
-/
import Verif.Model.Curve

namespace Verif

/-- The gadget computing a 32-byte hash of a list of `uints.U8` (gnark `sha2`, `sha3`): if the inputs are bytes the
outputs are the bytes of the digest; otherwise its constraints are not satisfied.
gnark, called at /repo/aggregator_lib_circuit.go:322-337, 354-369. -/
def hashGadget (h : List UInt8 → List UInt8) (ins : List Var) : Circ (List Var) := do
  let xs ← readBigs ins
  gadget (xs.all fun x => decide (0 ≤ x ∧ x < 256))
  let d := h (xs.map fun x => UInt8.ofNat x.toNat)
  (d.mapM fun b => mkRes true b.toNat)

/-- The loop `for i := range res { uapi.ByteAssertEq(hashValue[i], res[i]) }`,
/repo/aggregator_lib_circuit.go:334-336 and 366-368. -/
def byteAssertLoop (hashValue : List Var) : List Var → ℕ → Circ Unit
  | [], _ => pure ()
  | r :: rs, i => do
    let v ← idx hashValue i
    apiAssertIsEqual v r
    byteAssertLoop hashValue rs (i + 1)

/-- `VerifyKeccak256`, /repo/aggregator_lib_circuit.go:317-338. -/
def VerifyKeccak256 (X : Ext) (inputValue hashValue : List Var) : Circ GoErr := do
  let res ← hashGadget X.keccak inputValue
  byteAssertLoop hashValue res 0
  pure none

/-- `VerifySha256`, /repo/aggregator_lib_circuit.go:349-370. -/
def VerifySha256 (X : Ext) (inputValue hashValue : List Var) : Circ GoErr := do
  let res ← hashGadget X.sha256 inputValue
  byteAssertLoop hashValue res 0
  pure none

/-- `Keccak256Circuit`, /repo/aggregator_lib_circuit.go:308-311. -/
structure Keccak256Circuit where
  inputValue : List Var
  hashValue : List Var

/-- `Keccak256Circuit.Define`, /repo/aggregator_lib_circuit.go:313-315. -/
def Keccak256Circuit.Define (X : Ext) (c : Keccak256Circuit) : Circ GoErr := VerifyKeccak256 X c.inputValue c.hashValue

/-- `Sha256Circuit`, /repo/aggregator_lib_circuit.go:340-343. -/
structure Sha256Circuit where
  inputValue : List Var
  hashValue : List Var

/-- `Sha256Circuit.Define`, /repo/aggregator_lib_circuit.go:345-347. -/
def Sha256Circuit.Define (X : Ext) (c : Sha256Circuit) : Circ GoErr := VerifySha256 X c.inputValue c.hashValue

/-- `uints.NewU8Array`: constant bytes. Called at /repo/aggregator_lib_circuit.go:443-444. -/
def u8Array (l : List UInt8) : List Var := l.map fun b => .big b.toNat

/-- `binaryF.ByteValueOf(v)`: range check to 8 bits, returns the same variable.
Called at /repo/circuit.go:142, 146. -/
def byteValueOf (v : Var) : Circ Var := do
  let x ← readBig v
  emit v.isWire (decide (0 ≤ x ∧ x < 256))
  pure v

/-- `VerifyInstanceHash`, /repo/circuit.go:127-155. Hint outputs 1..32 are the claimed digest, the remaining ones the
claimed preimage; result 0 is not used. -/
def VerifyInstanceHash (X : Ext) (inputs : List Var) : Circ (Var × GoErr) := do
  let length := 32 * (inputs.length + 1)
  let result ← newHint .keccakHint (1 + length) inputs
  let hashU8 ← ((result.drop 1).take 32).mapM byteValueOf
  let inputU8 ← ((result.drop 33).take (length + 1 - 33)).mapM byteValueOf
  let err ← VerifyKeccak256 X inputU8 hashU8
  let v ← PackUInt8Variables ((result.drop 1).take 32)
  pure (v, err)

/-- The loop of `SqueezeChallenge`, /repo/aggregator_lib_circuit.go:435-439: the bytes of absorbing[i..length). -/
def absorbBytes (absorbing : List Var) : ℕ → ℕ → Circ (List UInt8)
  | 0, _ => pure []
  | n + 1, i => do
    let v ← idx absorbing i
    let x ← asBigInt v
    match fillBytes32 x with
    | none => Circ.panic "math/big: buffer too small to fit value"
    | some b => do
      let rest ← absorbBytes absorbing n (i + 1)
      pure (b ++ rest)

/-- `SqueezeChallenge`, /repo/aggregator_lib_circuit.go:425-453. Returns the challenge, the error and the updated
`absorbing`. -/
def SqueezeChallenge (X : Ext) (absorbing : List Var) (length : ℕ) : Circ ((Var × GoErr) × List Var) := do
  let absorbing ← setIdx absorbing length (.big 0)
  let bytes ← absorbBytes absorbing length 0
  let inputBytes := bytes ++ [0]
  let ethHashVal := X.sha256 inputBytes
  let err ← VerifySha256 X (u8Array inputBytes) (u8Array ethHashVal)
  match err with
  | some m => pure ((.nil, some m), absorbing)
  | none => do
    let absorbing ← setIdx absorbing 0 (.big (beNat ethHashVal))
    pure ((.big ((beNat ethHashVal : ℤ) % rMod), none), absorbing)

/-- One of the loops absorbing `n` points, e.g. /repo/aggregator_lib_circuit.go:469-480: check each point, then copy
its two coordinates. -/
def absorbPoints (transcript : List Var) : ℕ → List Var → ℕ → ℕ → Circ (GoErr × List Var)
  | 0, absorbing, _, _ => pure (none, absorbing)
  | n + 1, absorbing, pos, tpos => do
    let x ← idx transcript tpos
    let y ← idx transcript (tpos + 1)
    let err ← VerifyCheckOnCurve x y
    match err with
    | some m => pure (some m, absorbing)
    | none => do
      let x ← idx transcript tpos
      let absorbing ← setIdx absorbing pos x
      let y ← idx transcript (tpos + 1)
      let absorbing ← setIdx absorbing (pos + 1) y
      absorbPoints transcript n absorbing (pos + 2) (tpos + 2)

/-- The loop absorbing `n` scalars, /repo/aggregator_lib_circuit.go:555-559. -/
def absorbScalars (transcript : List Var) : ℕ → List Var → ℕ → ℕ → Circ (List Var)
  | 0, absorbing, _, _ => pure absorbing
  | n + 1, absorbing, pos, tpos => do
    let x ← idx transcript tpos
    let absorbing ← setIdx absorbing pos x
    absorbScalars transcript n absorbing (pos + 1) (tpos + 1)

/-- The seed of the transcript, /repo/aggregator_lib_circuit.go:461. -/
def absorb0 : ℕ := 8025805240938309707562879759498205008153592202559235423490485577859843831056

/-- Squeeze into slot `slot` of `buf`: `buf[slot], err = SqueezeChallenge(api, absorbing, pos)`.
The squeezes of `GetChallengesShPlonkCircuit`, /repo/aggregator_lib_circuit.go:455-596. -/
def squeezeTo (X : Ext) (buf absorbing : List Var) (slot pos : ℕ) : Circ (GoErr × List Var × List Var) := do
  let ((c, err), absorbing) ← SqueezeChallenge X absorbing pos
  let buf ← setIdx buf slot c
  pure (err, buf, absorbing)

/-- `GetChallengesShPlonkCircuit`, /repo/aggregator_lib_circuit.go:455-596. Returns the error and the updated `buf`.
`step n slot` abbreviates one block "absorb n points, squeeze into buf[slot]". -/
def GetChallengesShPlonkCircuit (X : Ext) (buf transcript : List Var) : Circ (GoErr × List Var) := do
  let absorbing : List Var := List.replicate 112 .nil
  let absorbing ← setIdx absorbing 0 (.big absorb0)
  let b0 ← idx buf 0
  let absorbing ← setIdx absorbing 1 b0
  let b1 ← idx buf 1
  let absorbing ← setIdx absorbing 2 b1
  -- theta: lines 469-487
  let (err, absorbing) ← absorbPoints transcript 8 absorbing 3 0
  match err with | some m => pure (some m, buf) | none => do
  let (err, buf, absorbing) ← squeezeTo X buf absorbing 2 19
  match err with | some m => pure (some m, buf) | none => do
  -- beta: lines 489-507
  let (err, absorbing) ← absorbPoints transcript 4 absorbing 1 16
  match err with | some m => pure (some m, buf) | none => do
  let (err, buf, absorbing) ← squeezeTo X buf absorbing 3 9
  match err with | some m => pure (some m, buf) | none => do
  -- gamma: lines 509-514
  let (err, buf, absorbing) ← squeezeTo X buf absorbing 4 1
  match err with | some m => pure (some m, buf) | none => do
  -- y: lines 516-533
  let (err, absorbing) ← absorbPoints transcript 7 absorbing 1 24
  match err with | some m => pure (some m, buf) | none => do
  let (err, buf, absorbing) ← squeezeTo X buf absorbing 5 15
  match err with | some m => pure (some m, buf) | none => do
  -- x: lines 535-552
  let (err, absorbing) ← absorbPoints transcript 3 absorbing 1 38
  match err with | some m => pure (some m, buf) | none => do
  let (err, buf, absorbing) ← squeezeTo X buf absorbing 6 7
  match err with | some m => pure (some m, buf) | none => do
  -- y (second): lines 554-564
  let absorbing ← absorbScalars transcript 56 absorbing 1 44
  let (err, buf, absorbing) ← squeezeTo X buf absorbing 7 57
  match err with | some m => pure (some m, buf) | none => do
  -- v: lines 566-571
  let (err, buf, absorbing) ← squeezeTo X buf absorbing 8 1
  match err with | some m => pure (some m, buf) | none => do
  -- u: lines 573-588
  let (err, absorbing) ← absorbPoints transcript 1 absorbing 1 100
  match err with | some m => pure (some m, buf) | none => do
  let (err, buf, _) ← squeezeTo X buf absorbing 9 3
  match err with | some m => pure (some m, buf) | none => do
  -- last point: lines 590-593
  let x ← idx transcript 102
  let y ← idx transcript 103
  let err ← VerifyCheckOnCurve x y
  pure (err, buf)

end Verif
