/-
External functions used by the repo (`Ext`), and the hint functions of the repo.
-/
import Verif.Model.Fr
import Verif.Model.Strings

namespace Verif

/-- Affine coordinates in Fp, (0,0) for infinity (gnark and gnark-crypto convention).
Library types, used at /repo/aggregator_lib_circuit.go:104-125, 179-213. -/
abbrev Aff := Fp × Fp
/-- Coordinates a0 + a1·u of Fp2. The type of the G2 constants of /repo/pairing_circuit.go:69-106. -/
abbrev Fp2 := Fp × Fp
/-- Affine point of the twist. The type of the G2 constants of /repo/pairing_circuit.go:69-106. -/
abbrev Aff2 := Fp2 × Fp2

/-- An ECDSA instance as seen by `pubKey.Verify`: public key, message, signature (values of the emulated elements).
/repo/kyc.go:48-53. -/
structure EcdsaInst where
  x : ℕ
  y : ℕ
  msg : ℕ
  r : ℕ
  s : ℕ

/-- External code that the repo calls and that is not modelled further: hash functions, gnark's emulated curve
gadgets, pairing and ECDSA gadgets. `none` means that the gadget's own constraints are not satisfied.
Called at /repo/aggregator_lib_circuit.go:104-125, 179-213, 322-337, 354-370, 441, /repo/msm.go:52-157, /repo/pairing_circuit.go:38, /repo/circuit.go:157-184. -/
structure Ext where
  sha256 : List UInt8 → List UInt8
  keccak : List UInt8 → List UInt8
  /-- `sw_emulated.Curve.ScalarMul` on BN254 -/
  scalarMul : Aff → Fr → Option Aff
  /-- `sw_emulated.Curve.AddUnified` on BN254 -/
  addUnified : Aff → Aff → Option Aff
  /-- `sw_emulated.Curve.MultiScalarMul` on BN254, equal lengths -/
  msm : List Aff → List Fr → Option Aff
  /-- `sw_bn254.Pairing.PairingCheck`, equal lengths -/
  pairing : List Aff → List Aff2 → Bool
  /-- `ecdsa.PublicKey.Verify` on secp256k1 -/
  ecdsa : EcdsaInst → Bool

/-- `FillBytes(make([]byte, 32))`: absolute value, panics (`none`) if it needs more than 32 bytes.
Called at /repo/aggregator_lib_circuit.go:109-111, 185-198, 437. -/
def fillBytes32 (n : ℤ) : Option (List UInt8) :=
  if n.natAbs < 2 ^ 256 then some (beBytes n.natAbs 32) else none

/-- go-ethereum `bn256.G1.Unmarshal`: 64 bytes; coordinates must be below p; (0,0) is infinity; otherwise the
point must be on the curve. `none` is a Go error.
Called at /repo/aggregator_lib_circuit.go:114, 190, 201. -/
def bn256Unmarshal (blob : List UInt8) : Option G1 :=
  if blob.length < 64 then none
  else
    let x := beNat (blob.take 32)
    let y := beNat ((blob.drop 32).take 32)
    if x < pMod ∧ y < pMod then
      if x = 0 ∧ y = 0 then some 0
      else if h : OnCurve (x : Fp) (y : Fp) then some (mkPt _ _ h) else none
    else none

/-- Affine coordinates printed by `bn256.G1.String`: `MakeAffine` turns infinity into (0, 1). Called at
/repo/aggregator_lib_circuit.go:121 and 209. -/
noncomputable def bn256Affine (P : G1) : ℕ × ℕ :=
  open Classical in if P = 0 then (0, 1) else ((enc P).1.val, (enc P).2.val)

/-- go-ethereum `bn256.G1.String`, called at /repo/aggregator_lib_circuit.go:121 and 209. -/
noncomputable def bn256String (P : G1) : List Char := g1String (bn256Affine P).1 (bn256Affine P).2

/-- Lines 120-123 and 208-211 of /repo/aggregator_lib_circuit.go: print the point, parse the string, convert the
decimals back. The error of `extractAndConvert` is ignored; a failed `SetString` leaves a nil result, on which
the engine panics. -/
noncomputable def pointResults (P : G1) : HintRes :=
  match extractAndConvert (bn256String P) with
  | none => .panic
  | some (xs, ys) => match parseDec xs, parseDec ys with
    | some x, some y => .ok [(x : ℤ), (y : ℤ)]
    | _, _ => .panic

/-- `MsmHint`, /repo/aggregator_lib_circuit.go:104-125. -/
noncomputable def MsmHint : List ℤ → HintRes
  | [a, b, k] => match fillBytes32 a, fillBytes32 b with
    | some b0, some b1 => match bn256Unmarshal (b0 ++ b1) with
      | none => .err
      | some P => pointResults (k • P)
    | _, _ => .panic
  | _ => .panic

/-- `AddHint`, /repo/aggregator_lib_circuit.go:179-213. -/
noncomputable def AddHint : List ℤ → HintRes
  | [a, b, c, d] => match fillBytes32 a, fillBytes32 b with
    | some b0, some b1 => match bn256Unmarshal (b0 ++ b1) with
      | none => .err
      | some P => match fillBytes32 c, fillBytes32 d with
        | some b2, some b3 => match bn256Unmarshal (b2 ++ b3) with
          | none => .err
          | some Q => pointResults (P + Q)
        | _, _ => .panic
    | _, _ => .panic
  | _ => .panic

/-- `fp.Element.SetBigInt(n).Bytes()`: the 32 bytes of n mod p. Called at /repo/circuit.go:160-161. -/
def fpBytes (n : ℤ) : List UInt8 := beBytes ((n : Fp)).val 32

/-- `Keccak256Hint`, /repo/circuit.go:157-184. `nOut` is the length of the results slice (an assignment past the
end panics; entries not assigned stay 0). -/
def Keccak256Hint (X : Ext) (nOut : ℕ) (ins : List ℤ) : HintRes :=
  let hashBuf := ins.flatMap fpBytes
  let h := X.keccak hashBuf
  let outs : List ℤ := (beNat h : ℤ) :: (h.map fun b => (b.toNat : ℤ)) ++ (hashBuf.map fun b => (b.toNat : ℤ))
  if nOut < outs.length then .panic else .ok outs

/-- `toBytes`, /repo/hash.go:26-47, for inputs `ins` and `nOut` result slots. -/
def toBytes (nOut : ℕ) (ins : List ℤ) : HintRes :=
  if ins.length ≠ 1 then .err
  else if nOut ≠ 32 then .err
  else match ins[1]? with
    | none => .panic
    | some n =>
      if ¬ (0 ≤ n ∧ n < 2 ^ 64) then .err
      else match ins[0]? with
        | none => .panic
        | some m => if m.natAbs < 2 ^ 256 then .ok ((List.range 32).map fun i => n / 2 ^ (8 * i) % 256) else .panic

/-- `ValueOf`, /repo/hash.go:11-24: `32 * len(a)` zero-valued `uints.U8` (their `Val` is a nil interface). -/
def ValueOf (a : List Var) : List Var := List.replicate (32 * a.length) .nil

/-- The honest hint strategy: run the hint functions of the repo.
The functions passed to `NewHint` at /repo/fr.go:58, /repo/circuit.go:129 and in /repo/aggregator_lib_circuit.go. -/
noncomputable def honest (X : Ext) : HintId → ℕ → ℕ → List ℤ → HintRes
  | .modHint, _, _, ins => modHint ins
  | .msmHint, _, _, ins => MsmHint ins
  | .addHint, _, _, ins => AddHint ins
  | .keccakHint, _, n, ins => Keccak256Hint X n ins
  | .toBytes, _, n, ins => toBytes n ins

/-- Hints registered with the solver by `init`, /repo/aggregator_lib_circuit.go:29-33. -/
def registeredHints : List HintId := [.msmHint, .addHint, .keccakHint]

end Verif
