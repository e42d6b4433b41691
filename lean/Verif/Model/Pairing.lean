/-
Model of /repo/pairing_circuit.go.
-/
import Verif.Model.Curve

namespace Verif

/-! Fp2 = Fp[u]/(u² + 1), as pairs a0 + a1·u (gnark-crypto `E2`). -/

/-- Product. (For the twist equation of the constants of /repo/pairing_circuit.go:69-106.) -/
def Fp2.mul (a b : Fp2) : Fp2 := (a.1 * b.1 - a.2 * b.2, a.1 * b.2 + a.2 * b.1)
/-- Sum. (For the twist equation of the constants of /repo/pairing_circuit.go:69-106.) -/
def Fp2.add (a b : Fp2) : Fp2 := (a.1 + b.1, a.2 + b.2)

/-- Twist coefficient used by gnark-crypto's `G2Jac.IsOnCurve` (3/(9+u)).
Library value, used at /repo/pairing_circuit.go:94, 108. -/
def twistB : Fp2 :=
  ((19485874751759354771024239261021720505790618469301721065564631296452457478373 : ℕ),
   (266929791119991161246907387137283842545076965332900288569378510910307636690 : ℕ))

/-- gnark-crypto `bn254.G2Jac.IsOnCurve` for Z = 1: Y² = X³ + b'.
Called at /repo/pairing_circuit.go:94, 108. -/
def isOnTwist (P : Aff2) : Bool :=
  decide (Fp2.mul P.2 P.2 = Fp2.add (Fp2.mul P.1 (Fp2.mul P.1 P.1)) twistB)

/-- The point `g20`, /repo/pairing_circuit.go:84-93 (Z = 1, so the affine coordinates are X, Y). -/
def g20 : Aff2 :=
  (((13560776910958896778309428450808722712362583089620853136731412215646945297830 : ℕ),
    (17006984783035916014836003241042945838018391379603479329912940809520477208052 : ℕ)),
   ((18091431719069275340788954644764755415339503689597559484185985670418402491565 : ℕ),
    (12900589361605111856143562381318004229723309245412571888359653960504992734777 : ℕ)))

/-- The point `g21`, /repo/pairing_circuit.go:98-107. -/
def g21 : Aff2 :=
  (((10857046999023057135944570762232829481370756359578518086990519993285655852781 : ℕ),
    (11559732032986387107991004021392285783925812861821192530917403151452391805634 : ℕ)),
   ((13392588948715843804641432497768002650278120570034223513918757245338268106653 : ℕ),
    (17805874995975841540914202342111839520379459829704422454583296818431106115052 : ℕ)))

/-- `GetVerifyCircuitsG2Jac`, /repo/pairing_circuit.go:83-113. -/
def GetVerifyCircuitsG2Jac : Circ (Aff2 × Aff2) :=
  if isOnTwist g20 = false then Circ.panic "is not on Curve"
  else if isOnTwist g21 = false then Circ.panic "is not on Curve"
  else pure (g20, g21)

/-- `BN256PairingCircuit`, /repo/pairing_circuit.go:13-17. -/
structure BN256PairingCircuit where
  g1Points : List Aff
  g2Points : List Aff2

/-- `FillVerifyCircuitsG1`, /repo/pairing_circuit.go:48-67: returns the new value of `c`. -/
def FillVerifyCircuitsG1 (c : BN256PairingCircuit) (x1 y1 x2 y2 : Var) : Circ BN256PairingCircuit :=
  match setInterface x1, setInterface y1 with
  | some a1, some b1 =>
    if isOnCurve a1 b1 then
      match setInterface x2, setInterface y2 with
      | some a2, some b2 =>
        if isOnCurve a2 b2 then pure { c with g1Points := [(a1, b1), (a2, b2)] } else Circ.panic "g11"
      | _, _ => Circ.panic "g11"
    else Circ.panic "g10"
  | _, _ => Circ.panic "g10"

/-- `FillVerifyCircuitsG2`, /repo/pairing_circuit.go:69-81. `FromJacobian` is the identity on Z = 1. -/
def FillVerifyCircuitsG2 (c : BN256PairingCircuit) : Circ BN256PairingCircuit := do
  let (a, b) ← GetVerifyCircuitsG2Jac
  pure { c with g2Points := [a, b] }

/-- `VerifyBN256Pairing`, /repo/pairing_circuit.go:28-46. `NewPairing` does not fail; `PairingCheck` returns an error
on empty or mismatching inputs, otherwise it emits the constraints of the pairing check. -/
def VerifyBN256Pairing (X : Ext) (g1Points : List Aff) (g2Points : List Aff2) : Circ GoErr :=
  if g1Points.length = 0 ∨ g1Points.length ≠ g2Points.length then pure (some "pair: invalid inputs sizes")
  else do
    gadget (X.pairing g1Points g2Points)
    pure none

/-- `BN256PairingCircuit.Define`, /repo/pairing_circuit.go:20-26. -/
def BN256PairingCircuit.Define (X : Ext) (c : BN256PairingCircuit) : Circ GoErr :=
  VerifyBN256Pairing X c.g1Points c.g2Points

end Verif
