/-
Model of /repo/kyc.go.
-/
import Verif.Model.Curve

namespace Verif

/-- `Conditions`, /repo/kyc.go:12-17. -/
structure Conditions where
  ageMin : Var
  ageMax : Var
  country : List Var
  level : List Var
  time : List Var

/-- `KycType`, /repo/kyc.go:19-24. -/
structure KycType where
  age : Var
  country : Var
  level : Var
  time : Var

/-- `Circuit`, /repo/kyc.go:26-31; the emulated elements are represented by their values. -/
structure KycCircuit where
  sigR : ℕ
  sigS : ℕ
  kycHash : ℕ
  kyc : KycType
  conditionHash : Conditions

/-- The fixed public key, first coordinate, /repo/kyc.go:37-46. -/
def kycKeyX : ℕ := 85997066971194522473057012223499312995837068047270353161199320975157154592866
/-- The fixed public key, second coordinate. /repo/kyc.go:42-45. -/
def kycKeyY : ℕ := 40070151623224504185408656535330873345235311800089295101492157067180406840001

/-- The loop of `Define`, /repo/kyc.go:60-63. -/
def countryLoop (c : Var) : List Var → Var → Circ Var
  | [], isInList => pure isInList
  | country :: rest, isInList => do
    let d ← apiSub c country
    let m ← apiIsZero d
    let isInList ← apiOr isInList m
    countryLoop c rest isInList

/-- `Circuit.Define`, /repo/kyc.go:36-67. -/
def KycCircuit.Define (X : Ext) (c : KycCircuit) : Circ GoErr := do
  gadget (X.ecdsa ⟨kycKeyX, kycKeyY, c.kycHash, c.sigR, c.sigS⟩)
  let err ← VerifyRangeCheck c.kyc.age c.conditionHash.ageMin c.conditionHash.ageMax
  match err with
  | some m => pure (some m)
  | none => do
    let isInList ← countryLoop c.kyc.country c.conditionHash.country (.int 0)
    apiAssertIsEqual isInList (.int 1)
    pure none

end Verif
