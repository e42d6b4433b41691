/-
ECDSA verification on secp256k1 (SEC 1, section 4.1.4), the specification of the signature gadget that
/repo/kyc.go:54 calls. The gadget itself (gnark `std/signature/ecdsa`) is not modelled: it is the field `ecdsa` of
`Ext`, and `Ext.EcdsaLaw` is the contract the theorems about real signatures assume of it.
-/
import Verif.Model.Hints
import Verif.Math.SecpOrder

namespace Verif

open Secp in
/-- The point (msg/s)·G + (r/s)·Q computed by the verifier, for the public key Q. -/
def sigPoint (Q : Secp.G1) (msg r s : ℕ) : Secp.G1 :=
  ((msg : Fn) / (s : Fn)).val • gen + ((r : Fn) / (s : Fn)).val • Q

/-- A signature accepted by ECDSA: r and s are in [1, n−1], the key is a point of the curve, and the first coordinate of
the verifier's point is r modulo n. -/
def EcdsaInst.Valid (i : EcdsaInst) : Prop :=
  0 < i.r ∧ i.r < Secp.nMod ∧ 0 < i.s ∧ i.s < Secp.nMod ∧ i.x < Secp.pMod ∧ i.y < Secp.pMod ∧
  ∃ h : Secp.OnCurve (i.x : Secp.Fp) (i.y : Secp.Fp),
    sigPoint (Secp.mkPt _ _ h) i.msg i.r i.s ≠ 0 ∧
    (Secp.enc (sigPoint (Secp.mkPt _ _ h) i.msg i.r i.s)).1.val % Secp.nMod = i.r

/-- As `Valid`, with the first coordinate equal to r itself. The two differ only when the coordinate lies in [n, p), a
fraction of about 2⁻¹²⁸ of the points; gnark's gadget compares the bits of the two numbers. -/
def EcdsaInst.Exact (i : EcdsaInst) : Prop :=
  0 < i.r ∧ i.r < Secp.nMod ∧ 0 < i.s ∧ i.s < Secp.nMod ∧ i.x < Secp.pMod ∧ i.y < Secp.pMod ∧
  ∃ h : Secp.OnCurve (i.x : Secp.Fp) (i.y : Secp.Fp),
    sigPoint (Secp.mkPt _ _ h) i.msg i.r i.s ≠ 0 ∧
    (Secp.enc (sigPoint (Secp.mkPt _ _ h) i.msg i.r i.s)).1.val = i.r

theorem EcdsaInst.Exact.valid {i : EcdsaInst} (h : i.Exact) : i.Valid := by
  obtain ⟨h1, h2, h3, h4, h5, h6, hc, h7, h8⟩ := h
  exact ⟨h1, h2, h3, h4, h5, h6, hc, h7, by rw [h8, Nat.mod_eq_of_lt h2]⟩

/-- The contract of the signature gadget: it accepts only valid signatures, and every signature whose r is the
coordinate itself. -/
structure Ext.EcdsaLaw (X : Ext) : Prop where
  sound : ∀ i, X.ecdsa i = true → i.Valid
  complete : ∀ i : EcdsaInst, i.Exact → X.ecdsa i = true

end Verif
