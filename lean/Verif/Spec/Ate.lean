/-
The optimal ate pairing of BN254, in textbook form (Vercauteren; Beuchat et al.): Miller's algorithm in affine coordinates
on the twist, two Frobenius steps and the final exponentiation. A definition of the external function that
/repo/pairing_circuit.go calls (gnark `sw_bn254.Pairing.PairingCheck`); used by C49 and C69.
-/
import Verif.Model.Pairing
import Mathlib.RingTheory.AdjoinRoot

namespace Verif
open Polynomial

/-- The polynomial that defines Fp12 = Fp(w): w⁶ = 9 + u with u² = -1. -/
noncomputable def fp12Poly : Fp[X] := X ^ 12 - 18 * X ^ 6 + 82

/-- Fp12. -/
abbrev Fp12 := AdjoinRoot fp12Poly

namespace Ate

/-! ### Fp2 -/

/-- a - b. -/
def sub2 (a b : Fp2) : Fp2 := (a.1 - b.1, a.2 - b.2)
/-- k·a for k in Fp. -/
def scale2 (k : Fp) (a : Fp2) : Fp2 := (k * a.1, k * a.2)
/-- The conjugate a0 - a1·u, which is also the p-th power. -/
def conj2 (a : Fp2) : Fp2 := (a.1, -a.2)
/-- The inverse: conjugate over norm. -/
def inv2 (a : Fp2) : Fp2 := scale2 (a.1 ^ 2 + a.2 ^ 2)⁻¹ (conj2 a)
/-- Powers. -/
def pow2 (a : Fp2) : ℕ → Fp2
  | 0 => (1, 0)
  | k + 1 => Fp2.mul (pow2 a k) a
/-- The sextic non-residue 9 + u. -/
def ξ : Fp2 := (9, 1)

/-! ### The twist y² = x³ + 3/ξ -/

/-- Slope of the tangent at A. -/
def tangent (A : Aff2) : Fp2 := Fp2.mul (scale2 3 (Fp2.mul A.1 A.1)) (inv2 (scale2 2 A.2))
/-- Slope of the chord through A and B. -/
def chord (A B : Aff2) : Fp2 := Fp2.mul (sub2 B.2 A.2) (inv2 (sub2 B.1 A.1))
/-- The sum of A and B, for the slope `l` of the line through them. -/
def third (l : Fp2) (A B : Aff2) : Aff2 :=
  let x := sub2 (sub2 (Fp2.mul l l) A.1) B.1
  (x, sub2 (Fp2.mul l (sub2 A.1 x)) A.2)
/-- The p-power Frobenius of E(Fp12), on the twist. -/
def frob (A : Aff2) : Aff2 :=
  (Fp2.mul (conj2 A.1) (pow2 ξ ((pMod - 1) / 3)), Fp2.mul (conj2 A.2) (pow2 ξ ((pMod - 1) / 2)))
/-- The opposite point. -/
def neg (A : Aff2) : Aff2 := (A.1, sub2 (0, 0) A.2)

/-! ### Miller's algorithm -/

/-- The generator w of Fp12. -/
noncomputable def w : Fp12 := AdjoinRoot.root fp12Poly
/-- An element of Fp in Fp12. -/
noncomputable def emb (a : Fp) : Fp12 := algebraMap Fp Fp12 a
/-- An element of Fp2 in Fp12: u = w⁶ - 9. -/
noncomputable def emb2 (a : Fp2) : Fp12 := emb a.1 + emb a.2 * (w ^ 6 - 9)

/-- Value at P of the line of slope `l` through A; a point (x, y) of the twist is (x w², y w³) on the curve. -/
noncomputable def line (l : Fp2) (A : Aff2) (P : Aff) : Fp12 :=
  (emb P.2 - emb2 A.2 * w ^ 3) - emb2 l * w * (emb P.1 - emb2 A.1 * w ^ 2)

/-- One iteration: square and double, and add Q if the bit is set. -/
noncomputable def step (P : Aff) (Q : Aff2) (s : Aff2 × Fp12) (bit : Bool) : Aff2 × Fp12 :=
  let T := third (tangent s.1) s.1 s.1
  let f := s.2 ^ 2 * line (tangent s.1) s.1 P
  if bit then (third (chord T Q) T Q, f * line (chord T Q) T P) else (T, f)

/-- 6x + 2 for the BN254 parameter x = 4965661367192848881. -/
def loopCount : ℕ := 6 * 4965661367192848881 + 2

/-- The bits of 6x + 2 below the top one, from the top. -/
def loopBits : List Bool := ((List.range 64).map fun i => loopCount.testBit i).reverse

/-- The Miller function of P and Q. -/
noncomputable def miller (P : Aff) (Q : Aff2) : Fp12 :=
  let s := loopBits.foldl (step P Q) (Q, 1)
  let Q1 := frob Q
  let Q2 := neg (frob Q1)
  let T := third (chord s.1 Q1) s.1 Q1
  s.2 * line (chord s.1 Q1) s.1 P * line (chord T Q2) T P

open Classical in
/-- The pairing of P and Q; 1 if one of them is infinity, encoded as zeros. -/
noncomputable def pairing (P : Aff) (Q : Aff2) : Fp12 :=
  if P = (0, 0) ∨ Q = ((0, 0), (0, 0)) then 1 else miller P Q ^ ((pMod ^ 12 - 1) / rMod)

open Classical in
/-- Does the product of the pairings equal 1? -/
noncomputable def check (Ps : List Aff) (Qs : List Aff2) : Bool := decide ((List.zipWith pairing Ps Qs).prod = 1)

end Ate
end Verif
