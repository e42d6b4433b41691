/-
The verifier of the aggregation proof system as a whole, in terms of the group, the field and two hash functions.
Models nothing of /repo.
-/
import Verif.Spec.Layout
import Verif.Spec.Transcript

namespace Verif
namespace Halo2

/-- The eight Fiat–Shamir digests, reduced modulo r, as challenges. -/
def Challenges.ofDigests (d : List ℕ) : Challenges where
  θ := (d.getD 0 0 : ℕ)
  β := (d.getD 1 0 : ℕ)
  γ := (d.getD 2 0 : ℕ)
  y := (d.getD 3 0 : ℕ)
  x := (d.getD 4 0 : ℕ)
  y' := (d.getD 5 0 : ℕ)
  v := (d.getD 6 0 : ℕ)
  u := (d.getD 7 0 : ℕ)

/-- The commitment of the instance polynomial with the single value `k`. -/
noncomputable def instCommitment (k : Fr) : G1 := k • vkInstance

/-- The challenges for instance commitment `I` and proof words `t`. -/
def challengesFor (sha : List UInt8 → List UInt8) (I : G1) (t : List ℕ) : Challenges :=
  .ofDigests (fsDigests sha fsSeed (fsBlocks (enc I).1.val (enc I).2.val t))

/-- The relations that define the Lagrange values used by the verifier, with denominators cleared. -/
structure LagrangeRelations (x : Fr) (L : LagrangeVals) : Prop where
  zero : L.zero * (x - 1) = 1 / n * (x ^ n - 1)
  neg : ∀ k : ℕ, 1 ≤ k → k ≤ 6 → L.neg k * (x - ω ^ (-(k : ℤ))) = ω ^ (-(k : ℤ)) / n * (x ^ n - 1)

/-- The value of the quotient polynomial at x that the evaluations imply. -/
noncomputable def quotientValue (c : Challenges) (e : Evals) : Fr :=
  combine c.y (constraints c (.at c.x) e) / (c.x ^ n - 1)

/-- The 21 values the prover supplies beside the proof: inverses of differences of rotated points, the inverse of the
denominator of the weights, the Lagrange values l_0, l_(-6), …, l_(-1), the quotient value, and four more inverses. -/
noncomputable def auxValues (c : Challenges) (e : Evals) : List Fr :=
  [(ω ^ (-6 : ℤ) * c.x - c.x)⁻¹, (ω ^ (-6 : ℤ) * c.x - ω * c.x)⁻¹, (c.x - ω ^ (-6 : ℤ) * c.x)⁻¹, (c.x - ω * c.x)⁻¹,
    (ω * c.x - ω ^ (-6 : ℤ) * c.x)⁻¹, (ω * c.x - c.x)⁻¹, (ω ^ (-1 : ℤ) * c.x - c.x)⁻¹, (c.x - ω ^ (-1 : ℤ) * c.x)⁻¹,
    (vanish (points c.x [2, -1]) c.u)⁻¹, lagrange 0 c.x, lagrange (n - 6) c.x, lagrange (n - 5) c.x, lagrange (n - 4) c.x,
    lagrange (n - 3) c.x, lagrange (n - 2) c.x, lagrange (n - 1) c.x, quotientValue c e,
    (c.x - ω ^ (2 : ℤ) * c.x)⁻¹, (ω * c.x - ω ^ (2 : ℤ) * c.x)⁻¹, (ω ^ (2 : ℤ) * c.x - c.x)⁻¹,
    (ω ^ (2 : ℤ) * c.x - ω * c.x)⁻¹]

/-- The relations the 21 supplied values have to satisfy: each is the result of a division whose denominator and
numerator the verifier computes. `a i` is the i-th value. -/
structure AuxRelations (c : Challenges) (e : Evals) (a : ℕ → Fr) : Prop where
  i0 : (ω ^ (-6 : ℤ) * c.x - c.x) * a 0 = 1
  i1 : (ω ^ (-6 : ℤ) * c.x - ω * c.x) * a 1 = 1
  i2 : (c.x - ω ^ (-6 : ℤ) * c.x) * a 2 = 1
  i3 : (c.x - ω * c.x) * a 3 = 1
  i4 : (ω * c.x - ω ^ (-6 : ℤ) * c.x) * a 4 = 1
  i5 : (ω * c.x - c.x) * a 5 = 1
  i6 : (ω ^ (-1 : ℤ) * c.x - c.x) * a 6 = 1
  i7 : (c.x - ω ^ (-1 : ℤ) * c.x) * a 7 = 1
  i8 : vanish (points c.x [2, -1]) c.u * a 8 = 1
  lagrange : LagrangeRelations c.x (lagrangeOf a)
  quotient : QuotientIdentity c (lagrangeOf a) e (a 16)
  i17 : (c.x - ω ^ (2 : ℤ) * c.x) * a 17 = 1
  i18 : (ω * c.x - ω ^ (2 : ℤ) * c.x) * a 18 = 1
  i19 : (ω ^ (2 : ℤ) * c.x - c.x) * a 19 = 1
  i20 : (ω ^ (2 : ℤ) * c.x - ω * c.x) * a 20 = 1

/-- The terms of the SHPLONK combination, in the order in which this verifier adds them up: `wi`, `ws`, `wn`, `ww` are the
weights of the last four rotation sets, `R` the combined value, `cW` the coefficient of W, `xn` = x^n. -/
noncomputable def termList (y v wi ws wn ww R cW u xn : Fr) (C : Commitments) : List (Fr × G1) :=
  [(R, -G1gen),
   (v ^ 2 * ws * y ^ 28, C.a 0),
   (v ^ 2 * ws * y ^ 27, C.a 1),
   (v ^ 2 * ws * y ^ 26, C.a 2),
   (v ^ 2 * ws * y ^ 25, C.a 3),
   (v * wn * y ^ 3, C.a 4),
   (v ^ 2 * ws * y ^ 24, C.a 5),
   (ww * y, C.a 6),
   (ww, C.a 7),
   (v ^ 2 * ws * y ^ 19, vkFixed 2),
   (v ^ 2 * ws * y ^ 18, vkFixed 3),
   (v ^ 2 * ws * y ^ 12, vkFixed 9),
   (v ^ 2 * ws * y ^ 11, vkFixed 10),
   (v ^ 2 * ws * y ^ 10, vkFixed 11),
   (v ^ 2 * ws * y ^ 17, vkFixed 4),
   (v ^ 2 * ws * y ^ 16, vkFixed 5),
   (v ^ 2 * ws * y ^ 15, vkFixed 6),
   (v ^ 2 * ws * y ^ 14, vkFixed 7),
   (v ^ 2 * ws * y ^ 13, vkFixed 8),
   (v ^ 2 * ws * y ^ 20, vkFixed 1),
   (v ^ 2 * ws * y ^ 21, vkFixed 0),
   (v ^ 2 * ws * y ^ 9, vkFixed 12),
   (cW, C.W),
   (u, C.W'),
   (v ^ 2 * ws * y * xn ^ 2, C.h 2),
   (v ^ 2 * ws * y * xn, C.h 1),
   (v ^ 2 * ws * y, C.h 0),
   (v ^ 2 * ws * y ^ 29, C.inst),
   (v ^ 3 * wi * y, C.permA 0),
   (v ^ 2 * ws * y ^ 23, C.permS 0),
   (v * wn * y, C.Z 0),
   (v ^ 3 * wi, C.permA 1),
   (v ^ 2 * ws * y ^ 22, C.permS 1),
   (v * wn, C.Z 1),
   (v ^ 2 * ws * y ^ 8, vkSigma 0),
   (v ^ 2 * ws * y ^ 7, vkSigma 1),
   (v ^ 2 * ws * y ^ 6, vkSigma 2),
   (v ^ 2 * ws * y ^ 5, vkSigma 3),
   (v ^ 2 * ws * y ^ 4, vkSigma 4),
   (v ^ 2 * ws * y ^ 3, vkSigma 5),
   (v ^ 2 * ws * y ^ 2, vkSigma 6),
   (v ^ 4 * y ^ 2, C.z 0),
   (v ^ 4 * y, C.z 1),
   (v ^ 4, C.z 2),
   (v * wn * y ^ 2, C.z 3),
   (v ^ 2 * ws, C.random)]

/-- The 46 scalar multiples whose sum is the opening. -/
noncomputable def openingTerms (c : Challenges) (C : Commitments) (e : Evals) (h : Fr) : List (Fr × G1) :=
  termList c.y' c.v ((inputSet C e).weight c) ((singleSet c C e h).weight c) ((nextSet C e).weight c)
    ((nextNextSet C e).weight c) (combine c.v ((rotSets c C e h).map fun S => S.weight c * S.value c))
    (-vanish (points c.x firstRots) c.u) c.u (c.x ^ n) C

/-- A point whose coordinates can be stored as numbers below r: finite, with both coordinates (which are numbers
below p) below r. -/
def Representable (P : G1) : Prop := P ≠ 0 ∧ (enc P).1.val < rMod ∧ (enc P).2.val < rMod

/-- The sum of the first `m` terms. -/
noncomputable def partialSum (l : List (Fr × G1)) (m : ℕ) : G1 := ((l.take m).map fun p => p.1 • p.2).sum

/-- No special case of the curve arithmetic occurs in the computation of the opening, and every intermediate point can be
stored. -/
structure GoodTerms (l : List (Fr × G1)) : Prop where
  scalar : ∀ p ∈ l, p.1 ≠ 0
  point : ∀ p ∈ l, p.2 ≠ 0
  product : ∀ p ∈ l, Representable (p.1 • p.2)
  sums : ∀ m, 1 ≤ m → m ≤ l.length → Representable (partialSum l m)

/-- What the verifier checks of a proof with words `t`, points `p` and scalars `f` (by position) for instance
commitment `I`, given claimed Lagrange values `L`, a claimed quotient value `h` and the pairing predicate `pair`. -/
structure VerifierAccepts (sha : List UInt8 → List UInt8) (pair : G1 → G1 → Prop) (I : G1) (t : List ℕ) (p : ℕ → G1)
    (f : ℕ → Fr) (L : LagrangeVals) (h : Fr) : Prop where
  lagrange : LagrangeRelations (challengesFor sha I t).x L
  quotient : QuotientIdentity (challengesFor sha I t) L (.ofProof f) h
  opening_ne : opening (challengesFor sha I t) (.ofProof I p) (.ofProof f) h ≠ 0
  pairing : pair (Commitments.ofProof I p).W' (opening (challengesFor sha I t) (.ofProof I p) (.ofProof f) h)

end Halo2
end Verif
