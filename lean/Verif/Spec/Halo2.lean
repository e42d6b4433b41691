/-
Specification of the Halo2 / SHPLONK verifier of the aggregation circuit, independent of the code: evaluation domain,
constraint expressions, rotation sets, opening combination. Nothing here mentions buffers, slots or aux witnesses.
-/
import Verif.Spec.VerifyingKey
import Mathlib.LinearAlgebra.Lagrange

namespace Verif
namespace Halo2

open Polynomial

/-- Size of the evaluation domain, 2^23. -/
def n : ℕ := 2 ^ 23

/-- Generator of the evaluation domain: 7 generates the multiplicative group of Fr. -/
def ω : Fr := 7 ^ ((rMod - 1) / 2 ^ 23)

/-- Generator of the cosets used by the permutation argument. -/
def δ : Fr := 7 ^ (2 ^ 28)

/-- The value at X of the Lagrange basis polynomial of the domain {ω^0, …, ω^(n-1)} that is 1 at ω^i (i in [0,n)). -/
noncomputable def lagrange (i : ℕ) (X : Fr) : Fr := (Lagrange.basis (Finset.range n) (fun j => ω ^ j) i).eval X

/-- Claimed evaluations of one lookup argument: product polynomial at x, ωx; permuted input at x, ω⁻¹x; permuted table
at x. -/
structure LookupEvals where
  Z : Fr
  Zω : Fr
  A : Fr
  Aprev : Fr
  S : Fr

/-- All evaluations claimed by a proof. A suffix `ω`, `ωω`, `last` means at ωx, ω²x, ω⁻⁶x; otherwise at x. -/
structure Evals where
  inst : Fr
  a0 : Fr
  a1 : Fr
  a2 : Fr
  a3 : Fr
  a4 : Fr
  a4ω : Fr
  a5 : Fr
  a6 : Fr
  a6ω : Fr
  a6ωω : Fr
  a7 : Fr
  a7ω : Fr
  a7ωω : Fr
  /-- fixed columns f0 … f12 -/
  f : ℕ → Fr
  random : Fr
  /-- permutation polynomials σ0 … σ6 -/
  σ : ℕ → Fr
  /-- permutation products z0 … z3 -/
  z : ℕ → Fr
  zω : ℕ → Fr
  zlast : ℕ → Fr
  lookup0 : LookupEvals
  lookup1 : LookupEvals

/-- Challenges. -/
structure Challenges where
  θ : Fr
  β : Fr
  γ : Fr
  y : Fr
  x : Fr
  /-- combines the polynomials of a rotation set -/
  y' : Fr
  /-- combines the rotation sets -/
  v : Fr
  /-- opening point -/
  u : Fr

/-- Values at x of l_0 and of l_(-1), …, l_(-6) (`neg k` is l_(-k)). -/
structure LagrangeVals where
  zero : Fr
  neg : ℕ → Fr

/-- The actual values of the Lagrange basis polynomials. -/
noncomputable def LagrangeVals.at (x : Fr) : LagrangeVals := ⟨lagrange 0 x, fun k => lagrange (n - k) x⟩

/-- The last usable row is n - 6. -/
def LagrangeVals.last (L : LagrangeVals) : Fr := L.neg 6
/-- Selector of usable rows: 1 minus the last and the five blinding rows. -/
def LagrangeVals.active (L : LagrangeVals) : Fr := 1 - (L.neg 6 + L.neg 5 + L.neg 4 + L.neg 3 + L.neg 2 + L.neg 1)

/-- The custom gates. -/
def gates (e : Evals) : List Fr :=
  [e.f 0 + e.a4ω * e.f 1 + e.a0 * e.f 2 + e.a1 * e.f 3 + e.a2 * e.f 4 + e.a3 * e.f 5 + e.a4 * e.f 6
      + e.a0 * e.a1 * e.f 7 + e.a2 * e.a3 * e.f 8,
   (e.a5 - e.a6) * (e.f 12 * (e.f 12 - 2) * (e.f 12 - 3)),
   (e.a5 - e.a7 - 2 ^ 18 * e.a7ω - 2 ^ 36 * e.a6 - 2 ^ 54 * e.a6ω) * (e.f 12 * (e.f 12 - 1) * (e.f 12 - 3)),
   (e.a5 - e.a7 - 2 ^ 18 * e.a7ω - 2 ^ 36 * e.a7ωω - 2 ^ 54 * e.a6 - 2 ^ 72 * e.a6ω - 2 ^ 90 * e.a6ωω)
      * (e.f 12 * (e.f 12 - 1) * (e.f 12 - 2))]

/-- One chunk of the permutation argument: columns `cols` with their σ evaluations, the first one being column `j` of
the permutation. -/
def permChunk (c : Challenges) (j : ℕ) (cols : List (Fr × Fr)) (z zω : Fr) : Fr :=
  zω * (cols.map fun p => p.1 + c.β * p.2 + c.γ).prod -
    z * ((cols.zipIdx j).map fun p => p.1.1 + c.β * δ ^ p.2 * c.x + c.γ).prod

/-- The permutation argument over a0, a1 | a2, a3 | a4, a5 | instance. -/
def permutation (c : Challenges) (L : LagrangeVals) (e : Evals) : List Fr :=
  [L.zero * (1 - e.z 0),
   L.last * (e.z 3 ^ 2 - e.z 3),
   L.zero * (e.z 1 - e.zlast 0),
   L.zero * (e.z 2 - e.zlast 1),
   L.zero * (e.z 3 - e.zlast 2),
   L.active * permChunk c 0 [(e.a0, e.σ 0), (e.a1, e.σ 1)] (e.z 0) (e.zω 0),
   L.active * permChunk c 2 [(e.a2, e.σ 2), (e.a3, e.σ 3)] (e.z 1) (e.zω 1),
   L.active * permChunk c 4 [(e.a4, e.σ 4), (e.a5, e.σ 5)] (e.z 2) (e.zω 2),
   L.active * permChunk c 6 [(e.inst, e.σ 6)] (e.z 3) (e.zω 3)]

/-- A lookup argument with compressed input `inp` and compressed table `tab`. -/
def lookup (c : Challenges) (L : LagrangeVals) (inp tab : Fr) (l : LookupEvals) : List Fr :=
  [L.zero * (1 - l.Z),
   L.last * (l.Z ^ 2 - l.Z),
   L.active * (l.Zω * (l.A + c.β) * (l.S + c.γ) - l.Z * (inp + c.β) * (tab + c.γ)),
   L.zero * (l.A - l.S),
   L.active * ((l.A - l.S) * (l.A - l.Aprev))]

/-- All constraint expressions, in order. Table columns f10, f11; inputs (f9, a6) and (18, a7), compressed by θ. -/
def constraints (c : Challenges) (L : LagrangeVals) (e : Evals) : List Fr :=
  gates e ++ permutation c L e ++
    lookup c L (c.θ * e.f 9 + e.a6) (c.θ * e.f 10 + e.f 11) e.lookup0 ++
    lookup c L (c.θ * 18 + e.a7) (c.θ * e.f 10 + e.f 11) e.lookup1

/-- Σ_i e_i · y^(m-1-i). -/
def combine (y : Fr) (es : List Fr) : Fr := es.foldl (fun acc e => acc * y + e) 0

/-- The quotient identity: h is the claimed value of the quotient polynomial at x. -/
def QuotientIdentity (c : Challenges) (L : LagrangeVals) (e : Evals) (h : Fr) : Prop :=
  h * (c.x ^ n - 1) = combine c.y (constraints c L e)

/-! ### The multi-point opening (SHPLONK) -/

/-- Commitments of a proof. -/
structure Commitments where
  inst : G1
  a : ℕ → G1
  permA : ℕ → G1
  permS : ℕ → G1
  z : ℕ → G1
  Z : ℕ → G1
  random : G1
  h : ℕ → G1
  W : G1
  W' : G1

/-- Polynomials queried at the same rotations of x. `rots` are exponents of ω; each query is a commitment with its
claimed evaluations, in the order of `rots`. -/
structure RotSet where
  rots : List ℤ
  queries : List (G1 × List Fr)

/-- Evaluation points of a list of rotations. -/
noncomputable def points (x : Fr) (rots : List ℤ) : List Fr := rots.map fun k => ω ^ k * x

/-- Value at u of the polynomial of degree < |ps| taking the values es at the points ps. -/
noncomputable def interp (ps es : List Fr) (u : Fr) : Fr :=
  (Lagrange.interpolate (Finset.range ps.length) (fun i => ps.getD i 0) (fun i => es.getD i 0)).eval u

/-- Π (u - p). -/
def vanish (ps : List Fr) (u : Fr) : Fr := (ps.map fun p => u - p).prod

/-- r_S(u): the y'-combination of the interpolated evaluations. -/
noncomputable def RotSet.value (S : RotSet) (c : Challenges) : Fr :=
  combine c.y' (S.queries.map fun q => interp (points c.x S.rots) q.2 c.u)

/-- The y'-combination of the commitments. -/
noncomputable def RotSet.commitment (S : RotSet) (c : Challenges) : G1 :=
  S.queries.foldl (fun acc q => c.y' • acc + q.1) 0

/-- Permutation products with a next chunk: at x, ωx, ω⁻⁶x. -/
def permSet (C : Commitments) (e : Evals) : RotSet :=
  ⟨[0, 1, -6], [(C.z 0, [e.z 0, e.zω 0, e.zlast 0]), (C.z 1, [e.z 1, e.zω 1, e.zlast 1]),
    (C.z 2, [e.z 2, e.zω 2, e.zlast 2])]⟩

/-- Permuted lookup inputs: at x, ω⁻¹x. -/
def inputSet (C : Commitments) (e : Evals) : RotSet :=
  ⟨[0, -1], [(C.permA 0, [e.lookup0.A, e.lookup0.Aprev]), (C.permA 1, [e.lookup1.A, e.lookup1.Aprev])]⟩

/-- Commitment of the quotient polynomial, from its three pieces. -/
noncomputable def hCommitment (c : Challenges) (C : Commitments) : G1 := C.h 0 + c.x ^ n • C.h 1 + (c.x ^ n) ^ 2 • C.h 2

/-- Everything opened at x only. `h` is the value of the quotient. -/
noncomputable def singleSet (c : Challenges) (C : Commitments) (e : Evals) (h : Fr) : RotSet :=
  ⟨[0], [(C.inst, [e.inst]), (C.a 0, [e.a0]), (C.a 1, [e.a1]), (C.a 2, [e.a2]), (C.a 3, [e.a3]), (C.a 5, [e.a5]),
    (C.permS 0, [e.lookup0.S]), (C.permS 1, [e.lookup1.S])] ++
    (List.range 13).map (fun i => (vkFixed i, [e.f i])) ++ (List.range 7).map (fun i => (vkSigma i, [e.σ i])) ++
    [(hCommitment c C, [h]), (C.random, [e.random])]⟩

/-- Opened at x and ωx. -/
def nextSet (C : Commitments) (e : Evals) : RotSet :=
  ⟨[0, 1], [(C.a 4, [e.a4, e.a4ω]), (C.z 3, [e.z 3, e.zω 3]), (C.Z 0, [e.lookup0.Z, e.lookup0.Zω]),
    (C.Z 1, [e.lookup1.Z, e.lookup1.Zω])]⟩

/-- Opened at x, ωx and ω²x. -/
def nextNextSet (C : Commitments) (e : Evals) : RotSet :=
  ⟨[0, 1, 2], [(C.a 6, [e.a6, e.a6ω, e.a6ωω]), (C.a 7, [e.a7, e.a7ω, e.a7ωω])]⟩

/-- The five rotation sets, in the order of the v-combination. -/
noncomputable def rotSets (c : Challenges) (C : Commitments) (e : Evals) (h : Fr) : List RotSet :=
  [permSet C e, inputSet C e, singleSet c C e h, nextSet C e, nextNextSet C e]

/-- All rotations. -/
def allRots : List ℤ := [0, 1, 2, -1, -6]
/-- Rotations of the first set, by which the opening is normalised. -/
def firstRots : List ℤ := [0, 1, -6]

/-- Z_(T∖S)(u) / Z_(T∖S₀)(u). -/
noncomputable def RotSet.weight (S : RotSet) (c : Challenges) : Fr :=
  vanish (points c.x (allRots.filter fun k => k ∉ S.rots)) c.u /
    vanish (points c.x (allRots.filter fun k => k ∉ firstRots)) c.u

/-- The SHPLONK combination
 Σ_i v^(4-i) · weight_i · (Σ_j y'^j C_ij − r_i(u) G) − Z_(S₀)(u) W + u W'. -/
noncomputable def opening (c : Challenges) (C : Commitments) (e : Evals) (h : Fr) : G1 :=
  (rotSets c C e h).foldl (fun acc S => c.v • acc + S.weight c • (S.commitment c - S.value c • G1gen)) 0
    - vanish (points c.x firstRots) c.u • C.W + c.u • C.W'

/-! ### Layout of a proof -/

/-- The evaluations claimed by a proof with scalars `t` (position in the proof ↦ value). -/
def Evals.ofProof (t : ℕ → Fr) : Evals where
  inst := t 44
  a0 := t 45
  a1 := t 46
  a2 := t 47
  a3 := t 48
  a4 := t 49
  a4ω := t 50
  a5 := t 51
  a6 := t 52
  a6ω := t 55
  a6ωω := t 57
  a7 := t 53
  a7ω := t 54
  a7ωω := t 56
  f i := t (58 + i)
  random := t 71
  σ i := t (72 + i)
  z i := t (79 + 3 * i)
  zω i := t (80 + 3 * i)
  zlast i := t (81 + 3 * i)
  lookup0 := ⟨t 90, t 91, t 92, t 93, t 94⟩
  lookup1 := ⟨t 95, t 96, t 97, t 98, t 99⟩

/-- The commitments of a proof with points `p` (position in the proof ↦ point) and instance commitment `I`. -/
def Commitments.ofProof (I : G1) (p : ℕ → G1) : Commitments where
  inst := I
  a i := p (2 * i)
  permA i := p (16 + 4 * i)
  permS i := p (18 + 4 * i)
  z i := p (24 + 2 * i)
  Z i := p (32 + 2 * i)
  random := p 36
  h i := p (38 + 2 * i)
  W := p 100
  W' := p 102

end Halo2
end Verif
