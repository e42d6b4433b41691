/-
What a proof of the aggregation proof system is about: polynomials behind the commitments, their true evaluations, and the
statement (gates, copy constraints, lookups) the advice columns have to satisfy. Models nothing of /repo.
-/
import Verif.Spec.Verifier
import Verif.Math.AllBut

namespace Verif
namespace Halo2

open Polynomial

/-- The KZG commitment p(τ)·G of a polynomial under the trapdoor τ. -/
noncomputable def com (τ : Fr) (p : Fr[X]) : G1 := p.eval τ • G1gen

/-- Polynomials behind the verifying key: fixed columns, permutation polynomials, and the polynomial whose commitment is
scaled by the instance value. -/
structure VkPolys where
  f : ℕ → Fr[X]
  σ : ℕ → Fr[X]
  inst : Fr[X]

/-- The verifying key commits to these polynomials. -/
structure VkPolys.Opens (K : VkPolys) (τ : Fr) : Prop where
  f : ∀ i < 13, vkFixed i = com τ (K.f i)
  σ : ∀ i < 7, vkSigma i = com τ (K.σ i)
  inst : vkInstance = com τ K.inst

/-- The polynomials have degree at most d. -/
structure VkPolys.Bounded (K : VkPolys) (d : ℕ) : Prop where
  f : ∀ i, (K.f i).natDegree ≤ d
  σ : ∀ i, (K.σ i).natDegree ≤ d
  inst : K.inst.natDegree ≤ d

/-- The polynomials committed before the challenge y: advice columns; permuted inputs and tables of the two lookups;
permutation products, lookup products, the random polynomial. -/
structure Columns where
  a : ℕ → Fr[X]
  permA : ℕ → Fr[X]
  permS : ℕ → Fr[X]
  z : ℕ → Fr[X]
  Z : ℕ → Fr[X]
  random : Fr[X]

/-- The polynomials have degree at most d. -/
structure Columns.Bounded (P : Columns) (d : ℕ) : Prop where
  a : ∀ i, (P.a i).natDegree ≤ d
  permA : ∀ i, (P.permA i).natDegree ≤ d
  permS : ∀ i, (P.permS i).natDegree ≤ d
  z : ∀ i, (P.z i).natDegree ≤ d
  Z : ∀ i, (P.Z i).natDegree ≤ d
  random : P.random.natDegree ≤ d

/-- The commitments of a proof are those of these polynomials: `h` are the three pieces of the quotient, `q` and `w` the
two opening proofs. -/
structure Opens (τ : Fr) (K : VkPolys) (k : Fr) (P : Columns) (h : ℕ → Fr[X]) (q w : Fr[X]) (C : Commitments) : Prop where
  inst : C.inst = com τ (Polynomial.C k * K.inst)
  a : ∀ i < 8, C.a i = com τ (P.a i)
  permA : ∀ i < 2, C.permA i = com τ (P.permA i)
  permS : ∀ i < 2, C.permS i = com τ (P.permS i)
  z : ∀ i < 4, C.z i = com τ (P.z i)
  Z : ∀ i < 2, C.Z i = com τ (P.Z i)
  random : C.random = com τ P.random
  h : ∀ i < 3, C.h i = com τ (h i)
  W : C.W = com τ q
  W' : C.W' = com τ w

/-- The value of a polynomial at ω^k·x. -/
noncomputable def rotEval (p : Fr[X]) (k : ℤ) (x : Fr) : Fr := p.eval (ω ^ k * x)

/-- The true evaluations at x. -/
noncomputable def trueEvals (K : VkPolys) (k : Fr) (P : Columns) (x : Fr) : Evals where
  inst := k * rotEval K.inst 0 x
  a0 := rotEval (P.a 0) 0 x
  a1 := rotEval (P.a 1) 0 x
  a2 := rotEval (P.a 2) 0 x
  a3 := rotEval (P.a 3) 0 x
  a4 := rotEval (P.a 4) 0 x
  a4ω := rotEval (P.a 4) 1 x
  a5 := rotEval (P.a 5) 0 x
  a6 := rotEval (P.a 6) 0 x
  a6ω := rotEval (P.a 6) 1 x
  a6ωω := rotEval (P.a 6) 2 x
  a7 := rotEval (P.a 7) 0 x
  a7ω := rotEval (P.a 7) 1 x
  a7ωω := rotEval (P.a 7) 2 x
  f i := rotEval (K.f i) 0 x
  random := rotEval P.random 0 x
  σ i := rotEval (K.σ i) 0 x
  z i := rotEval (P.z i) 0 x
  zω i := rotEval (P.z i) 1 x
  zlast i := rotEval (P.z i) (-6) x
  lookup0 := ⟨rotEval (P.Z 0) 0 x, rotEval (P.Z 0) 1 x, rotEval (P.permA 0) 0 x, rotEval (P.permA 0) (-1) x,
    rotEval (P.permS 0) 0 x⟩
  lookup1 := ⟨rotEval (P.Z 1) 0 x, rotEval (P.Z 1) 1 x, rotEval (P.permA 1) 0 x, rotEval (P.permA 1) (-1) x,
    rotEval (P.permS 1) 0 x⟩

/-- Two lists of evaluations agree on everything a proof claims. -/
structure Evals.Same (e e' : Evals) : Prop where
  inst : e.inst = e'.inst
  a0 : e.a0 = e'.a0
  a1 : e.a1 = e'.a1
  a2 : e.a2 = e'.a2
  a3 : e.a3 = e'.a3
  a4 : e.a4 = e'.a4
  a4ω : e.a4ω = e'.a4ω
  a5 : e.a5 = e'.a5
  a6 : e.a6 = e'.a6
  a6ω : e.a6ω = e'.a6ω
  a6ωω : e.a6ωω = e'.a6ωω
  a7 : e.a7 = e'.a7
  a7ω : e.a7ω = e'.a7ω
  a7ωω : e.a7ωω = e'.a7ωω
  f : ∀ i < 13, e.f i = e'.f i
  random : e.random = e'.random
  σ : ∀ i < 7, e.σ i = e'.σ i
  z : ∀ i < 4, e.z i = e'.z i
  zω : ∀ i < 4, e.zω i = e'.zω i
  zlast : ∀ i < 3, e.zlast i = e'.zlast i
  lookup0 : e.lookup0 = e'.lookup0
  lookup1 : e.lookup1 = e'.lookup1

/-- The true value at x of the quotient, from its three pieces: h₀(x) + xⁿ·h₁(x) + x²ⁿ·h₂(x). -/
noncomputable def trueQuotient (h : ℕ → Fr[X]) (x : Fr) : Fr :=
  rotEval (h 0) 0 x + x ^ n * rotEval (h 1) 0 x + (x ^ n) ^ 2 * rotEval (h 2) 0 x

/-- Row i of a column. -/
noncomputable def cell (p : Fr[X]) (i : ℕ) : Fr := p.eval (ω ^ i)

/-- The seven columns of the copy constraints: a0 … a5 and the instance column, whose polynomial is k times the one in
the verifying key. -/
noncomputable def copyColumn (K : VkPolys) (k : Fr) (a : ℕ → Fr[X]) (j : ℕ) : Fr[X] :=
  if j < 6 then a j else C k * K.inst

/-- The permutation polynomials encode the permutation π of the cells (column, row) of the usable rows: σ_j(ω^i) is the
name δ^j'·ω^i' of the cell π(j,i) = (j',i'). -/
def EncodesPermutation (K : VkPolys) (π : Equiv.Perm (Fin 7 × Fin (n - 6))) : Prop :=
  ∀ c : Fin 7 × Fin (n - 6), cell (K.σ c.1) c.2 = δ ^ ((π c).1 : ℕ) * ω ^ ((π c).2 : ℕ)

/-- The statement proved about the advice columns `a` and the instance value `k`. Rows of gates are numbered modulo n. -/
structure Satisfies (K : VkPolys) (π : Equiv.Perm (Fin 7 × Fin (n - 6))) (k : Fr) (a : ℕ → Fr[X]) : Prop where
  /-- the arithmetic gate on every row -/
  gate : ∀ i < n, cell (K.f 0) i + cell (a 4) (i + 1) * cell (K.f 1) i + cell (a 0) i * cell (K.f 2) i
    + cell (a 1) i * cell (K.f 3) i + cell (a 2) i * cell (K.f 4) i + cell (a 3) i * cell (K.f 5) i
    + cell (a 4) i * cell (K.f 6) i + cell (a 0) i * cell (a 1) i * cell (K.f 7) i
    + cell (a 2) i * cell (a 3) i * cell (K.f 8) i = 0
  /-- one-limb decomposition, selected by f12 = 1 -/
  limbs1 : ∀ i < n, cell (K.f 12) i ≠ 0 → cell (K.f 12) i ≠ 2 → cell (K.f 12) i ≠ 3 → cell (a 5) i = cell (a 6) i
  /-- four-limb decomposition, selected by f12 = 2 -/
  limbs4 : ∀ i < n, cell (K.f 12) i ≠ 0 → cell (K.f 12) i ≠ 1 → cell (K.f 12) i ≠ 3 → cell (a 5) i =
    cell (a 7) i + 2 ^ 18 * cell (a 7) (i + 1) + 2 ^ 36 * cell (a 6) i + 2 ^ 54 * cell (a 6) (i + 1)
  /-- six-limb decomposition, selected by f12 = 3 -/
  limbs6 : ∀ i < n, cell (K.f 12) i ≠ 0 → cell (K.f 12) i ≠ 1 → cell (K.f 12) i ≠ 2 → cell (a 5) i =
    cell (a 7) i + 2 ^ 18 * cell (a 7) (i + 1) + 2 ^ 36 * cell (a 7) (i + 2) + 2 ^ 54 * cell (a 6) i
      + 2 ^ 72 * cell (a 6) (i + 1) + 2 ^ 90 * cell (a 6) (i + 2)
  /-- copy constraints -/
  copy : ∀ c : Fin 7 × Fin (n - 6), cell (copyColumn K k a c.1) c.2 = cell (copyColumn K k a (π c).1) (π c).2
  /-- every (f9, a6) of a usable row is a row (f10, f11) of the table -/
  lookup0 : ∀ i < n - 6, ∃ j < n - 6, cell (K.f 9) i = cell (K.f 10) j ∧ cell (a 6) i = cell (K.f 11) j
  /-- every (18, a7) of a usable row is a row of the table -/
  lookup1 : ∀ i < n - 6, ∃ j < n - 6, 18 = cell (K.f 10) j ∧ cell (a 7) i = cell (K.f 11) j

/-! ### The opening as a polynomial identity -/

/-- A rotation set with polynomials in place of their commitments. -/
structure PolySet where
  rots : List ℤ
  queries : List (Fr[X] × List Fr)

/-- The y'-combination of the polynomials. -/
noncomputable def PolySet.poly (S : PolySet) (y' : Fr) : Fr[X] := S.queries.foldl (fun acc q => C y' * acc + q.1) 0

/-- r_S(u): the y'-combination of the interpolated claimed evaluations. -/
noncomputable def PolySet.value (S : PolySet) (x y' u : Fr) : Fr :=
  combine y' (S.queries.map fun q => interp (points x S.rots) q.2 u)

/-- Z_(T∖S)(u). -/
noncomputable def PolySet.other (S : PolySet) (x u : Fr) : Fr := vanish (points x (allRots.filter fun k => k ∉ S.rots)) u

/-- The five rotation sets, with claimed evaluations `e` and claimed quotient value `hv`. -/
noncomputable def polySets (K : VkPolys) (k : Fr) (P : Columns) (h : ℕ → Fr[X]) (x : Fr) (e : Evals) (hv : Fr) :
    List PolySet :=
  [⟨[0, 1, -6], [(P.z 0, [e.z 0, e.zω 0, e.zlast 0]), (P.z 1, [e.z 1, e.zω 1, e.zlast 1]),
    (P.z 2, [e.z 2, e.zω 2, e.zlast 2])]⟩,
   ⟨[0, -1], [(P.permA 0, [e.lookup0.A, e.lookup0.Aprev]), (P.permA 1, [e.lookup1.A, e.lookup1.Aprev])]⟩,
   ⟨[0], [(C k * K.inst, [e.inst]), (P.a 0, [e.a0]), (P.a 1, [e.a1]), (P.a 2, [e.a2]), (P.a 3, [e.a3]), (P.a 5, [e.a5]),
    (P.permS 0, [e.lookup0.S]), (P.permS 1, [e.lookup1.S])] ++
    (List.range 13).map (fun i => (K.f i, [e.f i])) ++ (List.range 7).map (fun i => (K.σ i, [e.σ i])) ++
    [(h 0 + C (x ^ n) * h 1 + C ((x ^ n) ^ 2) * h 2, [hv]), (P.random, [e.random])]⟩,
   ⟨[0, 1], [(P.a 4, [e.a4, e.a4ω]), (P.z 3, [e.z 3, e.zω 3]), (P.Z 0, [e.lookup0.Z, e.lookup0.Zω]),
    (P.Z 1, [e.lookup1.Z, e.lookup1.Zω])]⟩,
   ⟨[0, 1, 2], [(P.a 6, [e.a6, e.a6ω, e.a6ωω]), (P.a 7, [e.a7, e.a7ω, e.a7ωω])]⟩]

/-- The polynomial whose value at τ the pairing equation compares with zero:
 Σ_i v^(4-i) · weight_i(u) · (P_i(X) − r_i(u)) − Z_(S₀)(u)·q(X) − (X − u)·w(X).
It is computed from the polynomials without knowing τ. -/
noncomputable def openingPoly (c : Challenges) (K : VkPolys) (k : Fr) (P : Columns) (h : ℕ → Fr[X]) (q w : Fr[X])
    (e : Evals) (hv : Fr) : Fr[X] :=
  (polySets K k P h c.x e hv).foldl (fun acc S => C c.v * acc +
      C (S.other c.x c.u / vanish (points c.x (allRots.filter fun k => k ∉ firstRots)) c.u) *
        (S.poly c.y' - C (S.value c.x c.y' c.u))) 0
    - C (vanish (points c.x firstRots) c.u) * q - (X - C c.u) * w

/-! ### Provers -/

/-- What a prover sends: every message is computed from the challenges drawn before it. -/
structure Prover where
  a : ℕ → Fr[X]
  /-- permuted inputs and permuted tables, after θ -/
  permA : (θ : Fr) → ℕ → Fr[X]
  permS : (θ : Fr) → ℕ → Fr[X]
  /-- running products and the random polynomial, after β and γ -/
  z : (θ β γ : Fr) → ℕ → Fr[X]
  Z : (θ β γ : Fr) → ℕ → Fr[X]
  random : (θ β γ : Fr) → Fr[X]
  /-- quotient pieces, after y -/
  h : (θ β γ y : Fr) → ℕ → Fr[X]
  /-- the opening proofs, after v and after u -/
  q : (θ β γ y x y' v : Fr) → Fr[X]
  w : Challenges → Fr[X]

/-- All columns, once γ is known. -/
def Prover.columns (Q : Prover) (θ β γ : Fr) : Columns := ⟨Q.a, Q.permA θ, Q.permS θ, Q.z θ β γ, Q.Z θ β γ, Q.random θ β γ⟩

/-- The commitments `C` and claimed evaluations `e` of a proof with challenges `c` are those of the prover, who evaluates
honestly. -/
structure Prover.Sends (Q : Prover) (τ : Fr) (K : VkPolys) (k : Fr) (c : Challenges) (C : Commitments) (e : Evals) : Prop where
  opens : Opens τ K k (Q.columns c.θ c.β c.γ) (Q.h c.θ c.β c.γ c.y) (Q.q c.θ c.β c.γ c.y c.x c.y' c.v) (Q.w c) C
  evals : e.Same (trueEvals K k (Q.columns c.θ c.β c.γ) c.x)

end Halo2
end Verif
