/- Properties C53–C55: what the equations of an accepted proof say about the committed polynomials. Concrete cases that meet the hypotheses: the end of this file and Verif/Props/Instances.lean. -/
import Verif.Lemmas.Prover
import Verif.Props.Shipped

namespace Verif
open Halo2 Polynomial

/-! ### C53: the opening -/

/-- C53: the pairing equation is the statement that the trapdoor is a root of the opening polynomial, which the prover's
polynomials determine. -/
theorem C53_equation {τ : Fr} {K : VkPolys} (hK : K.Opens τ) {k : Fr} {P : Columns} {h : ℕ → Fr[X]} {q w : Fr[X]}
    {C : Commitments} (hC : Opens τ K k P h q w C) (c : Challenges) (e : Evals) (hv : Fr) :
    opening c C e hv = τ • C.W' ↔ (openingPoly c K k P h q w e hv).eval τ = 0 :=
  opening_iff hK hC c e hv

theorem openingPoly_natDegree {K : VkPolys} {k : Fr} {P : Columns} {h : ℕ → Fr[X]} {q w : Fr[X]} {d : ℕ} (hK : K.Bounded d)
    (hP : P.Bounded d) (hh : ∀ i, (h i).natDegree ≤ d) (hq : q.natDegree ≤ d) (hw : w.natDegree ≤ d) (c : Challenges) (e : Evals)
    (hv : Fr) : (openingPoly c K k P h q w e hv).natDegree ≤ d + 1 := by
  have h1 : openingPoly c K k P h q w e hv = openingPoly c K k P h q 0 e hv - (X - C c.u) * w := by
    simp only [openingPoly, mul_zero, sub_zero]
  rw [h1]
  refine (natDegree_sub_le _ _).trans (max_le ((openingPoly_natDegree' hK hP hh hq c e hv).trans (Nat.le_succ d)) ?_)
  exact natDegree_mul_le.trans ((Nat.add_le_add (natDegree_X_sub_C_le _) hw).trans (Nat.add_comm 1 d).le)

/-- C53: if a claimed evaluation or the claimed quotient value is false then, for all but 29 values of y', all but 4 of v,
whatever first opening proof q follows, all but d + 10 of u, and whatever second opening proof w follows, the opening
polynomial is not zero: the pairing equation can hold only if the trapdoor is one of its at most d + 1 roots. -/
theorem C53_opening_sound {K : VkPolys} {k : Fr} {P : Columns} {h : ℕ → Fr[X]} {d : ℕ} (hK : K.Bounded d) (hP : P.Bounded d)
    (hh : ∀ i, (h i).natDegree ≤ d) {x : Fr} (hx : x ≠ 0) {e : Evals} {hv : Fr}
    (hf : ¬ (e.Same (trueEvals K k P x) ∧ hv = trueQuotient h x)) (θ β γ y : Fr) :
    AllBut 29 fun y' => AllBut 4 fun v => ∀ q : Fr[X], q.natDegree ≤ d → AllBut (d + 10) fun u =>
      ∀ w : Fr[X], w.natDegree ≤ d → openingPoly ⟨θ, β, γ, y, x, y', v, u⟩ K k P h q w e hv ≠ 0 ∧
        (openingPoly ⟨θ, β, γ, y, x, y', v, u⟩ K k P h q w e hv).natDegree ≤ d + 1 := by
  rw [← allTrue_iff] at hf
  refine (opening_sound hK hP hh hx hf).mono le_rfl fun y' h1 => h1.mono le_rfl fun v h2 q hq => (h2 q hq).mono le_rfl ?_
  exact fun u h3 w hw => ⟨h3 _ rfl rfl rfl rfl w, openingPoly_natDegree hK hP hh hq hw _ _ _⟩

/-! ### C54: the constraints -/

/-- C54: if the advice columns do not satisfy the gates, the copy constraints and the lookups then, for all but n values of
θ, whatever permuted columns follow, all but 7(n-6) of β and 14(n-6) of γ, whatever product columns follow, some
constraint expression is not zero on some row. -/
theorem C54_rows {K : VkPolys} {π : Equiv.Perm (Fin 7 × Fin (n - 6))} (hπ : EncodesPermutation K π) {k : Fr} {a : ℕ → Fr[X]}
    (hf : ¬ Satisfies K π k a) :
    AllBut n fun θ => ∀ permA permS : ℕ → Fr[X], AllBut (7 * (n - 6)) fun β => AllBut (14 * (n - 6)) fun γ =>
      ∀ (z Z : ℕ → Fr[X]) (random : Fr[X]), ∃ i < n, ∃ e ∈ constraints ⟨θ, β, γ, 0, ω ^ i, 0, 0, 0⟩ (.at (ω ^ i))
        (trueEvals K k ⟨a, permA, permS, z, Z, random⟩ (ω ^ i)), e ≠ 0 := by
  refine (rows_sound hπ hf).mono le_rfl fun θ h1 permA permS => (h1 permA permS).mono le_rfl fun β h2 => h2.mono ?_ fun γ h3 => ?_
  · rw [cells]; omega
  · intro z Z random
    have h4 := h3 ⟨θ, β, γ, 0, 0, 0, 0, 0⟩ rfl rfl rfl z Z random
    unfold RowsHold at h4
    simp only [not_forall] at h4
    obtain ⟨i, hi, e, he, h0⟩ := h4
    exact ⟨i, hi, e, he, h0⟩

/-- C54: conversely, if some constraint expression is not zero on some row then, for all but 22 values of y, whatever
quotient pieces follow, all but 4·max(d,n) of x, the quotient identity fails for the true evaluations. -/
theorem C54_quotient {θ β γ : Fr} {K : VkPolys} {k : Fr} {P : Columns} {d : ℕ} (hK : K.Bounded d) (hP : P.Bounded d)
    {i : ℕ} (hi : i < n) {e : Fr} (he : e ∈ constraints ⟨θ, β, γ, 0, ω ^ i, 0, 0, 0⟩ (.at (ω ^ i)) (trueEvals K k P (ω ^ i)))
    (h0 : e ≠ 0) :
    AllBut 22 fun y => ∀ h : ℕ → Fr[X], (∀ i, (h i).natDegree ≤ d) → AllBut (4 * max d n) fun x => ∀ y' v u : Fr,
      ¬ QuotientIdentity ⟨θ, β, γ, y, x, y', v, u⟩ (.at x) (trueEvals K k P x) (trueQuotient h x) := by
  refine (quotient_sound (c := ⟨θ, β, γ, 0, 0, 0, 0, 0⟩) hK hP fun H => h0 (H i hi e he)).mono le_rfl
    fun y h1 h hh => (h1 h hh).mono le_rfl fun x h2 y' v u h3 => h2 ?_
  exact h3

theorem AllBut.exists_fr {d : ℕ} {p : Fr → Prop} (h : AllBut d p) (hd : d < rMod) : ∃ v, p v := by
  obtain ⟨B, hB, h⟩ := h
  have hc : B.card < (Finset.univ : Finset Fr).card := by
    rw [Finset.card_univ, ZMod.card]
    exact hB.trans_lt hd
  obtain ⟨v, -, hv⟩ := Finset.exists_mem_notMem_of_card_lt_card hc
  exact ⟨v, h v hv⟩

/-- For every verifying key and permutation there are advice columns that do not satisfy the statement: C54 says something. -/
theorem exists_not_satisfies (K : VkPolys) (π : Equiv.Perm (Fin 7 × Fin (n - 6))) (k : Fr) :
    ∃ a : ℕ → Fr[X], (∀ i, (a i).natDegree ≤ 0) ∧ ¬ Satisfies K π k a := by
  have hc : ((Finset.range (n - 6)).image fun j => cell (K.f 11) j).card < (Finset.univ : Finset Fr).card := by
    refine Finset.card_image_le.trans_lt ?_
    rw [Finset.card_range, Finset.card_univ, ZMod.card]
    exact (Nat.sub_le _ _).trans_lt (by decide +kernel)
  obtain ⟨v, -, hv⟩ := Finset.exists_mem_notMem_of_card_lt_card hc
  refine ⟨fun _ => C v, fun _ => (natDegree_C v).le, fun h => hv ?_⟩
  obtain ⟨j, hj, -, h2⟩ := h.lookup1 0 (by decide +kernel)
  refine Finset.mem_image.2 ⟨j, Finset.mem_range.2 hj, ?_⟩
  rw [← h2]
  simp [cell]

/-- A case that meets the hypotheses of `C54_rows` and `C54_quotient`: a verifying key of degree n with columns, of degree at
most n, that leave some constraint expression other than zero on some row. -/
example {τ : Fr} (hτ : τ ^ n ≠ 1) (π : Equiv.Perm (Fin 7 × Fin (n - 6))) (k : Fr) : ∃ (K : VkPolys) (P : Columns) (θ β γ : Fr),
    EncodesPermutation K π ∧ ¬ Satisfies K π k P.a ∧ K.Bounded n ∧ P.Bounded n ∧
    ∃ i < n, ∃ e ∈ constraints ⟨θ, β, γ, 0, ω ^ i, 0, 0, 0⟩ (.at (ω ^ i)) (trueEvals K k P (ω ^ i)), e ≠ 0 := by
  obtain ⟨K, -, hK, hπ⟩ := exists_vkPolys hτ π
  obtain ⟨a, ha, hf⟩ := exists_not_satisfies K π k
  obtain ⟨θ, h1⟩ := (C54_rows hπ hf).exists_fr (by decide +kernel)
  obtain ⟨β, h2⟩ := (h1 (fun _ => 0) (fun _ => 0)).exists_fr (by decide +kernel)
  obtain ⟨γ, h3⟩ := h2.exists_fr (by decide +kernel)
  exact ⟨K, ⟨a, fun _ => 0, fun _ => 0, fun _ => 0, fun _ => 0, 0⟩, θ, β, γ, hπ, hf, hK,
    ⟨fun i => (ha i).trans (Nat.zero_le _), by simp, by simp, by simp, by simp, by simp⟩, h3 _ _ _⟩

/-! ### C55: the whole proof

The prover sends, in this order: the advice columns; after θ the permuted columns; after β, γ the products and the random
polynomial; after y the quotient pieces; after x the claimed evaluations; after y', v the first opening proof; after u the
second one, with the Lagrange values and the quotient value, which the transcript does not cover. `AfterU` … `AfterTheta` say, from the last round back to the first, that whatever the prover goes on to send, for
all but a bounded number of values of each remaining challenge, the verifier's equations can hold only if the trapdoor is
a root of a non-zero polynomial of degree at most d + 1 which is computed from the polynomials the prover sent. -/

/-- The prover's polynomials give away the trapdoor. -/
def Exposes (τ : Fr) (d : ℕ) (p : Fr[X]) : Prop := p ≠ 0 ∧ p.natDegree ≤ d + 1 ∧ p.eval τ = 0

def AfterU (τ : Fr) (K : VkPolys) (d : ℕ) (k : Fr) (P : Columns) (h : ℕ → Fr[X]) (e : Evals) (q : Fr[X]) (c : Challenges) : Prop :=
  ∀ w : Fr[X], w.natDegree ≤ d → ∀ C : Commitments, Opens τ K k P h q w C → ∀ L : LagrangeVals, LagrangeRelations c.x L →
    ∀ hv : Fr, QuotientIdentity c L e hv → opening c C e hv = τ • C.W' → Exposes τ d (openingPoly c K k P h q w e hv)

def AfterV (τ : Fr) (K : VkPolys) (d : ℕ) (k : Fr) (P : Columns) (h : ℕ → Fr[X]) (e : Evals) (θ β γ y x y' v : Fr) : Prop :=
  ∀ q : Fr[X], q.natDegree ≤ d → AllBut (d + 10) fun u => AfterU τ K d k P h e q ⟨θ, β, γ, y, x, y', v, u⟩

def AfterY' (τ : Fr) (K : VkPolys) (d : ℕ) (k : Fr) (P : Columns) (h : ℕ → Fr[X]) (e : Evals) (θ β γ y x y' : Fr) : Prop :=
  AllBut 4 fun v => AfterV τ K d k P h e θ β γ y x y' v

def AfterX (τ : Fr) (K : VkPolys) (d : ℕ) (k : Fr) (P : Columns) (h : ℕ → Fr[X]) (θ β γ y x : Fr) : Prop :=
  ∀ e : Evals, AllBut 29 fun y' => AfterY' τ K d k P h e θ β γ y x y'

def AfterY (τ : Fr) (K : VkPolys) (d : ℕ) (k : Fr) (P : Columns) (θ β γ y : Fr) : Prop :=
  ∀ h : ℕ → Fr[X], (∀ i, (h i).natDegree ≤ d) → AllBut (4 * max d n + n + 1) fun x => AfterX τ K d k P h θ β γ y x

def AfterGamma (τ : Fr) (K : VkPolys) (d : ℕ) (k : Fr) (a permA permS : ℕ → Fr[X]) (θ β γ : Fr) : Prop :=
  ∀ (z Z : ℕ → Fr[X]) (random : Fr[X]), Columns.Bounded ⟨a, permA, permS, z, Z, random⟩ d →
    AllBut 22 fun y => AfterY τ K d k ⟨a, permA, permS, z, Z, random⟩ θ β γ y

def AfterBeta (τ : Fr) (K : VkPolys) (d : ℕ) (k : Fr) (a permA permS : ℕ → Fr[X]) (θ β : Fr) : Prop :=
  AllBut (14 * (n - 6)) fun γ => AfterGamma τ K d k a permA permS θ β γ

def AfterTheta (τ : Fr) (K : VkPolys) (d : ℕ) (k : Fr) (a : ℕ → Fr[X]) (θ : Fr) : Prop :=
  ∀ permA permS : ℕ → Fr[X], AllBut (7 * (n - 6)) fun β => AfterBeta τ K d k a permA permS θ β

theorem constraints_congr {c : Challenges} {x : Fr} (hc : c.x = x) {L : LagrangeVals} (hL0 : L.zero = lagrange 0 x)
    (hL : ∀ k, 1 ≤ k → k ≤ 6 → L.neg k = lagrange (n - k) x) {e e' : Evals} (h : e.Same e') :
    constraints c L e = constraints { c with x := x } (.at x) e' := by
  subst hc
  have hz : L.zero = (LagrangeVals.at c.x).zero := hL0
  have hk : ∀ k, 1 ≤ k → k ≤ 6 → L.neg k = (LagrangeVals.at c.x).neg k := hL
  have hl : L.last = (LagrangeVals.at c.x).last := hk 6 (by decide) le_rfl
  have ha : L.active = (LagrangeVals.at c.x).active := by
    rw [LagrangeVals.active, LagrangeVals.active, hk 6 (by decide) le_rfl, hk 5 (by decide) (by decide), hk 4 (by decide) (by decide),
      hk 3 (by decide) (by decide), hk 2 (by decide) (by decide), hk 1 (by decide) (by decide)]
  have hg : gates e = gates e' := by
    rw [gates, gates, h.f 0 (by decide), h.f 1 (by decide), h.f 2 (by decide), h.f 3 (by decide), h.f 4 (by decide), h.f 5 (by decide),
      h.f 6 (by decide), h.f 7 (by decide), h.f 8 (by decide), h.f 12 (by decide), h.a0, h.a1, h.a2, h.a3, h.a4, h.a4ω, h.a5, h.a6, h.a6ω,
      h.a6ωω, h.a7, h.a7ω, h.a7ωω]
  have hp : permutation c L e = permutation c (.at c.x) e' := by
    rw [permutation, permutation, hz, hl, ha, h.z 0 (by decide), h.z 1 (by decide), h.z 2 (by decide), h.z 3 (by decide),
      h.zω 0 (by decide), h.zω 1 (by decide), h.zω 2 (by decide), h.zω 3 (by decide), h.zlast 0 (by decide), h.zlast 1 (by decide),
      h.zlast 2 (by decide), h.σ 0 (by decide), h.σ 1 (by decide), h.σ 2 (by decide), h.σ 3 (by decide), h.σ 4 (by decide),
      h.σ 5 (by decide), h.σ 6 (by decide), h.a0, h.a1, h.a2, h.a3, h.a4, h.a5, h.inst]
  have hlk : ∀ inp tab l, lookup c L inp tab l = lookup c (.at c.x) inp tab l := fun inp tab l => by
    rw [lookup, lookup, hz, hl, ha]
  rw [constraints, constraints, hg, hp, hlk, hlk, h.f 9 (by decide), h.f 10 (by decide), h.f 11 (by decide), h.a6, h.a7, h.lookup0, h.lookup1]

theorem domain_allBut : AllBut n fun x : Fr => ∀ i < n, x ≠ ω ^ i := by
  classical
  refine ⟨(Finset.range n).image fun i => ω ^ i, Finset.card_image_le.trans (by rw [Finset.card_range]), fun x hx i hi h => hx ?_⟩
  exact Finset.mem_image.2 ⟨i, Finset.mem_range.2 hi, h.symm⟩

theorem Evals.Same.refl (e : Evals) : e.Same e := by constructor <;> intros <;> rfl

/-- Outside the domain the quotient value the prover supplies is determined by the evaluations. -/
theorem quotientValue_unique {c : Challenges} (hdom : ∀ i < n, c.x ≠ ω ^ i) {L : LagrangeVals} (hL : LagrangeRelations c.x L)
    {e : Evals} {hv : Fr} (hQ : QuotientIdentity c L e hv) : hv = quotientValue c e := by
  have hne : c.x ^ n - 1 ≠ 0 := by
    rw [sub_ne_zero]
    intro h
    obtain ⟨i, hi, he⟩ := (domain_iff _).2 h
    exact hdom i hi he
  obtain ⟨u0, uk⟩ := hL.unique hdom
  rw [QuotientIdentity, constraints_congr (c := c) (x := c.x) rfl u0 uk (Evals.Same.refl e)] at hQ
  rw [quotientValue, eq_div_iff hne]
  exact hQ

/-- C55: if the advice columns and the instance value do not satisfy the statement then, for all but n values of θ, …
(`AfterTheta`): with all but a bounded number of values of each challenge, an accepted proof exposes the trapdoor. -/
theorem C55_rounds {τ : Fr} {K : VkPolys} (hK : K.Opens τ) {d : ℕ} (hKd : K.Bounded d) {π : Equiv.Perm (Fin 7 × Fin (n - 6))}
    (hπ : EncodesPermutation K π) {k : Fr} {a : ℕ → Fr[X]} (hf : ¬ Satisfies K π k a) :
    AllBut n fun θ => AfterTheta τ K d k a θ := by
  refine (C54_rows hπ hf).mono le_rfl fun θ h1 permA permS => (h1 permA permS).mono le_rfl fun β h2 => h2.mono le_rfl fun γ h3 => ?_
  intro z Z random hP
  obtain ⟨i, hi, e0, he0, hne⟩ := h3 z Z random
  refine (C54_quotient hKd hP hi he0 hne).mono le_rfl fun y h4 h hh => ?_
  refine (((h4 h hh).and domain_allBut).and (AllBut.ne 0)).mono le_rfl ?_
  rintro x ⟨⟨h5, hdom⟩, hx⟩ e
  obtain ⟨Q, hQe⟩ : ∃ Q, Q = quotientValue ⟨θ, β, γ, y, x, 0, 0, 0⟩ e := ⟨_, rfl⟩
  by_cases ht : e.Same (trueEvals K k ⟨a, permA, permS, z, Z, random⟩ x) ∧ Q = trueQuotient h x
  · obtain ⟨hs, hqv⟩ := ht
    refine .of_forall fun y' => .of_forall fun v q _ => .of_forall fun u w _ C _ L hL hv hQ _ => ?_
    exfalso
    have e1 : hv = Q := (quotientValue_unique hdom hL hQ).trans hQe.symm
    obtain ⟨u0, uk⟩ := hL.unique hdom
    refine h5 y' v u ?_
    rw [QuotientIdentity, e1, hqv] at hQ
    rw [QuotientIdentity, hQ, constraints_congr (c := ⟨θ, β, γ, y, x, y', v, u⟩) (x := x) rfl u0 uk hs]
  · refine (C53_opening_sound hKd hP hh hx ht θ β γ y).mono le_rfl fun y' h6 => h6.mono le_rfl fun v h7 q hq => (h7 q hq).mono le_rfl ?_
    intro u h8 w hw C hC L hL hv hQ ho
    have e1 : hv = Q := (quotientValue_unique hdom hL hQ).trans hQe.symm
    subst e1
    exact ⟨(h8 w hw).1, (h8 w hw).2, (C53_equation hK hC _ e hv).1 ho⟩

/-- For each challenge, a set of exceptional values that depends only on what the prover sent before that challenge was
drawn, and on the earlier challenges. -/
structure Exceptions (d : ℕ) where
  θ : (k : Fr) → (a : ℕ → Fr[X]) → Finset Fr
  β : (k : Fr) → (a : ℕ → Fr[X]) → (θ : Fr) → (permA permS : ℕ → Fr[X]) → Finset Fr
  γ : (k : Fr) → (a : ℕ → Fr[X]) → (θ : Fr) → (permA permS : ℕ → Fr[X]) → (β : Fr) → Finset Fr
  y : (k : Fr) → (P : Columns) → (θ β γ : Fr) → Finset Fr
  x : (k : Fr) → (P : Columns) → (θ β γ y : Fr) → (h : ℕ → Fr[X]) → Finset Fr
  y' : (k : Fr) → (P : Columns) → (θ β γ y : Fr) → (h : ℕ → Fr[X]) → (x : Fr) → (e : Evals) → Finset Fr
  v : (k : Fr) → (P : Columns) → (θ β γ y : Fr) → (h : ℕ → Fr[X]) → (x : Fr) → (e : Evals) → (y' : Fr) → Finset Fr
  u : (k : Fr) → (P : Columns) → (θ β γ y : Fr) → (h : ℕ → Fr[X]) → (x : Fr) → (e : Evals) → (y' v : Fr) →
    (q : Fr[X]) → Finset Fr
  θ_card : ∀ k a, (θ k a).card ≤ n
  β_card : ∀ k a θ A S, (β k a θ A S).card ≤ 7 * (n - 6)
  γ_card : ∀ k a θ A S β, (γ k a θ A S β).card ≤ 14 * (n - 6)
  y_card : ∀ k P θ β γ, (y k P θ β γ).card ≤ 22
  x_card : ∀ k P θ β γ y h, (x k P θ β γ y h).card ≤ 4 * max d n + n + 1
  y'_card : ∀ k P θ β γ y h x e, (y' k P θ β γ y h x e).card ≤ 29
  v_card : ∀ k P θ β γ y h x e y', (v k P θ β γ y h x e y').card ≤ 4
  u_card : ∀ k P θ β γ y h x e y' v q, (u k P θ β γ y h x e y' v q).card ≤ d + 10

/-- Some challenge of the proof is exceptional. -/
def Exceptions.Hit {d : ℕ} (B : Exceptions d) (k : Fr) (P : Columns) (h : ℕ → Fr[X]) (e : Evals) (q : Fr[X])
    (c : Challenges) : Prop :=
  c.θ ∈ B.θ k P.a ∨ c.β ∈ B.β k P.a c.θ P.permA P.permS ∨ c.γ ∈ B.γ k P.a c.θ P.permA P.permS c.β ∨
  c.y ∈ B.y k P c.θ c.β c.γ ∨ c.x ∈ B.x k P c.θ c.β c.γ c.y h ∨ c.y' ∈ B.y' k P c.θ c.β c.γ c.y h c.x e ∨
  c.v ∈ B.v k P c.θ c.β c.γ c.y h c.x e c.y' ∨ c.u ∈ B.u k P c.θ c.β c.γ c.y h c.x e c.y' c.v q

/-- C55: there are exceptional sets of the given sizes such that every proof whose equations hold has a satisfying witness
behind its commitments, or hits an exceptional challenge, or exposes the trapdoor. -/
theorem C55_exceptions {τ : Fr} {K : VkPolys} (hK : K.Opens τ) {d : ℕ} (hKd : K.Bounded d)
    {π : Equiv.Perm (Fin 7 × Fin (n - 6))} (hπ : EncodesPermutation K π) :
    ∃ B : Exceptions d, ∀ (k : Fr) (P : Columns) (h : ℕ → Fr[X]) (q w : Fr[X]) (C : Commitments) (e : Evals) (hv : Fr)
      (c : Challenges) (L : LagrangeVals), P.Bounded d → (∀ i, (h i).natDegree ≤ d) → q.natDegree ≤ d → w.natDegree ≤ d →
      Opens τ K k P h q w C → LagrangeRelations c.x L → QuotientIdentity c L e hv → opening c C e hv = τ • C.W' →
      Satisfies K π k P.a ∨ B.Hit k P h e q c ∨ Exposes τ d (openingPoly c K k P h q w e hv) := by
  have s1 : ∀ k a, ∃ B : Finset Fr, B.card ≤ n ∧ (¬ Satisfies K π k a → ∀ θ, θ ∉ B → AfterTheta τ K d k a θ) := fun k a =>
    AllBut.imp fun hf => C55_rounds hK hKd hπ hf
  choose Bθ cθ hθ using s1
  have s2 : ∀ k a θ A S, ∃ B : Finset Fr, B.card ≤ 7 * (n - 6) ∧ (AfterTheta τ K d k a θ → ∀ β, β ∉ B → AfterBeta τ K d k a A S θ β) :=
    fun k a θ A S => AllBut.imp fun hf => hf A S
  choose Bβ cβ hβ using s2
  have s3 : ∀ k a θ A S β, ∃ B : Finset Fr, B.card ≤ 14 * (n - 6) ∧
      (AfterBeta τ K d k a A S θ β → ∀ γ, γ ∉ B → AfterGamma τ K d k a A S θ β γ) :=
    fun k a θ A S β => AllBut.imp fun hf => hf
  choose Bγ cγ hγ using s3
  have s4 : ∀ k P θ β γ, ∃ B : Finset Fr, B.card ≤ 22 ∧ (AfterGamma τ K d k P.a P.permA P.permS θ β γ ∧ P.Bounded d →
      ∀ y, y ∉ B → AfterY τ K d k P θ β γ y) :=
    fun k P θ β γ => AllBut.imp fun hf => hf.1 P.z P.Z P.random hf.2
  choose By cy hy using s4
  have s5 : ∀ k P θ β γ y h, ∃ B : Finset Fr, B.card ≤ 4 * max d n + n + 1 ∧
      (AfterY τ K d k P θ β γ y ∧ (∀ i, (h i).natDegree ≤ d) → ∀ x, x ∉ B → AfterX τ K d k P h θ β γ y x) :=
    fun k P θ β γ y h => AllBut.imp fun hf => hf.1 h hf.2
  choose Bx cx hx using s5
  have s6 : ∀ k P θ β γ y h x e, ∃ B : Finset Fr, B.card ≤ 29 ∧
      (AfterX τ K d k P h θ β γ y x → ∀ y', y' ∉ B → AfterY' τ K d k P h e θ β γ y x y') :=
    fun k P θ β γ y h x e => AllBut.imp fun hf => hf e
  choose By' cy' hy' using s6
  have s7 : ∀ k P θ β γ y h x e y', ∃ B : Finset Fr, B.card ≤ 4 ∧
      (AfterY' τ K d k P h e θ β γ y x y' → ∀ v, v ∉ B → AfterV τ K d k P h e θ β γ y x y' v) :=
    fun k P θ β γ y h x e y' => AllBut.imp fun hf => hf
  choose Bv cv hv' using s7
  have s8 : ∀ k P θ β γ y h x e y' v q, ∃ B : Finset Fr, B.card ≤ d + 10 ∧
      (AfterV τ K d k P h e θ β γ y x y' v ∧ natDegree q ≤ d → ∀ u, u ∉ B →
        AfterU τ K d k P h e q ⟨θ, β, γ, y, x, y', v, u⟩) :=
    fun k P θ β γ y h x e y' v q => AllBut.imp fun hf => hf.1 q hf.2
  choose Bu cu hu using s8
  refine ⟨⟨Bθ, Bβ, Bγ, By, Bx, By', Bv, Bu, cθ, cβ, cγ, cy, cx, cy', cv, cu⟩, ?_⟩
  intro k P h q w C e hv c L hP hh hq hw hC hL hQ ho
  by_cases hf : Satisfies K π k P.a
  · exact .inl hf
  refine .inr ?_
  by_contra hcon
  rw [not_or] at hcon
  obtain ⟨hB, hE⟩ := hcon
  simp only [Exceptions.Hit, not_or] at hB
  obtain ⟨b1, b2, b3, b4, b5, b6, b7, b8⟩ := hB
  have t1 := hθ k P.a hf c.θ b1
  have t2 := hβ _ _ _ P.permA P.permS t1 c.β b2
  have t3 := hγ _ _ _ _ _ _ t2 c.γ b3
  have t4 := hy k P _ _ _ ⟨t3, hP⟩ c.y b4
  have t5 := hx _ _ _ _ _ _ h ⟨t4, hh⟩ c.x b5
  have t6 := hy' _ _ _ _ _ _ _ _ e t5 c.y' b6
  have t7 := hv' _ _ _ _ _ _ _ _ _ _ t6 c.v b7
  have t8 := hu _ _ _ _ _ _ _ _ _ _ _ q ⟨t7, hq⟩ c.u b8
  exact hE (t8 w hw C hC L hL hv hQ ho)

/-- τ is the trapdoor of the pairing and the two G2 points. -/
def Ext.Trapdoor (X : Ext) (τ : Fr) : Prop := ∀ P Q : G1, P ≠ 0 → Q ≠ 0 → (X.PairingEq P Q ↔ Q = τ • P)

/-- C55: knowledge soundness of the circuit. If the test engine accepts, whatever the hints answered, then the instance
values were hashed to some k, and for every choice of polynomials of degree ≤ d behind the commitments of the proof: they satisfy
the statement for k, or a Fiat–Shamir challenge of the proof is exceptional, or the polynomials expose the trapdoor. -/
theorem C55_accepted {X : Ext} (hX : X.Strict) {τ : Fr} (hτ : X.Trapdoor τ) {K : VkPolys} (hK : K.Opens τ) {d : ℕ}
    (hKd : K.Bounded d) {π : Equiv.Perm (Fin 7 × Fin (n - 6))} (hπ : EncodesPermutation K π) :
    ∃ B : Exceptions d, ∀ (c : AggregatorCircuit) (E : Engine) (s : St), E.mode = .test → (c.Define X).Accepted E s →
      ∃ bs : List UInt8, bs.length = 32 * (c.TargetInst ++ c.VerifyInst).length ∧ ∃ (k : Fr) (t : List ℤ),
        k = (beNat (X.keccak bs) : ℕ) ∧ SoundAt X c k t ∧
        ∀ (P : Columns) (h : ℕ → Fr[X]) (q w : Fr[X]), P.Bounded d → (∀ i, (h i).natDegree ≤ d) → q.natDegree ≤ d →
          w.natDegree ≤ d → Opens τ K k P h q w (.ofProof (instCommitment k) (proofPoint c.Proof)) →
          Satisfies K π k P.a ∨
          B.Hit k P h (.ofProof (frAt c.Proof)) q
            (challengesFor X.sha256 (instCommitment k) (t.map Int.natAbs)) ∨
          Exposes τ d (openingPoly (challengesFor X.sha256 (instCommitment k) (t.map Int.natAbs)) K k P h q w
            (.ofProof (frAt c.Proof)) (frAt c.Aux 16)) := by
  obtain ⟨B, hB⟩ := C55_exceptions hK hKd hπ
  refine ⟨B, fun c E s hE hacc => ?_⟩
  obtain ⟨bs, hb, t, ht⟩ := C34_sound hX hE hacc
  refine ⟨bs, hb, _, t, rfl, ht, fun P h q w hP hh hq hw hC => ?_⟩
  exact hB _ P h q w _ _ _ _ _ hP hh hq hw hC ht.accepts.lagrange ht.accepts.quotient
    ((hτ _ _ ht.witness_ne ht.accepts.opening_ne).1 ht.accepts.pairing)

/-- C55: with the Keccak hint of the repo, k is the hash of the instance values of the circuit. -/
theorem C55_honest {X : Ext} (hX : X.Strict) {τ : Fr} (hτ : X.Trapdoor τ) {K : VkPolys} (hK : K.Opens τ) {d : ℕ}
    (hKd : K.Bounded d) {π : Equiv.Perm (Fin 7 × Fin (n - 6))} (hπ : EncodesPermutation K π) :
    ∃ B : Exceptions d, ∀ (c : AggregatorCircuit) (E : Engine) (s : St), E.mode = .test →
      (∀ k n ins, E.strat .keccakHint k n ins = Keccak256Hint X n ins) → (∀ v ∈ c.TargetInst ++ c.VerifyInst, v.Good) → s.sat = true →
      (c.Define X).Accepted E s →
      ∃ (k : Fr) (t : List ℤ), k = (beNat (X.keccak ((c.TargetInst ++ c.VerifyInst).flatMap fun v => beBytes v.fr.val 32)) : ℕ) ∧
        SoundAt X c k t ∧
        ∀ (P : Columns) (h : ℕ → Fr[X]) (q w : Fr[X]), P.Bounded d → (∀ i, (h i).natDegree ≤ d) → q.natDegree ≤ d →
          w.natDegree ≤ d → Opens τ K k P h q w (.ofProof (instCommitment k) (proofPoint c.Proof)) →
          Satisfies K π k P.a ∨
          B.Hit k P h (.ofProof (frAt c.Proof)) q
            (challengesFor X.sha256 (instCommitment k) (t.map Int.natAbs)) ∨
          Exposes τ d (openingPoly (challengesFor X.sha256 (instCommitment k) (t.map Int.natAbs)) K k P h q w
            (.ofProof (frAt c.Proof)) (frAt c.Aux 16)) := by
  obtain ⟨B, hB⟩ := C55_exceptions hK hKd hπ
  refine ⟨B, fun c E s hE hk hv hs hacc => ?_⟩
  obtain ⟨t, ht⟩ := C34_honest hX hE hk hv hs hacc
  refine ⟨_, t, rfl, ht, fun P h q w hP hh hq hw hC => ?_⟩
  exact hB _ P h q w _ _ _ _ _ hP hh hq hw hC ht.accepts.lagrange ht.accepts.quotient
    ((hτ _ _ ht.witness_ne ht.accepts.opening_ne).1 ht.accepts.pairing)

/-- The trapdoor exists. -/
example {X : Ext} (hX : X.Bilinear) : ∃ τ, X.Trapdoor τ := hX.trapdoor

/-- A pairing, a verifying key and a permutation that meet the hypotheses of C55: any trapdoor outside the domain, any
permutation. -/
example {τ : Fr} (hτ : τ ^ n ≠ 1) (π : Equiv.Perm (Fin 7 × Fin (n - 6))) :
    ∃ X : Ext, X.Strict ∧ X.Trapdoor τ ∧ ∃ K : VkPolys, K.Opens τ ∧ K.Bounded n ∧ EncodesPermutation K π := by
  refine ⟨stdExt τ, stdExt_strict τ, fun P Q _ _ => stdExt_pairing τ P Q, exists_vkPolys hτ π⟩

/-- Every commitment has polynomials behind it, so C55 says something about every accepted run. -/
example (τ : Fr) (P : G1) : ∃ p : Fr[X], p.natDegree ≤ 0 ∧ P = com τ p := by
  obtain ⟨k, rfl⟩ := exists_smul_gen P
  exact ⟨C k, (natDegree_C k).le, by rw [com, eval_C]⟩

end Verif
