/- What the constraint expressions say on the rows of the table. -/
import Verif.Lemmas.OpeningPoly
import Verif.Lemmas.Quotient
import Verif.Math.GrandProduct

namespace Verif
open Halo2 Polynomial

/-- All constraint expressions vanish on every row. -/
def RowsHold (c : Challenges) (K : VkPolys) (k : Fr) (P : Columns) : Prop :=
  ∀ i < n, ∀ e ∈ constraints { c with x := ω ^ i } (.at (ω ^ i)) (trueEvals K k P (ω ^ i)), e = 0

theorem ω_injOn : Set.InjOn (fun j => ω ^ j) (Finset.range n : Set ℕ) := fun i hi j hj hij =>
  ω_primitive.pow_inj (by simpa using hi) (by simpa using hj) hij

theorem lagrange_self {i : ℕ} (hi : i < n) : lagrange i (ω ^ i) = 1 :=
  Lagrange.eval_basis_self (v := fun j => ω ^ j) ω_injOn (Finset.mem_range.2 hi)

theorem lagrange_other {i j : ℕ} (hi : i < n) (hij : i ≠ j) : lagrange j (ω ^ i) = 0 :=
  Lagrange.eval_basis_of_ne (v := fun j => ω ^ j) hij.symm (Finset.mem_range.2 hi)

theorem n_big : 6 < n := by decide

theorem at_zero : (LagrangeVals.at (ω ^ 0)).zero = 1 := lagrange_self (i := 0) (lt_trans (by decide) n_big)

theorem at_last : (LagrangeVals.at (ω ^ (n - 6))).last = 1 :=
  lagrange_self (Nat.sub_lt (lt_trans (by decide) n_big) (by decide))

theorem at_active {i : ℕ} (hi : i < n - 6) : (LagrangeVals.at (ω ^ i)).active = 1 := by
  have h : ∀ k, k ≤ 6 → (LagrangeVals.at (ω ^ i)).neg k = 0 := fun k hk =>
    lagrange_other (by omega) (by omega)
  rw [LagrangeVals.active, h 6 le_rfl, h 5 (by decide), h 4 (by decide), h 3 (by decide), h 2 (by decide), h 1 (by decide)]
  ring

theorem rot_zero (p : Fr[X]) (i : ℕ) : rotEval p 0 (ω ^ i) = cell p i := by rw [rotEval, zpow_zero, one_mul, cell]
theorem rot_one (p : Fr[X]) (i : ℕ) : rotEval p 1 (ω ^ i) = cell p (i + 1) := by rw [rotEval, zpow_one, cell, ← pow_succ']
theorem rot_two (p : Fr[X]) (i : ℕ) : rotEval p 2 (ω ^ i) = cell p (i + 2) := by
  rw [rotEval, cell, show (2 : ℤ) = ((2 : ℕ) : ℤ) from rfl, zpow_natCast, ← pow_add, add_comm]
theorem rot_prev (p : Fr[X]) (i : ℕ) : rotEval p (-1) (ω ^ (i + 1)) = cell p i := by
  rw [rotEval, cell, zpow_neg, zpow_one, pow_succ', ← mul_assoc, inv_mul_cancel₀ ω_ne, one_mul]
theorem rot_last (p : Fr[X]) : rotEval p (-6) (ω ^ 0) = cell p (n - 6) := by
  rw [rotEval, cell, pow_zero, mul_one, show (-6 : ℤ) = -((6 : ℕ) : ℤ) from rfl, ω_zpow_neg n_big.le]

theorem RowsHold.mem_gates {c : Challenges} {K : VkPolys} {k : Fr} {P : Columns} (H : RowsHold c K k P) {i : ℕ} (hi : i < n) :
    ∀ e ∈ gates (trueEvals K k P (ω ^ i)), e = 0 := fun e he => H i hi e (by
  rw [constraints]
  exact List.mem_append_left _ (List.mem_append_left _ (List.mem_append_left _ he)))

theorem RowsHold.mem_perm {c : Challenges} {K : VkPolys} {k : Fr} {P : Columns} (H : RowsHold c K k P) {i : ℕ} (hi : i < n) :
    ∀ e ∈ permutation { c with x := ω ^ i } (.at (ω ^ i)) (trueEvals K k P (ω ^ i)), e = 0 := fun e he => H i hi e (by
  rw [constraints]
  exact List.mem_append_left _ (List.mem_append_left _ (List.mem_append_right _ he)))

theorem RowsHold.mem_lookup0 {c : Challenges} {K : VkPolys} {k : Fr} {P : Columns} (H : RowsHold c K k P) {i : ℕ} (hi : i < n) :
    ∀ e ∈ lookup { c with x := ω ^ i } (.at (ω ^ i))
      (c.θ * (trueEvals K k P (ω ^ i)).f 9 + (trueEvals K k P (ω ^ i)).a6)
      (c.θ * (trueEvals K k P (ω ^ i)).f 10 + (trueEvals K k P (ω ^ i)).f 11) (trueEvals K k P (ω ^ i)).lookup0, e = 0 :=
  fun e he => H i hi e (by
  rw [constraints]
  exact List.mem_append_left _ (List.mem_append_right _ he))

theorem RowsHold.mem_lookup1 {c : Challenges} {K : VkPolys} {k : Fr} {P : Columns} (H : RowsHold c K k P) {i : ℕ} (hi : i < n) :
    ∀ e ∈ lookup { c with x := ω ^ i } (.at (ω ^ i)) (c.θ * 18 + (trueEvals K k P (ω ^ i)).a7)
      (c.θ * (trueEvals K k P (ω ^ i)).f 10 + (trueEvals K k P (ω ^ i)).f 11) (trueEvals K k P (ω ^ i)).lookup1, e = 0 :=
  fun e he => H i hi e (by
  rw [constraints]
  exact List.mem_append_right _ he)

/-- The gates of `Satisfies`. -/
structure GatesHold (K : VkPolys) (a : ℕ → Fr[X]) : Prop where
  gate : ∀ i < n, cell (K.f 0) i + cell (a 4) (i + 1) * cell (K.f 1) i + cell (a 0) i * cell (K.f 2) i
    + cell (a 1) i * cell (K.f 3) i + cell (a 2) i * cell (K.f 4) i + cell (a 3) i * cell (K.f 5) i
    + cell (a 4) i * cell (K.f 6) i + cell (a 0) i * cell (a 1) i * cell (K.f 7) i
    + cell (a 2) i * cell (a 3) i * cell (K.f 8) i = 0
  limbs1 : ∀ i < n, cell (K.f 12) i ≠ 0 → cell (K.f 12) i ≠ 2 → cell (K.f 12) i ≠ 3 → cell (a 5) i = cell (a 6) i
  limbs4 : ∀ i < n, cell (K.f 12) i ≠ 0 → cell (K.f 12) i ≠ 1 → cell (K.f 12) i ≠ 3 → cell (a 5) i =
    cell (a 7) i + 2 ^ 18 * cell (a 7) (i + 1) + 2 ^ 36 * cell (a 6) i + 2 ^ 54 * cell (a 6) (i + 1)
  limbs6 : ∀ i < n, cell (K.f 12) i ≠ 0 → cell (K.f 12) i ≠ 1 → cell (K.f 12) i ≠ 2 → cell (a 5) i =
    cell (a 7) i + 2 ^ 18 * cell (a 7) (i + 1) + 2 ^ 36 * cell (a 7) (i + 2) + 2 ^ 54 * cell (a 6) i
      + 2 ^ 72 * cell (a 6) (i + 1) + 2 ^ 90 * cell (a 6) (i + 2)

theorem gates_iff (K : VkPolys) (k : Fr) (P : Columns) :
    (∀ i < n, ∀ e ∈ gates (trueEvals K k P (ω ^ i)), e = 0) ↔ GatesHold K P.a := by
  have sel : ∀ {v f a b : Fr}, (v * (f * (f - a) * (f - b)) = 0 ↔ (f ≠ 0 → f ≠ a → f ≠ b → v = 0)) := by
    intro v f a b
    simp only [mul_eq_zero, sub_eq_zero]
    tauto
  have key : ∀ i, (∀ e ∈ gates (trueEvals K k P (ω ^ i)), e = 0) ↔
      (cell (K.f 0) i + cell (P.a 4) (i + 1) * cell (K.f 1) i + cell (P.a 0) i * cell (K.f 2) i
        + cell (P.a 1) i * cell (K.f 3) i + cell (P.a 2) i * cell (K.f 4) i + cell (P.a 3) i * cell (K.f 5) i
        + cell (P.a 4) i * cell (K.f 6) i + cell (P.a 0) i * cell (P.a 1) i * cell (K.f 7) i
        + cell (P.a 2) i * cell (P.a 3) i * cell (K.f 8) i = 0) ∧
      (cell (K.f 12) i ≠ 0 → cell (K.f 12) i ≠ 2 → cell (K.f 12) i ≠ 3 → cell (P.a 5) i - cell (P.a 6) i = 0) ∧
      (cell (K.f 12) i ≠ 0 → cell (K.f 12) i ≠ 1 → cell (K.f 12) i ≠ 3 → cell (P.a 5) i -
        cell (P.a 7) i - 2 ^ 18 * cell (P.a 7) (i + 1) - 2 ^ 36 * cell (P.a 6) i - 2 ^ 54 * cell (P.a 6) (i + 1) = 0) ∧
      (cell (K.f 12) i ≠ 0 → cell (K.f 12) i ≠ 1 → cell (K.f 12) i ≠ 2 → cell (P.a 5) i -
        cell (P.a 7) i - 2 ^ 18 * cell (P.a 7) (i + 1) - 2 ^ 36 * cell (P.a 7) (i + 2) - 2 ^ 54 * cell (P.a 6) i
        - 2 ^ 72 * cell (P.a 6) (i + 1) - 2 ^ 90 * cell (P.a 6) (i + 2) = 0) := by
    intro i
    simp only [gates, trueEvals, List.forall_mem_cons, List.not_mem_nil, IsEmpty.forall_iff, implies_true, and_true,
      rot_zero, rot_one, rot_two, sel]
  simp only [key]
  constructor
  · intro h
    refine ⟨fun i hi => (h i hi).1, fun i hi h0 h1 h2 => ?_, fun i hi h0 h1 h2 => ?_, fun i hi h0 h1 h2 => ?_⟩
    · linear_combination (h i hi).2.1 h0 h1 h2
    · linear_combination (h i hi).2.2.1 h0 h1 h2
    · linear_combination (h i hi).2.2.2 h0 h1 h2
  · intro h i hi
    refine ⟨h.gate i hi, fun h0 h1 h2 => ?_, fun h0 h1 h2 => ?_, fun h0 h1 h2 => ?_⟩
    · linear_combination h.limbs1 i hi h0 h1 h2
    · linear_combination h.limbs4 i hi h0 h1 h2
    · linear_combination h.limbs6 i hi h0 h1 h2

theorem lookup_rows {c : Challenges} {inp tab : ℕ → Fr} {A S Z : Fr[X]}
    (H : ∀ i < n, ∀ e ∈ lookup { c with x := ω ^ i } (.at (ω ^ i)) (inp i) (tab i)
      ⟨rotEval Z 0 (ω ^ i), rotEval Z 1 (ω ^ i), rotEval A 0 (ω ^ i), rotEval A (-1) (ω ^ i), rotEval S 0 (ω ^ i)⟩, e = 0) :
    LookupRows (n - 6) c.β c.γ inp tab (cell A) (cell S) (cell Z) := by
  have nb := n_big
  simp only [lookup, List.forall_mem_cons, List.not_mem_nil, IsEmpty.forall_iff, implies_true, and_true, rot_zero, rot_one] at H
  refine ⟨?_, ?_, fun i hi => ?_, ?_, fun i hi => ?_⟩
  · have := (H 0 (by omega)).1
    rw [at_zero] at this
    linear_combination -this
  · have := (H (n - 6) (by omega)).2.1
    rw [at_last] at this
    linear_combination this
  · have := (H i (by omega)).2.2.1
    rw [at_active hi] at this
    linear_combination this
  · have := (H 0 (by omega)).2.2.2.1
    rw [at_zero] at this
    linear_combination this
  · have := (H (i + 1) (by omega)).2.2.2.2
    rw [at_active hi, one_mul, rot_prev] at this
    rcases mul_eq_zero.1 this with h | h
    · exact .inl (sub_eq_zero.1 h)
    · exact .inr (sub_eq_zero.1 h)

theorem RowsHold.lookup0 {c : Challenges} {K : VkPolys} {k : Fr} {P : Columns} (H : RowsHold c K k P) :
    LookupRows (n - 6) c.β c.γ (fun i => c.θ * cell (K.f 9) i + cell (P.a 6) i)
      (fun i => c.θ * cell (K.f 10) i + cell (K.f 11) i) (cell (P.permA 0)) (cell (P.permS 0)) (cell (P.Z 0)) := by
  refine lookup_rows fun i hi e he => H.mem_lookup0 hi e ?_
  simp only [trueEvals, rot_zero] at he ⊢
  exact he

theorem RowsHold.lookup1 {c : Challenges} {K : VkPolys} {k : Fr} {P : Columns} (H : RowsHold c K k P) :
    LookupRows (n - 6) c.β c.γ (fun i => c.θ * 18 + cell (P.a 7) i)
      (fun i => c.θ * cell (K.f 10) i + cell (K.f 11) i) (cell (P.permA 1)) (cell (P.permS 1)) (cell (P.Z 1)) := by
  refine lookup_rows fun i hi e he => H.mem_lookup1 hi e ?_
  simp only [trueEvals, rot_zero] at he ⊢
  exact he

/-- The factors of the permutation products: cell (j, i) with its own name, and with the value of σ_j. -/
noncomputable def ownFactor (c : Challenges) (K : VkPolys) (k : Fr) (a : ℕ → Fr[X]) (j i : ℕ) : Fr :=
  cell (copyColumn K k a j) i + c.β * (δ ^ j * ω ^ i) + c.γ
noncomputable def sigmaFactor (c : Challenges) (K : VkPolys) (k : Fr) (a : ℕ → Fr[X]) (j i : ℕ) : Fr :=
  cell (copyColumn K k a j) i + c.β * cell (K.σ j) i + c.γ

theorem copy_lt {K : VkPolys} {k : Fr} {a : ℕ → Fr[X]} {j : ℕ} (hj : j < 6) : copyColumn K k a j = a j := if_pos hj
theorem copy_six {K : VkPolys} {k : Fr} {a : ℕ → Fr[X]} (i : ℕ) : cell (copyColumn K k a 6) i = k * cell K.inst i := by
  rw [copyColumn, if_neg (by decide), cell, cell, Polynomial.eval_mul, eval_C]

theorem chunk_two {b g x d0 d1 p p' q q' z zω : Fr} (h : zω * ((p + b * p' + g) * (q + b * q' + g)) -
    z * ((p + b * d0 * x + g) * (q + b * d1 * x + g)) = 0) :
    zω * ((p + b * p' + g) * (q + b * q' + g)) = z * ((p + b * (d0 * x) + g) * (q + b * (d1 * x) + g)) := by
  linear_combination h

theorem chunk_one {b g x d0 p p' z zω : Fr} (h : zω * (p + b * p' + g) - z * (p + b * d0 * x + g) = 0) :
    zω * (p + b * p' + g) = z * (p + b * (d0 * x) + g) := by
  linear_combination h

/-- The row constraints of the permutation argument. -/
structure PermRows (c : Challenges) (K : VkPolys) (k : Fr) (P : Columns) : Prop where
  first : cell (P.z 0) 0 = 1
  last : cell (P.z 3) (n - 6) ^ 2 = cell (P.z 3) (n - 6)
  link : ∀ j < 3, cell (P.z (j + 1)) 0 = cell (P.z j) (n - 6)
  pair : ∀ j < 3, ∀ i < n - 6,
    cell (P.z j) (i + 1) * (sigmaFactor c K k P.a (2 * j) i * sigmaFactor c K k P.a (2 * j + 1) i) =
    cell (P.z j) i * (ownFactor c K k P.a (2 * j) i * ownFactor c K k P.a (2 * j + 1) i)
  inst : ∀ i < n - 6, cell (P.z 3) (i + 1) * sigmaFactor c K k P.a 6 i = cell (P.z 3) i * ownFactor c K k P.a 6 i

theorem RowsHold.perm {c : Challenges} {K : VkPolys} {k : Fr} {P : Columns} (H : RowsHold c K k P) : PermRows c K k P := by
  have nb := n_big
  have H' : ∀ i (hi : i < n), _ := fun i hi => H.mem_perm hi
  simp only [permutation, List.forall_mem_cons, List.not_mem_nil, IsEmpty.forall_iff, implies_true, and_true, Eqs.permChunk_two,
    Eqs.permChunk_one, trueEvals, rot_zero, rot_one] at H'
  refine ⟨?_, ?_, fun j hj => ?_, fun j hj i hi => ?_, fun i hi => ?_⟩
  · have := (H' 0 (by omega)).1
    rw [at_zero] at this
    linear_combination -this
  · have := (H' (n - 6) (by omega)).2.1
    rw [at_last] at this
    linear_combination this
  · obtain ⟨-, -, h0, h1, h2, -⟩ := H' 0 (by omega)
    rw [at_zero, one_mul, rot_last, sub_eq_zero] at h0 h1 h2
    have : j = 0 ∨ j = 1 ∨ j = 2 := by omega
    rcases this with rfl | rfl | rfl
    exacts [h0, h1, h2]
  · obtain ⟨-, -, -, -, -, h0, h1, h2, -⟩ := H' i (by omega)
    rw [at_active hi, one_mul] at h0 h1 h2
    have : j = 0 ∨ j = 1 ∨ j = 2 := by omega
    rcases this with rfl | rfl | rfl
    · simp only [sigmaFactor, ownFactor]
      rw [copy_lt (j := 2 * 0) (by decide), copy_lt (j := 2 * 0 + 1) (by decide)]
      exact chunk_two h0
    · simp only [sigmaFactor, ownFactor]
      rw [copy_lt (j := 2 * 1) (by decide), copy_lt (j := 2 * 1 + 1) (by decide)]
      exact chunk_two h1
    · simp only [sigmaFactor, ownFactor]
      rw [copy_lt (j := 2 * 2) (by decide), copy_lt (j := 2 * 2 + 1) (by decide)]
      exact chunk_two h2
  · obtain ⟨-, -, -, -, -, -, -, -, h3⟩ := H' i (by omega)
    rw [at_active hi, one_mul] at h3
    simp only [sigmaFactor, ownFactor]
    rw [copy_six]
    exact chunk_one h3

theorem prod_cells (g : ℕ → ℕ → Fr) (m : ℕ) : ∏ d : Fin 7 × Fin m, g d.1 d.2 =
    (∏ i ∈ Finset.range m, (g 0 i * g 1 i)) * (∏ i ∈ Finset.range m, (g 2 i * g 3 i)) *
      (∏ i ∈ Finset.range m, (g 4 i * g 5 i)) * ∏ i ∈ Finset.range m, g 6 i := by
  have h : ∀ j, ∏ i : Fin m, g j i = ∏ i ∈ Finset.range m, g j i := fun j => (Finset.prod_range fun i => g j i).symm
  rw [Fintype.prod_prod_type, Fin.prod_univ_seven]
  simp only [h, Finset.prod_mul_distrib]
  have e : ∀ j : Fin 7, ((j : Fin 7) : ℕ) = j.val := fun j => rfl
  simp only [Fin.val_zero, Fin.val_one, Fin.val_two]
  have e3 : ((3 : Fin 7) : ℕ) = 3 := rfl
  have e4 : ((4 : Fin 7) : ℕ) = 4 := rfl
  have e5 : ((5 : Fin 7) : ℕ) = 5 := rfl
  have e6 : ((6 : Fin 7) : ℕ) = 6 := rfl
  rw [e3, e4, e5, e6]
  ring

theorem PermRows.product {c : Challenges} {K : VkPolys} {k : Fr} {P : Columns} (H : PermRows c K k P) :
    ∏ d : Fin 7 × Fin (n - 6), ownFactor c K k P.a d.1 d.2 = 0 ∨
    ∏ d : Fin 7 × Fin (n - 6), ownFactor c K k P.a d.1 d.2 = ∏ d : Fin 7 × Fin (n - 6), sigmaFactor c K k P.a d.1 d.2 := by
  have r0 := running_product (H.pair 0 (by decide))
  have r1 := running_product (H.pair 1 (by decide))
  have r2 := running_product (H.pair 2 (by decide))
  have r3 := running_product H.inst
  have l0 := H.link 0 (by decide)
  have l1 := H.link 1 (by decide)
  have l2 := H.link 2 (by decide)
  have hf := H.first
  have hl : cell (P.z 3) (n - 6) = 0 ∨ cell (P.z 3) (n - 6) = 1 := by
    have : cell (P.z 3) (n - 6) * (cell (P.z 3) (n - 6) - 1) = 0 := by linear_combination H.last
    rcases mul_eq_zero.1 this with h | h
    · exact .inl h
    · exact .inr (sub_eq_zero.1 h)
  simp only [Nat.mul_zero, Nat.zero_add, Nat.mul_one, Nat.reduceMul, Nat.reduceAdd] at r0 r1 r2 l0 l1 l2
  rw [prod_cells, prod_cells]
  revert r0 r1 r2 r3 l0 l1 l2 hf hl
  generalize (∏ i ∈ Finset.range (n - 6), ownFactor c K k P.a 0 i * ownFactor c K k P.a 1 i) = A0
  generalize (∏ i ∈ Finset.range (n - 6), ownFactor c K k P.a 2 i * ownFactor c K k P.a 3 i) = A1
  generalize (∏ i ∈ Finset.range (n - 6), ownFactor c K k P.a 4 i * ownFactor c K k P.a 5 i) = A2
  generalize (∏ i ∈ Finset.range (n - 6), ownFactor c K k P.a 6 i) = A3
  generalize (∏ i ∈ Finset.range (n - 6), sigmaFactor c K k P.a 0 i * sigmaFactor c K k P.a 1 i) = B0
  generalize (∏ i ∈ Finset.range (n - 6), sigmaFactor c K k P.a 2 i * sigmaFactor c K k P.a 3 i) = B1
  generalize (∏ i ∈ Finset.range (n - 6), sigmaFactor c K k P.a 4 i * sigmaFactor c K k P.a 5 i) = B2
  generalize (∏ i ∈ Finset.range (n - 6), sigmaFactor c K k P.a 6 i) = B3
  generalize cell (P.z 0) (n - 6) = y0
  generalize cell (P.z 1) (n - 6) = y1
  generalize cell (P.z 2) (n - 6) = y2
  generalize cell (P.z 3) (n - 6) = y3
  generalize cell (P.z 0) 0 = x0
  generalize cell (P.z 1) 0 = x1
  generalize cell (P.z 2) 0 = x2
  generalize cell (P.z 3) 0 = x3
  intro r3 l1 l2 hf hl r0 r1 r2 l0
  subst hf l0 l1 l2
  have total : A0 * A1 * A2 * A3 = y3 * (B0 * B1 * B2 * B3) := by
    calc A0 * A1 * A2 * A3 = (x1 * B0) * A1 * A2 * A3 := by rw [r0, one_mul]
      _ = (x1 * A1) * B0 * A2 * A3 := by ring
      _ = (x2 * A2) * B1 * B0 * A3 := by rw [← r1]; ring
      _ = (x3 * A3) * B2 * B1 * B0 := by rw [← r2]; ring
      _ = y3 * (B0 * B1 * B2 * B3) := by rw [← r3]; ring
  rcases hl with h | h
  · left; rw [total, h, zero_mul]
  · right; rw [total, h, one_mul]

theorem δ_pow_ne (t : ℕ) (h1 : 1 ≤ t) (h6 : t ≤ 6) : (δ ^ t) ^ n ≠ 1 := by
  have key : ∀ e, e < 2 ^ 512 → powMod rMod 7 e % rMod ≠ 1 % rMod → (7 : Fr) ^ e ≠ 1 := by
    intro e he hne h
    have h1 := powMod_cast rMod 7 e he
    rw [Nat.cast_ofNat, h, ← Nat.cast_one] at h1
    exact absurd h1 (fr_ne_of_mod hne)
  rw [δ, ← pow_mul, ← pow_mul]
  have : t = 1 ∨ t = 2 ∨ t = 3 ∨ t = 4 ∨ t = 5 ∨ t = 6 := by omega
  rcases this with rfl | rfl | rfl | rfl | rfl | rfl <;> exact key _ (by decide +kernel) (by decide +kernel)

theorem δ_ne : δ ≠ 0 := fun h => by
  have := δ_eq
  rw [h, ← Nat.cast_zero] at this
  exact absurd this (fr_ne_of_mod (by decide +kernel))

theorem name_lt {a b i j : ℕ} (hab : a < b) (hb : b < 7) : δ ^ a * ω ^ i ≠ δ ^ b * ω ^ j := by
  intro h
  refine δ_pow_ne (b - a) (by omega) (by omega) ?_
  have hd := δ_ne
  have hw := ω_pow_n
  generalize δ = d at *
  generalize ω = w at *
  obtain ⟨t, rfl⟩ := Nat.exists_eq_add_of_le hab.le
  rw [pow_add, mul_assoc] at h
  have h1 := mul_left_cancel₀ (pow_ne_zero a hd) h
  have h2 := congrArg (fun x => x ^ n) h1
  simp only [mul_pow] at h2
  have h3 : ∀ l : ℕ, (w ^ l) ^ n = 1 := fun l => by rw [← pow_mul, mul_comm, pow_mul, hw, one_pow]
  rw [h3, h3, mul_one] at h2
  rw [Nat.add_sub_cancel_left]
  exact h2.symm

/-- The names of the cells are distinct. -/
theorem name_injective : Function.Injective fun c : Fin 7 × Fin (n - 6) => δ ^ (c.1 : ℕ) * ω ^ (c.2 : ℕ) := by
  rintro ⟨⟨a, ha⟩, ⟨i, hi⟩⟩ ⟨⟨b, hb⟩, ⟨j, hj⟩⟩ h
  simp only [] at h
  have hab : a = b := by
    rcases Nat.lt_trichotomy a b with h1 | h1 | h1
    · exact absurd h (name_lt h1 hb)
    · exact h1
    · exact absurd h.symm (name_lt h1 ha)
  subst hab
  have h1 := mul_left_cancel₀ (pow_ne_zero a δ_ne) h
  have : i = j := ω_injOn (by rw [Finset.coe_range, Set.mem_Iio]; omega) (by rw [Finset.coe_range, Set.mem_Iio]; omega) h1
  subst this
  rfl

/-- The number of cells of the copy constraints. -/
def cells : ℕ := 7 * (n - 6)

/-- If the statement is false then, for all but a few θ, β and γ, no further polynomials make the constraints hold on
every row. -/
theorem rows_sound {K : VkPolys} {π : Equiv.Perm (Fin 7 × Fin (n - 6))} (hπ : EncodesPermutation K π) {k : Fr} {a : ℕ → Fr[X]}
    (hf : ¬ Satisfies K π k a) :
    AllBut n fun θ => ∀ permA permS : ℕ → Fr[X], AllBut cells fun β => AllBut (2 * cells) fun γ =>
      ∀ c : Challenges, c.θ = θ → c.β = β → c.γ = γ → ∀ (z Z : ℕ → Fr[X]) (random : Fr[X]),
        ¬ RowsHold c K k ⟨a, permA, permS, z, Z, random⟩ := by
  have nb := n_big
  by_cases hg : GatesHold K a
  swap
  · refine .of_forall fun θ permA permS => .of_forall fun β => .of_forall fun γ => ?_
    rintro c rfl rfl rfl z Z random H
    exact hg ((gates_iff K k ⟨a, permA, permS, z, Z, random⟩).1 fun i hi => H.mem_gates hi)
  by_cases hc : ∀ c : Fin 7 × Fin (n - 6), cell (copyColumn K k a c.1) c.2 = cell (copyColumn K k a (π c).1) (π c).2
  swap
  · rw [not_forall] at hc
    obtain ⟨c0, hc⟩ := hc
    refine .of_forall fun θ permA permS => ?_
    have hcard : Fintype.card (Fin 7 × Fin (n - 6)) = cells := by rw [Fintype.card_prod, Fintype.card_fin, Fintype.card_fin, cells]
    have h1 := copy_sound (fun c : Fin 7 × Fin (n - 6) => cell (copyColumn K k a c.1) c.2) _ name_injective π hc
    rw [hcard] at h1
    refine h1.mono le_rfl fun β h2 => h2.mono le_rfl fun γ h3 => ?_
    rintro c rfl rfl rfl z Z random H
    have h4 := H.perm.product
    simp only [ownFactor, sigmaFactor] at h4
    rcases h4 with h4 | h4
    · exact h3.1 h4
    · refine h3.2 (h4.trans (Finset.prod_congr rfl fun d _ => ?_))
      rw [hπ d]
  by_cases h0 : ∀ i < n - 6, ∃ j < n - 6, cell (K.f 9) i = cell (K.f 10) j ∧ cell (a 6) i = cell (K.f 11) j
  swap
  · simp only [not_forall, not_exists, not_and] at h0
    obtain ⟨i, hi, h0⟩ := h0
    refine (compress_sound (m := n - 6) (a := cell (K.f 9) i) (b := cell (a 6) i) (t := cell (K.f 10)) (s := cell (K.f 11))
      fun j hj h => h0 j hj h.1 h.2).mono (by omega) fun θ hθ permA permS => ?_
    refine (lookup_sound (inp := fun i => θ * cell (K.f 9) i + cell (a 6) i)
      (tab := fun i => θ * cell (K.f 10) i + cell (K.f 11) i) hi hθ (cell (permA 0)) (cell (permS 0))).mono
      (by rw [cells]; omega) fun β h2 => h2.mono (by rw [cells]; omega) fun γ h3 => ?_
    rintro c rfl rfl rfl z Z random H
    exact h3 _ H.lookup0
  by_cases h1 : ∀ i < n - 6, ∃ j < n - 6, 18 = cell (K.f 10) j ∧ cell (a 7) i = cell (K.f 11) j
  swap
  · simp only [not_forall, not_exists, not_and] at h1
    obtain ⟨i, hi, h1⟩ := h1
    refine (compress_sound (m := n - 6) (a := 18) (b := cell (a 7) i) (t := cell (K.f 10)) (s := cell (K.f 11))
      fun j hj h => h1 j hj h.1 h.2).mono (by omega) fun θ hθ permA permS => ?_
    refine (lookup_sound (inp := fun i => θ * 18 + cell (a 7) i)
      (tab := fun i => θ * cell (K.f 10) i + cell (K.f 11) i) hi hθ (cell (permA 1)) (cell (permS 1))).mono
      (by rw [cells]; omega) fun β h2 => h2.mono (by rw [cells]; omega) fun γ h3 => ?_
    rintro c rfl rfl rfl z Z random H
    exact h3 _ H.lookup1
  · exact absurd ⟨hg.gate, hg.limbs1, hg.limbs4, hg.limbs6, hc, h0, h1⟩ hf

end Verif
