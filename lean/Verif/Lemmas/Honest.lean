/- The honest prover's columns and quotient. -/
import Verif.Lemmas.Prover
import Verif.Math.Honest

namespace Verif
open Halo2 Polynomial

theorem at_zero_ne {i : ℕ} (hi : i < n) (h : i ≠ 0) : (LagrangeVals.at (ω ^ i)).zero = 0 := lagrange_other hi h

theorem at_last_ne {i : ℕ} (hi : i < n) (h : i ≠ n - 6) : (LagrangeVals.at (ω ^ i)).last = 0 := lagrange_other hi h

theorem at_inactive {i : ℕ} (hi : i < n) (h : ¬ i < n - 6) : (LagrangeVals.at (ω ^ i)).active = 0 := by
  have nb := n_big
  have h0 : ∀ k, i ≠ n - k → (LagrangeVals.at (ω ^ i)).neg k = 0 := fun k hk => lagrange_other hi hk
  have h1 : ∀ k, i = n - k → (LagrangeVals.at (ω ^ i)).neg k = 1 := fun k hk => by
    subst hk
    exact lagrange_self hi
  rw [LagrangeVals.active]
  have : i = n - 1 ∨ i = n - 2 ∨ i = n - 3 ∨ i = n - 4 ∨ i = n - 5 ∨ i = n - 6 := by omega
  rcases this with h | h | h | h | h | h
  · rw [h1 1 h, h0 2 (by omega), h0 3 (by omega), h0 4 (by omega), h0 5 (by omega), h0 6 (by omega)]; ring
  · rw [h1 2 h, h0 1 (by omega), h0 3 (by omega), h0 4 (by omega), h0 5 (by omega), h0 6 (by omega)]; ring
  · rw [h1 3 h, h0 2 (by omega), h0 1 (by omega), h0 4 (by omega), h0 5 (by omega), h0 6 (by omega)]; ring
  · rw [h1 4 h, h0 2 (by omega), h0 3 (by omega), h0 1 (by omega), h0 5 (by omega), h0 6 (by omega)]; ring
  · rw [h1 5 h, h0 2 (by omega), h0 3 (by omega), h0 4 (by omega), h0 1 (by omega), h0 6 (by omega)]; ring
  · rw [h1 6 h, h0 2 (by omega), h0 3 (by omega), h0 4 (by omega), h0 5 (by omega), h0 1 (by omega)]; ring

theorem sel_zero {i : ℕ} (hi : i < n) {v : Fr} (h : i = 0 → v = 0) : (LagrangeVals.at (ω ^ i)).zero * v = 0 := by
  by_cases h0 : i = 0
  · rw [h h0, mul_zero]
  · rw [at_zero_ne hi h0, zero_mul]

theorem sel_last {i : ℕ} (hi : i < n) {v : Fr} (h : i = n - 6 → v = 0) : (LagrangeVals.at (ω ^ i)).last * v = 0 := by
  by_cases h0 : i = n - 6
  · rw [h h0, mul_zero]
  · rw [at_last_ne hi h0, zero_mul]

theorem sel_active {i : ℕ} (hi : i < n) {v : Fr} (h : i < n - 6 → v = 0) : (LagrangeVals.at (ω ^ i)).active * v = 0 := by
  by_cases h0 : i < n - 6
  · rw [h h0, mul_zero]
  · rw [at_inactive hi h0, zero_mul]

theorem lookup_rows_conv {c : Challenges} {inp tab : ℕ → Fr} {A S Z : Fr[X]}
    (H : LookupRows (n - 6) c.β c.γ inp tab (cell A) (cell S) (cell Z)) :
    ∀ i < n, ∀ e ∈ lookup { c with x := ω ^ i } (.at (ω ^ i)) (inp i) (tab i)
      ⟨rotEval Z 0 (ω ^ i), rotEval Z 1 (ω ^ i), rotEval A 0 (ω ^ i), rotEval A (-1) (ω ^ i), rotEval S 0 (ω ^ i)⟩, e = 0 := by
  intro i hi
  simp only [lookup, List.forall_mem_cons, List.not_mem_nil, IsEmpty.forall_iff, implies_true, and_true, rot_zero, rot_one]
  refine ⟨sel_zero hi ?_, sel_last hi ?_, sel_active hi fun h => ?_, sel_zero hi ?_, sel_active hi fun h => ?_⟩
  · rintro rfl
    rw [H.first, sub_self]
  · intro h
    rw [h, H.last, sub_self]
  · rw [H.step i h, sub_self]
  · rintro rfl
    rw [H.start, sub_self]
  · cases i with
    | zero => rw [H.start, sub_self, zero_mul]
    | succ i =>
      rw [rot_prev]
      rcases H.order i h with h1 | h1
      · rw [h1, sub_self, zero_mul]
      · rw [h1, sub_self, mul_zero]

theorem chunk_two' {b g x d0 d1 p p' q q' z zω : Fr}
    (h : zω * ((p + b * p' + g) * (q + b * q' + g)) = z * ((p + b * (d0 * x) + g) * (q + b * (d1 * x) + g))) :
    zω * ((p + b * p' + g) * (q + b * q' + g)) - z * ((p + b * d0 * x + g) * (q + b * d1 * x + g)) = 0 := by
  linear_combination h

theorem chunk_one' {b g x d0 p p' z zω : Fr} (h : zω * (p + b * p' + g) = z * (p + b * (d0 * x) + g)) :
    zω * (p + b * p' + g) - z * (p + b * d0 * x + g) = 0 := by
  linear_combination h

theorem perm_rows_conv {c : Challenges} {K : VkPolys} {k : Fr} {P : Columns} (H : PermRows c K k P) :
    ∀ i < n, ∀ e ∈ permutation { c with x := ω ^ i } (.at (ω ^ i)) (trueEvals K k P (ω ^ i)), e = 0 := by
  intro i hi
  simp only [permutation, List.forall_mem_cons, List.not_mem_nil, IsEmpty.forall_iff, implies_true, and_true, Eqs.permChunk_two,
    Eqs.permChunk_one, trueEvals, rot_zero, rot_one]
  have hp := H.pair
  simp only [sigmaFactor, ownFactor] at hp
  refine ⟨sel_zero hi ?_, sel_last hi ?_, sel_zero hi ?_, sel_zero hi ?_, sel_zero hi ?_, sel_active hi fun h => ?_,
    sel_active hi fun h => ?_, sel_active hi fun h => ?_, sel_active hi fun h => ?_⟩
  · rintro rfl
    rw [H.first, sub_self]
  · intro h
    rw [h, H.last, sub_self]
  · rintro rfl
    rw [rot_last, H.link 0 (by decide), sub_self]
  · rintro rfl
    rw [rot_last, H.link 1 (by decide), sub_self]
  · rintro rfl
    rw [rot_last, H.link 2 (by decide), sub_self]
  · have h1 := hp 0 (by decide) i h
    rw [copy_lt (j := 2 * 0) (by decide), copy_lt (j := 2 * 0 + 1) (by decide)] at h1
    exact chunk_two' h1
  · have h1 := hp 1 (by decide) i h
    rw [copy_lt (j := 2 * 1) (by decide), copy_lt (j := 2 * 1 + 1) (by decide)] at h1
    exact chunk_two' h1
  · have h1 := hp 2 (by decide) i h
    rw [copy_lt (j := 2 * 2) (by decide), copy_lt (j := 2 * 2 + 1) (by decide)] at h1
    exact chunk_two' h1
  · have h1 := H.inst i h
    simp only [sigmaFactor, ownFactor] at h1
    rw [copy_six] at h1
    exact chunk_one' h1

/-- The row constraints in terms of the four arguments. -/
theorem rowsHold_of {c : Challenges} {K : VkPolys} {k : Fr} {P : Columns} (hg : GatesHold K P.a) (hp : PermRows c K k P)
    (h0 : LookupRows (n - 6) c.β c.γ (fun i => c.θ * cell (K.f 9) i + cell (P.a 6) i)
      (fun i => c.θ * cell (K.f 10) i + cell (K.f 11) i) (cell (P.permA 0)) (cell (P.permS 0)) (cell (P.Z 0)))
    (h1 : LookupRows (n - 6) c.β c.γ (fun i => c.θ * 18 + cell (P.a 7) i)
      (fun i => c.θ * cell (K.f 10) i + cell (K.f 11) i) (cell (P.permA 1)) (cell (P.permS 1)) (cell (P.Z 1))) :
    RowsHold c K k P := by
  intro i hi e he
  rw [constraints, List.mem_append, List.mem_append, List.mem_append] at he
  rcases he with ((he | he) | he) | he
  · exact (gates_iff K k P).2 hg i hi e he
  · exact perm_rows_conv hp i hi e he
  · refine lookup_rows_conv h0 i hi e ?_
    simp only [trueEvals, rot_zero] at he ⊢
    exact he
  · refine lookup_rows_conv h1 i hi e ?_
    simp only [trueEvals, rot_zero] at he ⊢
    exact he

/-- The honest quotient. -/
theorem quotient_complete {c : Challenges} {K : VkPolys} {k : Fr} {P : Columns} (hK : K.Bounded n) (hP : P.Bounded n)
    (H : RowsHold c K k P) (y : Fr) :
    ∃ h : ℕ → Fr[X], (∀ i, (h i).natDegree ≤ n) ∧
      ∀ x, trueQuotient h x * (x ^ n - 1) = combine y (constraints { c with x := x } (.at x) (trueEvals K k P x)) := by
  obtain ⟨p, hp, he⟩ := (constraints_fns (k := k) c hK hP).combine y
  have nb := n_big
  obtain ⟨h, hh, hq⟩ := exists_pieces (m := n) (by omega) ω_pow_n ω_injOn (p := p) (by rw [max_self] at hp; exact hp) fun i hi => by
    rw [he]
    have : ∀ l : List Fr, (∀ e ∈ l, e = 0) → combine y l = 0 := by
      intro l hl
      induction l using List.reverseRecOn with
      | nil => rfl
      | append_singleton l e ih =>
        rw [combine_concat, ih fun e he => hl e (List.mem_append_left _ he), hl e (List.mem_append_right _ (List.mem_singleton_self e)),
          zero_mul, zero_add]
    exact this _ (H i hi)
  refine ⟨h, hh, fun x => ?_⟩
  refine Eq.trans ?_ (he x)
  rw [← hq, trueQuotient, rotEval, rotEval, rotEval, zpow_zero, one_mul]

theorem LookupRows.congr {m : ℕ} {β γ : Fr} {inp tab A S Z A' S' Z' : ℕ → Fr} (h : LookupRows m β γ inp tab A S Z) (hm : 0 < m)
    (hA : ∀ i < m, A' i = A i) (hS : ∀ i < m, S' i = S i) (hZ : ∀ i ≤ m, Z' i = Z i) : LookupRows m β γ inp tab A' S' Z' := by
  refine ⟨?_, ?_, fun i hi => ?_, ?_, fun i hi => ?_⟩
  · rw [hZ 0 hm.le, h.first]
  · rw [hZ m le_rfl, h.last]
  · rw [hZ (i + 1) hi, hA i hi, hS i hi, hZ i hi.le, h.step i hi]
  · rw [hA 0 hm, hS 0 hm, h.start]
  · rw [hA (i + 1) hi, hS (i + 1) hi, hA i (by omega)]
    exact h.order i hi

/-- The products of the factors agree if the copy constraints hold. -/
theorem factors_prod {K : VkPolys} {π : Equiv.Perm (Fin 7 × Fin (n - 6))} (hπ : EncodesPermutation K π) {k : Fr} {a : ℕ → Fr[X]}
    (hcopy : ∀ c : Fin 7 × Fin (n - 6), cell (copyColumn K k a c.1) c.2 = cell (copyColumn K k a (π c).1) (π c).2) (c : Challenges) :
    ∏ d : Fin 7 × Fin (n - 6), sigmaFactor c K k a d.1 d.2 = ∏ d : Fin 7 × Fin (n - 6), ownFactor c K k a d.1 d.2 := by
  refine Fintype.prod_equiv π _ _ fun d => ?_
  rw [sigmaFactor, ownFactor, hπ d, hcopy d]

/-- The honest running products of the permutation argument. -/
theorem perm_complete {K : VkPolys} {k : Fr} {a : ℕ → Fr[X]} {c : Challenges}
    (hprod : ∏ d : Fin 7 × Fin (n - 6), sigmaFactor c K k a d.1 d.2 = ∏ d : Fin 7 × Fin (n - 6), ownFactor c K k a d.1 d.2)
    (hne : ∀ j < 7, ∀ i < n - 6, sigmaFactor c K k a j i ≠ 0) :
    ∃ z : ℕ → ℕ → Fr, z 0 0 = 1 ∧ z 3 (n - 6) = 1 ∧ (∀ j < 3, z (j + 1) 0 = z j (n - 6)) ∧
      (∀ j < 3, ∀ i < n - 6, z j (i + 1) * (sigmaFactor c K k a (2 * j) i * sigmaFactor c K k a (2 * j + 1) i) =
        z j i * (ownFactor c K k a (2 * j) i * ownFactor c K k a (2 * j + 1) i)) ∧
      (∀ i < n - 6, z 3 (i + 1) * sigmaFactor c K k a 6 i = z 3 i * ownFactor c K k a 6 i) := by
  rw [prod_cells, prod_cells] at hprod
  have nz : ∀ j < 3, ∀ i < n - 6, sigmaFactor c K k a (2 * j) i * sigmaFactor c K k a (2 * j + 1) i ≠ 0 := fun j hj i hi =>
    mul_ne_zero (hne _ (by omega) i hi) (hne _ (by omega) i hi)
  have nz3 : ∀ i < n - 6, sigmaFactor c K k a 6 i ≠ 0 := hne 6 (by decide)
  obtain ⟨O, hO⟩ : ∃ O : ℕ → ℕ → Fr, O = fun j i => ownFactor c K k a (2 * j) i * ownFactor c K k a (2 * j + 1) i := ⟨_, rfl⟩
  obtain ⟨S, hS⟩ : ∃ S : ℕ → ℕ → Fr, S = fun j i => sigmaFactor c K k a (2 * j) i * sigmaFactor c K k a (2 * j + 1) i := ⟨_, rfl⟩
  have nz' : ∀ j < 3, ∀ i < n - 6, S j i ≠ 0 := by rw [hS]; exact nz
  have hprod' : (∏ i ∈ Finset.range (n - 6), S 0 i) * (∏ i ∈ Finset.range (n - 6), S 1 i) * (∏ i ∈ Finset.range (n - 6), S 2 i) *
      (∏ i ∈ Finset.range (n - 6), sigmaFactor c K k a 6 i) = (∏ i ∈ Finset.range (n - 6), O 0 i) * (∏ i ∈ Finset.range (n - 6), O 1 i) *
      (∏ i ∈ Finset.range (n - 6), O 2 i) * (∏ i ∈ Finset.range (n - 6), ownFactor c K k a 6 i) := by
    rw [hS, hO]; exact hprod
  obtain ⟨z0, e0⟩ : ∃ z, z = runningProduct 1 (O 0) (S 0) := ⟨_, rfl⟩
  obtain ⟨z1, e1⟩ : ∃ z, z = runningProduct (z0 (n - 6)) (O 1) (S 1) := ⟨_, rfl⟩
  obtain ⟨z2, e2⟩ : ∃ z, z = runningProduct (z1 (n - 6)) (O 2) (S 2) := ⟨_, rfl⟩
  obtain ⟨z3, e3⟩ : ∃ z, z = runningProduct (z2 (n - 6)) (ownFactor c K k a 6) (sigmaFactor c K k a 6) := ⟨_, rfl⟩
  have p0 := runningProduct_mul 1 (O 0) (S 0) (nz' 0 (by decide))
  have p1 := runningProduct_mul (z0 (n - 6)) (O 1) (S 1) (nz' 1 (by decide))
  have p2 := runningProduct_mul (z1 (n - 6)) (O 2) (S 2) (nz' 2 (by decide))
  have p3 := runningProduct_mul (z2 (n - 6)) (ownFactor c K k a 6) (sigmaFactor c K k a 6) nz3
  rw [← e0] at p0; rw [← e1] at p1; rw [← e2] at p2; rw [← e3] at p3
  have hlast : z3 (n - 6) = 1 := by
    have pn : ∀ f : ℕ → Fr, (∀ i < n - 6, f i ≠ 0) → ∏ i ∈ Finset.range (n - 6), f i ≠ 0 := fun f hf =>
      Finset.prod_ne_zero_iff.2 fun i hi => hf i (Finset.mem_range.1 hi)
    have q0 := pn _ (nz' 0 (by decide)); have q1 := pn _ (nz' 1 (by decide)); have q2 := pn _ (nz' 2 (by decide)); have q3 := pn _ nz3
    clear e0 e1 e2 e3 pn nz nz' nz3 hprod
    generalize ∏ i ∈ Finset.range (n - 6), S 0 i = S0 at *
    generalize ∏ i ∈ Finset.range (n - 6), S 1 i = S1 at *
    generalize ∏ i ∈ Finset.range (n - 6), S 2 i = S2 at *
    generalize ∏ i ∈ Finset.range (n - 6), sigmaFactor c K k a 6 i = S3 at *
    generalize ∏ i ∈ Finset.range (n - 6), O 0 i = O0 at *
    generalize ∏ i ∈ Finset.range (n - 6), O 1 i = O1 at *
    generalize ∏ i ∈ Finset.range (n - 6), O 2 i = O2 at *
    generalize ∏ i ∈ Finset.range (n - 6), ownFactor c K k a 6 i = O3 at *
    generalize z0 (n - 6) = y0 at *
    generalize z1 (n - 6) = y1 at *
    generalize z2 (n - 6) = y2 at *
    generalize z3 (n - 6) = y3 at *
    have hne : S0 * S1 * S2 * S3 ≠ 0 := mul_ne_zero (mul_ne_zero (mul_ne_zero q0 q1) q2) q3
    refine mul_right_cancel₀ hne ?_
    rw [one_mul]
    refine Eq.trans ?_ hprod'.symm
    calc y3 * (S0 * S1 * S2 * S3) = (y3 * S3) * (S0 * S1 * S2) := by ring
      _ = (y2 * S2) * O3 * (S0 * S1) := by rw [p3]; ring
      _ = (y1 * S1) * O2 * O3 * S0 := by rw [p2]; ring
      _ = (y0 * S0) * O1 * O2 * O3 := by rw [p1]; ring
      _ = O0 * O1 * O2 * O3 := by rw [p0]; ring
  refine ⟨fun j => if j = 0 then z0 else if j = 1 then z1 else if j = 2 then z2 else z3, ?_, ?_, ?_, ?_, ?_⟩
  · show z0 0 = 1
    rw [e0, runningProduct_zero]
  · exact hlast
  · intro j hj
    have : j = 0 ∨ j = 1 ∨ j = 2 := by omega
    rcases this with rfl | rfl | rfl
    · show z1 0 = z0 (n - 6)
      rw [e1, runningProduct_zero]
    · show z2 0 = z1 (n - 6)
      rw [e2, runningProduct_zero]
    · show z3 0 = z2 (n - 6)
      rw [e3, runningProduct_zero]
  · intro j hj i hi
    have h := nz' j hj i hi
    have eO : O j i = ownFactor c K k a (2 * j) i * ownFactor c K k a (2 * j + 1) i := by rw [hO]
    have eS : S j i = sigmaFactor c K k a (2 * j) i * sigmaFactor c K k a (2 * j + 1) i := by rw [hS]
    rw [← eO, ← eS]
    have : j = 0 ∨ j = 1 ∨ j = 2 := by omega
    rcases this with rfl | rfl | rfl
    · show z0 (i + 1) * S 0 i = z0 i * O 0 i
      rw [e0]; exact runningProduct_succ _ _ _ h
    · show z1 (i + 1) * S 1 i = z1 i * O 1 i
      rw [e1]; exact runningProduct_succ _ _ _ h
    · show z2 (i + 1) * S 2 i = z2 i * O 2 i
      rw [e2]; exact runningProduct_succ _ _ _ h
  · intro i hi
    show z3 (i + 1) * _ = z3 i * _
    rw [e3]; exact runningProduct_succ _ _ _ (nz3 i hi)

theorem exists_columns (v : ℕ → ℕ → Fr) : ∃ p : ℕ → Fr[X], (∀ j, (p j).natDegree ≤ n) ∧ ∀ j, ∀ i < n, cell (p j) i = v j i := by
  choose p h1 h2 using fun j => exists_column' (v j)
  exact ⟨p, h1, h2⟩

/-- The honest permuted columns and running products, with freely chosen values on the rows from n - 6 (n - 5) on. -/
theorem rows_complete {K : VkPolys} {π : Equiv.Perm (Fin 7 × Fin (n - 6))} (hπ : EncodesPermutation K π) {k : Fr} {a : ℕ → Fr[X]}
    (hS : Satisfies K π k a) (θ : Fr) (bA bS : ℕ → ℕ → Fr) :
    ∃ permA permS : ℕ → Fr[X], (∀ j, (permA j).natDegree ≤ n) ∧ (∀ j, (permS j).natDegree ≤ n) ∧
      (∀ j i, n - 6 ≤ i → i < n → cell (permA j) i = bA j i ∧ cell (permS j) i = bS j i) ∧
      AllBut (2 * (n - 6)) fun β => AllBut (9 * (n - 6)) fun γ => ∀ bz bZ : ℕ → ℕ → Fr, ∃ z Z : ℕ → Fr[X],
        (∀ j, (z j).natDegree ≤ n) ∧ (∀ j, (Z j).natDegree ≤ n) ∧
        (∀ j i, n - 6 < i → i < n → cell (z j) i = bz j i ∧ cell (Z j) i = bZ j i) ∧
        ∀ (random : Fr[X]) (c : Challenges), c.θ = θ → c.β = β → c.γ = γ → RowsHold c K k ⟨a, permA, permS, z, Z, random⟩ := by
  have nb := n_big
  have hm : 0 < n - 6 := by omega
  -- the two lookups as one family
  obtain ⟨inp, hinp⟩ : ∃ inp : ℕ → ℕ → Fr, inp = fun j i => if j = 0 then θ * cell (K.f 9) i + cell (a 6) i else θ * 18 + cell (a 7) i := ⟨_, rfl⟩
  obtain ⟨tab, htab⟩ : ∃ tab : ℕ → Fr, tab = fun i => θ * cell (K.f 10) i + cell (K.f 11) i := ⟨_, rfl⟩
  have hlk : ∀ j, ∀ i < n - 6, ∃ l < n - 6, inp j i = tab l := by
    intro j i hi
    rw [hinp, htab]
    beta_reduce
    split
    · obtain ⟨l, hl, h1, h2⟩ := hS.lookup0 i hi
      exact ⟨l, hl, by rw [h1, h2]⟩
    · obtain ⟨l, hl, h1, h2⟩ := hS.lookup1 i hi
      exact ⟨l, hl, by rw [h1, h2]⟩
  choose A S s1 s2 s3 s4 using fun j => exists_permuted_columns hm (hlk j)
  obtain ⟨permA, pa1, pa2⟩ := exists_columns fun j i => if i < n - 6 then A j i else bA j i
  obtain ⟨permS, ps1, ps2⟩ := exists_columns fun j i => if i < n - 6 then S j i else bS j i
  have pa3 : ∀ j, ∀ i < n - 6, cell (permA j) i = A j i := fun j i hi => by rw [pa2 j i (by omega), if_pos hi]
  have ps3 : ∀ j, ∀ i < n - 6, cell (permS j) i = S j i := fun j i hi => by rw [ps2 j i (by omega), if_pos hi]
  refine ⟨permA, permS, pa1, ps1, fun j i h1 h2 => ⟨by rw [pa2 j i h2, if_neg (by omega)], by rw [ps2 j i h2, if_neg (by omega)]⟩, ?_⟩
  refine ((ne_allBut (n - 6) (A 0)).and (ne_allBut (n - 6) (A 1))).mono (by omega) fun β hβ => ?_
  have hσ : AllBut (7 * (n - 6)) fun γ : Fr => ∀ j < 7, ∀ i < n - 6, cell (copyColumn K k a j) i + β * cell (K.σ j) i + γ ≠ 0 := by
    refine (prod_ne_zero_allBut (Finset.univ : Finset (Fin 7 × Fin (n - 6)))
      fun d => cell (copyColumn K k a d.1) d.2 + β * cell (K.σ d.1) d.2).mono ?_ fun γ hγ j hj i hi => ?_
    · rw [Finset.card_univ, Fintype.card_prod, Fintype.card_fin, Fintype.card_fin]
    · exact Finset.prod_ne_zero_iff.1 hγ (⟨j, hj⟩, ⟨i, hi⟩) (Finset.mem_univ _)
  refine ((hσ.and (ne_allBut (n - 6) (S 0))).and (ne_allBut (n - 6) (S 1))).mono (by omega) ?_
  rintro γ ⟨⟨h7, h0⟩, h1⟩ bz bZ
  obtain ⟨Z0, l0, -⟩ := lookup_complete (s1 0) (s2 0) (s3 0) (s4 0) hβ.1 h0
  obtain ⟨Z1, l1, -⟩ := lookup_complete (s1 1) (s2 1) (s3 1) (s4 1) hβ.2 h1
  obtain ⟨z', f1, f2, f3, f4, f5⟩ := perm_complete (c := ⟨θ, β, γ, 0, 0, 0, 0, 0⟩) (factors_prod hπ hS.copy _) h7
  obtain ⟨z, z1, z2⟩ := exists_columns fun j i => if i ≤ n - 6 then z' j i else bz j i
  obtain ⟨Z, Zd, Z2⟩ := exists_columns fun j i => if i ≤ n - 6 then (if j = 0 then Z0 i else Z1 i) else bZ j i
  refine ⟨z, Z, z1, Zd, fun j i g1 g2 => ⟨by rw [z2 j i g2, if_neg (by omega)], by rw [Z2 j i g2, if_neg (by omega)]⟩, ?_⟩
  rintro random c rfl rfl rfl
  have zc : ∀ j, ∀ i ≤ n - 6, cell (z j) i = z' j i := fun j i hi => by rw [z2 j i (by omega), if_pos hi]
  refine rowsHold_of ⟨hS.gate, hS.limbs1, hS.limbs4, hS.limbs6⟩ ⟨?_, ?_, fun j hj => ?_, fun j hj i hi => ?_, fun i hi => ?_⟩ ?_ ?_
  · rw [zc 0 0 (Nat.zero_le _), f1]
  · rw [zc 3 (n - 6) le_rfl, f2, one_pow]
  · rw [zc _ 0 (Nat.zero_le _), zc _ (n - 6) le_rfl, f3 j hj]
  · rw [zc _ (i + 1) hi, zc _ i hi.le]
    exact f4 j hj i hi
  · rw [zc _ (i + 1) hi, zc _ i hi.le]
    exact f5 i hi
  · rw [hinp, htab] at l0
    refine l0.congr hm (pa3 0) (ps3 0) fun i hi => ?_
    rw [Z2 0 i (by omega), if_pos hi, if_pos rfl]
  · rw [hinp, htab] at l1
    refine l1.congr hm (pa3 1) (ps3 1) fun i hi => ?_
    rw [Z2 1 i (by omega), if_pos hi, if_neg (by decide)]

end Verif
