/- The quotient identity as an identity of polynomials. -/
import Verif.Lemmas.Rows

namespace Verif
open Halo2 Polynomial

theorem PolyFn.add' {F : Type} [Field F] {d e : ℕ} {f g : F → F} (hf : PolyFn d f) (hg : PolyFn e g) :
    PolyFn (max d e) fun x => f x + g x := (hf.mono (le_max_left d e)).add (hg.mono (le_max_right d e))
theorem PolyFn.sub' {F : Type} [Field F] {d e : ℕ} {f g : F → F} (hf : PolyFn d f) (hg : PolyFn e g) :
    PolyFn (max d e) fun x => f x - g x := (hf.mono (le_max_left d e)).sub (hg.mono (le_max_right d e))

/-- A list of polynomial functions of degree at most d. -/
def PolyFns (d : ℕ) (l : Fr → List Fr) : Prop := ∃ fs : List (Fr → Fr), (∀ f ∈ fs, PolyFn d f) ∧ ∀ x, l x = fs.map fun f => f x

theorem PolyFns.nil (d : ℕ) : PolyFns d fun _ => [] := ⟨[], by simp, fun _ => rfl⟩
theorem PolyFns.cons {d : ℕ} {f : Fr → Fr} {l : Fr → List Fr} (hf : PolyFn d f) (hl : PolyFns d l) : PolyFns d fun x => f x :: l x := by
  obtain ⟨fs, h1, h2⟩ := hl
  exact ⟨f :: fs, List.forall_mem_cons.2 ⟨hf, h1⟩, fun x => by beta_reduce; rw [List.map_cons, h2]⟩
theorem PolyFns.append {d : ℕ} {l l' : Fr → List Fr} (hl : PolyFns d l) (hl' : PolyFns d l') : PolyFns d fun x => l x ++ l' x := by
  obtain ⟨fs, h1, h2⟩ := hl
  obtain ⟨gs, h3, h4⟩ := hl'
  exact ⟨fs ++ gs, List.forall_mem_append.2 ⟨h1, h3⟩, fun x => by beta_reduce; rw [List.map_append, h2, h4]⟩

theorem PolyFns.combine {d : ℕ} {l : Fr → List Fr} (hl : PolyFns d l) (y : Fr) : PolyFn d fun x => Halo2.combine y (l x) := by
  obtain ⟨fs, h1, h2⟩ := hl
  exact (combine_map_polyFn y fs (f := fun f x => f x) h1).congr fun x => by rw [h2]

theorem lagrange_polyFn {i : ℕ} (hi : i < n) : PolyFn n (lagrange i) := by
  refine PolyFn.eval (natDegree_le_of_degree_le ?_)
  rw [Lagrange.degree_basis ω_injOn (Finset.mem_range.2 hi), Finset.card_range]
  exact_mod_cast Nat.sub_le n 1

/-- All evaluations are polynomial functions of degree ≤ D of the point. -/
structure EvalFns (D : ℕ) (e : Fr → Evals) : Prop where
  inst : PolyFn D fun x => (e x).inst
  a0 : PolyFn D fun x => (e x).a0
  a1 : PolyFn D fun x => (e x).a1
  a2 : PolyFn D fun x => (e x).a2
  a3 : PolyFn D fun x => (e x).a3
  a4 : PolyFn D fun x => (e x).a4
  a4ω : PolyFn D fun x => (e x).a4ω
  a5 : PolyFn D fun x => (e x).a5
  a6 : PolyFn D fun x => (e x).a6
  a6ω : PolyFn D fun x => (e x).a6ω
  a6ωω : PolyFn D fun x => (e x).a6ωω
  a7 : PolyFn D fun x => (e x).a7
  a7ω : PolyFn D fun x => (e x).a7ω
  a7ωω : PolyFn D fun x => (e x).a7ωω
  f : ∀ i, PolyFn D fun x => (e x).f i
  σ : ∀ i, PolyFn D fun x => (e x).σ i
  z : ∀ i, PolyFn D fun x => (e x).z i
  zω : ∀ i, PolyFn D fun x => (e x).zω i
  zlast : ∀ i, PolyFn D fun x => (e x).zlast i
  l0Z : PolyFn D fun x => (e x).lookup0.Z
  l0Zω : PolyFn D fun x => (e x).lookup0.Zω
  l0A : PolyFn D fun x => (e x).lookup0.A
  l0Aprev : PolyFn D fun x => (e x).lookup0.Aprev
  l0S : PolyFn D fun x => (e x).lookup0.S
  l1Z : PolyFn D fun x => (e x).lookup1.Z
  l1Zω : PolyFn D fun x => (e x).lookup1.Zω
  l1A : PolyFn D fun x => (e x).lookup1.A
  l1Aprev : PolyFn D fun x => (e x).lookup1.Aprev
  l1S : PolyFn D fun x => (e x).lookup1.S

theorem trueEvals_fns {K : VkPolys} {k : Fr} {P : Columns} {d D : ℕ} (hK : K.Bounded d) (hP : P.Bounded d) (hD : d ≤ D) :
    EvalFns D (trueEvals K k P) := by
  have h : ∀ (p : Fr[X]) (j : ℤ), p.natDegree ≤ d → PolyFn D fun x => rotEval p j x := fun p j hp =>
    PolyFn.eval_mul (hp.trans hD) _
  have ha : ∀ i j, PolyFn D fun x => rotEval (P.a i) j x := fun i j => h _ j (hP.a i)
  have hz : ∀ i j, PolyFn D fun x => rotEval (P.z i) j x := fun i j => h _ j (hP.z i)
  have hZ : ∀ i j, PolyFn D fun x => rotEval (P.Z i) j x := fun i j => h _ j (hP.Z i)
  have hA : ∀ i j, PolyFn D fun x => rotEval (P.permA i) j x := fun i j => h _ j (hP.permA i)
  have hS : ∀ i j, PolyFn D fun x => rotEval (P.permS i) j x := fun i j => h _ j (hP.permS i)
  have hf : ∀ i j, PolyFn D fun x => rotEval (K.f i) j x := fun i j => h _ j (hK.f i)
  have hs : ∀ i j, PolyFn D fun x => rotEval (K.σ i) j x := fun i j => h _ j (hK.σ i)
  have hi : PolyFn D fun x => k * rotEval K.inst 0 x := (h _ 0 hK.inst).smul k
  exact ⟨hi, ha 0 0, ha 1 0, ha 2 0, ha 3 0, ha 4 0, ha 4 1, ha 5 0, ha 6 0, ha 6 1, ha 6 2, ha 7 0, ha 7 1, ha 7 2,
    fun i => hf i 0, fun i => hs i 0, fun i => hz i 0, fun i => hz i 1, fun i => hz i (-6),
    hZ 0 0, hZ 0 1, hA 0 0, hA 0 (-1), hS 0 0, hZ 1 0, hZ 1 1, hA 1 0, hA 1 (-1), hS 1 0⟩

/-- Lagrange values as polynomial functions. -/
structure LagFns (D : ℕ) (L : Fr → LagrangeVals) : Prop where
  zero : PolyFn D fun x => (L x).zero
  last : PolyFn D fun x => (L x).last
  active : PolyFn D fun x => (L x).active

theorem lag_fns {D : ℕ} (hD : n ≤ D) : LagFns D LagrangeVals.at := by
  have nb := n_big
  have h : ∀ k, 1 ≤ k → k ≤ 6 → PolyFn D (lagrange (n - k)) := fun k h1 h6 => (lagrange_polyFn (by omega)).mono hD
  refine ⟨(lagrange_polyFn (by omega)).mono hD, h 6 (by decide) le_rfl, ?_⟩
  have h1 := (((((h 6 (by decide) le_rfl).add (h 5 (by decide) (by decide))).add (h 4 (by decide) (by decide))).add
    (h 3 (by decide) (by decide))).add (h 2 (by decide) (by decide))).add (h 1 (by decide) (by decide))
  exact (PolyFn.const D 1).sub h1

macro "polyfn" : tactic => `(tactic| repeat' (first
  | exact PolyFn.const 0 _
  | assumption
  | apply PolyFn.sub' | apply PolyFn.add' | apply PolyFn.mul | apply PolyFn.pow))

section
variable {D : ℕ} {e : Fr → Evals} {L : Fr → LagrangeVals}

theorem gates_fns (he : EvalFns D e) : PolyFns (4 * D) fun x => gates (e x) := by
  obtain ⟨h1, h2, h3, h4, h5, h6, h7, h8, h9, h10, h11, h12, h13, h14, hf, -⟩ := he
  have f0 := hf 0; have f1 := hf 1; have f2 := hf 2; have f3 := hf 3; have f4 := hf 4; have f5 := hf 5; have f6 := hf 6
  have f7 := hf 7; have f8 := hf 8; have f12 := hf 12
  unfold gates
  refine .cons ?_ (.cons ?_ (.cons ?_ (.cons ?_ (.nil _))))
  all_goals refine PolyFn.mono (by polyfn) ?_
  all_goals omega

theorem chunk_two_fns {c : Fr → Challenges} {b g : Fr} (hc : ∀ x, (c x).β = b ∧ (c x).γ = g ∧ (c x).x = x) (j : ℕ)
    {p p' q q' z zω l : Fr → Fr} (hD : 1 ≤ D) (hp : PolyFn D p) (hp' : PolyFn D p') (hq : PolyFn D q) (hq' : PolyFn D q')
    (hz : PolyFn D z) (hzω : PolyFn D zω) (hl : PolyFn D l) :
    PolyFn (4 * D) fun x => l x * permChunk (c x) j [(p x, p' x), (q x, q' x)] (z x) (zω x) := by
  simp only [Eqs.permChunk_two, hc]
  have hx : PolyFn D fun x : Fr => x := .id hD
  generalize δ ^ j = d0, δ ^ (j + 1) = d1
  refine PolyFn.mono (by polyfn) ?_
  omega

theorem chunk_one_fns {c : Fr → Challenges} {b g : Fr} (hc : ∀ x, (c x).β = b ∧ (c x).γ = g ∧ (c x).x = x) (j : ℕ)
    {p p' z zω l : Fr → Fr} (hD : 1 ≤ D) (hp : PolyFn D p) (hp' : PolyFn D p')
    (hz : PolyFn D z) (hzω : PolyFn D zω) (hl : PolyFn D l) :
    PolyFn (4 * D) fun x => l x * permChunk (c x) j [(p x, p' x)] (z x) (zω x) := by
  simp only [Eqs.permChunk_one, hc]
  have hx : PolyFn D fun x : Fr => x := .id hD
  generalize δ ^ j = d0
  refine PolyFn.mono (by polyfn) ?_
  omega

theorem perm_fns {c : Fr → Challenges} {b g : Fr} (hc : ∀ x, (c x).β = b ∧ (c x).γ = g ∧ (c x).x = x) (hD : 1 ≤ D)
    (he : EvalFns D e) (hL : LagFns D L) : PolyFns (4 * D) fun x => permutation (c x) (L x) (e x) := by
  obtain ⟨l0, ll, la⟩ := hL
  have z0 := he.z 0; have z1 := he.z 1; have z2 := he.z 2; have z3 := he.z 3
  have y0 := he.zlast 0; have y1 := he.zlast 1; have y2 := he.zlast 2
  unfold permutation
  refine .cons ?_ (.cons ?_ (.cons ?_ (.cons ?_ (.cons ?_ (.cons ?_ (.cons ?_ (.cons ?_ (.cons ?_ (.nil _)))))))))
  iterate 5
    · refine PolyFn.mono (by polyfn) ?_
      omega
  · exact chunk_two_fns hc 0 hD he.a0 (he.σ 0) he.a1 (he.σ 1) z0 (he.zω 0) la
  · exact chunk_two_fns hc 2 hD he.a2 (he.σ 2) he.a3 (he.σ 3) z1 (he.zω 1) la
  · exact chunk_two_fns hc 4 hD he.a4 (he.σ 4) he.a5 (he.σ 5) z2 (he.zω 2) la
  · exact chunk_one_fns hc 6 hD he.inst (he.σ 6) z3 (he.zω 3) la

theorem lookup_fns {c : Fr → Challenges} {b g : Fr} (hc : ∀ x, (c x).β = b ∧ (c x).γ = g) {inp tab : Fr → Fr} {l : Fr → LookupEvals}
    (hi : PolyFn D inp) (ht : PolyFn D tab) (h1 : PolyFn D fun x => (l x).Z) (h2 : PolyFn D fun x => (l x).Zω)
    (h3 : PolyFn D fun x => (l x).A) (h4 : PolyFn D fun x => (l x).Aprev) (h5 : PolyFn D fun x => (l x).S)
    (hL : LagFns D L) : PolyFns (4 * D) fun x => lookup (c x) (L x) (inp x) (tab x) (l x) := by
  obtain ⟨l0, ll, la⟩ := hL
  unfold lookup
  simp only [hc]
  refine .cons ?_ (.cons ?_ (.cons ?_ (.cons ?_ (.cons ?_ (.nil _)))))
  all_goals refine PolyFn.mono (by polyfn) ?_
  all_goals omega

end

/-- The combined constraints are a polynomial function of the evaluation point. -/
theorem constraints_fns (c : Challenges) {K : VkPolys} {k : Fr} {P : Columns} {d : ℕ} (hK : K.Bounded d) (hP : P.Bounded d) :
    PolyFns (4 * max d n) fun x => constraints { c with x := x } (.at x) (trueEvals K k P x) := by
  have nb := n_big
  have he := trueEvals_fns (k := k) hK hP (le_max_left d n)
  have hL := lag_fns (le_max_right d n)
  have hD : 1 ≤ max d n := le_max_of_le_right (by omega)
  revert he hL hD
  generalize max d n = D
  intro he hL hD
  have t1 : PolyFn D fun x => c.θ * (trueEvals K k P x).f 9 + (trueEvals K k P x).a6 := ((he.f 9).smul _).add he.a6
  have t2 : PolyFn D fun x => c.θ * (trueEvals K k P x).f 10 + (trueEvals K k P x).f 11 := ((he.f 10).smul _).add (he.f 11)
  have t3 : PolyFn D fun x => c.θ * 18 + (trueEvals K k P x).a7 := (PolyFn.const D _).add he.a7
  unfold constraints
  refine .append (.append (.append (gates_fns he) (perm_fns (fun x => ⟨rfl, rfl, rfl⟩) hD he hL)) ?_) ?_
  · exact lookup_fns (fun x => ⟨rfl, rfl⟩) t1 t2 he.l0Z he.l0Zω he.l0A he.l0Aprev he.l0S hL
  · exact lookup_fns (fun x => ⟨rfl, rfl⟩) t3 t2 he.l1Z he.l1Zω he.l1A he.l1Aprev he.l1S hL

theorem constraints_length (c : Challenges) (L : LagrangeVals) (e : Evals) : (constraints c L e).length = 23 := by
  simp only [constraints, gates, permutation, lookup, List.length_append, List.length_cons, List.length_nil]

theorem trueQuotient_fn {h : ℕ → Fr[X]} {d : ℕ} (hh : ∀ i, (h i).natDegree ≤ d) : PolyFn (d + 2 * n) (trueQuotient h) := by
  have h0 : ∀ i, PolyFn d fun x => rotEval (h i) 0 x := fun i => PolyFn.eval_mul (hh i) _
  have hx : PolyFn (n * 1) fun x : Fr => x ^ n := (PolyFn.id le_rfl).pow n
  unfold trueQuotient
  have h1 := h0 0; have h2 := h0 1; have h3 := h0 2
  refine PolyFn.mono (((h1.add' (hx.mul h2)).add' ((hx.pow 2).mul h3))) ?_
  omega

/-- If the constraints fail on some row then, for all but a few y and x, the quotient identity fails for the true
evaluations. -/
theorem quotient_sound {c : Challenges} {K : VkPolys} {k : Fr} {P : Columns} {d : ℕ} (hK : K.Bounded d) (hP : P.Bounded d)
    (hf : ¬ RowsHold c K k P) :
    AllBut 22 fun y => ∀ h : ℕ → Fr[X], (∀ i, (h i).natDegree ≤ d) → AllBut (4 * max d n) fun x =>
      trueQuotient h x * (x ^ n - 1) ≠ combine y (constraints { c with x := x } (.at x) (trueEvals K k P x)) := by
  unfold RowsHold at hf
  simp only [not_forall] at hf
  obtain ⟨i, hi, e, he, h0⟩ := hf
  refine (combine_allBut _ he h0).mono (by rw [constraints_length]) fun y hy h hh => ?_
  have hx : PolyFn (n * 1) fun x : Fr => x ^ n := (PolyFn.id le_rfl).pow n
  refine PolyFn.allBut_ne (a := ω ^ i) (((trueQuotient_fn hh).mul (hx.sub (.const _ 1))).mono ?_)
    ((constraints_fns c hK hP).combine y) ?_
  · omega
  · rw [← pow_mul, mul_comm i n, pow_mul, ω_pow_n, one_pow, sub_self, mul_zero]
    exact hy.symm

end Verif
