/- The terms of an honest prover's opening as multiples of the generator. Models nothing of /repo. -/
import Verif.Lemmas.RareTerms
import Verif.Lemmas.Complete
import Verif.Props.Prover

namespace Verif
open Halo2 Polynomial

/-- The summands added before the first opening proof. -/
noncomputable def itemsA (τ : Fr) (K : VkPolys) (P : Columns) : List Item :=
  [⟨2, 28, (P.a 0).eval τ⟩, ⟨2, 27, (P.a 1).eval τ⟩, ⟨2, 26, (P.a 2).eval τ⟩, ⟨2, 25, (P.a 3).eval τ⟩, ⟨3, 3, (P.a 4).eval τ⟩,
    ⟨2, 24, (P.a 5).eval τ⟩, ⟨4, 1, (P.a 6).eval τ⟩, ⟨4, 0, (P.a 7).eval τ⟩, ⟨2, 19, (K.f 2).eval τ⟩, ⟨2, 18, (K.f 3).eval τ⟩,
    ⟨2, 12, (K.f 9).eval τ⟩, ⟨2, 11, (K.f 10).eval τ⟩, ⟨2, 10, (K.f 11).eval τ⟩, ⟨2, 17, (K.f 4).eval τ⟩,
    ⟨2, 16, (K.f 5).eval τ⟩, ⟨2, 15, (K.f 6).eval τ⟩, ⟨2, 14, (K.f 7).eval τ⟩, ⟨2, 13, (K.f 8).eval τ⟩,
    ⟨2, 20, (K.f 1).eval τ⟩, ⟨2, 21, (K.f 0).eval τ⟩, ⟨2, 9, (K.f 12).eval τ⟩]

/-- The summands added after the opening proofs. -/
noncomputable def itemsB (τ : Fr) (K : VkPolys) (k : Fr) (P : Columns) (h : ℕ → Fr[X]) (xn : Fr) : List Item :=
  [⟨2, 1, xn ^ 2 * (h 2).eval τ⟩, ⟨2, 1, xn * (h 1).eval τ⟩, ⟨2, 1, (h 0).eval τ⟩, ⟨2, 29, (C k * K.inst).eval τ⟩,
    ⟨1, 1, (P.permA 0).eval τ⟩, ⟨2, 23, (P.permS 0).eval τ⟩, ⟨3, 1, (P.Z 0).eval τ⟩, ⟨1, 0, (P.permA 1).eval τ⟩,
    ⟨2, 22, (P.permS 1).eval τ⟩, ⟨3, 0, (P.Z 1).eval τ⟩, ⟨2, 8, (K.σ 0).eval τ⟩, ⟨2, 7, (K.σ 1).eval τ⟩,
    ⟨2, 6, (K.σ 2).eval τ⟩, ⟨2, 5, (K.σ 3).eval τ⟩, ⟨2, 4, (K.σ 4).eval τ⟩, ⟨2, 3, (K.σ 5).eval τ⟩, ⟨2, 2, (K.σ 6).eval τ⟩,
    ⟨0, 2, (P.z 0).eval τ⟩, ⟨0, 1, (P.z 1).eval τ⟩, ⟨0, 0, (P.z 2).eval τ⟩, ⟨3, 2, (P.z 3).eval τ⟩, ⟨2, 0, (P.random).eval τ⟩]

theorem termList_vals {τ : Fr} {K : VkPolys} (hK : K.Opens τ) {k : Fr} {P : Columns} {h : ℕ → Fr[X]} {q w : Fr[X]} {C : Commitments}
    (hC : Opens τ K k P h q w C) {x y v u R xn wi ws wn ww : Fr} (hz : Zr x 0 u ≠ 0) (e1 : wi = Zr x 1 u / Zr x 0 u)
    (e2 : ws = Zr x 2 u / Zr x 0 u) (e3 : wn = Zr x 3 u / Zr x 0 u) (e4 : ww = Zr x 4 u / Zr x 0 u) :
    (termList y v wi ws wn ww R (-Zf x u) u xn C).map (fun p => p.1 • p.2) =
      (valList x y v u R (q.eval τ) (w.eval τ) (itemsA τ K P) (itemsB τ K k P h xn)).map fun a => a • G1gen := by
  have e0 : Zr x 0 u / Zr x 0 u = 1 := div_self hz
  unfold termList valList itemsA itemsB
  rw [hC.z 0 (by decide), hC.z 1 (by decide), hC.z 2 (by decide), hC.z 3 (by decide), hC.permA 0 (by decide), hC.permA 1 (by decide),
    hC.inst, hC.a 0 (by decide), hC.a 1 (by decide), hC.a 2 (by decide), hC.a 3 (by decide), hC.a 4 (by decide),
    hC.a 5 (by decide), hC.a 6 (by decide), hC.a 7 (by decide), hC.permS 0 (by decide), hC.permS 1 (by decide),
    hC.Z 0 (by decide), hC.Z 1 (by decide), hC.random, hC.h 0 (by decide), hC.h 1 (by decide), hC.h 2 (by decide), hC.W, hC.W',
    hK.f 0 (by decide), hK.f 1 (by decide), hK.f 2 (by decide), hK.f 3 (by decide), hK.f 4 (by decide), hK.f 5 (by decide), hK.f 6 (by decide), hK.f 7 (by decide), hK.f 8 (by decide), hK.f 9 (by decide), hK.f 10 (by decide), hK.f 11 (by decide), hK.f 12 (by decide),
    hK.σ 0 (by decide), hK.σ 1 (by decide), hK.σ 2 (by decide), hK.σ 3 (by decide), hK.σ 4 (by decide), hK.σ 5 (by decide), hK.σ 6 (by decide)]
  generalize Zf x u = zf
  simp only [com, List.map_cons, List.map_nil, List.cons_append, List.nil_append, Item.val, e0, ← e1, ← e2, ← e3, ← e4, smul_neg, ← neg_smul,
    ← mul_smul, Nat.sub_zero, Nat.sub_self, Nat.reduceSub, pow_zero, pow_one, mul_one, one_mul]
  simp only [List.cons.injEq, and_true, true_and]
  exact ⟨by rw [mul_assoc], by rw [mul_assoc]⟩

theorem combine_five (v a b c d e : Fr) : combine v [a, b, c, d, e] = v * (v * (v * (v * a + b) + c) + d) + e := by
  rw [combine, List.foldl_cons, List.foldl_cons, List.foldl_cons, List.foldl_cons, List.foldl_cons, List.foldl_nil]
  ring

theorem combine_five_hasCoeff {m j : ℕ} {f0 f1 f2 f3 f4 : Fr → Fr} {a0 a1 a2 a3 a4 : Fr} (v : Fr) (h0 : HasCoeff m j f0 a0) (h1 : HasCoeff m j f1 a1)
    (h2 : HasCoeff m j f2 a2) (h3 : HasCoeff m j f3 a3) (h4 : HasCoeff m j f4 a4) :
    HasCoeff m j (fun u => combine v [f0 u, f1 u, f2 u, f3 u, f4 u]) (combine v [a0, a1, a2, a3, a4]) := by
  have := ((((((((h0.smul v).add h1).smul v).add h2).smul v).add h3).smul v).add h4)
  refine (this.congr fun u => ?_).of_eq ?_
  · rw [combine_five]
  · rw [combine_five]

theorem interp_single (x a u : Fr) : interp (points x [0]) [a] u = a := by
  have hnd : (points x [0]).Nodup := List.nodup_singleton _
  obtain ⟨p, hp, h⟩ := interp_polyFn' hnd [a] (m := 0) le_rfl
  have h1 := interp_at hnd [a] (i := 0) (by decide)
  rw [← h, eq_C_of_natDegree_le_zero hp, eval_C] at h1 ⊢
  exact h1

/-- A rotation set's part of the combined value has degree at most 4 in u. -/
theorem set_polyFn {S : PolySet} {x : Fr} (hT : (points x allRots).Nodup) (h1 : S.rots ⊆ allRots) (h2 : S.rots.Nodup) {m : ℕ}
    (h3 : S.rots.length = m + 1) (h4 : (allRots.filter fun k => k ∉ S.rots).length = 4 - m) (hm : m ≤ 4) (y' : Fr) :
    PolyFn 4 fun u => S.other x u * S.value x y' u := by
  have g1 : PolyFn (4 - m) fun u => S.other x u := by
    have := vanish_polyFn (points x (allRots.filter fun k => k ∉ S.rots))
    rw [points, List.length_map, h4] at this
    exact this
  have g2 : PolyFn m fun u => S.value x y' u :=
    combine_map_polyFn y' S.queries (f := fun q u => interp (points x S.rots) q.2 u) fun q _ =>
      interp_polyFn' (points_sub_nodup hT h1 h2) q.2 h3.le
  exact (g1.mul g2).mono (by omega)

/-- The evaluations of the set opened at x only. -/
def singleEvals (e : Evals) (hv : Fr) : List Fr :=
  [e.inst, e.a0, e.a1, e.a2, e.a3, e.a5, e.lookup0.S, e.lookup1.S] ++ (List.range 13).map e.f ++ (List.range 7).map e.σ ++ [hv, e.random]

/-- The polynomials of the set opened at x only. -/
noncomputable def singlePolys (K : VkPolys) (k : Fr) (P : Columns) (h : ℕ → Fr[X]) (xn : Fr) : List Fr[X] :=
  [C k * K.inst, P.a 0, P.a 1, P.a 2, P.a 3, P.a 5, P.permS 0, P.permS 1] ++ (List.range 13).map K.f ++ (List.range 7).map K.σ ++
    [h 0 + C xn * h 1 + C (xn ^ 2) * h 2, P.random]

/-- The set opened at x only. -/
noncomputable def singlePolySet (K : VkPolys) (k : Fr) (P : Columns) (h : ℕ → Fr[X]) (xn : Fr) (e : Evals) (hv : Fr) : PolySet :=
  ⟨[0], [(C k * K.inst, [e.inst]), (P.a 0, [e.a0]), (P.a 1, [e.a1]), (P.a 2, [e.a2]), (P.a 3, [e.a3]), (P.a 5, [e.a5]),
    (P.permS 0, [e.lookup0.S]), (P.permS 1, [e.lookup1.S])] ++
    (List.range 13).map (fun i => (K.f i, [e.f i])) ++ (List.range 7).map (fun i => (K.σ i, [e.σ i])) ++
    [(h 0 + C xn * h 1 + C (xn ^ 2) * h 2, [hv]), (P.random, [e.random])]⟩

theorem single_value (K : VkPolys) (k : Fr) (P : Columns) (h : ℕ → Fr[X]) (xn : Fr) (e : Evals) (hv : Fr) (x y' u : Fr) :
    (singlePolySet K k P h xn e hv).value x y' u = combine y' (singleEvals e hv) := by
  unfold PolySet.value singlePolySet singleEvals
  simp only [List.map_append, List.map_cons, List.map_nil, List.map_map, Function.comp_def, interp_single]

theorem single_poly (K : VkPolys) (k : Fr) (P : Columns) (h : ℕ → Fr[X]) (xn : Fr) (e : Evals) (hv : Fr) (y' z : Fr) :
    ((singlePolySet K k P h xn e hv).poly y').eval z = combine y' ((singlePolys K k P h xn).map (eval z)) := by
  rw [PolySet.poly_eval]
  unfold singlePolySet singlePolys
  simp only [List.map_append, List.map_cons, List.map_nil, List.map_map, Function.comp_def]

theorem polySets_five (K : VkPolys) (k : Fr) (P : Columns) (h : ℕ → Fr[X]) (x : Fr) (e : Evals) (hv : Fr) : ∃ S0 S1 S3 S4 : PolySet,
    polySets K k P h x e hv = [S0, S1, singlePolySet K k P h (x ^ n) e hv, S3, S4] ∧ S0.rots = [0, 1, -6] ∧ S1.rots = [0, -1] ∧
      S3.rots = [0, 1] ∧ S4.rots = [0, 1, 2] := by
  unfold polySets singlePolySet
  exact ⟨_, _, _, _, rfl, rfl, rfl, rfl, rfl⟩

/-- The combined value, times the denominator, as a function of u. -/
noncomputable def combinedNum (sets : List PolySet) (x y' v u : Fr) : Fr := combine v (sets.map fun S => S.other x u * S.value x y' u)

theorem combined_hasCoeff {K : VkPolys} {k : Fr} {P : Columns} {h : ℕ → Fr[X]} {x : Fr} (hx : x ≠ 0) (e : Evals) (hv : Fr) (y' : Fr) :
    ∃ a0 a1 a3 a4 : Fr, ∀ v, HasCoeff 4 4 (combinedNum (polySets K k P h x e hv) x y' v)
      (combine v [a0, a1, combine y' (singleEvals e hv), a3, a4]) := by
  have hT := allRots_nodup hx
  obtain ⟨S0, S1, S3, S4, he, r0, r1, r3, r4⟩ := polySets_five K k P h x e hv
  unfold combinedNum
  rw [he]
  obtain ⟨a0, h0⟩ := (set_polyFn (S := S0) hT (by rw [r0]; decide) (by rw [r0]; decide) (m := 2) (by rw [r0]; rfl) (by rw [r0]; decide) (by decide) y').hasCoeff 4
  obtain ⟨a1, h1⟩ := (set_polyFn (S := S1) hT (by rw [r1]; decide) (by rw [r1]; decide) (m := 1) (by rw [r1]; rfl) (by rw [r1]; decide) (by decide) y').hasCoeff 4
  obtain ⟨a3, h3⟩ := (set_polyFn (S := S3) hT (by rw [r3]; decide) (by rw [r3]; decide) (m := 1) (by rw [r3]; rfl) (by rw [r3]; decide) (by decide) y').hasCoeff 4
  obtain ⟨a4, h4⟩ := (set_polyFn (S := S4) hT (by rw [r4]; decide) (by rw [r4]; decide) (m := 2) (by rw [r4]; rfl) (by rw [r4]; decide) (by decide) y').hasCoeff 4
  have h2 : HasCoeff 4 4 (fun u => (singlePolySet K k P h (x ^ n) e hv).other x u * (singlePolySet K k P h (x ^ n) e hv).value x y' u)
      (combine y' (singleEvals e hv)) := by
    have hr : (allRots.filter fun k' => k' ∉ (singlePolySet K k P h (x ^ n) e hv).rots) = [1, 2, -1, -6] := by
      unfold singlePolySet; rfl
    have := (Zr_hasCoeff x 2).smul (combine y' (singleEvals e hv))
    rw [mul_one] at this
    refine this.congr fun u => ?_
    rw [single_value, PolySet.other, hr, mul_comm]
    rfl
  exact ⟨a0, a1, a3, a4, fun v => combine_five_hasCoeff v h0 h1 h2 h3 h4⟩

/-- The first opening proof as a combination. -/
theorem first_proof {K : VkPolys} {k : Fr} {P : Columns} {h : ℕ → Fr[X]} {x τ : Fr} (e : Evals) (hv : Fr)
    (hτ : vanish (points x allRots) τ ≠ 0) {q : Fr → Fr → Fr[X]}
    (hq : ∀ y' v, openingAt (polySets K k P h x e hv) x y' v (q y' v) τ = 0) :
    ∃ κ : Fr, κ ≠ 0 ∧ ∀ y', ∃ b0 b1 b3 b4 : Fr, ∀ v, (q y' v).eval τ =
      combine v [b0, b1, κ * (combine y' ((singlePolys K k P h (x ^ n)).map (eval τ)) - combine y' (singleEvals e hv)), b3, b4] := by
  obtain ⟨S0, S1, S3, S4, he, -, -, -, -⟩ := polySets_five K k P h x e hv
  obtain ⟨S2, hS2⟩ : ∃ S2, S2 = singlePolySet K k P h (x ^ n) e hv := ⟨_, rfl⟩
  have hr : S2.rots = [0] := by rw [hS2]; rfl
  have ho : S2.other x τ ≠ 0 := by
    intro h0
    apply hτ
    rw [← other_mul (S := S2) (by rw [hr]; decide) (by rw [hr]; decide), h0, zero_mul]
  refine ⟨S2.other x τ / vanish (points x allRots) τ, div_ne_zero ho hτ, fun y' => ?_⟩
  have hv' : combine y' ((singlePolys K k P h (x ^ n)).map (eval τ)) - combine y' (singleEvals e hv) =
      (S2.poly y').eval τ - S2.value x y' τ := by
    rw [hS2, single_poly, single_value]
  rw [hv']
  refine ⟨S0.other x τ / vanish (points x allRots) τ * ((S0.poly y').eval τ - S0.value x y' τ),
    S1.other x τ / vanish (points x allRots) τ * ((S1.poly y').eval τ - S1.value x y' τ),
    S3.other x τ / vanish (points x allRots) τ * ((S3.poly y').eval τ - S3.value x y' τ),
    S4.other x τ / vanish (points x allRots) τ * ((S4.poly y').eval τ - S4.value x y' τ), fun v => ?_⟩
  have h1 := hq y' v
  rw [he, openingAt, ← hS2, List.map_cons, List.map_cons, List.map_cons, List.map_cons, List.map_cons, List.map_nil, combine_five] at h1
  rw [combine_five]
  generalize vanish (points x allRots) τ = z at *
  generalize S0.other x τ = o0 at *
  generalize S1.other x τ = o1 at *
  generalize S2.other x τ = o2 at *
  generalize S3.other x τ = o3 at *
  generalize S4.other x τ = o4 at *
  generalize eval τ (q y' v) = Q at *
  field_simp
  linear_combination -h1

theorem ptOf_ne {c : ℕ × ℕ} (h : (c.2 : Fp) ^ 2 = (c.1 : Fp) ^ 3 + 3) (h0 : (c.1 : Fp) ≠ 0) : ptOf c ≠ 0 := by
  intro hz
  have h1 := enc_dec (c := ((c.1 : Fp), (c.2 : Fp))) (.inl h)
  have h2 : dec ((c.1 : Fp), (c.2 : Fp)) = 0 := hz
  rw [h2, enc_zero] at h1
  exact h0 (Prod.ext_iff.1 h1).1.symm

theorem vkFixed_ne : ∀ i < 13, vkFixed i ≠ 0 := by
  have h : ∀ i < 13, ((vkFixedCoords.getD i (0, 0)).2 : Fp) ^ 2 = ((vkFixedCoords.getD i (0, 0)).1 : Fp) ^ 3 + 3 ∧
    ((vkFixedCoords.getD i (0, 0)).1 : Fp) ≠ 0 := by decide +kernel
  exact fun i hi => ptOf_ne (h i hi).1 (h i hi).2

theorem vkSigma_ne : ∀ i < 7, vkSigma i ≠ 0 := by
  have h : ∀ i < 7, ((vkSigmaCoords.getD i (0, 0)).2 : Fp) ^ 2 = ((vkSigmaCoords.getD i (0, 0)).1 : Fp) ^ 3 + 3 ∧
    ((vkSigmaCoords.getD i (0, 0)).1 : Fp) ≠ 0 := by decide +kernel
  exact fun i hi => ptOf_ne (h i hi).1 (h i hi).2

theorem com_ne_zero {τ : Fr} {p : Fr[X]} : com τ p ≠ 0 ↔ p.eval τ ≠ 0 := by
  rw [com, Ne, fr_smul_eq_zero, or_iff_left gen_ne_zero]

theorem items_ok {τ : Fr} {K : VkPolys} (hK : K.Opens τ) {k : Fr} {P : Columns} {h : ℕ → Fr[X]} (hf : FiniteCommitments τ K k P h) {xn : Fr}
    (hxn : xn ≠ 0) : ∀ i ∈ itemsA τ K P ++ itemsB τ K k P h xn, i.s ≤ 4 ∧ i.j ≤ 29 ∧ i.d ≠ 0 := by
  have f : ∀ i < 13, (K.f i).eval τ ≠ 0 := fun i hi => com_ne_zero.1 (by rw [← hK.f i hi]; exact vkFixed_ne i hi)
  have σ : ∀ i < 7, (K.σ i).eval τ ≠ 0 := fun i hi => com_ne_zero.1 (by rw [← hK.σ i hi]; exact vkSigma_ne i hi)
  have a := fun i hi => com_ne_zero.1 (hf.a i hi)
  have pA := fun i hi => com_ne_zero.1 (hf.permA i hi)
  have pS := fun i hi => com_ne_zero.1 (hf.permS i hi)
  have z := fun i hi => com_ne_zero.1 (hf.z i hi)
  have Z := fun i hi => com_ne_zero.1 (hf.Z i hi)
  have hh := fun i hi => com_ne_zero.1 (hf.h i hi)
  have hi := com_ne_zero.1 hf.inst
  have hr := com_ne_zero.1 hf.random
  unfold itemsA itemsB
  simp only [List.forall_mem_append, List.forall_mem_cons, List.not_mem_nil, IsEmpty.forall_iff, implies_true, and_true]
  simp only [f, σ, a, pA, pS, z, Z, hh, hi, hr, Nat.reduceLT, Nat.reduceLeDiff, ne_eq, mul_eq_zero, pow_eq_zero_iff, OfNat.ofNat_ne_zero, not_false_eq_true,
    hxn, or_self, and_self, le_refl]

theorem itemsA_head (τ : Fr) (K : VkPolys) (P : Columns) : ∀ i ∈ itemsA τ K P, i.s = 2 → i.j ≠ 8 := by
  unfold itemsA
  simp only [List.forall_mem_cons, List.not_mem_nil, IsEmpty.forall_iff, implies_true, and_true]
  omega

theorem itemsB_head (τ : Fr) (K : VkPolys) (k : Fr) (P : Columns) (h : ℕ → Fr[X]) (xn : Fr) {j : ℕ} (h1 : 9 ≤ j) (h2 : j ≤ 21) :
    ∀ i ∈ itemsB τ K k P h xn, i.s = 2 → i.j ≠ j := by
  unfold itemsB
  simp only [List.forall_mem_cons, List.not_mem_nil, IsEmpty.forall_iff, implies_true, and_true]
  omega

/-- The conditions on x: not zero, outside the domain, no rotated point is the trapdoor, σ_0 does not vanish there, and the fixed
column number `i` takes another value than at the trapdoor. -/
structure GoodX (τ : Fr) (K : VkPolys) (i : ℕ) (x : Fr) : Prop where
  ne : x ≠ 0
  dom : ∀ j < n, x ≠ ω ^ j
  trap : vanish (points x allRots) τ ≠ 0
  sigma : (K.σ 0).eval x ≠ 0
  fixed : (K.f i).eval τ ≠ (K.f i).eval x

theorem goodX {τ : Fr} (hτ : τ ≠ 0) {K : VkPolys} (hK : K.Opens τ) (hKd : K.Bounded n) {i : ℕ} (hi : 0 < (K.f i).natDegree) :
    AllBut (3 * n + 6) (GoodX τ K i) := by
  classical
  have h1 : AllBut 5 fun x => vanish (points x allRots) τ ≠ 0 := by
    refine (AllBut.forall_list allRots (d := 1) (p := fun k x => τ ≠ ω ^ k * x) fun k _ => ?_).mono (by decide) fun x h h0 => ?_
    · refine (AllBut.ne (ω ^ (-k) * τ)).mono le_rfl fun x h e => h ?_
      rw [e, ← mul_assoc, ← zpow_add₀ ω_ne, neg_add_cancel, zpow_zero, one_mul]
    · obtain ⟨k, hk, he⟩ := List.mem_map.1 (vanish_eq_zero.1 h0)
      exact h k hk he.symm
  have h2 : AllBut n fun x => (K.σ 0).eval x ≠ 0 := by
    refine (PolyFn.eval (hKd.σ 0)).allBut (a := τ) (com_ne_zero.1 ?_)
    rw [← hK.σ 0 (by decide)]
    exact vkSigma_ne 0 (by decide)
  have h3 : AllBut n fun x => (K.f i).eval τ ≠ (K.f i).eval x := by
    have hc : HasCoeff n (K.f i).natDegree (fun x => (K.f i).eval x) (K.f i).leadingCoeff := ⟨K.f i, hKd.f i, rfl, fun x => rfl⟩
    refine (hc.allBut_ne (leadingCoeff_ne_zero.2 fun h => ?_) (PolyFn.const 0 ((K.f i).eval τ)) hi (Nat.zero_le n)).mono le_rfl fun x h => h.symm
    rw [h, natDegree_zero] at hi
    exact absurd hi (lt_irrefl 0)
  refine (((((AllBut.ne 0).and domain_allBut).and h1).and h2).and h3).mono (by omega) fun x h => ⟨h.1.1.1.1, h.1.1.1.2, h.1.1.2, h.1.2, h.2⟩

theorem rare_setup {τ : Fr} (hτ : τ ≠ 0) {K : VkPolys} (hK : K.Opens τ) {k : Fr} {P : Columns} {h : ℕ → Fr[X]} (hf : FiniteCommitments τ K k P h)
    {i : ℕ} (hi : i < 13) {x : Fr} (hx : GoodX τ K i x) {e : Evals} (he : e.σ 0 = (K.σ 0).eval x) (he' : e.f i = (K.f i).eval x) (hv : Fr)
    {q : Fr → Fr → Fr[X]} (hq : ∀ y' v, openingAt (polySets K k P h x e hv) x y' v (q y' v) τ = 0) :
    ∃ E F s t, RareSetup x τ (itemsA τ K P) (itemsB τ K k P h (x ^ n)) (combinedNum (polySets K k P h x e hv) x) (fun y' v => (q y' v).eval τ)
      E F (21 - i) s t := by
  obtain ⟨κ, hκ, hb⟩ := first_proof e hv hx.trap hq
  refine ⟨fun y' => combine y' (singleEvals e hv), fun y' => κ * (combine y' ((singlePolys K k P h (x ^ n)).map (eval τ)) - combine y' (singleEvals e hv)),
    e.σ 0, κ * ((K.f i).eval τ - e.f i), ?_⟩
  refine ⟨hx.ne, hτ, rfl, rfl, items_ok hK hf (pow_ne_zero n hx.ne), combined_hasCoeff hx.ne e hv, ?_, by rw [he]; exact hx.sigma, itemsA_head τ K P, hb, ?_,
    mul_ne_zero hκ (sub_ne_zero.2 (by rw [he']; exact hx.fixed)), itemsB_head τ K k P h _ (by omega) (by omega)⟩
  · exact combine_coeff (singleEvals e hv) (d := 29) (j := 8) le_rfl
  · have h1 := combine_coeff ((singlePolys K k P h (x ^ n)).map (eval τ)) (d := 29) (j := 21 - i) le_rfl
    have h2 := combine_coeff (singleEvals e hv) (d := 29) (j := 21 - i) le_rfl
    refine ((h1.sub h2).smul κ).of_eq ?_
    congr 1
    generalize x ^ n = xn
    interval_cases i <;> rfl

theorem sum_smul_gen (vs : List Fr) : (vs.map fun a => a • G1gen).sum = vs.sum • G1gen := by
  induction vs with
  | nil => exact (zero_smul Fr G1gen).symm
  | cons a vs ih => rw [List.map_cons, List.sum_cons, List.sum_cons, ih, add_smul]

theorem goodTerms_of_vals {l : List (Fr × G1)} {vs : List Fr} {D : Finset Fr} (hD : ∀ b ∉ D, Representable (b • G1gen))
    (hl : l.map (fun p => p.1 • p.2) = vs.map fun a => a • G1gen) (h1 : ∀ a ∈ vs, a ∉ D)
    (h2 : ∀ m, 1 ≤ m → m ≤ vs.length → (vs.take m).sum ∉ D) : GoodTerms l := by
  have hp : ∀ p ∈ l, Representable (p.1 • p.2) := by
    intro p hp
    have : p.1 • p.2 ∈ vs.map fun a => a • G1gen := by
      rw [← hl]
      exact List.mem_map.2 ⟨p, hp, rfl⟩
    obtain ⟨a, ha, he⟩ := List.mem_map.1 this
    rw [← he]
    exact hD a (h1 a ha)
  refine ⟨fun p h h0 => (hp p h).1 ?_, fun p h h0 => (hp p h).1 ?_, hp, fun m m1 m2 => ?_⟩
  · rw [h0]; exact zero_smul Fr p.2
  · rw [h0, smul_zero]
  · rw [partialSum, List.map_take, hl, ← List.map_take, sum_smul_gen]
    have hlen : l.length = vs.length := by
      have := congrArg List.length hl
      rwa [List.length_map, List.length_map] at this
    exact hD _ (h2 m m1 (by omega))

theorem weight_eq (S : RotSet) (c : Challenges) {s : ℕ} {r : List ℤ} (hr : S.rots = r) (h : (allRots.filter fun k => k ∉ r) = restRots s) :
    S.weight c = Zr c.x s c.u / Zr c.x 0 c.u := by
  unfold RotSet.weight Zr
  rw [hr, h, rots_rest]
  rfl

theorem toRot_weight (τ : Fr) (S : PolySet) (c : Challenges) : (S.toRot τ).weight c = S.other c.x c.u / Zr c.x 0 c.u := by
  unfold RotSet.weight PolySet.other Zr
  rw [rots_rest]
  rfl

theorem valList_length (x y' v u R q w : Fr) (A B : List Item) : (valList x y' v u R q w A B).length = A.length + B.length + 3 := by
  unfold valList
  simp only [List.length_cons, List.length_append, List.length_map]
  omega

theorem openingTerms_vals {τ : Fr} {K : VkPolys} (hK : K.Opens τ) {k : Fr} {P : Columns} {h : ℕ → Fr[X]} {q w : Fr[X]} {C : Commitments}
    (hC : Opens τ K k P h q w C) {c : Challenges} {e : Evals} {hv : Fr} (hz : Zr c.x 0 c.u ≠ 0) {R : Fr}
    (hR : R = combine c.v ((rotSets c C e hv).map fun S => S.weight c * S.value c)) :
    (openingTerms c C e hv).map (fun p => p.1 • p.2) =
      (valList c.x c.y' c.v c.u R (q.eval τ) (w.eval τ) (itemsA τ K P) (itemsB τ K k P h (c.x ^ n))).map fun a => a • G1gen := by
  have e1 := weight_eq (inputSet C e) c (s := 1) (r := [0, -1]) rfl (by decide)
  have e2 := weight_eq (singleSet c C e hv) c (s := 2) (r := [0]) rfl (by decide)
  have e3 := weight_eq (nextSet C e) c (s := 3) (r := [0, 1]) rfl (by decide)
  have e4 := weight_eq (nextNextSet C e) c (s := 4) (r := [0, 1, 2]) rfl (by decide)
  unfold openingTerms
  rw [← hR, e1, e2, e3, e4]
  generalize c.x ^ n = xn
  exact termList_vals hK hC hz rfl rfl rfl rfl

theorem combined_aux (τ : Fr) (sets : List PolySet) (c : Challenges) (hz : Zr c.x 0 c.u ≠ 0) :
    combine c.v ((sets.map (PolySet.toRot τ)).map fun S => S.weight c * S.value c) * Zr c.x 0 c.u = combinedNum sets c.x c.y' c.v c.u := by
  rw [combine_mul, List.map_map, combinedNum]
  refine congrArg _ (List.map_congr_left fun S _ => ?_)
  rw [Function.comp_apply, toRot_value, toRot_weight, mul_right_comm, div_mul_cancel₀ _ hz]

theorem combined_eq {τ : Fr} {K : VkPolys} (hK : K.Opens τ) {k : Fr} {P : Columns} {h : ℕ → Fr[X]} {q w : Fr[X]} {C : Commitments}
    (hC : Opens τ K k P h q w C) {c : Challenges} {e : Evals} {hv : Fr} (hz : Zr c.x 0 c.u ≠ 0) {R : Fr}
    (hR : R = combine c.v ((rotSets c C e hv).map fun S => S.weight c * S.value c)) :
    R * Zr c.x 0 c.u = combinedNum (polySets K k P h c.x e hv) c.x c.y' c.v c.u := by
  rw [hR, rotSets_eq hK hC, combined_aux τ _ c hz]

theorem terms_core {τ x y' v u R : Fr} {A B : List Item} (hA : A.length = 21) (hB : B.length = 22) {D : Finset Fr} {rz : Fr → Fr} {q w : Fr[X]}
    (hu : GoodU x τ y' v rz (q.eval τ) A B D u) (hR : R * Zr x 0 u = rz u) {l : List (Fr × G1)}
    (hvals : l.map (fun p => p.1 • p.2) = (valList x y' v u R (q.eval τ) (w.eval τ) A B).map fun a => a • G1gen)
    (hsum : (l.map fun p => p.1 • p.2).sum = τ • com τ w) (hD : ∀ b ∉ D, Representable (b • G1gen)) : GoodTerms l ∧ Representable (com τ w) := by
  rw [hvals, sum_smul_gen, com, ← mul_smul] at hsum
  obtain ⟨g1, g2, g3⟩ := good_values hA hu hR (com_eval_inj (τ := τ) hsum)
  refine ⟨goodTerms_of_vals hD hvals g2 fun m m1 m2 => g3 m m1 (by rw [valList_length, hA, hB] at m2; exact m2), ?_⟩
  rw [com]
  exact hD _ g1

/-- The terms of an honest prover's opening are rarely degenerate. -/
theorem rare_terms {τ : Fr} (hτ : τ ≠ 0) {K : VkPolys} (hK : K.Opens τ) {k : Fr} {P : Columns} {h : ℕ → Fr[X]} (hf : FiniteCommitments τ K k P h)
    {i : ℕ} (hi : i < 13) {x : Fr} (hx : GoodX τ K i x) {e : Evals} (he : e.σ 0 = (K.σ 0).eval x) (he' : e.f i = (K.f i).eval x) (hv : Fr)
    {q : Fr → Fr → Fr[X]} (hq : ∀ y' v, openingAt (polySets K k P h x e hv) x y' v (q y' v) τ = 0)
    {D : Finset Fr} (hD : ∀ b ∉ D, Representable (b • G1gen)) :
    AllBut 1306 fun y' => AllBut (172 * D.card + 181) fun v => AllBut (394 * D.card + 3) fun u => vanish (points x [2, -1]) u ≠ 0 ∧
      ∀ (c : Challenges) (I : G1) (p : ℕ → G1) (w : Fr[X]), c.x = x → c.y' = y' → c.v = v → c.u = u →
        Opens τ K k P h (q y' v) w (.ofProof I p) → opening c (.ofProof I p) e hv = τ • (Commitments.ofProof I p).W' →
        GoodTerms (openingTerms c (.ofProof I p) e hv) ∧ Representable (Commitments.ofProof I p).W' := by
  obtain ⟨E, F, s, t, S⟩ := rare_setup hτ hK hf hi hx he he' hv hq
  refine (goodY S).mono le_rfl fun y' hy => ?_
  obtain ⟨c, hc, hV⟩ := goodV S D hy
  refine hV.mono le_rfl fun v hv' => ?_
  refine (goodU S.x_ne hy.ne S.lenA S.lenB S.item (hc v) hv').mono le_rfl fun u hu => ⟨hu.den, ?_⟩
  rintro c I p w rfl rfl rfl rfl hC ho
  obtain ⟨R, hRe⟩ : ∃ R, R = combine c.v ((rotSets c (.ofProof I p) e hv).map fun S => S.weight c * S.value c) := ⟨_, rfl⟩
  have hR := combined_eq hK hC hu.den hRe
  have hvals := openingTerms_vals hK hC hu.den hRe
  rw [hC.W'] at ho
  rw [hC.W']
  generalize itemsB τ K k P h (c.x ^ n) = B at S hvals hu
  generalize itemsA τ K P = A at S hvals hu
  exact terms_core S.lenA S.lenB hu hR hvals ((sum_openingTerms c I p e hv hu.den).trans ho) hD

end Verif
