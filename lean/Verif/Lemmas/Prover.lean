/- The honest prover. -/
import Verif.Lemmas.QuotientPoly

namespace Verif
open Halo2 Polynomial

/-- A polynomial with given values on the domain and a given value at a point outside it. -/
theorem exists_column (v : ℕ → Fr) {τ : Fr} (hτ : τ ^ n ≠ 1) (a : Fr) :
    ∃ p : Fr[X], p.natDegree ≤ n ∧ (∀ i < n, cell p i = v i) ∧ p.eval τ = a := by
  have nb := n_big
  obtain ⟨p, hp⟩ : ∃ p : Fr[X], p = Lagrange.interpolate (Finset.range n) (fun j => ω ^ j) v := ⟨_, rfl⟩
  have hd : p.natDegree ≤ n := by
    refine natDegree_le_of_degree_le ?_
    rw [hp]
    refine (Lagrange.degree_interpolate_lt _ ω_injOn).le.trans ?_
    rw [Finset.card_range]
  have hv : ∀ i < n, p.eval (ω ^ i) = v i := fun i hi => by
    rw [hp]
    exact Lagrange.eval_interpolate_at_node (r := v) (v := fun j => ω ^ j) ω_injOn (Finset.mem_range.2 hi)
  clear hp
  have h1 : τ ^ n - 1 ≠ 0 := sub_ne_zero.2 hτ
  have hX : ∀ z : Fr, (X ^ n - 1 : Fr[X]).eval z = z ^ n - 1 := fun z => by rw [eval_sub, eval_pow, eval_X, eval_one]
  have hXd : (X ^ n - 1 : Fr[X]).natDegree ≤ n :=
    (natDegree_sub_le _ _).trans (max_le (natDegree_X_pow_le n) (by rw [natDegree_one]; exact Nat.zero_le n))
  refine ⟨p + C ((a - p.eval τ) / (τ ^ n - 1)) * (X ^ n - 1), ?_, fun i hi => ?_, ?_⟩
  · exact (natDegree_add_le _ _).trans (max_le hd ((natDegree_C_mul_le _ _).trans hXd))
  · rw [cell, eval_add, Polynomial.eval_mul, hX, ← pow_mul, mul_comm i n, pow_mul, ω_pow_n, one_pow, sub_self, mul_zero, add_zero, hv i hi]
  · rw [eval_add, Polynomial.eval_mul, hX, eval_C]
    generalize τ ^ n - 1 = t at h1
    field_simp
    ring

/-- The same without a condition outside the domain. -/
theorem exists_column' (v : ℕ → Fr) : ∃ p : Fr[X], p.natDegree ≤ n ∧ ∀ i < n, cell p i = v i := by
  obtain ⟨p, h1, h2, -⟩ := exists_column v (τ := 0) (by
    have nb := n_big
    rw [zero_pow (by omega)]
    exact zero_ne_one) 0
  exact ⟨p, h1, h2⟩

/-- Verifying-key polynomials for any trapdoor outside the domain, any permutation and any fixed columns. -/
theorem exists_vkPolys_cells {τ : Fr} (hτ : τ ^ n ≠ 1) (π : Equiv.Perm (Fin 7 × Fin (n - 6))) (vf : ℕ → ℕ → Fr) (vi : ℕ → Fr) :
    ∃ K : VkPolys, K.Opens τ ∧ K.Bounded n ∧ EncodesPermutation K π ∧ (∀ j, ∀ i < n, cell (K.f j) i = vf j i) ∧
      ∀ i < n, cell K.inst i = vi i := by
  classical
  have hs : ∀ j : ℕ, ∃ p : Fr[X], p.natDegree ≤ n ∧ (∀ i < n, cell p i =
      if h : j < 7 ∧ i < n - 6 then δ ^ ((π (⟨j, h.1⟩, ⟨i, h.2⟩)).1 : ℕ) * ω ^ ((π (⟨j, h.1⟩, ⟨i, h.2⟩)).2 : ℕ) else 0) ∧
      vkSigma j = com τ p := by
    intro j
    obtain ⟨k, hk⟩ := exists_smul_gen (vkSigma j)
    obtain ⟨p, h1, h2, h3⟩ := exists_column (fun i =>
      if h : j < 7 ∧ i < n - 6 then δ ^ ((π (⟨j, h.1⟩, ⟨i, h.2⟩)).1 : ℕ) * ω ^ ((π (⟨j, h.1⟩, ⟨i, h.2⟩)).2 : ℕ) else 0) hτ k
    exact ⟨p, h1, h2, by rw [com, h3, hk]⟩
  have hf : ∀ (P : G1) (v : ℕ → Fr), ∃ p : Fr[X], p.natDegree ≤ n ∧ P = com τ p ∧ ∀ i < n, cell p i = v i := fun P v => by
    obtain ⟨k, hk⟩ := exists_smul_gen P
    obtain ⟨p, h1, h2, h3⟩ := exists_column v hτ k
    exact ⟨p, h1, by rw [com, h3, hk], h2⟩
  choose s s1 s2 s3 using hs
  choose f f1 f2 f3 using hf
  refine ⟨⟨fun i => f (vkFixed i) (vf i), s, f vkInstance vi⟩, ⟨fun i _ => f2 _ _, fun i _ => s3 i, f2 _ _⟩,
    ⟨fun i => f1 _ _, s1, f1 _ _⟩, ?_, fun j => f3 _ _, f3 _ _⟩
  rintro ⟨⟨j, hj⟩, ⟨i, hi⟩⟩
  have := s2 j i (by omega)
  rw [dif_pos ⟨hj, hi⟩] at this
  exact this

theorem exists_vkPolys {τ : Fr} (hτ : τ ^ n ≠ 1) (π : Equiv.Perm (Fin 7 × Fin (n - 6))) :
    ∃ K : VkPolys, K.Opens τ ∧ K.Bounded n ∧ EncodesPermutation K π := by
  obtain ⟨K, h1, h2, h3, -⟩ := exists_vkPolys_cells hτ π (fun _ _ => 0) fun _ => 0
  exact ⟨K, h1, h2, h3⟩

/-- Division by the vanishing polynomial of a list of distinct roots. -/
theorem exists_quotient {ps : List Fr} (hnd : ps.Nodup) (p : Fr[X]) (h : ∀ a ∈ ps, p.eval a = 0) :
    ∃ q : Fr[X], q.natDegree ≤ p.natDegree ∧ ∀ u, p.eval u = vanish ps u * q.eval u := by
  induction ps generalizing p with
  | nil => exact ⟨p, le_rfl, fun u => by rw [vanish, List.map_nil, List.prod_nil, one_mul]⟩
  | cons a ps ih =>
    obtain ⟨q, hq⟩ := dvd_iff_isRoot.2 (h a (List.mem_cons_self))
    have hqe : ∀ u, p.eval u = (u - a) * q.eval u := fun u => by
      rw [hq, Polynomial.eval_mul, eval_sub, eval_X, eval_C]
    rw [List.nodup_cons] at hnd
    obtain ⟨q', hd, he⟩ := ih hnd.2 q fun b hb => by
      have h1 := h b (List.mem_cons_of_mem _ hb)
      rw [hqe] at h1
      refine (mul_eq_zero.1 h1).resolve_left fun h2 => hnd.1 ?_
      rw [← sub_eq_zero.1 h2]; exact hb
    refine ⟨q', hd.trans ?_, fun u => ?_⟩
    · rw [hq]
      by_cases h0 : q = 0
      · subst h0; simp
      · rw [natDegree_mul (X_sub_C_ne_zero a) h0]
        omega
    · rw [hqe, he, vanish, vanish, List.map_cons, List.prod_cons, mul_assoc]

theorem other_mul {S : PolySet} (hS : S.rots ⊆ allRots) (hnd : S.rots.Nodup) (x u : Fr) :
    S.other x u * vanish (points x S.rots) u = vanish (points x allRots) u := by
  have hp : ((allRots.filter fun k => k ∉ S.rots) ++ S.rots).Perm allRots := by
    rw [List.perm_ext_iff_of_nodup]
    · intro k
      rw [List.mem_append, List.mem_filter, decide_eq_true_eq]
      constructor
      · rintro (h | h)
        · exact h.1
        · exact hS h
      · intro h
        by_cases hk : k ∈ S.rots
        · exact .inr hk
        · exact .inl ⟨h, hk⟩
    · rw [List.nodup_append]
      refine ⟨List.Nodup.filter _ (by decide), hnd, fun a ha b hb hab => ?_⟩
      rw [List.mem_filter, decide_eq_true_eq] at ha
      exact ha.2 (hab ▸ hb)
    · decide
  rw [PolySet.other, ← vanish_append, points, points, points, ← List.map_append]
  exact ((hp.map _).map _).prod_eq

/-- The combined claims of a rotation set whose claims are true are divisible by its vanishing polynomial. -/
theorem set_quotient {S : PolySet} {d : ℕ} (hd : 3 ≤ d) {x : Fr} (hnd : (points x S.rots).Nodup) (h3 : S.rots.length ≤ 3)
    (hdeg : ∀ q ∈ S.queries, q.1.natDegree ≤ d) (hT : S.AllTrue x) (y' : Fr) :
    ∃ q : Fr[X], q.natDegree ≤ d ∧ ∀ u, (S.poly y').eval u - S.value x y' u = vanish (points x S.rots) u * q.eval u := by
  obtain ⟨r, hrd, hr⟩ : PolyFn d (S.value x y') :=
    (combine_map_polyFn y' S.queries (f := fun q u => interp (points x S.rots) q.2 u) fun q _ => interp_polyFn hnd q.2).mono (h3.trans hd)
  obtain ⟨q, hq, he⟩ := exists_quotient hnd (S.poly y' - r) (by
    intro a ha
    obtain ⟨k, hk, rfl⟩ := List.mem_map.1 ha
    obtain ⟨i, hi, rfl⟩ := List.getElem_of_mem hk
    rw [eval_sub, hr, PolySet.poly_eval, PolySet.value, sub_eq_zero]
    refine congrArg _ (List.map_congr_left fun q hq => ?_)
    rw [interp_at hnd q.2 hi]
    exact hT q hq i hi)
  refine ⟨q, hq.trans ((natDegree_sub_le _ _).trans (max_le (PolySet.poly_natDegree hdeg y') hrd)), fun u => ?_⟩
  rw [← he, eval_sub, hr]

theorem openingPoly_natDegree' {K : VkPolys} {k : Fr} {P : Columns} {h : ℕ → Fr[X]} {q : Fr[X]} {d : ℕ} (hK : K.Bounded d)
    (hP : P.Bounded d) (hh : ∀ i, (h i).natDegree ≤ d) (hq : q.natDegree ≤ d) (c : Challenges) (e : Evals)
    (hv : Fr) : (openingPoly c K k P h q 0 e hv).natDegree ≤ d := by
  have hG := polySets_good (k := k) hK hP hh c.x e hv
  have h1 : ∀ (sets : List PolySet) (f : PolySet → Fr) (g : PolySet → Fr), (∀ S ∈ sets, ∀ q ∈ S.queries, q.1.natDegree ≤ d) →
      (sets.foldl (fun acc S => C c.v * acc + C (f S) * (S.poly c.y' - C (g S))) 0).natDegree ≤ d := by
    intro sets f g hs
    induction sets using List.reverseRecOn with
    | nil => simp
    | append_singleton l S ih =>
      rw [List.foldl_append]
      refine (natDegree_add_le _ _).trans (max_le ((natDegree_C_mul_le _ _).trans (ih fun S hS => hs S (List.mem_append_left _ hS))) ?_)
      refine (natDegree_C_mul_le _ _).trans ((natDegree_sub_le _ _).trans (max_le ?_ (by rw [natDegree_C]; exact Nat.zero_le d)))
      exact PolySet.poly_natDegree (hs S (List.mem_append_right _ (List.mem_singleton_self S))) _
  unfold openingPoly
  rw [mul_zero, sub_zero]
  exact (natDegree_sub_le _ _).trans (max_le (h1 _ _ _ hG.deg) ((natDegree_C_mul_le _ _).trans hq))

/-- The honest opening proofs. -/
theorem opening_complete {K : VkPolys} {k : Fr} {P : Columns} {h : ℕ → Fr[X]} {d : ℕ} (hd : 3 ≤ d) (hK : K.Bounded d) (hP : P.Bounded d)
    (hh : ∀ i, (h i).natDegree ≤ d) {x : Fr} (hx : x ≠ 0) {e : Evals} {hv : Fr}
    (hT : ∀ S ∈ polySets K k P h x e hv, S.AllTrue x) (y' v : Fr) :
    ∃ q : Fr[X], q.natDegree ≤ d ∧ ∀ c : Challenges, c.x = x → c.y' = y' → c.v = v → vanish (points c.x [2, -1]) c.u ≠ 0 →
      ∃ w : Fr[X], w.natDegree ≤ d ∧ openingPoly c K k P h q w e hv = 0 := by
  have hG := polySets_good (k := k) hK hP hh x e hv
  have hnd := allRots_nodup hx
  have hq : ∀ S : PolySet, ∃ q : Fr[X], q.natDegree ≤ d ∧ (S ∈ polySets K k P h x e hv →
      ∀ u, (S.poly y').eval u - S.value x y' u = vanish (points x S.rots) u * q.eval u) := by
    intro S
    by_cases hS : S ∈ polySets K k P h x e hv
    · obtain ⟨q, h1, h2⟩ := set_quotient hd (points_sub_nodup hnd (hG.rots S hS) (hG.nodup S hS)) (hG.short S hS) (hG.deg S hS) (hT S hS) y'
      exact ⟨q, h1, fun _ => h2⟩
    · exact ⟨0, by simp, fun h => absurd h hS⟩
  choose Q hQd hQ using hq
  have hfd : ∀ sets : List PolySet, (sets.foldl (fun acc S => C v * acc + Q S) 0).natDegree ≤ d := by
    intro sets
    induction sets using List.reverseRecOn with
    | nil => simp
    | append_singleton l S ih =>
      rw [List.foldl_append]
      exact (natDegree_add_le _ _).trans (max_le ((natDegree_C_mul_le _ _).trans ih) (hQd S))
  refine ⟨(polySets K k P h x e hv).foldl (fun acc S => C v * acc + Q S) 0, hfd _, ?_⟩
  rintro c rfl rfl rfl hu
  have h0 : openingAt (polySets K k P h c.x e hv) c.x c.y' c.v ((polySets K k P h c.x e hv).foldl (fun acc S => C c.v * acc + Q S) 0) c.u = 0 := by
    rw [openingAt, combine_foldl, mul_comm, combine_mul, combine_sub]
    have : ((polySets K k P h c.x e hv).map fun S => S.other c.x c.u * ((S.poly c.y').eval c.u - S.value c.x c.y' c.u) -
        (Q S).eval c.u * vanish (points c.x allRots) c.u) = (polySets K k P h c.x e hv).map fun _ => 0 := by
      refine List.map_congr_left fun S hS => ?_
      rw [hQ S hS, ← mul_assoc, other_mul (hG.rots S hS) (hG.nodup S hS), mul_comm, sub_self]
    rw [this]
    generalize polySets K k P h c.x e hv = l
    induction l using List.reverseRecOn with
    | nil => rfl
    | append_singleton l S ih => rw [List.map_append, List.map_singleton, combine_concat, ih, zero_mul, zero_add]
  rw [← openingPoly_at_u c K k P h _ 0 e hv hu] at h0
  have h1 := (mul_eq_zero.1 h0).resolve_right hu
  obtain ⟨w, hw⟩ := dvd_iff_isRoot.2 h1
  refine ⟨w, ?_, ?_⟩
  · have hdeg := openingPoly_natDegree' (k := k) hK hP hh (hfd (polySets K k P h c.x e hv)) c e hv
    by_cases hw0 : w = 0
    · subst hw0; simp
    · rw [hw, natDegree_mul (X_sub_C_ne_zero _) hw0, natDegree_X_sub_C] at hdeg
      omega
  · have : ∀ q, openingPoly c K k P h q w e hv = openingPoly c K k P h q 0 e hv - (X - C c.u) * w := by
      intro q
      simp only [openingPoly, mul_zero, sub_zero]
    rw [this, hw, sub_self]

end Verif
