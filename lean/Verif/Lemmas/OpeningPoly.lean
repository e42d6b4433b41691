/- The opening equation in terms of the committed polynomials. -/
import Verif.Spec.Knowledge
import Verif.Lemmas.Domain
import Verif.Math.Order

namespace Verif
open Halo2 Polynomial

theorem combine_nil (y : Fr) : combine y [] = 0 := rfl
theorem combine_concat (y : Fr) (l : List Fr) (e : Fr) : combine y (l ++ [e]) = combine y l * y + e := by
  rw [combine, List.foldl_append]; rfl

/-- A combination with a non-zero term vanishes for few y. -/
theorem combine_allBut (es : List Fr) {e : Fr} (he : e ∈ es) (h0 : e ≠ 0) : AllBut (es.length - 1) fun y => combine y es ≠ 0 := by
  have key : ∀ es : List Fr, ∃ p : Fr[X], p.natDegree ≤ es.length - 1 ∧ (∀ y, p.eval y = combine y es) ∧
      (p = 0 → ∀ e ∈ es, e = 0) := by
    intro es
    induction es using List.reverseRecOn with
    | nil => exact ⟨0, by simp, fun y => by rw [eval_zero, combine_nil], fun _ e he => by simp at he⟩
    | append_singleton l a ih =>
      obtain ⟨p, hp, hy, hz⟩ := ih
      refine ⟨p * X + C a, ?_, fun y => ?_, fun h => ?_⟩
      · rw [List.length_append, List.length_singleton, Nat.add_sub_cancel, natDegree_add_C]
        rcases Nat.eq_zero_or_pos l.length with hl | hl
        · have : l = [] := List.length_eq_zero_iff.1 hl
          subst this
          rw [List.length_nil, Nat.zero_sub, Nat.le_zero] at hp
          have h0 : p.eval 0 = 0 := by rw [hy]; rfl
          rw [eq_C_of_natDegree_eq_zero hp, eval_C] at h0
          rw [eq_C_of_natDegree_eq_zero hp, h0]
          simp
        · refine (natDegree_mul_le.trans (Nat.add_le_add hp natDegree_X_le)).trans ?_
          omega
      · rw [combine_concat, eval_add, Polynomial.eval_mul, eval_X, eval_C, hy]
      · have ha : a = 0 := by
          have := congrArg (fun p => p.coeff 0) h
          simpa using this
        subst ha
        rw [C_0, add_zero] at h
        have hp0 : p = 0 := by
          rcases mul_eq_zero.1 h with h | h
          · exact h
          · exact absurd h X_ne_zero
        intro e he
        rw [List.mem_append, List.mem_singleton] at he
        rcases he with he | he
        · exact hz hp0 e he
        · exact he
  classical
  obtain ⟨p, hp, hy, hz⟩ := key es
  have hp0 : p ≠ 0 := fun h => h0 (hz h e he)
  refine ⟨p.roots.toFinset, (Multiset.toFinset_card_le _).trans ((card_roots' p).trans hp), fun y hb h => ?_⟩
  rw [Multiset.mem_toFinset, mem_roots hp0, IsRoot.def, hy] at hb
  exact hb h

theorem combine_map_polyFn {ι : Type} {d : ℕ} (y : Fr) (l : List ι) {f : ι → Fr → Fr} (h : ∀ i ∈ l, PolyFn d (f i)) :
    PolyFn d fun u => combine y (l.map fun i => f i u) := by
  induction l using List.reverseRecOn with
  | nil => exact PolyFn.const d 0
  | append_singleton l a ih =>
    have h1 := (ih fun i hi => h i (List.mem_append_left _ hi)).smul y
    have h2 := h a (List.mem_append_right _ (List.mem_singleton_self a))
    refine (h1.add h2).congr fun u => ?_
    rw [List.map_append, List.map_singleton, combine_concat, mul_comm]

theorem vanish_polyFn (ps : List Fr) : PolyFn ps.length (vanish ps) := by
  induction ps with
  | nil => exact PolyFn.const 0 1
  | cons p ps ih =>
    refine ((((PolyFn.id le_rfl).sub (.const 1 p)).mul ih).mono ?_).congr fun u => ?_
    · rw [List.length_cons, Nat.add_comm]
    · simp [vanish]

theorem vanish_eq_zero {ps : List Fr} {u : Fr} : vanish ps u = 0 ↔ u ∈ ps := by
  rw [vanish, List.prod_eq_zero_iff, List.mem_map]
  constructor
  · rintro ⟨p, hp, h⟩
    rw [sub_eq_zero.1 h]; exact hp
  · intro h
    exact ⟨u, h, sub_self u⟩

theorem points_getD {x : Fr} {rots : List ℤ} {i : ℕ} (hi : i < rots.length) :
    (points x rots).getD i 0 = ω ^ rots[i] * x := by
  rw [points, List.getD_eq_getElem?_getD, List.getElem?_map, List.getElem?_eq_getElem hi]; rfl

theorem points_injOn {x : Fr} {rots : List ℤ} (h : (points x rots).Nodup) :
    Set.InjOn (fun i => (points x rots).getD i 0) (Finset.range (points x rots).length : Set ℕ) := by
  intro i hi j hj hij
  rw [Finset.coe_range, Set.mem_Iio] at hi hj
  simp only [List.getD_eq_getElem?_getD, List.getElem?_eq_getElem hi, List.getElem?_eq_getElem hj, Option.getD_some] at hij
  exact (List.Nodup.getElem_inj_iff h).1 hij

theorem interp_polyFn {x : Fr} {rots : List ℤ} (h : (points x rots).Nodup) (es : List Fr) :
    PolyFn rots.length (interp (points x rots) es) := by
  refine PolyFn.eval (natDegree_le_of_degree_le ((Lagrange.degree_interpolate_lt _ (points_injOn h)).le.trans ?_))
  rw [Finset.card_range, points, List.length_map]

theorem interp_at {x : Fr} {rots : List ℤ} (h : (points x rots).Nodup) (es : List Fr) {i : ℕ} (hi : i < rots.length) :
    interp (points x rots) es (ω ^ rots[i] * x) = es.getD i 0 := by
  rw [← points_getD hi, interp]
  exact Lagrange.eval_interpolate_at_node (r := fun i => es.getD i 0) (points_injOn h)
    (by rw [Finset.mem_range, points, List.length_map]; exact hi)

theorem PolySet.poly_eval (S : PolySet) (y' z : Fr) : (S.poly y').eval z = combine y' (S.queries.map fun q => q.1.eval z) := by
  rw [PolySet.poly]
  generalize S.queries = l
  induction l using List.reverseRecOn with
  | nil => simp [combine_nil]
  | append_singleton l a ih =>
    rw [List.foldl_append, List.map_append, List.map_singleton, combine_concat, ← ih]
    simp only [List.foldl_cons, List.foldl_nil, eval_add, Polynomial.eval_mul, eval_C]
    ring

theorem PolySet.poly_natDegree {S : PolySet} {d : ℕ} (h : ∀ q ∈ S.queries, q.1.natDegree ≤ d) (y' : Fr) :
    (S.poly y').natDegree ≤ d := by
  rw [PolySet.poly]
  revert h
  generalize S.queries = l
  intro h
  induction l using List.reverseRecOn with
  | nil => simp
  | append_singleton l a ih =>
    rw [List.foldl_append]
    refine (natDegree_add_le _ _).trans (max_le ((natDegree_C_mul_le _ _).trans (ih fun q hq => h q (List.mem_append_left _ hq))) ?_)
    exact h a (List.mem_append_right _ (List.mem_singleton_self a))

theorem combine_sub (y : Fr) {ι : Type} (l : List ι) (f g : ι → Fr) :
    combine y (l.map f) - combine y (l.map g) = combine y (l.map fun i => f i - g i) := by
  induction l using List.reverseRecOn with
  | nil => simp [combine_nil]
  | append_singleton l a ih =>
    simp only [List.map_append, List.map_singleton, combine_concat]
    rw [← ih]; ring

/-- The claims about a rotation set are all true. -/
def Halo2.PolySet.AllTrue (S : PolySet) (x : Fr) : Prop :=
  ∀ q ∈ S.queries, ∀ i (hi : i < S.rots.length), q.1.eval (ω ^ S.rots[i] * x) = q.2.getD i 0

/-- What the sound opening needs of the rotation sets. -/
structure GoodSets (sets : List PolySet) (d : ℕ) : Prop where
  rots : ∀ S ∈ sets, S.rots ⊆ allRots
  nodup : ∀ S ∈ sets, S.rots.Nodup
  short : ∀ S ∈ sets, S.rots.length ≤ 3
  deg : ∀ S ∈ sets, ∀ q ∈ S.queries, q.1.natDegree ≤ d

theorem points_sub_nodup {x : Fr} (hT : (points x allRots).Nodup) {rots : List ℤ} (h1 : rots ⊆ allRots) (h2 : rots.Nodup) :
    (points x rots).Nodup := by
  refine List.Nodup.map_on (fun a ha b hb hab => ?_) h2
  exact List.inj_on_of_nodup_map hT (h1 ha) (h1 hb) hab

/-- The equation obtained at u from the opening identity. -/
noncomputable def openingAt (sets : List PolySet) (x y' v : Fr) (q : Fr[X]) (u : Fr) : Fr :=
  combine v (sets.map fun S => S.other x u * ((S.poly y').eval u - S.value x y' u)) - vanish (points x allRots) u * q.eval u

theorem openingAt_polyFn {sets : List PolySet} {d : ℕ} (G : GoodSets sets d) {x : Fr} (hT : (points x allRots).Nodup)
    (y' v : Fr) {q : Fr[X]} (hq : q.natDegree ≤ d) : PolyFn (d + 8) (openingAt sets x y' v q) := by
  refine PolyFn.sub (combine_map_polyFn v sets (f := fun S u => S.other x u * ((S.poly y').eval u - S.value x y' u)) fun S hS => ?_) ?_
  · have h1 : PolyFn 5 fun u => S.other x u := by
      refine (vanish_polyFn (points x (allRots.filter fun k => k ∉ S.rots))).mono ?_
      rw [points, List.length_map]
      exact (List.length_filter_le _ _).trans (by decide)
    have h2 : PolyFn (d + 3) fun u => (S.poly y').eval u - S.value x y' u := by
      refine PolyFn.sub ((PolyFn.eval (PolySet.poly_natDegree (G.deg S hS) y')).mono (by omega)) ?_
      exact ((combine_map_polyFn y' S.queries (f := fun q u => interp (points x S.rots) q.2 u) fun q _ =>
        interp_polyFn (points_sub_nodup hT (G.rots S hS) (G.nodup S hS)) q.2).mono ((G.short S hS).trans (by omega)))
    exact (h1.mul h2).mono (by omega)
  · exact ((vanish_polyFn (points x allRots)).mul (PolyFn.eval hq)).mono (by
      rw [points, List.length_map, show allRots.length = 5 from rfl]; omega)

/-- If a claim is false then, for all but a few y', v and u, the opening equation fails at u. -/
theorem sets_sound {sets : List PolySet} {d m : ℕ} (G : GoodSets sets d) {x : Fr} (hT : (points x allRots).Nodup)
    (hm : ∀ S ∈ sets, S.queries.length ≤ m + 1) (hf : ¬ ∀ S ∈ sets, S.AllTrue x) :
    AllBut m fun y' => AllBut (sets.length - 1) fun v => ∀ q : Fr[X], q.natDegree ≤ d →
      AllBut (d + 8) fun u => openingAt sets x y' v q u ≠ 0 := by
  rw [not_forall] at hf
  obtain ⟨S, hf⟩ := hf
  rw [Classical.not_imp] at hf
  obtain ⟨hS, hf⟩ := hf
  unfold PolySet.AllTrue at hf
  rw [not_forall] at hf
  obtain ⟨q, hf⟩ := hf
  rw [Classical.not_imp, not_forall] at hf
  obtain ⟨hq, i, hf⟩ := hf
  rw [not_forall] at hf
  obtain ⟨hi, hne⟩ := hf
  have hnd := points_sub_nodup hT (G.rots S hS) (G.nodup S hS)
  have hp : S.rots[i] ∈ S.rots := List.getElem_mem hi
  generalize hpe : S.rots[i] = r at hp hne
  have hval : ∀ es, interp (points x S.rots) es (ω ^ r * x) = es.getD i 0 := fun es => by
    rw [← hpe]; exact interp_at hnd es hi
  refine (combine_allBut (S.queries.map fun q => q.1.eval (ω ^ r * x) - q.2.getD i 0) (List.mem_map.2 ⟨q, hq, rfl⟩)
    (sub_ne_zero.2 hne)).mono (by rw [List.length_map]; exact Nat.sub_le_of_le_add (hm S hS)) fun y' hy' => ?_
  have h1 : (S.poly y').eval (ω ^ r * x) - S.value x y' (ω ^ r * x) ≠ 0 := by
    rw [PolySet.poly_eval, PolySet.value, combine_sub]
    intro h0
    apply hy'
    refine Eq.trans (congrArg _ ?_) h0
    refine List.map_congr_left fun q _ => ?_
    rw [hval]
  have h2 : S.other x (ω ^ r * x) ≠ 0 := by
    rw [PolySet.other, Ne, vanish_eq_zero, points, List.mem_map]
    rintro ⟨k, hk, hke⟩
    rw [List.mem_filter] at hk
    have : k = r := List.inj_on_of_nodup_map hT hk.1 (G.rots S hS hp) hke
    subst this
    have := hk.2
    rw [decide_eq_true_eq] at this
    exact this hp
  refine (combine_allBut (sets.map fun S => S.other x (ω ^ r * x) * ((S.poly y').eval (ω ^ r * x) - S.value x y' (ω ^ r * x)))
    (List.mem_map.2 ⟨S, hS, rfl⟩) (mul_ne_zero h2 h1)).mono (by rw [List.length_map]) fun v hv => ?_
  intro qq hqq
  refine (openingAt_polyFn G hT y' v hqq).allBut (a := ω ^ r * x) ?_
  rw [openingAt, vanish_eq_zero.2, zero_mul, sub_zero]
  · exact hv
  · exact List.mem_map.2 ⟨r, G.rots S hS hp, rfl⟩

/-! ### The five rotation sets of the proof -/

theorem com_add (τ : Fr) (p q : Fr[X]) : com τ (p + q) = com τ p + com τ q := by
  rw [com, com, com, eval_add, add_smul]

theorem com_C_mul (τ a : Fr) (p : Fr[X]) : com τ (C a * p) = a • com τ p := by
  rw [com, com, Polynomial.eval_mul, eval_C, mul_smul]

theorem com_eval_inj {τ : Fr} {a b : Fr} (h : a • G1gen = b • G1gen) : a = b := by
  rw [← sub_eq_zero, ← sub_smul, fr_smul_eq_zero] at h
  exact sub_eq_zero.1 (h.resolve_right gen_ne_zero)

/-- The rotation set of commitments. -/
noncomputable def Halo2.PolySet.toRot (τ : Fr) (S : PolySet) : RotSet := ⟨S.rots, S.queries.map fun q => (com τ q.1, q.2)⟩

theorem toRot_commitment (τ : Fr) (S : PolySet) (c : Challenges) : (S.toRot τ).commitment c = com τ (S.poly c.y') := by
  rw [RotSet.commitment, PolySet.poly, PolySet.toRot]
  generalize S.queries = l
  induction l using List.reverseRecOn with
  | nil => rw [List.foldl_nil, com, eval_zero]; exact (zero_smul Fr G1gen).symm
  | append_singleton l a ih =>
    rw [List.map_append, List.foldl_append, List.foldl_append, ih]
    simp only [List.map_singleton, List.foldl_cons, List.foldl_nil, com_add, com_C_mul]

theorem toRot_value (τ : Fr) (S : PolySet) (c : Challenges) : (S.toRot τ).value c = S.value c.x c.y' c.u := by
  rw [RotSet.value, PolySet.value, PolySet.toRot, List.map_map]; rfl

theorem rotSets_eq {τ : Fr} {K : VkPolys} (hK : K.Opens τ) {k : Fr} {P : Columns} {h : ℕ → Fr[X]} {q w : Fr[X]} {C : Commitments}
    (hC : Opens τ K k P h q w C) (c : Challenges) (e : Evals) (hv : Fr) :
    rotSets c C e hv = (polySets K k P h c.x e hv).map (PolySet.toRot τ) := by
  have hf : (List.range 13).map (fun i => (vkFixed i, [e.f i])) = (List.range 13).map (fun i => (com τ (K.f i), [e.f i])) :=
    List.map_congr_left fun i hi => by rw [hK.f i (List.mem_range.1 hi)]
  have hs : (List.range 7).map (fun i => (vkSigma i, [e.σ i])) = (List.range 7).map (fun i => (com τ (K.σ i), [e.σ i])) :=
    List.map_congr_left fun i hi => by rw [hK.σ i (List.mem_range.1 hi)]
  rw [rotSets, polySets, permSet, inputSet, singleSet, nextSet, nextNextSet, hf, hs, hCommitment]
  simp only [List.map_cons, List.map_nil, PolySet.toRot, List.map_append, List.map_map, Function.comp_def, com_add, com_C_mul]
  rw [hC.z 0 (by decide), hC.z 1 (by decide), hC.z 2 (by decide), hC.z 3 (by decide), hC.permA 0 (by decide), hC.permA 1 (by decide),
    hC.inst, hC.a 0 (by decide), hC.a 1 (by decide), hC.a 2 (by decide), hC.a 3 (by decide), hC.a 4 (by decide),
    hC.a 5 (by decide), hC.a 6 (by decide), hC.a 7 (by decide), hC.permS 0 (by decide), hC.permS 1 (by decide),
    hC.Z 0 (by decide), hC.Z 1 (by decide), hC.random, hC.h 0 (by decide), hC.h 1 (by decide), hC.h 2 (by decide), com_C_mul]

/-- The pairing equation says that τ is a root of the opening polynomial. -/
theorem opening_iff {τ : Fr} {K : VkPolys} (hK : K.Opens τ) {k : Fr} {P : Columns} {h : ℕ → Fr[X]} {q w : Fr[X]} {C : Commitments}
    (hC : Opens τ K k P h q w C) (c : Challenges) (e : Evals) (hv : Fr) :
    opening c C e hv = τ • C.W' ↔ (openingPoly c K k P h q w e hv).eval τ = 0 := by
  have hfold : ∀ sets : List PolySet, (sets.map (PolySet.toRot τ)).foldl
      (fun acc S => c.v • acc + S.weight c • (S.commitment c - S.value c • G1gen)) 0 =
      (sets.foldl (fun acc (S : PolySet) => Polynomial.C c.v * acc +
        Polynomial.C (S.other c.x c.u / vanish (points c.x (allRots.filter fun k => k ∉ firstRots)) c.u) *
        (S.poly c.y' - Polynomial.C (S.value c.x c.y' c.u))) 0).eval τ • G1gen := by
    intro sets
    induction sets using List.reverseRecOn with
    | nil => rw [List.foldl_nil, eval_zero]; exact (zero_smul Fr G1gen).symm
    | append_singleton l S ih =>
      rw [List.map_append, List.foldl_append, List.foldl_append, ih]
      simp only [List.map_singleton, List.foldl_cons, List.foldl_nil, toRot_commitment, toRot_value, eval_add,
        Polynomial.eval_mul, eval_C, eval_sub]
      rw [com, add_smul, mul_smul, mul_smul, sub_smul]
      rfl
  rw [opening, rotSets_eq hK hC, hfold, hC.W, hC.W', com, com, openingPoly]
  simp only [eval_sub, Polynomial.eval_mul, eval_C, eval_X]
  rw [← mul_smul, ← mul_smul, ← mul_smul, ← sub_smul, ← add_smul]
  constructor
  · intro h
    linear_combination com_eval_inj (τ := τ) h
  · intro h
    refine congrArg (fun s : Fr => s • G1gen) ?_
    linear_combination h

theorem ω_ne_one {j : ℕ} (h0 : 0 < j) (hj : j < n) : ω ^ j ≠ 1 := ω_primitive.pow_ne_one_of_pos_of_lt h0.ne' hj

/-- The rotated points are distinct. -/
theorem allRots_nodup {x : Fr} (hx : x ≠ 0) : (points x allRots).Nodup := by
  refine List.Nodup.map_on (fun a ha b hb hab => ?_) (by decide)
  have h1 : ω ^ a = ω ^ b := mul_right_cancel₀ hx hab
  have key : ∀ a ∈ allRots, ∀ b ∈ allRots, b < a → a - b < 9 := by decide
  by_contra hne
  have : ∀ a ∈ allRots, ∀ b ∈ allRots, b < a → ω ^ a ≠ ω ^ b := by
    intro a ha b hb hlt h
    have h2 : ω ^ (a - b) = 1 := by rw [zpow_sub₀ ω_ne, h, div_self (zpow_ne_zero _ ω_ne)]
    obtain ⟨m, hm⟩ := Int.eq_ofNat_of_zero_le (sub_nonneg.2 hlt.le)
    have h9 := key a ha b hb hlt
    rw [hm, zpow_natCast] at h2
    exact ω_ne_one (by omega) (lt_of_lt_of_le (by omega : m < 9) (by decide)) h2
  rcases lt_or_gt_of_ne hne with h | h
  · exact this b hb a ha h h1.symm
  · exact this a ha b hb h h1

theorem polySets_good {K : VkPolys} {k : Fr} {P : Columns} {h : ℕ → Fr[X]} {d : ℕ} (hK : K.Bounded d) (hP : P.Bounded d)
    (hh : ∀ i, (h i).natDegree ≤ d) (x : Fr) (e : Evals) (hv : Fr) : GoodSets (polySets K k P h x e hv) d := by
  have hH : (h 0 + C (x ^ n) * h 1 + C ((x ^ n) ^ 2) * h 2).natDegree ≤ d := by
    generalize x ^ n = a
    refine (natDegree_add_le _ _).trans (max_le ((natDegree_add_le _ _).trans (max_le (hh 0) ?_)) ?_)
    · exact (natDegree_C_mul_le _ _).trans (hh 1)
    · exact (natDegree_C_mul_le _ _).trans (hh 2)
  have hI : (C k * K.inst).natDegree ≤ d := (natDegree_C_mul_le _ _).trans hK.inst
  refine ⟨?_, ?_, ?_, ?_⟩
  · simp only [polySets, List.forall_mem_cons, List.not_mem_nil, IsEmpty.forall_iff, implies_true, and_true]
    decide
  · simp only [polySets, List.forall_mem_cons, List.not_mem_nil, IsEmpty.forall_iff, implies_true, and_true]
    decide
  · simp only [polySets, List.forall_mem_cons, List.not_mem_nil, IsEmpty.forall_iff, implies_true, and_true]
    decide
  · simp only [polySets, List.forall_mem_cons, List.not_mem_nil, IsEmpty.forall_iff, implies_true, and_true,
      List.forall_mem_append, List.forall_mem_map]
    simp only [hK.f, hK.σ, hP.a, hP.permA, hP.permS, hP.z, hP.Z, hP.random, hH, hI, implies_true, and_self]

theorem polySets_queries (K : VkPolys) (k : Fr) (P : Columns) (h : ℕ → Fr[X]) (x : Fr) (e : Evals) (hv : Fr) :
    ∀ S ∈ polySets K k P h x e hv, S.queries.length ≤ 29 + 1 := by
  simp only [polySets, List.forall_mem_cons, List.not_mem_nil, IsEmpty.forall_iff, implies_true, and_true,
    List.length_append, List.length_map, List.length_range, List.length_cons, List.length_nil]
  decide

theorem combine_foldl (v : Fr) {ι : Type} (l : List ι) (f : ι → Fr[X]) (u : Fr) :
    (l.foldl (fun acc i => C v * acc + f i) 0).eval u = combine v (l.map fun i => (f i).eval u) := by
  induction l using List.reverseRecOn with
  | nil => simp [combine_nil]
  | append_singleton l a ih =>
    rw [List.foldl_append, List.map_append, List.map_singleton, combine_concat, ← ih]
    simp only [List.foldl_cons, List.foldl_nil, eval_add, Polynomial.eval_mul, eval_C]
    ring

theorem combine_mul (v a : Fr) {ι : Type} (l : List ι) (f : ι → Fr) :
    combine v (l.map f) * a = combine v (l.map fun i => f i * a) := by
  induction l using List.reverseRecOn with
  | nil => simp [combine_nil]
  | append_singleton l b ih =>
    simp only [List.map_append, List.map_singleton, combine_concat]
    rw [← ih]; ring

theorem rots_rest : (allRots.filter fun k => k ∉ firstRots) = [2, -1] := by decide

theorem vanish_append (ps qs : List Fr) (u : Fr) : vanish (ps ++ qs) u = vanish ps u * vanish qs u := by
  rw [vanish, List.map_append, List.prod_append, vanish, vanish]

theorem vanish_allRots (x u : Fr) : vanish (points x allRots) u = vanish (points x firstRots) u * vanish (points x [2, -1]) u := by
  have hp : allRots.Perm (firstRots ++ [2, -1]) := by decide
  rw [← vanish_append, points, points, points, ← List.map_append]
  exact ((hp.map _).map _).prod_eq

/-- The opening polynomial at u. -/
theorem openingPoly_at_u (c : Challenges) (K : VkPolys) (k : Fr) (P : Columns) (h : ℕ → Fr[X]) (q w : Fr[X]) (e : Evals) (hv : Fr)
    (hu : vanish (points c.x [2, -1]) c.u ≠ 0) :
    (openingPoly c K k P h q w e hv).eval c.u * vanish (points c.x [2, -1]) c.u =
      openingAt (polySets K k P h c.x e hv) c.x c.y' c.v q c.u := by
  rw [openingPoly, openingAt, vanish_allRots, rots_rest]
  simp only [eval_sub, combine_foldl, Polynomial.eval_mul, eval_C, eval_X, sub_self, sub_zero, sub_mul]
  rw [combine_mul]
  revert hu
  generalize vanish (points c.x [2, -1]) c.u = a, vanish (points c.x firstRots) c.u = b
  intro hu
  refine congrArg₂ (· - ·) (congrArg _ (List.map_congr_left fun S _ => ?_)) ?_
  · generalize S.other c.x c.u = t, S.value c.x c.y' c.u = r
    field_simp
  · ring

theorem vanish_allBut (x : Fr) : AllBut 2 fun u => vanish (points x [2, -1]) u ≠ 0 := by
  classical
  refine ⟨(points x [2, -1]).toFinset, (List.toFinset_card_le _).trans (by simp [points]), fun u hu h => ?_⟩
  rw [List.mem_toFinset] at hu
  exact hu (vanish_eq_zero.1 h)

theorem opening_sound {K : VkPolys} {k : Fr} {P : Columns} {h : ℕ → Fr[X]} {d : ℕ} (hK : K.Bounded d) (hP : P.Bounded d)
    (hh : ∀ i, (h i).natDegree ≤ d) {x : Fr} (hx : x ≠ 0) {e : Evals} {hv : Fr}
    (hf : ¬ ∀ S ∈ polySets K k P h x e hv, S.AllTrue x) :
    AllBut 29 fun y' => AllBut 4 fun v => ∀ q : Fr[X], q.natDegree ≤ d → AllBut (d + 10) fun u => ∀ c : Challenges,
      c.x = x → c.y' = y' → c.v = v → c.u = u → ∀ w : Fr[X], openingPoly c K k P h q w e hv ≠ 0 := by
  refine (sets_sound (polySets_good hK hP hh x e hv) (allRots_nodup hx) (polySets_queries K k P h x e hv) hf).mono le_rfl ?_
  refine fun y' h1 => h1.mono (by rw [polySets]; simp only [List.length_cons, List.length_nil]; exact le_rfl) fun v h2 q hq => ?_
  refine ((h2 q hq).and (vanish_allBut x)).mono le_rfl ?_
  rintro u ⟨h3, hu⟩ c rfl rfl rfl rfl w h0
  apply h3
  rw [← openingPoly_at_u c K k P h q w e hv hu, h0, eval_zero, zero_mul]

/-- The claims about the five sets are the claimed evaluations and the claimed quotient value. -/
theorem allTrue_iff (K : VkPolys) (k : Fr) (P : Columns) (h : ℕ → Fr[X]) (x : Fr) (e : Evals) (hv : Fr) :
    (∀ S ∈ polySets K k P h x e hv, S.AllTrue x) ↔ e.Same (trueEvals K k P x) ∧ hv = trueQuotient h x := by
  have one : ∀ (p : Fr[X]) (k0 : ℤ) (a : Fr), (∀ i (hi : i < [k0].length), p.eval (ω ^ [k0][i] * x) = [a].getD i 0) ↔
      a = rotEval p k0 x := by
    intro p k0 a
    constructor
    · intro h; exact (h 0 (by simp)).symm
    · rintro rfl i hi
      have : i = 0 := by simpa using hi
      subst this; rfl
  have two : ∀ (p : Fr[X]) (k0 k1 : ℤ) (a b : Fr), (∀ i (hi : i < [k0, k1].length), p.eval (ω ^ [k0, k1][i] * x) = [a, b].getD i 0) ↔
      a = rotEval p k0 x ∧ b = rotEval p k1 x := by
    intro p k0 k1 a b
    constructor
    · intro h; exact ⟨(h 0 (by simp)).symm, (h 1 (by simp)).symm⟩
    · rintro ⟨rfl, rfl⟩ i hi
      have : i = 0 ∨ i = 1 := by simp only [List.length_cons, List.length_nil] at hi; omega
      rcases this with rfl | rfl <;> rfl
  have three : ∀ (p : Fr[X]) (k0 k1 k2 : ℤ) (a b c : Fr),
      (∀ i (hi : i < [k0, k1, k2].length), p.eval (ω ^ [k0, k1, k2][i] * x) = [a, b, c].getD i 0) ↔
      a = rotEval p k0 x ∧ b = rotEval p k1 x ∧ c = rotEval p k2 x := by
    intro p k0 k1 k2 a b c
    constructor
    · intro h; exact ⟨(h 0 (by simp)).symm, (h 1 (by simp)).symm, (h 2 (by simp)).symm⟩
    · rintro ⟨rfl, rfl, rfl⟩ i hi
      have : i = 0 ∨ i = 1 ∨ i = 2 := by simp only [List.length_cons, List.length_nil] at hi; omega
      rcases this with rfl | rfl | rfl <;> rfl
  have hq : rotEval (h 0 + C (x ^ n) * h 1 + C ((x ^ n) ^ 2) * h 2) 0 x = trueQuotient h x := by
    rw [trueQuotient]
    generalize x ^ n = a
    simp only [rotEval, eval_add, Polynomial.eval_mul, eval_C]
  have hi : rotEval (C k * K.inst) 0 x = k * rotEval K.inst 0 x := by
    simp only [rotEval, Polynomial.eval_mul, eval_C]
  simp only [polySets, PolySet.AllTrue, List.forall_mem_cons, List.forall_mem_append, List.forall_mem_map, List.not_mem_nil,
    IsEmpty.forall_iff, implies_true, and_true, one, two, three, hq, hi]
  constructor
  · rintro ⟨⟨⟨z0, z1, z2⟩, ⟨z3, z4, z5⟩, z6, z7, z8⟩, ⟨⟨p0, p1⟩, p2, p3⟩, ⟨⟨⟨⟨s0, s1, s2, s3, s4, s5, s6, s7⟩, hf⟩, hs⟩, s8, s9⟩,
      ⟨⟨n0, n1⟩, ⟨n2, n3⟩, ⟨n4, n5⟩, n6, n7⟩, ⟨m0, m1, m2⟩, m3, m4, m5⟩
    refine ⟨⟨s0, s1, s2, s3, s4, n0, n1, s5, m0, m1, m2, m3, m4, m5, fun i hi => hf i (List.mem_range.2 hi), s9,
      fun i hi => hs i (List.mem_range.2 hi), ?_, ?_, ?_, ?_, ?_⟩, s8⟩
    · intro i hi
      have : i = 0 ∨ i = 1 ∨ i = 2 ∨ i = 3 := by omega
      rcases this with rfl | rfl | rfl | rfl
      exacts [z0, z3, z6, n2]
    · intro i hi
      have : i = 0 ∨ i = 1 ∨ i = 2 ∨ i = 3 := by omega
      rcases this with rfl | rfl | rfl | rfl
      exacts [z1, z4, z7, n3]
    · intro i hi
      have : i = 0 ∨ i = 1 ∨ i = 2 := by omega
      rcases this with rfl | rfl | rfl
      exacts [z2, z5, z8]
    · cases hl : e.lookup0
      rw [hl] at n4 n5 p0 p1 s6
      simp only [trueEvals, LookupEvals.mk.injEq]
      exact ⟨n4, n5, p0, p1, s6⟩
    · cases hl : e.lookup1
      rw [hl] at n6 n7 p2 p3 s7
      simp only [trueEvals, LookupEvals.mk.injEq]
      exact ⟨n6, n7, p2, p3, s7⟩
  · rintro ⟨E, s8⟩
    have l0 := E.lookup0
    have l1 := E.lookup1
    cases hl0 : e.lookup0
    cases hl1 : e.lookup1
    rw [hl0] at l0
    rw [hl1] at l1
    simp only [trueEvals, LookupEvals.mk.injEq] at l0 l1
    obtain ⟨n4, n5, p0, p1, s6⟩ := l0
    obtain ⟨n6, n7, p2, p3, s7⟩ := l1
    refine ⟨⟨⟨E.z 0 (by decide), E.zω 0 (by decide), E.zlast 0 (by decide)⟩, ⟨E.z 1 (by decide), E.zω 1 (by decide), E.zlast 1 (by decide)⟩,
      E.z 2 (by decide), E.zω 2 (by decide), E.zlast 2 (by decide)⟩, ⟨⟨p0, p1⟩, p2, p3⟩,
      ⟨⟨⟨⟨E.inst, E.a0, E.a1, E.a2, E.a3, E.a5, s6, s7⟩, fun i hi => E.f i (List.mem_range.1 hi)⟩,
        fun i hi => E.σ i (List.mem_range.1 hi)⟩, s8, E.random⟩,
      ⟨⟨E.a4, E.a4ω⟩, ⟨E.z 3 (by decide), E.zω 3 (by decide)⟩, ⟨n4, n5⟩, n6, n7⟩,
      ⟨E.a6, E.a6ω, E.a6ωω⟩, E.a7, E.a7ω, E.a7ωω⟩

end Verif
