/- The 46 terms of the opening as multiples of the generator, and how rarely one of them or a partial sum falls into a given set.
Models nothing of /repo. -/
import Verif.Lemmas.Rare

namespace Verif
open Halo2 Polynomial

theorem vanish_hasCoeff (ps : List Fr) : HasCoeff ps.length ps.length (vanish ps) 1 := by
  induction ps with
  | nil => exact ⟨1, natDegree_one.le, coeff_one_zero, fun x => eval_one⟩
  | cons p ps ih =>
    have h := (HasCoeff.sub_const p).mul ih
    rw [mul_one, Nat.add_comm] at h
    refine h.congr fun u => ?_
    rw [vanish, vanish, List.map_cons, List.prod_cons]

theorem combine_hasCoeff {ι : Type} {d j : ℕ} (v : Fr) (l : List ι) {f : ι → Fr → Fr} {a : ι → Fr} (h : ∀ i ∈ l, HasCoeff d j (f i) (a i)) :
    HasCoeff d j (fun u => combine v (l.map fun i => f i u)) (combine v (l.map a)) := by
  induction l using List.reverseRecOn with
  | nil => exact ⟨0, by rw [natDegree_zero]; exact Nat.zero_le d, coeff_zero j, fun x => eval_zero⟩
  | append_singleton l b ih =>
    have h1 := (ih fun i hi => h i (List.mem_append_left _ hi)).smul v
    have h2 := h b (List.mem_append_right _ (List.mem_singleton_self b))
    refine ((h1.add h2).congr fun u => ?_).of_eq ?_
    · rw [List.map_append, List.map_singleton, combine_concat, mul_comm]
    · rw [List.map_append, List.map_singleton, combine_concat, mul_comm]

/-- The coefficients of a combination, as a function of the combining challenge. -/
theorem combine_coeff (es : List Fr) {d j : ℕ} (hd : es.length ≤ d + 1) : HasCoeff d j (fun y => combine y es) (es.reverse.getD j 0) := by
  have key : ∀ es : List Fr, ∃ p : Fr[X], (∀ j, p.coeff j = es.reverse.getD j 0) ∧ ∀ y, p.eval y = combine y es := by
    intro es
    induction es using List.reverseRecOn with
    | nil => exact ⟨0, fun j => by simp, fun y => by rw [eval_zero, combine_nil]⟩
    | append_singleton l a ih =>
      obtain ⟨p, hp, hy⟩ := ih
      refine ⟨p * X + C a, fun j => ?_, fun y => ?_⟩
      · rw [List.reverse_append, List.reverse_singleton, List.singleton_append, coeff_add]
        cases j with
        | zero => simp
        | succ j => rw [coeff_mul_X, coeff_C_succ, add_zero, List.getD_cons_succ, hp]
      · rw [combine_concat, eval_add, Polynomial.eval_mul, eval_X, eval_C, hy]
  obtain ⟨p, hp, hy⟩ := key es
  refine ⟨p, natDegree_le_iff_coeff_eq_zero.2 fun k hk => ?_, hp j, hy⟩
  rw [hp, List.getD_eq_getElem?_getD, List.getElem?_eq_none (by rw [List.length_reverse]; omega)]
  rfl

theorem interp_polyFn' {x : Fr} {rots : List ℤ} (h : (points x rots).Nodup) (es : List Fr) {m : ℕ} (hm : rots.length ≤ m + 1) :
    PolyFn m (interp (points x rots) es) := by
  refine PolyFn.eval (natDegree_le_iff_coeff_eq_zero.2 fun k hk => coeff_eq_zero_of_degree_lt ?_)
  refine (Lagrange.degree_interpolate_lt (fun i => es.getD i 0) (points_injOn h)).trans_le ?_
  rw [Finset.card_range, points, List.length_map]
  exact_mod_cast (show rots.length ≤ k by omega)

/-- One of the 43 summands with a commitment: rotation set, power of y', and the commitment as a multiple of the generator. -/
structure Item where
  s : ℕ
  j : ℕ
  d : Fr

/-- The rotations that a rotation set lacks. -/
def restRots : ℕ → List ℤ
  | 0 => [2, -1]
  | 1 => [1, 2, -6]
  | 2 => [1, 2, -1, -6]
  | 3 => [2, -1, -6]
  | _ => [-1, -6]

noncomputable def Zr (x : Fr) (s : ℕ) (u : Fr) : Fr := vanish (points x (restRots s)) u

/-- A summand, times the common denominator. -/
noncomputable def Item.num (x y' v u : Fr) (i : Item) : Fr := v ^ (4 - i.s) * Zr x i.s u * y' ^ i.j * i.d

/-- A summand. -/
noncomputable def Item.val (x y' v u : Fr) (i : Item) : Fr := v ^ (4 - i.s) * (Zr x i.s u / Zr x 0 u) * y' ^ i.j * i.d

theorem Item.val_mul {x y' v u : Fr} (i : Item) (h : Zr x 0 u ≠ 0) : i.val x y' v u * Zr x 0 u = i.num x y' v u := by
  unfold Item.val Item.num
  field_simp

noncomputable def sumNum (x y' v : Fr) (l : List Item) (u : Fr) : Fr := (l.map (Item.num x y' v u)).sum

theorem sumVal_mul {x y' v u : Fr} (l : List Item) (h : Zr x 0 u ≠ 0) :
    (l.map (Item.val x y' v u)).sum * Zr x 0 u = sumNum x y' v l u := by
  unfold sumNum
  induction l with
  | nil => simp
  | cons i l ih => rw [List.map_cons, List.sum_cons, List.map_cons, List.sum_cons, add_mul, ih, i.val_mul h]

theorem sumNum_append (x y' v : Fr) (l l' : List Item) (u : Fr) : sumNum x y' v (l ++ l') u = sumNum x y' v l u + sumNum x y' v l' u := by
  unfold sumNum
  rw [List.map_append, List.sum_append]

/-- The part of the combination that belongs to the set opened at x only. -/
def headSum (y' : Fr) (l : List Item) : Fr := (l.map fun i => if i.s = 2 then y' ^ i.j * i.d else 0).sum

def headCoeff (j : ℕ) (l : List Item) : Fr := (l.map fun i => if i.s = 2 ∧ i.j = j then i.d else 0).sum

theorem restRots_length (s : ℕ) : (restRots s).length = 4 ∧ s = 2 ∨ (restRots s).length ≤ 3 ∧ s ≠ 2 := by
  match s with
  | 0 => right; decide
  | 1 => right; decide
  | 2 => left; decide
  | 3 => right; decide
  | n + 4 => right; exact ⟨by show 2 ≤ 3; omega, by omega⟩

theorem Zr_hasCoeff (x : Fr) (s : ℕ) : HasCoeff (restRots s).length (restRots s).length (Zr x s) 1 := by
  have h := vanish_hasCoeff (points x (restRots s))
  rw [points, List.length_map] at h
  exact h

theorem Zr_polyFn (x : Fr) (s : ℕ) {d : ℕ} (h : (restRots s).length ≤ d) : PolyFn d (Zr x s) := (Zr_hasCoeff x s).polyFn.mono h

theorem num_hasCoeff (x y' v : Fr) (i : Item) : HasCoeff 4 4 (fun u => i.num x y' v u) (v ^ 2 * if i.s = 2 then y' ^ i.j * i.d else 0) := by
  have h0 : HasCoeff 4 4 (Zr x i.s) (if i.s = 2 then 1 else 0) := by
    rcases restRots_length i.s with ⟨h, hs⟩ | ⟨h, hs⟩
    · rw [if_pos hs]
      have := Zr_hasCoeff x i.s
      rwa [h] at this
    · rw [if_neg hs]
      exact (Zr_polyFn x i.s h).hasCoeff_zero (by omega) (by omega)
  refine ((h0.smul (v ^ (4 - i.s) * y' ^ i.j * i.d)).congr fun u => ?_).of_eq ?_
  · unfold Item.num; ring
  · split
    · rename_i h; rw [h]; ring
    · ring

theorem sumNum_hasCoeff (x y' v : Fr) (l : List Item) : HasCoeff 4 4 (sumNum x y' v l) (v ^ 2 * headSum y' l) := by
  unfold sumNum headSum
  induction l with
  | nil => exact ((PolyFn.const 0 0).hasCoeff_zero (j := 4) (e := 4) (by omega) (by omega)).of_eq (by simp)
  | cons i l ih =>
    refine (((num_hasCoeff x y' v i).add ih).congr fun u => ?_).of_eq ?_
    · rw [List.map_cons, List.sum_cons]
    · rw [List.map_cons, List.sum_cons]; ring

theorem headSum_hasCoeff (l : List Item) (hl : ∀ i ∈ l, i.j ≤ 29) (j : ℕ) : HasCoeff 29 j (fun y' => headSum y' l) (headCoeff j l) := by
  unfold headSum headCoeff
  induction l with
  | nil => exact ⟨0, by rw [natDegree_zero]; omega, coeff_zero j, fun x => by rw [eval_zero]; rfl⟩
  | cons i l ih =>
    have h1 : HasCoeff 29 j (fun y' : Fr => if i.s = 2 then y' ^ i.j * i.d else 0) (if i.s = 2 ∧ i.j = j then i.d else 0) := by
      by_cases hs : i.s = 2
      · simp only [hs, if_true, true_and]
        exact HasCoeff.monomial (hl i List.mem_cons_self) j i.d
      · simp only [hs, if_false, false_and]
        exact ⟨0, by rw [natDegree_zero]; omega, coeff_zero j, fun x => eval_zero⟩
    refine ((h1.add (ih fun i hi => hl i (List.mem_cons_of_mem _ hi))).congr fun u => ?_).of_eq ?_
    · rw [List.map_cons, List.sum_cons]
    · rw [List.map_cons, List.sum_cons]

theorem headCoeff_eq_zero {j : ℕ} {l : List Item} (h : ∀ i ∈ l, i.s = 2 → i.j ≠ j) : headCoeff j l = 0 := by
  unfold headCoeff
  refine List.sum_eq_zero fun a ha => ?_
  obtain ⟨i, hi, rfl⟩ := List.mem_map.1 ha
  exact if_neg fun g => h i hi g.1 g.2

theorem AllBut.forall_list {F ι : Type} [DecidableEq F] {d : ℕ} (l : List ι) {p : ι → F → Prop} (h : ∀ i ∈ l, AllBut d (p i)) :
    AllBut (l.length * d) fun c => ∀ i ∈ l, p i c := by
  induction l with
  | nil => exact .of_forall fun c i hi => by simp at hi
  | cons a l ih =>
    rw [List.length_cons, Nat.succ_mul]
    refine ((ih fun i hi => h i (List.mem_cons_of_mem _ hi)).and (h a List.mem_cons_self)).mono le_rfl ?_
    rintro c ⟨h1, h2⟩ i hi
    rcases List.mem_cons.1 hi with rfl | hi
    · exact h2
    · exact h1 i hi

/-- Z_(S₀)(u). -/
noncomputable def Zf (x u : Fr) : Fr := vanish (points x firstRots) u

theorem Zf_hasCoeff (x : Fr) : HasCoeff 3 3 (Zf x) 1 := vanish_hasCoeff (points x firstRots)

/-- The values of the 46 terms: R is the combined value, q and w the two opening proofs, `A` and `B` the summands before and
after these. -/
noncomputable def valList (x y' v u R q w : Fr) (A B : List Item) : List Fr :=
  -R :: (A.map (Item.val x y' v u) ++ (-Zf x u * q) :: (u * w) :: B.map (Item.val x y' v u))

/-- What is known of the combined value `rz` (times the denominator) and of the first opening proof `q`, as functions of y', v
and u. -/
structure RareSetup (x τ : Fr) (A B : List Item) (rz : Fr → Fr → Fr → Fr) (q : Fr → Fr → Fr) (E F : Fr → Fr) (j : ℕ) (s t : Fr) : Prop where
  x_ne : x ≠ 0
  τ_ne : τ ≠ 0
  lenA : A.length = 21
  lenB : B.length = 22
  item : ∀ i ∈ A ++ B, i.s ≤ 4 ∧ i.j ≤ 29 ∧ i.d ≠ 0
  rz : ∀ y', ∃ a0 a1 a3 a4 : Fr, ∀ v, HasCoeff 4 4 (rz y' v) (combine v [a0, a1, E y', a3, a4])
  E : HasCoeff 29 8 E s
  s : s ≠ 0
  A : ∀ i ∈ A, i.s = 2 → i.j ≠ 8
  q : ∀ y', ∃ b0 b1 b3 b4 : Fr, ∀ v, q y' v = combine v [b0, b1, F y', b3, b4]
  F : HasCoeff 29 j F t
  t : t ≠ 0
  B : ∀ i ∈ B, i.s = 2 → i.j ≠ j

/-- The conditions on y'. -/
structure GoodY (τ : Fr) (A B : List Item) (E F : Fr → Fr) (y' : Fr) : Prop where
  ne : y' ≠ 0
  before : ∀ k < 22, -E y' + headSum y' (A.take k) ≠ 0
  after : ∀ k < 23, -τ * F y' + headSum y' (B.drop k) ≠ 0

theorem goodY {x τ : Fr} {A B : List Item} {rz : Fr → Fr → Fr → Fr} {q : Fr → Fr → Fr} {E F : Fr → Fr} {j : ℕ} {s t : Fr}
    (S : RareSetup x τ A B rz q E F j s t) : AllBut 1306 (GoodY τ A B E F) := by
  have h1 : AllBut (22 * 29) fun y' => ∀ k < 22, -E y' + headSum y' (A.take k) ≠ 0 := AllBut.forall_lt 22 fun k _ => by
    have := (S.E.smul (-1)).add (headSum_hasCoeff (A.take k) (fun i hi => (S.item i (List.mem_append_left _ (List.mem_of_mem_take hi))).2.1) 8)
    rw [headCoeff_eq_zero fun i hi => S.A i (List.mem_of_mem_take hi)] at this
    refine (this.allBut (by rw [add_zero, neg_one_mul]; exact neg_ne_zero.2 S.s)).mono le_rfl fun y h => ?_
    rwa [neg_one_mul] at h
  have h2 : AllBut (23 * 29) fun y' => ∀ k < 23, -τ * F y' + headSum y' (B.drop k) ≠ 0 := AllBut.forall_lt 23 fun k _ => by
    have := (S.F.smul (-τ)).add (headSum_hasCoeff (B.drop k) (fun i hi => (S.item i (List.mem_append_right _ (List.mem_of_mem_drop hi))).2.1) j)
    rw [headCoeff_eq_zero fun i hi => S.B i (List.mem_of_mem_drop hi)] at this
    exact this.allBut (by rw [add_zero]; exact mul_ne_zero (neg_ne_zero.2 S.τ_ne) S.t)
  exact (((AllBut.ne 0).and h1).and h2).mono (by norm_num) fun y h => ⟨h.1.1, h.1.2, h.2⟩

/-- The conditions on v. -/
structure GoodV (τ : Fr) (A B : List Item) (D : Finset Fr) (c : Fr → Fr) (q : Fr → Fr) (y' v : Fr) : Prop where
  ne : v ≠ 0
  before : ∀ k < 22, -c v + v ^ 2 * headSum y' (A.take k) ≠ 0
  after : ∀ k < 23, -τ * q v + v ^ 2 * headSum y' (B.drop k) ≠ 0
  first : ∀ i ∈ A ++ B, ∀ b ∈ D, v ^ 4 * (y' ^ i.j * i.d) ≠ b

theorem goodV {x τ : Fr} {A B : List Item} {rz : Fr → Fr → Fr → Fr} {q : Fr → Fr → Fr} {E F : Fr → Fr} {j : ℕ} {s t : Fr}
    (S : RareSetup x τ A B rz q E F j s t) (D : Finset Fr) {y' : Fr} (G : GoodY τ A B E F y') :
    ∃ c : Fr → Fr, (∀ v, HasCoeff 4 4 (rz y' v) (c v)) ∧ AllBut (172 * D.card + 181) (GoodV τ A B D c (q y') y') := by
  obtain ⟨a0, a1, a3, a4, hc⟩ := S.rz y'
  obtain ⟨b0, b1, b3, b4, hq⟩ := S.q y'
  refine ⟨fun v => combine v [a0, a1, E y', a3, a4], hc, ?_⟩
  have h1 : AllBut (22 * 4) fun v => ∀ k < 22, -combine v [a0, a1, E y', a3, a4] + v ^ 2 * headSum y' (A.take k) ≠ 0 :=
    AllBut.forall_lt 22 fun k hk => by
      have := ((combine_coeff [a0, a1, E y', a3, a4] (d := 4) (j := 2) le_rfl).smul (-1)).add
        (HasCoeff.monomial (d := 4) (k := 2) (by decide) 2 (headSum y' (A.take k)))
      refine (this.allBut ?_).mono le_rfl fun v h => ?_
      · rw [if_pos rfl, neg_one_mul]; exact G.before k hk
      · rwa [neg_one_mul] at h
  have h2 : AllBut (23 * 4) fun v => ∀ k < 23, -τ * q y' v + v ^ 2 * headSum y' (B.drop k) ≠ 0 := AllBut.forall_lt 23 fun k hk => by
    have := ((combine_coeff [b0, b1, F y', b3, b4] (d := 4) (j := 2) le_rfl).smul (-τ)).add
      (HasCoeff.monomial (d := 4) (k := 2) (by decide) 2 (headSum y' (B.drop k)))
    refine (this.allBut ?_).mono le_rfl fun v h => ?_
    · rw [if_pos rfl]; exact G.after k hk
    · rwa [hq]
  have h3 : AllBut ((A ++ B).length * (D.card * 4)) fun v => ∀ i ∈ A ++ B, ∀ b ∈ D, v ^ 4 * (y' ^ i.j * i.d) ≠ b := AllBut.forall_list _ fun i hi => by
    have := HasCoeff.monomial (d := 4) (k := 4) le_rfl 4 (y' ^ i.j * i.d)
    rw [if_pos rfl] at this
    refine (this.avoids (mul_ne_zero (pow_ne_zero _ G.ne) (S.item i hi).2.2) (PolyFn.const 0 1) (by omega) (by omega) D).mono le_rfl fun v h b hb => ?_
    have := h b hb
    rwa [mul_one] at this
  rw [List.length_append, S.lenA, S.lenB] at h3
  exact ((((AllBut.ne 0).and h1).and h2).and h3).mono (by omega) fun v h => ⟨h.1.1.1, h.1.1.2, h.1.2, h.2⟩

/-- M_k(u): the sum of R's term, the first summands and the term of the first opening proof, times the denominator. -/
noncomputable def partNum (x y' v : Fr) (rz : Fr → Fr) (q : Fr) (l : List Item) (u : Fr) : Fr :=
  -rz u + sumNum x y' v l u - Zf x u * Zr x 0 u * q

theorem partNum_hasCoeff {x y' v : Fr} {rz : Fr → Fr} (hr : PolyFn 4 rz) (q : Fr) (l : List Item) :
    HasCoeff 5 5 (partNum x y' v rz q l) (-q) := by
  have h1 := (((hr.hasCoeff_zero (j := 5) (e := 5) (by omega) (by omega)).smul (-1)).add
    ((sumNum_hasCoeff x y' v l).polyFn.hasCoeff_zero (j := 5) (e := 5) (by omega) (by omega))).sub
    (((Zf_hasCoeff x).mul (Zr_hasCoeff x 0)).smul q)
  refine (h1.congr fun u => ?_).of_eq ?_
  · unfold partNum; ring
  · ring

/-- The conditions on u. -/
structure GoodU (x τ y' v : Fr) (rz : Fr → Fr) (q : Fr) (A B : List Item) (D : Finset Fr) (u : Fr) : Prop where
  den : Zr x 0 u ≠ 0
  ne : τ - u ≠ 0
  before : ∀ k < 22, ∀ b ∈ D, -rz u + sumNum x y' v (A.take k) u ≠ b * Zr x 0 u
  part : ∀ b ∈ D, partNum x y' v rz q A u ≠ b * Zr x 0 u
  first : ∀ b ∈ D, -Zf x u * q ≠ b
  second : ∀ b ∈ D, partNum x y' v rz q (A ++ B) u ≠ b * ((τ - u) * Zr x 0 u)
  second' : ∀ b ∈ D, u * partNum x y' v rz q (A ++ B) u ≠ b * ((τ - u) * Zr x 0 u)
  after : ∀ k < 23, ∀ b ∈ D, τ * partNum x y' v rz q (A ++ B.take k) u + u * sumNum x y' v (B.drop k) u ≠ b * ((τ - u) * Zr x 0 u)
  item : ∀ i ∈ A ++ B, ∀ b ∈ D, i.num x y' v u ≠ b * Zr x 0 u

theorem item_rare {x y' v : Fr} (hx : x ≠ 0) (hy : y' ≠ 0) (hv : v ≠ 0) {i : Item} (hs : i.s ≤ 4) (hd : i.d ≠ 0) {D : Finset Fr}
    (h0 : ∀ b ∈ D, v ^ 4 * (y' ^ i.j * i.d) ≠ b) : AllBut (D.card * 4) fun u => ∀ b ∈ D, Zr x 0 u ≠ 0 → i.num x y' v u ≠ b * Zr x 0 u := by
  have hc : v ^ (4 - i.s) * y' ^ i.j * i.d ≠ 0 := mul_ne_zero (mul_ne_zero (pow_ne_zero _ hv) (pow_ne_zero _ hy)) hd
  have hn : ∀ u, v ^ (4 - i.s) * y' ^ i.j * i.d * Zr x i.s u = i.num x y' v u := fun u => by unfold Item.num; ring
  have big : ∀ m, (restRots i.s).length = m → 2 < m → m ≤ 4 →
      AllBut (D.card * 4) fun u => ∀ b ∈ D, Zr x 0 u ≠ 0 → i.num x y' v u ≠ b * Zr x 0 u := by
    intro m hm h2 h4
    have h := (Zr_hasCoeff x i.s).smul (v ^ (4 - i.s) * y' ^ i.j * i.d)
    rw [hm] at h
    refine (h.avoids (by rw [mul_one]; exact hc) (Zr_polyFn x 0 (d := 2) le_rfl) h2 h2.le D).mono (Nat.mul_le_mul_left _ h4) fun u g b hb _ => ?_
    rw [← hn]; exact g b hb
  obtain h | h | h | h | h : i.s = 0 ∨ i.s = 1 ∨ i.s = 2 ∨ i.s = 3 ∨ i.s = 4 := by omega
  · refine .of_forall fun u b hb hz h1 => h0 b hb ?_
    refine mul_right_cancel₀ hz (Eq.trans ?_ h1)
    rw [← hn, h]; ring
  · exact big 3 (by rw [h]; rfl) (by omega) (by omega)
  · exact big 4 (by rw [h]; rfl) (by omega) (by omega)
  · exact big 3 (by rw [h]; rfl) (by omega) (by omega)
  · have hz0 : Zr x 0 (ω ^ (2 : ℤ) * x) = 0 := vanish_eq_zero.2 (List.mem_map.2 ⟨2, by decide, rfl⟩)
    have hz4 : Zr x i.s (ω ^ (2 : ℤ) * x) ≠ 0 := by
      rw [h]
      intro h1
      obtain ⟨k, hk, he⟩ := List.mem_map.1 (vanish_eq_zero.1 h1)
      have hk' := (by decide : ∀ k ∈ restRots 4, k ∈ allRots) k hk
      have := List.inj_on_of_nodup_map (allRots_nodup hx) hk' (show (2 : ℤ) ∈ allRots by decide) he
      subst this
      revert hk
      decide
    refine (AllBut.forall_mem' D (d := 4) fun b hb => ?_).mono le_rfl fun u g b hb _ => g b hb
    have h1 : PolyFn 2 (fun u => v ^ (4 - i.s) * y' ^ i.j * i.d * Zr x i.s u) := (Zr_polyFn x i.s (by rw [h]; decide)).smul _
    refine (h1.allBut_ne ((Zr_polyFn x 0 le_rfl).smul b) (a := ω ^ (2 : ℤ) * x) ?_).mono (by omega) fun u g => ?_
    · rw [hz0, mul_zero]
      exact mul_ne_zero hc hz4
    · rw [← hn]; exact g

theorem goodU {x τ y' v : Fr} {A B : List Item} (hx : x ≠ 0) (hy : y' ≠ 0) (hlA : A.length = 21) (hlB : B.length = 22)
    (hi : ∀ i ∈ A ++ B, i.s ≤ 4 ∧ i.j ≤ 29 ∧ i.d ≠ 0) {rz c q : Fr → Fr} (hr : HasCoeff 4 4 rz (c v)) {D : Finset Fr}
    (G : GoodV τ A B D c q y' v) : AllBut (394 * D.card + 3) (GoodU x τ y' v rz (q v) A B D) := by
  have hq : q v ≠ 0 := by
    have := G.after 22 (by omega)
    rw [List.drop_eq_nil_of_le (by omega)] at this
    intro h
    apply this
    rw [h]
    simp [headSum]
  have hd2 : PolyFn 2 (Zr x 0) := Zr_polyFn x 0 le_rfl
  have hd3 : PolyFn 3 fun u => (τ - u) * Zr x 0 u := by
    have := (HasCoeff.const_sub τ).polyFn.mul hd2
    exact this
  have u0 : AllBut 2 fun u => Zr x 0 u ≠ 0 := vanish_allBut x
  have u1 : AllBut 1 fun u : Fr => τ - u ≠ 0 := (AllBut.ne τ).mono le_rfl fun u h => sub_ne_zero.2 h.symm
  have u2 : AllBut (22 * (D.card * 4)) fun u => ∀ k < 22, ∀ b ∈ D, -rz u + sumNum x y' v (A.take k) u ≠ b * Zr x 0 u :=
    AllBut.forall_lt 22 fun k hk => by
      have h := ((hr.smul (-1)).add (sumNum_hasCoeff x y' v (A.take k)))
      refine (h.avoids (by rw [neg_one_mul]; exact G.before k hk) hd2 (by omega) (by omega) D).mono le_rfl fun u g b hb => ?_
      have := g b hb
      rwa [neg_one_mul] at this
  have hp := fun l => partNum_hasCoeff (x := x) (y' := y') (v := v) hr.polyFn (q v) l
  have u3 := (hp A).avoids (neg_ne_zero.2 hq) hd2 (by omega) (by omega) D
  have u4 : AllBut (D.card * 3) fun u => ∀ b ∈ D, -Zf x u * q v ≠ b := by
    have h := (Zf_hasCoeff x).smul (-q v)
    refine (h.avoids (by rw [mul_one]; exact neg_ne_zero.2 hq) (PolyFn.const 0 1) (by omega) (by omega) D).mono le_rfl fun u g b hb e => ?_
    apply g b hb
    rw [mul_one, ← e]; ring
  have u5 := (hp (A ++ B)).avoids (neg_ne_zero.2 hq) hd3 (by omega) (by omega) D
  have u6 := (HasCoeff.id.mul (hp (A ++ B))).avoids (by rw [one_mul]; exact neg_ne_zero.2 hq) hd3 (by omega) (by omega) D
  have u7 : AllBut (23 * (D.card * 5)) fun u => ∀ k < 23, ∀ b ∈ D,
      τ * partNum x y' v rz (q v) (A ++ B.take k) u + u * sumNum x y' v (B.drop k) u ≠ b * ((τ - u) * Zr x 0 u) := AllBut.forall_lt 23 fun k hk => by
    have h := ((hp (A ++ B.take k)).smul τ).add (HasCoeff.id.mul (sumNum_hasCoeff x y' v (B.drop k)))
    refine h.avoids ?_ hd3 (by omega) (by omega) D
    have := G.after k hk
    intro e
    apply this
    rw [← e]; ring
  have u8 : AllBut ((A ++ B).length * (D.card * 4)) fun u => ∀ i ∈ A ++ B, ∀ b ∈ D, Zr x 0 u ≠ 0 → i.num x y' v u ≠ b * Zr x 0 u :=
    AllBut.forall_list _ fun i h => item_rare hx hy G.ne (hi i h).1 (hi i h).2.2 (G.first i h)
  rw [List.length_append, hlA, hlB] at u8
  refine ((((((((u0.and u1).and u2).and u3).and u4).and u5).and u6).and u7).and u8).mono (by omega) ?_
  rintro u ⟨⟨⟨⟨⟨⟨⟨⟨h0, h1⟩, h2⟩, h3⟩, h4⟩, h5⟩, h6⟩, h7⟩, h8⟩
  exact ⟨h0, h1, h2, h3, h4, h5, h6, h7, fun i hi b hb => h8 i hi b hb h0⟩

/-- With good y', v and u no value of a term, no partial sum and not the second opening proof lies in `D`. -/
theorem good_values {x τ y' v u : Fr} {A B : List Item} (hlA : A.length = 21) {rz : Fr → Fr} {q : Fr} {D : Finset Fr}
    (G : GoodU x τ y' v rz q A B D u) {R w : Fr} (hR : R * Zr x 0 u = rz u)
    (hw : (valList x y' v u R q w A B).sum = τ * w) :
    w ∉ D ∧ (∀ a ∈ valList x y' v u R q w A B, a ∉ D) ∧ ∀ m, 1 ≤ m → m ≤ 46 → ((valList x y' v u R q w A B).take m).sum ∉ D := by
  have hz := G.den
  have hA := sumVal_mul (y' := y') (v := v) A hz
  have hB := sumVal_mul (y' := y') (v := v) B hz
  have hw' : w * ((τ - u) * Zr x 0 u) = partNum x y' v rz q (A ++ B) u := by
    unfold valList at hw
    rw [List.sum_cons, List.sum_append, List.sum_cons, List.sum_cons] at hw
    unfold partNum
    rw [sumNum_append, ← hA, ← hB, ← hR]
    linear_combination -Zr x 0 u * hw
  have g0 : w ∉ D := fun h => G.second w h hw'.symm
  have s1 : ∀ k < 22, -R + ((A.take k).map (Item.val x y' v u)).sum ∉ D := fun k hk h => by
    refine G.before k hk _ h ?_
    rw [add_mul, sumVal_mul _ hz, ← hR]; ring
  have s2 : -R + (A.map (Item.val x y' v u)).sum + -Zf x u * q ∉ D := fun h => by
    refine G.part _ h ?_
    unfold partNum
    rw [← hA, ← hR]; ring
  have s3 : ∀ k < 23, -R + (A.map (Item.val x y' v u)).sum + -Zf x u * q + u * w + ((B.take k).map (Item.val x y' v u)).sum ∉ D := fun k hk h => by
    refine G.after k hk _ h ?_
    have e1 := sumVal_mul (y' := y') (v := v) (B.take k) hz
    have e2 : sumNum x y' v B u = sumNum x y' v (B.take k) u + sumNum x y' v (B.drop k) u := by
      rw [← sumNum_append, List.take_append_drop]
    unfold partNum at hw' ⊢
    rw [sumNum_append] at hw' ⊢
    rw [e2] at hw'
    rw [← hA, ← hR] at hw' ⊢
    rw [← e1] at hw' ⊢
    linear_combination -u * hw'
  refine ⟨g0, fun a ha => ?_, fun m m1 m2 => ?_⟩
  · unfold valList at ha
    rw [List.mem_cons, List.mem_append, List.mem_cons, List.mem_cons] at ha
    rcases ha with rfl | ha | rfl | rfl | ha
    · have := s1 0 (by omega)
      rwa [List.take_zero, List.map_nil, List.sum_nil, add_zero] at this
    · obtain ⟨i, hi, rfl⟩ := List.mem_map.1 ha
      exact fun h => G.item i (List.mem_append_left _ hi) _ h (i.val_mul hz).symm
    · exact fun h => G.first _ h rfl
    · exact fun h => G.second' _ h (by rw [← hw']; ring)
    · obtain ⟨i, hi, rfl⟩ := List.mem_map.1 ha
      exact fun h => G.item i (List.mem_append_right _ hi) _ h (i.val_mul hz).symm
  · unfold valList
    obtain ⟨m, rfl⟩ : ∃ k, m = k + 1 := ⟨m - 1, by omega⟩
    rw [List.take_succ_cons, List.sum_cons, List.take_append, List.sum_append, List.length_map, hlA]
    by_cases h1 : m < 22
    · rw [show m - 21 = 0 by omega, List.take_zero, List.sum_nil, add_zero, ← List.map_take]
      exact s1 m h1
    · rw [List.take_of_length_le (l := A.map _) (by rw [List.length_map]; omega)]
      obtain ⟨j, rfl⟩ : ∃ j, m = j + 22 := ⟨m - 22, by omega⟩
      rw [show j + 22 - 21 = j + 1 by omega, List.take_succ_cons, List.sum_cons]
      cases j with
      | zero =>
        rw [List.take_zero, List.sum_nil, add_zero, ← add_assoc]
        exact s2
      | succ j =>
        rw [List.take_succ_cons, List.sum_cons, ← List.map_take]
        have := s3 j (by omega)
        rwa [add_assoc, add_assoc, add_assoc] at this

end Verif
