/- Progress of the three step bodies: with honest hints, good aux values and in general position every statement succeeds. -/
import Verif.Lemmas.Progress
import Verif.Lemmas.Conds
import Verif.Lemmas.StepTerms

namespace Verif
open Halo2

theorem exact_of {n : ℤ} {x : Fp} (h0 : 0 ≤ n) (h1 : n < rMod) (h : (n : Fp) = x) : n = x.val := by
  lift n to ℕ using h0
  have h1' : n < rMod := by exact_mod_cast h1
  rw [← h, Int.cast_natCast, ZMod.val_natCast_of_lt (h1'.trans rMod_lt_pMod)]

theorem setInterface_val (x : Fp) : setInterface (.big (x.val : ℤ)) = some x := by
  simp [setInterface]

theorem scalar_val (s : Fr) : ∃ kk : Fp, setInterface (.big (s.val : ℤ)) = some kk ∧ (kk.val : Fr) = s := by
  refine ⟨(s.val : Fp), by simp [setInterface], ?_⟩
  rw [ZMod.val_natCast_of_lt ((ZMod.val_lt s).trans rMod_lt_pMod)]
  simp

theorem PtExact.res {v w : Var} {P : G1} (h : PtExact v w P) : PtRes v w P := by
  unfold PtRes
  rw [h.1, h.2, setInterface_val, setInterface_val]
  exact ⟨rfl, rfl⟩

/-- What a scalar multiplication of an accepted run has computed. -/
theorem mul_holds {X : Ext} {T A : List Var} {β : ℕ → ℕ → Var} {k o jx jk : ℕ}
    (h : (SStmt.eccMul o jx jx jk).Holds X T A β k) {p : Fr × G1} (hp : TermAt PtRes β jx jk o p) :
    ∃ n m : ℤ, 0 ≤ n ∧ n < rMod ∧ 0 ≤ m ∧ m < rMod ∧ X.scalarMul (enc p.2) p.1 = some ((n : Fp), (m : Fp)) ∧
      β (k + 1) o = .big n ∧ β (k + 1) (o + 1) = .big m := by
  obtain ⟨px, py, kk, n, m, h1, h2, h3, n0, n1, m0, m1, hm, r1, r2⟩ := h
  obtain ⟨⟨q1, q2⟩, q3⟩ := hp
  obtain ⟨c, c1, c2⟩ := scalar_val p.1
  rw [q1, Option.some.injEq] at h1
  rw [q2, Option.some.injEq] at h2
  rw [q3, c1, Option.some.injEq] at h3
  subst h1 h2 h3
  rw [c2] at hm
  exact ⟨n, m, n0, n1, m0, m1, hm, r1, r2⟩

theorem mul_exact {X : Ext} {T A : List Var} {β : ℕ → ℕ → Var} {k o jx jk : ℕ}
    (h : (SStmt.eccMul o jx jx jk).Holds X T A β k) {p : Fr × G1} (hp : TermAt PtRes β jx jk o p)
    (hs : X.scalarMul (enc p.2) p.1 = some (enc (p.1 • p.2))) :
    PtExact (β (k + 1) o) (β (k + 1) (o + 1)) (p.1 • p.2) := by
  obtain ⟨n, m, n0, n1, m0, m1, hm, r1, r2⟩ := mul_holds h hp
  rw [hs, Option.some.injEq] at hm
  unfold PtExact
  rw [r1, r2, hm]
  exact ⟨congrArg _ (exact_of n0 n1 rfl), congrArg _ (exact_of m0 m1 rfl)⟩

/-- What a multiplication and addition of an accepted run has computed. -/
theorem mulAdd_holds {X : Ext} {T A : List Var} {β : ℕ → ℕ → Var} {k o ja jx jk : ℕ}
    (h : (SStmt.eccMulAdd o ja ja jx jx jk).Holds X T A β k) {Q : G1} {p : Fr × G1} (hQ : PtExact (β ja o) (β ja (o + 1)) Q)
    (hp : TermAt PtRes β jx jk (o + 2) p) :
    ∃ n m n' m' : ℤ, 0 ≤ n ∧ n < rMod ∧ 0 ≤ m ∧ m < rMod ∧ 0 ≤ n' ∧ n' < rMod ∧ 0 ≤ m' ∧ m' < rMod ∧
      X.scalarMul (enc p.2) p.1 = some ((n : Fp), (m : Fp)) ∧
      X.addUnified (enc Q) ((n : Fp), (m : Fp)) = some ((n' : Fp), (m' : Fp)) ∧
      β (k + 1) o = .big n' ∧ β (k + 1) (o + 1) = .big m' := by
  obtain ⟨a1, a2⟩ := hQ
  obtain ⟨px, py, kk, n, m, n', m', h1, h2, h3, n0, n1, m0, m1, n0', n1', m0', m1', hm, ham, r1, r2, -, -⟩ := h (enc Q).1 (enc Q).2
    (by rw [a1, setInterface_val]) (by rw [a2, setInterface_val])
  obtain ⟨⟨q1, q2⟩, q3⟩ := hp
  obtain ⟨c, c1, c2⟩ := scalar_val p.1
  rw [q1, Option.some.injEq] at h1
  rw [q2, Option.some.injEq] at h2
  rw [q3, c1, Option.some.injEq] at h3
  subst h1 h2 h3
  rw [c2] at hm
  exact ⟨n, m, n', m', n0, n1, m0, m1, n0', n1', m0', m1', hm, ham, r1, r2⟩

theorem mulAdd_exact {X : Ext} (hX : X.Lawful) {T A : List Var} {β : ℕ → ℕ → Var} {k o ja jx jk : ℕ}
    (h : (SStmt.eccMulAdd o ja ja jx jx jk).Holds X T A β k) {Q : G1} {p : Fr × G1} (hQ : PtExact (β ja o) (β ja (o + 1)) Q)
    (hp : TermAt PtRes β jx jk (o + 2) p) (hs : X.scalarMul (enc p.2) p.1 = some (enc (p.1 • p.2))) :
    PtExact (β (k + 1) o) (β (k + 1) (o + 1)) (Q + p.1 • p.2) := by
  obtain ⟨n, m, n', m', -, -, -, -, n0, n1, m0, m1, hm, ham, r1, r2⟩ := mulAdd_holds h hQ hp
  rw [hs, Option.some.injEq] at hm
  rw [← hm, hX.addUnified, Option.some.injEq] at ham
  unfold PtExact
  rw [r1, r2, ham]
  exact ⟨congrArg _ (exact_of n0 n1 rfl), congrArg _ (exact_of m0 m1 rfl)⟩

theorem partialSum_succ (l : List (Fr × G1)) (m : ℕ) (h : m < l.length) :
    partialSum l (m + 1) = partialSum l m + (l.getD m 0).1 • (l.getD m 0).2 := by
  unfold partialSum
  rw [List.take_add_one, List.getElem?_eq_getElem h, List.map_append, List.sum_append]
  simp [List.getD_eq_getElem?_getD, List.getElem?_eq_getElem h]

/-- The ecc calls form one chain. -/
theorem acc_table : (List.range 45).all (fun m => ssaLit.getD (accIdx.getD (m + 1) 0) (.set [] []) ==
    .eccMulAdd 12 (accIdx.getD m 0 + 1) (accIdx.getD m 0 + 1) (accIdx.getD (m + 1) 0 - 1) (accIdx.getD (m + 1) 0 - 1)
      (accIdx.getD (m + 1) 0)) = true := by decide +kernel

theorem acc_mono : (List.range 45).all (fun m => accIdx.getD m 0 < accIdx.getD (m + 1) 0) = true := by decide +kernel

/-- The term list as computed. -/
noncomputable def termsOf (T : List Var) (I : G1) (β : ℕ → ℕ → Var) : List (Fr × G1) :=
  termList (β 0 7).fr (β 0 8).fr (β 46 28).fr (β 111 33).fr (β 119 25).fr (β 141 20).fr (β 142 18).fr
    (-vanish (points (β 0 6).fr firstRots) (β 0 9).fr) (β 0 9).fr (β 69 35).fr (.ofProof I (proofPoint T))

theorem termList_length (y v wi ws wn ww R cW u xn : Fr) (C : Commitments) :
    (termList y v wi ws wn ww R cW u xn C).length = 46 := rfl

theorem Halo2.GoodTerms.get {l : List (Fr × G1)} (h : GoodTerms l) {m : ℕ} (hm : m < l.length) :
    (l.getD m 0).1 ≠ 0 ∧ (l.getD m 0).2 ≠ 0 ∧ Representable ((l.getD m 0).1 • (l.getD m 0).2) := by
  have : l.getD m 0 ∈ l := by
    rw [List.getD_eq_getElem?_getD, List.getElem?_eq_getElem hm]
    exact List.getElem_mem hm
  exact ⟨h.scalar _ this, h.point _ this, h.product _ this⟩

/-- The accumulator after each call holds the partial sum. -/
theorem acc_exact {X : Ext} (hX : X.Lawful) {T A : List Var} {β : ℕ → ℕ → Var} {N : ℕ} {I : G1} (H : SRun X T A β N)
    (hT : ∀ i ∈ pointPositions, PtRes (T.getD i .nil) (T.getD (i + 1) .nil) (proofPoint T i))
    (hI : PtExact (β 0 0) (β 0 1) I) (hu : (β 0 9).Canon) : ∀ m, m < 46 → accIdx.getD m 0 < N →
    (∀ j ≤ m, X.scalarMul (enc ((termsOf T I β).getD j 0).2) ((termsOf T I β).getD j 0).1 =
      some (enc (((termsOf T I β).getD j 0).1 • ((termsOf T I β).getD j 0).2))) →
    PtExact (β (accIdx.getD m 0 + 1) 12) (β (accIdx.getD m 0 + 1) 13) (partialSum (termsOf T I β) (m + 1))
  | 0, _, hN, hG => by
    have hN' : 144 < N := hN
    have := mul_exact (H 144 hN') (t144 H hN'.le (fun _ _ _ h => h.res) hT hI hu) (hG 0 le_rfl)
    rw [partialSum_succ _ 0 (by rw [termsOf, termList_length]; norm_num)]
    have e0 : partialSum (termsOf T I β) 0 = 0 := rfl
    rw [e0, zero_add]
    exact this
  | m + 1, hm, hN, hG => by
    have hlt : accIdx.getD m 0 < accIdx.getD (m + 1) 0 := by
      have := List.all_eq_true.1 acc_mono m (List.mem_range.2 (by omega))
      simpa using this
    have ih := acc_exact hX H hT hI hu m (by omega) (hlt.trans hN) fun j hj => hG j (by omega)
    have htab : ssaLit.getD (accIdx.getD (m + 1) 0) (.set [] []) = _ :=
      beq_iff_eq.1 (List.all_eq_true.1 acc_table m (List.mem_range.2 (by omega)))
    have h := H _ hN
    rw [htab] at h
    have := mulAdd_exact hX h ih (term_at H (fun _ _ _ h => h.res) hT hI hu m (by omega) hN.le) (hG (m + 1) le_rfl)
    rw [partialSum_succ _ (m + 1) (by rw [termsOf, termList_length]; omega)]
    exact this

/-- The computed term list is the specified one. -/
theorem termsOf_eq {T A : List Var} {β : ℕ → ℕ → Var} {N : ℕ} {I : G1}
    (H : FrRun (fun j i => (β j i).fr) (frAt T) (frAt A) N) (hN : 141 < N) :
    termsOf T I β = openingTerms (challengesOf fun i => (β 0 i).fr) (.ofProof I (proofPoint T)) (.ofProof (frAt T)) (frAt A 16) := by
  have hw := Eqs.weights H hN (.ofProof I (proofPoint T))
  have ht := Eqs.total H hN (.ofProof I (proofPoint T))
  have hx := Eqs.xn H (by omega)
  unfold Eqs.sets at hw ht
  unfold openingTerms
  have hx' : (challengesOf fun i => (β 0 i).fr).x ^ n = (β 69 35).fr := hx.symm
  unfold rotSets at hw
  rw [List.map_cons, List.map_cons, List.map_cons, List.map_cons, List.map_cons, List.map_nil, List.cons.injEq, List.cons.injEq,
    List.cons.injEq, List.cons.injEq, List.cons.injEq] at hw
  obtain ⟨-, h1, h2, h3, h4, -⟩ := hw
  rw [h1, h2, h3, h4, hx']
  have ht' : combine (challengesOf fun i => (β 0 i).fr).v _ = _ := ht.symm
  rw [ht']
  rfl

/-! ### Execution -/

/-- An engine that answers every hint honestly and hands numbers to hints unreduced. -/
structure HonestRaw (E : Engine) : Prop where
  test : E.mode = .test
  raw : E.raw = true
  mod : HonestMod E
  msm : HonestMsm E
  add : HonestAdd E

/-- Every ecc call whose operands are admissible succeeds and stores the right result: `R` says how two variables stand for
a point, `M` which multiplications are admissible and `S` which results of an addition. -/
structure EccRuns (X : Ext) (E : Engine) (R : Var → Var → G1 → Prop) (M : Fr → G1 → Prop) (S : G1 → Prop) : Prop where
  test : E.mode = .test
  mod : HonestMod E
  lawful : X.Lawful
  exact : ∀ v w P, PtExact v w P → R v w P
  res : ∀ v w P, R v w P → PtRes v w P
  val : ∀ k P, M k P → X.scalarMul (enc P) k = some (enc (k • P))
  mul : ∀ v w P (k : Fr) s, R v w P → M k P → CalcVerifyBN256Msm X v w (.big k.val) E s =
    .ok (((.big (enc (k • P)).1.val, .big (enc (k • P)).2.val), none), s.addHints [.msmHint, .modHint, .modHint])
  add : ∀ P Q s, S (P + Q) →
    CalcVerifyBN256Add X (.big (enc P).1.val) (.big (enc P).2.val) (.big (enc Q).1.val) (.big (enc Q).2.val) E s =
      .ok (((.big (enc (P + Q)).1.val, .big (enc (P + Q)).2.val), none), s.addHints [.addHint, .modHint, .modHint])

theorem honest_runs {X : Ext} (hX : X.Lawful) {E : Engine} (hE : HonestRaw E) :
    EccRuns X E PtExact (fun k P => k ≠ 0 ∧ P ≠ 0 ∧ Representable (k • P)) Representable where
  test := hE.test
  mod := hE.mod
  lawful := hX
  exact _ _ _ h := h
  res _ _ _ h := h.res
  val k P h := hX.scalarMul P k h.2.1 h.1
  mul v w P k s h hM := by
    obtain ⟨hs, hP, hr⟩ := hM
    have hk : (k.val : ℕ) • P = k • P := (fr_smul_eq k P).symm
    have hrun := calcMsm_honest hX hE.test hE.mod hE.msm hP (k := k.val) ((ZMod.val_lt _).trans rMod_lt_pMod) (by simpa using hs)
      (reads_of_raw hE.test hE.raw _) (reads_of_raw hE.test hE.raw _) (reads_of_raw hE.test hE.raw _) (by rw [hk]; exact hr.2.1)
      (by rw [hk]; exact hr.2.2) s
    rw [hk] at hrun
    rw [h.1, h.2]
    exact hrun
  add P Q s hq := calcAdd_honest hX hE.test hE.mod hE.add hq.1 (reads_of_raw hE.test hE.raw _) (reads_of_raw hE.test hE.raw _)
    (reads_of_raw hE.test hE.raw _) (reads_of_raw hE.test hE.raw _) hq.2.1 hq.2.2 s

section
variable {X : Ext} {E : Engine} {R : Var → Var → G1 → Prop} {M : Fr → G1 → Prop} {S : G1 → Prop}

theorem ecc_mul_gen (hE : EccRuns X E R M S) {B : List Var} {o : ℕ} {p : Fr × G1}
    (h1 : R (B.getD o .nil) (B.getD (o + 1) .nil) p.2) (h2 : B.getD (o + 2) .nil = .big p.1.val) (hr : M p.1 p.2)
    (hl : o + 2 < B.length) (s : St) :
    ∃ s', ecc_mul X B o E s = .ok ((none, (B.set o (.big (enc (p.1 • p.2)).1.val)).set (o + 1) (.big (enc (p.1 • p.2)).2.val)), s') ∧
      s'.sat = s.sat := by
  have hrun := hE.mul _ _ _ _ s h1 hr
  refine ⟨s.addHints [.msmHint, .modHint, .modHint], ?_, ?_⟩
  · simp only [ecc_mul, Circ.bind_run, idx_at (show o < B.length by omega), idx_at (show o + 1 < B.length by omega), idx_at hl,
      h2, hrun]
    have e1 : ∀ (v : Var) (s : St), setIdx B o v E s = .ok (B.set o v, s) := fun v s => by
      rw [setIdx_ok]; exact ⟨by omega, rfl, rfl⟩
    have e2 : ∀ (v w : Var) (s : St), setIdx (B.set o v) (o + 1) w E s = .ok ((B.set o v).set (o + 1) w, s) := fun v w s => by
      rw [setIdx_ok]; exact ⟨by rw [List.length_set]; omega, rfl, rfl⟩
    simp only [e1, e2]
    rfl
  · rfl

theorem ecc_mul_add_gen (hE : EccRuns X E R M S) {B : List Var} {o : ℕ} {p : Fr × G1} {Q : G1}
    (h0 : PtExact (B.getD o .nil) (B.getD (o + 1) .nil) Q)
    (h1 : R (B.getD (o + 2) .nil) (B.getD (o + 3) .nil) p.2) (h2 : B.getD (o + 4) .nil = .big p.1.val) (hr : M p.1 p.2)
    (hq : S (Q + p.1 • p.2)) (hl : o + 4 < B.length) (s : St) :
    ∃ s', ecc_mul_add X B o E s = .ok ((none, ((((B.set (o + 2) (.big (enc (p.1 • p.2)).1.val)).set (o + 2 + 1) (.big (enc (p.1 • p.2)).2.val)).set o
        (.big (enc (Q + p.1 • p.2)).1.val)).set (o + 1) (.big (enc (Q + p.1 • p.2)).2.val))), s') ∧ s'.sat = s.sat := by
  obtain ⟨s1, g1, g2⟩ := ecc_mul_gen hE (o := o + 2) h1 h2 hr (by omega) s
  generalize hBB : (B.set (o + 2) (.big (enc (p.1 • p.2)).1.val)).set (o + 2 + 1) (.big (enc (p.1 • p.2)).2.val) = B1 at g1
  have hl1 : B1.length = B.length := by rw [← hBB, List.length_set, List.length_set]
  have c0 : B1.getD o .nil = .big (enc Q).1.val := by
    rw [← hBB, getD_set, if_neg (by omega), getD_set, if_neg (by omega)]; exact h0.1
  have c1 : B1.getD (o + 1) .nil = .big (enc Q).2.val := by
    rw [← hBB, getD_set, if_neg (by omega), getD_set, if_neg (by omega)]; exact h0.2
  have c2 : B1.getD (o + 2) .nil = .big (enc (p.1 • p.2)).1.val := by
    rw [← hBB, getD_set, if_neg (by omega), getD_set, if_pos ⟨rfl, by omega⟩]
  have c3 : B1.getD (o + 3) .nil = .big (enc (p.1 • p.2)).2.val := by
    rw [← hBB, getD_set, if_pos ⟨rfl, by rw [List.length_set]; omega⟩]
  have hadd := hE.add Q (p.1 • p.2) s1 hq
  refine ⟨s1.addHints [.addHint, .modHint, .modHint], ?_, g2⟩
  · simp only [ecc_mul_add, Circ.bind_run, g1, idx_at (show o < B1.length by omega), idx_at (show o + 1 < B1.length by omega),
      idx_at (show o + 2 < B1.length by omega), idx_at (show o + 3 < B1.length by omega), c0, c1, c2, c3, hadd]
    have e1 : ∀ (v : Var) (s : St), setIdx B1 o v E s = .ok (B1.set o v, s) := fun v s => by
      rw [setIdx_ok]; exact ⟨by omega, rfl, rfl⟩
    have e2 : ∀ (v w : Var) (s : St), setIdx (B1.set o v) (o + 1) w E s = .ok ((B1.set o v).set (o + 1) w, s) := fun v w s => by
      rw [setIdx_ok]; exact ⟨by rw [List.length_set]; omega, rfl, rfl⟩
    simp only [e1, e2]
    rfl

theorem ecc_mul_add_vals (hE : EccRuns X E R M S) {B : List Var} {o : ℕ} {p : Fr × G1} {Q : G1}
    (h0 : PtExact (B.getD o .nil) (B.getD (o + 1) .nil) Q)
    (h1 : R (B.getD (o + 2) .nil) (B.getD (o + 3) .nil) p.2) (h2 : B.getD (o + 4) .nil = .big p.1.val) (hr : M p.1 p.2)
    (hq : S (Q + p.1 • p.2)) (hl : o + 4 < B.length) (s : St) :
    ∃ B' s', ecc_mul_add X B o E s = .ok ((none, B'), s') ∧ s'.sat = s.sat ∧
      ∀ i, i ∈ [o, o + 1, o + 2, o + 3] ∨ (B.getD i .nil).IsVal → (B'.getD i .nil).IsVal := by
  obtain ⟨s', g1, g2⟩ := ecc_mul_add_gen hE h0 h1 h2 hr hq hl s
  refine ⟨_, s', g1, g2, ?_⟩
  · intro i hi
    have k2 : ∀ (v w : Var) (D : List Var) (a b : ℕ), v.IsVal → w.IsVal → a < D.length → b < D.length →
        (i = a ∨ i = b ∨ (D.getD i .nil).IsVal) → (((D.set a v).set b w).getD i .nil).IsVal := by
      intro v w D a b hv hw ha hb h
      rw [getD_set, List.length_set]
      split
      · exact hw
      · rw [getD_set]
        split
        · exact hv
        · rename_i n1 n2
          rcases h with h | h | h
          · subst h; exact absurd ⟨rfl, ha⟩ n2
          · subst h; exact absurd ⟨rfl, hb⟩ n1
          · exact h
    refine k2 _ _ _ _ _ trivial trivial (by simp only [List.length_set]; omega) (by simp only [List.length_set]; omega) ?_
    simp only [List.mem_cons, List.not_mem_nil, or_false] at hi
    by_cases h5 : i = o
    · exact .inl h5
    by_cases h6 : i = o + 1
    · exact .inr (.inl h6)
    refine .inr (.inr ?_)
    refine k2 _ _ _ _ _ trivial trivial (by omega) (by omega) ?_
    rcases hi with (h | h | h | h) | h
    · exact absurd h h5
    · exact absurd h h6
    · exact .inl h
    · exact .inr (.inl h)
    · exact .inr (.inr h)

end

theorem ecc_mul_exec {X : Ext} (hX : X.Lawful) {E : Engine} (hE : HonestRaw E) {B : List Var} {o : ℕ} {p : Fr × G1}
    (h1 : PtExact (B.getD o .nil) (B.getD (o + 1) .nil) p.2) (h2 : B.getD (o + 2) .nil = .big p.1.val) (hs : p.1 ≠ 0)
    (hP : p.2 ≠ 0) (hr : Representable (p.1 • p.2)) (hl : o + 2 < B.length) (s : St) :
    ∃ s', ecc_mul X B o E s = .ok ((none, (B.set o (.big (enc (p.1 • p.2)).1.val)).set (o + 1) (.big (enc (p.1 • p.2)).2.val)), s') ∧
      s'.sat = s.sat :=
  ecc_mul_gen (honest_runs hX hE) h1 h2 ⟨hs, hP, hr⟩ hl s

theorem ecc_mul_add_store {X : Ext} (hX : X.Lawful) {E : Engine} (hE : HonestRaw E) {B : List Var} {o : ℕ} {p : Fr × G1} {Q : G1}
    (h0 : PtExact (B.getD o .nil) (B.getD (o + 1) .nil) Q)
    (h1 : PtExact (B.getD (o + 2) .nil) (B.getD (o + 3) .nil) p.2) (h2 : B.getD (o + 4) .nil = .big p.1.val) (hs : p.1 ≠ 0)
    (hP : p.2 ≠ 0) (hr : Representable (p.1 • p.2)) (hq : Representable (Q + p.1 • p.2)) (hl : o + 4 < B.length) (s : St) :
    ∃ s', ecc_mul_add X B o E s = .ok ((none, ((((B.set (o + 2) (.big (enc (p.1 • p.2)).1.val)).set (o + 2 + 1) (.big (enc (p.1 • p.2)).2.val)).set o
        (.big (enc (Q + p.1 • p.2)).1.val)).set (o + 1) (.big (enc (Q + p.1 • p.2)).2.val))), s') ∧ s'.sat = s.sat :=
  ecc_mul_add_gen (honest_runs hX hE) h0 h1 h2 ⟨hs, hP, hr⟩ hq hl s

theorem execBody_snoc_run {X : Ext} {T A : List Var} {E : Engine} {st : Stmt} {P : List Stmt} {B B1 B2 : List Var} {s s1 s2 : St}
    (h1 : execBody X T A B P E s = .ok ((B1, none), s1)) (h2 : st.exec X T A B1 E s1 = .ok ((none, B2), s2)) :
    execBody X T A B (P ++ [st]) E s = .ok ((B2, none), s2) := by
  rw [execBody_append _ h1]
  simp only [execBody, Circ.bind_run, h2]
  rfl

theorem ssaFrom_get : ∀ (P : List Stmt) (k i : ℕ) (w : List ℕ) (st : Stmt), P[i]? = some st →
    (ssaFrom k w P).1[i]? = some (st.rename (ssaFrom k w (P.take i)).2)
  | [], k, i, w, st, h => by simp at h
  | st' :: P, k, 0, w, st, h => by
    simp only [List.getElem?_cons_zero, Option.some.injEq] at h
    subst h
    simp [ssaFrom]
  | st' :: P, k, i + 1, w, st, h => by
    simp only [ssaFrom, List.getElem?_cons_succ, List.take_succ_cons]
    exact ssaFrom_get P (k + 1) i _ st (by simpa using h)

/-- Where the ecc calls are. -/
theorem ecc_table : (List.range 301).all (fun k => match ssaLit.getD k (.set [] []) with
    | .set _ _ => true
    | .eccMul o jx jy jk => (k, o, jx, jy, jk) == (2, 10, 1, 1, 2) || (k, o, jx, jy, jk) == (144, 12, 143, 143, 144)
    | .eccMulAdd _ _ _ _ _ _ => (List.range 45).any fun m => accIdx.getD (m + 1) 0 == k) = true := by decide +kernel

theorem acc_ge : (List.range 46).all (fun m => 144 ≤ accIdx.getD m 0) = true := by decide +kernel

theorem condList_of {ρ σ : Type} {f : ρ → σ} {b : σ → Fr} {t a : ℕ → Fr} : ∀ (es : List (Expr ρ)),
    CondList b t a (es.map (Expr.map f)) → ∀ e ∈ es, e.cond (fun r => b (f r)) t a
  | [], _, e, he => by simp at he
  | e' :: es, h, e, he => by
    rcases List.mem_cons.1 he with rfl | he
    · exact (Expr.cond_map ..).1 h.1
    · exact condList_of es h.2 e he

/-- What the first step starts from. -/
structure StepsOk (X : Ext) (E : Engine) (R : Var → Var → G1 → Prop) (M : Fr → G1 → Prop) (S : G1 → Prop) (T A B : List Var)
    (I : G1) : Prop where
  ecc : EccRuns X E R M S
  len : B.length = 43
  vals : ∀ i < 10, (B.getD i .nil).IsVal
  u : (B.getD 9 .nil).Canon
  inst : PtExact (B.getD 0 .nil) (B.getD 1 .nil) I
  proof : ∀ i < 104, i < T.length ∧ (T.getD i .nil).IsVal
  points : ∀ i ∈ pointPositions, R (T.getD i .nil) (T.getD (i + 1) .nil) (proofPoint T i)
  auxl : ∀ i < 21, i < A.length ∧ (A.getD i .nil).Good
  aux : AuxRelations (challengesOf (frAt B)) (.ofProof (frAt T)) (frAt A)
  wrep : M 1 (proofPoint T 102)
  muls : ∀ p ∈ openingTerms (challengesOf (frAt B)) (.ofProof I (proofPoint T)) (.ofProof (frAt T)) (frAt A 16), M p.1 p.2
  sums : ∀ m, 1 ≤ m → m ≤ 46 →
    S (partialSum (openingTerms (challengesOf (frAt B)) (.ofProof I (proofPoint T)) (.ofProof (frAt T)) (frAt A 16)) m)

theorem getD_mem {α : Type} {l : List α} {d : α} {m : ℕ} (h : m < l.length) : l.getD m d ∈ l := by
  rw [List.getD_eq_getElem?_getD, List.getElem?_eq_getElem h]
  exact List.getElem_mem h

theorem steps_progress {X : Ext} {E : Engine} {R : Var → Var → G1 → Prop} {M : Fr → G1 → Prop} {S : G1 → Prop} {T A B : List Var}
    {I : G1} (h : StepsOk X E R M S T A B I) {s : St}
    (hs : s.sat = true) : ∀ k ≤ 301, ∃ B' s', execBody X T A B (prog.take k) E s = .ok ((B', none), s') ∧ s'.sat = true ∧
      ∀ i ∈ growFrom V0 (prog.take k), (B'.getD i .nil).IsVal
  | 0, _ => by
    refine ⟨B, s, rfl, hs, fun i hi => h.vals i ?_⟩
    have hi' : i ∈ V0 := hi
    simp only [V0, List.mem_cons, List.not_mem_nil, or_false] at hi'
    omega
  | k + 1, hk => by
    obtain ⟨B1, s1, h1, k1, v1⟩ := steps_progress h hs k (by omega)
    have hkl : k < prog.length := by rw [prog_length]; omega
    obtain ⟨st, hst⟩ : ∃ st, prog[k]? = some st := ⟨_, List.getElem?_eq_getElem hkl⟩
    have htake : prog.take (k + 1) = prog.take k ++ [st] := by rw [List.take_add_one, hst]; rfl
    obtain ⟨hchk, hgrow⟩ := chkFrom_get _ _ _ _ prog_chk hst
    obtain ⟨-, bufs, hb0, hbk, hlen, H, hw⟩ := prefix_run h.ecc.test (by omega) h.len h1 k1
    subst hb0
    have hssa : ssaLit.getD k (.set [] []) = st.rename (ssaFrom 0 (List.replicate 43 0) (prog.take k)).2 := by
      have := ssaFrom_get prog 0 k (List.replicate 43 0) st hst
      rw [ssa_eq] at this
      rw [List.getD_eq_getElem?_getD, this]
      rfl
    generalize (ssaFrom 0 (List.replicate 43 0) (prog.take k)).2 = w at hssa hw
    suffices hex : ∃ B2 s2, st.exec X T A B1 E s1 = .ok ((none, B2), s2) ∧ s2.sat = true ∧
        ∀ i ∈ st.grow (growFrom V0 (prog.take k)), (B2.getD i .nil).IsVal by
      obtain ⟨B2, s2, g1, g2, g3⟩ := hex
      rw [hgrow, htake]
      exact ⟨B2, s2, execBody_snoc_run h1 g1, g2, g3⟩
    have hV43 : ∀ i, (B1.getD i .nil).IsVal → i < B1.length := by
      intro i hi
      by_contra hn
      rw [List.getD_eq_getElem?_getD, List.getElem?_eq_none (by omega)] at hi
      exact hi
    cases st with
    | set ts es =>
      have hwf := List.all_eq_true.1 prog_wf _ (List.mem_of_getElem? hst)
      simp only [Stmt.wf, Bool.and_eq_true, decide_eq_true_eq, beq_iff_eq, List.all_eq_true] at hwf
      have hcond := Eqs.conds_at (b := fun j i => ((bufs j).getD i .nil).fr) h.aux H.fr (by omega)
      rw [hssa] at hcond
      have hc := condList_of es hcond
      beta_reduce at hc
      obtain ⟨vs, s2, g1, g2, g3⟩ := evalExprs_run h.ecc.test h.ecc.mod h.proof h.auxl (B := B1)
        (ok := fun i => (growFrom V0 (prog.take k)).contains i)
        (fun i hi => by
          have := v1 i (by simpa using hi)
          exact ⟨hV43 i this, this⟩) es s1 k1 hchk (fun e he => by
          have := hc e he
          have e1 : (fun i => (B1.getD i .nil).fr) = fun r => ((bufs (w.getD r 0)).getD r .nil).fr := by
            funext i; rw [hw i]
          rw [e1]
          exact this)
      refine ⟨storeMany B1 ts vs, s2, ?_, g2, ?_⟩
      · simp only [Stmt.exec, Circ.bind_run, g1, setMany_run ts vs B1 (fun t ht => by rw [hlen]; exact hwf.2 t ht)]
        rfl
      · intro i hi
        refine storeMany_isVal ts vs B1 (by rw [hwf.1.2, evalExprs_length es g1]) (fun t ht => by rw [hlen]; exact hwf.2 t ht) g3 i ?_
        rcases List.mem_append.1 hi with hi | hi
        · exact .inl hi
        · exact .inr (v1 i hi)
    | eccMul o =>
      have htab := List.all_eq_true.1 ecc_table k (List.mem_range.2 (by omega))
      have hkk : ((k, o, w.getD o 0, w.getD (o + 1) 0, w.getD (o + 2) 0) == (2, 10, 1, 1, 2) ||
          (k, o, w.getD o 0, w.getD (o + 1) 0, w.getD (o + 2) 0) == (144, 12, 143, 143, 144)) = true := by
        rw [hssa] at htab
        exact htab
      have hfin : ∀ p : Fr × G1, R (B1.getD o .nil) (B1.getD (o + 1) .nil) p.2 → B1.getD (o + 2) .nil = .big p.1.val →
          M p.1 p.2 → o + 2 < 43 → ∃ B2 s2, (Stmt.eccMul o).exec X T A B1 E s1 =
          .ok ((none, B2), s2) ∧ s2.sat = true ∧ ∀ i ∈ (Stmt.eccMul o).grow (growFrom V0 (prog.take k)), (B2.getD i .nil).IsVal := by
        intro p a1 a2 a3 a4
        obtain ⟨s2, g1, g2⟩ := ecc_mul_gen h.ecc a1 a2 a3 (by omega) s1
        refine ⟨_, s2, g1, g2.trans k1, fun i hi => ?_⟩
        rw [getD_set, List.length_set]
        split
        · trivial
        · rw [getD_set]
          split
          · trivial
          · rename_i n1 n2
            rcases List.mem_append.1 hi with hi | hi
            · simp only [Stmt.targets, List.mem_cons, List.not_mem_nil, or_false] at hi
              rcases hi with rfl | rfl
              · exact absurd ⟨rfl, by omega⟩ n2
              · exact absurd ⟨rfl, by omega⟩ n1
            · exact v1 i hi
      rw [Bool.or_eq_true, beq_iff_eq, beq_iff_eq, Prod.mk.injEq, Prod.mk.injEq, Prod.mk.injEq, Prod.mk.injEq, Prod.mk.injEq,
        Prod.mk.injEq, Prod.mk.injEq, Prod.mk.injEq] at hkk
      rcases hkk with ⟨rfl, rfl, w0, w1, w2⟩ | ⟨rfl, rfl, w0, w1, w2⟩
      · have e12 : (bufs 2).getD 12 .nil = .big 1 := by
          have h2 : (SStmt.set [12] [.str 1]).Holds X T A (fun j i => (bufs j).getD i .nil) 1 := H 1 (by omega)
          cases h2 with
          | cons h _ => exact h.shape
        have hp : R ((bufs 1).getD 10 .nil) ((bufs 1).getD 11 .nil) (proofPoint T 102) := by
          have h1 : (SStmt.set [10, 11] [.tr 102, .tr 103]).Holds X T A (fun j i => (bufs j).getD i .nil) 0 := H 0 (by omega)
          have := h.points 102 (by decide)
          cases h1 with
          | cons h1 h2 => cases h2 with
            | cons h3 _ =>
              rw [getD_some h1.shape, getD_some h3.shape] at this
              exact this
        refine hfin (1, proofPoint T 102) ?_ ?_ h.wrep (by norm_num)
        · rw [hw 10, hw 11, w0, w1]; exact hp
        · rw [hw 12, w2, e12]
          rw [ZMod.val_one]
          rfl
      · have hterms : ∀ p ∈ termsOf T I fun j i => (bufs j).getD i .nil, M p.1 p.2 := by
          rw [termsOf_eq H.fr (by norm_num)]; exact h.muls
        have g1 := hterms _ (getD_mem (m := 0) (d := 0) (by rw [termsOf, termList_length]; norm_num))
        obtain ⟨q1, q2⟩ := t144 H le_rfl h.ecc.exact h.points h.inst h.u
        refine hfin _ ?_ ?_ g1 (by norm_num)
        · rw [hw 12, hw 13, w0, w1]; exact q1
        · rw [hw 14, w2]; exact q2
    | eccMulAdd o =>
      have htab := List.all_eq_true.1 ecc_table k (List.mem_range.2 (by omega))
      have hany : ((List.range 45).any fun m => accIdx.getD (m + 1) 0 == k) = true := by
        rw [hssa] at htab
        exact htab
      obtain ⟨m, hm, hmk⟩ := List.any_eq_true.1 hany
      rw [List.mem_range] at hm
      rw [beq_iff_eq] at hmk
      have htab2 : ssaLit.getD (accIdx.getD (m + 1) 0) (.set [] []) = _ :=
        beq_iff_eq.1 (List.all_eq_true.1 acc_table m (List.mem_range.2 hm))
      rw [hmk, hssa] at htab2
      have hinj : o = 12 ∧ w.getD o 0 = accIdx.getD m 0 + 1 ∧ w.getD (o + 1) 0 = accIdx.getD m 0 + 1 ∧
          w.getD (o + 2) 0 = k - 1 ∧ w.getD (o + 3) 0 = k - 1 ∧ w.getD (o + 4) 0 = k := by
        simpa only [Stmt.rename, SStmt.eccMulAdd.injEq] using htab2
      obtain ⟨rfl, w0, w1, w2, w3, w4⟩ := hinj
      have hlt : accIdx.getD m 0 < k := by
        have := List.all_eq_true.1 acc_mono m (List.mem_range.2 hm)
        rw [← hmk]
        simpa using this
      have hge : 144 ≤ accIdx.getD m 0 := by
        have := List.all_eq_true.1 acc_ge m (List.mem_range.2 (by omega))
        simpa using this
      have hterms : ∀ p ∈ termsOf T I fun j i => (bufs j).getD i .nil, M p.1 p.2 := by
        rw [termsOf_eq H.fr (by omega)]; exact h.muls
      have hsums : ∀ m, 1 ≤ m → m ≤ 46 → S (partialSum (termsOf T I fun j i => (bufs j).getD i .nil) m) := by
        rw [termsOf_eq H.fr (by omega)]; exact h.sums
      have hlen46 : (termsOf T I fun j i => (bufs j).getD i .nil).length = 46 := by rw [termsOf, termList_length]
      have g1 := hterms _ (getD_mem (m := m + 1) (d := 0) (by omega))
      have hacc := acc_exact h.ecc.lawful H (fun i hi => h.ecc.res _ _ _ (h.points i hi)) h.inst h.u m (by omega) hlt
        fun j hj => h.ecc.val _ _ (hterms _ (getD_mem (by omega)))
      have hterm := term_at H h.ecc.exact h.points h.inst h.u m hm hmk.le
      rw [hmk] at hterm
      obtain ⟨q1, q2⟩ := hterm
      have hsum := hsums (m + 2) (by omega) (by omega)
      rw [partialSum_succ _ (m + 1) (by omega)] at hsum
      obtain ⟨B2, s2, f1, f2, f3⟩ := ecc_mul_add_vals h.ecc (B := B1) (o := 12) (s := s1)
        (Q := partialSum (termsOf T I fun j i => (bufs j).getD i .nil) (m + 1))
        (p := (termsOf T I fun j i => (bufs j).getD i .nil).getD (m + 1) 0)
        (by unfold PtExact; rw [hw 12, hw 13, w0, w1]; exact hacc)
        (by rw [hw 14, hw 15, w2, w3]; exact q1)
        (by rw [hw 16, w4]; exact q2) g1 hsum (by omega)
      refine ⟨B2, s2, f1, f2.trans k1, fun i hi => f3 i ?_⟩
      rcases List.mem_append.1 hi with hi | hi
      · exact .inl hi
      · exact .inr (v1 i hi)

end Verif
