/- With honest hints, an accepted run never meets a degenerate value: the converse of the progress lemmas. -/
import Verif.Lemmas.Complete
import Verif.Props.Completeness

namespace Verif
open Halo2

theorem rep_of {P : G1} {n m : ℤ} (n0 : 0 ≤ n) (n1 : n < rMod) (m0 : 0 ≤ m) (m1 : m < rMod)
    (h : enc P = ((n : Fp), (m : Fp))) : n = (enc P).1.val ∧ m = (enc P).2.val ∧ (enc P).1.val < rMod ∧ (enc P).2.val < rMod := by
  have e1 := exact_of n0 n1 (congrArg Prod.fst h).symm
  have e2 := exact_of m0 m1 (congrArg Prod.snd h).symm
  refine ⟨e1, e2, ?_, ?_⟩
  · rw [e1] at n1; exact_mod_cast n1
  · rw [e2] at m1; exact_mod_cast m1

theorem calcMsm_needs {X : Ext} (hX : X.Strict) {E : Engine} (hE : HonestRaw E) {P : G1} {k : Fr} {res : Var × Var} {s s' : St}
    (h : CalcVerifyBN256Msm X (.big (enc P).1.val) (.big (enc P).2.val) (.big k.val) E s = .ok ((res, none), s'))
    (hs : s'.sat = true) : s.sat = true ∧ k ≠ 0 ∧ P ≠ 0 ∧ Representable (k • P) ∧
      res = (.big (enc (k • P)).1.val, .big (enc (k • P)).2.val) := by
  obtain ⟨-, s0, -, px, py, kk, q1, q2, q3, n, m, hres, n0, n1, m0, m1, hm⟩ := calcMsm_ok h hs
  obtain ⟨c, c1, c2⟩ := scalar_val k
  rw [setInterface_val, Option.some.injEq] at q1 q2
  rw [c1, Option.some.injEq] at q3
  subst q1 q2 q3
  rw [c2, show ((enc P).1, (enc P).2) = enc P from rfl] at hm
  have he := hX.scalarMul_deg _ _ _ hm
  obtain ⟨r1, r2, r3, r4⟩ := rep_of n0 n1 m0 m1 he.symm
  have hne : k • P ≠ 0 := by
    intro h0
    have hrun := calcMsm_run (X := X) (E := E) (s := s) hE.test hE.mod (reads_of_raw hE.test hE.raw _) (reads_of_raw hE.test hE.raw _)
      (reads_of_raw hE.test hE.raw _) ((hE.msm _ _ _).trans (MsmHint_eq (P := P) (k := k.val) (Int.natAbs_natCast _) (Int.natAbs_natCast _)))
    rw [natCast_zsmul, ← fr_smul_eq, h0, bn256Affine_zero] at hrun
    simp only [List.getD_cons_zero, List.getD_cons_succ] at hrun
    rw [hrun] at h
    split at h
    · rw [Except.ok.injEq, Prod.mk.injEq, Prod.mk.injEq, hres, Prod.mk.injEq, Var.big.injEq, Var.big.injEq] at h
      have h1 := h.1.1.2
      rw [r2, h0, enc_zero] at h1
      revert h1
      decide +kernel
    · cases h
  refine ⟨s0, ?_, ?_, ⟨hne, r3, r4⟩, ?_⟩
  · exact fun h => hne (fr_smul_eq_zero.2 (.inl h))
  · exact fun h => hne (fr_smul_eq_zero.2 (.inr h))
  · rw [hres, ← r1, ← r2]

theorem calcAdd_needs {X : Ext} (hX : X.Lawful) {E : Engine} (hE : HonestRaw E) {P Q : G1} {res : Var × Var} {e : GoErr} {s s' : St}
    (h : CalcVerifyBN256Add X (.big (enc P).1.val) (.big (enc P).2.val) (.big (enc Q).1.val) (.big (enc Q).2.val) E s =
      .ok ((res, e), s')) (hs : s'.sat = true) : s.sat = true ∧ Representable (P + Q) ∧
      res = (.big (enc (P + Q)).1.val, .big (enc (P + Q)).2.val) := by
  have he : e = none := calcAdd_const_none hE.test (setInterface_val _) (setInterface_val _) (setInterface_val _) (setInterface_val _) h
  subst he
  obtain ⟨-, s0, -, a, b, c, d, q1, q2, q3, q4, n, m, hres, n0, n1, m0, m1, hm⟩ := calcAdd_ok h hs
  rw [setInterface_val, Option.some.injEq] at q1 q2 q3 q4
  subst q1 q2 q3 q4
  rw [show ((enc P).1, (enc P).2) = enc P from rfl, show ((enc Q).1, (enc Q).2) = enc Q from rfl, hX.addUnified, Option.some.injEq] at hm
  obtain ⟨r1, r2, r3, r4⟩ := rep_of n0 n1 m0 m1 hm
  have hne : P + Q ≠ 0 := by
    intro h0
    have hrun := calcAdd_run (X := X) (E := E) (s := s) hE.test hE.mod (reads_of_raw hE.test hE.raw _) (reads_of_raw hE.test hE.raw _)
      (reads_of_raw hE.test hE.raw _) (reads_of_raw hE.test hE.raw _) ((hE.add _ _ _).trans (AddHint_eq (P := P) (Q := Q)
      (Int.natAbs_natCast _) (Int.natAbs_natCast _) (Int.natAbs_natCast _) (Int.natAbs_natCast _)))
    rw [h0, bn256Affine_zero] at hrun
    simp only [List.getD_cons_zero, List.getD_cons_succ] at hrun
    rw [hrun] at h
    split at h
    · rw [Except.ok.injEq, Prod.mk.injEq, Prod.mk.injEq, hres, Prod.mk.injEq, Var.big.injEq, Var.big.injEq] at h
      have h1 := h.1.1.2
      rw [r2, h0, enc_zero] at h1
      revert h1
      decide +kernel
    · cases h
  exact ⟨s0, ⟨hne, r3, r4⟩, by rw [hres, ← r1, ← r2]⟩

theorem ecc_mul_needs {X : Ext} (hX : X.Strict) {E : Engine} (hE : HonestRaw E) {B B' : List Var} {o : ℕ} {p : Fr × G1}
    (h1 : PtExact (B.getD o .nil) (B.getD (o + 1) .nil) p.2) (h2 : B.getD (o + 2) .nil = .big p.1.val) {s s' : St}
    (h : ecc_mul X B o E s = .ok ((none, B'), s')) (hs : s'.sat = true) :
    p.1 ≠ 0 ∧ p.2 ≠ 0 ∧ Representable (p.1 • p.2) ∧
      B' = (B.set o (.big (enc (p.1 • p.2)).1.val)).set (o + 1) (.big (enc (p.1 • p.2)).2.val) ∧ o + 2 < B.length := by
  obtain ⟨-, -, -, hl, -⟩ := ecc_mul_ok h hs
  simp only [ecc_mul, Circ.bind_run, idx_at (show o < B.length by omega), idx_at (show o + 1 < B.length by omega), idx_at hl,
    h1.1, h1.2, h2] at h
  cases hm : CalcVerifyBN256Msm X (.big (enc p.2).1.val) (.big (enc p.2).2.val) (.big p.1.val) E s with
  | error e => rw [hm] at h; cases h
  | ok r =>
    obtain ⟨⟨res, err⟩, s1⟩ := r
    rw [hm] at h
    simp only [] at h
    cases err with
    | some m => cases h
    | none =>
      simp only [Circ.bind_ok, setIdx_ok] at h
      obtain ⟨b1, _, ⟨l1, rfl, rfl⟩, b2, _, ⟨l2, rfl, rfl⟩, h⟩ := h
      rw [Circ.pure_run, Except.ok.injEq, Prod.mk.injEq, Prod.mk.injEq] at h
      obtain ⟨⟨-, rfl⟩, rfl⟩ := h
      obtain ⟨-, g1, g2, g3, g4⟩ := calcMsm_needs hX hE hm hs
      subst g4
      exact ⟨g1, g2, g3, rfl, hl⟩

theorem calcAdd_sat {X : Ext} {E : Engine} (hE : E.mode = .test) {a b c d : Var} {res : Var × Var} {e : GoErr} {s s' : St}
    (h : CalcVerifyBN256Add X a b c d E s = .ok ((res, e), s')) (hs : s'.sat = true) : s.sat = true := by
  simp only [CalcVerifyBN256Add, Circ.bind_ok, idx_ok] at h
  obtain ⟨rs, t1, g1, r0, _, ⟨-, rfl⟩, e0, t2, g2, r1, _, ⟨-, rfl⟩, e1, t3, g3, err, t4, g4, g5⟩ := h
  cases g5
  have hs3 : t3.sat = true := by
    obtain ⟨n, rfl, -⟩ := (mod_ok g2).2.2.2.1 hE
    obtain ⟨m, rfl, -⟩ := (mod_ok g3).2.2.2.1 hE
    cases e with
    | none =>
      obtain ⟨-, _, _, _, _, _, _, -, -, -, -, -, -, -, k⟩ := vadd_ok g4
      rw [← k hE]; exact hs
    | some msg =>
      unfold VerifyBN254Add at g4
      cases q1 : setInterface a with
      | none => rw [q1] at g4; cases g4; exact hs
      | some _ =>
      cases q2 : setInterface b with
      | none => rw [q1, q2] at g4; cases g4; exact hs
      | some _ =>
      cases q3 : setInterface c with
      | none => rw [q1, q2, q3] at g4; cases g4; exact hs
      | some _ =>
      cases q4 : setInterface d with
      | none => rw [q1, q2, q3, q4] at g4; cases g4; exact hs
      | some _ =>
        exact absurd (vadd_const_none (p1 := (_, _)) (p2 := (_, _)) (expected := (.big n, .big m))
          q1 q2 q3 q4 rfl rfl g4) (by simp)
  exact (newHint_ok g1).2.1 ((mod_ok g2).2.2.2.2.2 ((mod_ok g3).2.2.2.2.2 hs3).1).1

theorem ecc_mul_add_needs {X : Ext} (hX : X.Strict) {E : Engine} (hE : HonestRaw E) {B B' : List Var} {o : ℕ} {p : Fr × G1} {Q : G1}
    (h0 : PtExact (B.getD o .nil) (B.getD (o + 1) .nil) Q)
    (h1 : PtExact (B.getD (o + 2) .nil) (B.getD (o + 3) .nil) p.2) (h2 : B.getD (o + 4) .nil = .big p.1.val) {s s' : St}
    (h : ecc_mul_add X B o E s = .ok ((none, B'), s')) (hs : s'.sat = true) :
    p.1 ≠ 0 ∧ p.2 ≠ 0 ∧ Representable (p.1 • p.2) ∧ Representable (Q + p.1 • p.2) := by
  simp only [ecc_mul_add, Circ.bind_ok] at h
  obtain ⟨⟨err, B1⟩, s1, g1, h⟩ := h
  cases err with
  | some m => cases h
  | none =>
    simp only [Circ.bind_ok, idx_ok, setIdx_ok] at h
    obtain ⟨a, _, ⟨ha, rfl⟩, b, _, ⟨hb, rfl⟩, c, _, ⟨hc, rfl⟩, d, s1, ⟨hd, rfl⟩, ⟨res, e⟩, s2, g2, b1, _, ⟨l1, rfl, rfl⟩, b2, _, ⟨l2, rfl, rfl⟩, h⟩ := h
    cases h
    have hs1 : s1.sat = true := calcAdd_sat hE.test g2 hs
    obtain ⟨f1, f2, f3, rfl, f5⟩ := ecc_mul_needs hX hE h1 h2 g1 hs1
    rw [List.getElem?_set_ne (by omega), List.getElem?_set_ne (by omega)] at ha hb
    rw [List.getElem?_set_ne (by omega), List.getElem?_set_self (by omega)] at hc
    rw [List.getElem?_set_self (by rw [List.length_set]; omega)] at hd
    have ea := (getD_some ha).symm.trans h0.1
    have eb := (getD_some hb).symm.trans h0.2
    cases hc; cases hd
    rw [ea, eb] at g2
    obtain ⟨-, k1, -⟩ := calcAdd_needs hX.toLawful hE g2 hs
    exact ⟨f1, f2, f3, k1⟩

theorem execBody_split {X : Ext} {T A : List Var} {E : Engine} {Q : List Stmt} : ∀ (P : List Stmt) {B B' : List Var}
    {s s' : St}, execBody X T A B (P ++ Q) E s = .ok ((B', none), s') →
    ∃ B1 s1, execBody X T A B P E s = .ok ((B1, none), s1) ∧ execBody X T A B1 Q E s1 = .ok ((B', none), s')
  | [], B, B', s, s', h => ⟨B, s, rfl, h⟩
  | st :: P, B, B', s, s', h => by
    rw [List.cons_append, execBody, Circ.bind_ok] at h
    obtain ⟨⟨e, B1⟩, s1, h1, h⟩ := h
    cases e with
    | some m => cases h
    | none =>
      obtain ⟨B2, s2, g1, g2⟩ := execBody_split P h
      refine ⟨B2, s2, ?_, g2⟩
      rw [execBody, Circ.bind_run, h1]
      exact g1

/-- One statement of an accepted run, with the run before it. -/
theorem stmt_at {X : Ext} {T A B B' : List Var} {E : Engine} (hE : E.mode = .test) {s s' : St}
    (h : execBody X T A B (prog.take 301) E s = .ok ((B', none), s')) (hs : s'.sat = true) {k : ℕ} (hk : k < 301) :
    ∃ st B1 B2 s1 s2, prog[k]? = some st ∧ execBody X T A B (prog.take k) E s = .ok ((B1, none), s1) ∧ s1.sat = true ∧
      st.exec X T A B1 E s1 = .ok ((none, B2), s2) ∧ s2.sat = true := by
  obtain ⟨st, hst⟩ : ∃ st, prog[k]? = some st := ⟨_, List.getElem?_eq_getElem (by rw [prog_length]; exact hk)⟩
  have e1 : prog.take 301 = prog.take (k + 1) ++ (prog.take 301).drop (k + 1) := by
    conv_lhs => rw [← List.take_append_drop (k + 1) (prog.take 301)]
    rw [List.take_take, min_eq_left (by omega)]
  have e2 : prog.take (k + 1) = prog.take k ++ [st] := by rw [List.take_add_one, hst]; rfl
  rw [e1] at h
  obtain ⟨B2, s2, g1, g2⟩ := execBody_split _ h
  obtain ⟨q2, -⟩ := body_ok hE _ g2 hs
  have g1' := g1
  rw [e2] at g1'
  obtain ⟨B1, s1, f1, f2⟩ := execBody_snoc _ g1'
  refine ⟨st, B1, B2, s1, s2, hst, f1, ?_, f2, q2⟩
  have f3 : execBody X T A B1 [st] E s1 = .ok ((B2, none), s2) := by
    rw [execBody, Circ.bind_run, f2]; rfl
  exact (body_ok hE _ f3 q2).1

theorem ssa_at {k : ℕ} {st : Stmt} (h : prog[k]? = some st) :
    ssaLit.getD k (.set [] []) = st.rename (ssaFrom 0 (List.replicate 43 0) (prog.take k)).2 := by
  have := ssaFrom_get prog 0 k (List.replicate 43 0) st h
  rw [ssa_eq] at this
  rw [List.getD_eq_getElem?_getD, this]
  rfl

/-- Where the steps start, for the converse. -/
structure StepsIn (X : Ext) (E : Engine) (T B : List Var) (I : G1) : Prop where
  honest : HonestRaw E
  strict : X.Strict
  len : B.length = 43
  u : (B.getD 9 .nil).Canon
  inst : PtExact (B.getD 0 .nil) (B.getD 1 .nil) I
  points : ∀ i ∈ pointPositions, PtExact (T.getD i .nil) (T.getD (i + 1) .nil) (proofPoint T i)

theorem wrep_needs {X : Ext} {E : Engine} {T A B B' : List Var} {I : G1} (h : StepsIn X E T B I) {s s' : St}
    (hr : execBody X T A B (prog.take 301) E s = .ok ((B', none), s')) (hs : s'.sat = true) : Representable (proofPoint T 102) := by
  obtain ⟨st, B1, B2, s1, s2, hst, h1, k1, h2, k2⟩ := stmt_at h.honest.test hr hs (k := 2) (by norm_num)
  obtain ⟨-, bufs, hb0, hbk, hlen, H, hw⟩ := prefix_run h.honest.test (by norm_num) h.len h1 k1
  subst hb0
  have : prog[2]? = some (.eccMul 10) := by decide +kernel
  rw [this, Option.some.injEq] at hst
  subst hst
  have hssa := ssa_at this
  generalize (ssaFrom 0 (List.replicate 43 0) (prog.take 2)).2 = w at hssa hw
  have hs2 : ssaLit.getD 2 (.set [] []) = .eccMul 10 1 1 2 := by decide +kernel
  rw [hs2] at hssa
  obtain ⟨-, w0, w1, w2⟩ : (10 : ℕ) = 10 ∧ 1 = w.getD 10 0 ∧ 1 = w.getD 11 0 ∧ 2 = w.getD 12 0 := by
    simpa only [Stmt.rename, SStmt.eccMul.injEq] using hssa
  have e12 : (bufs 2).getD 12 .nil = .big 1 := by
    have h2 : (SStmt.set [12] [.str 1]).Holds X T A (fun j i => (bufs j).getD i .nil) 1 := H 1 (by omega)
    cases h2 with
    | cons h _ => exact h.shape
  have hp : PtExact ((bufs 1).getD 10 .nil) ((bufs 1).getD 11 .nil) (proofPoint T 102) := by
    have h1 : (SStmt.set [10, 11] [.tr 102, .tr 103]).Holds X T A (fun j i => (bufs j).getD i .nil) 0 := H 0 (by omega)
    have := h.points 102 (by decide)
    cases h1 with
    | cons h1 h2 => cases h2 with
      | cons h3 _ =>
        exact ⟨(getD_some h1.shape).symm.trans this.1, (getD_some h3.shape).symm.trans this.2⟩
  obtain ⟨-, -, g3, -⟩ := ecc_mul_needs h.strict h.honest (p := (1, proofPoint T 102)) (o := 10)
    (by unfold PtExact; rw [hw 10, hw 11, ← w0, ← w1]; exact hp) (by
      rw [hw 12, ← w2, e12, ZMod.val_one]; rfl) h2 k2
  rw [one_smul] at g3
  exact g3

theorem term_needs {X : Ext} {E : Engine} {T A B B' : List Var} {I : G1} (h : StepsIn X E T B I) {s s' : St}
    (hr : execBody X T A B (prog.take 301) E s = .ok ((B', none), s')) (hs : s'.sat = true) {L : List (Fr × G1)}
    (hL : L = openingTerms (challengesOf (frAt B)) (.ofProof I (proofPoint T)) (.ofProof (frAt T)) (frAt A 16)) :
    ∀ m, m < 46 → (L.getD m 0).1 ≠ 0 ∧ (L.getD m 0).2 ≠ 0 ∧ Representable ((L.getD m 0).1 • (L.getD m 0).2) ∧
      Representable (partialSum L (m + 1)) := by
  have hlen46 : L.length = 46 := by rw [hL]; unfold openingTerms; exact termList_length ..
  intro m
  induction m using Nat.strong_induction_on with
  | _ m ih =>
  intro hm
  cases m with
  | zero =>
    obtain ⟨st, B1, B2, s1, s2, hst, h1, k1, h2, k2⟩ := stmt_at h.honest.test hr hs (k := 144) (by norm_num)
    obtain ⟨-, bufs, hb0, hbk, hlen, H, hw⟩ := prefix_run h.honest.test (by norm_num) h.len h1 k1
    subst hb0
    have : prog[144]? = some (.eccMul 12) := by decide +kernel
    rw [this, Option.some.injEq] at hst
    subst hst
    have hssa := ssa_at this
    generalize (ssaFrom 0 (List.replicate 43 0) (prog.take 144)).2 = w at hssa hw
    have hs2 : ssaLit.getD 144 (.set [] []) = .eccMul 12 143 143 144 := by decide +kernel
    rw [hs2] at hssa
    obtain ⟨-, w0, w1, w2⟩ : (12 : ℕ) = 12 ∧ 143 = w.getD 12 0 ∧ 143 = w.getD 13 0 ∧ 144 = w.getD 14 0 := by
      simpa only [Stmt.rename, SStmt.eccMul.injEq] using hssa
    have heq := termsOf_eq (I := I) H.fr (by norm_num)
    have heq' : termsOf T I (fun j i => (bufs j).getD i .nil) = L := heq.trans hL.symm
    obtain ⟨q1, q2⟩ := t144 H le_rfl (fun _ _ _ h => h) h.points h.inst h.u
    have e0 : (termsOf T I (fun j i => (bufs j).getD i .nil)).getD 0 0 = (((bufs 142).getD 18 .nil).fr, -G1gen) := rfl
    obtain ⟨g1, g2, g3, -⟩ := ecc_mul_needs h.strict h.honest (p := (((bufs 142).getD 18 .nil).fr, -G1gen)) (o := 12)
      (by unfold PtExact; rw [hw 12, hw 13, ← w0, ← w1]; exact q1) (by rw [hw 14, ← w2]; exact q2) h2 k2
    rw [← e0, heq'] at g1 g2 g3
    refine ⟨g1, g2, g3, ?_⟩
    rw [partialSum_succ _ 0 (by omega), show partialSum L 0 = 0 from rfl, zero_add]
    exact g3
  | succ m =>
    have htab : ssaLit.getD (accIdx.getD (m + 1) 0) (.set [] []) = _ :=
      beq_iff_eq.1 (List.all_eq_true.1 acc_table m (List.mem_range.2 (by omega)))
    have hlt : accIdx.getD m 0 < accIdx.getD (m + 1) 0 := by
      have := List.all_eq_true.1 acc_mono m (List.mem_range.2 (by omega))
      simpa using this
    have hge : 144 ≤ accIdx.getD m 0 := by
      have := List.all_eq_true.1 acc_ge m (List.mem_range.2 (by omega))
      simpa using this
    have hle : accIdx.getD (m + 1) 0 < 301 := by
      have : (List.range 46).all (fun m => accIdx.getD m 0 < 301) = true := by decide +kernel
      have := List.all_eq_true.1 this (m + 1) (List.mem_range.2 (by omega))
      simpa using this
    obtain ⟨k, hk⟩ : ∃ k, accIdx.getD (m + 1) 0 = k := ⟨_, rfl⟩
    rw [hk] at htab hlt hle
    obtain ⟨st, B1, B2, s1, s2, hst, h1, k1, h2, k2⟩ := stmt_at h.honest.test hr hs hle
    obtain ⟨-, bufs, hb0, hbk, hlen, H, hw⟩ := prefix_run h.honest.test (by omega) h.len h1 k1
    subst hb0
    have hssa := ssa_at hst
    generalize (ssaFrom 0 (List.replicate 43 0) (prog.take k)).2 = w at hssa hw
    rw [htab] at hssa
    cases st with
    | set ts es => simp [Stmt.rename] at hssa
    | eccMul o => simp [Stmt.rename] at hssa
    | eccMulAdd o =>
      have hinj : 12 = o ∧ accIdx.getD m 0 + 1 = w.getD o 0 ∧ accIdx.getD m 0 + 1 = w.getD (o + 1) 0 ∧
          k - 1 = w.getD (o + 2) 0 ∧ k - 1 = w.getD (o + 3) 0 ∧ k = w.getD (o + 4) 0 := by
        simpa only [Stmt.rename, SStmt.eccMulAdd.injEq] using hssa
      obtain ⟨rfl, w0, w1, w2, w3, w4⟩ := hinj
      have heq := termsOf_eq (I := I) H.fr (by omega)
      have heq' : termsOf T I (fun j i => (bufs j).getD i .nil) = L := heq.trans hL.symm
      have hacc := acc_exact h.strict.toLawful H (fun i hi => (h.points i hi).res) h.inst h.u m (by omega) hlt (by
        rw [heq']
        intro j hj
        obtain ⟨a, b, -⟩ := ih j (by omega) (by omega)
        exact h.strict.scalarMul _ _ b a)
      have hterm := term_at H (fun _ _ _ h => h) h.points h.inst h.u m (by omega) hk.le
      rw [hk] at hterm
      obtain ⟨q1, q2⟩ := hterm
      obtain ⟨g1, g2, g3, g4⟩ := ecc_mul_add_needs h.strict h.honest (B := B1) (o := 12)
        (Q := partialSum (termsOf T I fun j i => (bufs j).getD i .nil) (m + 1))
        (p := (termsOf T I fun j i => (bufs j).getD i .nil).getD (m + 1) 0)
        (by unfold PtExact; rw [hw 12, hw 13, ← w0, ← w1]; exact hacc)
        (by unfold PtExact; rw [hw 14, hw 15, ← w2, ← w3]; exact q1)
        (by rw [hw 16, ← w4]; exact q2) h2 k2
      rw [heq'] at g1 g2 g3 g4
      refine ⟨g1, g2, g3, ?_⟩
      rw [partialSum_succ _ (m + 1) (by omega)]
      exact g4

/-- In an accepted run no term is degenerate. -/
theorem terms_needs {X : Ext} {E : Engine} {T A B B' : List Var} {I : G1} (h : StepsIn X E T B I) {s s' : St}
    (hr : execBody X T A B (prog.take 301) E s = .ok ((B', none), s')) (hs : s'.sat = true) :
    GoodTerms (openingTerms (challengesOf (frAt B)) (.ofProof I (proofPoint T)) (.ofProof (frAt T)) (frAt A 16)) := by
  obtain ⟨L, hL⟩ : ∃ L, L = openingTerms (challengesOf (frAt B)) (.ofProof I (proofPoint T)) (.ofProof (frAt T)) (frAt A 16) := ⟨_, rfl⟩
  have hlen46 : L.length = 46 := by rw [hL]; unfold openingTerms; exact termList_length ..
  have key := term_needs h hr hs hL
  rw [← hL]
  have hmem : ∀ p ∈ L, ∃ m < 46, L.getD m 0 = p := by
    intro p hp
    obtain ⟨m, hm, rfl⟩ := List.getElem_of_mem hp
    exact ⟨m, by omega, by rw [List.getD_eq_getElem?_getD, List.getElem?_eq_getElem hm]; rfl⟩
  refine ⟨?_, ?_, ?_, ?_⟩
  · intro p hp
    obtain ⟨m, hm, rfl⟩ := hmem p hp
    exact (key m hm).1
  · intro p hp
    obtain ⟨m, hm, rfl⟩ := hmem p hp
    exact (key m hm).2.1
  · intro p hp
    obtain ⟨m, hm, rfl⟩ := hmem p hp
    exact (key m hm).2.2.1
  · intro m h1 h2
    obtain ⟨j, rfl⟩ : ∃ j, m = j + 1 := ⟨m - 1, by omega⟩
    exact (key j (by omega)).2.2.2

theorem sub_of {x y z w : Fr} (h : (x + -y) * z = w) : (x - y) * z = w := by rw [sub_eq_add_neg]; exact h

/-- The aux relations hold in every accepted run of the first two steps. -/
theorem Eqs.aux_rel {b : ℕ → ℕ → Fr} {t a : ℕ → Fr} {N : ℕ} (H : FrRun b t a N) (hN : 145 < N) :
    AuxRelations (challengesOf (b 0)) (.ofProof t) a := by
  have q1 := p1 H (by omega)
  rw [zpow_one] at q1
  have hcx : (challengesOf (b 0)).x = b 0 6 := rfl
  have hcu : (challengesOf (b 0)).u = b 0 9 := rfl
  have hd := denom H (by omega)
  have hne := denom_ne H (by omega)
  refine ⟨?_, ?_, ?_, ?_, ?_, ?_, ?_, ?_, ?_, ⟨Eqs.lag0 H (by omega), Eqs.lagk H (by omega)⟩, Eqs.quotient_eq H (by omega), ?_, ?_, ?_, ?_⟩
  · rw [hcx, pm6 H (by omega)]; exact sub_of (d0 H (by omega))
  · rw [hcx, pm6 H (by omega), q1]; exact sub_of (d1 H (by omega))
  · rw [hcx, pm6 H (by omega)]; exact sub_of (d2 H (by omega))
  · rw [hcx, q1]; exact sub_of (d3 H (by omega))
  · rw [hcx, pm6 H (by omega), q1]; exact sub_of (d4 H (by omega))
  · rw [hcx, q1]; exact sub_of (d5 H (by omega))
  · rw [hcx, pm1 H (by omega)]; exact sub_of (d6 H (by omega))
  · rw [hcx, pm1 H (by omega)]; exact sub_of (d7 H (by omega))
  · rw [hcx, hcu, ← hd, mul_inv_cancel₀ hne]
  · rw [hcx, p2 H (by omega)]; exact sub_of (d17 H (by omega))
  · rw [hcx, p2 H (by omega), q1]; exact sub_of (d18 H (by omega))
  · rw [hcx, p2 H (by omega)]; exact sub_of (d19 H (by omega))
  · rw [hcx, p2 H (by omega), q1]; exact sub_of (d20 H (by omega))

end Verif
