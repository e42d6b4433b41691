/- With the hints of the repo, the words of an accepted point are canonical. -/
import Verif.Lemmas.Necessary
import Verif.Math.Jacobian
import Verif.Lemmas.StepPoints

namespace Verif
open Halo2

theorem half_pow : powMod pMod (((pMod + rMod) / 2) ^ 2 - 3) ((pMod - 1) / 3) % pMod ≠ 1 := by decide +kernel

/-- No point has (p + r)/2 as its second coordinate. -/
theorem half_not_onCurve (x : Fp) : ¬ OnCurve x (((pMod + rMod) / 2 : ℕ) : Fp) := by
  intro h
  have hx : x ≠ 0 := h.x_ne
  have e : (((((pMod + rMod) / 2) ^ 2 - 3 : ℕ)) : Fp) = x ^ 3 := by
    rw [Nat.cast_sub (by decide +kernel), Nat.cast_pow]
    unfold OnCurve at h
    rw [h]
    push_cast
    ring
  have e2 := powMod_cast pMod (((pMod + rMod) / 2) ^ 2 - 3) ((pMod - 1) / 3) (by decide +kernel)
  have e3 : (((((pMod + rMod) / 2) ^ 2 - 3 : ℕ)) : ZMod pMod) ^ ((pMod - 1) / 3) = 1 := by
    have : (((((pMod + rMod) / 2) ^ 2 - 3 : ℕ)) : ZMod pMod) = x ^ 3 := e
    rw [this, ← pow_mul, show 3 * ((pMod - 1) / 3) = pMod - 1 by decide +kernel]
    exact ZMod.pow_card_sub_one_eq_one hx
  rw [e3] at e2
  have := (ZMod.natCast_eq_natCast_iff' _ 1 pMod).1 (by rw [e2, Nat.cast_one])
  rw [Nat.mod_eq_of_lt (show 1 < pMod by decide +kernel)] at this
  exact half_pow this

theorem enc_neg (P : G1) : enc (-P) = ((enc P).1, -(enc P).2) := by
  rcases G1.cases P with rfl | ⟨x, y, h, rfl⟩
  · rw [neg_zero, enc_zero, neg_zero]
  · exact enc_neg_mkPt h

/-- The honest scalar multiplication hint only succeeds on coordinates that are, in absolute value, those of a point. -/
theorem MsmHint_ok {a b k : ℤ} {os : List ℤ} (h : MsmHint [a, b, k] = .ok os) :
    ∃ P : G1, a.natAbs = (enc P).1.val ∧ b.natAbs = (enc P).2.val := by
  rw [MsmHint] at h
  by_cases h1 : a.natAbs < 2 ^ 256
  · by_cases h2 : b.natAbs < 2 ^ 256
    · rw [fillBytes32_of_lt h1, fillBytes32_of_lt h2] at h
      beta_reduce at h
      cases hu : bn256Unmarshal (beBytes a.natAbs 32 ++ beBytes b.natAbs 32) with
      | none =>
        simp only [hu] at h
        cases h
      | some P =>
        obtain ⟨q1, q2⟩ := unmarshal_some h1 h2 hu
        exact ⟨P, q1.symm, q2.symm⟩
    · rw [fillBytes32_of_lt h1, show fillBytes32 b = none from if_neg h2] at h
      cases h
  · rw [show fillBytes32 a = none from if_neg h1] at h
    cases h

theorem natAbs_cast_cases (a : ℤ) : (0 ≤ a ∧ ((a.natAbs : ℕ) : Fp) = (a : Fp)) ∨ (a < 0 ∧ ((a.natAbs : ℕ) : Fp) = -(a : Fp)) := by
  rcases le_or_gt 0 a with h | h
  · left
    refine ⟨h, ?_⟩
    rw [← Int.cast_natCast, Int.natAbs_of_nonneg h]
  · right
    refine ⟨h, ?_⟩
    rw [← Int.cast_natCast, Int.ofNat_natAbs_of_nonpos h.le, Int.cast_neg]

/-- The scalar multiplication hint of an accepted multiplication succeeded. -/
theorem calcMsm_hint {X : Ext} {E : Engine} (hE : HonestRaw E) {a b k : ℤ} {r : (Var × Var) × GoErr} {s s' : St}
    (h : CalcVerifyBN256Msm X (.big a) (.big b) (.big k) E s = .ok (r, s')) : ∃ os, MsmHint [a, b, k] = .ok os := by
  rw [CalcVerifyBN256Msm, Circ.bind_ok] at h
  obtain ⟨rs, s1, h1, -⟩ := h
  rw [newHint, Circ.bind_ok] at h1
  obtain ⟨xs, s2, h2, h1⟩ := h1
  obtain ⟨-, hf⟩ := readBigs_ok h2
  have hr := fun z : ℤ => reads_of_raw hE.test hE.raw z
  cases hf with
  | cons e1 hf => cases hf with
    | cons e2 hf => cases hf with
      | cons e3 hf =>
        cases hf
        rw [show toBig E (.big a) = some a from hr a, Option.some.injEq] at e1
        rw [show toBig E (.big b) = some b from hr b, Option.some.injEq] at e2
        rw [show toBig E (.big k) = some k from hr k, Option.some.injEq] at e3
        subst e1 e2 e3
        rw [callHint, hE.msm, hE.test] at h1
        cases hh : MsmHint [a, b, k] with
        | ok os => exact ⟨os, rfl⟩
        | err => rw [hh] at h1; cases h1
        | panic => rw [hh] at h1; cases h1

/-- A multiplication by a canonical scalar that succeeds with the hints of the repo had canonical coordinates. -/
theorem calcMsm_words {X : Ext} (hX : X.Strict) {E : Engine} (hE : HonestRaw E) {a b : ℤ} {k : Fr} {res : Var × Var} {s s' : St}
    (h : CalcVerifyBN256Msm X (.big a) (.big b) (.big k.val) E s = .ok ((res, none), s')) (hs : s'.sat = true)
    {Q : G1} (hQ : enc Q = ((a : Fp), (b : Fp))) : a = (enc Q).1.val ∧ b = (enc Q).2.val := by
  obtain ⟨os, hh⟩ := calcMsm_hint hE h
  obtain ⟨P, hPa, hPb⟩ := MsmHint_ok hh
  have ePa : ((a.natAbs : ℕ) : Fp) = (enc P).1 := by rw [hPa, ZMod.natCast_zmod_val]
  have ePb : ((b.natAbs : ℕ) : Fp) = (enc P).2 := by rw [hPb, ZMod.natCast_zmod_val]
  -- it is enough that neither word is negative
  have fin : 0 ≤ a → 0 ≤ b → a = (enc Q).1.val ∧ b = (enc Q).2.val := by
    intro ha hb
    have e1 : (enc Q).1 = (enc P).1 := by
      rw [hQ, ← ePa]
      show (a : Fp) = _
      rw [← Int.cast_natCast, Int.natAbs_of_nonneg ha]
    have e2 : (enc Q).2 = (enc P).2 := by
      rw [hQ, ← ePb]
      show (b : Fp) = _
      rw [← Int.cast_natCast, Int.natAbs_of_nonneg hb]
    rw [e1, e2, ← hPa, ← hPb, Int.natAbs_of_nonneg ha, Int.natAbs_of_nonneg hb]
    exact ⟨rfl, rfl⟩
  have hQ1 : (enc Q).1 = (a : Fp) := by rw [hQ]
  have hQ2 : (enc Q).2 = (b : Fp) := by rw [hQ]
  rcases G1.cases P with rfl | ⟨x, y, hxy, rfl⟩
  · rw [enc_zero, ZMod.val_zero] at hPa hPb
    exact fin (by omega) (by omega)
  rw [enc_mkPt] at ePa ePb
  rcases G1.cases Q with rfl | ⟨x', y', hxy', rfl⟩
  · rw [enc_zero] at hQ1
    exfalso
    rcases natAbs_cast_cases a with ⟨-, e⟩ | ⟨-, e⟩
    · rw [ePa, ← hQ1] at e; exact hxy.x_ne e
    · rw [ePa, ← hQ1, neg_zero] at e; exact hxy.x_ne e
  rw [enc_mkPt] at hQ1 hQ2
  replace hQ1 : x' = (a : Fp) := hQ1
  replace hQ2 : y' = (b : Fp) := hQ2
  replace ePa : _ = x := ePa
  replace ePb : _ = y := ePb
  have hy2 : y ^ 2 = y' ^ 2 := by
    rcases natAbs_cast_cases b with ⟨-, e⟩ | ⟨-, e⟩
    · rw [ePb, ← hQ2] at e; rw [e]
    · rw [ePb, ← hQ2] at e; rw [e, neg_sq]
  have ha : 0 ≤ a := by
    rcases natAbs_cast_cases a with ⟨h0, -⟩ | ⟨-, e⟩
    · exact h0
    · exfalso
      rw [ePa, ← hQ1] at e
      have h1 : y ^ 2 = x ^ 3 + 3 := hxy
      have h2 : y' ^ 2 = x' ^ 3 + 3 := hxy'
      have : (2 : Fp) * x' ^ 3 = 0 := by
        rw [hy2, h2, e] at h1
        linear_combination h1
      rcases mul_eq_zero.1 this with h3 | h3
      · exact fp_two_ne h3
      · exact hxy'.x_ne (pow_eq_zero_iff (by norm_num) |>.1 h3)
  refine fin ha ?_
  by_contra hb
  have hb' : b < 0 := by omega
  have exx : x = x' := by
    rcases natAbs_cast_cases a with ⟨-, e⟩ | ⟨h0, -⟩
    · rw [ePa, ← hQ1] at e; exact e
    · omega
  have eyy : y = -y' := by
    rcases natAbs_cast_cases b with ⟨h0, -⟩ | ⟨-, e⟩
    · omega
    · rw [ePb, ← hQ2] at e; exact e
  obtain ⟨P, hP⟩ : ∃ P, P = mkPt x y hxy := ⟨_, rfl⟩
  obtain ⟨Q, hQd⟩ : ∃ Q, Q = mkPt x' y' hxy' := ⟨_, rfl⟩
  have hPQ : Q = -P := by
    apply enc_injective
    rw [enc_neg, hP, hQd, enc_mkPt, enc_mkPt, exx, eyy, neg_neg]
  rw [← hQd] at hQ
  rw [← hP] at hPa hPb
  obtain ⟨-, s0, -, px, py, kk, q1, q2, q3, n, m, hres, n0, n1, m0, m1, hm⟩ := calcMsm_ok h hs
  obtain ⟨c, c1, c2⟩ := scalar_val k
  rw [setInterface, Option.some.injEq] at q1 q2
  rw [c1, Option.some.injEq] at q3
  subst q1 q2 q3
  rw [c2, ← hQ] at hm
  have he := hX.scalarMul_deg _ _ _ hm
  have hrun := calcMsm_run (X := X) (E := E) (s := s) hE.test hE.mod (reads_of_raw hE.test hE.raw _) (reads_of_raw hE.test hE.raw _)
    (reads_of_raw hE.test hE.raw _) ((hE.msm _ _ _).trans (MsmHint_eq (P := P) (k := k.val) hPa hPb))
  rw [natCast_zsmul, ← fr_smul_eq] at hrun
  simp only [List.getD_cons_zero, List.getD_cons_succ] at hrun
  rw [hrun] at h
  have hm' : m = ((bn256Affine (k • P)).2 : ℤ) % rMod := by
    split at h
    · rw [Except.ok.injEq, Prod.mk.injEq, Prod.mk.injEq, hres, Prod.mk.injEq, Var.big.injEq, Var.big.injEq] at h
      exact h.1.1.2.symm
    · cases h
  have hneg : k • Q = -(k • P) := by rw [hPQ, smul_neg]
  rw [hneg, enc_neg] at he
  have he2 : (m : Fp) = -(enc (k • P)).2 := congrArg Prod.snd he
  rcases G1.cases (k • P) with h0 | ⟨u, w, huw, h0⟩
  · rw [h0, bn256Affine_zero] at hm'
    rw [h0, enc_zero, neg_zero] at he2
    have : m = 1 := by rw [hm']; decide +kernel
    rw [this, Int.cast_one] at he2
    exact one_ne_zero he2
  · have hne : k • P ≠ 0 := by rw [h0]; exact mkPt_ne_zero _ _ _
    rw [bn256Affine_ne hne, h0, enc_mkPt] at hm'
    rw [h0, enc_mkPt] at he2
    replace hm' : m = ((w.val : ℕ) : ℤ) % rMod := hm'
    replace he2 : (m : Fp) = -w := he2
    have hw : w.val < pMod := fp_val_lt w
    have ew : (((w.val : ℕ) : ℤ) : Fp) = w := by rw [Int.cast_natCast, ZMod.natCast_zmod_val]
    have hsum : ((m + w.val : ℤ) : Fp) = 0 := by rw [Int.cast_add, he2, ew, neg_add_cancel]
    have hdvd := (ZMod.intCast_zmod_eq_zero_iff_dvd _ pMod).1 hsum
    have hw0 : w.val ≠ 0 := fun h => huw.y_ne ((ZMod.val_eq_zero w).1 h)
    obtain ⟨j, hj⟩ := hdvd
    have key : (pMod : ℤ) < 2 * rMod ∧ (rMod : ℤ) < pMod ∧ (pMod + rMod : ℤ) = 2 * ((pMod + rMod) / 2 : ℕ) ∧ (pMod : ℤ) % 2 = 1 := by decide +kernel
    obtain ⟨k1, k2, k3, k4⟩ := key
    have hj1 : j = 1 := by
      have hlo : 0 < (pMod : ℤ) * j := by omega
      have hhi : (pMod : ℤ) * j < pMod * 2 := by omega
      have p0 : (0 : ℤ) < pMod := by omega
      have := (mul_pos_iff_of_pos_left p0).1 hlo
      have := lt_of_mul_lt_mul_left hhi p0.le
      omega
    rw [hj1, mul_one] at hj
    by_cases hlt : w.val < rMod
    · rw [Int.emod_eq_of_lt (by omega) (by exact_mod_cast hlt)] at hm'
      omega
    · have : m = w.val - rMod := by
        rw [hm', ← Int.sub_emod_right, Int.emod_eq_of_lt (by omega) (by omega)]
      have hv : w.val = (pMod + rMod) / 2 := by omega
      apply half_not_onCurve u
      rw [← hv, ZMod.natCast_zmod_val]
      exact huw

theorem ecc_mul_words {X : Ext} (hX : X.Strict) {E : Engine} (hE : HonestRaw E) {B B' : List Var} {o : ℕ} {a b : ℤ} {s s' : St}
    (ha : B.getD o .nil = .big a) (hb : B.getD (o + 1) .nil = .big b) (hk : (B.getD (o + 2) .nil).Canon)
    (h : ecc_mul X B o E s = .ok ((none, B'), s')) (hs : s'.sat = true) {Q : G1} (hQ : enc Q = ((a : Fp), (b : Fp))) :
    a = (enc Q).1.val ∧ b = (enc Q).2.val ∧ Q ≠ 0 := by
  obtain ⟨k, hk⟩ : ∃ k : Fr, B.getD (o + 2) .nil = .big k.val := ⟨_, canon_exact hk rfl⟩
  obtain ⟨-, -, -, hl, -⟩ := ecc_mul_ok h hs
  simp only [ecc_mul, Circ.bind_run, idx_at (show o < B.length by omega), idx_at (show o + 1 < B.length by omega), idx_at hl,
    ha, hb, hk] at h
  cases hm : CalcVerifyBN256Msm X (.big a) (.big b) (.big k.val) E s with
  | error e => rw [hm] at h; cases h
  | ok r =>
    obtain ⟨⟨res, err⟩, s1⟩ := r
    rw [hm] at h
    cases err with
    | some m => cases h
    | none =>
      simp only [Circ.bind_ok, setIdx_ok] at h
      obtain ⟨b1, _, ⟨l1, rfl, rfl⟩, b2, _, ⟨l2, rfl, rfl⟩, h⟩ := h
      cases h
      obtain ⟨e1, e2⟩ := calcMsm_words hX hE hm hs hQ
      rw [e1, e2] at hm
      exact ⟨e1, e2, (calcMsm_needs hX hE hm hs).2.2.1⟩

/-- In an accepted run with the hints of the repo, the words of every point of the proof are its canonical
coordinates, and none is infinity. -/
theorem point_exact {X : Ext} (hX : X.Strict) {E : Engine} (hE : HonestRaw E) {T A B B' : List Var} (hB : B.length = 43)
    (hu : (B.getD 9 .nil).Canon) {s s' : St} (hr : execBody X T A B (prog.take 301) E s = .ok ((B', none), s'))
    (hs : s'.sat = true) {i : ℕ} (hi : i ∈ pointPositions) (hp : PairAt T i) {a b : ℤ} (ha : T[i]? = some (.big a))
    (hb : T[i + 1]? = some (.big b)) : PtExact (T.getD i .nil) (T.getD (i + 1) .nil) (proofPoint T i) ∧
      proofPoint T i ≠ 0 := by
  have hmem : i ∈ pointUses.map Prod.fst := by
    have := List.all_eq_true.1 pointUses_complete i hi
    simpa using this
  obtain ⟨⟨i', k⟩, hq, rfl⟩ := List.mem_map.1 hmem
  have hcall := List.all_eq_true.1 pointUses_calls _ hq
  simp only [Bool.and_eq_true, decide_eq_true_eq, beq_iff_eq] at hcall
  obtain ⟨⟨hk, hst⟩, hssa⟩ := hcall
  obtain ⟨st, B1, B2, s1, s2, hst', h1, k1, h2, k2⟩ := stmt_at hE.test hr hs hk
  rw [hst, Option.some.injEq] at hst'
  subst hst'
  obtain ⟨-, bufs, hb0, hbk, hlen, H, hw⟩ := prefix_run hE.test (by omega) hB h1 k1
  have hsa := ssa_at hst
  generalize (ssaFrom 0 (List.replicate 43 0) (prog.take k)).2 = w at hsa hw
  rw [hsa, Stmt.rename] at hssa
  simp only [Bool.and_eq_true, beq_iff_eq] at hssa
  obtain ⟨⟨⟨-, w0⟩, w1⟩, w2⟩ := hssa
  have hu' : ((bufs 0).getD 9 .nil).Canon := by rw [hb0]; exact hu
  have use := point_uses H hu' _ hq le_rfl
  obtain ⟨ux, uy, us⟩ := use
  have e14 : B1.getD 14 .nil = .big a := by
    rw [hw 14, w0]
    have := ux.symm.trans ha
    rwa [Option.some.injEq] at this
  have e15 : B1.getD 15 .nil = .big b := by
    rw [hw 15, w1]
    have := uy.symm.trans hb
    rwa [Option.some.injEq] at this
  have e16 : (B1.getD 16 .nil).Canon := by
    rw [hw 16, w2]
    exact us
  have hQ : enc (proofPoint T i') = ((a : Fp), (b : Fp)) := by
    obtain ⟨x, y, p1, p2, p3⟩ := PtAt.of_pair hp
    rw [getD_some ha, setInterface, Option.some.injEq] at p1
    rw [getD_some hb, setInterface, Option.some.injEq] at p2
    rw [p3, p1, p2]
  rw [Stmt.exec, ecc_mul_add, Circ.bind_ok] at h2
  obtain ⟨⟨err, B3⟩, s3, g1, h2⟩ := h2
  cases err with
  | some m => cases h2
  | none =>
    simp only [Circ.bind_ok, idx_ok, setIdx_ok] at h2
    obtain ⟨_, _, ⟨-, rfl⟩, _, _, ⟨-, rfl⟩, _, _, ⟨-, rfl⟩, _, s1, ⟨-, rfl⟩, ⟨res, e⟩, s4, g2, _, _, ⟨-, rfl, rfl⟩, _, _, ⟨-, rfl, rfl⟩, h2⟩ := h2
    cases h2
    have hs1 := calcAdd_sat hE.test g2 k2
    obtain ⟨f1, f2, f3⟩ := ecc_mul_words hX hE e14 e15 e16 g1 hs1 hQ
    unfold PtExact
    rw [getD_some ha, getD_some hb, ← f1, ← f2]
    exact ⟨⟨rfl, rfl⟩, f3⟩

end Verif
