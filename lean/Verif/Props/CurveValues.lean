/-
Properties C15–C17 and C47 beyond canonical points and scalars: scalars from p on, results at infinity, pairs that are no point.
-/
import Verif.Props.Curve2
import Verif.Props.Hints

namespace Verif

/-! ### C15 -/

/-- A prover that answers (1, 2) to every scalar multiplication. -/
def exOnes : Engine := ⟨.test, true, fun f _ _ ins => match f with | .modHint => modHint ins | .msmHint => .ok [1, 2] | _ => .err⟩

/-- C15 is FALSE of scalars from p on: the circuit multiplies by the scalar modulo p, but p is not the order of the curve. With the
scalar p + 1 and the generator G = (1, 2), a prover gets G accepted as (p + 1)·G, which it is not. -/
theorem C15_large_false {X : Ext} (hX : X.Lawful) {s : St} (hs : s.sat = true) :
    (CalcVerifyBN256Msm X (.big 1) (.big 2) (.big (pMod + 1))).Accepts exOnes s ((.big 1, .big 2), none) ∧
    enc G1gen = (((1 : ℤ) : Fp), ((2 : ℤ) : Fp)) ∧ enc ((pMod + 1) • G1gen) ≠ (((1 : ℤ) : Fp), ((2 : ℤ) : Fp)) := by
  have hg : enc G1gen = (((1 : ℤ) : Fp), ((2 : ℤ) : Fp)) := by
    rw [G1gen, enc_mkPt]; norm_num
  refine ⟨?_, hg, ?_⟩
  · have hb : ∀ n : ℤ, toBig exOnes (.big n) = some n := fun n => rfl
    have hrun := calcMsm_run (X := X) (E := exOnes) (s := s) rfl (fun _ _ _ => rfl) (hb 1) (hb 2) (hb (pMod + 1)) (os := [1, 2]) rfl
    have e1 : (([1, 2] : List ℤ).getD 0 0 % (rMod : ℤ)) = 1 := by decide +kernel
    have e2 : (([1, 2] : List ℤ).getD 1 0 % (rMod : ℤ)) = 2 := by decide +kernel
    rw [e1, e2] at hrun
    have hk : (((((pMod : ℤ) + 1 : ℤ) : Fp)).val : Fr) = 1 := by
      rw [Int.cast_add, Int.cast_natCast, ZMod.natCast_self, zero_add, Int.cast_one, ZMod.val_one, Nat.cast_one]
    obtain ⟨s', h1, h2⟩ := (vsm_accepts (X := X) (point := (.big 1, .big 2)) (scalar := .big ((pMod : ℤ) + 1))
      (expected := (.big 1, .big 2)) rfl rfl rfl rfl rfl exOnes (s.addHints [.msmHint, .modHint, .modHint]) none).2
      ⟨rfl, hs, by rw [hk, ← hg, hX.scalarMul _ _ gen_ne_zero one_ne_zero, one_smul]⟩
    refine ⟨s', ?_, h2⟩
    rw [hrun, h1]
  · rw [← hg]
    intro h
    have h1 := enc_injective h
    rw [add_smul, one_smul, add_eq_right] at h1
    have h2 := addOrderOf_dvd_of_nsmul_eq_zero h1
    rw [addOrderOf_gen] at h2
    exact absurd h2 (by decide +kernel)

/-! ### C16 -/

/-- C16, the degenerate cases: if k·P is the point at infinity (P = O, or k a multiple of r), the call is never accepted without
error: the hint answers (0, 1), which encodes no point. -/
theorem C16_degenerate {X : Ext} (hX : X.Strict) {raw : Bool} {P : G1} {k : ℕ} (hkp : k < pMod) (h0 : k • P = 0)
    (hraw : raw = true ∨ ((enc P).1.val < rMod ∧ (enc P).2.val < rMod)) {s : St} :
    ¬ ∃ res, (CalcVerifyBN256Msm X (.big (enc P).1.val) (.big (enc P).2.val) (.big k)).Accepts
        (honestTest X raw) s (res, none) := by
  rintro ⟨res, h⟩
  have t1 := toBig_coord (X := X) (raw := raw) (n := (enc P).1.val) (hraw.imp id And.left)
  have t2 := toBig_coord (X := X) (raw := raw) (n := (enc P).2.val) (hraw.imp id And.right)
  obtain ⟨c, t3, hc⟩ : ∃ c : ℤ, toBig (honestTest X raw) (.big k) = some c ∧ c • P = 0 := by
    simp only [toBig]
    split
    · exact ⟨k, rfl, by rw [natCast_zsmul]; exact h0⟩
    · refine ⟨_, rfl, ?_⟩
      have e : ((((k : ℤ) % rMod : ℤ)) : Fr) = (k : Fr) := by rw [ZMod.intCast_mod, Int.cast_natCast]
      rw [← Int.cast_smul_eq_zsmul Fr, e, Nat.cast_smul_eq_nsmul]
      exact h0
  have hrun := calcMsm_run (X := X) (E := honestTest X raw) (s := s) rfl (honest_honestMod X) t1 t2 t3
    (MsmHint_eq (P := P) (Int.natAbs_natCast _) (Int.natAbs_natCast _))
  rw [hc, bn256Affine_zero] at hrun
  have e1 : (([((0 : ℕ) : ℤ), ((1 : ℕ) : ℤ)] : List ℤ).getD 0 0 % (rMod : ℤ)) = 0 := by decide +kernel
  have e2 : (([((0 : ℕ) : ℤ), ((1 : ℕ) : ℤ)] : List ℤ).getD 1 0 % (rMod : ℤ)) = 1 := by decide +kernel
  rw [e1, e2] at hrun
  obtain ⟨n, m, hr, -, -, -, -, he⟩ := C15_msm_strict hX (.big _) (.big _) (.big _) (P := P)
    (by simp only [Int.cast_natCast, ZMod.natCast_zmod_val]) h
  obtain ⟨s', h, -⟩ := h
  rw [hrun] at h
  rw [Int.emod_eq_of_lt (by positivity) (by exact_mod_cast hkp), natCast_zsmul, h0, enc_zero] at he
  cases hv : VerifyBN254ScalarMul X (.big (enc P).1.val, .big (enc P).2.val) (.big k) (.big 0, .big 1) (honestTest X raw)
      (s.addHints [.msmHint, .modHint, .modHint]) with
  | error p => rw [hv] at h; cases h
  | ok q =>
    obtain ⟨e, t⟩ := q
    rw [hv] at h
    cases h
    cases hr
    exact absurd (congrArg Prod.snd he) (by decide +kernel)

-- 0·G, and 5·O
example : (¬ ∃ res, (CalcVerifyBN256Msm exX (.big (enc G1gen).1.val) (.big (enc G1gen).2.val) (.big ((0 : ℕ) : ℤ))).Accepts
      (honestTest exX true) .init (res, none)) ∧
    ¬ ∃ res, (CalcVerifyBN256Msm exX (.big (enc (0 : G1)).1.val) (.big (enc (0 : G1)).2.val) (.big ((5 : ℕ) : ℤ))).Accepts
      (honestTest exX true) .init (res, none) :=
  ⟨C16_degenerate exX_strict (by decide +kernel) (zero_nsmul _) (.inl rfl),
    C16_degenerate exX_strict (by decide +kernel) (nsmul_zero 5) (.inl rfl)⟩

/-- C16, invalid points: with honest hints a pair of integers that is not the canonical encoding of a point up to signs (a coordinate
of absolute value p or more, or off the curve and not (0, 0)) panics, in a test engine that hands integers to the hint as they are. -/
theorem C16_invalid (X : Ext) {x y : ℤ} (k : ℤ) (h : ¬ (x.natAbs < pMod ∧ y.natAbs < pMod ∧
      ((y.natAbs : Fp) ^ 2 = (x.natAbs : Fp) ^ 3 + 3 ∨ (x.natAbs = 0 ∧ y.natAbs = 0)))) (s : St) :
    ∃ p, CalcVerifyBN256Msm X (.big x) (.big y) (.big k) (honestTest X true) s = .error p := by
  have hb : ∀ n : ℤ, toBig (honestTest X true) (.big n) = some n := fun n => rfl
  have hh : MsmHint [x, y, k] = .err ∨ MsmHint [x, y, k] = .panic := by
    by_cases h1 : 2 ^ 256 ≤ x.natAbs ∨ 2 ^ 256 ≤ y.natAbs
    · exact .inr (C10_msm_too_big h1)
    · rw [not_or, not_le, not_le] at h1
      exact .inl (C10_msm_bad_point h1.1 h1.2 h)
  have hn : newHint .msmHint 2 [.big x, .big y, .big k] (honestTest X true) s = .error (.mk "NewHint") := by
    have e : (honestTest X true).strat .msmHint s.hints.length 2 [x, y, k] = MsmHint [x, y, k] := rfl
    simp only [newHint, readBigs, Circ.bind_run, readBig_run (hb _), Circ.pure_run, callHint, e]
    rcases hh with hh | hh <;> rw [hh] <;> rfl
  refine ⟨.mk "NewHint", ?_⟩
  simp only [CalcVerifyBN256Msm, Circ.bind_run, hn]

-- (1, 3) is not on the curve
example (k : ℤ) (s : St) : ∃ p, CalcVerifyBN256Msm exX (.big 1) (.big 3) (.big k) (honestTest exX true) s = .error p :=
  C16_invalid exX k (by decide +kernel) s

/-! ### C17 -/

/-- C17, invalid points: the same for the addition; a bad second point counts only if the first one is good. -/
theorem C17_invalid (X : Ext) {a b c d : ℤ} (h : ¬ ((a.natAbs < pMod ∧ b.natAbs < pMod ∧
      ((b.natAbs : Fp) ^ 2 = (a.natAbs : Fp) ^ 3 + 3 ∨ (a.natAbs = 0 ∧ b.natAbs = 0))) ∧
      (c.natAbs < pMod ∧ d.natAbs < pMod ∧ ((d.natAbs : Fp) ^ 2 = (c.natAbs : Fp) ^ 3 + 3 ∨ (c.natAbs = 0 ∧ d.natAbs = 0)))))
    (s : St) : ∃ p, CalcVerifyBN256Add X (.big a) (.big b) (.big c) (.big d) (honestTest X true) s = .error p := by
  have hb : ∀ n : ℤ, toBig (honestTest X true) (.big n) = some n := fun n => rfl
  have hh : AddHint [a, b, c, d] = .err ∨ AddHint [a, b, c, d] = .panic := by
    by_cases h1 : 2 ^ 256 ≤ a.natAbs ∨ 2 ^ 256 ≤ b.natAbs
    · exact .inr (C10_add_too_big (h1.elim .inl fun h => .inr (.inl h)))
    · rw [not_or, not_le, not_le] at h1
      by_cases h2 : a.natAbs < pMod ∧ b.natAbs < pMod ∧
          ((b.natAbs : Fp) ^ 2 = (a.natAbs : Fp) ^ 3 + 3 ∨ (a.natAbs = 0 ∧ b.natAbs = 0))
      · have hP : ∃ P : G1, a.natAbs = (enc P).1.val ∧ b.natAbs = (enc P).2.val := by
          obtain ⟨l1, l2, hc | ⟨hc, hd⟩⟩ := h2
          · exact ⟨mkPt (a.natAbs : Fp) (b.natAbs : Fp) hc, (ZMod.val_natCast_of_lt l1).symm, (ZMod.val_natCast_of_lt l2).symm⟩
          · exact ⟨0, by rw [enc_zero, hc]; rfl, by rw [enc_zero, hd]; rfl⟩
        by_cases h3 : 2 ^ 256 ≤ c.natAbs ∨ 2 ^ 256 ≤ d.natAbs
        · exact .inr (C10_add_too_big (.inr (.inr ⟨hP, h3⟩)))
        · rw [not_or, not_le, not_le] at h3
          obtain ⟨P, p1, p2⟩ := hP
          exact .inl (C10_add_bad_second p1 p2 h3.1 h3.2 fun h4 => h ⟨h2, h4⟩)
      · exact .inl (C10_add_bad_first h1.1 h1.2 h2)
  have hn : newHint .addHint 2 [.big a, .big b, .big c, .big d] (honestTest X true) s = .error (.mk "NewHint") := by
    have e : (honestTest X true).strat .addHint s.hints.length 2 [a, b, c, d] = AddHint [a, b, c, d] := rfl
    simp only [newHint, readBigs, Circ.bind_run, readBig_run (hb _), Circ.pure_run, callHint, e]
    rcases hh with hh | hh <;> rw [hh] <;> rfl
  refine ⟨.mk "NewHint", ?_⟩
  simp only [CalcVerifyBN256Add, Circ.bind_run, hn]

-- (1, 2) + (1, 3), and (p + 1, 2) + (1, 2)
example (s : St) : (∃ p, CalcVerifyBN256Add exX (.big 1) (.big 2) (.big 1) (.big 3) (honestTest exX true) s = .error p) ∧
    ∃ p, CalcVerifyBN256Add exX (.big (pMod + 1)) (.big 2) (.big 1) (.big 2) (honestTest exX true) s = .error p :=
  ⟨C17_invalid exX (by decide +kernel) s, C17_invalid exX (by decide +kernel) s⟩

/-! ### C47 -/

theorem isConst_of_setInterface {v : Var} {a : Fp} (h : setInterface v = some a) : ∃ n : ℤ, IsConst v n := by
  cases v with
  | nil => cases h
  | int n => exact ⟨n, .int n⟩
  | big n => exact ⟨n, .big n⟩
  | wire w => cases h

theorem setInterface_nil_or {v : Var} (h : ∀ n, ¬ IsConst v n) : setInterface v = none := by
  cases hv : setInterface v with
  | none => rfl
  | some a => obtain ⟨n, hn⟩ := isConst_of_setInterface hv; exact absurd hn (h n)

/-- C47, arguments of every kind: what is accepted consists of constants only (no nil, no circuit variable), and an input that is
nil or a circuit variable makes the call return an error without any constraint. -/
theorem C47_constants (X : Ext) (E : Engine) (s : St) :
    (∀ c : BN254ScalarMulC, ((c.Define X).Accepted E s → ∀ v ∈ [c.point.1, c.point.2, c.scalar, c.res.1, c.res.2], ∃ n, IsConst v n) ∧
      ((∃ v ∈ [c.point.1, c.point.2, c.scalar], ∀ n, ¬ IsConst v n) → ∃ m, c.Define X E s = .ok (some m, s))) ∧
    (∀ c : BN254AddC, ((c.Define X).Accepted E s → ∀ v ∈ [c.point1.1, c.point1.2, c.point2.1, c.point2.2, c.expectedRes.1,
        c.expectedRes.2], ∃ n, IsConst v n) ∧
      ((∃ v ∈ [c.point1.1, c.point1.2, c.point2.1, c.point2.2], ∀ n, ¬ IsConst v n) → ∃ m, c.Define X E s = .ok (some m, s))) := by
  refine ⟨fun c => ⟨?_, ?_⟩, fun c => ⟨?_, ?_⟩⟩
  · rintro ⟨s', h1, -⟩
    obtain ⟨-, _, _, _, _, _, a1, a2, a3, a4, a5, -⟩ := vsm_ok h1
    simp only [List.forall_mem_cons, List.not_mem_nil, false_implies, implies_true, and_true]
    exact ⟨isConst_of_setInterface a1, isConst_of_setInterface a2, isConst_of_setInterface a3, isConst_of_setInterface a4,
      isConst_of_setInterface a5⟩
  · rintro ⟨v, hv, hn⟩
    have h0 := setInterface_nil_or hn
    unfold BN254ScalarMulC.Define VerifyBN254ScalarMul
    cases h1 : setInterface c.point.1 with
    | none => exact ⟨_, rfl⟩
    | some _ =>
    cases h2 : setInterface c.point.2 with
    | none => exact ⟨_, rfl⟩
    | some _ =>
    cases h3 : setInterface c.scalar with
    | none => exact ⟨_, rfl⟩
    | some _ =>
      simp only [List.mem_cons, List.not_mem_nil, or_false] at hv
      rcases hv with rfl | rfl | rfl <;> simp_all
  · rintro ⟨s', h1, -⟩
    obtain ⟨-, _, _, _, _, _, _, a1, a2, a3, a3', a4, a5, -⟩ := vadd_ok h1
    simp only [List.forall_mem_cons, List.not_mem_nil, false_implies, implies_true, and_true]
    exact ⟨isConst_of_setInterface a1, isConst_of_setInterface a2, isConst_of_setInterface a3, isConst_of_setInterface a3',
      isConst_of_setInterface a4, isConst_of_setInterface a5⟩
  · rintro ⟨v, hv, hn⟩
    have h0 := setInterface_nil_or hn
    unfold BN254AddC.Define VerifyBN254Add
    cases h1 : setInterface c.point1.1 with
    | none => exact ⟨_, rfl⟩
    | some _ =>
    cases h2 : setInterface c.point1.2 with
    | none => exact ⟨_, rfl⟩
    | some _ =>
    cases h3 : setInterface c.point2.1 with
    | none => exact ⟨_, rfl⟩
    | some _ =>
    cases h4 : setInterface c.point2.2 with
    | none => exact ⟨_, rfl⟩
    | some _ =>
      simp only [List.mem_cons, List.not_mem_nil, or_false] at hv
      rcases hv with rfl | rfl | rfl | rfl <;> simp_all

/-- C47, the remaining points and scalars: if P is the point at infinity or the scalar a multiple of r, where gnark gives no
guarantee, an accepted expected point still is the right one, infinity, if the gadget returns nothing wrong (`Strict`). -/
theorem C47_scalarMul_degenerate {X : Ext} (hX : X.Strict) {vx vy vk ve vf : Var} {x y k e f : ℤ} (hx : IsConst vx x)
    (hy : IsConst vy y) (hk : IsConst vk k) (he : IsConst ve e) (hf : IsConst vf f) {P : G1}
    (hP : enc P = ((x : Fp), (y : Fp))) (h0 : P = 0 ∨ (rMod : ℤ) ∣ k % pMod) {E : Engine} {s : St}
    (h : (BN254ScalarMulC.Define X ⟨(vx, vy), vk, (ve, vf)⟩).Accepted E s) : (pMod : ℤ) ∣ e ∧ (pMod : ℤ) ∣ f := by
  unfold BN254ScalarMulC.Define Circ.Accepted at h
  rw [vsm_accepts (point := (vx, vy)) (expected := (ve, vf)) hx.setInterface hy.setInterface hk.setInterface
    he.setInterface hf.setInterface] at h
  obtain ⟨-, -, h⟩ := h
  rw [← hP] at h
  have h1 := hX.scalarMul_deg _ _ _ h
  have h2 : ((((k : Fp)).val : ℕ) : Fr) • P = 0 := by
    rcases h0 with rfl | h0
    · rw [smul_zero]
    · have hkv : (((k : Fp)).val : ℤ) = k % pMod := ZMod.val_intCast _
      have hkf : ((((k : Fp)).val : ℕ) : Fr) = ((k % pMod : ℤ) : Fr) := by
        rw [← Int.cast_natCast (R := Fr), hkv]
      rw [hkf, (ZMod.intCast_zmod_eq_zero_iff_dvd _ _).2 h0]
      exact fr_smul_eq_zero.2 (.inl rfl)
  rw [h2, enc_zero, Prod.mk.injEq] at h1
  exact ⟨(ZMod.intCast_zmod_eq_zero_iff_dvd _ _).1 h1.1, (ZMod.intCast_zmod_eq_zero_iff_dvd _ _).1 h1.2⟩

-- a missing scalar; and 0·G is never accepted as G
example : (∃ m, BN254ScalarMulC.Define exX ⟨(.big 1, .big 2), .nil, (.big 1, .big 2)⟩ exComp .init = .ok (some m, .init)) ∧
    ¬ (BN254ScalarMulC.Define exX ⟨(.big 1, .big 2), .big 0, (.big 1, .big 2)⟩).Accepted exComp .init := by
  refine ⟨((C47_constants exX exComp .init).1 _).2 ⟨.nil, by simp, fun n h => by cases h⟩, fun h => ?_⟩
  have := (C47_scalarMul_degenerate (P := G1gen) exX_strict (.big 1) (.big 2) (.big 0) (.big 1) (.big 2) (by simp [G1gen])
    (.inr (by simp)) h).1
  exact absurd this (by decide +kernel)

end Verif
