/-
Properties C18–C22 and C44–C47: buffer operations, native circuits, range checks, field constants.
-/
import Verif.Props.Curve
import Verif.Props.Field

namespace Verif

/-! ### C18 -/

/-- C18, `ecc_mul`: slots o, o+1, o+2 hold constants x, y, k with (x, y) the residues of P. An accepted call replaces
slots o and o+1 by the encoding of k·P (k as used by the code, modulo p) and changes nothing else. -/
theorem C18_ecc_mul {X : Ext} (hX : X.Strict) {buf buf' : List Var} {o : ℕ} {vx vy vk : Var} {x y k : ℤ}
    (hx : buf[o]? = some vx) (hy : buf[o + 1]? = some vy) (hk : buf[o + 2]? = some vk)
    (cx : IsConst vx x) (cy : IsConst vy y) (ck : IsConst vk k) {P : G1} (hP : enc P = ((x : Fp), (y : Fp)))
    {E : Engine} {s : St} (h : (ecc_mul X buf o).Accepts E s (none, buf')) :
    ∃ n m : ℤ, 0 ≤ n ∧ n < rMod ∧ 0 ≤ m ∧ m < rMod ∧ enc ((k % pMod) • P) = ((n : Fp), (m : Fp)) ∧
      buf'.length = buf.length ∧ buf'[o]? = some (.big n) ∧ buf'[o + 1]? = some (.big m) ∧
      ∀ i, i ≠ o → i ≠ o + 1 → buf'[i]? = buf[i]? := by
  obtain ⟨s', h, hs⟩ := h
  obtain ⟨-, -, -, hl, wx, wy, wk, k1, k2, k3, px, py, kk, e1, e2, e3, n, m, n0, n1, m0, m1, hm, rfl⟩ := ecc_mul_ok h hs
  rw [hx] at k1; rw [hy] at k2; rw [hk] at k3
  cases k1; cases k2; cases k3
  rw [cx.setInterface] at e1; rw [cy.setInterface] at e2; rw [ck.setInterface] at e3
  cases e1; cases e2; cases e3
  rw [← hP] at hm
  refine ⟨n, m, n0, n1, m0, m1, ?_, by simp, ?_, ?_, fun i h1 h2 => ?_⟩
  · rw [hX.scalarMul_deg P _ _ hm, ← Int.cast_natCast (R := Fr), ZMod.val_intCast, Int.cast_smul_eq_zsmul]
  · rw [List.getElem?_set_ne (by omega), List.getElem?_set_self (by omega)]
  · rw [List.getElem?_set_self (by rw [List.length_set]; omega)]
  · rw [List.getElem?_set_ne (by omega), List.getElem?_set_ne (by omega)]

/-- C18, `ecc_mul_add`: slots o..o+4 hold constants encoding A, P and k. An accepted call replaces slots o, o+1 by the
encoding of A + k·P and slots o+2, o+3 by that of k·P, and changes nothing else. -/
theorem C18_ecc_mul_add {X : Ext} (hX : X.Strict) {buf buf' : List Var} {o : ℕ} {ux uy vx vy vk : Var}
    {a b x y k : ℤ} (ha : buf[o]? = some ux) (hb : buf[o + 1]? = some uy)
    (hx : buf[o + 2]? = some vx) (hy : buf[o + 3]? = some vy) (hk : buf[o + 4]? = some vk)
    (ca : IsConst ux a) (cb : IsConst uy b) (cx : IsConst vx x) (cy : IsConst vy y) (ck : IsConst vk k)
    {A P : G1} (hA : enc A = ((a : Fp), (b : Fp))) (hP : enc P = ((x : Fp), (y : Fp)))
    {E : Engine} {s : St} (h : (ecc_mul_add X buf o).Accepts E s (none, buf')) :
    ∃ n m n' m' : ℤ, (0 ≤ n ∧ n < rMod ∧ 0 ≤ m ∧ m < rMod) ∧ (0 ≤ n' ∧ n' < rMod ∧ 0 ≤ m' ∧ m' < rMod) ∧
      enc ((k % pMod) • P) = ((n : Fp), (m : Fp)) ∧ enc (A + (k % pMod) • P) = ((n' : Fp), (m' : Fp)) ∧
      buf'.length = buf.length ∧ buf'[o]? = some (.big n') ∧ buf'[o + 1]? = some (.big m') ∧
      buf'[o + 2]? = some (.big n) ∧ buf'[o + 3]? = some (.big m) ∧
      ∀ i, i ≠ o → i ≠ o + 1 → i ≠ o + 2 → i ≠ o + 3 → buf'[i]? = buf[i]? := by
  obtain ⟨s', h, hs⟩ := h
  obtain ⟨-, -, -, hl, wx, wy, wk, k1, k2, k3, px, py, kk, e1, e2, e3, n, m, n', m', n0, n1, m0, m1, n0', n1', m0', m1',
    hm, ham, rfl⟩ := ecc_mul_add_ok h hs ha hb ca.setInterface cb.setInterface
  rw [hx] at k1; rw [hy] at k2; rw [hk] at k3
  cases k1; cases k2; cases k3
  rw [cx.setInterface] at e1; rw [cy.setInterface] at e2; rw [ck.setInterface] at e3
  cases e1; cases e2; cases e3
  rw [← hP] at hm
  have h1 : enc ((k % pMod) • P) = ((n : Fp), (m : Fp)) := by
    rw [hX.scalarMul_deg P _ _ hm, ← Int.cast_natCast (R := Fr), ZMod.val_intCast, Int.cast_smul_eq_zsmul]
  rw [← hA, ← h1, hX.addUnified] at ham
  refine ⟨n, m, n', m', ⟨n0, n1, m0, m1⟩, ⟨n0', n1', m0', m1'⟩, h1, Option.some.inj ham, by simp, ?_, ?_, ?_, ?_,
    fun i h1 h2 h3 h4 => ?_⟩
  · rw [List.getElem?_set_ne (by omega), List.getElem?_set_self (by simp only [List.length_set]; omega)]
  · rw [List.getElem?_set_self (by simp only [List.length_set]; omega)]
  · rw [List.getElem?_set_ne (by omega), List.getElem?_set_ne (by omega), List.getElem?_set_ne (by omega),
      List.getElem?_set_self (by omega)]
  · rw [List.getElem?_set_ne (by omega), List.getElem?_set_ne (by omega),
      List.getElem?_set_self (by rw [List.length_set]; omega)]
  · simp only [List.getElem?_set_ne (Ne.symm h1), List.getElem?_set_ne (Ne.symm h2), List.getElem?_set_ne (Ne.symm h3),
      List.getElem?_set_ne (Ne.symm h4)]

/-- C18: an offset that does not fit panics. -/
theorem C18_ecc_mul_range (X : Ext) {buf : List Var} {o : ℕ} (h : buf.length ≤ o + 2) (E : Engine) (s : St) :
    ∃ p, ecc_mul X buf o E s = .error p := by
  cases hr : ecc_mul X buf o E s with
  | error p => exact ⟨p, rfl⟩
  | ok r =>
    exfalso
    simp only [ecc_mul] at hr
    obtain ⟨vx, s1, -, hr⟩ := Circ.bind_ok.1 hr
    obtain ⟨vy, s2, -, hr⟩ := Circ.bind_ok.1 hr
    obtain ⟨vk, s3, hk, hr⟩ := Circ.bind_ok.1 hr
    have := (List.getElem?_eq_some_iff.1 (idx_ok.1 hk).1).1
    omega

theorem C18_ecc_mul_add_range (X : Ext) {buf : List Var} {o : ℕ} (h : buf.length ≤ o + 4) (E : Engine) (s : St) :
    ∃ p, ecc_mul_add X buf o E s = .error p := by
  obtain ⟨p, hp⟩ := C18_ecc_mul_range X (buf := buf) (o := o + 2) (by omega) E s
  exact ⟨p, by simp only [ecc_mul_add, Circ.bind_run, hp]⟩

/-! ### C19 (false of the code) -/

/-- C19, what holds: `ecc_mul` returns the error of the multiplication. -/
theorem C19_ecc_mul_propagates (X : Ext) {buf : List Var} {o : ℕ} {vx vy vk : Var} (hx : buf[o]? = some vx)
    (hy : buf[o + 1]? = some vy) (hk : buf[o + 2]? = some vk) {E : Engine} {s s' : St} {res : Var × Var} {m : String}
    (h : CalcVerifyBN256Msm X vx vy vk E s = .ok ((res, some m), s')) :
    ecc_mul X buf o E s = .ok ((some m, buf), s') := by
  simp only [ecc_mul, Circ.bind_run, idx_run hx, idx_run hy, idx_run hk, h, Circ.pure_run]

/-- The strategy of a cheating prover: honest, except that additions are answered by (n, m). -/
noncomputable def cheatAdd (X : Ext) (n m : ℤ) : Engine :=
  ⟨.test, true, fun f k nOut ins => match f with
    | .addHint => .ok [n, m]
    | _ => honest X f k nOut ins⟩

theorem two_gen_lt : (enc (2 • G1gen)).1.val < rMod ∧ (enc (2 • G1gen)).2.val < rMod := by
  have e2 : encN (2 • G1gen) = (1368015179489954701390400359078579693043519447331113978918064868415326638035,
    9918110051302171585080402603319702774565515993150576347155970296011118125764) := by
    rw [← mulN_encN 2 G1gen (by norm_num), encN_gen]; decide +kernel
  have hx1 : (enc (2 • G1gen)).1.val = _ := congrArg Prod.fst e2
  have hx2 : (enc (2 • G1gen)).2.val = _ := congrArg Prod.snd e2
  rw [hx1, hx2]
  decide +kernel

/-- C19 is false: with an accumulator (u, v) held in a value that `SetInterface` rejects, and slots o+2.. holding
(1, 2), 2, the addition returns an error, but `ecc_mul_add` returns nil, accepts, and the accumulator becomes any
pair (n, m) of the prover's choice. -/
theorem C19_false {X : Ext} (hX : X.Lawful) (u v : Fr) (n m : ℤ) (hn : 0 ≤ n ∧ n < rMod) (hm : 0 ≤ m ∧ m < rMod) :
    (∃ buf', (ecc_mul_add X [.wire u, .wire v, .big 1, .big 2, .big 2] 0).Accepts (cheatAdd X n m) .init (none, buf') ∧
      buf'[0]? = some (.big n) ∧ buf'[1]? = some (.big m)) ∧
    ∀ c d s res e s', CalcVerifyBN256Add X (.wire u) (.wire v) (.big c) (.big d) (cheatAdd X n m) s =
      .ok ((res, e), s') → e ≠ none := by
  have hmod : HonestMod (cheatAdd X n m) := fun _ _ _ => rfl
  have hadd : ∀ c d s, CalcVerifyBN256Add X (.wire u) (.wire v) (.big c) (.big d) (cheatAdd X n m) s =
      .ok (((.big n, .big m), errSetInterface), s.addHints [.addHint, .modHint, .modHint]) := by
    intro c d s
    have := calcAdd_run (X := X) (E := cheatAdd X n m) (s := s) rfl hmod (x1 := .wire u) (y1 := .wire v) (x2 := .big c)
      (y2 := .big d) rfl rfl rfl rfl rfl
    rw [this]
    simp only [List.getD_cons_zero, List.getD_cons_succ, emod_self' hn.1 hn.2, emod_self' hm.1 hm.2,
      VerifyBN254Add, setInterface, Circ.pure_run]
  refine ⟨?_, fun c d s res e s' h => ?_⟩
  · have g1 : (enc G1gen).1.val = 1 := congrArg Prod.fst encN_gen
    have g2 : (enc G1gen).2.val = 2 := congrArg Prod.snd encN_gen
    obtain ⟨h1, h2⟩ := two_gen_lt
    have hrun := calcMsm_honest (X := X) hX (E := cheatAdd X n m) rfl hmod (fun _ _ _ => rfl) (P := G1gen) gen_ne_zero
      (k := 2) (by decide +kernel) (by decide +kernel) rfl rfl rfl h1 h2 .init
    rw [g1, g2] at hrun
    generalize (enc (2 • G1gen)).1.val = c, (enc (2 • G1gen)).2.val = d at hrun
    refine ⟨[.big n, .big m, .big c, .big d, .big 2],
      ⟨(St.init.addHints [.msmHint, .modHint, .modHint]).addHints [.addHint, .modHint, .modHint], ?_, rfl⟩, rfl, rfl⟩
    have hmul : ecc_mul X [.wire u, .wire v, .big 1, .big 2, .big 2] 2 (cheatAdd X n m) .init = .ok ((none,
        [.wire u, .wire v, .big c, .big d, .big 2]), St.init.addHints [.msmHint, .modHint, .modHint]) := by
      simp only [ecc_mul, Circ.bind_run, idx, List.getElem?_cons_succ, List.getElem?_cons_zero, Circ.pure_run]
      erw [hrun]
      rfl
    simp only [ecc_mul_add, Circ.bind_run, zero_add, hmul]
    simp only [Circ.bind_run, idx, List.getElem?_cons_succ, List.getElem?_cons_zero, Circ.pure_run]
    rw [hadd]
    rfl
  · rw [hadd] at h
    cases h
    simp [errSetInterface]

example : ∃ buf', (ecc_mul_add exX [.wire 3, .wire 4, .big 1, .big 2, .big 2] 0).Accepts (cheatAdd exX 77 88) .init
    (none, buf') ∧ buf'[0]? = some (.big 77) ∧ buf'[1]? = some (.big 88) :=
  (C19_false exX_strict.toLawful 3 4 77 88 (by decide +kernel) (by decide +kernel)).1

/-! ### C20 (false of the code), C21 -/

/-- Run `Define` of the same circuit value n times in a row. -/
def defineMsm (c : BN256MsmCircuit) : ℕ → Circ BN256MsmCircuit
  | 0 => pure c
  | n + 1 => do let c' ← defineMsm c n; let (_, c'') ← c'.Define; pure c''
def defineAdd (c : BN256AddCircuit) : ℕ → Circ BN256AddCircuit
  | 0 => pure c
  | n + 1 => do let c' ← defineAdd c n; let (_, c'') ← c'.Define; pure c''

/-- The comparison of `fp.Element`s by the native engine: equality of canonical integers modulo r. -/
def EqModR (a b : Aff) : Prop := a.1.val % rMod = b.1.val % rMod ∧ a.2.val % rMod = b.2.val % rMod

theorem emit_false_const (E : Engine) (s : St) : ∃ p, emit false false E s = .error p := by
  simp [emit]

theorem assertEq_fpVar (x y : Fp) (E : Engine) (s : St) :
    (x.val % rMod = y.val % rMod → apiAssertIsEqual (fpVar x) (fpVar y) E s = .ok ((), s)) ∧
    (x.val % rMod ≠ y.val % rMod → ∃ p, apiAssertIsEqual (fpVar x) (fpVar y) E s = .error p) := by
  have h := assertEq_run (E := E) (a := fpVar x) (b := fpVar y) rfl rfl s
  have hb : (((x.val : ℤ) % rMod) == ((y.val : ℤ) % rMod)) = decide (x.val % rMod = y.val % rMod) := by
    rw [Bool.eq_iff_iff, beq_iff_eq, decide_eq_true_eq]
    exact_mod_cast Iff.rfl
  rw [hb] at h
  constructor
  · intro h1
    rw [h, decide_eq_true h1]; rfl
  · intro h1
    rw [h, decide_eq_false h1]
    exact emit_false_const _ _

/-- C21: `VerifyBN256Msm` on a point P, integer k and claimed coordinates `res` returns nil iff both coordinates of
k·P agree with `res` modulo r; otherwise it panics. Either way the caller's point would become k·P. -/
theorem C21_msm (P : G1) (k : ℤ) (res : Aff) (E : Engine) (s : St) :
    (EqModR (enc (k • P)) res → VerifyBN256Msm P k res E s = .ok ((none, k • P), s)) ∧
    (¬ EqModR (enc (k • P)) res → ∃ p, VerifyBN256Msm P k res E s = .error p) := by
  have a1 := assertEq_fpVar (enc (k • P)).1 res.1 E s
  have a2 := assertEq_fpVar (enc (k • P)).2 res.2 E s
  constructor
  · rintro ⟨h1, h2⟩
    simp only [VerifyBN256Msm, Circ.bind_run, a1.1 h1, a2.1 h2, Circ.pure_run]
  · intro h
    by_cases h1 : (enc (k • P)).1.val % rMod = res.1.val % rMod
    · obtain ⟨p, hp⟩ := a2.2 (fun h2 => h ⟨h1, h2⟩)
      exact ⟨p, by simp only [VerifyBN256Msm, Circ.bind_run, a1.1 h1, hp]⟩
    · obtain ⟨p, hp⟩ := a1.2 h1
      exact ⟨p, by simp only [VerifyBN256Msm, Circ.bind_run, hp]⟩

/-- C21 for the addition. -/
theorem C21_add (P Q : G1) (res : Aff) (E : Engine) (s : St) :
    (EqModR (enc (P + Q)) res → VerifyBN256Add P Q res E s = .ok ((none, P + Q), s)) ∧
    (¬ EqModR (enc (P + Q)) res → ∃ p, VerifyBN256Add P Q res E s = .error p) := by
  have a1 := assertEq_fpVar (enc (P + Q)).1 res.1 E s
  have a2 := assertEq_fpVar (enc (P + Q)).2 res.2 E s
  constructor
  · rintro ⟨h1, h2⟩
    simp only [VerifyBN256Add, Circ.bind_run, a1.1 h1, a2.1 h2, Circ.pure_run]
  · intro h
    by_cases h1 : (enc (P + Q)).1.val % rMod = res.1.val % rMod
    · obtain ⟨p, hp⟩ := a2.2 (fun h2 => h ⟨h1, h2⟩)
      exact ⟨p, by simp only [VerifyBN256Add, Circ.bind_run, a1.1 h1, hp]⟩
    · obtain ⟨p, hp⟩ := a1.2 h1
      exact ⟨p, by simp only [VerifyBN256Add, Circ.bind_run, hp]⟩

/-- C21: the comparison identifies exactly x and x + r, for every x < p - r. -/
theorem C21_identified (x : ℕ) (hx : x < pMod - rMod) :
    ((x : ℕ) : Fp) ≠ ((x + rMod : ℕ) : Fp) ∧
    ((x : ℕ) : Fp).val % rMod = ((x + rMod : ℕ) : Fp).val % rMod := by
  have hr := rMod_lt_pMod
  have h1 : x < pMod := by omega
  have h2 : x + rMod < pMod := by omega
  constructor
  · intro h
    have := congrArg ZMod.val h
    rw [ZMod.val_natCast_of_lt h1, ZMod.val_natCast_of_lt h2] at this
    have := rMod_pos
    omega
  · rw [ZMod.val_natCast_of_lt h1, ZMod.val_natCast_of_lt h2, Nat.add_mod_right]

/-- C21 is a strictly weaker check than equality of points: the point 2·H with x-coordinate r + 2 is also accepted
with the wrong coordinates (2, y). -/
theorem C21_weaker (E : Engine) (s : St) : ∃ (P : G1) (k : ℤ) (res : Aff), enc (k • P) ≠ res ∧
    VerifyBN256Msm P k res E s = .ok ((none, k • P), s) := by
  refine ⟨halfPt, 2, ((2 : ℕ), (enc bigPt).2), ?_, (C21_msm _ _ _ E s).1 ?_⟩
  · rw [show (2 : ℤ) • halfPt = 2 • halfPt from ofNat_zsmul _ _, two_halfPt]
    decide +kernel
  · rw [show (2 : ℤ) • halfPt = 2 • halfPt from ofNat_zsmul _ _, two_halfPt]
    exact ⟨by decide +kernel, rfl⟩

/-- C20: after n calls of `Define` that return, the stored point is k^n·P; scalar and claimed result are unchanged. -/
theorem C20_msm_point {c c' : BN256MsmCircuit} {n : ℕ} {E : Engine} {s s' : St}
    (h : defineMsm c n E s = .ok (c', s')) :
    c'.g1Point = c.scalar ^ n • c.g1Point ∧ c'.scalar = c.scalar ∧ c'.res = c.res := by
  induction n generalizing c' s' with
  | zero => cases h; simp
  | succ n ih =>
    simp only [defineMsm, Circ.bind_ok, BN256MsmCircuit.Define] at h
    obtain ⟨c1, s1, h1, ⟨e, c2⟩, s2, ⟨⟨e', g⟩, s3, h2, h3⟩, h4⟩ := h
    cases h3; cases h4
    obtain ⟨i1, i2, i3⟩ := ih h1
    have hg : g = c1.scalar • c1.g1Point := by
      by_cases hc : EqModR (enc (c1.scalar • c1.g1Point)) c1.res
      · rw [(C21_msm _ _ _ E s1).1 hc] at h2; cases h2; rfl
      · obtain ⟨p, hp⟩ := (C21_msm _ _ _ E s1).2 hc
        rw [hp] at h2; cases h2
    refine ⟨?_, i2, i3⟩
    show g = _
    rw [hg, i1, i2, pow_succ, mul_comm, mul_zsmul]

/-- C20: for the addition circuit, after n calls the stored first point is P + n·Q. -/
theorem C20_add_point {c c' : BN256AddCircuit} {n : ℕ} {E : Engine} {s s' : St}
    (h : defineAdd c n E s = .ok (c', s')) :
    c'.g10Point = c.g10Point + n • c.g11Point ∧ c'.g11Point = c.g11Point ∧ c'.res = c.res := by
  induction n generalizing c' s' with
  | zero => cases h; simp
  | succ n ih =>
    simp only [defineAdd, Circ.bind_ok, BN256AddCircuit.Define] at h
    obtain ⟨c1, s1, h1, ⟨e, c2⟩, s2, ⟨⟨e', g⟩, s3, h2, h3⟩, h4⟩ := h
    cases h3; cases h4
    obtain ⟨i1, i2, i3⟩ := ih h1
    have hg : g = c1.g10Point + c1.g11Point := by
      by_cases hc : EqModR (enc (c1.g10Point + c1.g11Point)) c1.res
      · rw [(C21_add _ _ _ E s1).1 hc] at h2; cases h2; rfl
      · obtain ⟨p, hp⟩ := (C21_add _ _ _ E s1).2 hc
        rw [hp] at h2; cases h2
    refine ⟨?_, i2, i3⟩
    show g = _
    rw [hg, i1, i2, succ_nsmul, add_assoc]

/-- C20: the n-th call (n ≥ 1) after n-1 calls that returned checks k^n·P against the claimed result. -/
theorem C20_msm_nth {c c' : BN256MsmCircuit} {n : ℕ} {E : Engine} {s s' : St}
    (h : defineMsm c n E s = .ok (c', s')) :
    (∃ r, c'.Define E s' = .ok r) ↔ EqModR (enc (c.scalar ^ (n + 1) • c.g1Point)) c.res := by
  obtain ⟨h1, h2, h3⟩ := C20_msm_point h
  have he : c.scalar ^ (n + 1) • c.g1Point = c'.scalar • c'.g1Point := by
    rw [h1, h2, pow_succ, mul_comm, mul_zsmul]
  rw [he, ← h3]
  constructor
  · rintro ⟨r, hr⟩
    by_contra hc
    obtain ⟨p, hp⟩ := (C21_msm _ _ _ E s').2 hc
    simp only [BN256MsmCircuit.Define, Circ.bind_run, hp] at hr
    cases hr
  · intro hc
    simp only [BN256MsmCircuit.Define, Circ.bind_run, (C21_msm _ _ _ E s').1 hc, Circ.pure_run]
    exact ⟨_, rfl⟩

theorem C20_add_nth {c c' : BN256AddCircuit} {n : ℕ} {E : Engine} {s s' : St}
    (h : defineAdd c n E s = .ok (c', s')) :
    (∃ r, c'.Define E s' = .ok r) ↔ EqModR (enc (c.g10Point + (n + 1) • c.g11Point)) c.res := by
  obtain ⟨h1, h2, h3⟩ := C20_add_point h
  have he : c.g10Point + (n + 1) • c.g11Point = c'.g10Point + c'.g11Point := by
    rw [h1, h2, succ_nsmul, add_assoc]
  rw [he, ← h3]
  constructor
  · rintro ⟨r, hr⟩
    by_contra hc
    obtain ⟨p, hp⟩ := (C21_add _ _ _ E s').2 hc
    simp only [BN256AddCircuit.Define, Circ.bind_run, hp] at hr
    cases hr
  · intro hc
    simp only [BN256AddCircuit.Define, Circ.bind_run, (C21_add _ _ _ E s').1 hc, Circ.pure_run]
    exact ⟨_, rfl⟩

/-- C20 is false: the correct circuit 2·G = R is accepted by the first `Define` and panics in the second. -/
theorem C20_false (E : Engine) (s : St) : ∃ c : BN256MsmCircuit, enc (c.scalar • c.g1Point) = c.res ∧
    ∃ c', c.Define E s = .ok ((none, c'), s) ∧ ∃ p, c'.Define E s = .error p := by
  have e2 : (2 : ℤ) • G1gen = 2 • G1gen := ofNat_zsmul _ _
  refine ⟨⟨G1gen, 2, enc ((2 : ℤ) • G1gen)⟩, rfl, ⟨(2 : ℤ) • G1gen, 2, enc ((2 : ℤ) • G1gen)⟩, ?_, ?_⟩
  · simp only [BN256MsmCircuit.Define, Circ.bind_run, (C21_msm G1gen 2 _ E s).1 ⟨rfl, rfl⟩, Circ.pure_run]
  · obtain ⟨p, hp⟩ := (C21_msm ((2 : ℤ) • G1gen) 2 (enc ((2 : ℤ) • G1gen)) E s).2 (by
      have e4 : (2 : ℤ) • (2 : ℤ) • G1gen = 4 • G1gen := by
        rw [← mul_zsmul]; exact ofNat_zsmul _ 4
      rw [e4, e2]
      have n2 : encN (2 • G1gen) = (1368015179489954701390400359078579693043519447331113978918064868415326638035,
        9918110051302171585080402603319702774565515993150576347155970296011118125764) := by
        rw [← mulN_encN 2 G1gen (by norm_num), encN_gen]; decide +kernel
      have n4 : encN (4 • G1gen) = mulN 4 (1, 2) := by
        rw [← mulN_encN 4 G1gen (by norm_num), encN_gen]
      rintro ⟨h, -⟩
      have k2 : (enc (2 • G1gen)).1.val = _ := congrArg Prod.fst n2
      have k4 : (enc (4 • G1gen)).1.val = _ := congrArg Prod.fst n4
      rw [k2, k4] at h
      revert h
      decide +kernel)
    exact ⟨p, by simp only [BN256MsmCircuit.Define, Circ.bind_run, hp]⟩

-- P = O is a fixed point, so any number of calls returns
example (n : ℕ) (E : Engine) (s : St) : ∃ c', defineMsm ⟨0, 7, (0, 0)⟩ n E s = .ok (c', s) ∧ c'.g1Point = 0 := by
  have z : ∀ k : ℤ, k • (0 : G1) = 0 := fun k => zsmul_zero k
  induction n with
  | zero => exact ⟨_, rfl, rfl⟩
  | succ n ih =>
    obtain ⟨c', h, h0⟩ := ih
    obtain ⟨h1, h2, h3⟩ := C20_msm_point h
    refine ⟨{ c' with g1Point := c'.scalar • c'.g1Point }, ?_, by rw [h0]; exact z _⟩
    simp only [defineMsm, Circ.bind_run, h, BN256MsmCircuit.Define,
      (C21_msm c'.g1Point c'.scalar c'.res E s).1 (by rw [h0, h3, z]; simp [EqModR]), Circ.pure_run]

/-! ### C22, C45 -/

/-- C22: in every engine, on a canonical value or a wire, `VerifyNotZero` is accepted iff the value is not zero. -/
theorem C22_notZero {E : Engine} {x : Var} (hx : x.Good) {s : St} (hs : s.sat = true) :
    (VerifyNotZero x).Accepted E s ↔ x.fr ≠ 0 := by
  have h := lessEq_run (E := E) (v := .int 1) (b := x) trivial hx s
  have e : (decide ((Var.int 1).fr.val ≤ x.fr.val)) = decide (x.fr ≠ 0) := by
    rw [decide_eq_decide]
    have h1 : (Var.int 1).fr.val = 1 := by decide +kernel
    rw [h1, Nat.one_le_iff_ne_zero, ne_eq, ZMod.val_eq_zero]
  rw [e] at h
  constructor
  · rintro ⟨s', h1, h2⟩
    simp only [VerifyNotZero, Circ.bind_ok] at h1
    obtain ⟨u, s1, h3, h4⟩ := h1
    cases h4
    rw [h] at h3
    exact of_decide_eq_true ((emit_ok h3).2.1 h2).2
  · intro h0
    refine ⟨s, ?_, hs⟩
    simp only [VerifyNotZero, Circ.bind_run, h, decide_eq_true h0, emit_true, Circ.pure_run]

/-- C22: in every engine, on canonical values or wires, `VerifyRangeCheck` is accepted iff the canonical integer of x
lies between those of Min and Max. -/
theorem C22_range {E : Engine} {x min max : Var} (hx : x.Good) (hmin : min.Good) (hmax : max.Good) {s : St}
    (hs : s.sat = true) :
    (VerifyRangeCheck x min max).Accepted E s ↔ min.fr.val ≤ x.fr.val ∧ x.fr.val ≤ max.fr.val := by
  have l1 := fun s => lessEq_run (E := E) (v := min) (b := x) hmin hx s
  have l2 := fun s => lessEq_run (E := E) (v := x) (b := max) hx hmax s
  constructor
  · rintro ⟨s', h1, h2⟩
    simp only [VerifyRangeCheck, Circ.bind_ok] at h1
    obtain ⟨u, s1, h3, u', s2, h4, h5⟩ := h1
    cases h5
    rw [l1] at h3; rw [l2] at h4
    obtain ⟨q1, q2⟩ := (emit_ok h4).2.1 h2
    obtain ⟨-, q3⟩ := (emit_ok h3).2.1 q1
    exact ⟨of_decide_eq_true q3, of_decide_eq_true q2⟩
  · rintro ⟨h1, h2⟩
    refine ⟨s, ?_, hs⟩
    simp only [VerifyRangeCheck, Circ.bind_run, l1, l2, decide_eq_true h1, decide_eq_true h2, emit_true, Circ.pure_run]

/-- C22: an empty interval accepts nothing. -/
theorem C22_empty {E : Engine} {x min max : Var} (hx : x.Good) (hmin : min.Good) (hmax : max.Good) {s : St}
    (hs : s.sat = true) (h : max.fr.val < min.fr.val) : ¬ (VerifyRangeCheck x min max).Accepted E s := by
  rw [C22_range hx hmin hmax hs]; omega

example : (VerifyRangeCheck (.wire 20) (.int 18) (.big 65)).Accepted exComp .init :=
  (C22_range (x := .wire 20) (min := .int 18) (max := .big 65) trivial trivial ⟨by norm_num, by decide +kernel⟩ rfl).2 (by decide +kernel)
example : ¬ (VerifyRangeCheck (.wire 17) (.int 18) (.big 65)).Accepted exComp .init := by
  rw [C22_range (x := .wire 17) (min := .int 18) (max := .big 65) trivial trivial ⟨by norm_num, by decide +kernel⟩ rfl]; decide +kernel
-- no wrap-around: -1 is the largest canonical value
example : ¬ (VerifyRangeCheck (.wire (-1)) (.int 0) (.int 65)).Accepted exComp .init := by
  rw [C22_range (x := .wire (-1)) (min := .int 0) (max := .int 65) trivial trivial trivial rfl]; decide +kernel
example : (VerifyNotZero (.big 3)).Accepted exTest .init :=
  (C22_notZero (x := .big 3) ⟨by norm_num, by decide +kernel⟩ rfl).2 (by decide +kernel)

theorem lessEq_toBig {E : Engine} {v b : Var} {x y : ℤ} (hv : toBig E v = some x) (hb : toBig E b = some y) (s : St) :
    apiAssertIsLessOrEqual v b E s = if y < 0 then .error (.mk "bound must be positive") else emit (v.isWire || b.isWire) (decide (x ≤ y)) E s := by
  simp only [apiAssertIsLessOrEqual, Circ.bind_run, readBig_run hb]
  by_cases h : y < 0
  · rw [if_pos h, if_pos h]; rfl
  · rw [if_neg h, if_neg h]
    simp only [Circ.bind_run, readBig_run hv]

theorem emit_ok_sat {w c : Bool} {E : Engine} {s s' : St} {u : Unit} (h : emit w c E s = .ok (u, s')) (hs : s'.sat = true) : c = true ∧ s' = s := by
  unfold emit at h
  cases c with
  | true => cases h; exact ⟨rfl, rfl⟩
  | false =>
    simp only [Bool.false_eq_true, if_false] at h
    split at h
    · cases h; cases hs
    · cases h

/-- C22 on the integers that the engine works with, for variables of every kind: `VerifyNotZero` asks for an integer of at least 1. -/
theorem C22_notZero_int {E : Engine} {v : Var} {n : ℤ} (hv : toBig E v = some n) {s : St} (hs : s.sat = true) :
    (VerifyNotZero v).Accepted E s ↔ 1 ≤ n := by
  have h1 : toBig E (.int 1) = some 1 := by simp only [toBig]; decide +kernel
  constructor
  · rintro ⟨s', h, h'⟩
    simp only [VerifyNotZero] at h
    obtain ⟨u, s1, h2, h3⟩ := Circ.bind_ok.1 h
    cases h3
    rw [lessEq_toBig h1 hv] at h2
    split at h2
    · cases h2
    · exact of_decide_eq_true (emit_ok_sat h2 h').1
  · intro h
    refine ⟨s, Circ.bind_ok.2 ⟨(), s, ?_, rfl⟩, hs⟩
    rw [lessEq_toBig h1 hv, if_neg (by omega), decide_eq_true h]
    rfl

/-- C22, the same for `VerifyRangeCheck`: a non-negative integer between the two others. -/
theorem C22_range_int {E : Engine} {v min max : Var} {n a b : ℤ} (hv : toBig E v = some n) (ha : toBig E min = some a)
    (hb : toBig E max = some b) {s : St} (hs : s.sat = true) :
    (VerifyRangeCheck v min max).Accepted E s ↔ 0 ≤ n ∧ a ≤ n ∧ n ≤ b := by
  constructor
  · rintro ⟨s', h, h'⟩
    simp only [VerifyRangeCheck] at h
    obtain ⟨u, s1, h2, h3⟩ := Circ.bind_ok.1 h
    obtain ⟨u', s2, h4, h5⟩ := Circ.bind_ok.1 h3
    cases h5
    rw [lessEq_toBig hv hb] at h4
    rw [lessEq_toBig ha hv] at h2
    split at h4
    · cases h4
    · obtain ⟨e1, rfl⟩ := emit_ok_sat h4 h'
      split at h2
      · cases h2
      · obtain ⟨e2, -⟩ := emit_ok_sat h2 h'
        exact ⟨by omega, of_decide_eq_true e2, of_decide_eq_true e1⟩
  · rintro ⟨h0, h1, h2⟩
    refine ⟨s, Circ.bind_ok.2 ⟨(), s, ?_, Circ.bind_ok.2 ⟨(), s, ?_, rfl⟩⟩, hs⟩
    · rw [lessEq_toBig ha hv, if_neg (by omega), decide_eq_true h1]; rfl
    · rw [lessEq_toBig hv hb, if_neg (by omega), decide_eq_true h2]; rfl

/-- C22 is false of integers outside [0, r) in the test engine that does not reduce them: r, which is zero in the field, passes
`VerifyNotZero`, −1, which is not, does not; and r + 20, which is 20 in the field, fails the range check for [18, 65]. -/
theorem C22_noncanonical_false {E : Engine} (hE : E.mode = .test) (hr : E.raw = true) {s : St} (hs : s.sat = true) :
    ((VerifyNotZero (.big rMod)).Accepted E s ∧ (Var.big rMod).fr = 0) ∧
    (¬ (VerifyNotZero (.big (-1))).Accepted E s ∧ (Var.big (-1)).fr ≠ 0) ∧
    (¬ (VerifyRangeCheck (.big (rMod + 20)) (.big 18) (.big 65)).Accepted E s ∧ (Var.big (rMod + 20)).fr = 20) := by
  have h : ∀ n : ℤ, toBig E (.big n) = some n := fun n => by simp only [toBig, hE, hr, and_self, if_true]
  rw [C22_notZero_int (h _) hs, C22_notZero_int (h _) hs, C22_range_int (h _) (h _) (h _) hs]
  refine ⟨⟨by decide +kernel, by decide +kernel⟩, ⟨by norm_num, by decide +kernel⟩, ⟨by decide +kernel, by decide +kernel⟩⟩

/-- C22 holds on all values, canonical or not, in every engine that reduces: compiled, or test without raw integers. -/
theorem C22_reduced {E : Engine} (hE : E.mode = .compile ∨ E.raw = false) {x min max : Var} (hx : x.IsVal) (hmin : min.IsVal)
    (hmax : max.IsVal) {s : St} (hs : s.sat = true) :
    ((VerifyNotZero x).Accepted E s ↔ x.fr ≠ 0) ∧
    ((VerifyRangeCheck x min max).Accepted E s ↔ min.fr.val ≤ x.fr.val ∧ x.fr.val ≤ max.fr.val) := by
  have h : ∀ v : Var, v.IsVal → toBig E v = some (v.fr.val : ℤ) := by
    intro v hv
    have hn : ∀ n : ℤ, n % rMod = (((n : Fr).val : ℕ) : ℤ) := fun n => (ZMod.val_intCast n).symm
    cases v with
    | nil => exact hv.elim
    | int n => exact congrArg some (hn n)
    | wire w => rfl
    | big n =>
      have h1 : ¬ (E.mode = .test ∧ E.raw = true) := by
        rintro ⟨h1, h2⟩
        rcases hE with h | h
        · rw [h] at h1; cases h1
        · rw [h] at h2; cases h2
      simp only [toBig, if_neg h1]
      exact congrArg some (hn n)
  rw [C22_notZero_int (h _ hx) hs, C22_range_int (h _ hx) (h _ hmin) (h _ hmax) hs]
  constructor
  · rw [ne_eq, ← ZMod.val_eq_zero]; omega
  · omega

theorem lessEq_nil {E : Engine} {v b : Var} (h : v = .nil ∨ b = .nil) (s : St) : ∃ p, apiAssertIsLessOrEqual v b E s = .error p := by
  cases hr : apiAssertIsLessOrEqual v b E s with
  | error p => exact ⟨p, rfl⟩
  | ok r =>
    exfalso
    simp only [apiAssertIsLessOrEqual] at hr
    obtain ⟨y, s1, h1, h2⟩ := Circ.bind_ok.1 hr
    rcases h with rfl | rfl
    · by_cases hy : y < 0
      · rw [if_pos hy] at h2; cases h2
      · rw [if_neg hy] at h2
        cases h2
    · cases h1

/-- C22: a nil interface among the arguments panics, in every engine. -/
theorem C22_nil (E : Engine) (s : St) : (∃ p, VerifyNotZero .nil E s = .error p) ∧
    ∀ x min max : Var, x = .nil ∨ min = .nil ∨ max = .nil → ∃ p, VerifyRangeCheck x min max E s = .error p := by
  constructor
  · obtain ⟨p, h⟩ := lessEq_nil (E := E) (v := .int 1) (b := .nil) (.inr rfl) s
    exact ⟨p, by simp only [VerifyNotZero, Circ.bind_run, h]⟩
  · intro x min max h
    cases hr : VerifyRangeCheck x min max E s with
    | error p => exact ⟨p, rfl⟩
    | ok r =>
      exfalso
      simp only [VerifyRangeCheck] at hr
      obtain ⟨u, s1, h1, h2⟩ := Circ.bind_ok.1 hr
      obtain ⟨u', s2, h3, -⟩ := Circ.bind_ok.1 h2
      rcases h with h | h | h
      · obtain ⟨p, hp⟩ := lessEq_nil (E := E) (v := min) (b := x) (.inr h) s
        rw [hp] at h1; cases h1
      · obtain ⟨p, hp⟩ := lessEq_nil (E := E) (v := min) (b := x) (.inl h) s
        rw [hp] at h1; cases h1
      · obtain ⟨p, hp⟩ := lessEq_nil (E := E) (v := x) (b := max) (.inr h) s1
        rw [hp] at h3; cases h3

-- the hypotheses are met: r + 20 is in [18, 65] for the compiler
example : (VerifyRangeCheck (.big (rMod + 20)) (.int 18) (.wire 65)).Accepted exComp .init :=
  (C22_reduced (x := .big (rMod + 20)) (min := .int 18) (max := .wire 65) (.inl rfl) trivial trivial trivial rfl).2.2 (by decide +kernel)
example : ¬ (VerifyNotZero (.big rMod)).Accepted exComp .init := by
  rw [(C22_reduced (x := .big rMod) (min := .int 0) (max := .int 0) (.inl rfl) trivial trivial trivial rfl).1]; decide +kernel
example : (VerifyNotZero (.big rMod)).Accepted exTest .init := (C22_noncanonical_false rfl rfl rfl).1.1

/-- The four tests of /repo/circuit.go:97-112 in sequence. -/
def fourTests (a b c d : Var) : Circ GoErr := do
  let _ ← VerifyNotZero a
  let _ ← VerifyNotZero b
  let _ ← VerifyNotZero c
  VerifyNotZero d

theorem notZero_run {E : Engine} {x : Var} (hx : x.Good) (s : St) :
    VerifyNotZero x E s = match emit x.isWire (decide (x.fr ≠ 0)) E s with
      | .ok (_, s') => .ok (none, s')
      | .error p => .error p := by
  have h := lessEq_run (E := E) (v := .int 1) (b := x) trivial hx s
  have e : (decide ((Var.int 1).fr.val ≤ x.fr.val)) = decide (x.fr ≠ 0) := by
    rw [decide_eq_decide]
    have h1 : (Var.int 1).fr.val = 1 := by decide +kernel
    rw [h1, Nat.one_le_iff_ne_zero, ne_eq, ZMod.val_eq_zero]
  rw [e] at h
  have hw : ((Var.int 1).isWire || x.isWire) = x.isWire := rfl
  rw [hw] at h
  simp only [VerifyNotZero, Circ.bind_run, h]
  generalize emit x.isWire (decide (x.fr ≠ 0)) E s = r
  cases r <;> rfl

/-- C45: no point of the curve has a zero coordinate. -/
theorem C45_no_zero_coordinate (P : G1) : (P ≠ 0 → (enc P).1 ≠ 0 ∧ (enc P).2 ≠ 0) ∧
    (P = 0 → (enc P).1 = 0 ∧ (enc P).2 = 0) := by
  constructor
  · intro h
    obtain ⟨x, y, hxy, rfl⟩ := exists_of_ne_zero h
    exact ⟨hxy.x_ne, hxy.y_ne⟩
  · rintro rfl; simp

/-- C45: moreover no point of the curve has a coordinate equal to r (the other integer in [0, p) that is zero
modulo r). -/
theorem C45_no_r_coordinate (P : G1) : (enc P).1.val ≠ rMod ∧ (enc P).2.val ≠ rMod := by
  rcases G1.cases P with rfl | ⟨x, y, h, rfl⟩
  · simp [rMod_pos.ne]
  · rw [enc_mkPt]
    refine ⟨fun hx => ?_, fun hy => ?_⟩
    · have hx' : x = ((rMod : ℕ) : Fp) := by rw [← hx, ZMod.natCast_zmod_val]
      have h1 : y ^ (pMod - 1) = 1 := ZMod.pow_card_sub_one_eq_one h.y_ne
      have h2 : pMod - 1 = 2 * ((pMod - 1) / 2) := by decide +kernel
      unfold OnCurve at h
      rw [h2, pow_mul, h, hx'] at h1
      have h3 := powMod_cast pMod (rMod ^ 3 + 3) ((pMod - 1) / 2) (by decide +kernel)
      have h5 : ((rMod ^ 3 + 3 : ℕ) : ZMod pMod) = ((rMod : ℕ) : Fp) ^ 3 + 3 := by push_cast; rfl
      rw [h5, h1] at h3
      have h4 := (ZMod.natCast_eq_natCast_iff' (powMod pMod (rMod ^ 3 + 3) ((pMod - 1) / 2)) 1 pMod).1
        (h3.trans Nat.cast_one.symm)
      exact absurd h4 (by decide +kernel)
    · have hy' : y = ((rMod : ℕ) : Fp) := by rw [← hy, ZMod.natCast_zmod_val]
      have h1 : x ^ (pMod - 1) = 1 := ZMod.pow_card_sub_one_eq_one h.x_ne
      have h2 : pMod - 1 = 3 * ((pMod - 1) / 3) := by decide +kernel
      have hc : x ^ 3 = ((rMod : ℕ) : Fp) ^ 2 - 3 := by
        rw [← hy']; unfold OnCurve at h; linear_combination -h
      rw [h2, pow_mul, hc] at h1
      have h3 := powMod_cast pMod (rMod ^ 2 - 3) ((pMod - 1) / 3) (by decide +kernel)
      have h5 : ((rMod ^ 2 - 3 : ℕ) : ZMod pMod) = ((rMod : ℕ) : Fp) ^ 2 - 3 := by
        rw [Nat.cast_sub (by decide +kernel)]; push_cast; rfl
      rw [h5, h1] at h3
      have h4 := (ZMod.natCast_eq_natCast_iff' (powMod pMod (rMod ^ 2 - 3) ((pMod - 1) / 3)) 1 pMod).1
        (h3.trans Nat.cast_one.symm)
      exact absurd h4 (by decide +kernel)

theorem notZero_coord (x : Fp) (hx : x.val ≠ rMod) (E : Engine) (s : St) :
    VerifyNotZero (.big x.val) E s = if x ≠ 0 then .ok (none, s) else .error (.mk "assertion failed") := by
  have hlt := ZMod.val_lt x
  have key : ∃ b : ℤ, toBig E (.big x.val) = some b ∧ 0 ≤ b ∧ (1 ≤ b ↔ x ≠ 0) := by
    have h0 : x ≠ 0 ↔ x.val ≠ 0 := (ZMod.val_eq_zero x).not.symm
    have hp : pMod < 2 * rMod := by decide +kernel
    simp only [toBig]
    split_ifs
    · exact ⟨_, rfl, by positivity, by rw [h0]; omega⟩
    · refine ⟨_, rfl, Int.emod_nonneg _ (by exact_mod_cast rMod_pos.ne'), ?_⟩
      rw [h0]
      have h1 : ((x.val : ℤ) % (rMod : ℤ)) = ((x.val % rMod : ℕ) : ℤ) := by push_cast; rfl
      rw [h1]
      have : x.val % rMod = 0 ↔ x.val = 0 := by
        constructor
        · intro h
          obtain ⟨c, hc⟩ := Nat.dvd_of_mod_eq_zero h
          have : c < 2 := by
            by_contra h2
            have : rMod * 2 ≤ rMod * c := Nat.mul_le_mul_left _ (by omega)
            omega
          interval_cases c
          · simpa using hc
          · exact absurd (by simpa using hc) hx
        · intro h; rw [h, Nat.zero_mod]
      omega
  obtain ⟨b, hb, hb0, hb1⟩ := key
  have h1 : toBig E (.int 1) = some 1 := by
    simp only [toBig]; rfl
  have hl : apiAssertIsLessOrEqual (.int 1) (.big x.val) E s = emit false (decide (1 ≤ b)) E s := by
    simp only [apiAssertIsLessOrEqual, Circ.bind_run, readBig_run hb]
    rw [if_neg (by omega)]
    simp only [Circ.bind_run, readBig_run h1]
    rfl
  simp only [VerifyNotZero, Circ.bind_run, hl]
  by_cases h : x = 0
  · rw [if_neg (by simpa using h), decide_eq_false (by rw [hb1]; simpa using h)]
    simp [emit]
  · rw [if_pos h, decide_eq_true (hb1.2 h)]; rfl

/-- C45: on encodings of any two curve points, the four non-zero tests are accepted iff neither point is the point at
infinity. -/
theorem C45_tests {E : Engine} {P Q : G1} {s : St} (hs : s.sat = true) :
    (fourTests (.big (enc P).1.val) (.big (enc P).2.val) (.big (enc Q).1.val) (.big (enc Q).2.val)).Accepted E s ↔
      P ≠ 0 ∧ Q ≠ 0 := by
  have t1 := notZero_coord _ (C45_no_r_coordinate P).1 E s
  have t2 := notZero_coord _ (C45_no_r_coordinate P).2 E s
  have t3 := notZero_coord _ (C45_no_r_coordinate Q).1 E s
  have t4 := notZero_coord _ (C45_no_r_coordinate Q).2 E s
  constructor
  · rintro ⟨s', h, -⟩
    simp only [fourTests, Circ.bind_run, t1] at h
    by_cases hP : P = 0
    · rw [if_neg (by simp [hP])] at h; cases h
    · refine ⟨hP, ?_⟩
      rintro rfl
      obtain ⟨k1, k2⟩ := (C45_no_zero_coordinate P).1 hP
      rw [if_pos k1] at h
      simp only [t2, if_pos k2] at h
      rw [t3, if_neg (by simp)] at h
      cases h
  · rintro ⟨hP, hQ⟩
    obtain ⟨k1, k2⟩ := (C45_no_zero_coordinate P).1 hP
    obtain ⟨k3, k4⟩ := (C45_no_zero_coordinate Q).1 hQ
    refine ⟨s, ?_, hs⟩
    simp only [fourTests, Circ.bind_run, t1, t2, t3, t4, if_pos k1, if_pos k2, if_pos k3, if_pos k4]

/-! ### C44 -/

/-- C44: different numbers of points and scalars are an error. -/
theorem C44_length (X : Ext) {ps : List Aff} {ss : List Fr} (h : ps.length ≠ ss.length) (r : Aff) (E : Engine) (s : St) :
    ∃ m, VerifyMultiScalarMul X ps ss r E s = .ok (some m, s) := by
  simp only [VerifyMultiScalarMul, if_pos h]; exact ⟨_, rfl⟩

/-- C44: empty input panics. -/
theorem C44_empty (X : Ext) (r : Aff) (E : Engine) (s : St) : ∃ p, VerifyMultiScalarMul X [] [] r E s = .error p := by
  simp [VerifyMultiScalarMul, Circ.panic_run]

/-- C44: for n ≥ 1 points in general position (the domain in which gnark specifies the gadget), the circuit is accepted
iff the expected coordinates encode the sum of s_i·P_i. -/
theorem C44_msm {X : Ext} (hX : X.Lawful) {Ps : List G1} {ss : List Fr} (hne : Ps ≠ []) (hd : MsmDomain Ps ss)
    (r : Aff) (E : Engine) {s : St} (hs : s.sat = true) :
    (VerifyMultiScalarMul X (Ps.map enc) ss r).Accepted E s ↔
      r = enc (List.zipWith (fun s P => s • P) ss Ps).sum := by
  unfold VerifyMultiScalarMul
  rw [if_neg (by rw [List.length_map, hd.1]; simp), if_neg (by simpa using hne), hX.msm Ps ss hne hd]
  constructor
  · rintro ⟨s', h, h2⟩
    simp only [Circ.bind_ok] at h
    obtain ⟨u, s1, g1, u', s2, g2, h⟩ := h
    cases h
    have := ((gadget_ok g2).2.1 h2).2
    exact (Option.some.inj (beq_iff_eq.1 this)).symm
  · rintro rfl
    exact ⟨s, by simp only [Circ.bind_run, Option.isSome_some, gadget_true, beq_self_eq_true, Circ.pure_run], hs⟩

example : (VerifyMultiScalarMul exX [enc G1gen] [3] (enc ((3 : Fr) • G1gen))).Accepted exComp .init := by
  refine (C44_msm exX_strict.toLawful (Ps := [G1gen]) (ss := [3]) (by simp) ⟨rfl, ?_, ?_, ?_, ?_⟩ _ _ rfl).2 (by simp)
  · simp [gen_ne_zero]
  · intro s hs; simp at hs; subst hs; decide +kernel
  · intro i j h; exact absurd (Subsingleton.elim (α := Fin 1) i j) h
  · intro e he hl hex
    match e, hl with
    | [a], _ =>
      obtain ⟨x, hx, hx0⟩ := hex
      simp at hx; subst hx
      have h3 : (3 : Fr) • G1gen ≠ 0 := by
        intro h0
        rcases fr_smul_eq_zero.1 h0 with h0 | h0
        · exact absurd h0 (by decide +kernel)
        · exact gen_ne_zero h0
      rcases he x (by simp) with rfl | rfl | rfl
      · simpa using h3
      · exact absurd rfl hx0
      · simpa using h3

/-! ### C46 -/

/-- C46: the field constants. The literals are those of /repo/aggregator_lib_circuit.go:24-26. -/
theorem C46_constants :
    Nat.Prime 21888242871839275222246405745257275088696311157297823662689037894645226208583 ∧
    Nat.Prime 21888242871839275222246405745257275088548364400416034343698204186575808495617 ∧
    modulusVar = .big 21888242871839275222246405745257275088548364400416034343698204186575808495617 ∧
    21888242871839275222246405745257275088548364400416034343698204186575808495617 <
      (21888242871839275222246405745257275088696311157297823662689037894645226208583 : ℕ) ∧
    21888242871839275222246405745257275088696311157297823662689037894645226208583 < 2 ^ 254 :=
  ⟨prime_pMod_lit, prime_rMod_lit, rfl, by norm_num, by norm_num⟩

/-- C46: every canonical scalar-field value is a canonical base-field value: reading it as an Fp element loses
nothing. -/
theorem C46_embed (n : ℕ) (h : n < rMod) : (((n : ℤ) : Fp)).val = n := by
  rw [Int.cast_natCast]; exact ZMod.val_natCast_of_lt (h.trans rMod_lt_pMod)

/-! ### C47 -/

/-- C47: on constants, with (x, y) the residues of P ≠ O, the circuit is accepted iff the residues of the expected coordinates encode
(k mod p)·P, if k mod p is not ≡ 0 (mod r): the scalar, an integer of any size and sign, is read modulo p. -/
theorem C47_scalarMul_mod {X : Ext} (hX : X.Lawful) {vx vy vk ve vf : Var} {x y k e f : ℤ} (hx : IsConst vx x)
    (hy : IsConst vy y) (hk : IsConst vk k) (he : IsConst ve e) (hf : IsConst vf f) {P : G1}
    (hP : enc P = ((x : Fp), (y : Fp))) (hP0 : P ≠ 0) (hkr : ¬ (rMod : ℤ) ∣ k % pMod)
    {E : Engine} {s : St} (hs : s.sat = true) :
    (BN254ScalarMulC.Define X ⟨(vx, vy), vk, (ve, vf)⟩).Accepted E s ↔ enc ((k % pMod) • P) = ((e : Fp), (f : Fp)) := by
  unfold BN254ScalarMulC.Define Circ.Accepted
  rw [vsm_accepts (point := (vx, vy)) (expected := (ve, vf)) hx.setInterface hy.setInterface hk.setInterface
    he.setInterface hf.setInterface]
  have hkv : (((k : Fp)).val : ℤ) = k % pMod := ZMod.val_intCast _
  have hkf : ((((k : Fp)).val : ℕ) : Fr) = ((k % pMod : ℤ) : Fr) := by
    rw [← Int.cast_natCast (R := Fr), hkv]
  have hkr' : ((k % pMod : ℤ) : Fr) ≠ 0 := fun h => hkr ((ZMod.intCast_zmod_eq_zero_iff_dvd _ _).1 h)
  rw [hkf, ← hP, hX.scalarMul P _ hP0 hkr', Int.cast_smul_eq_zsmul, Option.some.injEq]
  simp [hs]

/-- C47: on constants, with (x, y) the residues of P ≠ O and the scalar in [0, p) not ≡ 0 (mod r), the circuit is
accepted iff the residues of the expected coordinates encode k·P. -/
theorem C47_scalarMul {X : Ext} (hX : X.Lawful) {vx vy vk ve vf : Var} {x y k e f : ℤ} (hx : IsConst vx x)
    (hy : IsConst vy y) (hk : IsConst vk k) (he : IsConst ve e) (hf : IsConst vf f) {P : G1}
    (hP : enc P = ((x : Fp), (y : Fp))) (hP0 : P ≠ 0) (hk0 : 0 ≤ k) (hkp : k < pMod) (hkr : (k : Fr) ≠ 0)
    {E : Engine} {s : St} (hs : s.sat = true) :
    (BN254ScalarMulC.Define X ⟨(vx, vy), vk, (ve, vf)⟩).Accepted E s ↔ enc (k • P) = ((e : Fp), (f : Fp)) := by
  have h : k % pMod = k := Int.emod_eq_of_lt hk0 hkp
  rw [C47_scalarMul_mod hX hx hy hk he hf hP hP0 (by rwa [h, ← ZMod.intCast_zmod_eq_zero_iff_dvd]) hs, h]

/-- C47: on constants with residues encoding P and Q, the circuit is accepted iff the residues of the expected
coordinates encode P + Q. -/
theorem C47_add {X : Ext} (hX : X.Lawful) {v1 v2 v3 v4 ve vf : Var} {x1 y1 x2 y2 e f : ℤ} (h1 : IsConst v1 x1)
    (h2 : IsConst v2 y1) (h3 : IsConst v3 x2) (h4 : IsConst v4 y2) (he : IsConst ve e) (hf : IsConst vf f) {P Q : G1}
    (hP : enc P = ((x1 : Fp), (y1 : Fp))) (hQ : enc Q = ((x2 : Fp), (y2 : Fp)))
    {E : Engine} {s : St} (hs : s.sat = true) :
    (BN254AddC.Define X ⟨(v1, v2), (v3, v4), (ve, vf)⟩).Accepted E s ↔ enc (P + Q) = ((e : Fp), (f : Fp)) := by
  unfold BN254AddC.Define Circ.Accepted
  rw [vadd_accepts (p1 := (v1, v2)) (p2 := (v3, v4)) (expected := (ve, vf)) h1.setInterface h2.setInterface
    h3.setInterface h4.setInterface he.setInterface hf.setInterface, ← hP, ← hQ, hX.addUnified, Option.some.injEq]
  simp [hs]

/-- C47: a circuit variable anywhere makes the scalar-multiplication circuit return an error (or panic): it is never
accepted. If one of the inputs is a circuit variable, nothing is emitted at all. -/
theorem C47_scalarMul_wire (X : Ext) {c : BN254ScalarMulC}
    (h : c.point.1.isWire = true ∨ c.point.2.isWire = true ∨ c.scalar.isWire = true ∨ c.res.1.isWire = true ∨
      c.res.2.isWire = true) (E : Engine) (s : St) :
    ¬ (c.Define X).Accepted E s ∧
    ((c.point.1.isWire = true ∨ c.point.2.isWire = true ∨ c.scalar.isWire = true) →
      ∃ m, c.Define X E s = .ok (some m, s)) := by
  constructor
  · rintro ⟨s', h1, -⟩
    obtain ⟨-, _, _, _, _, _, a1, a2, a3, a4, a5, -⟩ := vsm_ok h1
    rcases h with h | h | h | h | h <;> rw [setInterface_wire h] at * <;> simp_all
  · intro h
    unfold BN254ScalarMulC.Define VerifyBN254ScalarMul
    cases h1 : setInterface c.point.1 with
    | none => exact ⟨_, rfl⟩
    | some _ =>
    cases h2 : setInterface c.point.2 with
    | none => exact ⟨_, rfl⟩
    | some _ =>
    cases h3 : setInterface c.scalar with
    | none => exact ⟨_, rfl⟩
    | some _ =>
      rcases h with h | h | h <;> rw [setInterface_wire h] at * <;> simp_all

theorem C47_add_wire (X : Ext) {c : BN254AddC}
    (h : c.point1.1.isWire = true ∨ c.point1.2.isWire = true ∨ c.point2.1.isWire = true ∨ c.point2.2.isWire = true ∨
      c.expectedRes.1.isWire = true ∨ c.expectedRes.2.isWire = true) (E : Engine) (s : St) :
    ¬ (c.Define X).Accepted E s ∧
    ((c.point1.1.isWire = true ∨ c.point1.2.isWire = true ∨ c.point2.1.isWire = true ∨ c.point2.2.isWire = true) →
      ∃ m, c.Define X E s = .ok (some m, s)) := by
  constructor
  · rintro ⟨s', h1, -⟩
    obtain ⟨-, _, _, _, _, _, _, a1, a2, a3, a3', a4, a5, -⟩ := vadd_ok h1
    rcases h with h | h | h | h | h | h <;> rw [setInterface_wire h] at * <;> simp_all
  · intro h
    unfold BN254AddC.Define VerifyBN254Add
    cases h1 : setInterface c.point1.1 with
    | none => exact ⟨_, rfl⟩
    | some _ =>
    cases h2 : setInterface c.point1.2 with
    | none => exact ⟨_, rfl⟩
    | some _ =>
    cases h3 : setInterface c.point2.1 with
    | none => exact ⟨_, rfl⟩
    | some _ =>
    cases h4 : setInterface c.point2.2 with
    | none => exact ⟨_, rfl⟩
    | some _ =>
      rcases h with h | h | h | h <;> rw [setInterface_wire h] at * <;> simp_all

example : (BN254ScalarMulC.Define exX ⟨(.big 1, .big 2), .big 1, (.big 1, .big (2 + pMod))⟩).Accepted exComp .init :=
  (C47_scalarMul (P := G1gen) exX_strict.toLawful (.big 1) (.big 2) (.big 1) (.big 1) (.big _) (by simp [G1gen])
    gen_ne_zero (by norm_num) (by decide +kernel) (by decide +kernel) rfl).2 (by
      rw [one_zsmul]; decide +kernel)

end Verif
