/- Helper lemmas about the curve gadgets. -/
import Verif.Model.Curve
import Verif.Spec.Ext
import Verif.Lemmas.Hints

namespace Verif

theorem gadget_ok {E : Engine} {c : Bool} {s s' : St} {u : Unit} (h : gadget c E s = .ok (u, s')) :
    s'.hints = s.hints ∧ (s'.sat = true ↔ s.sat = true ∧ c = true) := emit_ok h

theorem gadget_true (E : Engine) (s : St) : gadget true E s = .ok ((), s) := rfl

theorem gadget_false_test {E : Engine} (hE : E.mode = .test) (s : St) : ∃ p, gadget false E s = .error p := by
  simp [gadget, emit, hE]

/-- The exact behaviour of `VerifyBN254ScalarMul` on constants. -/
theorem vsm_accepts {X : Ext} {point expected : Var × Var} {scalar : Var} {x y k ex ey : Fp}
    (h1 : setInterface point.1 = some x) (h2 : setInterface point.2 = some y) (h3 : setInterface scalar = some k)
    (h4 : setInterface expected.1 = some ex) (h5 : setInterface expected.2 = some ey) (E : Engine) (s : St)
    (e : GoErr) :
    (VerifyBN254ScalarMul X point scalar expected).Accepts E s e ↔
      e = none ∧ s.sat = true ∧ X.scalarMul (x, y) (k.val : Fr) = some (ex, ey) := by
  simp only [VerifyBN254ScalarMul, h1, h2, h3, h4, h5]
  constructor
  · rintro ⟨s', h, hs⟩
    simp only [Circ.bind_ok] at h
    obtain ⟨u, s1, g1, u', s2, g2, h⟩ := h
    cases h
    obtain ⟨-, g1⟩ := gadget_ok g1
    obtain ⟨-, g2⟩ := gadget_ok g2
    rw [g2, g1] at hs
    exact ⟨rfl, hs.1.1, beq_iff_eq.1 hs.2⟩
  · rintro ⟨rfl, hs, h⟩
    refine ⟨s, ?_, hs⟩
    simp only [h, Circ.bind_run, Option.isSome_some, gadget_true, beq_self_eq_true, Circ.pure_run]

/-- The exact behaviour of `VerifyBN254Add` on constants. -/
theorem vadd_accepts {X : Ext} {p1 p2 expected : Var × Var} {x1 y1 x2 y2 ex ey : Fp}
    (h1 : setInterface p1.1 = some x1) (h2 : setInterface p1.2 = some y1)
    (h3 : setInterface p2.1 = some x2) (h3' : setInterface p2.2 = some y2)
    (h4 : setInterface expected.1 = some ex) (h5 : setInterface expected.2 = some ey) (E : Engine) (s : St)
    (e : GoErr) :
    (VerifyBN254Add X p1 p2 expected).Accepts E s e ↔
      e = none ∧ s.sat = true ∧ X.addUnified (x1, y1) (x2, y2) = some (ex, ey) := by
  simp only [VerifyBN254Add, h1, h2, h3, h3', h4, h5]
  constructor
  · rintro ⟨s', h, hs⟩
    simp only [Circ.bind_ok] at h
    obtain ⟨u, s1, g1, u', s2, g2, h⟩ := h
    cases h
    obtain ⟨-, g1⟩ := gadget_ok g1
    obtain ⟨-, g2⟩ := gadget_ok g2
    rw [g2, g1] at hs
    exact ⟨rfl, hs.1.1, beq_iff_eq.1 hs.2⟩
  · rintro ⟨rfl, hs, h⟩
    refine ⟨s, ?_, hs⟩
    simp only [h, Circ.bind_run, Option.isSome_some, gadget_true, beq_self_eq_true, Circ.pure_run]

/-- A nil error means that every argument was a constant, and the state. -/
theorem vsm_ok {X : Ext} {point expected : Var × Var} {scalar : Var} {E : Engine} {s s' : St}
    (h : VerifyBN254ScalarMul X point scalar expected E s = .ok (none, s')) :
    s'.hints = s.hints ∧ ∃ x y k ex ey, setInterface point.1 = some x ∧ setInterface point.2 = some y ∧
      setInterface scalar = some k ∧ setInterface expected.1 = some ex ∧ setInterface expected.2 = some ey ∧
      (s'.sat = true → s.sat = true ∧ X.scalarMul (x, y) (k.val : Fr) = some (ex, ey)) ∧
      (E.mode = .test → s' = s) := by
  unfold VerifyBN254ScalarMul at h
  cases h1 : setInterface point.1 with
  | none => rw [h1] at h; cases h
  | some x =>
  cases h2 : setInterface point.2 with
  | none => rw [h1, h2] at h; cases h
  | some y =>
  cases h3 : setInterface scalar with
  | none => rw [h1, h2, h3] at h; cases h
  | some k =>
  rw [h1, h2, h3] at h
  simp only [Circ.bind_ok] at h
  obtain ⟨u, s1, g1, h⟩ := h
  cases h4 : setInterface expected.1 with
  | none => rw [h4] at h; cases h
  | some ex =>
  cases h5 : setInterface expected.2 with
  | none => rw [h4, h5] at h; cases h
  | some ey =>
  rw [h4, h5] at h
  simp only [Circ.bind_ok] at h
  obtain ⟨u', s2, g2, h⟩ := h
  cases h
  obtain ⟨e1, g1'⟩ := gadget_ok g1
  obtain ⟨e2, g2'⟩ := gadget_ok g2
  refine ⟨e2.trans e1, x, y, k, ex, ey, rfl, rfl, rfl, rfl, rfl, fun hs => ?_, fun hE => ?_⟩
  · rw [g2', g1'] at hs
    exact ⟨hs.1.1, beq_iff_eq.1 hs.2⟩
  · unfold gadget emit at g1 g2
    split at g1
    · split at g2
      · cases g1; cases g2; rfl
      · simp [hE] at g2
    · simp [hE] at g1

theorem vadd_ok {X : Ext} {p1 p2 expected : Var × Var} {E : Engine} {s s' : St}
    (h : VerifyBN254Add X p1 p2 expected E s = .ok (none, s')) :
    s'.hints = s.hints ∧ ∃ x1 y1 x2 y2 ex ey, setInterface p1.1 = some x1 ∧ setInterface p1.2 = some y1 ∧
      setInterface p2.1 = some x2 ∧ setInterface p2.2 = some y2 ∧
      setInterface expected.1 = some ex ∧ setInterface expected.2 = some ey ∧
      (s'.sat = true → s.sat = true ∧ X.addUnified (x1, y1) (x2, y2) = some (ex, ey)) ∧
      (E.mode = .test → s' = s) := by
  unfold VerifyBN254Add at h
  cases h1 : setInterface p1.1 with
  | none => rw [h1] at h; cases h
  | some x =>
  cases h2 : setInterface p1.2 with
  | none => rw [h1, h2] at h; cases h
  | some y =>
  cases h3 : setInterface p2.1 with
  | none => rw [h1, h2, h3] at h; cases h
  | some k =>
  cases h3' : setInterface p2.2 with
  | none => rw [h1, h2, h3, h3'] at h; cases h
  | some l =>
  rw [h1, h2, h3, h3'] at h
  simp only [Circ.bind_ok] at h
  obtain ⟨u, s1, g1, h⟩ := h
  cases h4 : setInterface expected.1 with
  | none => rw [h4] at h; cases h
  | some ex =>
  cases h5 : setInterface expected.2 with
  | none => rw [h4, h5] at h; cases h
  | some ey =>
  rw [h4, h5] at h
  simp only [Circ.bind_ok] at h
  obtain ⟨u', s2, g2, h⟩ := h
  cases h
  obtain ⟨e1, g1'⟩ := gadget_ok g1
  obtain ⟨e2, g2'⟩ := gadget_ok g2
  refine ⟨e2.trans e1, x, y, k, l, ex, ey, rfl, rfl, rfl, rfl, rfl, rfl, fun hs => ?_, fun hE => ?_⟩
  · rw [g2', g1'] at hs
    exact ⟨hs.1.1, beq_iff_eq.1 hs.2⟩
  · unfold gadget emit at g1 g2
    split at g1
    · split at g2
      · cases g1; cases g2; rfl
      · simp [hE] at g2
    · simp [hE] at g1

theorem setInterface_wire {v : Var} (h : v.isWire = true) : setInterface v = none := by
  cases v <;> simp_all [Var.isWire, setInterface]

theorem mode_cases (E : Engine) : E.mode = .test ∨ E.mode = .compile := by cases E.mode <;> simp

/-- What a run of `CalcVerifyBN256Msm` returning no error establishes; it is in test mode. -/
theorem calcMsm_ok {X : Ext} {x y k : Var} {E : Engine} {s s' : St} {res : Var × Var}
    (h : CalcVerifyBN256Msm X x y k E s = .ok ((res, none), s')) (hs : s'.sat = true) :
    E.mode = .test ∧ s.sat = true ∧ s'.hints = s.hints ++ [.msmHint, .modHint, .modHint] ∧
    ∃ px py kk : Fp, setInterface x = some px ∧ setInterface y = some py ∧ setInterface k = some kk ∧
    ∃ n m : ℤ, res = (.big n, .big m) ∧ 0 ≤ n ∧ n < rMod ∧ 0 ≤ m ∧ m < rMod ∧
      X.scalarMul (px, py) (kk.val : Fr) = some ((n : Fp), (m : Fp)) := by
  simp only [CalcVerifyBN256Msm, Circ.bind_ok, idx_ok] at h
  obtain ⟨rs, s1, h1, r0, _, ⟨hr0, rfl⟩, e0, s2, h2, r1, _, ⟨hr1, rfl⟩, e1, s3, h3, err, s4, h4, h5⟩ := h
  cases h5
  obtain ⟨i1, sat1, -⟩ := newHint_ok h1
  obtain ⟨i2, -, -, t2, w2, sat2⟩ := mod_ok h2
  obtain ⟨i3, -, -, t3, w3, sat3⟩ := mod_ok h3
  obtain ⟨i4, px, py, kk, ex, ey, a1, a2, a3, a4, a5, sat4, -⟩ := vsm_ok h4
  rcases mode_cases E with hE | hE
  · obtain ⟨n, rfl, n0, n1⟩ := t2 hE
    obtain ⟨m, rfl, m0, m1⟩ := t3 hE
    obtain ⟨q4, q5⟩ := sat4 hs
    simp only [setInterface, Option.some.injEq] at a4 a5
    refine ⟨hE, sat1 (sat2 (sat3 q4).1).1, by rw [i4, i3, i2, i1]; simp, px, py, kk, a1, a2, a3, n, m, rfl,
      n0, n1, m0, m1, ?_⟩
    rw [q5, a4, a5]
  · rw [setInterface_wire (w2 hE)] at a4; cases a4

/-- What a run of `CalcVerifyBN256Add` returning no error establishes; it is in test mode. -/
theorem calcAdd_ok {X : Ext} {x1 y1 x2 y2 : Var} {E : Engine} {s s' : St} {res : Var × Var}
    (h : CalcVerifyBN256Add X x1 y1 x2 y2 E s = .ok ((res, none), s')) (hs : s'.sat = true) :
    E.mode = .test ∧ s.sat = true ∧ s'.hints = s.hints ++ [.addHint, .modHint, .modHint] ∧
    ∃ a b c d : Fp, setInterface x1 = some a ∧ setInterface y1 = some b ∧ setInterface x2 = some c ∧
      setInterface y2 = some d ∧
    ∃ n m : ℤ, res = (.big n, .big m) ∧ 0 ≤ n ∧ n < rMod ∧ 0 ≤ m ∧ m < rMod ∧
      X.addUnified (a, b) (c, d) = some ((n : Fp), (m : Fp)) := by
  simp only [CalcVerifyBN256Add, Circ.bind_ok, idx_ok] at h
  obtain ⟨rs, s1, h1, r0, _, ⟨hr0, rfl⟩, e0, s2, h2, r1, _, ⟨hr1, rfl⟩, e1, s3, h3, err, s4, h4, h5⟩ := h
  cases h5
  obtain ⟨i1, sat1, -⟩ := newHint_ok h1
  obtain ⟨i2, -, -, t2, w2, sat2⟩ := mod_ok h2
  obtain ⟨i3, -, -, t3, w3, sat3⟩ := mod_ok h3
  obtain ⟨i4, a, b, c, d, ex, ey, a1, a2, a3, a3', a4, a5, sat4, -⟩ := vadd_ok h4
  rcases mode_cases E with hE | hE
  · obtain ⟨n, rfl, n0, n1⟩ := t2 hE
    obtain ⟨m, rfl, m0, m1⟩ := t3 hE
    obtain ⟨q4, q5⟩ := sat4 hs
    simp only [setInterface, Option.some.injEq] at a4 a5
    refine ⟨hE, sat1 (sat2 (sat3 q4).1).1, by rw [i4, i3, i2, i1]; simp, a, b, c, d, a1, a2, a3, a3', n, m, rfl,
      n0, n1, m0, m1, ?_⟩
    rw [q5, a4, a5]
  · rw [setInterface_wire (w2 hE)] at a4; cases a4

theorem isOnCurve_iff (x y : Fp) : isOnCurve x y = true ↔ ValidEnc (x, y) := by
  simp [isOnCurve, ValidEnc, OnCurve]

theorem affPt_eq {x y : Fp} {P : G1} : affPt x y = some P ↔ enc P = (x, y) := by
  unfold affPt
  constructor
  · intro h
    split at h
    · cases h; rfl
    · split at h
      · rename_i h0; cases h; rw [h0.1, h0.2, enc_zero]
      · cases h
  · intro h
    rcases G1.cases P with rfl | ⟨x', y', hxy, rfl⟩
    · rw [enc_zero] at h; cases h
      rw [dif_neg not_onCurve_zero, if_pos ⟨rfl, rfl⟩]
    · rw [enc_mkPt] at h; cases h
      rw [dif_pos hxy]

/-- A test-engine run of `CalcVerifyBN256Msm` when the hints are honest except possibly the curve hint. -/
theorem calcMsm_run {X : Ext} {E : Engine} (hE : E.mode = .test) (hm : HonestMod E) {x y k : Var} {s : St}
    {a b c : ℤ} {os : List ℤ} (hx : toBig E x = some a) (hy : toBig E y = some b) (hk : toBig E k = some c)
    (ho : E.strat .msmHint s.hints.length 2 [a, b, c] = .ok os) :
    CalcVerifyBN256Msm X x y k E s =
      match VerifyBN254ScalarMul X (x, y) k (.big (os.getD 0 0 % rMod), .big (os.getD 1 0 % rMod)) E
        (s.addHints [.msmHint, .modHint, .modHint]) with
      | .ok (e, s') => .ok (((.big (os.getD 0 0 % rMod), .big (os.getD 1 0 % rMod)), e), s')
      | .error p => .error p := by
  have key : ∀ n : ℤ, (hintVar E ((hintVar E n).fr.val : ℤ)) = .big (n % rMod) := by
    intro n
    rw [hintVar_test hE, hintVar_fr]
    congr 1
    apply canon_ext (emod_nonneg' _) (emod_lt' _) (emod_nonneg' _) (emod_lt' _)
    simp
  simp only [CalcVerifyBN256Msm, Circ.bind_run, newHint_run (.cons hx (.cons hy (.cons hk .nil))) ho,
    idx_run (hintOuts_get E (n := 2) (i := 1) (by decide) os),
    idx_run (hintOuts_get E (n := 2) (i := 0) (by decide) os), mod_honest hm (hintVar_good E _), key]
  have : ((({ sat := s.sat, hints := s.hints ++ [HintId.msmHint] } : St).addHints [HintId.modHint]).addHints
      [HintId.modHint]) = s.addHints [.msmHint, .modHint, .modHint] := by simp [St.addHints]
  rw [this]
  cases VerifyBN254ScalarMul X (x, y) k (.big (os.getD 0 0 % rMod), .big (os.getD 1 0 % rMod)) E
        (s.addHints [.msmHint, .modHint, .modHint]) <;> rfl

theorem calcAdd_run {X : Ext} {E : Engine} (hE : E.mode = .test) (hm : HonestMod E) {x1 y1 x2 y2 : Var} {s : St}
    {a b c d : ℤ} {os : List ℤ} (h1 : toBig E x1 = some a) (h2 : toBig E y1 = some b) (h3 : toBig E x2 = some c)
    (h4 : toBig E y2 = some d) (ho : E.strat .addHint s.hints.length 2 [a, b, c, d] = .ok os) :
    CalcVerifyBN256Add X x1 y1 x2 y2 E s =
      match VerifyBN254Add X (x1, y1) (x2, y2) (.big (os.getD 0 0 % rMod), .big (os.getD 1 0 % rMod)) E
        (s.addHints [.addHint, .modHint, .modHint]) with
      | .ok (e, s') => .ok (((.big (os.getD 0 0 % rMod), .big (os.getD 1 0 % rMod)), e), s')
      | .error p => .error p := by
  have key : ∀ n : ℤ, (hintVar E ((hintVar E n).fr.val : ℤ)) = .big (n % rMod) := by
    intro n
    rw [hintVar_test hE, hintVar_fr]
    congr 1
    apply canon_ext (emod_nonneg' _) (emod_lt' _) (emod_nonneg' _) (emod_lt' _)
    simp
  simp only [CalcVerifyBN256Add, Circ.bind_run, newHint_run (.cons h1 (.cons h2 (.cons h3 (.cons h4 .nil)))) ho,
    idx_run (hintOuts_get E (n := 2) (i := 1) (by decide) os),
    idx_run (hintOuts_get E (n := 2) (i := 0) (by decide) os), mod_honest hm (hintVar_good E _), key]
  have : ((({ sat := s.sat, hints := s.hints ++ [HintId.addHint] } : St).addHints [HintId.modHint]).addHints
      [HintId.modHint]) = s.addHints [.addHint, .modHint, .modHint] := by simp [St.addHints]
  rw [this]
  cases VerifyBN254Add X (x1, y1) (x2, y2) (.big (os.getD 0 0 % rMod), .big (os.getD 1 0 % rMod)) E
        (s.addHints [.addHint, .modHint, .modHint]) <;> rfl

/-- On constants `VerifyBN254Add` never returns an error. -/
theorem vadd_const_none {X : Ext} {p1 p2 expected : Var × Var} {x1 y1 x2 y2 ex ey : Fp}
    (h1 : setInterface p1.1 = some x1) (h2 : setInterface p1.2 = some y1)
    (h3 : setInterface p2.1 = some x2) (h3' : setInterface p2.2 = some y2)
    (h4 : setInterface expected.1 = some ex) (h5 : setInterface expected.2 = some ey) {E : Engine} {s s' : St}
    {e : GoErr} (h : VerifyBN254Add X p1 p2 expected E s = .ok (e, s')) : e = none := by
  simp only [VerifyBN254Add, h1, h2, h3, h3', h4, h5, Circ.bind_ok] at h
  obtain ⟨u, s1, g1, u', s2, g2, h⟩ := h
  cases h
  rfl

theorem calcAdd_const_none {X : Ext} {x1 y1 x2 y2 : Var} {a b c d : Fp} {E : Engine} (hE : E.mode = .test)
    (h1 : setInterface x1 = some a) (h2 : setInterface y1 = some b) (h3 : setInterface x2 = some c)
    (h4 : setInterface y2 = some d) {s s' : St} {res : Var × Var} {e : GoErr}
    (h : CalcVerifyBN256Add X x1 y1 x2 y2 E s = .ok ((res, e), s')) : e = none := by
  simp only [CalcVerifyBN256Add, Circ.bind_ok, idx_ok] at h
  obtain ⟨rs, s1, _, r0, _, ⟨hr0, rfl⟩, e0, s2, h2', r1, _, ⟨hr1, rfl⟩, e1, s3, h3', err, s4, h4', h5⟩ := h
  cases h5
  obtain ⟨n, rfl, -⟩ := (mod_ok h2').2.2.2.1 hE
  obtain ⟨m, rfl, -⟩ := (mod_ok h3').2.2.2.1 hE
  exact vadd_const_none (p1 := (_, _)) (p2 := (_, _)) (expected := (.big n, .big m)) h1 h2 h3 h4 rfl rfl h4'

/-- An accepted `ecc_mul`. -/
theorem ecc_mul_ok {X : Ext} {buf buf' : List Var} {o : ℕ} {E : Engine} {s s' : St}
    (h : ecc_mul X buf o E s = .ok ((none, buf'), s')) (hs : s'.sat = true) :
    E.mode = .test ∧ s.sat = true ∧ s'.hints = s.hints ++ [.msmHint, .modHint, .modHint] ∧
    o + 2 < buf.length ∧
    ∃ vx vy vk, buf[o]? = some vx ∧ buf[o + 1]? = some vy ∧ buf[o + 2]? = some vk ∧
    ∃ px py kk : Fp, setInterface vx = some px ∧ setInterface vy = some py ∧ setInterface vk = some kk ∧
    ∃ n m : ℤ, 0 ≤ n ∧ n < rMod ∧ 0 ≤ m ∧ m < rMod ∧
      X.scalarMul (px, py) (kk.val : Fr) = some ((n : Fp), (m : Fp)) ∧
      buf' = (buf.set o (.big n)).set (o + 1) (.big m) := by
  simp only [ecc_mul, Circ.bind_ok, idx_ok] at h
  obtain ⟨vx, _, ⟨hx, rfl⟩, vy, _, ⟨hy, rfl⟩, vk, _, ⟨hk, rfl⟩, ⟨res, err⟩, s1, h1, h⟩ := h
  cases err with
  | some m => cases h
  | none =>
    simp only [Circ.bind_ok, setIdx_ok] at h
    obtain ⟨b1, _, ⟨l1, rfl, rfl⟩, b2, _, ⟨l2, rfl, rfl⟩, h⟩ := h
    cases h
    obtain ⟨hE, hsat, hh, px, py, kk, e1, e2, e3, n, m, rfl, n0, n1, m0, m1, hm⟩ := calcMsm_ok h1 hs
    exact ⟨hE, hsat, hh, (List.getElem?_eq_some_iff.1 hk).1, vx, vy, vk, hx, hy, hk, px, py, kk, e1, e2, e3,
      n, m, n0, n1, m0, m1, hm, rfl⟩

/-- An accepted `ecc_mul_add` whose accumulator slots hold constants. -/
theorem ecc_mul_add_ok {X : Ext} {buf buf' : List Var} {o : ℕ} {E : Engine} {s s' : St}
    (h : ecc_mul_add X buf o E s = .ok ((none, buf'), s')) (hs : s'.sat = true) {vx vy : Var} {ax ay : Fp}
    (hx : buf[o]? = some vx) (hy : buf[o + 1]? = some vy) (hax : setInterface vx = some ax)
    (hay : setInterface vy = some ay) :
    E.mode = .test ∧ s.sat = true ∧
    s'.hints = s.hints ++ [.msmHint, .modHint, .modHint, .addHint, .modHint, .modHint] ∧
    o + 4 < buf.length ∧
    ∃ wx wy wk, buf[o + 2]? = some wx ∧ buf[o + 3]? = some wy ∧ buf[o + 4]? = some wk ∧
    ∃ px py kk : Fp, setInterface wx = some px ∧ setInterface wy = some py ∧ setInterface wk = some kk ∧
    ∃ n m n' m' : ℤ, 0 ≤ n ∧ n < rMod ∧ 0 ≤ m ∧ m < rMod ∧ 0 ≤ n' ∧ n' < rMod ∧ 0 ≤ m' ∧ m' < rMod ∧
      X.scalarMul (px, py) (kk.val : Fr) = some ((n : Fp), (m : Fp)) ∧
      X.addUnified (ax, ay) ((n : Fp), (m : Fp)) = some ((n' : Fp), (m' : Fp)) ∧
      buf' = (((buf.set (o + 2) (.big n)).set (o + 3) (.big m)).set o (.big n')).set (o + 1) (.big m') := by
  simp only [ecc_mul_add, Circ.bind_ok] at h
  obtain ⟨⟨err, buf1⟩, s1, h1, h⟩ := h
  cases err with
  | some m => cases h
  | none =>
    simp only [Circ.bind_ok, idx_ok] at h
    obtain ⟨a, _, ⟨ha, rfl⟩, b, _, ⟨hb, rfl⟩, c, _, ⟨hc, rfl⟩, d, s1, ⟨hd, rfl⟩, ⟨res, e⟩, s2, h2, h⟩ := h
    simp only [Circ.bind_ok, setIdx_ok] at h
    obtain ⟨b1, _, ⟨l1, rfl, rfl⟩, b2, _, ⟨l2, rfl, rfl⟩, h⟩ := h
    cases h
    have hlen := h1
    simp only [ecc_mul, Circ.bind_ok, idx_ok] at hlen
    -- the mode must be test, otherwise `ecc_mul` returns an error
    rcases mode_cases E with hE | hE
    · have hs1 : s1.sat = true := by
        have h2' := h2
        simp only [CalcVerifyBN256Add, Circ.bind_ok, idx_ok] at h2'
        obtain ⟨rs, t1, g1, r0, _, ⟨-, rfl⟩, e0, t2, g2, r1, _, ⟨-, rfl⟩, e1, t3, g3, err, t4, g4, g5⟩ := h2'
        cases g5
        have hs3 : t3.sat = true := by
          obtain ⟨n, rfl, -⟩ := (mod_ok g2).2.2.2.1 hE
          obtain ⟨m, rfl, -⟩ := (mod_ok g3).2.2.2.1 hE
          cases e with
          | none =>
            obtain ⟨-, _, _, _, _, _, _, -, -, -, -, -, -, -, k⟩ := vadd_ok g4
            rw [← k hE]; exact hs
          | some msg =>
            unfold VerifyBN254Add at g4
            cases q1 : setInterface a with
            | none => rw [q1] at g4; cases g4; exact hs
            | some _ =>
            cases q2 : setInterface b with
            | none => rw [q1, q2] at g4; cases g4; exact hs
            | some _ =>
            cases q3 : setInterface c with
            | none => rw [q1, q2, q3] at g4; cases g4; exact hs
            | some _ =>
            cases q4 : setInterface d with
            | none => rw [q1, q2, q3, q4] at g4; cases g4; exact hs
            | some _ =>
              exact absurd (vadd_const_none (p1 := (_, _)) (p2 := (_, _)) (expected := (.big n, .big m))
                q1 q2 q3 q4 rfl rfl g4) (by simp)
        exact (newHint_ok g1).2.1 ((mod_ok g2).2.2.2.2.2 ((mod_ok g3).2.2.2.2.2 hs3).1).1
      obtain ⟨-, hsat, hh, hl, wx, wy, wk, k1, k2, k3, px, py, kk, e1, e2, e3, n, m, n0, n1, m0, m1, hm, rfl⟩ :=
        ecc_mul_ok h1 hs1
      rw [List.getElem?_set_ne (by omega), List.getElem?_set_ne (by omega), hx] at ha
      rw [List.getElem?_set_ne (by omega), List.getElem?_set_ne (by omega), hy] at hb
      rw [List.getElem?_set_ne (by omega), List.getElem?_set_self (by omega)] at hc
      rw [List.getElem?_set_self (by rw [List.length_set]; omega)] at hd
      cases ha; cases hb; cases hc; cases hd
      have he : e = none := calcAdd_const_none hE hax hay (c := (n : Fp)) (d := (m : Fp)) rfl rfl h2
      subst he
      obtain ⟨-, -, hh2, a', b', c', d', f1, f2, f3, f4, n', m', rfl, n0', n1', m0', m1', ham⟩ := calcAdd_ok h2 hs
      rw [hax] at f1; rw [hay] at f2
      cases f1; cases f2; cases f3; cases f4
      exact ⟨hE, hsat, by rw [hh2, hh]; simp, by omega, wx, wy, wk, k1, k2, k3, px, py, kk, e1, e2, e3, n, m, n', m',
        n0, n1, m0, m1, n0', n1', m0', m1', hm, ham, rfl⟩
    · exfalso
      obtain ⟨vx', _, ⟨-, rfl⟩, vy', _, ⟨-, rfl⟩, vk', _, ⟨-, rfl⟩, ⟨res', err'⟩, t1, g1, g2⟩ := hlen
      cases err' with
      | some m => cases g2
      | none =>
        simp only [CalcVerifyBN256Msm, Circ.bind_ok, idx_ok] at g1
        obtain ⟨rs, q1, _, r0, _, ⟨-, rfl⟩, e0, q2, w2, r1, _, ⟨-, rfl⟩, e1, q3, w3, err, q4, w4, w5⟩ := g1
        cases w5
        obtain ⟨-, _, _, _, _, _, -, -, -, a4, -⟩ := vsm_ok w4
        rw [setInterface_wire ((mod_ok w2).2.2.2.2.1 hE)] at a4
        cases a4

/-- The engine runs the repo's curve hints. -/
def HonestMsm (E : Engine) : Prop := ∀ k n ins, E.strat .msmHint k n ins = MsmHint ins
def HonestAdd (E : Engine) : Prop := ∀ k n ins, E.strat .addHint k n ins = AddHint ins

/-- An integer the engine passes to hints unchanged. -/
def Engine.Reads (E : Engine) (n : ℤ) : Prop := toBig E (.big n) = some n

theorem reads_of_lt {E : Engine} {n : ℤ} (h0 : 0 ≤ n) (h1 : n < rMod) : E.Reads n := by
  unfold Engine.Reads
  simp only [toBig]
  split
  · rfl
  · rw [Int.emod_eq_of_lt h0 h1]

theorem reads_of_raw {E : Engine} (hE : E.mode = .test) (hr : E.raw = true) (n : ℤ) : E.Reads n := by
  simp [Engine.Reads, toBig, hE, hr]

/-- An honest scalar multiplication with representable result: it is accepted and returns the encoding. -/
theorem calcMsm_honest {X : Ext} (hX : X.Lawful) {E : Engine} (hE : E.mode = .test) (hm : HonestMod E)
    (hc : HonestMsm E) {P : G1} (hP : P ≠ 0) {k : ℕ} (hkp : k < pMod) (hk : (k : Fr) ≠ 0)
    (hx : E.Reads (enc P).1.val) (hy : E.Reads (enc P).2.val) (hkR : E.Reads k)
    (h1 : (enc (k • P)).1.val < rMod) (h2 : (enc (k • P)).2.val < rMod) (s : St) :
    CalcVerifyBN256Msm X (.big (enc P).1.val) (.big (enc P).2.val) (.big k) E s =
      .ok (((.big (enc (k • P)).1.val, .big (enc (k • P)).2.val), none),
        s.addHints [.msmHint, .modHint, .modHint]) := by
  have hne : k • P ≠ 0 := by
    rw [← Nat.cast_smul_eq_nsmul Fr]
    intro h0
    rcases fr_smul_eq_zero.1 h0 with h0 | h0
    · exact hk h0
    · exact hP h0
  have hrun := calcMsm_run (X := X) (E := E) (s := s) hE hm hx hy hkR
    ((hc _ _ _).trans (MsmHint_eq (P := P) (Int.natAbs_natCast _) (Int.natAbs_natCast _)))
  rw [natCast_zsmul, bn256Affine_ne hne] at hrun
  simp only [List.getD_cons_zero, List.getD_cons_succ] at hrun
  rw [Int.emod_eq_of_lt (by positivity) (by exact_mod_cast h1),
    Int.emod_eq_of_lt (by positivity) (by exact_mod_cast h2)] at hrun
  rw [hrun]
  have hkv : (((k : ℤ) : Fp)).val = k := by
    rw [Int.cast_natCast]; exact ZMod.val_natCast_of_lt hkp
  simp only [VerifyBN254ScalarMul, setInterface, hkv]
  simp only [Int.cast_natCast, ZMod.natCast_zmod_val]
  rw [show ((enc P).1, (enc P).2) = enc P from rfl, hX.scalarMul P k hP hk, Nat.cast_smul_eq_nsmul]
  simp only [Circ.bind_run, Option.isSome_some, gadget_true]
  rw [show ((enc (k • P)).1, (enc (k • P)).2) = enc (k • P) from rfl, beq_self_eq_true, gadget_true]
  rfl

/-- An honest addition with finite representable result. -/
theorem calcAdd_honest {X : Ext} (hX : X.Lawful) {E : Engine} (hE : E.mode = .test) (hm : HonestMod E)
    (hc : HonestAdd E) {P Q : G1} (hne : P + Q ≠ 0)
    (hx : E.Reads (enc P).1.val) (hy : E.Reads (enc P).2.val)
    (hx' : E.Reads (enc Q).1.val) (hy' : E.Reads (enc Q).2.val)
    (h1 : (enc (P + Q)).1.val < rMod) (h2 : (enc (P + Q)).2.val < rMod) (s : St) :
    CalcVerifyBN256Add X (.big (enc P).1.val) (.big (enc P).2.val) (.big (enc Q).1.val) (.big (enc Q).2.val) E s =
      .ok (((.big (enc (P + Q)).1.val, .big (enc (P + Q)).2.val), none),
        s.addHints [.addHint, .modHint, .modHint]) := by
  have hrun := calcAdd_run (X := X) (E := E) (s := s) hE hm hx hy hx' hy'
    ((hc _ _ _).trans (AddHint_eq (P := P) (Q := Q) (Int.natAbs_natCast _) (Int.natAbs_natCast _)
      (Int.natAbs_natCast _) (Int.natAbs_natCast _)))
  rw [bn256Affine_ne hne] at hrun
  simp only [List.getD_cons_zero, List.getD_cons_succ] at hrun
  rw [Int.emod_eq_of_lt (by positivity) (by exact_mod_cast h1),
    Int.emod_eq_of_lt (by positivity) (by exact_mod_cast h2)] at hrun
  rw [hrun]
  simp only [VerifyBN254Add, setInterface, Int.cast_natCast, ZMod.natCast_zmod_val]
  rw [show ((enc P).1, (enc P).2) = enc P from rfl, show ((enc Q).1, (enc Q).2) = enc Q from rfl, hX.addUnified]
  simp only [Circ.bind_run, Option.isSome_some, gadget_true]
  rw [show ((enc (P + Q)).1, (enc (P + Q)).2) = enc (P + Q) from rfl, beq_self_eq_true, gadget_true]
  rfl

end Verif
