/-
Properties C12–C22, C44–C47: curve gadgets, range checks, field constants.
`X : Ext` is the external code (gnark gadgets, hashes) under the contract `X.Lawful` / `X.Strict` of Verif/Spec/Ext.
`E : Engine` is any engine with any hint strategy unless said otherwise.
-/
import Verif.Lemmas.Curve

namespace Verif

/-- Test engine running the repo's own hint functions. -/
noncomputable def honestTest (X : Ext) (raw : Bool) : Engine := ⟨.test, raw, honest X⟩

/-- A concrete external environment used in examples. -/
noncomputable def exX : Ext := idealExt 5 id
theorem exX_strict : exX.Strict := idealExt_strict 5 id

/-- A Go constant: a `*big.Int` or an `int`. -/
inductive IsConst : Var → ℤ → Prop
  | big (n : ℤ) : IsConst (.big n) n
  | int (n : ℤ) : IsConst (.int n) n

theorem IsConst.setInterface {v : Var} {n : ℤ} (h : IsConst v n) : setInterface v = some (n : Fp) := by
  cases h <;> rfl

theorem intCast_eq_zero_iff' (n : ℤ) : ((n : ℤ) : Fp) = 0 ↔ (pMod : ℤ) ∣ n := ZMod.intCast_zmod_eq_zero_iff_dvd n pMod

theorem isOnCurve_int (x y : ℤ) : isOnCurve (x : Fp) (y : Fp) = true ↔
    (pMod : ℤ) ∣ y ^ 2 - (x ^ 3 + 3) ∨ ((pMod : ℤ) ∣ x ∧ (pMod : ℤ) ∣ y) := by
  simp only [← intCast_eq_zero_iff', isOnCurve, Bool.or_eq_true, decide_eq_true_eq]
  push_cast
  rw [sub_eq_zero]

/-! ### C12 -/

/-- C12: on integer constants the check returns nil iff y² ≡ x³ + 3 (mod p) or x ≡ y ≡ 0 (mod p). It never panics and
does not touch the constraint state. -/
theorem C12_check {vx vy : Var} {x y : ℤ} (hx : IsConst vx x) (hy : IsConst vy y) (E : Engine) (s : St) :
    ∃ e : GoErr, VerifyCheckOnCurve vx vy E s = .ok (e, s) ∧
      (e = none ↔ ((pMod : ℤ) ∣ y ^ 2 - (x ^ 3 + 3) ∨ ((pMod : ℤ) ∣ x ∧ (pMod : ℤ) ∣ y))) := by
  refine ⟨if isOnCurve (x : Fp) (y : Fp) then none else errNotOnCurve, ?_, ?_⟩
  · simp only [VerifyCheckOnCurve, hx.setInterface, hy.setInterface, Circ.pure_run]
  · rw [← isOnCurve_int]
    cases isOnCurve (x : Fp) (y : Fp) <;> simp [errNotOnCurve]

/-- C12: adding multiples of p to the coordinates does not change the answer. -/
theorem C12_residues (x y i j : ℤ) (E : Engine) (s : St) :
    VerifyCheckOnCurve (.big (x + i * pMod)) (.big (y + j * pMod)) E s = VerifyCheckOnCurve (.big x) (.big y) E s := by
  have h : ∀ a b : ℤ, ((a + b * pMod : ℤ) : Fp) = (a : Fp) := by
    intro a b
    rw [Int.cast_add, Int.cast_mul, Int.cast_natCast, ZMod.natCast_self, mul_zero, add_zero]
  simp only [VerifyCheckOnCurve, setInterface, h]

/-- C12: on a circuit variable (or nil) the check panics. -/
theorem C12_wire_panics {vx vy : Var} (h : vx.isWire = true ∨ vy.isWire = true ∨ vx = .nil ∨ vy = .nil)
    (E : Engine) (s : St) : ∃ p, VerifyCheckOnCurve vx vy E s = .error p := by
  unfold VerifyCheckOnCurve
  rcases h with h | h | h | h
  · rw [setInterface_wire h]; exact ⟨_, rfl⟩
  · rw [setInterface_wire h]; cases setInterface vx <;> exact ⟨_, rfl⟩
  · subst h; exact ⟨_, rfl⟩
  · subst h; cases setInterface vx <;> exact ⟨_, rfl⟩

example (E : Engine) (s : St) : VerifyCheckOnCurve (.big 1) (.big 2) E s = .ok (none, s) := by
  obtain ⟨e, h, he⟩ := C12_check (.big 1) (.big 2) E s
  rw [h, he.2 (.inl (by norm_num))]
example (E : Engine) (s : St) : VerifyCheckOnCurve (.big 1) (.big 2) E s =
    VerifyCheckOnCurve (.big (1 + 3 * pMod)) (.big (2 + (-1) * pMod)) E s := (C12_residues 1 2 3 (-1) E s).symm
example (E : Engine) (s : St) : ∃ m, VerifyCheckOnCurve (.big 1) (.big 3) E s = .ok (some m, s) := by
  obtain ⟨e, h, he⟩ := C12_check (.big 1) (.big 3) E s
  cases e with
  | some m => exact ⟨m, h⟩
  | none => exact absurd (he.1 rfl) (by decide +kernel)

/-! ### C13 (false of the code) -/

/-- C13 is false: on circuit variables the check succeeds for every pair of values, and emits no constraint. -/
theorem C13_false (x y : Fr) (E : Engine) (s : St) :
    VerifyCheckOnCurveVar (.wire x) (.wire y) E s = .ok (none, s) := by
  have : isOnCurve 0 0 = true := (isOnCurve_iff 0 0).2 (.inr rfl)
  simp only [VerifyCheckOnCurveVar, setInterface, Option.getD_none, this, if_true, Circ.pure_run]

/-- C13, witness: (1, 1) is not a point of the curve, but is accepted. -/
theorem C13_witness : (1 : ℤ) ^ 2 ≠ 1 ^ 3 + 3 ∧ ¬ OnCurve 1 1 ∧
    ∀ E s, VerifyCheckOnCurveVar (.wire 1) (.wire 1) E s = .ok (none, s) :=
  ⟨by norm_num, by decide +kernel, fun E s => C13_false 1 1 E s⟩

/-- C13, what remains: on constants the function agrees with `VerifyCheckOnCurve`. -/
theorem C13_const_partial {vx vy : Var} {x y : ℤ} (hx : IsConst vx x) (hy : IsConst vy y) (E : Engine) (s : St) :
    VerifyCheckOnCurveVar vx vy E s = VerifyCheckOnCurve vx vy E s := by
  simp only [VerifyCheckOnCurveVar, VerifyCheckOnCurve, hx.setInterface, hy.setInterface, Option.getD_some]

/-- C13, every pair of arguments: a circuit variable or nil counts as the coordinate 0, constants as they are; the function returns
an error iff the pair so read is not on the curve, and never adds a constraint. -/
theorem C13_exact {vx vy : Var} {x y : ℤ} (hx : IsConst vx x ∨ (vx.isWire = true ∨ vx = .nil) ∧ x = 0)
    (hy : IsConst vy y ∨ (vy.isWire = true ∨ vy = .nil) ∧ y = 0) (E : Engine) (s : St) :
    ∃ e : GoErr, VerifyCheckOnCurveVar vx vy E s = .ok (e, s) ∧
      (e = none ↔ ((pMod : ℤ) ∣ y ^ 2 - (x ^ 3 + 3) ∨ ((pMod : ℤ) ∣ x ∧ (pMod : ℤ) ∣ y))) := by
  have key : ∀ {v : Var} {n : ℤ}, (IsConst v n ∨ (v.isWire = true ∨ v = .nil) ∧ n = 0) → (setInterface v).getD 0 = (n : Fp) := by
    rintro v n (h | ⟨h, rfl⟩)
    · rw [h.setInterface, Option.getD_some]
    · cases v with
      | wire w => simp [setInterface]
      | nil => simp [setInterface]
      | int m => simp [Var.isWire] at h
      | big m => simp [Var.isWire] at h
  refine ⟨if isOnCurve (x : Fp) (y : Fp) then none else errNotOnCurve, ?_, ?_⟩
  · simp only [VerifyCheckOnCurveVar, key hx, key hy, Circ.pure_run]
  · rw [← isOnCurve_int]
    cases isOnCurve (x : Fp) (y : Fp) <;> simp [errNotOnCurve]

-- a wire next to the constant 2 is rejected, next to the constant 0 accepted, whatever its value
example (w : Fr) (E : Engine) (s : St) : (∃ m, VerifyCheckOnCurveVar (.wire w) (.big 2) E s = .ok (some m, s)) ∧
    VerifyCheckOnCurveVar (.wire w) (.big 0) E s = .ok (none, s) := by
  obtain ⟨e, h, he⟩ := C13_exact (vx := .wire w) (x := 0) (.inr ⟨.inl rfl, rfl⟩) (.inl (.big 2)) E s
  obtain ⟨e', h', he'⟩ := C13_exact (vx := .wire w) (x := 0) (.inr ⟨.inl rfl, rfl⟩) (.inl (.big 0)) E s
  constructor
  · cases e with
    | some m => exact ⟨m, h⟩
    | none => exact absurd (he.1 rfl) (by decide +kernel)
  · rw [h', he'.2 (.inr ⟨by norm_num, by norm_num⟩)]

/-! ### C14 -/

/-- C14: the curve has exactly r points. -/
theorem C14_order : Nat.card G1 = rMod := card_G1

/-- C14: any constants accepted by the check are the coordinates of a point P of the curve (infinity for (0,0)) with
r·P = O, and multiplying P by integers only depends on them modulo r. -/
theorem C14_subgroup {vx vy : Var} {x y : ℤ} (hx : IsConst vx x) (hy : IsConst vy y) {E : Engine} {s s' : St}
    (h : VerifyCheckOnCurve vx vy E s = .ok (none, s')) :
    ∃ P : G1, enc P = ((x : Fp), (y : Fp)) ∧ rMod • P = 0 ∧ ∀ k : ℤ, k • P = (k % rMod) • P := by
  simp only [VerifyCheckOnCurve, hx.setInterface, hy.setInterface, Circ.pure_run] at h
  have hc : isOnCurve (x : Fp) (y : Fp) = true := by
    by_contra hc
    simp [hc, errNotOnCurve] at h
  obtain ⟨P, hP⟩ := (validEnc_iff _).1 ((isOnCurve_iff _ _).1 hc)
  refine ⟨P, hP, r_smul P, fun k => ?_⟩
  conv_lhs => rw [← Int.emod_add_mul_ediv k rMod, add_zsmul, mul_comm, mul_zsmul, natCast_zsmul, r_smul, zsmul_zero,
    add_zero]

example : ∃ P : G1, enc P = (((1 : ℤ) : Fp), ((2 : ℤ) : Fp)) ∧ rMod • P = 0 ∧ ∀ k : ℤ, k • P = (k % rMod) • P := by
  obtain ⟨e, h, he⟩ := C12_check (.big 1) (.big 2) exTestE .init
  rw [he.2 (.inl (by norm_num))] at h
  exact C14_subgroup (.big 1) (.big 2) h
where exTestE : Engine := ⟨.test, true, fun _ _ _ _ => .err⟩

/-! ### C15 -/

/-- A run of `CalcVerifyBN256Msm` returning no error only happens in the test engine: in a compiled circuit it always
returns an error. -/
theorem C15_compile_error {X : Ext} {E : Engine} (hE : E.mode = .compile) {x y k : Var} {s s' : St}
    {res : Var × Var} {e : GoErr} (h : CalcVerifyBN256Msm X x y k E s = .ok ((res, e), s')) : e ≠ none := by
  rintro rfl
  simp only [CalcVerifyBN256Msm, Circ.bind_ok, idx_ok] at h
  obtain ⟨rs, s1, h1, r0, _, ⟨hr0, rfl⟩, e0, s2, h2, r1, _, ⟨hr1, rfl⟩, e1, s3, h3, err, s4, h4, h5⟩ := h
  cases h5
  obtain ⟨i2, -, -, t2, w2, sat2⟩ := mod_ok h2
  obtain ⟨i4, px, py, kk, ex, ey, a1, a2, a3, a4, -⟩ := vsm_ok h4
  rw [setInterface_wire (w2 hE)] at a4; cases a4

/-- C15: constants with residues (x, y) = P ≠ O and k with 0 ≤ k < p, k ≢ 0 (mod r). If the run is accepted without
error then, whatever the hints answered, the result is the pair of integers in [0, r) that encode k·P. -/
theorem C15_msm {X : Ext} (hX : X.Lawful) {vx vy vk : Var} {x y k : ℤ} (hx : IsConst vx x) (hy : IsConst vy y)
    (hk : IsConst vk k) {P : G1} (hP : enc P = ((x : Fp), (y : Fp))) (hP0 : P ≠ 0) (hk0 : 0 ≤ k) (hkp : k < pMod)
    (hkr : (k : Fr) ≠ 0) {E : Engine} {s : St} {res : Var × Var}
    (h : (CalcVerifyBN256Msm X vx vy vk).Accepts E s (res, none)) :
    ∃ n m : ℤ, res = (.big n, .big m) ∧ 0 ≤ n ∧ n < rMod ∧ 0 ≤ m ∧ m < rMod ∧
      enc (k • P) = ((n : Fp), (m : Fp)) := by
  obtain ⟨s', h, hs⟩ := h
  obtain ⟨-, -, -, px, py, kk, h1, h2, h3, n, m, hr, n0, n1, m0, m1, hm⟩ := calcMsm_ok h hs
  rw [hx.setInterface] at h1; cases h1
  rw [hy.setInterface] at h2; cases h2
  rw [hk.setInterface] at h3; cases h3
  have hkv : (((k : Fp)).val : ℤ) = k := by
    rw [ZMod.val_intCast]; exact Int.emod_eq_of_lt hk0 hkp
  have hkf : ((((k : Fp)).val : ℕ) : Fr) = (k : Fr) := by
    rw [← Int.cast_natCast (R := Fr), hkv]
  rw [hkf, ← hP, hX.scalarMul P k hP0 hkr] at hm
  refine ⟨n, m, hr, n0, n1, m0, m1, ?_⟩
  rw [← Option.some.inj hm]
  rw [Int.cast_smul_eq_zsmul]

/-- C15 without side conditions on P and k, for the strict contract (nothing wrong on degenerate inputs). The scalar
actually used is k modulo p (the code first converts it to an Fp element). -/
theorem C15_msm_strict {X : Ext} (hX : X.Strict) {vx vy vk : Var} {x y k : ℤ} (hx : IsConst vx x) (hy : IsConst vy y)
    (hk : IsConst vk k) {P : G1} (hP : enc P = ((x : Fp), (y : Fp))) {E : Engine} {s : St} {res : Var × Var}
    (h : (CalcVerifyBN256Msm X vx vy vk).Accepts E s (res, none)) :
    ∃ n m : ℤ, res = (.big n, .big m) ∧ 0 ≤ n ∧ n < rMod ∧ 0 ≤ m ∧ m < rMod ∧
      enc ((k % pMod) • P) = ((n : Fp), (m : Fp)) := by
  obtain ⟨s', h, hs⟩ := h
  obtain ⟨-, -, -, px, py, kk, h1, h2, h3, n, m, hr, n0, n1, m0, m1, hm⟩ := calcMsm_ok h hs
  rw [hx.setInterface] at h1; cases h1
  rw [hy.setInterface] at h2; cases h2
  rw [hk.setInterface] at h3; cases h3
  rw [← hP] at hm
  refine ⟨n, m, hr, n0, n1, m0, m1, ?_⟩
  rw [hX.scalarMul_deg P _ _ hm, ← Int.cast_natCast (R := Fr), ZMod.val_intCast, Int.cast_smul_eq_zsmul]

/-! ### C16 -/

theorem mod_r_cast_p {n : ℕ} (hn : n < pMod) : ((((n : ℤ) % rMod : ℤ)) : Fp) = (n : Fp) ↔ n < rMod := by
  constructor
  · intro h
    by_contra hc
    have h1 : (n : ℤ) % rMod = ((n % rMod : ℕ) : ℤ) := by push_cast; rfl
    rw [h1, Int.cast_natCast, ZMod.natCast_eq_natCast_iff'] at h
    have h2 : n % rMod < rMod := Nat.mod_lt _ rMod_pos
    rw [Nat.mod_eq_of_lt (h2.trans rMod_lt_pMod), Nat.mod_eq_of_lt hn] at h
    omega
  · intro h
    rw [Int.emod_eq_of_lt (by positivity) (by exact_mod_cast h)]
    simp

/-- The hint reads canonical coordinates unchanged, in both variants of the test engine. -/
theorem toBig_coord {raw : Bool} {X : Ext} {n : ℕ} (h : raw = true ∨ n < rMod) :
    toBig (honestTest X raw) (.big n) = some (n : ℤ) := by
  rcases h with rfl | h
  · simp [toBig, honestTest]
  · simp only [toBig]
    split
    · rfl
    · rw [Int.emod_eq_of_lt (by positivity) (by exact_mod_cast h)]

/-- C16: test engine with the repo's hints, canonical coordinates of P ≠ O (below r if the engine reduces what it
passes to hints), 0 < k < r: the call is accepted without error iff both coordinates of k·P are below r. -/
theorem C16_msm_iff {X : Ext} (hX : X.Lawful) {raw : Bool} {P : G1} (hP0 : P ≠ 0) {k : ℕ} (hk0 : 0 < k) (hkr : k < rMod)
    (hraw : raw = true ∨ ((enc P).1.val < rMod ∧ (enc P).2.val < rMod)) {s : St} (hs : s.sat = true) :
    (∃ res, (CalcVerifyBN256Msm X (.big (enc P).1.val) (.big (enc P).2.val) (.big k)).Accepts
        (honestTest X raw) s (res, none)) ↔
      (enc (k • P)).1.val < rMod ∧ (enc (k • P)).2.val < rMod := by
  have hkF : ((k : ℕ) : Fr) ≠ 0 := by
    intro h0
    rw [ZMod.natCast_eq_zero_iff] at h0
    exact absurd (Nat.le_of_dvd hk0 h0) (by omega)
  have hne : k • P ≠ 0 := by
    rw [← Nat.cast_smul_eq_nsmul Fr]
    intro h0
    rcases fr_smul_eq_zero.1 h0 with h0 | h0
    · exact hkF h0
    · exact hP0 h0
  have t1 := toBig_coord (X := X) (raw := raw) (n := (enc P).1.val) (hraw.imp id And.left)
  have t2 := toBig_coord (X := X) (raw := raw) (n := (enc P).2.val) (hraw.imp id And.right)
  have t3 := toBig_coord (X := X) (raw := raw) (n := k) (.inr hkr)
  have hrun := calcMsm_run (X := X) (E := honestTest X raw) (s := s) rfl (honest_honestMod X) t1 t2 t3
    (MsmHint_eq (P := P) (Int.natAbs_natCast _) (Int.natAbs_natCast _))
  rw [natCast_zsmul, bn256Affine_ne hne] at hrun
  simp only [List.getD_cons_zero, List.getD_cons_succ] at hrun
  have hkv : (((k : ℤ) : Fp)).val = k := by
    rw [Int.cast_natCast]; exact ZMod.val_natCast_of_lt (hkr.trans rMod_lt_pMod)
  have hiff := vsm_accepts (X := X)
    (point := (.big ((enc P).1.val : ℤ), .big ((enc P).2.val : ℤ))) (scalar := .big k)
    (expected := (.big (((enc (k • P)).1.val : ℤ) % rMod), .big (((enc (k • P)).2.val : ℤ) % rMod)))
    rfl rfl rfl rfl rfl (honestTest X raw) (s.addHints [.msmHint, .modHint, .modHint]) none
  rw [hkv] at hiff
  simp only [Int.cast_natCast, ZMod.natCast_zmod_val] at hiff
  rw [show ((enc P).1, (enc P).2) = enc P from rfl, hX.scalarMul P k hP0 hkF, Nat.cast_smul_eq_nsmul] at hiff
  have hxy : ((some (enc (k • P)) : Option Aff) =
      some (((((enc (k • P)).1.val : ℤ) % rMod : ℤ) : Fp), ((((enc (k • P)).2.val : ℤ) % rMod : ℤ) : Fp))) ↔
      ((enc (k • P)).1.val < rMod ∧ (enc (k • P)).2.val < rMod) := by
    rw [Option.some.injEq, Prod.ext_iff, ← mod_r_cast_p (fp_val_lt _), ← mod_r_cast_p (fp_val_lt (enc (k • P)).2)]
    simp only [ZMod.natCast_zmod_val]
    exact and_congr eq_comm eq_comm
  rw [hxy] at hiff
  constructor
  · rintro ⟨res, s', h, hs'⟩
    rw [hrun] at h
    cases hv : VerifyBN254ScalarMul X (.big ((enc P).1.val : ℤ), .big ((enc P).2.val : ℤ)) (.big k)
        (.big (((enc (k • P)).1.val : ℤ) % rMod), .big (((enc (k • P)).2.val : ℤ) % rMod)) (honestTest X raw)
        (s.addHints [.msmHint, .modHint, .modHint]) with
    | error p => rw [hv] at h; cases h
    | ok r =>
      obtain ⟨e, s2⟩ := r
      rw [hv] at h
      cases h
      exact (hiff.1 ⟨_, hv, hs'⟩).2.2
  · intro h
    obtain ⟨s', hv, hs'⟩ := hiff.2 ⟨trivial, hs, h⟩
    rw [hv] at hrun
    exact ⟨_, s', hrun, hs'⟩

/-- A point with x-coordinate r + 2, which is at least r. -/
def bigPt : G1 := mkPt (21888242871839275222246405745257275088548364400416034343698204186575808495619 : ℕ)
  (8266872138877215743360378412454276800624950262828726648952725738991409913282 : ℕ) (by decide +kernel)
/-- Half of it; both coordinates are below r. -/
def halfPt : G1 := mkPt (16882891121058508148433874465172170280883279765506601848634579303982234132053 : ℕ)
  (7708740086496522701759217494890928909164877048843226287262572412244331970760 : ℕ) (by decide +kernel)

theorem two_halfPt : 2 • halfPt = bigPt := by
  apply encN_injective
  rw [← mulN_encN 2 halfPt (by norm_num)]
  have h1 : encN halfPt = (16882891121058508148433874465172170280883279765506601848634579303982234132053,
    7708740086496522701759217494890928909164877048843226287262572412244331970760) := by decide +kernel
  have h2 : encN bigPt = (21888242871839275222246405745257275088548364400416034343698204186575808495619,
    8266872138877215743360378412454276800624950262828726648952725738991409913282) := by decide +kernel
  rw [h1, h2]
  decide +kernel

/-- C16: there is a correct multiplication, by k = 2, of a point with both coordinates below r, that is rejected. -/
theorem C16_rejects_valid : ∃ (P : G1) (k : ℕ), P ≠ 0 ∧ 0 < k ∧ k < rMod ∧ (enc P).1.val < rMod ∧
    (enc P).2.val < rMod ∧ ∀ (X : Ext), X.Lawful → ∀ (raw : Bool) (s : St), s.sat = true →
    ¬ ∃ res, (CalcVerifyBN256Msm X (.big (enc P).1.val) (.big (enc P).2.val) (.big k)).Accepts
        (honestTest X raw) s (res, none) := by
  have h1 : (enc halfPt).1.val < rMod := by decide +kernel
  have h2 : (enc halfPt).2.val < rMod := by decide +kernel
  refine ⟨halfPt, 2, mkPt_ne_zero _ _ _, by norm_num, by decide +kernel, h1, h2, fun X hX raw s hs => ?_⟩
  rw [C16_msm_iff (P := halfPt) hX (mkPt_ne_zero _ _ _) (by norm_num) (by decide +kernel) (.inr ⟨h1, h2⟩) hs, two_halfPt]
  decide +kernel

-- an accepted case: 2·(1,2)
example : ∃ res, (CalcVerifyBN256Msm exX (.big 1) (.big 2) (.big 2)).Accepts (honestTest exX true) .init (res, none) := by
  have h := (C16_msm_iff (X := exX) exX_strict.toLawful (raw := true) (P := G1gen) gen_ne_zero (k := 2) (by norm_num)
    (by decide +kernel) (.inl rfl) (s := .init) rfl)
  have e : encN (2 • G1gen) = (1368015179489954701390400359078579693043519447331113978918064868415326638035,
    9918110051302171585080402603319702774565515993150576347155970296011118125764) := by
    rw [← mulN_encN 2 G1gen (by norm_num), encN_gen]; decide +kernel
  have e1 := congrArg Prod.fst e
  have e2 := congrArg Prod.snd e
  simp only [encN] at e1 e2
  rw [e1, e2] at h
  have g1 : (enc G1gen).1.val = 1 := congrArg Prod.fst encN_gen
  have g2 : (enc G1gen).2.val = 2 := congrArg Prod.snd encN_gen
  rw [g1, g2] at h
  exact h.2 (by decide +kernel)

-- C15 applies to that run
example {res} (h : (CalcVerifyBN256Msm exX (.big 1) (.big 2) (.big 2)).Accepts (honestTest exX true) .init (res, none)) :
    ∃ n m : ℤ, res = (.big n, .big m) ∧ 0 ≤ n ∧ n < rMod ∧ 0 ≤ m ∧ m < rMod ∧
      enc ((2 : ℤ) • G1gen) = ((n : Fp), (m : Fp)) :=
  C15_msm exX_strict.toLawful (.big 1) (.big 2) (.big 2) (by simp [G1gen]) gen_ne_zero (by norm_num)
    (by decide +kernel) (by decide +kernel) h

/-! ### C17 -/

/-- C17: constants with residues encoding P and Q (either may be O). If the call is accepted without error then,
whatever the hints answered, the result is the pair of integers in [0, r) that encode P + Q. -/
theorem C17_add {X : Ext} (hX : X.Lawful) {v1 v2 v3 v4 : Var} {x1 y1 x2 y2 : ℤ} (h1 : IsConst v1 x1)
    (h2 : IsConst v2 y1) (h3 : IsConst v3 x2) (h4 : IsConst v4 y2) {P Q : G1} (hP : enc P = ((x1 : Fp), (y1 : Fp)))
    (hQ : enc Q = ((x2 : Fp), (y2 : Fp))) {E : Engine} {s : St} {res : Var × Var}
    (h : (CalcVerifyBN256Add X v1 v2 v3 v4).Accepts E s (res, none)) :
    ∃ n m : ℤ, res = (.big n, .big m) ∧ 0 ≤ n ∧ n < rMod ∧ 0 ≤ m ∧ m < rMod ∧
      enc (P + Q) = ((n : Fp), (m : Fp)) := by
  obtain ⟨s', h, hs⟩ := h
  obtain ⟨-, -, -, a, b, c, d, e1, e2, e3, e4, n, m, hr, n0, n1, m0, m1, hm⟩ := calcAdd_ok h hs
  rw [h1.setInterface] at e1; cases e1
  rw [h2.setInterface] at e2; cases e2
  rw [h3.setInterface] at e3; cases e3
  rw [h4.setInterface] at e4; cases e4
  rw [← hP, ← hQ, hX.addUnified] at hm
  exact ⟨n, m, hr, n0, n1, m0, m1, Option.some.inj hm⟩

/-- C17, honest hints, canonical coordinates: accepted without error iff P + Q ≠ O and both coordinates of P + Q are
below r. -/
theorem C17_add_iff {X : Ext} (hX : X.Lawful) {raw : Bool} {P Q : G1}
    (hraw : raw = true ∨ ((enc P).1.val < rMod ∧ (enc P).2.val < rMod ∧ (enc Q).1.val < rMod ∧ (enc Q).2.val < rMod))
    {s : St} (hs : s.sat = true) :
    (∃ res, (CalcVerifyBN256Add X (.big (enc P).1.val) (.big (enc P).2.val) (.big (enc Q).1.val)
        (.big (enc Q).2.val)).Accepts (honestTest X raw) s (res, none)) ↔
      P + Q ≠ 0 ∧ (enc (P + Q)).1.val < rMod ∧ (enc (P + Q)).2.val < rMod := by
  have t1 := toBig_coord (X := X) (raw := raw) (n := (enc P).1.val) (hraw.imp id And.left)
  have t2 := toBig_coord (X := X) (raw := raw) (n := (enc P).2.val) (hraw.imp id fun h => h.2.1)
  have t3 := toBig_coord (X := X) (raw := raw) (n := (enc Q).1.val) (hraw.imp id fun h => h.2.2.1)
  have t4 := toBig_coord (X := X) (raw := raw) (n := (enc Q).2.val) (hraw.imp id fun h => h.2.2.2)
  have hrun := calcAdd_run (X := X) (E := honestTest X raw) (s := s) rfl (honest_honestMod X) t1 t2 t3 t4
    (AddHint_eq (P := P) (Q := Q) (Int.natAbs_natCast _) (Int.natAbs_natCast _) (Int.natAbs_natCast _)
      (Int.natAbs_natCast _))
  simp only [List.getD_cons_zero, List.getD_cons_succ] at hrun
  have hiff := fun e0 e1 => vadd_accepts (X := X)
    (p1 := (.big ((enc P).1.val : ℤ), .big ((enc P).2.val : ℤ)))
    (p2 := (.big ((enc Q).1.val : ℤ), .big ((enc Q).2.val : ℤ)))
    (expected := (.big e0, .big e1))
    rfl rfl rfl rfl rfl rfl (honestTest X raw) (s.addHints [.addHint, .modHint, .modHint]) none
  simp only [Int.cast_natCast, ZMod.natCast_zmod_val] at hiff
  rw [show ((enc P).1, (enc P).2) = enc P from rfl, show ((enc Q).1, (enc Q).2) = enc Q from rfl,
    hX.addUnified] at hiff
  have hxy : ((some (enc (P + Q)) : Option Aff) =
      some (((((bn256Affine (P + Q)).1 : ℤ) % rMod : ℤ) : Fp), ((((bn256Affine (P + Q)).2 : ℤ) % rMod : ℤ) : Fp))) ↔
      (P + Q ≠ 0 ∧ (enc (P + Q)).1.val < rMod ∧ (enc (P + Q)).2.val < rMod) := by
    by_cases h0 : P + Q = 0
    · rw [h0, bn256Affine_zero]
      simp only [ne_eq, not_true_eq_false, false_and, iff_false, enc_zero, Option.some.injEq, Prod.mk.injEq, not_and]
      intro _
      decide +kernel
    · rw [bn256Affine_ne h0, Option.some.injEq, Prod.ext_iff, ← mod_r_cast_p (fp_val_lt _),
        ← mod_r_cast_p (fp_val_lt (enc (P + Q)).2)]
      simp only [ZMod.natCast_zmod_val, ne_eq, h0, not_false_eq_true, true_and]
      exact and_congr eq_comm eq_comm
  constructor
  · rintro ⟨res, s', h, hs'⟩
    rw [hrun] at h
    cases hv : VerifyBN254Add X (.big ((enc P).1.val : ℤ), .big ((enc P).2.val : ℤ))
        (.big ((enc Q).1.val : ℤ), .big ((enc Q).2.val : ℤ))
        (.big (((bn256Affine (P + Q)).1 : ℤ) % rMod), .big (((bn256Affine (P + Q)).2 : ℤ) % rMod)) (honestTest X raw)
        (s.addHints [.addHint, .modHint, .modHint]) with
    | error p => rw [hv] at h; cases h
    | ok r =>
      obtain ⟨e, s2⟩ := r
      rw [hv] at h
      cases h
      exact hxy.1 (((hiff _ _).1 ⟨_, hv, hs'⟩).2.2)
  · intro h
    obtain ⟨s', hv, hs'⟩ := (hiff _ _).2 ⟨trivial, hs, hxy.2 h⟩
    rw [hv] at hrun
    exact ⟨_, s', hrun, hs'⟩

-- (1,2) + (1,2) is accepted, (1,2) + (1,p-2) is not
example : ∃ res, (CalcVerifyBN256Add exX (.big 1) (.big 2) (.big 1) (.big 2)).Accepts (honestTest exX false) .init
    (res, none) := by
  have g1 : (enc G1gen).1.val = 1 := congrArg Prod.fst encN_gen
  have g2 : (enc G1gen).2.val = 2 := congrArg Prod.snd encN_gen
  have h := C17_add_iff (X := exX) exX_strict.toLawful (raw := false) (P := G1gen) (Q := G1gen)
    (.inr (by rw [g1, g2]; decide +kernel)) (s := .init) rfl
  have e : encN (G1gen + G1gen) = (1368015179489954701390400359078579693043519447331113978918064868415326638035,
    9918110051302171585080402603319702774565515993150576347155970296011118125764) := by
    rw [← addN_encN, encN_gen]; decide +kernel
  have e1 := congrArg Prod.fst e
  have e2 := congrArg Prod.snd e
  simp only [encN] at e1 e2
  rw [g1, g2, e1, e2] at h
  exact h.2 ⟨fun h0 => gen_ne_zero (no_two_torsion _ h0), by decide +kernel⟩
example (P : G1) (raw : Bool) (hraw : raw = true) :
    ¬ ∃ res, (CalcVerifyBN256Add exX (.big (enc P).1.val) (.big (enc P).2.val) (.big (enc (-P)).1.val)
        (.big (enc (-P)).2.val)).Accepts (honestTest exX raw) .init (res, none) := by
  rw [C17_add_iff exX_strict.toLawful (.inl hraw) rfl]
  simp

end Verif
