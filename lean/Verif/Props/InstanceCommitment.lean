/-
Property C72: the instance commitment. `CalcVerifyCircuitLagrange` multiplies one fixed point of the curve (`vkInstance`, the
commitment of the first Lagrange basis polynomial, given by its coordinates in Spec/VerifyingKey.lean) by entry 2 of the buffer.
-/
import Verif.Props.Instances

namespace Verif

/-- C72: the fixed point is a point of the curve of order exactly r. -/
theorem C72_base : OnCurve (vkInstanceCoords.1 : Fp) (vkInstanceCoords.2 : Fp) ∧
    enc vkInstance = ((vkInstanceCoords.1 : Fp), (vkInstanceCoords.2 : Fp)) ∧ addOrderOf vkInstance = rMod := by
  have h : enc vkInstance = ((vkInstanceCoords.1 : Fp), (vkInstanceCoords.2 : Fp)) := vkInstance_enc
  have h0 : vkInstance ≠ 0 := by
    intro h0
    rw [h0, enc_zero] at h
    exact absurd (congrArg Prod.fst h) (by decide +kernel)
  exact ⟨by decide +kernel, h, addOrderOf_eq_prime (r_smul _) h0⟩

theorem lagrange_inv {X : Ext} {buf : List Var} {E : Engine} {s s' : St} {e : GoErr} {buf' : List Var}
    (h : CalcVerifyCircuitLagrange X buf E s = .ok ((e, buf'), s')) :
    ∃ k res, buf[2]? = some k ∧ CalcVerifyBN256Msm X (.big lagrangeX) (.big lagrangeY) k E s = .ok ((res, e), s') ∧
      buf' = (buf.set 0 res.1).set 1 res.2 := by
  unfold CalcVerifyCircuitLagrange at h
  rw [Circ.bind_ok] at h
  obtain ⟨k, _, hk', h⟩ := h
  obtain ⟨hk, rfl⟩ := idx_ok.1 hk'
  rw [Circ.bind_ok] at h
  obtain ⟨⟨res, e'⟩, t, hm, h⟩ := h
  rw [Circ.bind_ok] at h
  obtain ⟨b1, _, q1, h⟩ := h
  obtain ⟨-, rfl, rfl⟩ := setIdx_ok.1 q1
  rw [Circ.bind_ok] at h
  obtain ⟨b2, _, q2, h⟩ := h
  obtain ⟨-, rfl, rfl⟩ := setIdx_ok.1 q2
  rw [Circ.pure_run, Except.ok.injEq, Prod.mk.injEq, Prod.mk.injEq] at h
  obtain ⟨⟨rfl, rfl⟩, rfl⟩ := h
  exact ⟨k, res, hk, hm, rfl⟩

theorem lagrange_run {X : Ext} {buf : List Var} {E : Engine} {s s' : St} {e : GoErr} {k : Var} {res : Var × Var} (hk : buf[2]? = some k)
    (h : CalcVerifyBN256Msm X (.big lagrangeX) (.big lagrangeY) k E s = .ok ((res, e), s')) :
    CalcVerifyCircuitLagrange X buf E s = .ok ((e, (buf.set 0 res.1).set 1 res.2), s') := by
  obtain ⟨hl, -⟩ := List.getElem?_eq_some_iff.1 hk
  unfold CalcVerifyCircuitLagrange
  refine Circ.bind_ok.2 ⟨k, s, idx_ok.2 ⟨hk, rfl⟩, Circ.bind_ok.2 ⟨(res, e), s', h, Circ.bind_ok.2 ⟨_, s', setIdx_ok.2 ⟨by omega, rfl, rfl⟩,
    Circ.bind_ok.2 ⟨_, s', setIdx_ok.2 ⟨by rw [List.length_set]; omega, rfl, rfl⟩, rfl⟩⟩⟩⟩

/-- C72: if the call is accepted without error on a constant k with 0 ≤ k < p then, whatever the hints answered, entries 0 and 1 of
the buffer become the coordinates of k·L, both below r, and the other entries stay as they were. -/
theorem C72_point {X : Ext} (hX : X.Strict) {buf buf' : List Var} {v : Var} {k : ℤ} (hv : buf[2]? = some v) (hk : IsConst v k)
    (h0 : 0 ≤ k) (hp : k < pMod) {E : Engine} {s : St} (h : (CalcVerifyCircuitLagrange X buf).Accepts E s (none, buf')) :
    ∃ n m : ℤ, 0 ≤ n ∧ n < rMod ∧ 0 ≤ m ∧ m < rMod ∧ enc (k • vkInstance) = ((n : Fp), (m : Fp)) ∧ buf'.length = buf.length ∧
      buf'[0]? = some (.big n) ∧ buf'[1]? = some (.big m) ∧ ∀ i, 2 ≤ i → buf'[i]? = buf[i]? := by
  obtain ⟨s', h, hs⟩ := h
  obtain ⟨w, res, hw, hm, rfl⟩ := lagrange_inv h
  cases hv.symm.trans hw
  obtain ⟨n, m, rfl, n0, n1, m0, m1, e⟩ := C15_msm_strict hX (.big _) (.big _) hk (P := vkInstance)
    (by rw [vkInstance_enc]; simp only [Int.cast_natCast]) ⟨s', hm, hs⟩
  rw [Int.emod_eq_of_lt h0 hp] at e
  obtain ⟨hl, -⟩ := List.getElem?_eq_some_iff.1 hv
  refine ⟨n, m, n0, n1, m0, m1, e, by simp only [List.length_set], ?_, ?_, fun i hi => ?_⟩
  · rw [List.getElem?_set_ne (by omega), List.getElem?_set_self (by omega)]
  · rw [List.getElem?_set_self (by rw [List.length_set]; omega)]
  · rw [List.getElem?_set_ne (by omega), List.getElem?_set_ne (by omega)]

/-- C72, binding: two accepted calls, with any hints, that store the same two coordinates had the same scalar modulo r. -/
theorem C72_binding {X : Ext} (hX : X.Strict) {b c b' c' : List Var} {v w : Var} {k l : ℤ} (hv : b[2]? = some v) (hw : c[2]? = some w)
    (hk : IsConst v k) (hl : IsConst w l) (k0 : 0 ≤ k) (kp : k < pMod) (l0 : 0 ≤ l) (lp : l < pMod) {E E' : Engine} {s t : St}
    (h : (CalcVerifyCircuitLagrange X b).Accepts E s (none, b')) (h' : (CalcVerifyCircuitLagrange X c).Accepts E' t (none, c'))
    (e0 : b'[0]? = c'[0]?) (e1 : b'[1]? = c'[1]?) : (k : Fr) = (l : Fr) := by
  obtain ⟨n, m, -, -, -, -, e, -, q0, q1, -⟩ := C72_point hX hv hk k0 kp h
  obtain ⟨n', m', -, -, -, -, e', -, q0', q1', -⟩ := C72_point hX hw hl l0 lp h'
  rw [q0, q0'] at e0
  rw [q1, q1'] at e1
  cases e0
  cases e1
  have h1 : k • vkInstance = l • vkInstance := enc_injective (e.trans e'.symm)
  rw [← Int.cast_smul_eq_zsmul Fr, ← Int.cast_smul_eq_zsmul Fr l, ← sub_eq_zero, ← sub_smul] at h1
  rcases fr_smul_eq_zero.1 h1 with h2 | h2
  · exact sub_eq_zero.1 h2
  · have h3 := C72_base.2.2
    rw [h2, addOrderOf_zero] at h3
    exact absurd h3 (by decide +kernel)

/-- C72, exactness with the hints of the repo, for 0 < k < r: accepted iff both coordinates of k·L are below r. -/
theorem C72_iff {X : Ext} (hX : X.Lawful) {raw : Bool} {buf : List Var} {k : ℕ} (hk : buf[2]? = some (.big k)) (k0 : 0 < k) (kr : k < rMod)
    {s : St} (hs : s.sat = true) :
    (∃ buf', (CalcVerifyCircuitLagrange X buf).Accepts (honestTest X raw) s (none, buf')) ↔
      (enc (k • vkInstance)).1.val < rMod ∧ (enc (k • vkInstance)).2.val < rMod := by
  have g1 : (enc vkInstance).1.val = lagrangeX := by rw [vkInstance_enc]; decide +kernel
  have g2 : (enc vkInstance).2.val = lagrangeY := by rw [vkInstance_enc]; decide +kernel
  have hP : vkInstance ≠ 0 := by
    intro h2
    have h3 := C72_base.2.2
    rw [h2, addOrderOf_zero] at h3
    exact absurd h3 (by decide +kernel)
  rw [← C16_msm_iff hX hP k0 kr (raw := raw) (.inr (by rw [g1, g2]; decide +kernel)) hs, g1, g2]
  constructor
  · rintro ⟨buf', s', h, h'⟩
    obtain ⟨w, res, hw, hm, -⟩ := lagrange_inv h
    cases hk.symm.trans hw
    exact ⟨res, s', hm, h'⟩
  · rintro ⟨res, s', h, h'⟩
    exact ⟨_, s', lagrange_run hk h, h'⟩

/-- C72: a buffer of fewer than three entries panics. -/
theorem C72_range (X : Ext) {buf : List Var} (h : buf.length ≤ 2) (E : Engine) (s : St) :
    ∃ p, CalcVerifyCircuitLagrange X buf E s = .error p := by
  cases hr : CalcVerifyCircuitLagrange X buf E s with
  | error p => exact ⟨p, rfl⟩
  | ok r =>
    obtain ⟨⟨e, b⟩, s'⟩ := r
    obtain ⟨k, -, hk, -⟩ := lagrange_inv hr
    obtain ⟨hl, -⟩ := List.getElem?_eq_some_iff.1 hk
    omega

/-- C72: in a compiled circuit it never returns without error. -/
theorem C72_compile (X : Ext) {buf buf' : List Var} {E : Engine} (hE : E.mode = .compile) {s s' : St} {e : GoErr}
    (h : CalcVerifyCircuitLagrange X buf E s = .ok ((e, buf'), s')) : e ≠ none := by
  obtain ⟨k, res, -, hm, -⟩ := lagrange_inv h
  exact C15_compile_error hE hm

/-- The point L itself: k = 1 is accepted, and stores L (its coordinates are below r). -/
example : ∃ buf', (CalcVerifyCircuitLagrange exX [.nil, .nil, .big 1, .int 7]).Accepts (honestTest exX true) .init (none, buf') ∧
    buf'[3]? = some (.int 7) := by
  obtain ⟨buf', h⟩ := (C72_iff (X := exX) exX_strict.toLawful (raw := true) (buf := [.nil, .nil, .big ((1 : ℕ) : ℤ), .int 7]) (k := 1) rfl
    (by norm_num) (by decide +kernel) (s := .init) rfl).2 (by rw [one_nsmul, vkInstance_enc]; decide +kernel)
  obtain ⟨n, m, -, -, -, -, -, -, -, -, hi⟩ := C72_point exX_strict (v := .big 1) (k := 1) rfl (.big 1) (by norm_num) (by decide +kernel) h
  exact ⟨buf', h, hi 3 (by norm_num)⟩

example (E : Engine) (s : St) : ∃ p, CalcVerifyCircuitLagrange exX [.big 1, .big 2] E s = .error p := C72_range _ (by decide) E s

/-- C72_compile, C15_compile_error: a compiled run that returns, with an error. -/
example : ∃ m b s', CalcVerifyCircuitLagrange exX [.nil, .nil, .big 1] (exLie .compile 7) .init = .ok ((some m, b), s') :=
  ⟨_, _, _, rfl⟩

end Verif
