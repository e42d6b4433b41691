/- Anatomy of successful runs of AggregatorCircuit.Define (no property theorems here). -/
import Verif.Lemmas.Frame
import Verif.Props.Transcript
import Verif.Props.Kyc
import Verif.Props.Curve2
import Verif.Props.Steps

namespace Verif
open Halo2

theorem copyInst_ok {E : Engine} : ∀ {vs buf b : List Var} {k : ℕ} {s s' : St}, copyInst buf k vs E s = .ok (b, s') →
    s' = s ∧ b.length = buf.length ∧ (vs = [] ∨ k + vs.length ≤ buf.length) ∧
    ∀ i, b[i]? = if k ≤ i ∧ i < k + vs.length then vs[i - k]? else buf[i]?
  | [], buf, b, k, s, s', h => by
    cases h
    exact ⟨rfl, rfl, .inl rfl, fun i => by rw [if_neg (by simp only [List.length_nil]; omega)]⟩
  | v :: vs, buf, b, k, s, s', h => by
    simp only [copyInst, Circ.bind_ok, setIdx_ok] at h
    obtain ⟨b1, _, ⟨hl, rfl, rfl⟩, h⟩ := h
    obtain ⟨rfl, h1, h2, h3⟩ := copyInst_ok h
    rw [List.length_set] at h1 h2
    refine ⟨rfl, h1, .inr ?_, fun i => ?_⟩
    · rw [List.length_cons]
      rcases h2 with rfl | h2
      · simp only [List.length_nil]; omega
      · omega
    · rw [h3, List.length_cons]
      by_cases c1 : k + 1 ≤ i ∧ i < k + 1 + vs.length
      · rw [if_pos c1, if_pos (by omega), show i - k = (i - (k + 1)) + 1 by omega, List.getElem?_cons_succ]
      · rw [if_neg c1, List.getElem?_set]
        by_cases c2 : k = i
        · subst c2
          rw [if_pos rfl, if_pos hl, if_pos (by omega), Nat.sub_self]; rfl
        · rw [if_neg c2, if_neg (by omega)]

theorem copyInst_run {E : Engine} {s : St} : ∀ {vs buf : List Var} {k : ℕ}, (vs = [] ∨ k + vs.length ≤ buf.length) →
    ∃ b, copyInst buf k vs E s = .ok (b, s)
  | [], buf, k, _ => ⟨buf, rfl⟩
  | v :: vs, buf, k, h => by
    have hl : k + vs.length + 1 ≤ buf.length := by
      rcases h with h | h
      · cases h
      · rw [List.length_cons] at h; omega
    obtain ⟨b, hb⟩ := copyInst_run (vs := vs) (buf := buf.set k v) (k := k + 1) (E := E) (s := s) (.inr (by
      rw [List.length_set]; omega))
    refine ⟨b, ?_⟩
    simp only [copyInst, Circ.bind_run]
    rw [show setIdx buf k v E s = .ok (buf.set k v, s) from setIdx_ok.2 ⟨by omega, rfl, rfl⟩]
    exact hb

/-- The buffer after the two copying loops. -/
theorem copy_both {E : Engine} {ti vi b0 b1 : List Var} {s s0 s1 : St}
    (h0 : copyInst (List.replicate 43 (.big 0)) 0 ti E s = .ok (b0, s0))
    (h1 : copyInst b0 ti.length vi E s0 = .ok (b1, s1)) :
    s1 = s ∧ b1.length = 43 ∧ ti.length + vi.length ≤ 43 ∧ b1.take (ti.length + vi.length) = ti ++ vi := by
  obtain ⟨rfl, l0, c0, g0⟩ := copyInst_ok h0
  obtain ⟨rfl, l1, c1, g1⟩ := copyInst_ok h1
  rw [List.length_replicate] at l0 c0
  have hle : ti.length + vi.length ≤ 43 := by
    rcases c1 with rfl | c1
    · rcases c0 with rfl | c0
      · simp
      · simp only [List.length_nil]; omega
    · omega
  refine ⟨rfl, l1.trans l0, hle, List.ext_getElem? fun i => ?_⟩
  rw [List.getElem?_take]
  by_cases hi : i < ti.length + vi.length
  · rw [if_pos hi, g1]
    by_cases c : ti.length ≤ i
    · rw [if_pos (by omega), List.getElem?_append_right c]
    · rw [if_neg (by omega), g0, if_pos (by omega), List.getElem?_append_left (by omega)]
      rfl
  · rw [if_neg hi, List.getElem?_eq_none (by rw [List.length_append]; omega)]

theorem notZero_ok {v : Var} {E : Engine} {s s' : St} {e : GoErr} (h : VerifyNotZero v E s = .ok (e, s')) :
    s'.hints = s.hints ∧ (s'.sat = true → s.sat = true ∧ ∃ b, toBig E v = some b ∧ 1 ≤ b) := by
  simp only [VerifyNotZero, apiAssertIsLessOrEqual, Circ.bind_ok, readBig_ok] at h
  obtain ⟨u, s1, ⟨b, _, ⟨hb, rfl⟩, h⟩, h2⟩ := h
  cases h2
  by_cases h0 : b < 0
  · rw [if_pos h0] at h
    cases h
  · rw [if_neg h0] at h
    simp only [Circ.bind_ok, readBig_ok] at h
    obtain ⟨x, _, ⟨hx, rfl⟩, h⟩ := h
    have h1 : toBig E (.int 1) = some 1 := by simp only [toBig]; rfl
    rw [h1] at hx
    cases hx
    obtain ⟨k1, k2⟩ := emit_ok h
    exact ⟨k1, fun hs => ⟨(k2.1 hs).1, b, hb, of_decide_eq_true (k2.1 hs).2⟩⟩

/-- What the final check establishes. -/
theorem finalCheck_ok {X : Ext} {buf : List Var} {E : Engine} {s s' : St} (h : finalCheck X buf E s = .ok (none, s'))
    (hs : s'.sat = true) : s.sat = true ∧ ∃ a b : Aff,
      ConstPair (buf.getD 10 .nil) (buf.getD 11 .nil) a ∧ ConstPair (buf.getD 12 .nil) (buf.getD 13 .nil) b ∧
      ValidEnc a ∧ ValidEnc b ∧ X.pairing [a, b] [g20, g21] = true ∧
      ∀ i, 10 ≤ i → i ≤ 13 → ∃ m, toBig E (buf.getD i .nil) = some m ∧ 1 ≤ m := by
  unfold finalCheck at h
  rw [Circ.bind_ok] at h
  obtain ⟨b10, _, h10, h⟩ := h
  obtain ⟨i10, rfl⟩ := idx_ok.1 h10
  rw [Circ.bind_ok] at h
  obtain ⟨e, s1, n10, h⟩ := h
  cases e with | some m => cases h | none =>
  rw [Circ.bind_ok] at h
  obtain ⟨b11, _, h11, h⟩ := h
  obtain ⟨i11, rfl⟩ := idx_ok.1 h11
  rw [Circ.bind_ok] at h
  obtain ⟨e, s2, n11, h⟩ := h
  cases e with | some m => cases h | none =>
  rw [Circ.bind_ok] at h
  obtain ⟨b12, _, h12, h⟩ := h
  obtain ⟨i12, rfl⟩ := idx_ok.1 h12
  rw [Circ.bind_ok] at h
  obtain ⟨e, s3, n12, h⟩ := h
  cases e with | some m => cases h | none =>
  rw [Circ.bind_ok] at h
  obtain ⟨b13, _, h13, h⟩ := h
  obtain ⟨i13, rfl⟩ := idx_ok.1 h13
  rw [Circ.bind_ok] at h
  obtain ⟨e, s4, n13, h⟩ := h
  cases e with | some m => cases h | none =>
  rw [Circ.bind_ok] at h
  obtain ⟨w1, s5, f1, h⟩ := h
  obtain ⟨rfl, a, b, ca, cb, va, vb, rfl⟩ := (C41_fillG1 _ _ _ _ _ _ _ _ _).1 f1
  rw [Circ.bind_ok] at h
  obtain ⟨w2, s6, f2, h⟩ := h
  rw [C41_fillG2, Except.ok.injEq, Prod.mk.injEq] at f2
  obtain ⟨rfl, rfl⟩ := f2
  unfold VerifyBN256Pairing at h
  rw [if_neg (by simp)] at h
  rw [Circ.bind_ok] at h
  obtain ⟨u, s7, g, h⟩ := h
  cases h
  obtain ⟨q1, q2⟩ := (gadget_ok g).2.1 hs
  obtain ⟨r13, t13⟩ := (notZero_ok n13).2 q1
  obtain ⟨r12, t12⟩ := (notZero_ok n12).2 r13
  obtain ⟨r11, t11⟩ := (notZero_ok n11).2 r12
  obtain ⟨r10, t10⟩ := (notZero_ok n10).2 r11
  rw [getD_some i10, getD_some i11, getD_some i12, getD_some i13]
  refine ⟨r10, a, b, ca, cb, va, vb, q2, fun i h1 h2 => ?_⟩
  obtain rfl | rfl | rfl | rfl : i = 10 ∨ i = 11 ∨ i = 12 ∨ i = 13 := by omega
  · rw [getD_some i10]; exact t10
  · rw [getD_some i11]; exact t11
  · rw [getD_some i12]; exact t12
  · rw [getD_some i13]; exact t13

/-- The stages of a run of `Define` that returns no error. `B` is the buffer handed to `verifyFrom`. -/
structure DefineRun (X : Ext) (c : AggregatorCircuit) (E : Engine) (s s' : St) where
  (hv hm : Var) (res : Var × Var) (b B B0 B1 B2 B3 : List Var) (t1 t2 t3 t4 t5 t6 t7 : St)
  len : c.TargetInst.length + c.VerifyInst.length ≤ 43
  hash : VerifyInstanceHash X (c.TargetInst ++ c.VerifyInst) E s = .ok ((hv, none), t1)
  hmod : mod hv E t1 = .ok (hm, t2)
  blen : b.length = 43
  b2 : b[2]? = some hm
  msm : CalcVerifyBN256Msm X (.big lagrangeX) (.big lagrangeY) hm E t2 = .ok ((res, none), t3)
  hB : B = (b.set 0 res.1).set 1 res.2
  chal : GetChallengesShPlonkCircuit X B c.Proof E t3 = .ok ((none, B0), t4)
  step1 : VerifyProof1 X c.Proof c.Aux B0 E t4 = .ok ((B1, none), t5)
  step2 : VerifyProof2 X c.Proof c.Aux B1 E t5 = .ok ((B2, none), t6)
  step3 : VerifyProof3 X c.Proof c.Aux B2 E t6 = .ok ((B3, none), t7)
  final : finalCheck X B3 E t7 = .ok (none, s')

theorem define_ok {X : Ext} {c : AggregatorCircuit} {E : Engine} {s s' : St} (h : c.Define X E s = .ok (none, s')) :
    Nonempty (DefineRun X c E s s') := by
  unfold AggregatorCircuit.Define at h
  rw [Circ.bind_ok] at h
  obtain ⟨b0, s0, h0, h⟩ := h
  rw [Circ.bind_ok] at h
  obtain ⟨b1, s1, h1, h⟩ := h
  obtain ⟨rfl, l1, hlen, htake⟩ := copy_both h0 h1
  rw [Circ.bind_ok] at h
  obtain ⟨⟨hv, e⟩, t1, hh, h⟩ := h
  rw [htake] at hh
  cases e with | some m => cases h | none =>
  rw [Circ.bind_ok] at h
  obtain ⟨hm, t2, hmod, h⟩ := h
  rw [Circ.bind_ok] at h
  obtain ⟨b, _, hset, h⟩ := h
  obtain ⟨hlt, rfl, rfl⟩ := setIdx_ok.1 hset
  rw [Circ.bind_ok] at h
  obtain ⟨⟨e, B⟩, t3, hl, h⟩ := h
  unfold CalcVerifyCircuitLagrange at hl
  rw [Circ.bind_ok] at hl
  obtain ⟨k, _, hk', hl⟩ := hl
  obtain ⟨hk, rfl⟩ := idx_ok.1 hk'
  have hk2 : (b1.set 2 hm)[2]? = some hm := by rw [List.getElem?_set_self hlt]
  rw [hk2, Option.some.injEq] at hk
  subst hk
  rw [Circ.bind_ok] at hl
  obtain ⟨⟨res, e'⟩, t3', hmsm, hl⟩ := hl
  rw [Circ.bind_ok] at hl
  obtain ⟨c1, _, q1, hl⟩ := hl
  obtain ⟨-, rfl, rfl⟩ := setIdx_ok.1 q1
  rw [Circ.bind_ok] at hl
  obtain ⟨c2, _, q2, hl⟩ := hl
  obtain ⟨-, rfl, rfl⟩ := setIdx_ok.1 q2
  rw [Circ.pure_run, Except.ok.injEq, Prod.mk.injEq, Prod.mk.injEq] at hl
  obtain ⟨⟨rfl, rfl⟩, rfl⟩ := hl
  cases e' with | some m => cases h | none =>
  unfold verifyFrom at h
  rw [Circ.bind_ok] at h
  obtain ⟨⟨e, B0⟩, t4, hc, h⟩ := h
  cases e with | some m => cases h | none =>
  rw [Circ.bind_ok] at h
  obtain ⟨⟨B1, e⟩, t5, p1, h⟩ := h
  cases e with | some m => cases h | none =>
  rw [Circ.bind_ok] at h
  obtain ⟨⟨B2, e⟩, t6, p2, h⟩ := h
  cases e with | some m => cases h | none =>
  rw [Circ.bind_ok] at h
  obtain ⟨⟨B3, e⟩, t7, p3, h⟩ := h
  cases e with | some m => cases h | none =>
  exact ⟨⟨hv, hm, res, b1.set 2 hm, _, B0, B1, B2, B3, t1, _, _, t4, t5, t6, t7, hlen, hh, hmod,
    by rw [List.length_set, l1], hk2, hmsm, rfl, hc, p1, p2, p3, h⟩⟩

end Verif
