/- Property C66: how a run of the verifier circuit can end: accepted, the Go error for a point off the curve, or a panic. -/
import Verif.Lemmas.Outcome
import Verif.Props.ExactInt
import Verif.Props.Instances

namespace Verif
open Halo2

/-- Elements i, i+1 of T are integers whose residues mod p neither satisfy y² = x³ + 3 nor are both zero. -/
def OffCurveAt (T : List Var) (i : ℕ) : Prop := ∃ x y : ℤ,
  (T[i]? = some (.big x) ∨ T[i]? = some (.int x)) ∧ (T[i + 1]? = some (.big y) ∨ T[i + 1]? = some (.int y)) ∧
  ¬ ((y : Fp) ^ 2 = (x : Fp) ^ 3 + 3 ∨ ((x : Fp) = 0 ∧ (y : Fp) = 0))

/-- Position i is the first point of the proof that is off the curve, and the challenges before it can be derived: all
words of the earlier blocks of the transcript are big integers of at most 32 bytes. The blocks begin at the words 0, 16, 24, 38, 44, 100
and 102 (`blockStart`). -/
structure BadPoint (T : List Var) (i : ℕ) : Prop where
  pos : IsPointPosition i
  off : OffCurveAt T i
  before : ∀ j, IsPointPosition j → j < i → PointAt T j
  words : ∀ j < blockStart i, ∃ z : ℤ, T[j]? = some (.big z) ∧ z.natAbs < 2 ^ 256

/-- The instance values can be hashed and committed to: at most 43 values, none nil, a hash that is not zero and a
commitment whose coordinates are below r. -/
structure InstancesOk (X : Ext) (c : AggregatorCircuit) : Prop where
  len : (c.TargetInst ++ c.VerifyInst).length ≤ 43
  val : ∀ v ∈ c.TargetInst ++ c.VerifyInst, v.IsVal
  hash_ne : circuitHash X c ≠ 0
  inst : Representable (instCommitment (circuitHash X c))

theorem offCurveAt_iff (T : List Var) (i : ℕ) : OffCurveAt T i ↔ OffAt T i := by
  have hv : ∀ x y : ℤ, ValidEnc ((x : Fp), (y : Fp)) ↔ ((y : Fp) ^ 2 = (x : Fp) ^ 3 + 3 ∨ ((x : Fp) = 0 ∧ (y : Fp) = 0)) := by
    intro x y
    rw [ValidEnc, Prod.mk.injEq]
    exact Iff.rfl
  constructor
  · rintro ⟨x, y, hx, hy, h⟩
    rw [← hv] at h
    rcases hx with hx | hx <;> rcases hy with hy | hy <;> exact ⟨_, _, x, y, hx, hy, rfl, rfl, h⟩
  · rintro ⟨v, w, a, b, hv', hw, ha, hb, h⟩
    obtain ⟨x, hx, rfl⟩ := setInterface_some ha
    obtain ⟨y, hy, rfl⟩ := setInterface_some hb
    rw [hv] at h
    refine ⟨x, y, ?_, ?_, h⟩
    · rcases hx with rfl | rfl
      · exact .inl hv'
      · exact .inr hv'
    · rcases hy with rfl | rfl
      · exact .inl hw
      · exact .inr hw

/-- C66: in the test engine, with any hints at all, the only Go error `Define` can return is that a point is not on the
curve, and it returns it only if the proof has such a point. -/
theorem C66_error_only {X : Ext} {c : AggregatorCircuit} {E : Engine} (hE : E.mode = .test) {m : String} {s s' : St}
    (h : c.Define X E s = .ok (some m, s')) : m = "bn256.G1Affine is not on curve" ∧ ∃ i, BadPoint c.Proof i := by
  obtain ⟨r⟩ := define_err hE h
  obtain ⟨hm, i, hi, ho, hp, hw⟩ := getChallenges_err r.chal
  refine ⟨?_, i, (isPointPosition_iff i).2 hi, (offCurveAt_iff _ i).2 ho, fun j hj hlt => ?_, fun j hj => hw j (Nat.zero_le _) hj⟩
  · rw [errNotOnCurve, Option.some.injEq] at hm; exact hm
  · exact (pointAt_iff _ j).2 (hp j ((isPointPosition_iff j).1 hj) hlt)

/-- C66: in the test engine, with any hints at all, a run that returns nil is accepted: a constraint that does not hold
ends the run. -/
theorem C66_nil {X : Ext} {c : AggregatorCircuit} {E : Engine} (hE : E.mode = .test) {s s' : St} (hs : s.sat = true)
    (h : c.Define X E s = .ok (none, s')) : (c.Define X).Accepted E s := by
  refine ⟨s', h, ?_⟩
  rw [((HintsIn.define (S := [.modHint, .msmHint, .addHint, .keccakHint]) X c (by decide) (by decide) (by decide) (by decide)) _ _ _ _ h).2 hE, hs]

/-- The instance stage with the repo's hints. -/
theorem define_instances {X : Ext} (hX : X.Strict) {c : AggregatorCircuit} (hi : InstancesOk X c) {s : St} (hs : s.sat = true) :
    ∃ (B : List Var) (s3 : St), B.length = 43 ∧ B[0]? = some (.big (enc (instCommitment (circuitHash X c))).1.val) ∧
      B[1]? = some (.big (enc (instCommitment (circuitHash X c))).2.val) ∧
      c.Define X (honestTest X true) s = verifyFrom X c B (honestTest X true) s3 := by
  have hE := honest_raw X
  obtain ⟨hvv, ⟨s1, hh1, hh2⟩, hfr', hgood⟩ := instance_hash (s := s) hX.toLawful hE.test hE.raw (fun _ _ _ => rfl) hi.val hs
  have hR := honest_runs hX.toLawful hE
  generalize honestTest X true = E at *
  generalize hk : circuitHash X c = k at *
  have hlen := hi.len
  rw [List.length_append] at hlen
  obtain ⟨b0, hb0⟩ := copyInst_run (E := E) (s := s) (vs := c.TargetInst) (buf := List.replicate 43 (.big 0)) (k := 0) (.inr (by
    rw [List.length_replicate]; omega))
  have hb0l : b0.length = 43 := by rw [(copyInst_ok hb0).2.1, List.length_replicate]
  obtain ⟨b1, hb1⟩ := copyInst_run (E := E) (s := s) (vs := c.VerifyInst) (buf := b0) (k := c.TargetInst.length) (.inr (by
    rw [hb0l]; omega))
  obtain ⟨-, hl1, -, htake⟩ := copy_both hb0 hb1
  have hmod := mod_honest hE.mod hgood s1
  rw [hintVar_test hE.test, hfr', Int.emod_eq_of_lt (by positivity) (by exact_mod_cast ZMod.val_lt _)] at hmod
  have hvke : PtExact (.big (enc vkInstance).1.val) (.big (enc vkInstance).2.val) vkInstance := ⟨rfl, rfl⟩
  have hI : Representable (instCommitment k) := hk ▸ hi.inst
  have hk0 : k ≠ 0 := hk ▸ hi.hash_ne
  have hmsm := hR.mul _ _ _ k (s1.addHints [.modHint]) (hR.exact _ _ _ hvke) ⟨hk0, fun h0 =>
    hI.1 (by rw [instCommitment, h0, smul_zero]), hI⟩
  rw [show k • vkInstance = instCommitment k from rfl] at hmsm
  have hvx : (enc vkInstance).1.val = lagrangeX := by
    rw [vkInstance_enc]
    exact ZMod.val_natCast_of_lt (by decide +kernel)
  have hvy : (enc vkInstance).2.val = lagrangeY := by
    rw [vkInstance_enc]
    exact ZMod.val_natCast_of_lt (by decide +kernel)
  rw [hvx, hvy] at hmsm
  generalize instCommitment k = I at *
  refine ⟨((b1.set 2 (.big (k.val : ℤ))).set 0 (.big (enc I).1.val)).set 1 (.big (enc I).2.val),
    (s1.addHints [.modHint]).addHints [.msmHint, .modHint, .modHint], ?_, ?_, ?_, ?_⟩
  · rw [List.length_set, List.length_set, List.length_set, hl1]
  · rw [List.getElem?_set_ne (by omega), List.getElem?_set_self (by rw [List.length_set, hl1]; omega)]
  · rw [List.getElem?_set_self (by rw [List.length_set, List.length_set, hl1]; omega)]
  have hlag : CalcVerifyCircuitLagrange X (b1.set 2 (.big (k.val : ℤ))) E (s1.addHints [.modHint]) =
      .ok ((none, ((b1.set 2 (.big (k.val : ℤ))).set 0 (.big (enc I).1.val)).set 1 (.big (enc I).2.val)),
        (s1.addHints [.modHint]).addHints [.msmHint, .modHint, .modHint]) := by
    have i2 := idx_at (B := b1.set 2 (.big (k.val : ℤ))) (i := 2) (by rw [List.length_set, hl1]; omega) E
      (s1.addHints [.modHint])
    rw [getD_some (List.getElem?_set_self (by omega))] at i2
    unfold CalcVerifyCircuitLagrange
    rw [Circ.bind_run, i2]
    simp only []
    rw [Circ.bind_run, hmsm]
    simp only []
    have e1 : ∀ (D : List Var) (i : ℕ) (v : Var) (s : St), i < D.length → setIdx D i v E s = .ok (D.set i v, s) := fun D i v s h => by
      rw [setIdx_ok]; exact ⟨h, rfl, rfl⟩
    rw [Circ.bind_run, e1 _ _ _ _ (by rw [List.length_set, hl1]; omega)]
    simp only []
    rw [Circ.bind_run, e1 _ _ _ _ (by rw [List.length_set, List.length_set, hl1]; omega)]
    rfl
  unfold AggregatorCircuit.Define
  rw [Circ.bind_run, hb0]
  simp only []
  rw [Circ.bind_run, hb1]
  simp only []
  rw [htake, Circ.bind_run, hh1]
  simp only []
  rw [Circ.bind_run, hmod]
  simp only []
  rw [Circ.bind_run, setIdx_ok.2 ⟨by omega, rfl, rfl⟩]
  simp only []
  rw [Circ.bind_run, hlag]

/-- With the repo's hints, a run that gets past the instance stage has instances that can be hashed and committed to. -/
theorem ErrRun.instances {X : Ext} (hX : X.Strict) {c : AggregatorCircuit} {m : String} {s s' : St} (hs : s.sat = true)
    (r : ErrRun X c (honestTest X true) m s s') : InstancesOk X c := by
  have hE := honest_raw X
  obtain ⟨hv, hm, res, b, B0, t1, t2, t3, len, hash, hmod, msm, -⟩ := r
  have hval : ∀ v ∈ c.TargetInst ++ c.VerifyInst, v.IsVal := by
    intro v hv
    by_contra hn
    obtain ⟨m, hm⟩ := C24_nil (X := X) ⟨v, hv, hn⟩ (honestTest X true) s
    rw [hm] at hash
    cases hash
  obtain ⟨v, ⟨s2, g1, gs⟩, g2, -⟩ := instance_hash hX.toLawful hE.test hE.raw (fun _ _ _ => rfl) hval hs
  rw [g1, Except.ok.injEq, Prod.mk.injEq, Prod.mk.injEq] at hash
  obtain ⟨⟨rfl, -⟩, rfl⟩ := hash
  have h2 : t2.sat = true := by rw [(HintsIn.mod (S := [.modHint]) (by decide) _ _ _ _ _ hmod).2 hE.test, gs]
  have h3 : t3.sat = true := by
    rw [(HintsIn.calcMsm (S := [.modHint, .msmHint]) X (by decide) (by decide) _ _ _ _ _ _ _ msm).2 hE.test, h2]
  obtain ⟨-, -, -, hmt, -, hsat⟩ := mod_ok hmod
  obtain ⟨-, hfr⟩ := hsat h2
  obtain ⟨k, hkk, k0, k1⟩ := hmt hE.test
  rw [g2, hkk] at hfr
  have hkv : k = (circuitHash X c).val := by
    lift k to ℕ using k0
    have k1' : k < rMod := by exact_mod_cast k1
    rw [← hfr]
    simp only [Var.fr, Int.cast_natCast]
    rw [ZMod.val_natCast_of_lt k1']
  have hvx : (enc vkInstance).1.val = lagrangeX := by
    rw [vkInstance_enc]
    exact ZMod.val_natCast_of_lt (by decide +kernel)
  have hvy : (enc vkInstance).2.val = lagrangeY := by
    rw [vkInstance_enc]
    exact ZMod.val_natCast_of_lt (by decide +kernel)
  rw [hkk, hkv, ← hvx, ← hvy] at msm
  obtain ⟨-, n1, -, n3, -⟩ := calcMsm_needs hX hE msm h3
  exact ⟨by rw [List.length_append]; exact len, hval, n1, n3⟩

/-- C66: with the repo's hints, `Define` returns the error exactly if the instances can be hashed and committed to and the
proof has a point off the curve, the challenges before which can be derived. -/
theorem C66_error_iff {X : Ext} (hX : X.Strict) {c : AggregatorCircuit} {s : St} (hs : s.sat = true) :
    (∃ s', c.Define X (honestTest X true) s = .ok (some "bn256.G1Affine is not on curve", s')) ↔
      InstancesOk X c ∧ ∃ i, BadPoint c.Proof i := by
  constructor
  · rintro ⟨s', h⟩
    obtain ⟨r⟩ := define_err (honest_raw X).test h
    exact ⟨r.instances hX hs, (C66_error_only (honest_raw X).test h).2⟩
  · rintro ⟨hi, i, hb⟩
    obtain ⟨B, s3, hl, h0, h1, hd⟩ := define_instances hX hi hs
    have pb : pMod < 2 ^ 256 := by decide +kernel
    obtain ⟨B', h⟩ := getChallenges_fails (X := X) hX.sha_len (T := c.Proof) (by omega) h0 h1
      (by rw [Int.natAbs_natCast]; exact (ZMod.val_lt _).trans pb) (by rw [Int.natAbs_natCast]; exact (ZMod.val_lt _).trans pb)
      ((isPointPosition_iff i).1 hb.pos) ((offCurveAt_iff _ i).1 hb.off)
      (fun j hj hlt => (pointAt_iff _ j).1 (hb.before j ((isPointPosition_iff j).2 hj) hlt)) (fun j _ hj => hb.words j hj)
      (honestTest X true) s3
    refine ⟨s3, ?_⟩
    rw [hd]
    unfold verifyFrom
    rw [Circ.bind_run, h]
    rfl

/-- C66: so every run with the repo's hints ends in exactly one of three ways, and the assignment alone decides which:
it is accepted, it returns the error for a point off the curve, or it panics. -/
theorem C66_outcome {X : Ext} (hX : X.Strict) {c : AggregatorCircuit} (hf : c.Fits) {s : St} (hs : s.sat = true) :
    (Acceptable X c.boxed ∧ ∃ s', c.Define X (honestTest X true) s = .ok (none, s') ∧ s'.sat = true) ∨
    ((InstancesOk X c ∧ ∃ i, BadPoint c.Proof i) ∧
      ∃ s', c.Define X (honestTest X true) s = .ok (some "bn256.G1Affine is not on curve", s')) ∨
    (¬ Acceptable X c.boxed ∧ ¬ (InstancesOk X c ∧ ∃ i, BadPoint c.Proof i) ∧
      ∃ p, c.Define X (honestTest X true) s = .error p) := by
  by_cases ha : Acceptable X c.boxed
  · exact .inl ⟨ha, (C48_every hX hf hs).2 ha⟩
  by_cases hb : InstancesOk X c ∧ ∃ i, BadPoint c.Proof i
  · exact .inr (.inl ⟨hb, (C66_error_iff hX hs).2 hb⟩)
  · refine .inr (.inr ⟨ha, hb, ?_⟩)
    cases h : c.Define X (honestTest X true) s with
    | error p => exact ⟨p, rfl⟩
    | ok r =>
      obtain ⟨e, s'⟩ := r
      exfalso
      cases e with
      | none => exact ha ((C48_every hX hf hs).1 (C66_nil (honest_raw X).test hs h))
      | some m =>
        have hm := (C66_error_only (honest_raw X).test h).1
        subst hm
        exact hb ((C66_error_iff hX hs).1 ⟨s', h⟩)

/-! ### Concrete cases: the shipped proof with its first point replaced by (1, 1), and with its first word missing -/

theorem shipped_instances : InstancesOk realExt shippedCircuit := by
  have h := (C48_circuit realExt_strict (c := shippedCircuit) (fun i hi z h => by
    obtain ⟨_, h1, -⟩ := shipped_canonical.words.word i (by omega)
    have h2 : shippedCircuit.Proof[i]? = _ := h1
    rw [h2] at h
    cases h) (s := .init) rfl).1 shipped_accepted
  exact ⟨h.len, h.inst_val, h.hash_ne, h.inst⟩

/-- C66_error_only, C66_error_iff, C66_outcome: the shipped circuit with first point (1, 1) returns the error. -/
example : ∃ s', ({ shippedCircuit with Proof := (shippedCircuit.Proof.set 0 (.big 1)).set 1 (.big 1) } : AggregatorCircuit).Define
    realExt (honestTest realExt true) .init = .ok (some "bn256.G1Affine is not on curve", s') := by
  refine (C66_error_iff realExt_strict (c := { shippedCircuit with Proof := (shippedCircuit.Proof.set 0 (.big 1)).set 1 (.big 1) })
    rfl).2 ⟨⟨shipped_instances.len, shipped_instances.val, shipped_instances.hash_ne, shipped_instances.inst⟩, 0,
      .inl ⟨rfl, by decide⟩, ⟨1, 1, .inl rfl, .inl rfl, ?_⟩, fun j _ hj => absurd hj (Nat.not_lt_zero j), fun j hj => absurd hj (Nat.not_lt_zero j)⟩
  decide +kernel

/-- C66_outcome: the shipped circuit with a nil first word panics. -/
example : ∃ p, ({ shippedCircuit with Proof := shippedCircuit.Proof.set 0 .nil } : AggregatorCircuit).Define
    realExt (honestTest realExt true) .init = .error p := by
  have h0 : (shippedCircuit.Proof.set 0 .nil)[0]? = some .nil := rfl
  have hf : ({ shippedCircuit with Proof := shippedCircuit.Proof.set 0 .nil } : AggregatorCircuit).Fits := by
    rintro i hi z hz
    obtain ⟨_, h1, -⟩ := shipped_canonical.words.word i (by omega)
    have h2 : shippedCircuit.Proof[i]? = _ := h1
    have h3 : (shippedCircuit.Proof.set 0 .nil)[i]? = some (.int z) := hz
    rw [List.getElem?_set_ne (by omega), h2] at h3
    cases h3
  rcases C66_outcome realExt_strict hf (s := .init) rfl with ⟨h, -⟩ | ⟨⟨-, i, h⟩, -⟩ | ⟨-, -, h⟩
  · obtain ⟨x, y, hx, -⟩ := h.words.point 0 (.inl ⟨rfl, by norm_num⟩)
    rw [boxed_get, show ({ shippedCircuit with Proof := shippedCircuit.Proof.set 0 .nil } : AggregatorCircuit).Proof[0]? = some .nil from h0] at hx
    cases hx
  · exfalso
    by_cases hi : i = 0
    · subst hi
      obtain ⟨x, y, hx, -⟩ := h.off
      rcases hx with hx | hx <;> cases h0.symm.trans hx
    · obtain ⟨x, y, hx, -⟩ := h.before 0 (.inl ⟨rfl, by norm_num⟩) (by omega)
      rcases hx with hx | hx <;> cases h0.symm.trans hx
  · exact h

end Verif
