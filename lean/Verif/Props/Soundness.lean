/- Property C34: an accepted run of the whole circuit is an accepted proof. Concrete cases that meet the hypotheses: Verif/Props/Instances.lean. -/
import Verif.Lemmas.Sound

namespace Verif
open Halo2

/-- The pairing equation e(P, g20)·e(Q, g21) = 1, as computed by the external gadget. -/
def Ext.PairingEq (X : Ext) (P Q : G1) : Prop := X.pairing [enc P, enc Q] [g20, g21] = true

/-- What C34 says of a circuit `c` whose instance values hashed to `k`. -/
structure SoundAt (X : Ext) (c : AggregatorCircuit) (k : Fr) (t : List ℤ) : Prop where
  /-- the words of the transcript are the first 102 proof values -/
  words : t.length = 102 ∧ c.Proof.take 102 = t.map .big
  /-- the 24 commitments are points of the curve (or infinity) -/
  points : ∀ i, IsPointPosition i → PointAt c.Proof i
  /-- the verifier accepts -/
  accepts : VerifierAccepts X.sha256 X.PairingEq (instCommitment k) (t.map Int.natAbs) (proofPoint c.Proof) (frAt c.Proof)
    (lagrangeOf (frAt c.Aux)) (frAt c.Aux 16)
  /-- the second opening proof is not infinity -/
  witness_ne : (Commitments.ofProof (instCommitment k) (proofPoint c.Proof)).W' ≠ 0

/-- An accepted run satisfies the verifier's equations, for the value `hm` that the instance hash was reduced to. -/
theorem sound_run {X : Ext} (hX : X.Strict) {c : AggregatorCircuit} {E : Engine} (hE : E.mode = .test) {s s' : St}
    (r : DefineRun X c E s s') (hs : s'.sat = true) : r.t1.sat = true ∧ r.B0.length = 43 ∧ r.t6.sat = true ∧
      ∃ t, SoundAt X c r.hv.fr t ∧
        challengesOf (frAt r.B0) = challengesFor X.sha256 (instCommitment r.hv.fr) (t.map Int.natAbs) ∧
        PtAt (r.B0.getD 0 .nil) (r.B0.getD 1 .nil) (instCommitment r.hv.fr) ∧
        (∃ u : ℤ, r.B0[9]? = some (.big u) ∧ 0 ≤ u ∧ u < rMod) ∧ r.t7.sat = true := by
  obtain ⟨h7, a, b, ca, cb, va, vb, hpair, hnz⟩ := finalCheck_ok r.final hs
  obtain ⟨h6, -⟩ := body_ok hE _ r.step3 h7
  obtain ⟨h5, -⟩ := body_ok hE _ r.step2 h6
  obtain ⟨h4, -⟩ := body_ok hE _ r.step1 h5
  obtain ⟨e43, ix, iy, t, hx, hy, ht, htake, hch, hrest, hlen⟩ := C27_schedule r.chal
  have hpts := fun i hi => C29_points r.chal i hi
  rw [e43] at h4
  obtain ⟨-, -, -, hmt, -, hsat⟩ := mod_ok r.hmod
  obtain ⟨-, hs2, -, px, py, kk, q1, q2, q3, n, m, hres, n0, n1, m0, m1, hmul⟩ := calcMsm_ok r.msm h4
  obtain ⟨hs1, hfr⟩ := hsat hs2
  obtain ⟨k, hk, k0, k1⟩ := hmt hE
  rw [hk] at q3
  have rp : (rMod : ℤ) < pMod := by exact_mod_cast rMod_lt_pMod
  -- the instance commitment
  have hI : enc (instCommitment r.hv.fr) = ((n : Fp), (m : Fp)) := by
    rw [setInterface, Option.some.injEq] at q1 q2 q3
    have e1 : (px, py) = enc vkInstance := by
      rw [vkInstance_enc, ← q1, ← q2, Int.cast_natCast, Int.cast_natCast]
    rw [e1] at hmul
    have e2 : ((kk.val : ℕ) : Fr) = r.hv.fr := by
      rw [← hfr, hk, ← q3]
      simp only [Var.fr]
      have : (((k : Fp).val : ℕ) : ℤ) = k := by
        rw [ZMod.val_intCast]; exact Int.emod_eq_of_lt k0 (k1.trans rp)
      rw [← Int.cast_natCast (R := Fr), this]
    rw [e2] at hmul
    exact (hX.scalarMul_deg _ _ _ hmul).symm
  have hB : r.B[0]? = some (.big n) ∧ r.B[1]? = some (.big m) := by
    have l := r.blen
    rw [r.hB, hres]
    refine ⟨?_, ?_⟩
    · rw [List.getElem?_set_ne (by omega), List.getElem?_set_self (by omega)]
    · rw [List.getElem?_set_self (by rw [List.length_set]; omega)]
  rw [hB.1, Option.some.injEq, Var.big.injEq] at hx
  rw [hB.2, Option.some.injEq, Var.big.injEq] at hy
  subst hx hy
  have hnx : (enc (instCommitment r.hv.fr)).1.val = n.natAbs := by
    rw [hI]
    have : ((((n : Fp)).val : ℕ) : ℤ) = n := by rw [ZMod.val_intCast]; exact Int.emod_eq_of_lt n0 (n1.trans rp)
    simp only []
    omega
  have hny : (enc (instCommitment r.hv.fr)).2.val = m.natAbs := by
    rw [hI]
    have : ((((m : Fp)).val : ℕ) : ℤ) = m := by rw [ZMod.val_intCast]; exact Int.emod_eq_of_lt m0 (m1.trans rp)
    simp only []
    omega
  have hC : challengesOf (frAt r.B0) = challengesFor X.sha256 (instCommitment r.hv.fr) (t.map Int.natAbs) := by
    rw [challenges_read (fsChallenges_length _ _ _ _) hch, challengesFor, hnx, hny]
    rfl
  have hB0 : r.B0.length = 43 := by rw [hlen, r.hB, List.length_set, List.length_set, r.blen]
  have hPI : PtAt (r.B0.getD 0 .nil) (r.B0.getD 1 .nil) (instCommitment r.hv.fr) := by
    rw [getD_some ((hrest 0 (by norm_num)).trans hB.1), getD_some ((hrest 1 (by norm_num)).trans hB.2)]
    exact ⟨_, _, rfl, rfl, hI⟩
  have hu : ∃ u : ℤ, r.B0[9]? = some (.big u) ∧ 0 ≤ u ∧ u < rMod := by
    have rpos : (0 : ℤ) < rMod := by exact_mod_cast rMod_pos
    exact ⟨_, hch 7 (by norm_num), Int.emod_nonneg _ rpos.ne', Int.emod_lt_of_pos _ rpos⟩
  obtain ⟨hF, hW⟩ := C33_accumulator hX hE hB0 r.step1 r.step2 r.step3 h7 hpts hPI hu
  obtain ⟨hq, hl0, hlk⟩ := C30_quotient hE hB0 r.step1 r.step2 h6
  rw [hC] at hF hq hl0 hlk
  have hcan := (step3_last hE r.step3).1
  have ea := PtAt.of_const ca hW
  have eb := PtAt.of_const cb hF
  refine ⟨hs1, hB0, h6, t, ⟨⟨ht, htake⟩, hpts, ⟨⟨hl0, hlk⟩, hq, ?_, ?_⟩, ?_⟩, hC, hPI, hu, h7⟩
  · obtain ⟨w, hw, w1⟩ := hnz 12 (by norm_num) (by norm_num)
    obtain ⟨z, hz, z1, z2⟩ := hcan.pos hw w1
    exact hF.ne_zero hz z1 z2
  · rw [ea, eb] at hpair
    exact hpair
  · obtain ⟨w, hw, w1⟩ := hnz 10 (by norm_num) (by norm_num)
    obtain ⟨z, hz, z1, z2⟩ := (slot10_canon hE hB0 r.step1 r.step2 r.step3 h7).pos hw w1
    exact hW.ne_zero hz z1 z2

/-- C34: if the test engine accepts the circuit then, whatever the hints answered, the instance values were hashed to
the Keccak digest of *some* 32-byte blocks, one per value, and the verifier accepts the proof for the resulting instance
commitment. -/
theorem C34_sound {X : Ext} (hX : X.Strict) {c : AggregatorCircuit} {E : Engine} (hE : E.mode = .test) {s : St}
    (h : (c.Define X).Accepted E s) :
    ∃ bs : List UInt8, bs.length = 32 * (c.TargetInst ++ c.VerifyInst).length ∧
      ∃ t, SoundAt X c (beNat (X.keccak bs) : ℕ) t := by
  obtain ⟨s', h, hs⟩ := h
  obtain ⟨r⟩ := define_ok h
  obtain ⟨h1, -, -, t, ht, -⟩ := sound_run hX hE r hs
  obtain ⟨bs, hb, hk⟩ := C25_some hX.toLawful ⟨_, r.hash, h1⟩
  exact ⟨bs, hb, t, hk ▸ ht⟩

/-- C34: with the Keccak hint of the repo, the blocks are the canonical big-endian encodings of the instance values. -/
theorem C34_honest {X : Ext} (hX : X.Strict) {c : AggregatorCircuit} {E : Engine} (hE : E.mode = .test)
    (hk : ∀ k n ins, E.strat .keccakHint k n ins = Keccak256Hint X n ins)
    (hv : ∀ v ∈ c.TargetInst ++ c.VerifyInst, v.Good) {s : St} (hs : s.sat = true) (h : (c.Define X).Accepted E s) :
    ∃ t, SoundAt X c
      (beNat (X.keccak ((c.TargetInst ++ c.VerifyInst).flatMap fun v => beBytes v.fr.val 32)) : ℕ) t := by
  obtain ⟨s', h, hs'⟩ := h
  obtain ⟨r⟩ := define_ok h
  obtain ⟨h1, -, -, t, ht, -⟩ := sound_run hX hE r hs'
  obtain ⟨v, ⟨s2, g1, -⟩, g2, -⟩ := C24_hash hX.toLawful hk hv hs
  rw [r.hash, Except.ok.injEq, Prod.mk.injEq, Prod.mk.injEq] at g1
  rw [← g1.1.1] at g2
  exact ⟨t, g2 ▸ ht⟩

/-- C34: the final check in terms of the trusted setup: there is one trapdoor τ, fixed by the pairing and the two G2
points, such that in every accepted run the opening combination is τ times the second opening proof. -/
theorem C34_trapdoor {X : Ext} (hX : X.Bilinear) : ∃ τ : Fr, ∀ (c : AggregatorCircuit) (k : Fr) (t : List ℤ), SoundAt X c k t →
    opening (challengesFor X.sha256 (instCommitment k) (t.map Int.natAbs))
      (.ofProof (instCommitment k) (proofPoint c.Proof)) (.ofProof (frAt c.Proof)) (frAt c.Aux 16) =
    τ • proofPoint c.Proof 102 := by
  obtain ⟨τ, hτ⟩ := hX.trapdoor
  exact ⟨τ, fun c k t h => (hτ _ _ h.witness_ne h.accepts.opening_ne).1 h.accepts.pairing⟩

/-- The Lagrange relations determine the Lagrange values outside the domain. -/
theorem Halo2.LagrangeRelations.unique {x : Fr} {L : LagrangeVals} (h : LagrangeRelations x L)
    (hx : ∀ i < n, x ≠ ω ^ i) :
    L.zero = lagrange 0 x ∧ ∀ k, 1 ≤ k → k ≤ 6 → L.neg k = lagrange (n - k) x := by
  refine ⟨?_, fun k k1 k6 => ?_⟩
  · have h0 := hx 0 (by decide)
    refine lagrange_unique (by decide) h0 ?_
    rw [pow_zero]
    exact h.zero
  · have hk := hx (n - k) (Nat.sub_lt (by decide) (by omega))
    have hn := h.neg k k1 k6
    rw [ω_zpow_neg (k6.trans (by decide))] at hn
    exact lagrange_unique (Nat.sub_lt (by decide) (by omega)) hk hn

/-- C34: when x is outside the domain, the verifier's equations hold with the true Lagrange values and the quotient
value implied by the evaluations: nothing is left to the aux witnesses. -/
theorem C34_outside {X : Ext} {c : AggregatorCircuit} {k : Fr} {t : List ℤ} (h : SoundAt X c k t)
    (hx : ∀ i < n, (challengesFor X.sha256 (instCommitment k) (t.map Int.natAbs)).x ≠ ω ^ i) :
    let ch := challengesFor X.sha256 (instCommitment k) (t.map Int.natAbs)
    VerifierAccepts X.sha256 X.PairingEq (instCommitment k) (t.map Int.natAbs) (proofPoint c.Proof) (frAt c.Proof)
      (.at ch.x) (quotientValue ch (.ofProof (frAt c.Proof))) := by
  intro ch
  obtain ⟨g1, g2⟩ := h.accepts.lagrange.unique hx
  have hq := h.accepts.quotient.congr (L' := .at ch.x) g1 g2
  have hne : ch.x ^ n - 1 ≠ 0 := by
    rw [sub_ne_zero]
    intro h
    obtain ⟨i, hi, he⟩ := (domain_iff _).2 h
    exact hx i hi he
  have hh : frAt c.Aux 16 = quotientValue ch (.ofProof (frAt c.Proof)) := by
    rw [quotientValue, eq_div_iff hne]
    exact hq
  have h1 := h.accepts.opening_ne
  have h2 := h.accepts.pairing
  rw [hh] at hq h1 h2
  refine ⟨⟨?_, ?_⟩, hq, h1, h2⟩
  · have := h.accepts.lagrange.zero
    rw [g1] at this
    exact this
  · intro k k1 k6
    have := h.accepts.lagrange.neg k k1 k6
    rw [g2 k k1 k6] at this
    exact this

end Verif
