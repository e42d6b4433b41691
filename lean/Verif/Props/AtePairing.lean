/-
Property C69: what the pairing check of the circuit decides, for the optimal ate pairing of BN254 (Spec/Ate.lean). Nothing is assumed about
this pairing: that it is additive, not degenerate, and that the check with the two fixed G2 points is a check of one scalar multiple is proved.
-/
import Verif.Math.AteHom
import Verif.Math.AteG2
import Verif.Math.TwistCyclic
import Verif.Props.Kyc
import Verif.Props.Knowledge
import Verif.Props.Unique
import Verif.Props.ShippedReal

namespace Verif
open Halo2

/-- C69: the pairing with each of the two fixed G2 points turns sums of G1 points into products. -/
theorem C69_add (P P' : G1) :
    Ate.pairing (enc (P + P')) g20 = Ate.pairing (enc P) g20 * Ate.pairing (enc P') g20 ∧
    Ate.pairing (enc (P + P')) g21 = Ate.pairing (enc P) g21 * Ate.pairing (enc P') g21 :=
  ⟨g20_ateArg.add P P', g21_ateArg.add P P'⟩

/-- C69: its values are r-th roots of unity. -/
theorem C69_roots (P : G1) : Ate.pairing (enc P) g20 ^ rMod = 1 ∧ Ate.pairing (enc P) g21 ^ rMod = 1 :=
  ⟨g20_ateArg.pow_r P, g21_ateArg.pow_r P⟩

theorem g21_inj : Function.Injective g21_ateArg.hom := g21_ateArg.injective C49_pairing_nontrivial

/-- The pairing of Spec/Ate.lean meets the contract that C34 and C56 ask of a pairing. -/
theorem C69_bilinear {X : Ext} (hX : X.pairing = Ate.check) : X.Bilinear :=
  ⟨Additive GT, inferInstance, g20_ateArg.hom, g21_ateArg.hom, card_GT _ g21_inj, g21_inj, fun P Q _ _ => by
    rw [hX, check_iff g20_ateArg g21_ateArg]⟩

theorem exists_tau : ∃ τ : Fr, ∀ P Q : G1, Ate.check [enc P, enc Q] [g20, g21] = true ↔ Q = τ • P := by
  obtain ⟨τ, h⟩ := (C69_bilinear (X := realExt) realExt_pairing).trapdoor
  rw [realExt_pairing] at h
  refine ⟨τ, fun P Q => ?_⟩
  by_cases hP : P = 0
  · subst hP
    rw [check_iff g20_ateArg g21_ateArg, map_zero, zero_add, smul_zero]
    exact ⟨fun h0 => g21_inj (h0.trans (map_zero _).symm), fun h0 => by rw [h0, map_zero]⟩
  by_cases hQ : Q = 0
  · subst hQ
    have hτ : τ ≠ 0 := by
      rintro rfl
      have h1 := (h _ _ shipped_run.W_ne shipped_run.F_ne).1 C49_pairing
      exact shipped_run.F_ne (h1.trans ((fr_smul_eq_zero).2 (.inl rfl)))
    have h0 : τ • P ≠ 0 := fun h0 => (fr_smul_eq_zero.1 h0).elim hτ hP
    refine iff_of_false (fun hc => ?_) fun h1 => h0 h1.symm
    rw [check_iff g20_ateArg g21_ateArg, map_zero, add_zero] at hc
    have h2 := (h P (τ • P) hP h0).2 rfl
    rw [check_iff g20_ateArg g21_ateArg, hc, zero_add] at h2
    exact h0 (g21_inj (h2.trans (map_zero _).symm))
  exact h P Q hP hQ

/-- C69: there is exactly one scalar τ such that, for all points of G1 including infinity, e(P, g20) · e(Q, g21) = 1 iff Q = τ·P. -/
theorem C69_check : ∃! τ : Fr, ∀ P Q : G1, Ate.check [enc P, enc Q] [g20, g21] = true ↔ Q = τ • P := by
  obtain ⟨τ, h⟩ := exists_tau
  refine ⟨τ, h, fun σ hσ => ?_⟩
  have e : τ • G1gen = σ • G1gen := (hσ _ _).1 ((h _ _).2 rfl)
  have h0 : (σ - τ) • G1gen = 0 := by rw [sub_smul, e, sub_self]
  exact (fr_smul_eq_zero.1 h0).elim (fun h1 => sub_eq_zero.1 h1) fun h1 => absurd h1 gen_ne_zero

/-- C69: the scalar that the check tests is the discrete logarithm between the two fixed G2 points: g20 is τ times the standard generator of G2, whose
opposite is g21. -/
theorem C69_secret : ∃! τ : Fr, (∀ P Q : G1, Ate.check [enc P, enc Q] [g20, g21] = true ↔ Q = τ • P) ∧
    ∀ S G : twist.Point, IsTwistPoint g20 S → IsTwistPoint G2gen G → S = τ.val • G := by
  obtain ⟨τ, hτ, huniq⟩ := C69_check
  refine ⟨τ, ⟨hτ, fun S G hS hG => ?_⟩, fun σ hσ => huniq σ hσ.1⟩
  obtain ⟨D, hD⟩ := twist_point (A := g21) ((isOnTwist_iff _).2 C41_g2.2) (by decide +kernel)
  have hG' : D = -G := by
    obtain ⟨x, y, hn, rfl, rfl, rfl⟩ := hD
    obtain ⟨x', y', hn', rfl, rfl, rfl⟩ := hG
    rw [WeierstrassCurve.Affine.Point.neg_some, WeierstrassCurve.Affine.Point.some.injEq, twist_negY]
    exact ⟨by rw [C41_generator], by rw [C41_generator]; rfl⟩
  have oS := order_of_check (Q := g20N) (g20N_val ▸ hS) g20_orderCheck
  have oD := order_of_check (Q := g21N) (g21N_val ▸ hD) g21_orderCheck
  obtain ⟨k, hk⟩ := twist_multiple oS oD
  obtain ⟨x, y, hP, eP⟩ := exists_of_ne_zero gen_ne_zero
  -- S = k·D, so S + m·D = 0 for m = -k mod r
  obtain ⟨m, hm⟩ : ∃ m : ℕ, S + m • D = 0 := by
    refine ⟨((-k) % (rMod : ℤ)).toNat, ?_⟩
    have h0 : 0 ≤ (-k) % (rMod : ℤ) := Int.emod_nonneg _ (by exact_mod_cast rMod_pos.ne')
    rw [← natCast_zsmul, Int.toNat_of_nonneg h0, ← oD, mod_addOrderOf_zsmul, hk, neg_smul, add_neg_cancel]
  have h1 := miller_rel (A := g20N) (B := g21N) (on_of_twist (by rw [g20N_val]; exact (isOnTwist_iff _).2 C41_g2.1)) g20_ateOk
    (on_of_twist (by rw [g21N_val]; exact (isOnTwist_iff _).2 C41_g2.2)) g21_ateOk (g20N_val ▸ hS) (g21N_val ▸ hD) hm hP
  rw [g20N_val, g21N_val, ← enc_mkPt x y hP, ← eP, ← g20_ateArg.pairing_eq gen_ne_zero, ← g21_ateArg.pairing_eq gen_ne_zero, ← g21_ateArg.pow] at h1
  have h2 : Ate.check [enc G1gen, enc (m • G1gen)] [g20, g21] = true := by
    rw [Ate.check, decide_eq_true_iff, List.zipWith_cons_cons, List.zipWith_cons_cons, List.zipWith_nil_left, List.prod_cons,
      List.prod_cons, List.prod_nil, mul_one, h1]
  have h3 := (hτ _ _).1 h2
  have h4 : (m : Fr) = τ := by
    rw [← Nat.cast_smul_eq_nsmul Fr] at h3
    have h0 : ((m : Fr) - τ) • G1gen = 0 := by rw [sub_smul, h3, sub_self]
    exact (fr_smul_eq_zero.1 h0).elim (fun h1 => sub_eq_zero.1 h1) fun h1 => absurd h1 gen_ne_zero
  rw [← h4, ZMod.val_natCast, ← oD]
  have h5 : S = -(m • D) := eq_neg_of_add_eq_zero_left hm
  rw [h5, hG', neg_nsmul, neg_neg, addOrderOf_neg, mod_addOrderOf_nsmul]

/-- C69: that scalar is not zero. -/
theorem C69_tau_ne {τ : Fr} (h : ∀ P Q : G1, Ate.check [enc P, enc Q] [g20, g21] = true ↔ Q = τ • P) : τ ≠ 0 := by
  rintro rfl
  exact shipped_run.F_ne (((h _ _).1 C49_pairing).trans (fr_smul_eq_zero.2 (.inl rfl)))

/-- C69: the pairing is not degenerate: no point but infinity is sent to 1. -/
theorem C69_nondegenerate {P : G1} (hP : P ≠ 0) : Ate.pairing (enc P) g20 ≠ 1 ∧ Ate.pairing (enc P) g21 ≠ 1 := by
  obtain ⟨τ, h⟩ := exists_tau
  constructor
  · intro h1
    have h2 := (h P 0).1 (by
      rw [check_iff g20_ateArg g21_ateArg, map_zero, add_zero, g20_ateArg.hom_zero, h1])
    exact (fr_smul_eq_zero.1 h2.symm).elim (C69_tau_ne h) hP
  · intro h1
    exact hP (g21_inj (((g21_ateArg.hom_zero P).2 h1).trans (map_zero _).symm))

/-- The last part of `AggregatorCircuit.Define`, /repo/circuit.go:118-124: fill the pairing circuit with the four coordinates and the G2 points,
and verify it. -/
noncomputable def pairingStage (X : Ext) (x1 y1 x2 y2 : Var) : Circ GoErr := do
  let c ← FillVerifyCircuitsG1 ⟨[], []⟩ x1 y1 x2 y2
  let c ← FillVerifyCircuitsG2 c
  VerifyBN256Pairing X c.g1Points c.g2Points

/-- It is the end of `Define`: after the four zero checks. -/
example (X : Ext) (buf : List Var) : finalCheck X buf = (do
    let b10 ← idx buf 10
    let err ← VerifyNotZero b10
    match err with | some m => pure (some m) | none => do
    let b11 ← idx buf 11
    let err ← VerifyNotZero b11
    match err with | some m => pure (some m) | none => do
    let b12 ← idx buf 12
    let err ← VerifyNotZero b12
    match err with | some m => pure (some m) | none => do
    let b13 ← idx buf 13
    let err ← VerifyNotZero b13
    match err with | some m => pure (some m) | none => pairingStage X b10 b11 b12 b13) := rfl

theorem pairingStage_iff {X : Ext} (hX : X.pairing = Ate.check) {x1 y1 x2 y2 : Var} {E : Engine} {s : St} (hs : s.sat = true) :
    (pairingStage X x1 y1 x2 y2).Accepted E s ↔
      ∃ P Q : G1, ConstPair x1 y1 (enc P) ∧ ConstPair x2 y2 (enc Q) ∧ Ate.check [enc P, enc Q] [g20, g21] = true := by
  constructor
  · rintro ⟨s', h, h'⟩
    rw [pairingStage, Circ.bind_ok] at h
    obtain ⟨w1, s1, f1, h⟩ := h
    obtain ⟨rfl, a, b, ca, cb, va, vb, rfl⟩ := (C41_fillG1 _ _ _ _ _ _ _ _ _).1 f1
    rw [Circ.bind_ok] at h
    obtain ⟨w2, s2, f2, h⟩ := h
    rw [C41_fillG2, Except.ok.injEq, Prod.mk.injEq] at f2
    obtain ⟨rfl, rfl⟩ := f2
    have h1 := (C41_pairing X a b g20 g21 E hs).1 ⟨s', h, h'⟩
    rw [hX] at h1
    exact ⟨dec a, dec b, by rwa [enc_dec va], by rwa [enc_dec vb], by rwa [enc_dec va, enc_dec vb]⟩
  · rintro ⟨P, Q, hP, hQ, h⟩
    obtain ⟨s', h1, h2⟩ := (C41_pairing X (enc P) (enc Q) g20 g21 E hs).2 (by rw [hX]; exact h)
    refine ⟨s', ?_, h2⟩
    rw [pairingStage, Circ.bind_ok]
    refine ⟨_, _, (C41_fillG1 _ _ _ _ _ _ _ _ _).2 ⟨rfl, _, _, hP, hQ, validEnc_enc P, validEnc_enc Q, rfl⟩, ?_⟩
    rw [Circ.bind_ok]
    exact ⟨_, _, C41_fillG2 _ _ _, h1⟩

/-- C69: the pairing check that ends the verifier circuit (fill the pairing circuit with four coordinates and the fixed G2 points, verify it) is
accepted iff the coordinates are constants, encode two points P and Q of G1, and Q = τ·P. In every other case it is not accepted. -/
theorem C69_circuit {X : Ext} (hX : X.pairing = Ate.check) : ∃ τ : Fr, τ ≠ 0 ∧ ∀ (x1 y1 x2 y2 : Var) (E : Engine) (s : St), s.sat = true →
    ((pairingStage X x1 y1 x2 y2).Accepted E s ↔
      ∃ P Q : G1, ConstPair x1 y1 (enc P) ∧ ConstPair x2 y2 (enc Q) ∧ Q = τ • P) := by
  obtain ⟨τ, h⟩ := exists_tau
  refine ⟨τ, C69_tau_ne h, fun x1 y1 x2 y2 E s hs => ?_⟩
  rw [pairingStage_iff hX hs]
  simp only [h]

/-- C69: every accepted run of the verifier circuit, whatever the hints answered, opens its combined commitment: the point computed from the
proof is τ times the second opening proof, where τ is the one scalar that the pairing check tests. -/
theorem C69_accepted {X : Ext} (hX : X.Strict) (hpair : X.pairing = Ate.check) {τ : Fr}
    (hτ : ∀ P Q : G1, Ate.check [enc P, enc Q] [g20, g21] = true ↔ Q = τ • P) {c : AggregatorCircuit} {E : Engine} (hE : E.mode = .test)
    {s : St} (h : (c.Define X).Accepted E s) :
    ∃ bs : List UInt8, bs.length = 32 * (c.TargetInst ++ c.VerifyInst).length ∧ ∃ (k : Fr) (t : List ℤ),
      k = (beNat (X.keccak bs) : ℕ) ∧ c.Proof.take 102 = t.map .big ∧
      opening (challengesFor X.sha256 (instCommitment k) (t.map Int.natAbs))
        (.ofProof (instCommitment k) (proofPoint c.Proof)) (.ofProof (frAt c.Proof)) (frAt c.Aux 16) = τ • proofPoint c.Proof 102 := by
  obtain ⟨bs, hb, t, ht⟩ := C34_sound hX hE h
  refine ⟨bs, hb, (beNat (X.keccak bs) : ℕ), t, rfl, ht.words.2, ?_⟩
  have h1 := ht.accepts.pairing
  rw [Ext.PairingEq, hpair] at h1
  exact (hτ _ _).1 h1

/-- C69: with the real pairing there is a trapdoor, as C55, C57, C61, C63 and C64 ask. -/
theorem C69_trapdoor {X : Ext} (hX : X.pairing = Ate.check) : ∃! τ : Fr, X.Trapdoor τ := by
  obtain ⟨τ, h⟩ := exists_tau
  refine ⟨τ, fun P Q _ _ => by rw [Ext.PairingEq, hX]; exact h P Q, fun σ hσ => ?_⟩
  have h0 : τ • G1gen ≠ 0 := fun h0 => (fr_smul_eq_zero.1 h0).elim (C69_tau_ne h) gen_ne_zero
  have e : τ • G1gen = σ • G1gen := (hσ _ _ gen_ne_zero h0).1 (by rw [Ext.PairingEq, hX]; exact (h _ _).2 rfl)
  have h0 : (σ - τ) • G1gen = 0 := by rw [sub_smul, e, sub_self]
  exact (fr_smul_eq_zero.1 h0).elim (fun h1 => sub_eq_zero.1 h1) fun h1 => absurd h1 gen_ne_zero

/-! ### Concrete cases -/

/-- The external functions with the real hash functions, the real pairing and group arithmetic meet the hypotheses. -/
example : realExt.Strict ∧ realExt.Bilinear ∧ ∃ τ, realExt.Trapdoor τ :=
  ⟨realExt_strict, C69_bilinear realExt_pairing, (C69_trapdoor realExt_pairing).exists⟩

/-- The opening of the shipped proof is τ times its second opening proof, two finite points. -/
example : ∃ τ : Fr, τ ≠ 0 ∧ (∀ P Q : G1, Ate.check [enc P, enc Q] [g20, g21] = true ↔ Q = τ • P) ∧
    shippedF = τ • pointOf shippedProof 102 ∧ pointOf shippedProof 102 ≠ 0 := by
  obtain ⟨τ, h⟩ := exists_tau
  exact ⟨τ, C69_tau_ne h, h, (h _ _).1 C49_pairing, shipped_run.W_ne⟩

/-- C69_secret speaks of points that exist. -/
example : (∃ S : twist.Point, IsTwistPoint g20 S) ∧ ∃ G : twist.Point, IsTwistPoint G2gen G :=
  ⟨twist_point ((isOnTwist_iff _).2 C41_g2.1) (by decide +kernel), twist_point (by decide +kernel) (by decide +kernel)⟩

/-- The check refuses as well: twice the opening of the shipped proof does not pass. -/
example : ∃ P Q : G1, P ≠ 0 ∧ Q ≠ 0 ∧ Ate.check [enc P, enc Q] [g20, g21] ≠ true := by
  refine ⟨pointOf shippedProof 102, (2 : Fr) • shippedF, shipped_run.W_ne, ?_, ?_⟩
  · exact fun h => (fr_smul_eq_zero.1 h).elim (by decide +kernel) shipped_run.F_ne
  · intro h2
    obtain ⟨τ, h⟩ := exists_tau
    have e1 := (h _ _).1 C49_pairing
    have e2 := (h _ _).1 h2
    rw [← e1, two_smul, add_eq_left] at e2
    exact shipped_run.F_ne e2

/-- C69_accepted speaks of a run that exists: the shipped assignment. -/
example : (shippedCircuit.Define realExt).Accepted (honestTest realExt true) .init ∧ (honestTest realExt true).mode = .test :=
  ⟨C49_real realExt_strict.toLawful realExt_sha realExt_keccak realExt_pairing rfl, rfl⟩

end Verif
