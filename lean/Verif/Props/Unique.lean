/- Property C56: what the rest of an accepted proof determines. -/
import Verif.Props.Shipped
import Verif.Props.Witness

namespace Verif
open Halo2

/-- The rotation sets depend only on the values and points at positions below 102 (a point at i uses the
words i and i+1). -/
theorem rotSets_congr {c : Challenges} {I : G1} {p p' : ℕ → G1} {f f' : ℕ → Fr} {h : Fr} (hp : ∀ i < 101, p i = p' i)
    (hf : ∀ i < 102, f i = f' i) :
    rotSets c (.ofProof I p) (.ofProof f) h = rotSets c (.ofProof I p') (.ofProof f') h := by
  have h1 : (List.range 13).map (fun i => (vkFixed i, [f (58 + i)])) = (List.range 13).map (fun i => (vkFixed i, [f' (58 + i)])) :=
    List.map_congr_left fun i hi => by rw [hf _ (by have := List.mem_range.1 hi; omega)]
  have h2 : (List.range 7).map (fun i => (vkSigma i, [f (72 + i)])) = (List.range 7).map (fun i => (vkSigma i, [f' (72 + i)])) :=
    List.map_congr_left fun i hi => by rw [hf _ (by have := List.mem_range.1 hi; omega)]
  have h3 : permSet (.ofProof I p) (.ofProof f) = permSet (.ofProof I p') (.ofProof f') := by
    simp [permSet, Commitments.ofProof, Evals.ofProof, hp, hf]
  have h4 : inputSet (.ofProof I p) (.ofProof f) = inputSet (.ofProof I p') (.ofProof f') := by
    simp [inputSet, Commitments.ofProof, Evals.ofProof, hp, hf]
  have h5 : nextSet (.ofProof I p) (.ofProof f) = nextSet (.ofProof I p') (.ofProof f') := by
    simp [nextSet, Commitments.ofProof, Evals.ofProof, hp, hf]
  have h6 : nextNextSet (.ofProof I p) (.ofProof f) = nextNextSet (.ofProof I p') (.ofProof f') := by
    simp [nextNextSet, Commitments.ofProof, Evals.ofProof, hp, hf]
  have h7 : hCommitment c (.ofProof I p) = hCommitment c (.ofProof I p') := by
    unfold hCommitment
    rw [show (Commitments.ofProof I p).h = fun i => p (38 + 2 * i) from rfl, show (Commitments.ofProof I p').h = fun i => p' (38 + 2 * i) from rfl]
    beta_reduce
    rw [hp _ (by norm_num), hp (38 + 2 * 1) (by norm_num), hp (38 + 2 * 2) (by norm_num)]
  have h8 : singleSet c (.ofProof I p) (.ofProof f) h = singleSet c (.ofProof I p') (.ofProof f') h := by
    unfold singleSet
    rw [h7]
    generalize hCommitment c (.ofProof I p') = H
    simp only [Commitments.ofProof, Evals.ofProof]
    rw [h1, h2]
    simp [hp, hf]
  unfold rotSets
  rw [h3, h4, h5, h6, h8]

/-- The opening combination without its last term, u·W'. -/
noncomputable def openingRest (c : Challenges) (C : Commitments) (e : Evals) (h : Fr) : G1 :=
  (rotSets c C e h).foldl (fun acc S => c.v • acc + S.weight c • (S.commitment c - S.value c • G1gen)) 0
    - vanish (points c.x firstRots) c.u • C.W

theorem opening_eq (c : Challenges) (C : Commitments) (e : Evals) (h : Fr) : opening c C e h = openingRest c C e h + c.u • C.W' := rfl

theorem openingRest_congr {c : Challenges} {I : G1} {p p' : ℕ → G1} {f f' : ℕ → Fr} {h : Fr} (hp : ∀ i < 101, p i = p' i)
    (hf : ∀ i < 102, f i = f' i) :
    openingRest c (.ofProof I p) (.ofProof f) h = openingRest c (.ofProof I p') (.ofProof f') h := by
  unfold openingRest
  rw [rotSets_congr hp hf, show (Commitments.ofProof I p).W = p 100 from rfl, show (Commitments.ofProof I p').W = p' 100 from rfl,
    hp 100 (by norm_num)]

/-- The constraints depend only on the values at positions below 102. -/
theorem constraints_ofProof_congr {c : Challenges} {L : LagrangeVals} {f f' : ℕ → Fr} (hf : ∀ i < 102, f i = f' i) :
    constraints c L (.ofProof f) = constraints c L (.ofProof f') := by
  have h1 : gates (.ofProof f) = gates (.ofProof f') := by
    simp [gates, Evals.ofProof, hf]
  have h2 : permutation c L (.ofProof f) = permutation c L (.ofProof f') := by
    unfold permutation
    simp only [Evals.ofProof]
    simp only [hf, Nat.reduceLT, Nat.reduceMul, Nat.reduceAdd, Nat.mul_zero, Nat.add_zero]
  have h3 : (Evals.ofProof f).lookup0 = (Evals.ofProof f').lookup0 := by simp [Evals.ofProof, hf]
  have h4 : (Evals.ofProof f).lookup1 = (Evals.ofProof f').lookup1 := by simp [Evals.ofProof, hf]
  have h5 : ∀ i < 13, (Evals.ofProof f).f i = (Evals.ofProof f').f i := fun i hi => hf _ (by omega)
  have h6 : (Evals.ofProof f).a6 = (Evals.ofProof f').a6 := hf _ (by norm_num)
  have h7 : (Evals.ofProof f).a7 = (Evals.ofProof f').a7 := hf _ (by norm_num)
  unfold constraints
  rw [h1, h2, h3, h4, h5 9 (by norm_num), h5 10 (by norm_num), h5 11 (by norm_num), h6, h7]

theorem quotientValue_congr {c : Challenges} {f f' : ℕ → Fr} (hf : ∀ i < 102, f i = f' i) :
    quotientValue c (.ofProof f) = quotientValue c (.ofProof f') := by
  unfold quotientValue
  rw [constraints_ofProof_congr hf]

theorem frAt_of_take {T T' : List Var} (h : T.take 102 = T'.take 102) : ∀ i < 102, frAt T i = frAt T' i := by
  intro i hi
  have := congrArg (fun l => l[i]?) h
  simp only [List.getElem?_take_of_lt hi] at this
  rw [frAt, frAt, List.getD_eq_getElem?_getD, List.getD_eq_getElem?_getD, this]

theorem proofPoint_of_take {T T' : List Var} (h : T.take 102 = T'.take 102) : ∀ i < 101, proofPoint T i = proofPoint T' i := by
  intro i hi
  have h1 := congrArg (fun l => l[i]?) h
  have h2 := congrArg (fun l => l[i + 1]?) h
  simp only [List.getElem?_take_of_lt (show i < 102 by omega)] at h1
  simp only [List.getElem?_take_of_lt (show i + 1 < 102 by omega)] at h2
  rw [proofPoint, proofPoint, List.getD_eq_getElem?_getD, List.getD_eq_getElem?_getD, h1, h2, List.getD_eq_getElem?_getD,
    List.getD_eq_getElem?_getD]

/-- C56: there is one trapdoor τ, the ratio of the two G2 points under the pairing, such that whatever the hints answered:
if two accepted runs agree on the instance hash and on the first 102 words of the proof, x is outside the domain and u is not τ,
then the second opening proof is the same point. -/
theorem C56_point {X : Ext} (hX : X.Bilinear) : ∃ τ : Fr, (∀ P Q : G1, P ≠ 0 → Q ≠ 0 → (X.PairingEq P Q ↔ Q = τ • P)) ∧
    ∀ (c c' : AggregatorCircuit) (k : Fr) (t : List ℤ), SoundAt X c k t → SoundAt X c' k t →
      (∀ i < n, (challengesFor X.sha256 (instCommitment k) (t.map Int.natAbs)).x ≠ ω ^ i) →
      (challengesFor X.sha256 (instCommitment k) (t.map Int.natAbs)).u ≠ τ →
      proofPoint c.Proof 102 = proofPoint c'.Proof 102 := by
  obtain ⟨τ, hτ⟩ := hX.trapdoor
  refine ⟨τ, hτ, fun c c' k t h h' hx hu => ?_⟩
  have a := C34_outside h hx
  have a' := C34_outside h' hx
  simp only [] at a a'
  have e := (hτ _ _ h.witness_ne a.opening_ne).1 a.pairing
  have e' := (hτ _ _ h'.witness_ne a'.opening_ne).1 a'.pairing
  generalize challengesFor X.sha256 (instCommitment k) (t.map Int.natAbs) = ch at *
  have htk : c.Proof.take 102 = c'.Proof.take 102 := h.words.2.trans h'.words.2.symm
  rw [opening_eq, openingRest_congr (proofPoint_of_take htk) (frAt_of_take htk), quotientValue_congr (frAt_of_take htk)] at e
  rw [opening_eq] at e'
  generalize openingRest ch (.ofProof (instCommitment k) (proofPoint c'.Proof)) (.ofProof (frAt c'.Proof))
    (quotientValue ch (.ofProof (frAt c'.Proof))) = R at *
  change R + ch.u • proofPoint c.Proof 102 = τ • proofPoint c.Proof 102 at e
  change R + ch.u • proofPoint c'.Proof 102 = τ • proofPoint c'.Proof 102 at e'
  have key : (τ - ch.u) • proofPoint c.Proof 102 = (τ - ch.u) • proofPoint c'.Proof 102 := by
    rw [sub_smul, sub_smul, ← e, ← e']
    abel
  have hne : τ - ch.u ≠ 0 := sub_ne_zero.2 (Ne.symm hu)
  have := congrArg (fun P => (τ - ch.u)⁻¹ • P) key
  simpa only [smul_smul, inv_mul_cancel₀ hne, one_smul] using this

/-- C56: with the hints of the repo, two accepted proofs (lists of big integers) for the same instance values that agree
on the first 102 words agree on all 104 words, provided that x is outside the domain and u is not τ. -/
theorem C56_unique {X : Ext} (hX : X.Strict) (hP : X.Bilinear) : ∃ τ : Fr, (∀ P Q : G1, P ≠ 0 → Q ≠ 0 → (X.PairingEq P Q ↔ Q = τ • P)) ∧
    ∀ {c c' : AggregatorCircuit} {E E' : Engine}, HonestRaw E → HonestRaw E' →
      (∀ k n ins, E.strat .keccakHint k n ins = Keccak256Hint X n ins) →
      (∀ k n ins, E'.strat .keccakHint k n ins = Keccak256Hint X n ins) →
      (∀ v ∈ c.TargetInst ++ c.VerifyInst, v.Good) → c'.TargetInst = c.TargetInst → c'.VerifyInst = c.VerifyInst →
      (∀ i, i = 102 ∨ i = 103 → ∃ z : ℤ, c.Proof[i]? = some (.big z)) →
      (∀ i, i = 102 ∨ i = 103 → ∃ z : ℤ, c'.Proof[i]? = some (.big z)) →
      c'.Proof.take 102 = c.Proof.take 102 → ∀ {s s' : St}, s.sat = true → s'.sat = true →
      (c.Define X).Accepted E s → (c'.Define X).Accepted E' s' →
      (∀ t : List ℤ, c.Proof.take 102 = t.map .big →
        let ch := challengesFor X.sha256 (instCommitment (instHash X c.TargetInst c.VerifyInst)) (t.map Int.natAbs)
        (∀ i < n, ch.x ≠ ω ^ i) ∧ ch.u ≠ τ) →
      c'.Proof.take 104 = c.Proof.take 104 := by
  obtain ⟨τ, h1, hτ⟩ := C56_point hP
  refine ⟨τ, h1, ?_⟩
  intro c c' E E' hE hE' hk hk' hv ht hi hw hw' hp s s' hs hs' h h' hx
  obtain ⟨t, hS⟩ := C34_honest hX hE.test hk hv hs h
  obtain ⟨t', hS'⟩ := C34_honest hX hE'.test hk' (by rw [ht, hi]; exact hv) hs' h'
  cases map_big_inj (hS.words.2.symm.trans (hp.symm.trans hS'.words.2))
  rw [ht, hi] at hS'
  obtain ⟨hx1, hx2⟩ := hx t hS.words.2
  have hW := hτ c c' _ t hS hS' hx1 hx2
  obtain ⟨x, y, e1, e2, l1, l2, o⟩ := accepted_points hX hE h hw 102 (.inr (.inr rfl))
  obtain ⟨x', y', e1', e2', l1', l2', o'⟩ := accepted_points hX hE' h' hw' 102 (.inr (.inr rfl))
  rw [proofPoint, proofPoint, getD_some e1, getD_some e2, getD_some e1', getD_some e2'] at hW
  unfold ptVar setInterface at hW
  rw [Option.getD_some, Option.getD_some, Option.getD_some, Option.getD_some, Int.cast_natCast, Int.cast_natCast, Int.cast_natCast,
    Int.cast_natCast] at hW
  have hW' := congrArg enc hW
  have v : ValidEnc ((x : Fp), (y : Fp)) := .inl o
  have v' : ValidEnc ((x' : Fp), (y' : Fp)) := .inl o'
  rw [enc_dec v, enc_dec v', Prod.mk.injEq] at hW'
  have ex : x = x' := by
    rw [← ZMod.val_natCast_of_lt l1, ← ZMod.val_natCast_of_lt l1', hW'.1]
  have ey : y = y' := by
    rw [← ZMod.val_natCast_of_lt l2, ← ZMod.val_natCast_of_lt l2', hW'.2]
  subst ex ey
  refine List.ext_getElem? fun i => ?_
  rw [List.getElem?_take, List.getElem?_take]
  by_cases hi4 : i < 104
  · rw [if_pos hi4, if_pos hi4]
    by_cases hi2 : i < 102
    · have := congrArg (fun l => l[i]?) hp
      simpa only [List.getElem?_take_of_lt hi2] using this
    · have : i = 102 ∨ i = 103 := by omega
      rcases this with rfl | rfl
      · rw [e1, e1']
      · exact e2'.trans e2.symm
  · rw [if_neg hi4, if_neg hi4]

/-- C56: with the hints of the repo, every accepted proof of big integers has at its 24 point positions the canonical
coordinates of finite curve points: a coordinate cannot be shifted by a multiple of p nor given with the other sign. -/
theorem C56_canonical {X : Ext} (hX : X.Strict) {E : Engine} (hE : HonestRaw E) {c : AggregatorCircuit} {s : St}
    (h : (c.Define X).Accepted E s) (hw : ∀ i, i = 102 ∨ i = 103 → ∃ z : ℤ, c.Proof[i]? = some (.big z)) (i : ℕ)
    (hi : IsPointPosition i) : ∃ x y : ℕ, c.Proof[i]? = some (.big x) ∧ c.Proof[i + 1]? = some (.big y) ∧ x < pMod ∧ y < pMod ∧
      (y : Fp) ^ 2 = (x : Fp) ^ 3 + 3 :=
  accepted_points hX hE h hw i hi

/-- The challenges do not depend on the signs of the evaluation words: negating any evaluation word of a proof, which
changes the claimed evaluation, leaves every challenge as it was. -/
theorem C28_signs_false {X : Ext} (hX : X.Lawful) {buf T out : List Var} {E : Engine} {s s' : St}
    (h : GetChallengesShPlonkCircuit X buf T E s = .ok ((none, out), s'))
    (hw : ∀ i, i = 102 ∨ i = 103 → ∃ z : ℤ, T[i]? = some (.big z) ∧ z.natAbs < 2 ^ 256) {i : ℕ} (h44 : 44 ≤ i) (h100 : i < 100)
    {z : ℤ} (hz : T[i]? = some (.big z)) :
    GetChallengesShPlonkCircuit X buf (T.set i (.big (-z))) E s = .ok ((none, out), s') := by
  obtain ⟨rfl, hT, hB, hpt, ix, iy, t, b0, b1, hl, htk, hix, hiy, ht, rfl⟩ := getChallenges_ok h
  have hlt : i < t.length := by omega
  have hti : t[i]'hlt = z := by
    have h1 : (T.take 102)[i]? = (t.map Var.big)[i]? := by rw [htk]
    rw [List.getElem?_take_of_lt (by omega), hz, List.getElem?_map, List.getElem?_eq_getElem hlt, Option.map_some,
      Option.some.injEq, Var.big.injEq] at h1
    exact h1.symm
  have hzb : z.natAbs < 2 ^ 256 := by rw [← hti]; exact ht _ (List.getElem_mem _)
  have hpt' : ∀ j, IsPointPosition j → PointAt (T.set i (.big (-z))) j := by
    intro j hj
    have hij : i ≠ j ∧ i ≠ j + 1 := by rcases hj with ⟨hj1, hj2⟩ | rfl | rfl <;> omega
    have := (pointAt_iff T j).2 (hpt j ((isPointPosition_iff j).1 hj))
    unfold PointAt at this ⊢
    rw [List.getElem?_set_ne hij.1, List.getElem?_set_ne hij.2]
    exact this
  have hbig : ∀ v ∈ (T.set i (.big (-z))).take 104, ∃ x : ℤ, v = .big x ∧ x.natAbs < 2 ^ 256 := by
    intro v hv
    obtain ⟨j, hj, rfl⟩ := List.mem_take_iff_getElem.1 hv
    rw [List.length_set] at hj
    by_cases hij : i = j
    · subst hij
      refine ⟨-z, ?_, by rwa [Int.natAbs_neg]⟩
      rw [List.getElem_set_self]
    · rw [List.getElem_set_ne hij]
      by_cases hj2 : j < 102
      · have h1 : (T.take 102)[j]? = (t.map Var.big)[j]? := by rw [htk]
        rw [List.getElem?_take_of_lt hj2, List.getElem?_map, List.getElem?_eq_getElem (show j < T.length by omega),
          List.getElem?_eq_getElem (show j < t.length by omega), Option.map_some, Option.some.injEq] at h1
        exact ⟨_, h1, ht _ (List.getElem_mem _)⟩
      · obtain ⟨w, h1, h2⟩ := hw j (by omega)
        rw [List.getElem?_eq_getElem (show j < T.length by omega), Option.some.injEq] at h1
        exact ⟨w, h1, h2⟩
  obtain ⟨out', h'⟩ := (C29_iff hX hB b0 b1 hix hiy (by rw [List.length_set]; exact hT) hbig E s').1 hpt'
  rw [h']
  obtain ⟨-, -, -, -, ix', iy', t', b0', b1', hl', htk', -, -, -, rfl⟩ := getChallenges_ok h'
  rw [b0, Option.some.injEq, Var.big.injEq] at b0'
  rw [b1, Option.some.injEq, Var.big.injEq] at b1'
  subst b0' b1'
  have e : t' = t.set i (-z) := by
    apply map_big_inj
    rw [← htk', List.take_set, htk, List.map_set]
  have e2 : t'.map Int.natAbs = t.map Int.natAbs := by
    rw [e, List.map_set, Int.natAbs_neg, ← hti]
    rw [← List.getElem_map Int.natAbs (h := by rw [List.length_map]; exact hlt), List.set_getElem_self]
  rw [e2]

/-! ### The shipped proof meets the hypotheses -/

theorem shipped_u {X : Ext} (hsha : X.sha256 = Sha256.hash) (hkec : X.keccak = Keccak.hash) :
    (chalOf X shippedProof (bigs shippedTargetInst) (bigs shippedVerifyInst)).u = ((shippedStart.getD 9 0 : ℕ) : Fr) := by
  obtain ⟨I, hI, henc, -, -⟩ := shipped_run.inst
  rw [encN, Prod.mk.injEq] at henc
  rw [chalOf, shipped_instHash hkec, ← hI, hsha, challengesFor, henc.1, henc.2]
  have h := congrArg (fun l : List ℕ => l[7]?) shipped_challenges
  unfold fsChallenges at h
  simp only [List.getElem?_map, List.getElem?_drop] at h
  unfold Challenges.ofDigests
  generalize fsDigests Sha256.hash fsSeed (fsBlocks (shippedStart.getD 0 0) (shippedStart.getD 1 0) (shippedProof.take 102)) = l at h ⊢
  simp only []
  cases hl : l[7]? with
  | none => rw [hl] at h; simp only [Option.map_none] at h; cases h
  | some d =>
    rw [hl] at h
    have h2 : shippedStart[2 + 7]? = some (shippedStart.getD 9 0) := rfl
    rw [h2, Option.map_some, Option.some.injEq] at h
    rw [← h, ZMod.natCast_mod]
    simp [List.getD_eq_getElem?_getD, hl]

theorem shipped_u_mul : (match jmul (shippedStart.getD 9 0) (shippedProof.getD 102 0, shippedProof.getD 103 0) with
    | some e => !Nat.beq e.1 shippedOpening.1
    | none => false) = true := by
  decide +kernel

/-- u times the shipped second opening proof is not the combination it is paired with, so u is not the trapdoor. -/
theorem shipped_u_ne : shippedF ≠ ((shippedStart.getD 9 0 : ℕ) : Fr) • pointOf shippedProof 102 := by
  intro h
  have hu : shippedStart.getD 9 0 < rMod := by decide +kernel
  have hu0 : 0 < shippedStart.getD 9 0 := by decide +kernel
  have hm := shipped_u_mul
  rw [← shipped_run.W_enc] at hm
  cases hj : jmul (shippedStart.getD 9 0) (encN (pointOf shippedProof 102)) with
  | none => rw [hj] at hm; cases hm
  | some e =>
    rw [hj] at hm
    obtain ⟨j1, -⟩ := jmul_encN hu0 shipped_run.W_ne hj
    have hF : encN shippedF = shippedOpening := shipped_run.F_enc
    rw [h, fr_smul_eq, ZMod.val_natCast_of_lt hu, ← j1] at hF
    rw [hF] at hm
    simp at hm

/-- The hypotheses of C56 are met by the shipped proof: it is accepted for some trapdoor, x is outside the domain and u is
not the trapdoor. -/
example : ∃ τ : Fr, (stdExt τ).Strict ∧ (stdExt τ).Bilinear ∧ (∀ P Q : G1, P ≠ 0 → Q ≠ 0 → ((stdExt τ).PairingEq P Q ↔ Q = τ • P)) ∧
    HonestRaw (honestTest (stdExt τ) true) ∧
    (shippedCircuit.Define (stdExt τ)).Accepted (honestTest (stdExt τ) true) .init ∧
    (∀ i, i = 102 ∨ i = 103 → ∃ z : ℤ, shippedCircuit.Proof[i]? = some (.big z)) ∧
    (∀ v ∈ shippedCircuit.TargetInst ++ shippedCircuit.VerifyInst, v.Good) ∧
    ∀ t : List ℤ, shippedCircuit.Proof.take 102 = t.map .big →
      let ch := challengesFor (stdExt τ).sha256 (instCommitment (instHash (stdExt τ) shippedCircuit.TargetInst
        shippedCircuit.VerifyInst)) (t.map Int.natAbs)
      (∀ i < n, ch.x ≠ ω ^ i) ∧ ch.u ≠ τ := by
  obtain ⟨τ, hacc, -⟩ := C49_accepted
  beta_reduce at hacc
  have hp := (C49_shipped (stdExt_strict τ).toLawful (stdExt_sha τ) (stdExt_keccak τ) (s := .init) rfl).1 hacc
  rw [stdExt_pairing] at hp
  refine ⟨τ, stdExt_strict τ, stdExt_bilinear τ, fun P Q _ _ => stdExt_pairing τ P Q, honest_raw _, hacc, ?_, shipped_run.good, ?_⟩
  · rintro i (rfl | rfl)
    · exact ⟨_, rfl⟩
    · exact ⟨_, rfl⟩
  · intro t ht
    have e : t.map Int.natAbs = shippedProof.take 102 := by
      have h1 : (shippedProof.take 102).map (fun m : ℕ => Var.big (m : ℤ)) = t.map .big := by
        rw [← ht, List.map_take]
        rfl
      have h2 : (shippedProof.take 102).map (fun m : ℕ => (m : ℤ)) = t := by
        apply map_big_inj
        rw [List.map_map]
        exact h1
      rw [← h2, List.map_map]
      conv_rhs => rw [← List.map_id (shippedProof.take 102)]
      rfl
    rw [e]
    have hG := (C49_spec (stdExt_sha τ) (stdExt_keccak τ)).1
    refine ⟨hG.x_outside, fun hu => shipped_u_ne ?_⟩
    have hu' : (chalOf (stdExt τ) shippedProof (bigs shippedTargetInst) (bigs shippedVerifyInst)).u = τ := hu
    rw [shipped_u (stdExt_sha τ) (stdExt_keccak τ)] at hu'
    rw [hu']
    exact hp

/-- Negating the first evaluation of a proof leaves the challenges as they were and changes the evaluation. -/
example (E : Engine) (s : St) : ∃ out, GetChallengesShPlonkCircuit exX ([.big 1, .big 2] ++ List.replicate 41 (.big 0)) exProof E s =
      .ok ((none, out), s) ∧
    GetChallengesShPlonkCircuit exX ([.big 1, .big 2] ++ List.replicate 41 (.big 0)) (exProof.set 44 (.big (-1))) E s =
      .ok ((none, out), s) ∧ frAt exProof 44 = 1 ∧ frAt (exProof.set 44 (.big (-1))) 44 = -1 := by
  obtain ⟨out, h⟩ := exProof_ok E s
  refine ⟨out, h, C28_signs_false exX_strict.toLawful h ?_ (z := 1) (by norm_num) (by norm_num) (by decide), ?_, ?_⟩
  · rintro i (rfl | rfl)
    · exact ⟨1, by decide, by norm_num⟩
    · exact ⟨2, by decide, by norm_num⟩
  · rw [frAt, getD_some (show exProof[44]? = some (.big 1) by decide)]
    simp [Var.fr]
  · rw [frAt, getD_some (show (exProof.set 44 (.big (-1)))[44]? = some (.big (-1)) by decide)]
    simp [Var.fr]

end Verif
