/- Property C48: with the repo's hints, exactly which inputs the circuit accepts. Concrete cases that meet the hypotheses: Verif/Props/Shipped.lean. -/
import Verif.Lemmas.Words
import Verif.Props.Whole
import Verif.Lemmas.AuxRaw

namespace Verif
open Halo2

/-- Exactly the conditions under which the circuit accepts a canonical proof `t` with canonical aux values `a`: there
are at most 43 instance values, the instance hash is not zero and its commitment representable, the aux values satisfy their 21 defining relations, no
degenerate value occurs in the combination of the openings, and the pairing equation holds. -/
structure AcceptanceConditions (X : Ext) (t : List ℕ) (a : List Fr) (targetInst verifyInst : List Var) : Prop where
  len : (targetInst ++ verifyInst).length ≤ 43
  hash_ne : instHash X targetInst verifyInst ≠ 0
  inst : Representable (instCommitment (instHash X targetInst verifyInst))
  aux : AuxRelations (chalOf X t targetInst verifyInst) (evalsOf t) (fun i => a.getD i 0)
  witness : Representable (pointOf t 102)
  terms : GoodTerms (openingTerms (chalOf X t targetInst verifyInst) (commitmentsOf X t targetInst verifyInst) (evalsOf t) (a.getD 16 0))
  pairing : X.PairingEq (pointOf t 102) (openingOf X t targetInst verifyInst (a.getD 16 0))

/-- The integer that a test engine which does not reduce `*big.Int` values uses for a variable: see `toBig`. -/
def engineValue : Var → ℤ
  | .nil => 0
  | .int n => n % rMod
  | .big n => n
  | .wire v => v.val

/-- The instance hash of a circuit: Keccak-256 of the 32-byte big-endian encodings of the target instances followed by
the verifier instances, each reduced modulo p, as an element of the scalar field. -/
def circuitHash (X : Ext) (c : AggregatorCircuit) : Fr :=
  (beNat (X.keccak ((c.TargetInst ++ c.VerifyInst).flatMap fun v => beBytes (engineValue v : Fp).val 32)) : ℕ)

/-- The Fiat–Shamir challenges of the proof in a circuit: the transcript hashes the instance commitment and the absolute
values of the first 102 words. -/
noncomputable def circuitChallenges (X : Ext) (c : AggregatorCircuit) : Challenges :=
  challengesFor X.sha256 (instCommitment (circuitHash X c)) (absWords c.Proof)

/-- The commitments in a circuit. -/
noncomputable def circuitCommitments (X : Ext) (c : AggregatorCircuit) : Commitments :=
  .ofProof (instCommitment (circuitHash X c)) (proofPoint c.Proof)

/-- The evaluations in a circuit: the words 44 to 99 as field elements. -/
def circuitEvals (c : AggregatorCircuit) : Evals := .ofProof (frAt c.Proof)

/-- Exactly the conditions under which a circuit is accepted: at least 21 aux values, the first 21 canonical, at most 43
instance values, none of them nil, proof words that are big integers below 2^256 in absolute value with canonical points, an instance hash that is not zero and
has a representable commitment, aux values that satisfy their 21 defining relations, no degenerate value in the
combination of the openings, and the pairing equation. -/
structure Acceptable (X : Ext) (c : AggregatorCircuit) : Prop where
  aux_len : 21 ≤ c.Aux.length
  aux_good : ∀ v ∈ c.Aux.take 21, v.Good
  len : (c.TargetInst ++ c.VerifyInst).length ≤ 43
  inst_val : ∀ v ∈ c.TargetInst ++ c.VerifyInst, v.IsVal
  words : CanonicalWords c.Proof
  hash_ne : circuitHash X c ≠ 0
  inst : Representable (instCommitment (circuitHash X c))
  aux : AuxRelations (circuitChallenges X c) (circuitEvals c) (frAt c.Aux)
  witness : Representable (proofPoint c.Proof 102)
  terms : GoodTerms (openingTerms (circuitChallenges X c) (circuitCommitments X c) (circuitEvals c) (frAt c.Aux 16))
  pairing : X.PairingEq (proofPoint c.Proof 102)
    (opening (circuitChallenges X c) (circuitCommitments X c) (circuitEvals c) (frAt c.Aux 16))

theorem engineValue_toBig {E : Engine} (hE : E.mode = .test) (hr : E.raw = true) {vs : List Var} (hv : ∀ v ∈ vs, v.IsVal) :
    List.Forall₂ (fun v x => toBig E v = some x) vs (vs.map engineValue) := by
  induction vs with
  | nil => exact .nil
  | cons v vs ih =>
    refine .cons ?_ (ih fun w hw => hv w (List.mem_cons_of_mem _ hw))
    have := hv v (by simp)
    cases v <;> simp_all [toBig, engineValue, Var.IsVal]

theorem instance_hash {X : Ext} (hX : X.Lawful) {E : Engine} (hE : E.mode = .test) (hr : E.raw = true)
    (hk : ∀ k n ins, E.strat .keccakHint k n ins = Keccak256Hint X n ins) {c : AggregatorCircuit}
    (hv : ∀ v ∈ c.TargetInst ++ c.VerifyInst, v.IsVal) {s : St} (hs : s.sat = true) :
    ∃ v, (VerifyInstanceHash X (c.TargetInst ++ c.VerifyInst)).Accepts E s (v, none) ∧ v.fr = circuitHash X c ∧ v.Good := by
  obtain ⟨v, h1, h2, h3, -⟩ := C24_residues hX hk (engineValue_toBig hE hr hv) hs
  rw [List.flatMap_map] at h2
  exact ⟨v, h1, h2, h3⟩

theorem circuitHash_good {X : Ext} {c : AggregatorCircuit} (hv : ∀ v ∈ c.TargetInst ++ c.VerifyInst, v.Good) :
    circuitHash X c = instHash X c.TargetInst c.VerifyInst := by
  have : ((c.TargetInst ++ c.VerifyInst).flatMap fun v => beBytes (engineValue v : Fp).val 32) =
      (c.TargetInst ++ c.VerifyInst).flatMap fun v => beBytes v.fr.val 32 := by
    refine congrArg List.flatten (List.map_congr_left fun v hm => ?_)
    have h1 := toBig_good' (E := honestTest X true) (hv v hm)
    have h2 : toBig (honestTest X true) v = some (engineValue v) := by
      have h3 := hv v hm
      cases v with
      | nil => exact h3.elim
      | int n => rfl
      | big n => exact congrArg some (if_pos ⟨rfl, rfl⟩)
      | wire w => rfl
    rw [h2, Option.some.injEq] at h1
    rw [h1, Int.cast_natCast, ZMod.val_natCast_of_lt ((ZMod.val_lt _).trans rMod_lt_pMod)]
  rw [circuitHash, instHash, this]

/-- The "only if" half. -/
theorem accepted_conditions {X : Ext} (hX : X.Strict) {E : Engine} (hE : HonestRaw E)
    (hk : ∀ k n ins, E.strat .keccakHint k n ins = Keccak256Hint X n ins) {c : AggregatorCircuit}
    (ht : CanonicalWords c.Proof) {s : St} (hs : s.sat = true)
    (h : (c.Define X).Accepted E s) : Acceptable X c := by
  obtain ⟨s', h, hs'⟩ := h
  obtain ⟨r⟩ := define_ok h
  have hshort := C38_short X ⟨s', h, hs'⟩
  obtain ⟨hs1, hB0, h6, t', hS, hC, -⟩ := sound_run hX hE.test r hs'
  obtain ⟨h7, -⟩ := finalCheck_ok r.final hs'
  obtain ⟨h5, -⟩ := body_ok hE.test _ r.step2 h6
  obtain ⟨h4, -⟩ := body_ok hE.test _ r.step1 h5
  obtain ⟨e43, ix, iy, t'', hx, hy, -, -, hch, hrest, hlen⟩ := C27_schedule r.chal
  rw [e43] at h4
  have hval : ∀ v ∈ c.TargetInst ++ c.VerifyInst, v.IsVal := by
    intro v hv
    by_contra hn
    obtain ⟨m, hm⟩ := C24_nil (X := X) ⟨v, hv, hn⟩ E s
    have := r.hash
    rw [hm] at this
    cases this
  obtain ⟨v, ⟨s2, g1, -⟩, g2, -⟩ := instance_hash hX.toLawful hE.test hE.raw hk hval hs
  have hhash := r.hash
  rw [g1, Except.ok.injEq,
    Prod.mk.injEq, Prod.mk.injEq] at hhash
  rw [hhash.1.1] at g2
  have g2' : r.hv.fr = circuitHash X c := g2
  -- the instance commitment
  obtain ⟨-, -, -, hmt, -, hsat⟩ := mod_ok r.hmod
  have hmsm := r.msm
  obtain ⟨-, hs2, -⟩ := calcMsm_ok hmsm h4
  obtain ⟨-, hfr⟩ := hsat hs2
  obtain ⟨k, hkk, k0, k1⟩ := hmt hE.test
  rw [g2', hkk] at hfr
  have hkv : k = (circuitHash X c).val := by
    lift k to ℕ using k0
    have k1' : k < rMod := by exact_mod_cast k1
    rw [← hfr]
    simp only [Var.fr, Int.cast_natCast]
    rw [ZMod.val_natCast_of_lt k1']
  have hvx : (enc vkInstance).1.val = lagrangeX := by
    rw [vkInstance_enc]
    exact ZMod.val_natCast_of_lt (by decide +kernel)
  have hvy : (enc vkInstance).2.val = lagrangeY := by
    rw [vkInstance_enc]
    exact ZMod.val_natCast_of_lt (by decide +kernel)
  rw [hkk, hkv, ← hvx, ← hvy] at hmsm
  obtain ⟨-, n1, -, n3, n4⟩ := calcMsm_needs hX hE hmsm h4
  have n3' : Representable (instCommitment (circuitHash X c)) := n3
  have n4' : r.res = (.big (enc (instCommitment (circuitHash X c))).1.val, .big (enc (instCommitment (circuitHash X c))).2.val) := n4
  have hB : r.B[0]? = some r.res.1 ∧ r.B[1]? = some r.res.2 := by
    have l := r.blen
    rw [r.hB]
    refine ⟨?_, ?_⟩
    · rw [List.getElem?_set_ne (by omega), List.getElem?_set_self (by omega)]
    · rw [List.getElem?_set_self (by rw [List.length_set]; omega)]
  rw [n4'] at hB
  have hin : StepsIn X E c.Proof r.B0 (instCommitment (circuitHash X c)) := by
    have rpos : (0 : ℤ) < rMod := by exact_mod_cast rMod_pos
    refine ⟨hE, hX, hB0, ?_, ⟨getD_some ((hrest 0 (by norm_num)).trans hB.1), getD_some ((hrest 1 (by norm_num)).trans hB.2)⟩,
      fun i hi => words_exact ht ((isPointPosition_iff i).2 hi)⟩
    exact ⟨_, getD_some (hch 7 (by norm_num)), Int.emod_nonneg _ rpos.ne', Int.emod_lt_of_pos _ rpos⟩
  have hrun := run3 r.step1 r.step2 r.step3
  have hC' : challengesOf (frAt r.B0) = circuitChallenges X c := by
    rw [hC, g2', circuitChallenges, absWords_of_take hS.words.2]
  have hpair := hS.accepts.pairing
  rw [← hC, hC', g2'] at hpair
  have hterms := terms_needs hin hrun h7
  have hW := wrep_needs hin hrun h7
  obtain ⟨-, bufs, hb0, -, -, H, -⟩ := prefix_run hE.test (by norm_num) hB0 hrun h7
  have haux := Eqs.aux_rel H.fr (by norm_num)
  have hb0' : (fun i => ((bufs 0).getD i .nil).fr) = frAt r.B0 := by rw [hb0]; rfl
  rw [hb0'] at haux
  rw [hC'] at hterms haux
  refine ⟨hshort.2.1, fun v hv => ?_, by rw [List.length_append]; exact hshort.2.2, hval, ht, n1, n3', haux, hW, hterms, hpair⟩
  obtain ⟨i, hi, rfl⟩ := List.mem_take_iff_getElem.1 hv
  have hi' : i < c.Aux.length := by omega
  have key : ∃ w, c.Aux[i]? = some w ∧ w.Good := by
    rcases aux_all_used i (by omega) with h | h | h
    · exact execBody_aux_good hE.test hE.raw _ r.step1 i h
    · exact execBody_aux_good hE.test hE.raw _ r.step2 i h
    · exact execBody_aux_good hE.test hE.raw _ r.step3 i h
  obtain ⟨w, h1, h2⟩ := key
  rw [List.getElem?_eq_getElem hi', Option.some.injEq] at h1
  rw [h1]
  exact h2

/-- With the repo's hints, an accepted proof whose last two words are big integers has, at each of the 24 point
positions, the canonical coordinates of a finite point of the curve: both in [0, p). -/
theorem accepted_points {X : Ext} (hX : X.Strict) {E : Engine} (hE : HonestRaw E) {c : AggregatorCircuit} {s : St}
    (h : (c.Define X).Accepted E s) (hw : ∀ i, i = 102 ∨ i = 103 → ∃ z : ℤ, c.Proof[i]? = some (.big z)) (i : ℕ)
    (hi : IsPointPosition i) : ∃ x y : ℕ, c.Proof[i]? = some (.big x) ∧ c.Proof[i + 1]? = some (.big y) ∧ x < pMod ∧ y < pMod ∧
      (y : Fp) ^ 2 = (x : Fp) ^ 3 + 3 := by
  obtain ⟨s', h, hs'⟩ := h
  obtain ⟨r⟩ := define_ok h
  obtain ⟨hs1, hB0, h6, t', hS, hC, -⟩ := sound_run hX hE.test r hs'
  obtain ⟨h7, -⟩ := finalCheck_ok r.final hs'
  obtain ⟨-, _, _, _, -, -, -, -, hch, -⟩ := C27_schedule r.chal
  have hbig : ∀ j < 102, ∃ z : ℤ, c.Proof[j]? = some (.big z) := by
    intro j hj
    have h1 : (c.Proof.take 102)[j]? = (t'.map Var.big)[j]? := by rw [hS.words.2]
    have h2 : t'[j]? = some (t'[j]'(by rw [hS.words.1]; exact hj)) := List.getElem?_eq_getElem _
    rw [List.getElem?_take_of_lt hj, List.getElem?_map, h2] at h1
    exact ⟨_, h1⟩
  have hbig' : ∀ j < 104, ∃ z : ℤ, c.Proof[j]? = some (.big z) := by
    intro j hj
    by_cases h2 : j < 102
    · exact hbig j h2
    · exact hw j (by omega)
  have hi' : i + 1 < 104 := by rcases hi with ⟨-, h⟩ | h | h <;> omega
  obtain ⟨a, ha⟩ := hbig' i (by omega)
  obtain ⟨b, hb⟩ := hbig' (i + 1) hi'
  have rpos : (0 : ℤ) < rMod := by exact_mod_cast rMod_pos
  have hu : (r.B0.getD 9 .nil).Canon :=
    ⟨_, getD_some (hch 7 (by norm_num)), Int.emod_nonneg _ rpos.ne', Int.emod_lt_of_pos _ rpos⟩
  have hpa := hS.points i hi
  obtain ⟨⟨e1, e2⟩, hne⟩ := point_exact hX hE hB0 hu (run3 r.step1 r.step2 r.step3) h7 ((isPointPosition_iff i).1 hi)
    ((pointAt_iff _ i).1 hpa) ha hb
  rw [getD_some ha] at e1
  rw [getD_some hb] at e2
  obtain ⟨P, hP⟩ : ∃ P, P = proofPoint c.Proof i := ⟨_, rfl⟩
  rw [← hP] at e1 e2 hne
  refine ⟨(enc P).1.val, (enc P).2.val, ha.trans (by rw [e1]), hb.trans (by rw [e2]), ZMod.val_lt _, ZMod.val_lt _, ?_⟩
  rw [ZMod.natCast_zmod_val, ZMod.natCast_zmod_val]
  clear hP
  obtain ⟨x, y, hxy, rfl⟩ := exists_of_ne_zero hne
  exact hxy

/-- With the repo's hints, the proof words of an accepted circuit are canonical, provided that the last two are big
integers. -/
theorem accepted_words {X : Ext} (hX : X.Strict) {E : Engine} (hE : HonestRaw E) {c : AggregatorCircuit} {s : St}
    (h : (c.Define X).Accepted E s) (hw : ∀ i, i = 102 ∨ i = 103 → ∃ z : ℤ, c.Proof[i]? = some (.big z)) :
    CanonicalWords c.Proof := by
  have hpt := accepted_points hX hE h hw
  refine ⟨fun i hi => ?_, hpt⟩
  have hp : pMod < 2 ^ 256 := by decide +kernel
  by_cases hi' : i < 102
  · obtain ⟨s', h, hs'⟩ := h
    obtain ⟨r⟩ := define_ok h
    obtain ⟨-, -, -, -, ix, iy, t', -, -, h4, h5, -, -, h6, -⟩ := getChallenges_ok r.chal
    have hl : i < t'.length := by omega
    have h1 : (c.Proof.take 102)[i]? = (t'.map Var.big)[i]? := by rw [h5]
    rw [List.getElem?_take_of_lt hi', List.getElem?_map, List.getElem?_eq_getElem hl] at h1
    exact ⟨_, h1, h6 _ (List.getElem_mem _)⟩
  · obtain ⟨x, y, e1, e2, l1, l2, -⟩ := hpt 102 (.inr (.inr rfl))
    have : i = 102 ∨ i = 103 := by omega
    rcases this with rfl | rfl
    · exact ⟨_, e1, by rw [Int.natAbs_natCast]; exact l1.trans hp⟩
    · exact ⟨_, e2, by rw [Int.natAbs_natCast]; exact l2.trans hp⟩

/-- C48, for every circuit assignment whose last two proof words are not Go machine integers: it is accepted exactly when
the conditions hold. -/
theorem C48_circuit {X : Ext} (hX : X.Strict) {c : AggregatorCircuit}
    (hw : ∀ i, i = 102 ∨ i = 103 → ∀ z : ℤ, c.Proof[i]? ≠ some (.int z)) {s : St} (hs : s.sat = true) :
    (c.Define X).Accepted (honestTest X true) s ↔ Acceptable X c := by
  have hE := honest_raw X
  refine ⟨fun h => ?_, fun h => ?_⟩
  · have hw' : ∀ i, i = 102 ∨ i = 103 → ∃ z : ℤ, c.Proof[i]? = some (.big z) := by
      obtain ⟨s', h', hs'⟩ := id h
      obtain ⟨r⟩ := define_ok h'
      obtain ⟨-, -, -, t', hS, -⟩ := sound_run hX hE.test r hs'
      obtain ⟨x, y, h1, h2, -⟩ := hS.points 102 (.inr (.inr rfl))
      rintro i (rfl | rfl)
      · exact ⟨x, h1.resolve_right (hw 102 (.inl rfl) x)⟩
      · exact ⟨y, h2.resolve_right (hw 103 (.inr rfl) y)⟩
    exact accepted_conditions hX hE (fun _ _ _ => rfl) (accepted_words hX hE h hw') hs h
  · have ha' : ∀ i < 21, i < c.Aux.length ∧ (c.Aux.getD i .nil).Good := by
      intro i hi
      have hl : i < c.Aux.length := hi.trans_le h.aux_len
      refine ⟨hl, ?_⟩
      rw [getD_some (List.getElem?_eq_getElem hl)]
      exact h.aux_good _ (List.mem_take_iff_getElem.2 ⟨i, by omega, rfl⟩)
    exact complete_run hX.toLawful hE h.words ha' rfl rfl h.len
      (instance_hash hX.toLawful hE.test hE.raw (fun _ _ _ => rfl) h.inst_val hs) h.hash_ne h.inst h.aux h.witness h.terms h.pairing

/-- The "only if" half. -/
theorem C48_only_if {X : Ext} (hX : X.Strict) {E : Engine} (hE : HonestRaw E)
    (hk : ∀ k n ins, E.strat .keccakHint k n ins = Keccak256Hint X n ins) {t : List ℕ} (ht : CanonicalProof t) {a : List Fr}
    {vi ti : List Var} (hv : ∀ v ∈ ti ++ vi, v.Good) {s : St} (hs : s.sat = true)
    (h : ((circuitFor t a vi ti).Define X).Accepted E s) : AcceptanceConditions X t a ti vi := by
  have hc := accepted_conditions hX hE hk (c := circuitFor t a vi ti) ht.words hs h
  have h0 : circuitHash X (circuitFor t a vi ti) = instHash X ti vi := circuitHash_good hv
  have hp : proofPoint (circuitFor t a vi ti).Proof = pointOf t := proofPoint_words t
  have hf : frAt (circuitFor t a vi ti).Proof = fun i => ((t.getD i 0 : ℕ) : Fr) := frAt_words t
  have hfa := frAt_circuitFor_aux t a vi ti
  have h1 : circuitChallenges X (circuitFor t a vi ti) = chalOf X t ti vi := by
    rw [circuitChallenges, chalOf, h0]
    exact congrArg _ (absWords_words t)
  have h2 : circuitCommitments X (circuitFor t a vi ti) = commitmentsOf X t ti vi := by
    rw [circuitCommitments, hp, h0]
    rfl
  have h3 : circuitEvals (circuitFor t a vi ti) = evalsOf t := by
    rw [circuitEvals, hf]
    rfl
  obtain ⟨-, -, g2, -, -, g4, g5, g6, g7, g8, g9⟩ := hc
  rw [h0] at g4 g5
  rw [h1, h3, hfa] at g6
  rw [hp] at g7 g9
  rw [h1, h2, h3, hfa] at g8 g9
  exact ⟨g2, g4, g5, g6, g7, g8, g9⟩

/-- C48: with the repo's hints, a canonical proof with 21 canonical aux values is accepted exactly when the listed
conditions hold. -/
theorem C48_exact {X : Ext} (hX : X.Strict) {t : List ℕ} (ht : CanonicalProof t) {a : List Fr} (ha : a.length = 21)
    {vi ti : List Var} (hv : ∀ v ∈ ti ++ vi, v.Good) {s : St} (hs : s.sat = true) :
    ((circuitFor t a vi ti).Define X).Accepted (honestTest X true) s ↔ AcceptanceConditions X t a ti vi := by
  refine ⟨C48_only_if hX (honest_raw X) (fun _ _ _ => rfl) ht hv hs, fun h => ?_⟩
  exact C35_relations hX.toLawful (honest_raw X) (fun _ _ _ => rfl) ht ha h.len hv h.hash_ne h.inst h.aux h.witness h.terms
    h.pairing hs

/-- Outside the domain the 21 relations have one solution. -/
theorem Halo2.AuxRelations.unique {c : Challenges} {e : Evals} {a : ℕ → Fr} (h : AuxRelations c e a) (hx : ∀ i < n, c.x ≠ ω ^ i) :
    (List.range 21).map a = auxValues c e := by
  have inv : ∀ {x z : Fr}, x * z = 1 → x⁻¹ = z := fun h => inv_eq_of_mul_eq_one_right h
  obtain ⟨g1, g2⟩ := h.lagrange.unique hx
  have hq := h.quotient.congr (L' := .at c.x) g1 g2
  have hne : c.x ^ n - 1 ≠ 0 := by
    rw [sub_ne_zero]
    intro h
    obtain ⟨i, hi, he⟩ := (domain_iff _).2 h
    exact hx i hi he
  have hh : a 16 = quotientValue c e := by
    rw [quotientValue, eq_div_iff hne]
    exact hq
  have l0 : a 9 = Halo2.lagrange 0 c.x := g1
  have l1 : a 15 = Halo2.lagrange (n - 1) c.x := g2 1 (by norm_num) (by norm_num)
  have l2 : a 14 = Halo2.lagrange (n - 2) c.x := g2 2 (by norm_num) (by norm_num)
  have l3 : a 13 = Halo2.lagrange (n - 3) c.x := g2 3 (by norm_num) (by norm_num)
  have l4 : a 12 = Halo2.lagrange (n - 4) c.x := g2 4 (by norm_num) (by norm_num)
  have l5 : a 11 = Halo2.lagrange (n - 5) c.x := g2 5 (by norm_num) (by norm_num)
  have l6 : a 10 = Halo2.lagrange (n - 6) c.x := g2 6 (by norm_num) (by norm_num)
  have hr : List.range 21 = [0, 1, 2, 3, 4, 5, 6, 7, 8, 9, 10, 11, 12, 13, 14, 15, 16, 17, 18, 19, 20] := rfl
  rw [hr]
  unfold auxValues
  rw [← hh, ← l0, ← l1, ← l2, ← l3, ← l4, ← l5, ← l6, inv h.i0, inv h.i1, inv h.i2, inv h.i3, inv h.i4, inv h.i5, inv h.i6, inv h.i7,
    inv h.i8, inv h.i17, inv h.i18, inv h.i19, inv h.i20]
  rfl

/-- C48: when the challenge x is outside the domain, the aux values must be the specified ones and the proof must be in
general position: nothing else is accepted. -/
theorem C48_outside {X : Ext} (hX : X.Strict) {t : List ℕ} (ht : CanonicalProof t) {a : List Fr} (ha : a.length = 21)
    {vi ti : List Var} (hlen : (ti ++ vi).length ≤ 43) (hv : ∀ v ∈ ti ++ vi, v.Good) {s : St} (hs : s.sat = true)
    (hx : ∀ i < n, (chalOf X t ti vi).x ≠ ω ^ i) :
    ((circuitFor t a vi ti).Define X).Accepted (honestTest X true) s ↔
      a = auxOf X t ti vi ∧ GeneralPosition X t ti vi ∧
        X.PairingEq (pointOf t 102) (openingOf X t ti vi (quotientOf X t ti vi)) := by
  refine ⟨fun h => ?_, ?_⟩
  · have hc := (C48_exact hX ht ha hv hs).1 h
    have hau : a = auxOf X t ti vi := by
      rw [auxOf, ← hc.aux.unique hx]
      refine List.ext_getElem (by rw [List.length_map, List.length_range, ha]) fun i h1 h2 => ?_
      rw [List.getElem_map, List.getElem_range, List.getD_eq_getElem?_getD, List.getElem?_eq_getElem h1]
      rfl
    subst hau
    have h16 := auxOf_16 X t ti vi
    have ht' := hc.terms
    have hp' := hc.pairing
    rw [h16] at ht' hp'
    refine ⟨rfl, ⟨hc.hash_ne, hc.inst, ?_, hx, left_ne_zero_of_mul_eq_one hc.aux.i8, hc.witness, ht'⟩, hp'⟩
    intro h0
    have := hc.aux.i3
    rw [h0, mul_zero, sub_zero, zero_mul] at this
    exact zero_ne_one this
  · rintro ⟨rfl, hG, hp⟩
    exact C35_complete hX.toLawful ht hlen hv hG hp hs

/-- With the repo's hints, an accepted list of 104 natural numbers is a canonical proof. -/
theorem accepted_canonical {X : Ext} (hX : X.Strict) {E : Engine} (hE : HonestRaw E) {t : List ℕ} (hl : t.length = 104) {a : List Fr}
    {vi ti : List Var} {s : St} (h : ((circuitFor t a vi ti).Define X).Accepted E s) : CanonicalProof t := by
  have hget : ∀ i (hi : i < 104), (circuitFor t a vi ti).Proof[i]? = some (.big (t.getD i 0 : ℕ)) := by
    intro i hi
    have h1 : t[i]? = some t[i] := List.getElem?_eq_getElem (by omega)
    simp only [circuitFor]
    rw [List.getElem?_map, List.getD_eq_getElem?_getD, h1]
    rfl
  have hpts := accepted_points hX hE h fun i hi => ⟨_, hget i (by omega)⟩
  have hpt : ∀ i, IsPointPosition i → t.getD i 0 < pMod ∧ t.getD (i + 1) 0 < pMod ∧
      ((t.getD (i + 1) 0 : ℕ) : Fp) ^ 2 = ((t.getD i 0 : ℕ) : Fp) ^ 3 + 3 := by
    intro i hi
    obtain ⟨x, y, h1, h2, h3, h4, h5⟩ := hpts i hi
    have hi' : i + 1 < 104 := by rcases hi with ⟨-, h⟩ | h | h <;> omega
    rw [hget i (by omega), Option.some.injEq, Var.big.injEq, Nat.cast_inj] at h1
    rw [hget (i + 1) hi', Option.some.injEq, Var.big.injEq, Nat.cast_inj] at h2
    rw [h1, h2]
    exact ⟨h3, h4, h5⟩
  have hwords := accepted_words hX hE h fun i hi => ⟨_, hget i (by omega)⟩
  refine ⟨hl, ?_, hpt⟩
  intro m hm
  obtain ⟨i, hi, rfl⟩ := List.mem_iff_getElem.1 hm
  have hgd : t.getD i 0 = t[i] := by
    rw [List.getD_eq_getElem?_getD, List.getElem?_eq_getElem hi]
    rfl
  obtain ⟨z, h1, h2⟩ := hwords.word i (by omega)
  rw [hget i (by omega), Option.some.injEq, Var.big.injEq] at h1
  rw [← h1, Int.natAbs_natCast, hgd] at h2
  exact h2

/-- C48, for every list of 104 natural numbers: it is accepted exactly when it is a canonical proof and the listed
conditions hold. -/
theorem C48_all {X : Ext} (hX : X.Strict) {t : List ℕ} (hl : t.length = 104) {a : List Fr} (ha : a.length = 21)
    {vi ti : List Var} (hv : ∀ v ∈ ti ++ vi, v.Good) {s : St} (hs : s.sat = true) :
    ((circuitFor t a vi ti).Define X).Accepted (honestTest X true) s ↔ CanonicalProof t ∧ AcceptanceConditions X t a ti vi := by
  refine ⟨fun h => ?_, fun ⟨h1, h2⟩ => (C48_exact hX h1 ha hv hs).2 h2⟩
  have hc := accepted_canonical hX (honest_raw X) hl h
  exact ⟨hc, (C48_exact hX hc ha hv hs).1 h⟩

end Verif
