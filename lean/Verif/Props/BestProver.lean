/- Property C65: exactly which assignments some prover, whatever it answers to the hints, can get accepted. -/
import Verif.Lemmas.BestProver
import Verif.Props.Exact
import Verif.Props.Unique
import Verif.Props.Instances

namespace Verif
open Halo2

/-- Exactly the conditions under which some answers to the hints get a circuit accepted with instance hash `k`. -/
structure Provable (X : Ext) (c : AggregatorCircuit) (k : Fr) : Prop where
  /-- at least 21 aux values, the first 21 canonical -/
  aux_len : 21 ≤ c.Aux.length
  aux_good : ∀ v ∈ c.Aux.take 21, v.Good
  /-- at most 43 instance values, none of them nil -/
  len : (c.TargetInst ++ c.VerifyInst).length ≤ 43
  inst_val : ∀ v ∈ c.TargetInst ++ c.VerifyInst, v.IsVal
  /-- 104 proof words, the 24 pairs being points modulo p -/
  words : LooseWords c.Proof
  /-- the instance commitment can be computed and its coordinates are below r -/
  inst : X.scalarMul (enc vkInstance) k ≠ none ∧ Storable (instCommitment k)
  /-- the aux values satisfy their 21 relations -/
  aux : AuxRelations (challengesFor X.sha256 (instCommitment k) (absWords c.Proof)) (circuitEvals c) (frAt c.Aux)
  /-- W' is not infinity and its coordinates are below r -/
  witness : proofPoint c.Proof 102 ≠ 0 ∧ Storable (proofPoint c.Proof 102)
  /-- each of the 46 products can be computed, its coordinates and those of all partial sums are below r -/
  terms : ∀ p ∈ openingTerms (challengesFor X.sha256 (instCommitment k) (absWords c.Proof))
    (.ofProof (instCommitment k) (proofPoint c.Proof)) (circuitEvals c) (frAt c.Aux 16),
    X.scalarMul (enc p.2) p.1 ≠ none ∧ Storable (p.1 • p.2)
  sums : ∀ m, 1 ≤ m → m ≤ 46 → Storable (partialSum (openingTerms (challengesFor X.sha256 (instCommitment k) (absWords c.Proof))
    (.ofProof (instCommitment k) (proofPoint c.Proof)) (circuitEvals c) (frAt c.Aux 16)) m)
  /-- the opening is not infinity and the pairing equation holds -/
  opening_ne : opening (challengesFor X.sha256 (instCommitment k) (absWords c.Proof))
    (.ofProof (instCommitment k) (proofPoint c.Proof)) (circuitEvals c) (frAt c.Aux 16) ≠ 0
  pairing : X.PairingEq (proofPoint c.Proof 102) (opening (challengesFor X.sha256 (instCommitment k) (absWords c.Proof))
    (.ofProof (instCommitment k) (proofPoint c.Proof)) (circuitEvals c) (frAt c.Aux 16))

theorem Ext.Strict.defined {X : Ext} (hX : X.Strict) {P : G1} {s : Fr} (h : X.scalarMul (enc P) s ≠ none) :
    X.scalarMul (enc P) s = some (enc (s • P)) := by
  obtain ⟨R, hR⟩ := Option.ne_none_iff_exists'.1 h
  rw [hR, hX.scalarMul_deg _ _ _ hR]

theorem LooseWords.ptBig {T : List Var} (h : LooseWords T) {i : ℕ} (hi : IsPointPosition i) :
    PtBig (T.getD i .nil) (T.getD (i + 1) .nil) (proofPoint T i) := by
  have hi' : i + 1 < 104 := by rcases hi with ⟨-, h⟩ | h | h <;> omega
  obtain ⟨a, ha⟩ := h.big i (by omega)
  obtain ⟨b, hb⟩ := h.big (i + 1) hi'
  refine ⟨a, b, getD_some ha, getD_some hb, ?_⟩
  obtain ⟨x, y, p1, p2, p3⟩ := PtAt.of_pair ((pointAt_iff _ i).1 (h.point i hi))
  rw [getD_some ha, setInterface, Option.some.injEq] at p1
  rw [getD_some hb, setInterface, Option.some.injEq] at p2
  rw [p3, p1, p2]

/-- C65, one half: the best prover succeeds whenever the conditions hold. -/
theorem C65_best {X : Ext} (hX : X.Strict) {c : AggregatorCircuit} {bs : List UInt8}
    (hb : bs.length = 32 * (c.TargetInst ++ c.VerifyInst).length) (h : Provable X c (beNat (X.keccak bs) : ℕ)) {s : St}
    (hs : s.sat = true) : (c.Define X).Accepted ⟨.test, true, bestStrat X bs⟩ s := by
  have hE := best_runs hX.toLawful bs
  have ha' : ∀ i < 21, i < c.Aux.length ∧ (c.Aux.getD i .nil).Good := by
    intro i hi
    have hl : i < c.Aux.length := hi.trans_le h.aux_len
    refine ⟨hl, ?_⟩
    rw [getD_some (List.getElem?_eq_getElem hl)]
    exact h.aux_good _ (List.mem_take_iff_getElem.2 ⟨i, by omega, rfl⟩)
  have hhash : ∃ v, (VerifyInstanceHash X (c.TargetInst ++ c.VerifyInst)).Accepts ⟨.test, true, bestStrat X bs⟩ s (v, none) ∧
      v.fr = ((beNat (X.keccak bs) : ℕ) : Fr) ∧ v.Good := by
    obtain ⟨v, h1, h2, h3, -⟩ := vih_run (X := X) (E := ⟨.test, true, bestStrat X bs⟩) (a := 0) (s := s) hX.keccak_len
      (engineValue_toBig rfl rfl h.inst_val) rfl hb
    exact ⟨v, ⟨_, h1, hs⟩, h2, h3⟩
  refine complete_gen hE h.words (fun i hi => h.words.ptBig ((isPointPosition_iff i).2 hi)) ha' rfl rfl h.len hhash
    ⟨hX.defined h.inst.1, h.inst.2⟩ h.aux ⟨hX.scalarMul _ _ h.witness.1 one_ne_zero, ?_⟩
    (fun p hp => ⟨hX.defined (h.terms p hp).1, (h.terms p hp).2⟩) h.sums h.witness.1 h.opening_ne h.pairing
  rw [one_smul]
  exact h.witness.2

/-- The other half: whatever the hints answer, an accepted run meets the conditions for some byte string. -/
theorem C65_needed {X : Ext} (hX : X.Strict) {c : AggregatorCircuit} {E : Engine} (hE : E.mode = .test) (hraw : E.raw = true)
    (hw : ∀ i, i = 102 ∨ i = 103 → ∀ z : ℤ, c.Proof[i]? ≠ some (.int z)) {s : St} (h : (c.Define X).Accepted E s) :
    ∃ bs : List UInt8, bs.length = 32 * (c.TargetInst ++ c.VerifyInst).length ∧ Provable X c (beNat (X.keccak bs) : ℕ) := by
  obtain ⟨s', h, hs'⟩ := h
  obtain ⟨r⟩ := define_ok h
  have hshort := C38_short X ⟨s', h, hs'⟩
  obtain ⟨hs1, hB0, h6, t', hS, hC, -⟩ := sound_run hX hE r hs'
  obtain ⟨h7, -⟩ := finalCheck_ok r.final hs'
  obtain ⟨h5, -⟩ := body_ok hE _ r.step2 h6
  obtain ⟨h4, -⟩ := body_ok hE _ r.step1 h5
  obtain ⟨bs, hb, hk⟩ := C25_some hX.toLawful ⟨_, r.hash, hs1⟩
  refine ⟨bs, hb, ?_⟩
  rw [← hk]
  obtain ⟨e43, ix, iy, t'', hx, hy, -, -, hch, hrest, hlen⟩ := C27_schedule r.chal
  obtain ⟨-, -, -, -, -, -, t3, -, -, q4, q5, -, -, q6, -⟩ := getChallenges_ok r.chal
  rw [e43] at h4
  have hval : ∀ v ∈ c.TargetInst ++ c.VerifyInst, v.IsVal := by
    intro v hv
    by_contra hn
    obtain ⟨m, hm⟩ := C24_nil (X := X) ⟨v, hv, hn⟩ E s
    have := r.hash
    rw [hm] at this
    cases this
  -- the proof words
  have hword : ∀ i < 102, ∃ z : ℤ, c.Proof[i]? = some (.big z) ∧ z.natAbs < 2 ^ 256 := by
    intro i hi
    have hl : i < t3.length := by omega
    have h1 : (c.Proof.take 102)[i]? = (t3.map Var.big)[i]? := by rw [q5]
    rw [List.getElem?_take_of_lt hi, List.getElem?_map, List.getElem?_eq_getElem hl] at h1
    exact ⟨_, h1, q6 _ (List.getElem_mem _)⟩
  have hloose : LooseWords c.Proof := by
    refine ⟨fun i hi => ?_, fun i hi z hz => ?_, hS.points⟩
    · by_cases h2 : i < 102
      · obtain ⟨z, hz, -⟩ := hword i h2
        exact ⟨z, hz⟩
      · obtain ⟨x, y, p1, p2, -⟩ := hS.points 102 (.inr (.inr rfl))
        obtain rfl | rfl : i = 102 ∨ i = 103 := by omega
        · exact ⟨x, p1.resolve_right (hw 102 (.inl rfl) x)⟩
        · exact ⟨y, p2.resolve_right (hw 103 (.inr rfl) y)⟩
    · obtain ⟨z', hz', hb⟩ := hword i hi
      rw [hz, Option.some.injEq, Var.big.injEq] at hz'
      rw [hz']; exact hb
  -- the instance commitment
  obtain ⟨-, -, -, hmt, -, hsat⟩ := mod_ok r.hmod
  obtain ⟨-, hs2, -, px, py, kk, c1, c2, c3, n, m, hres, n0, n1, m0, m1, hm⟩ := calcMsm_ok r.msm h4
  obtain ⟨-, hfr⟩ := hsat hs2
  obtain ⟨k, hkk, k0, k1⟩ := hmt hE
  rw [hkk] at hfr c3
  have hkv : k = (r.hv.fr).val := by
    lift k to ℕ using k0
    have k1' : k < rMod := by exact_mod_cast k1
    rw [← hfr]
    simp only [Var.fr, Int.cast_natCast]
    rw [ZMod.val_natCast_of_lt k1']
  obtain ⟨cc, d1, d2⟩ := scalar_val r.hv.fr
  rw [hkv, d1, Option.some.injEq] at c3
  rw [setInterface, Option.some.injEq] at c1 c2
  subst c1 c2 c3
  rw [d2] at hm
  have hvk : ((((lagrangeX : ℕ) : ℤ) : Fp), (((lagrangeY : ℕ) : ℤ) : Fp)) = enc vkInstance := by
    rw [vkInstance_enc, Int.cast_natCast, Int.cast_natCast]
  rw [hvk] at hm
  have he := hX.scalarMul_deg _ _ _ hm
  have hI : Storable (instCommitment r.hv.fr) := storable_of n0 n1 m0 m1 he
  have hres' : PtExact r.res.1 r.res.2 (instCommitment r.hv.fr) := by
    rw [hres]
    exact ⟨congrArg _ (exact_of n0 n1 (congrArg Prod.fst he)), congrArg _ (exact_of m0 m1 (congrArg Prod.snd he))⟩
  have hB : r.B[0]? = some r.res.1 ∧ r.B[1]? = some r.res.2 := by
    have l := r.blen
    rw [r.hB]
    refine ⟨?_, ?_⟩
    · rw [List.getElem?_set_ne (by omega), List.getElem?_set_self (by omega)]
    · rw [List.getElem?_set_self (by rw [List.length_set]; omega)]
  have hinst : PtExact (r.B0.getD 0 .nil) (r.B0.getD 1 .nil) (instCommitment r.hv.fr) := by
    rw [getD_some ((hrest 0 (by norm_num)).trans hB.1), getD_some ((hrest 1 (by norm_num)).trans hB.2)]
    exact hres'
  have rpos : (0 : ℤ) < rMod := by exact_mod_cast rMod_pos
  have hu : (r.B0.getD 9 .nil).Canon :=
    ⟨_, getD_some (hch 7 (by norm_num)), Int.emod_nonneg _ rpos.ne', Int.emod_lt_of_pos _ rpos⟩
  -- the steps
  have hrun := run3 r.step1 r.step2 r.step3
  have hC' : challengesOf (frAt r.B0) = challengesFor X.sha256 (instCommitment r.hv.fr) (absWords c.Proof) := by
    rw [hC, absWords_of_take hS.words.2]
  obtain ⟨-, bufs, hb0, -, -, H, -⟩ := prefix_run hE (by norm_num) hB0 hrun h7
  have haux := Eqs.aux_rel H.fr (by norm_num)
  have hb0' : (fun i => ((bufs 0).getD i .nil).fr) = frAt r.B0 := by rw [hb0]; rfl
  rw [hb0', hC'] at haux
  have hres : ∀ i ∈ pointPositions, PtRes (c.Proof.getD i .nil) (c.Proof.getD (i + 1) .nil) (proofPoint c.Proof i) :=
    fun i hi => (best_runs hX.toLawful []).res _ _ _ (hloose.ptBig ((isPointPosition_iff i).2 hi))
  have hterms := terms_hold hX (I := instCommitment r.hv.fr) H hres (by rw [hb0]; exact hinst) (by rw [hb0]; exact hu)
  have heq := termsOf_eq (I := instCommitment r.hv.fr) H.fr (by norm_num)
  rw [heq, hb0', hC'] at hterms
  have hWs := witness_holds hX (by norm_num) H (hres 102 (by decide))
  have hpair := hS.accepts.pairing
  have hone := hS.accepts.opening_ne
  rw [← hC, hC'] at hpair hone
  obtain ⟨L, hL⟩ : ∃ L, L = openingTerms (challengesFor X.sha256 (instCommitment r.hv.fr) (absWords c.Proof))
    (.ofProof (instCommitment r.hv.fr) (proofPoint c.Proof)) (.ofProof (frAt c.Proof)) (frAt c.Aux 16) := ⟨_, rfl⟩
  have hlen46 : L.length = 46 := by rw [hL]; unfold openingTerms; exact termList_length ..
  rw [← hL] at hterms
  refine ⟨hshort.2.1, fun v hv => ?_, by rw [List.length_append]; exact hshort.2.2, hval, hloose, ⟨by rw [hm]; simp, hI⟩, haux,
    ⟨hS.witness_ne, hWs⟩, ?_, ?_, hone, hpair⟩
  · obtain ⟨i, hi, rfl⟩ := List.mem_take_iff_getElem.1 hv
    have hi' : i < c.Aux.length := by omega
    have key : ∃ w, c.Aux[i]? = some w ∧ w.Good := by
      rcases aux_all_used i (by omega) with h | h | h
      · exact execBody_aux_good hE hraw _ r.step1 i h
      · exact execBody_aux_good hE hraw _ r.step2 i h
      · exact execBody_aux_good hE hraw _ r.step3 i h
    obtain ⟨w, h1, h2⟩ := key
    rw [List.getElem?_eq_getElem hi', Option.some.injEq] at h1
    rw [h1]
    exact h2
  · intro p hp
    unfold circuitEvals at hp
    rw [← hL] at hp
    obtain ⟨m, hm, rfl⟩ := List.getElem_of_mem hp
    have := hterms m (by omega)
    rw [List.getD_eq_getElem?_getD, List.getElem?_eq_getElem hm, Option.getD_some] at this
    exact ⟨by rw [this.1]; simp, this.2.1⟩
  · intro m h1 h2
    unfold circuitEvals
    rw [← hL]
    obtain ⟨j, rfl⟩ : ∃ j, m = j + 1 := ⟨m - 1, by omega⟩
    exact (hterms j (by omega)).2.2

/-- C65: which assignments some prover can get accepted by a test engine that does not reduce big integers. -/
theorem C65_exact {X : Ext} (hX : X.Strict) {c : AggregatorCircuit}
    (hw : ∀ i, i = 102 ∨ i = 103 → ∀ z : ℤ, c.Proof[i]? ≠ some (.int z)) {s : St} (hs : s.sat = true) :
    (∃ σ, (c.Define X).Accepted ⟨.test, true, σ⟩ s) ↔
      ∃ bs : List UInt8, bs.length = 32 * (c.TargetInst ++ c.VerifyInst).length ∧ Provable X c (beNat (X.keccak bs) : ℕ) :=
  ⟨fun ⟨_, h⟩ => C65_needed hX rfl rfl hw h, fun ⟨_, hb, h⟩ => ⟨_, C65_best hX hb h hs⟩⟩

/-- C65: what is accepted does not depend on the instance values, only on their number: if some prover gets a circuit
accepted, then with any other instance values, as many of them, some prover gets it accepted too. -/
theorem C65_instances_false {X : Ext} (hX : X.Strict) {c : AggregatorCircuit}
    (hw : ∀ i, i = 102 ∨ i = 103 → ∀ z : ℤ, c.Proof[i]? ≠ some (.int z)) {s : St} (hs : s.sat = true)
    (h : ∃ σ, (c.Define X).Accepted ⟨.test, true, σ⟩ s) {ti vi : List Var} (hv : ∀ v ∈ ti ++ vi, v.IsVal)
    (hl : (ti ++ vi).length = (c.TargetInst ++ c.VerifyInst).length) :
    ∃ σ, (({ c with TargetInst := ti, VerifyInst := vi } : AggregatorCircuit).Define X).Accepted ⟨.test, true, σ⟩ s := by
  obtain ⟨bs, hb, h⟩ := (C65_exact hX hw hs).1 h
  refine ⟨bestStrat X bs, C65_best hX (c := { c with TargetInst := ti, VerifyInst := vi }) (bs := bs) (by rw [hb]; exact congrArg _ hl.symm) ?_ hs⟩
  exact ⟨h.aux_len, h.aux_good, hl.trans_le h.len, hv, h.words, h.inst, h.aux, h.witness, h.terms, h.sums, h.opening_ne, h.pairing⟩

/-- The terms of the opening depend only on the points and on the words below 102. -/
theorem openingTerms_words {c : Challenges} {I : G1} {p : ℕ → G1} {f f' : ℕ → Fr} {h : Fr} (hf : ∀ i < 102, f i = f' i) :
    openingTerms c (.ofProof I p) (.ofProof f) h = openingTerms c (.ofProof I p) (.ofProof f') h := by
  unfold openingTerms
  rw [rotSets_congr (fun _ _ => rfl) hf]
  rfl

theorem auxRelations_words {c : Challenges} {f f' a : ℕ → Fr} (hf : ∀ i < 102, f i = f' i) (h : AuxRelations c (.ofProof f) a) :
    AuxRelations c (.ofProof f') a := by
  have hq : QuotientIdentity c (lagrangeOf a) (.ofProof f') (a 16) := by
    have := h.quotient
    unfold QuotientIdentity at this ⊢
    rw [this, constraints_ofProof_congr hf]
  exact { h with quotient := hq }

/-- Proof words that are the same below 102, and big integers with the same residues modulo p after, are as good for a prover. -/
theorem Provable.congr {X : Ext} {c : AggregatorCircuit} {k : Fr} (h : Provable X c k) {T : List Var}
    (ht : T.take 102 = c.Proof.take 102) (hw : ∀ i, 102 ≤ i → i < 104 → ∃ z : ℤ, T[i]? = some (.big z))
    (hm : ∀ i, setInterface (T.getD i .nil) = setInterface (c.Proof.getD i .nil)) :
    Provable X { c with Proof := T } k := by
  have hlow : ∀ i < 102, T[i]? = c.Proof[i]? := fun i hi => by
    have := congrArg (fun l => l[i]?) ht
    simpa only [List.getElem?_take_of_lt hi] using this
  have hf : ∀ i < 102, frAt c.Proof i = frAt T i := frAt_of_take ht.symm
  have hp : proofPoint T = proofPoint c.Proof := by
    funext i
    rw [proofPoint, proofPoint, ptVar, ptVar, hm, hm]
  have hab : absWords T = absWords c.Proof := by unfold absWords; rw [ht]
  have hbig : ∀ i < 104, ∃ z : ℤ, T[i]? = some (.big z) := fun i hi => by
    by_cases h2 : i < 102
    · rw [hlow i h2]; exact h.words.big i hi
    · exact hw i (by omega) hi
  have hwords : LooseWords T := by
    refine ⟨hbig, fun i hi z hz => h.words.size i hi z (by rw [← hlow i hi]; exact hz), fun i hi => ?_⟩
    have hi' : i + 1 < 104 := by rcases hi with ⟨-, h⟩ | h | h <;> omega
    obtain ⟨x, hx⟩ := hbig i (by omega)
    obtain ⟨y, hy⟩ := hbig (i + 1) hi'
    obtain ⟨x', hx'⟩ := h.words.big i (by omega)
    obtain ⟨y', hy'⟩ := h.words.big (i + 1) hi'
    obtain ⟨x1, y1, p1, p2, p3⟩ := h.words.point i hi
    have m1 := hm i
    have m2 := hm (i + 1)
    rw [getD_some hx, getD_some hx', setInterface, setInterface, Option.some.injEq] at m1
    rw [getD_some hy, getD_some hy', setInterface, setInterface, Option.some.injEq] at m2
    have q1 : x1 = x' := by
      rcases p1 with p1 | p1 <;> rw [hx'] at p1 <;> cases p1
      rfl
    have q2 : y1 = y' := by
      rcases p2 with p2 | p2 <;> rw [hy'] at p2 <;> cases p2
      rfl
    refine ⟨x, y, .inl hx, .inl hy, ?_⟩
    rw [m1, m2, ← q1, ← q2]
    exact p3
  have h1 := h.aux
  have h2 := h.terms
  have h3 := h.sums
  have h4 := h.opening_ne
  have h5 := h.pairing
  have h6 := h.witness
  unfold circuitEvals at h1 h2 h3 h4 h5
  rw [openingTerms_words hf] at h2 h3
  rw [opening_eq, openingRest_congr (fun _ _ => rfl) hf, ← opening_eq] at h4 h5
  rw [← hab, ← hp] at h2 h3 h4 h5
  rw [← hab] at h1
  rw [← hp] at h6
  exact ⟨h.aux_len, h.aux_good, h.len, h.inst_val, hwords, h.inst, auxRelations_words hf h1, h6, h2, h3, h4, h5⟩

/-- C65: with hints of the prover's choice a proof is malleable: any multiples of p can be added to the coordinates of the
second opening proof, which no challenge depends on. (With the hints of the repo they cannot: C56.) -/
theorem C65_malleable {X : Ext} (hX : X.Strict) {c : AggregatorCircuit} {z w : ℤ} (hz : c.Proof[102]? = some (.big z))
    (hw : c.Proof[103]? = some (.big w)) {s : St} (hs : s.sat = true) (h : ∃ σ, (c.Define X).Accepted ⟨.test, true, σ⟩ s) (a b : ℤ) :
    ∃ σ, (({ c with Proof := (c.Proof.set 102 (.big (z + a * pMod))).set 103 (.big (w + b * pMod)) } : AggregatorCircuit).Define X).Accepted
      ⟨.test, true, σ⟩ s := by
  have hni : ∀ i, i = 102 ∨ i = 103 → ∀ z : ℤ, c.Proof[i]? ≠ some (.int z) := by
    rintro i (rfl | rfl) z'
    · rw [hz]; simp
    · rw [hw]; simp
  have l1 : 102 < c.Proof.length := (List.getElem?_eq_some_iff.1 hz).1
  have l2 : 103 < c.Proof.length := (List.getElem?_eq_some_iff.1 hw).1
  have hp0 : ((pMod : ℤ) : Fp) = 0 := by rw [Int.cast_natCast]; exact ZMod.natCast_self pMod
  obtain ⟨T, hT⟩ : ∃ T, T = (c.Proof.set 102 (.big (z + a * pMod))).set 103 (.big (w + b * pMod)) := ⟨_, rfl⟩
  have t1 : T[102]? = some (.big (z + a * pMod)) := by
    rw [hT, List.getElem?_set_ne (by omega), List.getElem?_set_self l1]
  have t2 : T[103]? = some (.big (w + b * pMod)) := by
    rw [hT, List.getElem?_set_self (by rw [List.length_set]; exact l2)]
  have t3 : ∀ i, i ≠ 102 → i ≠ 103 → T[i]? = c.Proof[i]? := fun i h1 h2 => by
    rw [hT, List.getElem?_set_ne (Ne.symm h2), List.getElem?_set_ne (Ne.symm h1)]
  rw [← hT]
  clear hT
  obtain ⟨bs, hb, h⟩ := (C65_exact hX hni hs).1 h
  refine ⟨bestStrat X bs, C65_best hX (c := { c with Proof := T }) (bs := bs) hb (h.congr ?_ ?_ ?_) hs⟩
  · refine List.ext_getElem? fun i => ?_
    rw [List.getElem?_take, List.getElem?_take]
    by_cases hi : i < 102
    · rw [if_pos hi, if_pos hi, t3 i (by omega) (by omega)]
    · rw [if_neg hi, if_neg hi]
  · intro i h1 h2
    obtain rfl | rfl : i = 102 ∨ i = 103 := by omega
    exacts [⟨_, t1⟩, ⟨_, t2⟩]
  · intro i
    by_cases h1 : i = 102
    · rw [h1, getD_some t1, getD_some hz, setInterface, setInterface, Int.cast_add, Int.cast_mul, hp0, mul_zero, add_zero]
    · by_cases h2 : i = 103
      · rw [h2, getD_some t2, getD_some hw, setInterface, setInterface, Int.cast_add, Int.cast_mul, hp0, mul_zero, add_zero]
      · rw [List.getD_eq_getElem?_getD, List.getD_eq_getElem?_getD, t3 i h1 h2]

/-- With the hints of the repo the two words are fixed: the shifted proof is refused unless the shift is nothing. -/
theorem C65_contrast {X : Ext} (hX : X.Strict) {E : Engine} (hE : HonestRaw E) {c : AggregatorCircuit} {z w a b : ℤ} {s s' : St}
    (h : (c.Define X).Accepted E s) (hz : c.Proof[102]? = some (.big z)) (hw : c.Proof[103]? = some (.big w))
    (h' : (({ c with Proof := (c.Proof.set 102 (.big (z + a * pMod))).set 103 (.big (w + b * pMod)) } : AggregatorCircuit).Define X).Accepted
      E s') : a = 0 ∧ b = 0 := by
  have l1 : 102 < c.Proof.length := (List.getElem?_eq_some_iff.1 hz).1
  have l2 : 103 < c.Proof.length := (List.getElem?_eq_some_iff.1 hw).1
  have t1 : ((c.Proof.set 102 (.big (z + a * pMod))).set 103 (.big (w + b * pMod)))[102]? = some (.big (z + a * pMod)) := by
    rw [List.getElem?_set_ne (by omega), List.getElem?_set_self l1]
  have t2 : ((c.Proof.set 102 (.big (z + a * pMod))).set 103 (.big (w + b * pMod)))[103]? = some (.big (w + b * pMod)) := by
    rw [List.getElem?_set_self (by rw [List.length_set]; exact l2)]
  obtain ⟨x, y, g1, g2, g3, g4, -⟩ := C56_canonical hX hE h
    (by rintro i (rfl | rfl); exacts [⟨_, hz⟩, ⟨_, hw⟩]) 102 (.inr (.inr rfl))
  obtain ⟨x', y', g1', g2', g3', g4', -⟩ := C56_canonical hX hE h'
    (by rintro i (rfl | rfl); exacts [⟨_, t1⟩, ⟨_, t2⟩]) 102 (.inr (.inr rfl))
  have e1 : z = x := by rw [hz, Option.some.injEq, Var.big.injEq] at g1; exact g1
  have e2 : w = y := by
    have := hw.symm.trans g2
    rw [Option.some.injEq, Var.big.injEq] at this; exact this
  have e1' : z + a * pMod = x' := by
    have := t1.symm.trans g1'
    rw [Option.some.injEq, Var.big.injEq] at this; exact this
  have e2' : w + b * pMod = y' := by
    have := t2.symm.trans g2'
    rw [Option.some.injEq, Var.big.injEq] at this; exact this
  have key : ∀ (m n n' : ℕ) (q : ℤ), n < m → n' < m → (n : ℤ) + q * m = n' → q = 0 := by
    intro m n n' q h1 h2 h3
    by_contra hq
    rcases lt_or_gt_of_ne hq with hq | hq
    · have : q * m ≤ -1 * m := mul_le_mul_of_nonneg_right (by omega) (by positivity)
      omega
    · have : 1 * (m : ℤ) ≤ q * m := mul_le_mul_of_nonneg_right (by omega) (by positivity)
      omega
  exact ⟨key pMod x x' a g3 g3' (by rw [← e1]; exact e1'), key pMod y y' b g4 g4' (by rw [← e2]; exact e2')⟩

/-- The shipped circuit meets the hypotheses of C65, so it meets the conditions; the same proof is accepted, given suitable
hint answers, for any other instance values, as many of them. -/
theorem C65_shipped_false {ti vi : List Var} (hv : ∀ v ∈ ti ++ vi, v.IsVal)
    (hl : (ti ++ vi).length = (shippedCircuit.TargetInst ++ shippedCircuit.VerifyInst).length) :
    ∃ σ, (({ shippedCircuit with TargetInst := ti, VerifyInst := vi } : AggregatorCircuit).Define realExt).Accepted ⟨.test, true, σ⟩ .init := by
  refine C65_instances_false realExt_strict (fun i hi z h => ?_) rfl ⟨_, shipped_accepted⟩ hv hl
  obtain ⟨_, h1, -⟩ := shipped_canonical.words.word i (by omega)
  have h2 : shippedCircuit.Proof[i]? = _ := h1
  rw [h] at h2
  cases h2

/-- The shipped circuit meets the hypotheses of `C65_exact`, `C65_best`, `C65_needed`, `C65_instances_false`, `C65_malleable`, `C65_contrast`. -/
example : realExt.Strict ∧ HonestRaw (honestTest realExt true) ∧
    (∀ i, i = 102 ∨ i = 103 → ∀ z : ℤ, shippedCircuit.Proof[i]? ≠ some (.int z)) ∧
    (∃ z w : ℤ, shippedCircuit.Proof[102]? = some (.big z) ∧ shippedCircuit.Proof[103]? = some (.big w)) ∧
    (shippedCircuit.Define realExt).Accepted ⟨.test, true, honest realExt⟩ .init ∧
    ∃ bs : List UInt8, bs.length = 32 * (shippedCircuit.TargetInst ++ shippedCircuit.VerifyInst).length ∧
      Provable realExt shippedCircuit (beNat (realExt.keccak bs) : ℕ) := by
  have hb : ∀ i < 104, ∃ z : ℤ, shippedCircuit.Proof[i]? = some (.big z) := fun i hi => by
    obtain ⟨z, h1, -⟩ := shipped_canonical.words.word i hi
    exact ⟨z, h1⟩
  have hw : ∀ i, i = 102 ∨ i = 103 → ∀ z : ℤ, shippedCircuit.Proof[i]? ≠ some (.int z) := fun i hi z h => by
    obtain ⟨_, h1⟩ := hb i (by omega)
    rw [h] at h1
    cases h1
  obtain ⟨z, hz⟩ := hb 102 (by norm_num)
  obtain ⟨w, hw'⟩ := hb 103 (by norm_num)
  exact ⟨realExt_strict, honest_raw _, hw, ⟨z, w, hz, hw'⟩, shipped_accepted, C65_needed realExt_strict rfl rfl hw shipped_accepted⟩

end Verif
