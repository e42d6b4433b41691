/- Property C61: soundness of the circuit when the hash function of the transcript is random. -/
import Verif.Lemmas.OracleChain

namespace Verif
open Halo2 Polynomial

variable {M : Finset (List UInt8)}

theorem Ext.Strict.withSha {X : Ext} (h : X.Strict) {sha : List UInt8 → List UInt8} (h1 : ∀ m, (sha m).length = 32) :
    (X.withSha sha).Strict := ⟨⟨h1, h.keccak_len, h.scalarMul, h.addUnified, h.msm⟩, h.scalarMul_deg⟩

theorem Ext.Trapdoor.withSha {X : Ext} {τ : Fr} (h : X.Trapdoor τ) (sha : List UInt8 → List UInt8) : (X.withSha sha).Trapdoor τ := h

theorem oracleHash_length {H : M → Digest} {rest : List UInt8 → List UInt8} (hr : ∀ m, (rest m).length = 32) (m : List UInt8) :
    (oracleHash M H rest m).length = 32 := by
  rw [oracleHash]
  split_ifs
  · exact beBytes_length _ _
  · exact hr m

theorem oracleHash_mem (H : M → Digest) (rest : List UInt8 → List UInt8) (m : M) :
    beNat (oracleHash M H rest (m : List UInt8)) = (H m).val := by
  rw [oracleHash, dif_pos m.2]
  exact beNat_beBytes32 (H m).isLt

/-- The polynomials the prover presents expose the trapdoor (they contain a nonzero polynomial of degree ≤ d + 1 with root τ). -/
def OracleProver.Exposes (R : OracleProver M) (rest : List UInt8 → List UInt8) (τ : Fr) (K : VkPolys) (d Q : ℕ) (H : M → Digest) : Prop :=
  ∃ t : List ℤ, (R.circuit (R.answers H Q)).Proof.take 102 = t.map .big ∧
    Verif.Exposes τ d (openingPoly (challengesFor (oracleHash M H rest) (instCommitment (R.final (R.answers H Q)).k) (t.map Int.natAbs)) K
      (R.final (R.answers H Q)).k (R.final (R.answers H Q)).P (R.final (R.answers H Q)).h (R.final (R.answers H Q)).q (R.w (R.answers H Q))
      (R.final (R.answers H Q)).e (frAt (R.circuit (R.answers H Q)).Aux 16))

/-- With lucky answers, no challenge of a proof the prover has hashed is exceptional. -/
theorem not_hit {R : OracleProver M} {d : ℕ} {B : Exceptions d} {Q : ℕ} {H : M → Digest} (hL : R.Lucky B Q H) {F : Claim}
    {q : ℕ → ℕ} (hq : ∀ j < 8, q j < Q ∧ R.Fresh H (q j) ∧ ∃ A ∈ R.claims (R.answers H (q j)), A.AgreesBefore F j)
    (hc : ∀ j < 7, firstWord (R.asks H (q (j + 1)) : List UInt8) = (H (R.asks H (q j))).val) {ds : List ℕ}
    (hd : ∀ j < 8, ds[j]? = some (H (R.asks H (q j))).val) : ¬ B.Hit F.k F.P F.h F.e F.q (.ofDigests ds) := by
  have key : ∀ j < 8, ∃ (A : Claim) (b : ℕ → Fr), A.AgreesBefore F j ∧
      (∀ k < j, b k = (((H (R.asks H (q (j - 1 - k)))).val : ℕ) : Fr)) ∧ (((H (R.asks H (q j))).val : ℕ) : Fr) ∉ B.anyStage A b :=
    fun j hj => by
      obtain ⟨h1, h2, A, hA, ag⟩ := hq j hj
      exact ⟨A, _, ag, fun k hk => congrArg (fun x : ℕ => (x : Fr)) (hL.chain (q := q) (j := j) (fun k hk => ⟨(hq k (by omega)).1,
        (hq k (by omega)).2.1⟩) (fun k hk => hc k (by omega)) k hk), hL.stage h1 h2 hA⟩
  have hD : ∀ j < 8, ((ds.getD j 0 : ℕ) : Fr) = (((H (R.asks H (q j))).val : ℕ) : Fr) := fun j hj => by
    rw [List.getD_eq_getElem?_getD, hd j hj, Option.getD_some]
  generalize (fun j : ℕ => (((H (R.asks H (q j))).val : ℕ) : Fr)) = D at *
  have e0 : (Challenges.ofDigests ds).θ = (((H (R.asks H (q 0))).val : ℕ) : Fr) := hD 0 (by decide)
  have e1 : (Challenges.ofDigests ds).β = (((H (R.asks H (q 1))).val : ℕ) : Fr) := hD 1 (by decide)
  have e2 : (Challenges.ofDigests ds).γ = (((H (R.asks H (q 2))).val : ℕ) : Fr) := hD 2 (by decide)
  have e3 : (Challenges.ofDigests ds).y = (((H (R.asks H (q 3))).val : ℕ) : Fr) := hD 3 (by decide)
  have e4 : (Challenges.ofDigests ds).x = (((H (R.asks H (q 4))).val : ℕ) : Fr) := hD 4 (by decide)
  have e5 : (Challenges.ofDigests ds).y' = (((H (R.asks H (q 5))).val : ℕ) : Fr) := hD 5 (by decide)
  have e6 : (Challenges.ofDigests ds).v = (((H (R.asks H (q 6))).val : ℕ) : Fr) := hD 6 (by decide)
  have e7 : (Challenges.ofDigests ds).u = (((H (R.asks H (q 7))).val : ℕ) : Fr) := hD 7 (by decide)
  have open' : ∀ {A : Claim} {b : ℕ → Fr} {x : Fr}, x ∉ B.anyStage A b → _ := fun {A b x} (h : x ∉ B.anyStage A b) => by
    classical
    rw [Exceptions.anyStage] at h
    simp only [Finset.mem_union, not_or] at h
    exact h
  rw [Exceptions.Hit, e0, e1, e2, e3, e4, e5, e6, e7]
  simp only [not_or]
  refine ⟨?_, ?_, ?_, ?_, ?_, ?_, ?_, ?_⟩
  · obtain ⟨A, b, ag, hb, hn⟩ := key 0 (by decide)
    have h := (open' hn).1
    rwa [ag.k, ag.a] at h
  · obtain ⟨A, b, ag, hb, hn⟩ := key 1 (by decide)
    have h := (open' hn).2.1
    rwa [ag.k, ag.a, (ag.perm (by decide)).1, (ag.perm (by decide)).2, hb 0 (by decide)] at h
  · obtain ⟨A, b, ag, hb, hn⟩ := key 2 (by decide)
    have h := (open' hn).2.2.1
    rwa [ag.k, ag.a, (ag.perm (by decide)).1, (ag.perm (by decide)).2, hb 0 (by decide), hb 1 (by decide)] at h
  · obtain ⟨A, b, ag, hb, hn⟩ := key 3 (by decide)
    have h := (open' hn).2.2.2.1
    rwa [ag.k, ag.columns (by decide), hb 0 (by decide), hb 1 (by decide), hb 2 (by decide)] at h
  · obtain ⟨A, b, ag, hb, hn⟩ := key 4 (by decide)
    have h := (open' hn).2.2.2.2.1
    rwa [ag.k, ag.columns (by decide), ag.h (by decide), hb 0 (by decide), hb 1 (by decide), hb 2 (by decide), hb 3 (by decide)] at h
  · obtain ⟨A, b, ag, hb, hn⟩ := key 5 (by decide)
    have h := (open' hn).2.2.2.2.2.1
    rwa [ag.k, ag.columns (by decide), ag.h (by decide), ag.e (by decide), hb 0 (by decide), hb 1 (by decide), hb 2 (by decide),
      hb 3 (by decide), hb 4 (by decide)] at h
  · obtain ⟨A, b, ag, hb, hn⟩ := key 6 (by decide)
    have h := (open' hn).2.2.2.2.2.2.1
    rwa [ag.k, ag.columns (by decide), ag.h (by decide), ag.e (by decide), hb 0 (by decide), hb 1 (by decide), hb 2 (by decide),
      hb 3 (by decide), hb 4 (by decide), hb 5 (by decide)] at h
  · obtain ⟨A, b, ag, hb, hn⟩ := key 7 (by decide)
    have h := (open' hn).2.2.2.2.2.2.2
    rwa [ag.k, ag.columns (by decide), ag.h (by decide), ag.e (by decide), ag.q (by decide), hb 0 (by decide), hb 1 (by decide),
      hb 2 (by decide), hb 3 (by decide), hb 4 (by decide), hb 5 (by decide), hb 6 (by decide)] at h

/-- C61: let the hash function of the transcript be uniformly random. Whatever a prover asks in `Q` questions and presents at the
end, the circuit is accepted without the prover knowing a satisfying witness and without its exposing the trapdoor for at most a fraction
Q · (2 Q + 6 · v · `exceptionalValues d`) / 2^256 of all hash functions, where v bounds the number of claims with each question. -/
theorem C61_count {X : Ext} (hX : X.Strict) {τ : Fr} (hτ : X.Trapdoor τ) {K : VkPolys} (hK : K.Opens τ) {d : ℕ} (hKd : K.Bounded d)
    {π : Equiv.Perm (Fin 7 × Fin (n - 6))} (hπ : EncodesPermutation K π) {rest : List UInt8 → List UInt8}
    (hr : ∀ m, (rest m).length = 32) {R : OracleProver M} {v : ℕ} (hR : R.Bounded d v) (Q : ℕ) :
    {H : M → Digest | R.Convinces X rest τ K Q H ∧ ¬ Satisfies K π (R.final (R.answers H Q)).k (R.final (R.answers H Q)).P.a ∧
      ¬ R.Exposes rest τ K d Q H}.ncard * 2 ^ 256 ≤
        Q * (2 * Q + 6 * (v * exceptionalValues d)) * (2 ^ 256) ^ M.card := by
  obtain ⟨B, hB⟩ := C55_exceptions hK hKd hπ
  refine le_trans ?_ (R.card_hits Q (R.unlucky B) fun l hl => (R.unlucky_card B l (hR.claims l)).trans (by omega))
  refine Nat.mul_le_mul_right _ (Set.ncard_le_ncard ?_ (Set.toFinite _))
  rintro H ⟨hC, hS, hE⟩
  by_contra hcon
  have hL : R.Lucky B Q H := fun i hi hf hm => hcon ⟨i, hi, hf, hm⟩
  obtain ⟨hv, E, s, hmode, hkec, hs, hacc⟩ := hC.accepted
  obtain ⟨t, ht⟩ := C34_honest (hX.withSha (oracleHash_length hr)) hmode hkec hv hs hacc
  have hki : ((beNat ((X.withSha (oracleHash M H rest)).keccak (((R.circuit (R.answers H Q)).TargetInst ++
      (R.circuit (R.answers H Q)).VerifyInst).flatMap fun v => beBytes v.fr.val 32)) : ℕ) : Fr) = (R.final (R.answers H Q)).k :=
    hC.instance_eq.symm
  rw [hki] at ht
  have hsha : (X.withSha (oracleHash M H rest)).sha256 = oracleHash M H rest := rfl
  have hw := hC.hashed t ht.words.2
  rw [← hC.instance_eq] at hw
  obtain ⟨ms, hms⟩ : ∃ ms, ms = transcriptMessages (oracleHash M H rest) (R.final (R.answers H Q)).k t := ⟨_, rfl⟩
  rw [← hms] at hw
  have hlen : ms.length = 8 := by rw [hms, transcriptMessages, fsMessages_length]; rfl
  have hex : ∀ j, ∃ i, j < 8 → i < Q ∧ ms[j]? = some (R.asks H i : List UInt8) ∧ R.Fresh H i ∧
      ∃ A ∈ R.claims (R.answers H i), A.AgreesBefore (R.final (R.answers H Q)) j := by
    intro j
    by_cases hj : j < 8
    · obtain ⟨i, hi, h1, h2, h3⟩ := hw j (ms[j]'(hlen ▸ hj)) (List.getElem?_eq_getElem _)
      refine ⟨i, fun _ => ⟨hi, ?_, fun l hl h => h2 l hl ?_, h3⟩⟩
      · rw [h1]
        exact List.getElem?_eq_getElem _
      · rw [h, h1]
    · exact ⟨0, fun h => absurd h hj⟩
  choose q hq using hex
  have hds : ∀ j < 8, (fsDigests (oracleHash M H rest) fsSeed (fsBlocks (enc (instCommitment (R.final (R.answers H Q)).k)).1.val
      (enc (instCommitment (R.final (R.answers H Q)).k)).2.val (t.map Int.natAbs)))[j]? = some (H (R.asks H (q j))).val := fun j hj => by
    have h := (hq j hj).2.1
    rw [hms, transcriptMessages] at h
    rw [fs_get _ _ _ _ _ h, oracleHash_mem]
  have hch : ∀ j < 7, firstWord (R.asks H (q (j + 1)) : List UInt8) = (H (R.asks H (q j))).val := fun j hj => by
    have h := (hq j (by omega)).2.1
    have h' := (hq (j + 1) (by omega)).2.1
    rw [hms, transcriptMessages] at h h'
    obtain ⟨b, hb⟩ := fs_next _ _ _ _ _ _ h h'
    rw [hb, oracleHash_mem, firstWord_fsMessage (H _).isLt]
  have hnot := not_hit hL (F := R.final (R.answers H Q)) (q := q) (fun j hj => ⟨(hq j hj).1, (hq j hj).2.2⟩) hch hds
  have hopen := hC.opens
  have hev := hC.evals_eq
  have hacc' := ht.accepts
  rw [hsha] at hacc'
  have hpair := (hτ _ _ ht.witness_ne hacc'.opening_ne).1 hacc'.pairing
  have hlag := hacc'.lagrange
  have hquo := hacc'.quotient
  rw [← hev] at hquo hpair
  rcases hB _ _ _ _ _ _ _ _ _ _ (hR.columns _) (hR.h _) (hR.q _) (hR.w _) hopen hlag hquo hpair with h | h | h
  · exact hS h
  · exact hnot h
  · exact hE ⟨t, ht.words.2, h⟩

theorem cheating_lt {M : Finset (List UInt8)} (S : Set (M → Digest)) {Q v N b : ℕ} (hQ : Q ≤ 2 ^ 80)
    (h1 : S.ncard * 2 ^ 256 ≤ Q * (2 * Q + 6 * (v * N)) * (2 ^ 256) ^ M.card)
    (hb : 2 ^ 80 * (2 * 2 ^ 80 + 6 * (v * N)) * 2 ^ b < 2 ^ 256) : (S.ncard : ℚ) / Nat.card (M → Digest) < 1 / 2 ^ b := by
  have hc : Nat.card (M → Digest) = (2 ^ 256) ^ M.card := by
    rw [Nat.card_eq_fintype_card, Fintype.card_fun, Fintype.card_fin, Fintype.card_coe]
  have hZ : 0 < ((2 : ℕ) ^ 256) ^ M.card := pow_pos (by norm_num) _
  rw [hc]
  generalize ((2 : ℕ) ^ 256) ^ M.card = Z at h1 hZ ⊢
  generalize S.ncard = m at h1 ⊢
  generalize v * N = V at h1 hb
  have h3 : Q * (2 * Q + 6 * V) ≤ 2 ^ 80 * (2 * 2 ^ 80 + 6 * V) := by gcongr
  generalize Q * (2 * Q + 6 * V) = A at h1 h3
  generalize 2 ^ 80 * (2 * 2 ^ 80 + 6 * V) = A' at h3 hb
  have h5 : m * 2 ^ b < Z := by
    have h6 : m * 2 ^ b * 2 ^ 256 < Z * 2 ^ 256 := by
      calc m * 2 ^ b * 2 ^ 256 = m * 2 ^ 256 * 2 ^ b := by ring
        _ ≤ A * Z * 2 ^ b := Nat.mul_le_mul_right _ h1
        _ ≤ A' * Z * 2 ^ b := by gcongr
        _ = A' * 2 ^ b * Z := by ring
        _ < 2 ^ 256 * Z := Nat.mul_lt_mul_of_pos_right hb hZ
        _ = Z * 2 ^ 256 := by ring
    exact Nat.lt_of_mul_lt_mul_right h6
  rw [div_lt_div_iff₀ (by exact_mod_cast hZ) (by positivity), one_mul]
  exact_mod_cast h5

/-- C61: a prover that computes at most 2^80 hashes, with polynomials no longer than the rows of the table, cheats with probability
below 2^-94. -/
theorem C61_probability {X : Ext} (hX : X.Strict) {τ : Fr} (hτ : X.Trapdoor τ) {K : VkPolys} (hK : K.Opens τ) (hKd : K.Bounded n)
    {π : Equiv.Perm (Fin 7 × Fin (n - 6))} (hπ : EncodesPermutation K π) {rest : List UInt8 → List UInt8}
    (hr : ∀ m, (rest m).length = 32) {R : OracleProver M} (hR : R.Bounded n 1) {Q : ℕ} (hQ : Q ≤ 2 ^ 80) :
    ({H : M → Digest | R.Convinces X rest τ K Q H ∧ ¬ Satisfies K π (R.final (R.answers H Q)).k (R.final (R.answers H Q)).P.a ∧
      ¬ R.Exposes rest τ K n Q H}.ncard : ℚ) / Nat.card (M → Digest) < 1 / 2 ^ 94 :=
  cheating_lt _ hQ (C61_count hX hτ hK hKd hπ hr hR Q) (by decide +kernel)

/-- C61: the transcript does not bind the signs of the words. A proof has 23 points (whose ordinates may be negated) and 56 evaluations before
the last challenge; even with a claim for each of the 2^79 choices of signs, such a prover cheats with probability below 2^-64. -/
theorem C61_signs {X : Ext} (hX : X.Strict) {τ : Fr} (hτ : X.Trapdoor τ) {K : VkPolys} (hK : K.Opens τ) (hKd : K.Bounded n)
    {π : Equiv.Perm (Fin 7 × Fin (n - 6))} (hπ : EncodesPermutation K π) {rest : List UInt8 → List UInt8}
    (hr : ∀ m, (rest m).length = 32) {R : OracleProver M} (hR : R.Bounded n (2 ^ 79)) {Q : ℕ} (hQ : Q ≤ 2 ^ 80) :
    ({H : M → Digest | R.Convinces X rest τ K Q H ∧ ¬ Satisfies K π (R.final (R.answers H Q)).k (R.final (R.answers H Q)).P.a ∧
      ¬ R.Exposes rest τ K n Q H}.ncard : ℚ) / Nat.card (M → Digest) < 1 / 2 ^ 64 :=
  cheating_lt _ hQ (C61_count hX hτ hK hKd hπ hr hR Q) (by decide +kernel)

/-- C61 speaks of every accepted run: for every circuit that is accepted with hash function `X.sha256` there is a prover that asks eight
questions and presents this circuit, and `X.sha256` is one of the functions for which it convinces. -/
theorem C61_reaches {X : Ext} (hX : X.Strict) {c : AggregatorCircuit} (hc : c.AcceptedWith X) {τ : Fr} {K : VkPolys} (hK : K.Opens τ) :
    ∃ (M : Finset (List UInt8)) (R : OracleProver M) (H : M → Digest), R.Bounded 0 1 ∧ (∀ l, R.circuit l = c) ∧
      oracleHash M H X.sha256 = X.sha256 ∧ R.Convinces X X.sha256 τ K 8 H := by
  classical
  obtain ⟨hv, E, s, hmode, hkec, hs, hacc⟩ := id hc
  obtain ⟨t, ht⟩ := C34_honest hX hmode hkec hv hs hacc
  obtain ⟨k, hk⟩ : ∃ k, k = c.instanceValue X := ⟨_, rfl⟩
  rw [show ((beNat (X.keccak ((c.TargetInst ++ c.VerifyInst).flatMap fun v => beBytes v.fr.val 32)) : ℕ) : Fr) = k from hk.symm] at ht
  obtain ⟨ms, hms⟩ : ∃ ms, ms = transcriptMessages X.sha256 k t := ⟨_, rfl⟩
  have hlen : ms.length = 8 := by rw [hms, transcriptMessages, fsMessages_length]; rfl
  have hpoly : ∀ P : G1, ∃ p : Fr[X], p.natDegree ≤ 0 ∧ P = com τ p := fun P => by
    obtain ⟨k, rfl⟩ := exists_smul_gen P
    exact ⟨C k, (natDegree_C k).le, by rw [com, eval_C]⟩
  choose f hf1 hf2 using hpoly
  obtain ⟨D, hD⟩ : ∃ D, D = Commitments.ofProof (instCommitment k) (proofPoint c.Proof) := ⟨_, rfl⟩
  let F : Claim := ⟨k, ⟨fun i => f (D.a i), fun i => f (D.permA i), fun i => f (D.permS i), fun i => f (D.z i), fun i => f (D.Z i), f D.random⟩,
    fun i => f (D.h i), .ofProof (frAt c.Proof), f D.W⟩
  have hm : ∀ i, (ms ++ [[]]).getD i [] ∈ (ms ++ [[]]).toFinset := fun i => by
    rw [List.mem_toFinset, List.getD_eq_getElem?_getD]
    cases h : (ms ++ [[]])[i]? with
    | none => simp
    | some m => exact List.mem_of_getElem? h
  let R : OracleProver (ms ++ [[]]).toFinset := ⟨fun l => ⟨_, hm l.length⟩, fun _ => [F], fun _ => c, fun _ => F, fun _ => f D.W'⟩
  have hlt : ∀ m, beNat (X.sha256 m) < 2 ^ 256 := fun m => by
    have h := beNat_lt (X.sha256 m)
    rw [hX.sha_len] at h
    exact h.trans_le (by norm_num)
  let H : (ms ++ [[]]).toFinset → Digest := fun m => ⟨beNat (X.sha256 m), hlt m⟩
  have hH : oracleHash _ H X.sha256 = X.sha256 := by
    funext m
    rw [oracleHash]
    split_ifs with h
    · have h1 := beBytes_beNat (X.sha256 m)
      rwa [hX.sha_len] at h1
    · rfl
  have hasks : ∀ i < 8, (R.asks H i : List UInt8) = ms.getD i [] := fun i hi => by
    show (ms ++ [[]]).getD (R.answers H i).length [] = _
    rw [R.answers_length, List.getD_append _ _ _ _ (by omega)]
  refine ⟨_, R, H, ⟨fun _ => le_rfl, fun _ => ⟨fun _ => hf1 _, fun _ => hf1 _, fun _ => hf1 _, fun _ => hf1 _, fun _ => hf1 _, hf1 _⟩, fun _ _ => hf1 _,
    fun _ => hf1 _, fun _ => hf1 _⟩, fun _ => rfl, hH, ?_⟩
  refine ⟨?_, ?_, hk, rfl, ?_⟩
  · rw [hH]
    exact hc
  · intro t' ht' j m hj
    have htt : t' = t := by
      have h1 : t'.map Var.big = t.map Var.big := ht'.symm.trans ht.words.2
      exact List.map_injective_iff.2 (fun a b h => by injection h) h1
    rw [hH, htt] at hj
    rw [show (R.circuit (R.answers H 8)).instanceValue X = k from hk.symm, ← hms] at hj
    have hj8 : j < 8 := by
      rw [← hlen]
      exact (List.getElem?_eq_some_iff.1 hj).1
    have hex : ∃ i, i < 8 ∧ (R.asks H i : List UInt8) = m := ⟨j, hj8, by
      rw [hasks j hj8, List.getD_eq_getElem?_getD, hj, Option.getD_some]⟩
    refine ⟨Nat.find hex, (Nat.find_spec hex).1, (Nat.find_spec hex).2, fun l hl h => Nat.find_min hex hl ⟨?_, h⟩, ?_⟩
    · exact hl.trans (Nat.find_spec hex).1
    · exact ⟨F, List.mem_singleton_self F, rfl, rfl, fun _ => ⟨rfl, rfl⟩, fun _ => rfl, fun _ => rfl, fun _ => rfl, fun _ => rfl⟩
  · show Opens τ K k F.P F.h F.q (f D.W') (.ofProof (instCommitment k) (proofPoint c.Proof))
    rw [← hD]
    refine ⟨?_, fun _ _ => hf2 _, fun _ _ => hf2 _, fun _ _ => hf2 _, fun _ _ => hf2 _, fun _ _ => hf2 _, hf2 _, fun _ _ => hf2 _,
      hf2 _, hf2 _⟩
    rw [hD]
    show k • vkInstance = _
    rw [hK.inst, com, com, eval_mul, eval_C, mul_smul]

/-- The shipped circuit is accepted with SHA-256, for one trapdoor, so `C61_reaches` applies to it. -/
example : ∃ t : Fr, shippedCircuit.AcceptedWith (stdExt t) := by
  obtain ⟨t, h, -⟩ := C49_accepted
  refine ⟨t, ?_, _, _, rfl, fun _ _ _ => rfl, rfl, h⟩
  intro v hv
  rw [shipped_circuitFor] at hv
  have hlt : ∀ x ∈ shippedTargetInst ++ shippedVerifyInst, x < rMod := by decide +kernel
  obtain ⟨x, hx, rfl⟩ : ∃ x : ℕ, x ∈ shippedTargetInst ++ shippedVerifyInst ∧ .big (x : ℤ) = v := by
    rcases List.mem_append.1 hv with h | h
    · exact (List.mem_map.1 h).imp fun x hx => ⟨List.mem_append.2 (.inl hx.1), hx.2⟩
    · exact (List.mem_map.1 h).imp fun x hx => ⟨List.mem_append.2 (.inr hx.1), hx.2⟩
  exact ⟨Int.natCast_nonneg x, by exact_mod_cast hlt x hx⟩

end Verif
