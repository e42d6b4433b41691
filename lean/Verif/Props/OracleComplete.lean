/- Property C64: completeness of the circuit when the hash function of the transcript is random. -/
import Verif.Props.RandomOracle
import Verif.Props.Rare

namespace Verif
open Halo2 Polynomial

variable {M : Finset (List UInt8)}

/-- The prover as one that asks for hashes. -/
noncomputable def Halo2.Prover.asking (Q : Prover) (τ : Fr) (K : VkPolys) (k : Fr) (hM : ∀ l : List Digest, l.length < 8 → Q.question τ K k (l.map Fin.val) ∈ M) :
    OracleProver M where
  query l := if h : l.length < 8 then ⟨Q.question τ K k (l.map Fin.val), hM l h⟩ else ⟨Q.question τ K k [], hM [] (by decide)⟩
  claims _ := []
  circuit _ := circuitFor [] [] [] []
  final _ := ⟨k, Q.columns 0 0 0, Q.h 0 0 0 0, trueEvals K k (Q.columns 0 0 0) 0, 0⟩
  w _ := 0

/-- The exceptional values of the next challenge, after the digests `l`. -/
def DegenerateExceptions.stage (E : DegenerateExceptions) (c : Challenges) : ℕ → Finset Fr
  | 1 => E.β c.θ
  | 2 => E.γ c.θ c.β
  | 4 => E.x
  | 5 => E.y' c.θ c.β c.γ c.y c.x
  | 6 => E.v c.θ c.β c.γ c.y c.x c.y'
  | 7 => E.u c.θ c.β c.γ c.y c.x c.y' c.v
  | _ => ∅

/-- Bounds for their numbers. -/
def stageBound : ℕ → ℕ
  | 1 => 2 * (n - 6)
  | 2 => 9 * (n - 6)
  | 4 => 3 * n + 6
  | 5 => 1306
  | 6 => 172 * unrepresentable + 181
  | 7 => 394 * unrepresentable + 3
  | _ => 0

theorem DegenerateExceptions.stage_card (E : DegenerateExceptions) (c : Challenges) : ∀ j, (E.stage c j).card ≤ stageBound j
  | 0 => Nat.zero_le _
  | 1 => E.β_card _
  | 2 => E.γ_card _ _
  | 3 => Nat.zero_le _
  | 4 => E.x_card
  | 5 => E.y'_card _ _ _ _ _
  | 6 => E.v_card _ _ _ _ _ _
  | 7 => E.u_card _ _ _ _ _ _ _
  | _ + 8 => Nat.zero_le _

theorem sum_stageBound : ∑ i ∈ Finset.range 8, (i + 1 + 6 * stageBound i) = 36 + 6 * degenerateValues := by
  simp only [Finset.sum_range_succ, Finset.sum_range_zero]
  rw [degenerateValues]
  simp only [stageBound]
  generalize unrepresentable = a
  generalize n - 6 = b
  generalize n = d
  omega

/-- The unlucky answers to the prover's question after the answers `l`. -/
noncomputable def DegenerateExceptions.unlucky (E : DegenerateExceptions) (l : List Digest) : Finset Digest :=
  open Classical in
  (Finset.univ.filter fun D : Digest => D.val = fsSeed) ∪
    (l.toFinset ∪ Finset.univ.filter fun D : Digest => ((D.val : ℕ) : Fr) ∈ E.stage (.ofDigests (l.map Fin.val)) l.length)

theorem DegenerateExceptions.unlucky_card (E : DegenerateExceptions) (l : List Digest) :
    (E.unlucky l).card ≤ l.length + 1 + 6 * stageBound l.length := by
  classical
  have h1 : (Finset.univ.filter fun D : Digest => D.val = fsSeed).card ≤ 1 := by
    rw [Finset.card_le_one]
    intro a ha b hb
    exact Fin.ext ((Finset.mem_filter.1 ha).2.trans (Finset.mem_filter.1 hb).2.symm)
  have h2 := l.toFinset_card_le
  have h3 := (residue_card (E.stage (.ofDigests (l.map Fin.val)) l.length)).trans (Nat.mul_le_mul_left 6 (E.stage_card _ _))
  refine (Finset.card_union_le _ _).trans ?_
  have h4 := Finset.card_union_le l.toFinset
    (Finset.univ.filter fun D : Digest => ((D.val : ℕ) : Fr) ∈ E.stage (.ofDigests (l.map Fin.val)) l.length)
  omega

section
variable {Q : Prover} {τ : Fr} {K : VkPolys} {k : Fr} {hM : ∀ l : List Digest, l.length < 8 → Q.question τ K k (l.map Fin.val) ∈ M} {H : M → Digest}

theorem asks_asking {i : ℕ} (hi : i < 8) :
    ((Q.asking τ K k hM).asks H i : List UInt8) = Q.question τ K k (((Q.asking τ K k hM).answers H i).map Fin.val) := by
  have h : ((Q.asking τ K k hM).answers H i).length < 8 := by rw [OracleProver.answers_length]; exact hi
  show ((if h : _ then (⟨_, _⟩ : M) else _ : M) : List UInt8) = _
  rw [dif_pos h]

theorem digests_asking (rest : List UInt8 → List UInt8) : ∀ i ≤ 8,
    Q.digests τ K k (oracleHash M H rest) i = ((Q.asking τ K k hM).answers H i).map Fin.val
  | 0, _ => rfl
  | i + 1, hi => by
    have h := asks_asking (Q := Q) (τ := τ) (K := K) (k := k) (hM := hM) (H := H) (i := i) (by omega)
    have h2 : Q.question τ K k (Q.digests τ K k (oracleHash M H rest) i) = ((Q.asking τ K k hM).asks H i : List UInt8) := by
      rw [digests_asking rest i (by omega), h]
    rw [Prover.digests, h2, oracleHash_mem, digests_asking rest i (by omega), OracleProver.answers, List.map_append]
    rfl

theorem getLastD_lt (l : List Digest) : (l.map Fin.val).getLastD fsSeed < 2 ^ 256 := by
  rw [List.getLastD_eq_getLast?, List.getLast?_map]
  cases l.getLast? with
  | none => exact (by decide +kernel : fsSeed < 2 ^ 256)
  | some d => exact d.isLt

/-- If no answer to a new question is the seed or an answer given before, then all questions are new. -/
theorem fresh_asking (hL : ∀ i < 8, (Q.asking τ K k hM).Fresh H i → (H ((Q.asking τ K k hM).asks H i)).val ≠ fsSeed ∧
    H ((Q.asking τ K k hM).asks H i) ∉ (Q.asking τ K k hM).answers H i) : ∀ i < 8, (Q.asking τ K k hM).Fresh H i
  | 0, _ => fun l hl => absurd hl (Nat.not_lt_zero l)
  | i + 1, hi => by
    intro l hl he
    obtain ⟨h1, h2⟩ := hL i (by omega) (fresh_asking hL i (by omega))
    have he' : ((Q.asking τ K k hM).asks H l : List UInt8) = (Q.asking τ K k hM).asks H (i + 1) := by rw [he]
    rw [asks_asking (by omega), asks_asking hi] at he'
    have h3 := congrArg firstWord he'
    rw [Prover.question, Prover.question, firstWord_fsMessage (getLastD_lt _), firstWord_fsMessage (getLastD_lt _)] at h3
    rw [OracleProver.answers, List.map_append, List.getLastD_eq_getLast?, List.getLastD_eq_getLast?] at h3
    rw [List.map_cons, List.map_nil, List.getLast?_concat, Option.getD_some] at h3
    cases l with
    | zero => exact h1 h3.symm
    | succ l =>
      rw [OracleProver.answers, List.map_append, List.map_cons, List.map_nil, List.getLast?_concat, Option.getD_some] at h3
      refine h2 ?_
      have h4 : H ((Q.asking τ K k hM).asks H l) = H ((Q.asking τ K k hM).asks H i) := Fin.ext h3
      rw [← h4]
      exact List.mem_of_getElem? ((Q.asking τ K k hM).answers_get H (by omega))

theorem answers_eq (R : OracleProver M) (H : M → Digest) : ∀ i, (R.answers H i).map Fin.val = (List.range i).map fun j => (H (R.asks H j)).val
  | 0 => rfl
  | i + 1 => by
    rw [OracleProver.answers, List.range_succ, List.map_append, List.map_append, answers_eq R H i]
    rfl

theorem not_hit_of_stage {E : DegenerateExceptions} (a : ℕ → ℕ) (h : ∀ i < 8, ((a i : ℕ) : Fr) ∉ E.stage (.ofDigests ((List.range i).map a)) i) :
    ¬ E.Hit (.ofDigests ((List.range 8).map a)) := by
  rintro (g | g | g | g | g | g)
  · exact h 1 (by decide) g
  · exact h 2 (by decide) g
  · exact h 4 (by decide) g
  · exact h 5 (by decide) g
  · exact h 6 (by decide) g
  · exact h 7 (by decide) g

/-- With lucky answers, no challenge is exceptional. -/
theorem not_hit_asking {E : DegenerateExceptions} (rest : List UInt8 → List UInt8)
    (hL : ∀ i < 8, (Q.asking τ K k hM).Fresh H i → H ((Q.asking τ K k hM).asks H i) ∉ E.unlucky ((Q.asking τ K k hM).answers H i)) :
    ¬ E.Hit (.ofDigests (Q.digests τ K k (oracleHash M H rest) 8)) := by
  classical
  rw [digests_asking (hM := hM) rest 8 le_rfl]
  have hF := fresh_asking (Q := Q) (τ := τ) (K := K) (k := k) (hM := hM) (H := H) fun i hi hf => by
    have h := hL i hi hf
    rw [DegenerateExceptions.unlucky, Finset.mem_union, Finset.mem_union, List.mem_toFinset, Finset.mem_filter] at h
    exact ⟨fun h1 => h (.inl ⟨Finset.mem_univ _, h1⟩), fun h1 => h (.inr (.inl h1))⟩
  have hS : ∀ i < 8, (((H ((Q.asking τ K k hM).asks H i)).val : ℕ) : Fr) ∉
      E.stage (.ofDigests (((Q.asking τ K k hM).answers H i).map Fin.val)) i := fun i hi h1 => by
    refine hL i hi (hF i hi) ?_
    rw [DegenerateExceptions.unlucky, Finset.mem_union, Finset.mem_union]
    refine .inr (.inr (Finset.mem_filter.2 ⟨Finset.mem_univ _, ?_⟩))
    rw [OracleProver.answers_length]
    exact h1
  rw [answers_eq]
  exact not_hit_of_stage _ fun i hi => by rw [← answers_eq]; exact hS i hi

end

theorem Ext.Lawful.withSha {X : Ext} (h : X.Lawful) {sha : List UInt8 → List UInt8} (h1 : ∀ m, (sha m).length = 32) :
    (X.withSha sha).Lawful := ⟨h1, h.keccak_len, h.scalarMul, h.addUnified, h.msm⟩

/-- The proof that the prover writes down with hash function `sha` for the instance given by `ti` and `vi` is accepted, with the aux
values computed from it, in every satisfied state of the test engine with the hints of the repo. -/
def Halo2.Prover.Succeeds (Q : Prover) (τ : Fr) (K : VkPolys) (X : Ext) (ti vi : List Var) (sha : List UInt8 → List UInt8) : Prop :=
  ∀ t, t = Q.proof τ K (instHash X ti vi) sha → CanonicalProof t ∧ ∀ s : St, s.sat = true →
    ((circuitFor t (auxOf (X.withSha sha) t ti vi) vi ti).Define (X.withSha sha)).Accepted (honestTest (X.withSha sha) true) s

/-- C64: let the hash function of the transcript be uniformly random on a set of messages that includes all the prover may hash. For every
instance whose commitment is representable, an honest prover without infinite commitments is not accepted for at most a fraction
(36 + 6 · `degenerateValues`) / 2^256 of all hash functions. -/
theorem C64_count {Q : Prover} {X : Ext} {τ : Fr} {K : VkPolys} {ti vi : List Var} {B : ProductExceptions} (hQ : Q.Honest K (instHash X ti vi) B)
    (hKd : K.Bounded n) {i : ℕ} (hi : i < 13) (hf : 0 < (K.f i).natDegree) (hτ : τ ≠ 0) (hK : K.Opens τ) (hX : X.Lawful) (hXτ : X.Trapdoor τ)
    (hlen : (ti ++ vi).length ≤ 43) (hv : ∀ v ∈ ti ++ vi, v.Good) (hr : Representable (instCommitment (instHash X ti vi)))
    (hfin : ∀ θ β γ y, FiniteCommitments τ K (instHash X ti vi) (Q.columns θ β γ) (Q.h θ β γ y))
    (hM : ∀ l : List Digest, l.length < 8 → Q.question τ K (instHash X ti vi) (l.map Fin.val) ∈ M)
    {rest : List UInt8 → List UInt8} (hrest : ∀ m, (rest m).length = 32) :
    {H : M → Digest | ¬ Q.Succeeds τ K X ti vi (oracleHash M H rest)}.ncard * 2 ^ 256 ≤ (36 + 6 * degenerateValues) * (2 ^ 256) ^ M.card := by
  obtain ⟨E, hE⟩ := C63_exceptions hQ hKd hi hf hτ hK
  have h1 := (Q.asking τ K (instHash X ti vi) hM).card_hits_sum 8 E.unlucky (e := fun i => i + 1 + 6 * stageBound i) fun l _ => E.unlucky_card l
  rw [sum_stageBound] at h1
  refine le_trans (Nat.mul_le_mul_right _ (Set.ncard_le_ncard ?_ (Set.toFinite _))) h1
  intro H hn
  by_contra hc
  have h2 := not_hit_asking (hM := hM) (H := H) (E := E) rest fun i hi h3 h4 => hc ⟨i, hi, h3, h4⟩
  refine hn fun t ht => ?_
  have run := fun s hs => C63_run (Q := Q) (X := X.withSha (oracleHash M H rest)) (s := s) hK (hX.withSha (oracleHash_length hrest))
    (hXτ.withSha _) hlen hv hs hr hfin t ht
  have hnf : chalOf (X.withSha (oracleHash M H rest)) t ti vi ∉ Q.failures τ K (instHash (X.withSha (oracleHash M H rest)) ti vi) := fun h5 => by
    refine h2 ?_
    have h6 := (run .init rfl).1
    have h7 := hE _ h5
    rw [h6] at h7
    exact h7
  exact ⟨((run .init rfl).2.2 hnf).1, fun s hs => ((run s hs).2.2 hnf).2⟩

/-- C64: with a random hash function an honest prover without infinite commitments is accepted with probability above 1 - 2^-114. -/
theorem C64_probability {Q : Prover} {X : Ext} {τ : Fr} {K : VkPolys} {ti vi : List Var} {B : ProductExceptions} (hQ : Q.Honest K (instHash X ti vi) B)
    (hKd : K.Bounded n) {i : ℕ} (hi : i < 13) (hf : 0 < (K.f i).natDegree) (hτ : τ ≠ 0) (hK : K.Opens τ) (hX : X.Lawful) (hXτ : X.Trapdoor τ)
    (hlen : (ti ++ vi).length ≤ 43) (hv : ∀ v ∈ ti ++ vi, v.Good) (hr : Representable (instCommitment (instHash X ti vi)))
    (hfin : ∀ θ β γ y, FiniteCommitments τ K (instHash X ti vi) (Q.columns θ β γ) (Q.h θ β γ y))
    (hM : ∀ l : List Digest, l.length < 8 → Q.question τ K (instHash X ti vi) (l.map Fin.val) ∈ M)
    {rest : List UInt8 → List UInt8} (hrest : ∀ m, (rest m).length = 32) :
    1 - 1 / 2 ^ 114 < ({H : M → Digest | Q.Succeeds τ K X ti vi (oracleHash M H rest)}.ncard : ℚ) / Nat.card (M → Digest) := by
  have h1 := C64_count hQ hKd hi hf hτ hK hX hXτ hlen hv hr hfin hM hrest
  have h2 : (36 + 6 * degenerateValues) * 2 ^ 114 < 2 ^ 256 := by decide +kernel
  have hc : Nat.card (M → Digest) = (2 ^ 256) ^ M.card := by
    rw [Nat.card_eq_fintype_card, Fintype.card_fun, Fintype.card_fin, Fintype.card_coe]
  have hZ : 0 < ((2 : ℕ) ^ 256) ^ M.card := pow_pos (by norm_num) _
  have h3 := Set.ncard_add_ncard_compl {H : M → Digest | Q.Succeeds τ K X ti vi (oracleHash M H rest)}
  rw [Set.compl_ofPred, hc] at h3
  rw [hc]
  generalize Set.ncard {H : M → Digest | Q.Succeeds τ K X ti vi (oracleHash M H rest)} = a at h3 ⊢
  generalize Set.ncard _ = b at h1 h3
  generalize ((2 : ℕ) ^ 256) ^ M.card = Z at h1 hZ h3 ⊢
  generalize 36 + 6 * degenerateValues = N at h1 h2
  have h5 : b * 2 ^ 114 < Z := by
    have h6 : b * 2 ^ 114 * 2 ^ 256 < Z * 2 ^ 256 := by
      calc b * 2 ^ 114 * 2 ^ 256 = b * 2 ^ 256 * 2 ^ 114 := by ring
        _ ≤ N * Z * 2 ^ 114 := Nat.mul_le_mul_right _ h1
        _ = N * 2 ^ 114 * Z := by ring
        _ < 2 ^ 256 * Z := Nat.mul_lt_mul_of_pos_right h2 hZ
        _ = Z * 2 ^ 256 := by ring
    exact Nat.lt_of_mul_lt_mul_right h6
  have hZ' : (0 : ℚ) < Z := by exact_mod_cast hZ
  rw [lt_div_iff₀ hZ']
  have h7 : (b : ℚ) * 2 ^ 114 < Z := by exact_mod_cast h5
  have h8 : (a : ℚ) + b = Z := by exact_mod_cast h3
  have h9 : (b : ℚ) < 1 / 2 ^ 114 * Z := by
    rw [one_div, inv_mul_eq_div, lt_div_iff₀ (by positivity)]
    exact h7
  rw [sub_mul, one_mul]
  linarith

/-- C64 speaks of every prover: there is a finite set of messages that includes all it may hash. -/
theorem C64_messages (Q : Prover) (τ : Fr) (K : VkPolys) (k : Fr) : ∃ M : Finset (List UInt8),
    ∀ l : List Digest, l.length < 8 → Q.question τ K k (l.map Fin.val) ∈ M := by
  classical
  refine ⟨(Finset.range 8).biUnion fun i => (Finset.univ : Finset (Fin i → Digest)).image fun f => Q.question τ K k ((List.ofFn f).map Fin.val),
    fun l hl => ?_⟩
  rw [Finset.mem_biUnion]
  refine ⟨l.length, Finset.mem_range.2 hl, Finset.mem_image.2 ⟨l.get, Finset.mem_univ _, ?_⟩⟩
  rw [List.ofFn_get]

theorem idealExt_trapdoor (τ : Fr) (h : List UInt8 → List UInt8) : (idealExt τ h).Trapdoor τ := fun P Q _ _ => by
  unfold Ext.PairingEq idealExt
  simp only [dec_enc, decide_eq_true_eq]

theorem vkInstance_representable : Representable vkInstance := by
  have hv : ∀ a : ℕ, a < pMod → ((a : ℕ) : Fp).val = a := fun a h => ZMod.val_cast_of_lt h
  have h1 : (enc vkInstance).1.val = lagrangeX := by rw [vkInstance_enc]; exact hv _ (by decide +kernel)
  have h2 : (enc vkInstance).2.val = lagrangeY := by rw [vkInstance_enc]; exact hv _ (by decide +kernel)
  refine ⟨fun h => ?_, by rw [h1]; decide +kernel, by rw [h2]; decide +kernel⟩
  rw [h, enc_zero] at h1
  exact absurd h1 (by decide +kernel)

/-- C64: almost all instances have a representable commitment: at most `unrepresentable` of the r values of the hash of the instance do not. -/
theorem C64_instances : {k : Fr | ¬ Representable (instCommitment k)}.ncard ≤ unrepresentable := by
  obtain ⟨a, ha⟩ := exists_smul_gen vkInstance
  have ha0 : a ≠ 0 := by
    rintro rfl
    exact vkInstance_representable.1 (ha.trans (fr_smul_eq_zero.2 (.inl rfl)))
  refine le_trans ?_ C63_representable
  refine Set.ncard_le_ncard_of_injOn (fun k => k * a) (fun k hk h => hk ?_) (fun k _ l _ h => mul_right_cancel₀ ha0 h) (Set.toFinite _)
  rw [instCommitment, ha, ← mul_smul]
  exact h

/-- The hypotheses of C64 are met: for every trapdoor other than zero and outside the domain and for every permutation there are external
functions, a verifying key and an honest prover, and a hash function that makes the circuit accept its proof. -/
example {τ : Fr} (hτ : τ ≠ 0) (hτn : τ ^ n ≠ 1) (π : Equiv.Perm (Fin 7 × Fin (n - 6))) :
    ∃ (X : Ext) (K : VkPolys) (Q : Prover) (sha : List UInt8 → List UInt8), X.Lawful ∧ X.Trapdoor τ ∧ K.Opens τ ∧
      (∀ m, (sha m).length = 32) ∧ Q.Succeeds τ K X [.big 1] [.big 2] sha := by
  obtain ⟨X, hXe⟩ : ∃ X, X = idealExt τ fun _ => beBytes 1 32 := ⟨_, rfl⟩
  have hX : X.Lawful := hXe ▸ (idealExt_strict τ _).toLawful
  have hXτ : X.Trapdoor τ := hXe ▸ idealExt_trapdoor τ _
  have hk : instHash X [.big 1] [.big 2] = 1 := by
    rw [hXe, instHash, idealExt]
    have : beNat (((beBytes 1 32).take 32).rightpad 32 0) = 1 := by decide +kernel
    rw [this, Nat.cast_one]
  have hr : Representable (instCommitment (instHash X [.big 1] [.big 2])) := by
    rw [hk, instCommitment]
    have h1 : (1 : Fr) • vkInstance = vkInstance := one_smul Fr vkInstance
    rw [h1]
    exact vkInstance_representable
  obtain ⟨k, hke⟩ : ∃ k, k = instHash X [.big 1] [.big 2] := ⟨_, rfl⟩
  have hk0 : k ≠ 0 := by rw [hke, hk]; exact one_ne_zero
  obtain ⟨K, h1, h2, h3, h4, h5⟩ := exists_satisfied hτn π hk0
  have h0 : (5 : Fr) ≠ 0 := by decide +kernel
  have hc : com τ (C 5) ≠ 0 := com_ne_zero.2 (by rw [eval_C]; exact h0)
  have hd : (C 5 : Fr[X]).natDegree ≤ n := by rw [natDegree_C]; exact Nat.zero_le n
  have hi : com τ (C k * K.inst) ≠ 0 := by
    rw [com, Polynomial.eval_mul, eval_C, mul_smul]
    have : vkInstance = K.inst.eval τ • G1gen := h1.inst
    rw [← this, hke]
    exact hr.1
  obtain ⟨Q, B, -, -, h6, h7⟩ := C63_honest h2 h3 (fun _ => hd) h5 (random := fun _ _ _ => C 5) (fun _ _ _ => hd) hτ hτn hi (fun _ _ => hc) fun _ _ _ => hc
  obtain ⟨M, hM⟩ := C64_messages Q τ K k
  rw [hke] at h6 h7 hM
  have hv : ∀ v ∈ [Var.big 1] ++ [Var.big 2], v.Good := by
    intro v hv
    simp only [List.cons_append, List.nil_append, List.mem_cons, List.not_mem_nil, or_false] at hv
    rcases hv with rfl | rfl
    · exact ⟨by decide, by decide +kernel⟩
    · exact ⟨by decide, by decide +kernel⟩
  have hp := C64_probability h6 h2 (i := 11) (by decide) h4 hτ h1 hX hXτ (by decide) hv hr h7 hM (rest := fun _ => beBytes 0 32) fun _ => beBytes_length _ _
  have hne : {H : M → Digest | Q.Succeeds τ K X [.big 1] [.big 2] (oracleHash M H fun _ => beBytes 0 32)}.Nonempty := by
    rw [Set.nonempty_iff_ne_empty]
    intro he
    rw [he, Set.ncard_empty] at hp
    norm_num at hp
  obtain ⟨H, hH⟩ := hne
  exact ⟨X, K, Q, _, hX, hXτ, h1, oracleHash_length fun _ => beBytes_length _ _, hH⟩

end Verif
