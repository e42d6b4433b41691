/- Property C35: every valid proof in general position is accepted. Concrete cases that meet the hypotheses: Verif/Props/Shipped.lean. -/
import Verif.Lemmas.Complete

namespace Verif
open Halo2

/-- A proof as 104 numbers below 2^256, the 24 pairs being canonical coordinates of finite points of the curve. -/
structure CanonicalProof (t : List ℕ) : Prop where
  len : t.length = 104
  word : ∀ m ∈ t, m < 2 ^ 256
  point : ∀ i, IsPointPosition i → t.getD i 0 < pMod ∧ t.getD (i + 1) 0 < pMod ∧
    ((t.getD (i + 1) 0 : ℕ) : Fp) ^ 2 = ((t.getD i 0 : ℕ) : Fp) ^ 3 + 3

/-- The instance hash: Keccak-256 of the 32-byte big-endian encodings of the target instances followed by the
verifier instances, as an element of the scalar field. -/
def instHash (X : Ext) (targetInst verifyInst : List Var) : Fr :=
  (beNat (X.keccak ((targetInst ++ verifyInst).flatMap fun v => beBytes v.fr.val 32)) : ℕ)

/-- The circuit for a proof `t` and aux values `a`. -/
def circuitFor (t : List ℕ) (a : List Fr) (verifyInst targetInst : List Var) : AggregatorCircuit :=
  ⟨t.map fun m : ℕ => .big (m : ℤ), verifyInst, a.map fun v => .big v.val, targetInst⟩

/-- The evaluations in a proof. -/
def evalsOf (t : List ℕ) : Evals := .ofProof fun i => ((t.getD i 0 : ℕ) : Fr)

/-- The point whose coordinates are the words i, i+1 of a proof. -/
noncomputable def pointOf (t : List ℕ) (i : ℕ) : G1 := dec (((t.getD i 0 : ℕ) : Fp), ((t.getD (i + 1) 0 : ℕ) : Fp))

/-- The commitments in a proof, with the instance commitment of the given instances. -/
noncomputable def commitmentsOf (X : Ext) (t : List ℕ) (targetInst verifyInst : List Var) : Commitments :=
  .ofProof (instCommitment (instHash X targetInst verifyInst)) (pointOf t)

/-- The Fiat–Shamir challenges of a proof. -/
noncomputable def chalOf (X : Ext) (t : List ℕ) (targetInst verifyInst : List Var) : Challenges :=
  challengesFor X.sha256 (instCommitment (instHash X targetInst verifyInst)) (t.take 102)

/-- The second opening proof and the combination it is paired with, for a quotient value `h`. -/
noncomputable def openingOf (X : Ext) (t : List ℕ) (targetInst verifyInst : List Var) (h : Fr) : G1 :=
  opening (chalOf X t targetInst verifyInst) (commitmentsOf X t targetInst verifyInst) (evalsOf t) h

/-- The aux values a prover has to supply. -/
noncomputable def auxOf (X : Ext) (t : List ℕ) (targetInst verifyInst : List Var) : List Fr :=
  auxValues (chalOf X t targetInst verifyInst) (evalsOf t)

/-- The value of the quotient polynomial at x that the evaluations imply. -/
noncomputable def quotientOf (X : Ext) (t : List ℕ) (targetInst verifyInst : List Var) : Fr :=
  quotientValue (chalOf X t targetInst verifyInst) (evalsOf t)

/-- No degenerate value occurs: no division by zero, no multiplication by zero or of infinity, and every point stored on
the way is finite with coordinates below r. -/
structure GeneralPosition (X : Ext) (t : List ℕ) (targetInst verifyInst : List Var) : Prop where
  hash_ne : instHash X targetInst verifyInst ≠ 0
  inst : Representable (instCommitment (instHash X targetInst verifyInst))
  x_ne : (chalOf X t targetInst verifyInst).x ≠ 0
  x_outside : ∀ i < n, (chalOf X t targetInst verifyInst).x ≠ ω ^ i
  denom_ne : vanish (points (chalOf X t targetInst verifyInst).x [2, -1]) (chalOf X t targetInst verifyInst).u ≠ 0
  witness : Representable (pointOf t 102)
  terms : GoodTerms (openingTerms (chalOf X t targetInst verifyInst) (commitmentsOf X t targetInst verifyInst) (evalsOf t)
    (quotientOf X t targetInst verifyInst))

theorem words_getD (t : List ℕ) (i : ℕ) : (t.map fun m : ℕ => Var.big (m : ℤ)).getD i .nil =
    if i < t.length then .big (t.getD i 0 : ℕ) else .nil := by
  rw [List.getD_eq_getElem?_getD, List.getElem?_map, List.getD_eq_getElem?_getD]
  split
  · rename_i h
    rw [List.getElem?_eq_getElem h]; rfl
  · rename_i h
    rw [List.getElem?_eq_none (by omega)]; rfl

theorem frAt_words (t : List ℕ) : frAt (t.map fun m : ℕ => .big (m : ℤ)) = fun i => ((t.getD i 0 : ℕ) : Fr) := by
  funext i
  rw [frAt, words_getD]
  split
  · simp only [Var.fr, Int.cast_natCast]
  · rename_i h
    rw [List.getD_eq_getElem?_getD, List.getElem?_eq_none (by omega)]
    simp [Var.fr]

theorem setInterface_words (t : List ℕ) (i : ℕ) :
    (setInterface ((t.map fun m : ℕ => Var.big (m : ℤ)).getD i .nil)).getD 0 = ((t.getD i 0 : ℕ) : Fp) := by
  rw [words_getD]
  split
  · simp [setInterface]
  · rename_i h
    rw [List.getD_eq_getElem?_getD, List.getElem?_eq_none (by omega)]
    simp [setInterface]

theorem proofPoint_words (t : List ℕ) : proofPoint (t.map fun m : ℕ => .big (m : ℤ)) = pointOf t := by
  funext i
  rw [proofPoint, ptVar, setInterface_words, setInterface_words, pointOf]

theorem canonical_point {t : List ℕ} (ht : CanonicalProof t) {i : ℕ} (hi : IsPointPosition i) :
    (t.map fun m : ℕ => Var.big m)[i]? = some (.big (t.getD i 0)) ∧
    (t.map fun m : ℕ => Var.big m)[i + 1]? = some (.big (t.getD (i + 1) 0)) := by
  have hi' : i + 1 < t.length := by
    rw [ht.len]
    rcases hi with ⟨-, h⟩ | h | h <;> omega
  have e1 : t[i]? = some t[i] := List.getElem?_eq_getElem (by omega)
  have e2 : t[i + 1]? = some t[i + 1] := List.getElem?_eq_getElem hi'
  rw [List.getElem?_map, List.getElem?_map, List.getD_eq_getElem?_getD, List.getD_eq_getElem?_getD, e1, e2]
  exact ⟨rfl, rfl⟩

theorem canonical_pointAt {t : List ℕ} (ht : CanonicalProof t) {i : ℕ} (hi : IsPointPosition i) :
    PointAt (t.map fun m : ℕ => Var.big m) i := by
  obtain ⟨e1, e2⟩ := canonical_point ht hi
  refine ⟨_, _, .inl e1, .inl e2, .inl ?_⟩
  rw [Int.cast_natCast, Int.cast_natCast]
  exact (ht.point i hi).2.2

theorem canonical_exact {t : List ℕ} (ht : CanonicalProof t) {i : ℕ} (hi : IsPointPosition i) :
    PtExact ((t.map fun m : ℕ => Var.big m).getD i .nil) ((t.map fun m : ℕ => Var.big m).getD (i + 1) .nil)
      (proofPoint (t.map fun m : ℕ => Var.big m) i) := by
  obtain ⟨e1, e2⟩ := canonical_point ht hi
  obtain ⟨p1, p2, hc⟩ := ht.point i hi
  unfold proofPoint
  rw [getD_some e1, getD_some e2]
  have hv : ValidEnc (((t.getD i 0 : ℕ) : Fp), ((t.getD (i + 1) 0 : ℕ) : Fp)) := .inl hc
  have e : enc (ptVar (.big (t.getD i 0)) (.big (t.getD (i + 1) 0))) = (((t.getD i 0 : ℕ) : Fp), ((t.getD (i + 1) 0 : ℕ) : Fp)) := by
    unfold ptVar setInterface
    rw [Option.getD_some, Option.getD_some, Int.cast_natCast, Int.cast_natCast, enc_dec hv]
  unfold PtExact
  rw [e, ZMod.val_natCast_of_lt p1, ZMod.val_natCast_of_lt p2]
  exact ⟨rfl, rfl⟩

/-- Proof words the circuit can process: the first 104 are big integers of absolute value below 2^256, the 24 pairs being
canonical coordinates of finite points of the curve. The 56 evaluations may be negative or larger than r. -/
structure CanonicalWords (T : List Var) : Prop where
  word : ∀ i < 104, ∃ z : ℤ, T[i]? = some (.big z) ∧ z.natAbs < 2 ^ 256
  point : ∀ i, IsPointPosition i → ∃ x y : ℕ, T[i]? = some (.big x) ∧ T[i + 1]? = some (.big y) ∧ x < pMod ∧ y < pMod ∧
    (y : Fp) ^ 2 = (x : Fp) ^ 3 + 3

/-- The absolute values of the first 102 words: what the transcript hashes. -/
def absWords (T : List Var) : List ℕ := (T.take 102).map fun v => match v with | .big z => z.natAbs | _ => 0

theorem CanonicalProof.words {t : List ℕ} (ht : CanonicalProof t) : CanonicalWords (t.map fun m : ℕ => Var.big (m : ℤ)) := by
  refine ⟨fun i hi => ?_, fun i hi => ?_⟩
  · have hi' : i < t.length := by rw [ht.len]; exact hi
    have h1 : t[i]? = some t[i] := List.getElem?_eq_getElem hi'
    refine ⟨_, by rw [List.getElem?_map, h1]; rfl, ?_⟩
    rw [Int.natAbs_natCast]
    exact ht.word _ (List.getElem_mem _)
  · obtain ⟨e1, e2⟩ := canonical_point ht hi
    exact ⟨_, _, e1, e2, ht.point i hi⟩

theorem absWords_map (t : List ℤ) : absWords (t.map .big) = (t.take 102).map Int.natAbs := by
  unfold absWords
  rw [← List.map_take, List.map_map]
  rfl

theorem absWords_of_take {T : List Var} {t' : List ℤ} (h : T.take 102 = t'.map .big) : absWords T = t'.map Int.natAbs := by
  unfold absWords
  rw [h, List.map_map]
  rfl

theorem absWords_words (t : List ℕ) : absWords (t.map fun m : ℕ => Var.big (m : ℤ)) = t.take 102 := by
  unfold absWords
  rw [← List.map_take, List.map_map]
  conv_rhs => rw [← List.map_id (t.take 102)]
  rfl

theorem words_exact {T : List Var} (ht : CanonicalWords T) {i : ℕ} (hi : IsPointPosition i) :
    PtExact (T.getD i .nil) (T.getD (i + 1) .nil) (proofPoint T i) := by
  obtain ⟨x, y, e1, e2, p1, p2, hc⟩ := ht.point i hi
  unfold proofPoint
  rw [getD_some e1, getD_some e2]
  have hv : ValidEnc ((x : Fp), (y : Fp)) := .inl hc
  have e : enc (ptVar (.big x) (.big y)) = ((x : Fp), (y : Fp)) := by
    unfold ptVar setInterface
    rw [Option.getD_some, Option.getD_some, Int.cast_natCast, Int.cast_natCast, enc_dec hv]
  unfold PtExact
  rw [e, ZMod.val_natCast_of_lt p1, ZMod.val_natCast_of_lt p2]
  exact ⟨rfl, rfl⟩

theorem words_pointAt {T : List Var} (ht : CanonicalWords T) {i : ℕ} (hi : IsPointPosition i) : PointAt T i := by
  obtain ⟨x, y, e1, e2, -, -, hc⟩ := ht.point i hi
  refine ⟨_, _, .inl e1, .inl e2, .inl ?_⟩
  rw [Int.cast_natCast, Int.cast_natCast]
  exact hc

/-- Proof words the circuit can read: the first 104 are big integers, those in the transcript below 2^256 in absolute value,
and the residues modulo p of each of the 24 pairs are a point of the curve or (0,0). -/
structure LooseWords (T : List Var) : Prop where
  big : ∀ i < 104, ∃ z : ℤ, T[i]? = some (.big z)
  size : ∀ i < 102, ∀ z : ℤ, T[i]? = some (.big z) → z.natAbs < 2 ^ 256
  point : ∀ i, IsPointPosition i → PointAt T i

theorem CanonicalWords.loose {T : List Var} (h : CanonicalWords T) : LooseWords T := by
  refine ⟨fun i hi => ?_, fun i hi z hz => ?_, fun i hi => words_pointAt h hi⟩
  · obtain ⟨z, hz, -⟩ := h.word i hi
    exact ⟨z, hz⟩
  · obtain ⟨z', hz', hb⟩ := h.word i (by omega)
    rw [hz, Option.some.injEq, Var.big.injEq] at hz'
    rw [hz']; exact hb

/-- The run up to the verification steps: the instances are hashed and committed to, the challenges are squeezed, and
the three steps start from a buffer with the instance commitment and the challenges in its first ten slots. -/
theorem define_prologue_gen {X : Ext} {E : Engine} {R : Var → Var → G1 → Prop} {M : Fr → G1 → Prop} {S : G1 → Prop}
    (hE : EccRuns X E R M S) {c : AggregatorCircuit} (ht : LooseWords c.Proof) {vi ti : List Var} (hvi : c.VerifyInst = vi) (hti : c.TargetInst = ti)
    (hlen : (ti ++ vi).length ≤ 43) {k : Fr} {s : St} (hk : ∃ v, (VerifyInstanceHash X (ti ++ vi)).Accepts E s (v, none) ∧ v.fr = k ∧ v.Good)
    (hM : M k vkInstance) :
    let I := instCommitment k
    ∃ B0 s3, s3.sat = true ∧ B0.length = 43 ∧ PtExact (B0.getD 0 .nil) (B0.getD 1 .nil) I ∧
      (∀ i (hi : i < 8), B0[2 + i]? = some (.big (((fsChallenges X.sha256 (enc I).1.val (enc I).2.val (absWords c.Proof))[i]'(by
        rw [fsChallenges_length]; exact hi) : ℤ) % rMod))) ∧
      ∀ B1 B2 B3 t5 t6 t7, VerifyProof1 X c.Proof c.Aux B0 E s3 = .ok ((B1, none), t5) →
        VerifyProof2 X c.Proof c.Aux B1 E t5 = .ok ((B2, none), t6) → VerifyProof3 X c.Proof c.Aux B2 E t6 = .ok ((B3, none), t7) →
        c.Define X E s = finalCheck X B3 E t7 := by
  intro I
  -- instances
  obtain ⟨b0, hb0⟩ := copyInst_run (E := E) (s := s) (vs := ti) (buf := List.replicate 43 (.big 0)) (k := 0) (.inr (by
    rw [List.length_append] at hlen; rw [List.length_replicate]; omega))
  have hb0l : b0.length = 43 := by rw [(copyInst_ok hb0).2.1, List.length_replicate]
  obtain ⟨b1, hb1⟩ := copyInst_run (E := E) (s := s) (vs := vi) (buf := b0) (k := ti.length) (.inr (by
    rw [List.length_append] at hlen; rw [hb0l]; omega))
  obtain ⟨-, hl1, -, htake⟩ := copy_both hb0 hb1
  -- hash
  obtain ⟨hvv, ⟨s1, hh1, hh2⟩, hfr', hgood⟩ := hk
  have hmod := mod_honest hE.mod hgood s1
  rw [hintVar_test hE.test, hfr', Int.emod_eq_of_lt (by positivity) (by exact_mod_cast ZMod.val_lt _)] at hmod
  -- instance commitment
  have hvke : PtExact (.big (enc vkInstance).1.val) (.big (enc vkInstance).2.val) vkInstance := ⟨rfl, rfl⟩
  have hmsm := hE.mul _ _ _ _ (s1.addHints [.modHint]) (hE.exact _ _ _ hvke) hM
  rw [show k • vkInstance = I from rfl] at hmsm
  have hvx : (enc vkInstance).1.val = lagrangeX := by
    rw [vkInstance_enc]
    exact ZMod.val_natCast_of_lt (by decide +kernel)
  have hvy : (enc vkInstance).2.val = lagrangeY := by
    rw [vkInstance_enc]
    exact ZMod.val_natCast_of_lt (by decide +kernel)
  rw [hvx, hvy] at hmsm
  obtain ⟨B, hB⟩ : ∃ B, B = ((b1.set 2 (.big (k.val : ℤ))).set 0 (.big (enc I).1.val)).set 1 (.big (enc I).2.val) := ⟨_, rfl⟩
  have hBl : B.length = 43 := by rw [hB, List.length_set, List.length_set, List.length_set, hl1]
  have hB0 : B[0]? = some (.big (enc I).1.val) := by
    rw [hB, List.getElem?_set_ne (by omega), List.getElem?_set_self (by rw [List.length_set, hl1]; omega)]
  have hB1 : B[1]? = some (.big (enc I).2.val) := by
    rw [hB, List.getElem?_set_self (by rw [List.length_set, List.length_set, hl1]; omega)]
  have hlag : CalcVerifyCircuitLagrange X (b1.set 2 (.big (k.val : ℤ))) E (s1.addHints [.modHint]) =
      .ok ((none, B), (s1.addHints [.modHint]).addHints [.msmHint, .modHint, .modHint]) := by
    have i2 := idx_at (B := b1.set 2 (.big (k.val : ℤ))) (i := 2) (by rw [List.length_set, hl1]; omega) E
      (s1.addHints [.modHint])
    rw [getD_some (List.getElem?_set_self (by omega))] at i2
    unfold CalcVerifyCircuitLagrange
    rw [Circ.bind_run, i2]
    simp only []
    rw [Circ.bind_run, hmsm]
    simp only []
    have e1 : ∀ (D : List Var) (i : ℕ) (v : Var) (s : St), i < D.length → setIdx D i v E s = .ok (D.set i v, s) := fun D i v s h => by
      rw [setIdx_ok]; exact ⟨h, rfl, rfl⟩
    rw [Circ.bind_run, e1 _ _ _ _ (by rw [List.length_set, hl1]; omega)]
    simp only []
    rw [Circ.bind_run, e1 _ _ _ _ (by rw [List.length_set, List.length_set, hl1]; omega)]
    simp only []
    rw [hB]
    rfl
  generalize hs3 : (s1.addHints [.modHint]).addHints [.msmHint, .modHint, .modHint] = s3 at hlag
  have hsat3 : s3.sat = true := by rw [← hs3]; exact hh2
  -- challenges
  have pb : pMod < 2 ^ 256 := by decide +kernel
  have hTl : 104 ≤ c.Proof.length := by
    obtain ⟨z, hz⟩ := ht.big 103 (by norm_num)
    obtain ⟨h, -⟩ := List.getElem?_eq_some_iff.1 hz
    omega
  obtain ⟨err, B0, hchal, herr⟩ := getChallenges_total (X := X) hE.lawful.sha_len (buf := B) (T := c.Proof) (by omega) hB0 hB1
    (by rw [Int.natAbs_natCast]; exact (ZMod.val_lt _).trans pb) (by rw [Int.natAbs_natCast]; exact (ZMod.val_lt _).trans pb)
    hTl (by
      intro v hv
      obtain ⟨i, hi, rfl⟩ := List.mem_take_iff_getElem.1 hv
      obtain ⟨z, hz⟩ := ht.big i (by omega)
      have hb := ht.size i (by omega) z hz
      obtain ⟨_, h2⟩ := List.getElem?_eq_some_iff.1 hz
      exact ⟨z, h2, hb⟩) (by
      intro v hv
      obtain ⟨i, hi, rfl⟩ := List.mem_take_iff_getElem.1 hv
      obtain ⟨z, hz⟩ := ht.big i (by omega)
      obtain ⟨_, h2⟩ := List.getElem?_eq_some_iff.1 hz
      exact ⟨z, h2⟩) E s3
  have herr' : err = none := herr fun i hi => (pointAt_iff _ i).1 (ht.point i ((isPointPosition_iff i).2 hi))
  subst herr'
  obtain ⟨-, ix, iy, t', hx, hy, ht', htake', hch, hrest, hlen0⟩ := C27_schedule hchal
  rw [hB0, Option.some.injEq, Var.big.injEq] at hx
  rw [hB1, Option.some.injEq, Var.big.injEq] at hy
  subst hx hy
  have htt : t'.map Int.natAbs = absWords c.Proof := (absWords_of_take htake').symm
  have hB0l : B0.length = 43 := hlen0.trans hBl
  have c0 := getD_some ((hrest 0 (by norm_num)).trans hB0)
  have c1 := getD_some ((hrest 1 (by norm_num)).trans hB1)
  refine ⟨B0, s3, hsat3, hB0l, ⟨c0, c1⟩, ?_, ?_⟩
  · intro i hi
    have := hch i hi
    simp only [htt, Int.natAbs_natCast] at this
    exact this
  intro B1 B2 B3 t5 t6 t7 g1 g2 g3
  have hsum : c.TargetInst.length + c.VerifyInst.length = ti.length + vi.length := by rw [hvi, hti]
  unfold AggregatorCircuit.Define
  rw [Circ.bind_run, show copyInst (List.replicate 43 (.big 0)) 0 c.TargetInst E s = .ok (b0, s) by rw [hti]; exact hb0]
  simp only []
  rw [Circ.bind_run, show copyInst b0 c.TargetInst.length c.VerifyInst E s = .ok (b1, s) by rw [hvi, hti]; exact hb1]
  simp only []
  rw [hsum, htake, Circ.bind_run, hh1]
  simp only []
  rw [Circ.bind_run, hmod]
  simp only []
  rw [Circ.bind_run, setIdx_ok.2 ⟨by omega, rfl, rfl⟩]
  simp only []
  rw [Circ.bind_run, hlag]
  simp only []
  unfold verifyFrom
  rw [Circ.bind_run, hchal]
  simp only []
  rw [Circ.bind_run, g1]
  simp only []
  rw [Circ.bind_run, g2]
  simp only []
  rw [Circ.bind_run, g3]

/-- The same with the hints of the repo. -/
theorem define_prologue_words {X : Ext} (hX : X.Lawful) {E : Engine} (hE : HonestRaw E)
    {c : AggregatorCircuit} (ht : CanonicalWords c.Proof) {vi ti : List Var} (hvi : c.VerifyInst = vi) (hti : c.TargetInst = ti)
    (hlen : (ti ++ vi).length ≤ 43) {k : Fr} {s : St} (hk : ∃ v, (VerifyInstanceHash X (ti ++ vi)).Accepts E s (v, none) ∧ v.fr = k ∧ v.Good)
    (hk0 : k ≠ 0) (hI : Representable (instCommitment k)) :
    let I := instCommitment k
    ∃ B0 s3, s3.sat = true ∧ B0.length = 43 ∧ PtExact (B0.getD 0 .nil) (B0.getD 1 .nil) I ∧
      (∀ i (hi : i < 8), B0[2 + i]? = some (.big (((fsChallenges X.sha256 (enc I).1.val (enc I).2.val (absWords c.Proof))[i]'(by
        rw [fsChallenges_length]; exact hi) : ℤ) % rMod))) ∧
      ∀ B1 B2 B3 t5 t6 t7, VerifyProof1 X c.Proof c.Aux B0 E s3 = .ok ((B1, none), t5) →
        VerifyProof2 X c.Proof c.Aux B1 E t5 = .ok ((B2, none), t6) → VerifyProof3 X c.Proof c.Aux B2 E t6 = .ok ((B3, none), t7) →
        c.Define X E s = finalCheck X B3 E t7 := by
  refine define_prologue_gen (honest_runs hX hE) ht.loose hvi hti hlen hk ⟨hk0, ?_, hI⟩
  intro h0
  exact hI.1 (by rw [instCommitment, h0, smul_zero])

/-- The same for a list of numbers. -/
theorem define_prologue {X : Ext} (hX : X.Lawful) {E : Engine} (hE : HonestRaw E)
    (hk : ∀ k n ins, E.strat .keccakHint k n ins = Keccak256Hint X n ins) {t : List ℕ} (ht : CanonicalProof t) (a : List Fr)
    {vi ti : List Var} (hlen : (ti ++ vi).length ≤ 43) (hv : ∀ v ∈ ti ++ vi, v.Good)
    (hk0 : instHash X ti vi ≠ 0)
    (hI : Representable (instCommitment (instHash X ti vi))) (s : St) (hs : s.sat = true) :
    let c := circuitFor t a vi ti
    let I := instCommitment (instHash X ti vi)
    ∃ B0 s3, s3.sat = true ∧ B0.length = 43 ∧ PtExact (B0.getD 0 .nil) (B0.getD 1 .nil) I ∧
      (∀ i (hi : i < 8), B0[2 + i]? = some (.big (((fsChallenges X.sha256 (enc I).1.val (enc I).2.val (t.take 102))[i]'(by
        rw [fsChallenges_length]; exact hi) : ℤ) % rMod))) ∧
      ∀ B1 B2 B3 t5 t6 t7, VerifyProof1 X c.Proof c.Aux B0 E s3 = .ok ((B1, none), t5) →
        VerifyProof2 X c.Proof c.Aux B1 E t5 = .ok ((B2, none), t6) → VerifyProof3 X c.Proof c.Aux B2 E t6 = .ok ((B3, none), t7) →
        c.Define X E s = finalCheck X B3 E t7 := by
  intro c I
  obtain ⟨v, h1, h2, h3, -⟩ := C24_hash hX hk hv hs
  have h := define_prologue_words hX hE (c := c) ht.words rfl rfl hlen ⟨v, h1, h2, h3⟩ hk0 hI
  have e : absWords c.Proof = t.take 102 := absWords_words t
  simp only [e] at h
  exact h

/-- A run of the whole circuit, from aux values that satisfy the relations. -/
theorem complete_gen {X : Ext} {E : Engine} {R : Var → Var → G1 → Prop} {M : Fr → G1 → Prop} {S : G1 → Prop}
    (hE : EccRuns X E R M S) {c : AggregatorCircuit} (ht : LooseWords c.Proof)
    (hpts : ∀ i ∈ pointPositions, R (c.Proof.getD i .nil) (c.Proof.getD (i + 1) .nil) (proofPoint c.Proof i))
    (ha : ∀ i < 21, i < c.Aux.length ∧ (c.Aux.getD i .nil).Good) {vi ti : List Var} (hvi : c.VerifyInst = vi)
    (hti : c.TargetInst = ti) (hlen : (ti ++ vi).length ≤ 43) {k : Fr} {s : St}
    (hk : ∃ v, (VerifyInstanceHash X (ti ++ vi)).Accepts E s (v, none) ∧ v.fr = k ∧ v.Good) (hM : M k vkInstance) :
    let I := instCommitment k
    let ch := challengesFor X.sha256 I (absWords c.Proof)
    let C := Commitments.ofProof I (proofPoint c.Proof)
    let e := Evals.ofProof (frAt c.Proof)
    AuxRelations ch e (frAt c.Aux) → M 1 C.W' → (∀ p ∈ openingTerms ch C e (frAt c.Aux 16), M p.1 p.2) →
    (∀ m, 1 ≤ m → m ≤ 46 → S (partialSum (openingTerms ch C e (frAt c.Aux 16)) m)) →
    C.W' ≠ 0 → opening ch C e (frAt c.Aux 16) ≠ 0 →
    X.PairingEq C.W' (opening ch C e (frAt c.Aux 16)) → (c.Define X).Accepted E s := by
  intro I ch C e haux hW hG hS hW0 hO0 hpair
  obtain ⟨B0, s3, hsat3, hB0l, ⟨c0, c1⟩, hch, hdef⟩ := define_prologue_gen hE ht hvi hti hlen hk hM
  have hC : challengesOf (frAt B0) = ch := by
    rw [challenges_read (fsChallenges_length _ _ _ _) hch]
    rfl
  have rpos : (0 : ℤ) < rMod := by exact_mod_cast rMod_pos
  have hok : StepsOk X E R M S c.Proof c.Aux B0 I := by
    refine ⟨hE, hB0l, ?_, ?_, ⟨c0, c1⟩, ?_, hpts, ha, ?_, hW, ?_, ?_⟩
    · intro i hi
      by_cases h2 : i < 2
      · obtain rfl | rfl : i = 0 ∨ i = 1 := by omega
        · rw [c0]; trivial
        · rw [c1]; trivial
      · have := hch (i - 2) (by omega)
        rw [show 2 + (i - 2) = i by omega] at this
        rw [getD_some this]; trivial
    · exact ⟨_, getD_some (hch 7 (by norm_num)), Int.emod_nonneg _ rpos.ne', Int.emod_lt_of_pos _ rpos⟩
    · intro i hi
      obtain ⟨z, hz⟩ := ht.big i hi
      obtain ⟨hi', -⟩ := List.getElem?_eq_some_iff.1 hz
      refine ⟨hi', ?_⟩
      rw [getD_some hz]
      trivial
    · rw [hC]; exact haux
    · rw [hC]; exact hG
    · rw [hC]; exact hS
  obtain ⟨B1, B2, B3, t5, t6, t7, g1, g2, g3, g4, g5, g6, g7, g8⟩ := steps_end hok hsat3
  rw [hC] at g7 g8
  have hfin := finalCheck_run g6 g7 (by omega) hW0 hO0 hpair E t7
  exact ⟨t7, (hdef _ _ _ _ _ _ g1 g2 g3).trans hfin, g4⟩

/-- The same with the hints of the repo. -/
theorem complete_run {X : Ext} (hX : X.Lawful) {E : Engine} (hE : HonestRaw E)
    {c : AggregatorCircuit} (ht : CanonicalWords c.Proof)
    (ha : ∀ i < 21, i < c.Aux.length ∧ (c.Aux.getD i .nil).Good) {vi ti : List Var} (hvi : c.VerifyInst = vi)
    (hti : c.TargetInst = ti) (hlen : (ti ++ vi).length ≤ 43) {k : Fr} {s : St}
    (hk : ∃ v, (VerifyInstanceHash X (ti ++ vi)).Accepts E s (v, none) ∧ v.fr = k ∧ v.Good) (hk0 : k ≠ 0)
    (hI : Representable (instCommitment k)) :
    let I := instCommitment k
    let ch := challengesFor X.sha256 I (absWords c.Proof)
    let C := Commitments.ofProof I (proofPoint c.Proof)
    let e := Evals.ofProof (frAt c.Proof)
    AuxRelations ch e (frAt c.Aux) → Representable C.W' → GoodTerms (openingTerms ch C e (frAt c.Aux 16)) →
    X.PairingEq C.W' (opening ch C e (frAt c.Aux 16)) → (c.Define X).Accepted E s := by
  intro I ch C e haux hW hG hpair
  have hlen46 : (openingTerms ch C e (frAt c.Aux 16)).length = 46 := by unfold openingTerms; exact termList_length ..
  have hd : vanish (points ch.x [2, -1]) ch.u ≠ 0 := left_ne_zero_of_mul_eq_one haux.i8
  have hO : Representable (opening ch C e (frAt c.Aux 16)) := by
    have := hG.sums 46 (by norm_num) hlen46.ge
    rwa [← hlen46, partialSum_all, sum_openingTerms ch I (proofPoint c.Proof) e (frAt c.Aux 16) hd] at this
  refine complete_gen (honest_runs hX hE) ht.loose (fun i hi => words_exact ht ((isPointPosition_iff i).2 hi)) ha hvi hti hlen hk
    ⟨hk0, ?_, hI⟩ haux ⟨one_ne_zero, hW.1, by rw [one_smul]; exact hW⟩
    (fun p hp => ⟨hG.scalar p hp, hG.point p hp, hG.product p hp⟩) (fun m h1 h2 => hG.sums m h1 (h2.trans hlen46.ge)) hW.1 hO.1 hpair
  intro h0
  exact hI.1 (by rw [instCommitment, h0, smul_zero])

theorem frAt_circuitFor_aux (t : List ℕ) (a : List Fr) (vi ti : List Var) : frAt (circuitFor t a vi ti).Aux = fun i => a.getD i 0 := by
  funext i
  simp only [circuitFor, frAt, List.getD_eq_getElem?_getD, List.getElem?_map]
  cases hi : a[i]? with
  | none => rfl
  | some v =>
    simp only [Option.map_some, Option.getD_some, Var.fr]
    rw [Int.cast_natCast, ZMod.natCast_zmod_val]

theorem circuitFor_aux_good {t : List ℕ} {a : List Fr} {vi ti : List Var} (ha : a.length = 21) :
    ∀ i < 21, i < (circuitFor t a vi ti).Aux.length ∧ ((circuitFor t a vi ti).Aux.getD i .nil).Good := by
  intro i hi
  have hA : (circuitFor t a vi ti).Aux = a.map fun v => .big v.val := rfl
  refine ⟨by rw [hA, List.length_map, ha]; omega, ?_⟩
  rw [hA, List.getD_eq_getElem?_getD, List.getElem?_map, List.getElem?_eq_getElem (by omega)]
  exact ⟨by positivity, by exact_mod_cast ZMod.val_lt _⟩

/-- C35 for any engine that hands numbers to hints as they are and answers hints like the repo's hint functions, and for
any aux values that satisfy their defining relations (so x may be in the domain): if the pairing equation holds and no
degenerate value occurs, the circuit is accepted. -/
theorem C35_relations {X : Ext} (hX : X.Lawful) {E : Engine} (hE : HonestRaw E)
    (hk : ∀ k n ins, E.strat .keccakHint k n ins = Keccak256Hint X n ins) {t : List ℕ} (ht : CanonicalProof t) {a : List Fr}
    (ha : a.length = 21) {vi ti : List Var} (hlen : (ti ++ vi).length ≤ 43) (hv : ∀ v ∈ ti ++ vi, v.Good)
    (hk0 : instHash X ti vi ≠ 0) (hI : Representable (instCommitment (instHash X ti vi)))
    (haux : AuxRelations (chalOf X t ti vi) (evalsOf t) (fun i => a.getD i 0)) (hW : Representable (pointOf t 102))
    (hG : GoodTerms (openingTerms (chalOf X t ti vi) (commitmentsOf X t ti vi) (evalsOf t) (a.getD 16 0)))
    (hpair : X.PairingEq (pointOf t 102) (openingOf X t ti vi (a.getD 16 0))) {s : St} (hs : s.sat = true) :
    ((circuitFor t a vi ti).Define X).Accepted E s := by
  obtain ⟨v, h1, h2, h3, -⟩ := C24_hash hX hk hv hs
  have h := complete_run hX hE (c := circuitFor t a vi ti) ht.words (circuitFor_aux_good ha) rfl rfl hlen ⟨v, h1, h2, h3⟩ hk0 hI
  have e : absWords (circuitFor t a vi ti).Proof = t.take 102 := absWords_words t
  have hfa := frAt_circuitFor_aux t a vi ti
  have hp : proofPoint (circuitFor t a vi ti).Proof = pointOf t := proofPoint_words t
  have hf : frAt (circuitFor t a vi ti).Proof = fun i => ((t.getD i 0 : ℕ) : Fr) := frAt_words t
  simp only [hp, hf, e, hfa] at h
  exact h haux hW hG hpair

theorem list_16 (a0 a1 a2 a3 a4 a5 a6 a7 a8 a9 a10 a11 a12 a13 a14 a15 a16 a17 a18 a19 a20 : Fr) : ([a0, a1, a2, a3, a4, a5, a6, a7, a8, a9, a10, a11, a12, a13, a14, a15, a16, a17, a18, a19, a20] : List Fr).getD 16 0 = a16 := rfl

theorem list_len (a0 a1 a2 a3 a4 a5 a6 a7 a8 a9 a10 a11 a12 a13 a14 a15 a16 a17 a18 a19 a20 : Fr) : ([a0, a1, a2, a3, a4, a5, a6, a7, a8, a9, a10, a11, a12, a13, a14, a15, a16, a17, a18, a19, a20] : List Fr).length = 21 := rfl

theorem auxOf_length (X : Ext) (t : List ℕ) (ti vi : List Var) : (auxOf X t ti vi).length = 21 := by
  rw [auxOf, auxValues]
  exact list_len ..

theorem auxOf_16 (X : Ext) (t : List ℕ) (ti vi : List Var) : (auxOf X t ti vi).getD 16 0 = quotientOf X t ti vi := by
  rw [auxOf, quotientOf, auxValues]
  exact list_16 ..

theorem honest_raw (X : Ext) : HonestRaw (honestTest X true) :=
  ⟨rfl, rfl, honest_honestMod X, fun _ _ _ => rfl, fun _ _ _ => rfl⟩

/-- C35: a canonical proof in general position that satisfies the pairing equation is accepted by the test engine with
the repo's hints, when the 21 aux values are the specified ones. -/
theorem C35_complete {X : Ext} (hX : X.Lawful) {t : List ℕ} (ht : CanonicalProof t) {vi ti : List Var}
    (hlen : (ti ++ vi).length ≤ 43) (hv : ∀ v ∈ ti ++ vi, v.Good) (hG : GeneralPosition X t ti vi)
    (hpair : X.PairingEq (pointOf t 102) (openingOf X t ti vi (quotientOf X t ti vi))) {s : St} (hs : s.sat = true) :
    ((circuitFor t (auxOf X t ti vi) vi ti).Define X).Accepted (honestTest X true) s := by
  refine C35_relations hX (honest_raw X) (fun _ _ _ => rfl) ht (auxOf_length ..) hlen hv hG.hash_ne hG.inst ?_ hG.witness ?_ ?_ hs
  · exact auxValues_relations _ hG.x_ne hG.x_outside hG.denom_ne
  · rw [auxOf_16]; exact hG.terms
  · rw [auxOf_16]; exact hpair

/-- C35: in general position the circuit decides the pairing equation. -/
theorem C35_iff {X : Ext} (hX : X.Strict) {t : List ℕ} (ht : CanonicalProof t) {vi ti : List Var}
    (hlen : (ti ++ vi).length ≤ 43) (hv : ∀ v ∈ ti ++ vi, v.Good) (hG : GeneralPosition X t ti vi) {s : St} (hs : s.sat = true) :
    ((circuitFor t (auxOf X t ti vi) vi ti).Define X).Accepted (honestTest X true) s ↔
      X.PairingEq (pointOf t 102) (openingOf X t ti vi (quotientOf X t ti vi)) := by
  refine ⟨fun h => ?_, fun h => C35_complete hX.toLawful ht hlen hv hG h hs⟩
  obtain ⟨t', hS⟩ := C34_honest hX rfl (fun _ _ _ => rfl) hv hs h
  have hp : proofPoint (circuitFor t (auxOf X t ti vi) vi ti).Proof = pointOf t := proofPoint_words t
  have hf : frAt (circuitFor t (auxOf X t ti vi) vi ti).Proof = fun i => ((t.getD i 0 : ℕ) : Fr) := frAt_words t
  have htt : t'.map Int.natAbs = t.take 102 := by
    have h1 : (t.map fun m : ℕ => Var.big (m : ℤ)).take 102 = t'.map .big := hS.words.2
    rw [← List.map_take] at h1
    have : (t.take 102).map (fun m : ℕ => (m : ℤ)) = t' := by
      have h2 : ((t.take 102).map (fun m : ℕ => (m : ℤ))).map Var.big = t'.map Var.big := by
        rw [List.map_map]; exact h1
      exact List.map_injective_iff.2 (fun x y h => by cases h; rfl) h2
    rw [← this, List.map_map]
    conv_rhs => rw [← List.map_id (t.take 102)]
    rfl
  have h16 : frAt (circuitFor t (auxOf X t ti vi) vi ti).Aux 16 = quotientOf X t ti vi := by
    rw [← auxOf_16]
    unfold auxOf
    simp only [circuitFor, frAt, List.getD_eq_getElem?_getD, List.getElem?_map]
    generalize hg : auxValues (chalOf X t ti vi) (evalsOf t) = l
    cases hi : l[16]? with
    | none => rfl
    | some v =>
      simp only [Option.map_some, Option.getD_some, Var.fr]
      rw [Int.cast_natCast, ZMod.natCast_zmod_val]
  have := hS.accepts.pairing
  rw [hp, hf, htt, h16] at this
  exact this

end Verif
