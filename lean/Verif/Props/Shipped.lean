/-
Property C49: the proof shipped with the repository passes every check of the circuit except, possibly, the pairing,
and the pairing is asked about two explicit points.
-/
import Verif.Lemmas.Shipped
import Verif.Props.Exact

namespace Verif
open Halo2

/-- The aux values as field elements. -/
def shippedAuxFr : List Fr := shippedAux.map fun n : ℕ => (n : Fr)

theorem shipped_circuitFor : shippedCircuit = circuitFor shippedProof shippedAuxFr (bigs shippedVerifyInst) (bigs shippedTargetInst) :=
  shipped_run.circuitFor

theorem shipped_instHash {X : Ext} (hk : X.keccak = Keccak.hash) :
    instHash X (bigs shippedTargetInst) (bigs shippedVerifyInst) = (shippedHash : Fr) := shipped_run.instHash hk

/-- The point paired with the second opening proof of the shipped proof. -/
noncomputable def shippedF : G1 := dec ((shippedOpening.1 : Fp), (shippedOpening.2 : Fp))

/-- C49: with the real hash functions, any lawful curve arithmetic and the repo's hints, the shipped proof, aux values and
instances are accepted if and only if the pairing equation holds for the shipped second opening proof and the explicit
point `shippedF`: all other checks pass. -/
theorem C49_shipped {X : Ext} (hX : X.Lawful) (hsha : X.sha256 = Sha256.hash) (hkec : X.keccak = Keccak.hash) {s : St}
    (hs : s.sat = true) :
    (shippedCircuit.Define X).Accepted (honestTest X true) s ↔ X.PairingEq (pointOf shippedProof 102) shippedF :=
  shipped_run.accepted_iff hX hsha hkec hs

/-- An environment with other hash functions. -/
def Ext.withHashes (X : Ext) (sha kec : List UInt8 → List UInt8) : Ext := { X with sha256 := sha, keccak := kec }

theorem Ext.Strict.withHashes {X : Ext} (h : X.Strict) {sha kec : List UInt8 → List UInt8} (h1 : ∀ m, (sha m).length = 32)
    (h2 : ∀ m, (kec m).length = 32) : (X.withHashes sha kec).Strict :=
  ⟨⟨h1, h2, h.scalarMul, h.addUnified, h.msm⟩, h.scalarMul_deg⟩

theorem Ext.Bilinear.withHashes {X : Ext} (h : X.Bilinear) (sha kec : List UInt8 → List UInt8) :
    (X.withHashes sha kec).Bilinear := h

theorem Ext.withHashes_pairing (X : Ext) (sha kec : List UInt8 → List UInt8) (P Q : G1) :
    (X.withHashes sha kec).PairingEq P Q ↔ X.PairingEq P Q := Iff.rfl

/-- Curve arithmetic in the group, the real hash functions, and a pairing with trapdoor `t`. -/
noncomputable def stdExt (t : Fr) : Ext := (idealExt t id).withHashes Sha256.hash Keccak.hash

theorem stdExt_strict (t : Fr) : (stdExt t).Strict := (idealExt_strict t id).withHashes Sha256.hash_length Keccak.hash_length

theorem stdExt_sha (t : Fr) : (stdExt t).sha256 = Sha256.hash := by rw [stdExt, Ext.withHashes]
theorem stdExt_keccak (t : Fr) : (stdExt t).keccak = Keccak.hash := by rw [stdExt, Ext.withHashes]

theorem stdExt_pairing (t : Fr) (P Q : G1) : (stdExt t).PairingEq P Q ↔ Q = t • P := by
  rw [stdExt, Ext.withHashes_pairing]
  unfold Ext.PairingEq idealExt
  simp only [dec_enc, decide_eq_true_eq]

theorem stdExt_bilinear (t : Fr) : (stdExt t).Bilinear := by
  rw [stdExt]
  exact (idealExt_bilinear t id).withHashes _ _

/-- For exactly one trapdoor the shipped proof is accepted. -/
theorem C49_accepted : ∃! t : Fr, (shippedCircuit.Define (stdExt t)).Accepted (honestTest (stdExt t) true) .init := by
  obtain ⟨a, ha⟩ := exists_smul_gen (pointOf shippedProof 102)
  obtain ⟨b, hb⟩ := exists_smul_gen shippedF
  have ha0 : a ≠ 0 := by
    rintro rfl
    exact shipped_run.W_ne (ha.trans ((fr_smul_eq_zero).2 (.inl rfl)))
  have key : ∀ t : Fr, (shippedCircuit.Define (stdExt t)).Accepted (honestTest (stdExt t) true) .init ↔
      shippedF = t • pointOf shippedProof 102 := by
    intro t
    have h := C49_shipped (stdExt_strict t).toLawful (stdExt_sha t) (stdExt_keccak t) (s := .init) rfl
    rw [stdExt_pairing] at h
    exact h
  refine ⟨b / a, ?_, fun t ht => ?_⟩
  · beta_reduce
    rw [key, ha, hb, ← mul_smul, div_mul_cancel₀ _ ha0]
  · beta_reduce at ht
    rw [key, ha, hb, ← mul_smul] at ht
    have h0 : (b - t * a) • G1gen = 0 := by rw [sub_smul, ← ht, sub_self]
    rcases fr_smul_eq_zero.1 h0 with h1 | h1
    · rw [eq_div_iff ha0]; exact (sub_eq_zero.1 h1).symm
    · exact absurd h1 (WeierstrassCurve.Affine.Point.some_ne_zero _)

theorem shipped_x {X : Ext} (hsha : X.sha256 = Sha256.hash) (hkec : X.keccak = Keccak.hash) :
    (chalOf X shippedProof (bigs shippedTargetInst) (bigs shippedVerifyInst)).x = ((shippedStart.getD 6 0 : ℕ) : Fr) := by
  obtain ⟨I, hI, henc, -, -⟩ := shipped_run.inst
  rw [encN, Prod.mk.injEq] at henc
  rw [chalOf, shipped_instHash hkec, ← hI, hsha, challengesFor, henc.1, henc.2]
  have h := congrArg (fun l : List ℕ => l[4]?) shipped_challenges
  unfold fsChallenges at h
  simp only [List.getElem?_map, List.getElem?_drop] at h
  unfold Challenges.ofDigests
  generalize fsDigests Sha256.hash fsSeed (fsBlocks (shippedStart.getD 0 0) (shippedStart.getD 1 0) (shippedProof.take 102)) = l at h ⊢
  simp only []
  cases hl : l[4]? with
  | none => rw [hl] at h; simp only [Option.map_none] at h; cases h
  | some d =>
    rw [hl] at h
    have h2 : shippedStart[2 + 4]? = some (shippedStart.getD 6 0) := rfl
    rw [h2, Option.map_some, Option.some.injEq] at h
    rw [← h, ZMod.natCast_mod]
    simp [List.getD_eq_getElem?_getD, hl]

/-- C49: the shipped data agree with the specification: the proof is in general position, the shipped aux values are
the specified ones, and `shippedF` is the specified combination of the openings. -/
theorem C49_spec {X : Ext} (hsha : X.sha256 = Sha256.hash) (hkec : X.keccak = Keccak.hash) :
    GeneralPosition X shippedProof (bigs shippedTargetInst) (bigs shippedVerifyInst) ∧
    auxOf X shippedProof (bigs shippedTargetInst) (bigs shippedVerifyInst) = shippedAuxFr ∧
    openingOf X shippedProof (bigs shippedTargetInst) (bigs shippedVerifyInst)
      (quotientOf X shippedProof (bigs shippedTargetInst) (bigs shippedVerifyInst)) = shippedF := by
  obtain ⟨t, hacc, -⟩ := C49_accepted
  beta_reduce at hacc
  have hp := (C49_shipped (stdExt_strict t).toLawful (stdExt_sha t) (stdExt_keccak t) (s := .init) rfl).1 hacc
  rw [stdExt_pairing] at hp
  rw [shipped_circuitFor] at hacc
  have hc := C48_only_if (stdExt_strict t) (honest_raw _) (fun _ _ _ => rfl) shipped_canonical shipped_run.good rfl hacc
  -- everything depends on the hash functions only
  have i1 : instHash X (bigs shippedTargetInst) (bigs shippedVerifyInst) =
      instHash (stdExt t) (bigs shippedTargetInst) (bigs shippedVerifyInst) := by
    rw [shipped_instHash hkec, shipped_instHash (stdExt_keccak t)]
  have i2 : chalOf X shippedProof (bigs shippedTargetInst) (bigs shippedVerifyInst) =
      chalOf (stdExt t) shippedProof (bigs shippedTargetInst) (bigs shippedVerifyInst) := by
    rw [chalOf, chalOf, i1, hsha, stdExt_sha]
  have i3 : commitmentsOf X shippedProof (bigs shippedTargetInst) (bigs shippedVerifyInst) =
      commitmentsOf (stdExt t) shippedProof (bigs shippedTargetInst) (bigs shippedVerifyInst) := by
    rw [commitmentsOf, commitmentsOf, i1]
  have hx := shipped_x (stdExt_sha t) (stdExt_keccak t)
  have x1 : (chalOf (stdExt t) shippedProof (bigs shippedTargetInst) (bigs shippedVerifyInst)).x ≠ 0 := by
    rw [hx]
    intro h0
    have h1 := congrArg ZMod.val h0
    rw [ZMod.val_natCast_of_lt (by decide +kernel), ZMod.val_zero] at h1
    exact absurd h1 (by decide +kernel)
  have x2 : ∀ i < n, (chalOf (stdExt t) shippedProof (bigs shippedTargetInst) (bigs shippedVerifyInst)).x ≠ ω ^ i := by
    intro i hi he
    have h1 := (domain_iff _).1 ⟨i, hi, he⟩
    rw [hx, ← powMod_cast _ _ _ (by decide +kernel)] at h1
    have h2 := congrArg ZMod.val h1
    rw [ZMod.val_one, ZMod.val_natCast] at h2
    exact absurd h2 (by decide +kernel)
  have ha : auxOf (stdExt t) shippedProof (bigs shippedTargetInst) (bigs shippedVerifyInst) = shippedAuxFr := by
    have h1 := hc.aux.unique x2
    rw [auxOf, ← h1]
    have hl : shippedAuxFr.length = 21 := by rw [shippedAuxFr, List.length_map]; decide +kernel
    refine List.ext_getElem (by rw [List.length_map, List.length_range, hl]) fun i h2 h3 => ?_
    rw [List.getElem_map, List.getElem_range, List.getD_eq_getElem?_getD, List.getElem?_eq_getElem h3]
    rfl
  have hq : shippedAuxFr.getD 16 0 = quotientOf (stdExt t) shippedProof (bigs shippedTargetInst) (bigs shippedVerifyInst) := by
    rw [← ha, auxOf_16]
  have hq' : quotientOf X shippedProof (bigs shippedTargetInst) (bigs shippedVerifyInst) =
      quotientOf (stdExt t) shippedProof (bigs shippedTargetInst) (bigs shippedVerifyInst) := by
    rw [quotientOf, quotientOf, i2]
  have ho := hc.pairing
  rw [stdExt_pairing, ← hp, hq] at ho
  refine ⟨⟨?_, ?_, ?_, ?_, ?_, hc.witness, ?_⟩, ?_, ?_⟩
  · rw [i1]; exact hc.hash_ne
  · rw [i1]; exact hc.inst
  · rw [i2]; exact x1
  · rw [i2]; exact x2
  · rw [i2]; exact left_ne_zero_of_mul_eq_one hc.aux.i8
  · rw [i2, i3, hq', ← hq]; exact hc.terms
  · rw [auxOf, i2]; exact ha
  · rw [openingOf, i2, i3, hq']; exact ho

/-- The hypotheses of C35 and C48 are met by the shipped proof. -/
example : ∃ X : Ext, X.Strict ∧ CanonicalProof shippedProof ∧
    GeneralPosition X shippedProof (bigs shippedTargetInst) (bigs shippedVerifyInst) ∧
    X.PairingEq (pointOf shippedProof 102) (openingOf X shippedProof (bigs shippedTargetInst) (bigs shippedVerifyInst)
      (quotientOf X shippedProof (bigs shippedTargetInst) (bigs shippedVerifyInst))) := by
  obtain ⟨t, hacc, -⟩ := C49_accepted
  have hp := (C49_shipped (stdExt_strict t).toLawful (stdExt_sha t) (stdExt_keccak t) (s := .init) rfl).1 hacc
  obtain ⟨h1, -, h3⟩ := C49_spec (stdExt_sha t) (stdExt_keccak t)
  refine ⟨stdExt t, stdExt_strict t, shipped_canonical, h1, ?_⟩
  rw [h3]
  exact hp

end Verif
