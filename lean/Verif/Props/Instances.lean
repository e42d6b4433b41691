/-
Concrete cases that meet the hypotheses of the theorems about whole runs and about the three verification steps: the shipped
proof, and small buffers for the elliptic-curve calls.
-/
import Verif.Props.ShippedReal
import Verif.Props.Witness
import Verif.Props.Curve2
import Verif.Props.Whole
import Verif.Props.Knowledge

namespace Verif
open Halo2 Polynomial

/-- The shipped circuit assignment, run with the hints of the repo and the real hash functions and pairing. -/
theorem shipped_accepted : (shippedCircuit.Define realExt).Accepted (honestTest realExt true) .init :=
  C49_real realExt_strict.toLawful realExt_sha realExt_keccak realExt_pairing rfl

/-- The words of the shipped proof that enter the transcript. -/
theorem shipped_words {t : List ℤ} (ht : shippedCircuit.Proof.take 102 = t.map .big) :
    t.map Int.natAbs = shippedProof.take 102 := by
  have h1 : (shippedProof.take 102).map (fun m : ℕ => Var.big (m : ℤ)) = t.map .big := by
    rw [← ht, List.map_take]
    rfl
  have h2 : (shippedProof.take 102).map (fun m : ℕ => (m : ℤ)) = t := by
    apply map_big_inj
    rw [List.map_map]
    exact h1
  rw [← h2, List.map_map]
  conv_rhs => rw [← List.map_id (shippedProof.take 102)]
  rfl

/-- C34, C36 (`C36_define`, `C36_honest`, `C36_unique`), C38, C40, C55, C57_circuit: an accepted run, in test mode, with the
Keccak hint of the repo, of a circuit with good instance values. -/
example : realExt.Strict ∧ (honestTest realExt true).mode = .test ∧ HonestRaw (honestTest realExt true) ∧
    (∀ k n ins, (honestTest realExt true).strat .keccakHint k n ins = Keccak256Hint realExt n ins) ∧
    (∀ v ∈ shippedCircuit.TargetInst ++ shippedCircuit.VerifyInst, v.Good) ∧ St.init.sat = true ∧
    (shippedCircuit.Define realExt).Accepted (honestTest realExt true) .init :=
  ⟨realExt_strict, rfl, honest_raw _, fun _ _ _ => rfl, shipped_run.good, rfl, shipped_accepted⟩

/-- C48 (`C48_circuit`): the shipped circuit meets the hypothesis, and so the conditions. -/
example : (∀ i, i = 102 ∨ i = 103 → ∀ z : ℤ, shippedCircuit.Proof[i]? ≠ some (.int z)) ∧ Acceptable realExt shippedCircuit := by
  have hw : ∀ i, i = 102 ∨ i = 103 → ∀ z : ℤ, shippedCircuit.Proof[i]? ≠ some (.int z) := fun i hi z h => by
    obtain ⟨_, h1, -⟩ := shipped_canonical.words.word i (by omega)
    have h2 : shippedCircuit.Proof[i]? = _ := h1
    rw [h] at h2
    cases h2
  exact ⟨hw, (C48_circuit realExt_strict hw rfl).1 shipped_accepted⟩

/-- C27, C29, C30, C31, C32, C33, C36 (`C36_values`), C37: a satisfied run of the challenge derivation and of the three steps, with
the points of the proof on the curve, a point and a scalar in the buffer where C33 wants them, and x outside the domain. -/
example : ∃ (B B0 B1 B2 B3 : List Var) (t3 t4 t5 t6 t7 : St) (I : G1),
    GetChallengesShPlonkCircuit realExt B shippedCircuit.Proof (honestTest realExt true) t3 = .ok ((none, B0), t4) ∧
    B0.length = 43 ∧
    VerifyProof1 realExt shippedCircuit.Proof shippedCircuit.Aux B0 (honestTest realExt true) t4 = .ok ((B1, none), t5) ∧
    VerifyProof2 realExt shippedCircuit.Proof shippedCircuit.Aux B1 (honestTest realExt true) t5 = .ok ((B2, none), t6) ∧
    VerifyProof3 realExt shippedCircuit.Proof shippedCircuit.Aux B2 (honestTest realExt true) t6 = .ok ((B3, none), t7) ∧
    t6.sat = true ∧ t7.sat = true ∧ (∀ i, IsPointPosition i → PointAt shippedCircuit.Proof i) ∧
    PtAt (B0.getD 0 .nil) (B0.getD 1 .nil) I ∧ (∃ u : ℤ, B0[9]? = some (.big u) ∧ 0 ≤ u ∧ u < rMod) ∧
    ∀ i < n, (challengesOf (frAt B0)).x ≠ ω ^ i := by
  obtain ⟨s', h, hs'⟩ := shipped_accepted
  obtain ⟨r⟩ := define_ok h
  obtain ⟨-, hB, h6, t, ht, hC, hI, hu, h7⟩ := sound_run realExt_strict rfl r hs'
  refine ⟨r.B, r.B0, r.B1, r.B2, r.B3, r.t3, r.t4, r.t5, r.t6, r.t7, _, r.chal, hB, r.step1, r.step2, r.step3, h6, h7, ht.points, hI, hu, ?_⟩
  have hg : ∀ v ∈ shippedCircuit.TargetInst ++ shippedCircuit.VerifyInst, v.Good := shipped_run.good
  obtain ⟨v, ⟨s2, g1, -⟩, g2, -⟩ := C24_hash (E := honestTest realExt true) (s := .init) realExt_strict.toLawful (fun _ _ _ => rfl) hg rfl
  rw [r.hash, Except.ok.injEq, Prod.mk.injEq, Prod.mk.injEq] at g1
  rw [← g1.1.1] at g2
  rw [hC, g2, shipped_words ht.words.2]
  exact (C49_spec realExt_sha realExt_keccak).1.x_outside

/-- C34_outside: the shipped proof. -/
example : ∃ (k : Fr) (t : List ℤ), SoundAt realExt shippedCircuit k t ∧
    ∀ i < n, (challengesFor realExt.sha256 (instCommitment k) (t.map Int.natAbs)).x ≠ ω ^ i := by
  obtain ⟨t, ht⟩ := C34_honest realExt_strict (E := honestTest realExt true) rfl (fun _ _ _ => rfl) shipped_run.good (s := .init) rfl
    shipped_accepted
  refine ⟨_, t, ht, ?_⟩
  rw [shipped_words ht.words.2]
  exact (C49_spec realExt_sha realExt_keccak).1.x_outside

theorem gen_representable : Representable G1gen := by
  refine ⟨gen_ne_zero, ?_⟩
  rw [show (enc G1gen).1.val = 1 from congrArg Prod.fst encN_gen, show (enc G1gen).2.val = 2 from congrArg Prod.snd encN_gen]
  decide +kernel

theorem two_gen_representable : Representable (2 • G1gen) :=
  ⟨fun h => gen_ne_zero (no_two_torsion _ (by rwa [two_nsmul] at h)), two_gen_lt⟩

/-- C18: 2·(1,2) in a buffer of four entries, and (1,2) + 1·(1,2) in a buffer of six. -/
example : (∃ buf', (ecc_mul exX [.big 7, .big 1, .big 2, .big 2] 1).Accepts (honestTest exX true) .init (none, buf')) ∧
    ∃ buf', (ecc_mul_add exX [.big 7, .big 1, .big 2, .big 1, .big 2, .big 1] 1).Accepts (honestTest exX true) .init (none, buf') := by
  have g1 : (enc G1gen).1.val = 1 := congrArg Prod.fst encN_gen
  have g2 : (enc G1gen).2.val = 2 := congrArg Prod.snd encN_gen
  have hg : PtExact (.big 1) (.big 2) G1gen := by rw [PtExact, g1, g2]; exact ⟨rfl, rfl⟩
  have e1 : (1 : Fr) • G1gen = G1gen := one_smul _ _
  have e2 : (2 : Fr) • G1gen = 2 • G1gen := by rw [two_smul, two_nsmul]
  constructor
  · obtain ⟨s', h1, h2⟩ := ecc_mul_exec exX_strict.toLawful (honest_raw exX) (B := [.big 7, .big 1, .big 2, .big 2]) (o := 1)
      (p := (2, G1gen)) hg (by decide +kernel) (by decide +kernel) gen_ne_zero (by rw [e2]; exact two_gen_representable) (by decide) .init
    exact ⟨_, s', h1, h2⟩
  · obtain ⟨s', h1, h2⟩ := ecc_mul_add_store exX_strict.toLawful (honest_raw exX)
      (B := [.big 7, .big 1, .big 2, .big 1, .big 2, .big 1]) (o := 1) (p := (1, G1gen)) (Q := G1gen) hg hg (by decide +kernel)
      (by decide +kernel) gen_ne_zero (by rw [e1]; exact gen_representable)
      (by rw [e1, ← two_nsmul]; exact two_gen_representable) (by decide) .init
    exact ⟨_, s', h1, h2⟩

/-- C53: a false evaluation: the instance column is claimed to be 1 more than it is. -/
example (K : VkPolys) (k : Fr) (P : Columns) (h : ℕ → Fr[X]) (x hv : Fr) : ∃ e : Evals,
    ¬ (e.Same (trueEvals K k P x) ∧ hv = trueQuotient h x) := by
  refine ⟨{ trueEvals K k P x with inst := (trueEvals K k P x).inst + 1 }, fun hs => ?_⟩
  have h1 := hs.1.inst
  generalize (trueEvals K k P x).inst = z at h1
  exact one_ne_zero (add_eq_left.1 h1)

end Verif
