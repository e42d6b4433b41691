/-
Property C49: the proof shipped with the repository is accepted.
-/
import Verif.Lemmas.ShippedPairing
import Verif.Props.Unique

namespace Verif
open Halo2 Ate

theorem shipped_W : enc (pointOf shippedProof 102) = ((shippedWN.1 : Fp), (shippedWN.2 : Fp)) := by
  have h := shipped_run.W_enc
  have h1 : (shippedProof.getD 102 0, shippedProof.getD 103 0) = shippedWN := by decide +kernel
  rw [h1, encN] at h
  rw [← h]
  exact Prod.ext (ZMod.natCast_zmod_val _).symm (ZMod.natCast_zmod_val _).symm

theorem shipped_F : enc shippedF = ((shippedOpening.1 : Fp), (shippedOpening.2 : Fp)) := enc_dec (.inl shipped_run.F_curve)

theorem enc_ne {P : G1} (h : P ≠ 0) : enc P ≠ (0, 0) := fun h0 => h (enc_injective (h0.trans enc_zero.symm))

theorem g20_ne : g20 ≠ ((0, 0), (0, 0)) := by decide +kernel
theorem g21_ne : g21 ≠ ((0, 0), (0, 0)) := by decide +kernel

/-- C49: the pairing equation of the shipped proof holds for the optimal ate pairing. -/
theorem C49_pairing : Ate.check [enc (pointOf shippedProof 102), enc shippedF] [g20, g21] = true := by
  have hW := enc_ne shipped_run.W_ne
  have hF : enc shippedF ≠ (0, 0) := enc_ne shipped_run.F_ne
  have e1 := congrArg F12.val (beq12_eq root_check)
  have e2 := congrArg F12.val (beq12_eq root_inv)
  rw [mul12_val, one12_val] at e2
  rw [mul12_val, millerN_val, millerN_val, pow12_val _ _ _ (by decide +kernel), g20N_val, g21N_val, ← shipped_W, ← shipped_F] at e1
  have h := final_exp_one e1 e2
  rw [Ate.check, decide_eq_true_iff]
  simp only [List.zipWith_cons_cons, List.zipWith_nil_left, List.prod_cons, List.prod_nil, mul_one]
  rw [Ate.pairing, Ate.pairing, if_neg (not_or.2 ⟨hW, g20_ne⟩), if_neg (not_or.2 ⟨hF, g21_ne⟩), ← mul_pow]
  exact h

/-- C49: the equation is not vacuous: the pairing of the shipped second opening proof with `g21` is not 1. -/
theorem C49_pairing_nontrivial : Ate.pairing (enc (pointOf shippedProof 102)) g21 ≠ 1 := by
  intro h
  rw [Ate.pairing, if_neg (not_or.2 ⟨enc_ne shipped_run.W_ne, g21_ne⟩), shipped_W, ← g21N_val, ← millerN_val] at h
  exact nontrivial_pairing h

/-- C49: with SHA-256, Keccak-256, the optimal ate pairing of BN254, any lawful curve arithmetic and the hints of the repo,
the shipped circuit assignment is accepted. -/
theorem C49_real {X : Ext} (hX : X.Lawful) (hsha : X.sha256 = Sha256.hash) (hkec : X.keccak = Keccak.hash)
    (hpair : X.pairing = Ate.check) {s : St} (hs : s.sat = true) :
    (shippedCircuit.Define X).Accepted (honestTest X true) s := by
  refine (C49_shipped hX hsha hkec hs).2 ?_
  rw [Ext.PairingEq, hpair]
  exact C49_pairing

/-- An environment with another pairing. -/
def Ext.withPairing (X : Ext) (p : List Aff → List Aff2 → Bool) : Ext := { X with pairing := p }

theorem Ext.Strict.withPairing {X : Ext} (h : X.Strict) (p : List Aff → List Aff2 → Bool) : (X.withPairing p).Strict :=
  ⟨⟨h.sha_len, h.keccak_len, h.scalarMul, h.addUnified, h.msm⟩, h.scalarMul_deg⟩

theorem Ext.withPairing_sha (X : Ext) (p : List Aff → List Aff2 → Bool) : (X.withPairing p).sha256 = X.sha256 := rfl
theorem Ext.withPairing_keccak (X : Ext) (p : List Aff → List Aff2 → Bool) : (X.withPairing p).keccak = X.keccak := rfl
theorem Ext.withPairing_pairing (X : Ext) (p : List Aff → List Aff2 → Bool) : (X.withPairing p).pairing = p := rfl

/-- Group arithmetic, the real hash functions and the real pairing: no free parameter is left. -/
noncomputable def realExt : Ext := (stdExt 0).withPairing Ate.check

theorem realExt_strict : realExt.Strict := by
  rw [realExt]
  exact (stdExt_strict 0).withPairing _

theorem realExt_sha : realExt.sha256 = Sha256.hash := by rw [realExt, Ext.withPairing_sha, stdExt_sha]
theorem realExt_keccak : realExt.keccak = Keccak.hash := by rw [realExt, Ext.withPairing_keccak, stdExt_keccak]
theorem realExt_pairing : realExt.pairing = Ate.check := by rw [realExt, Ext.withPairing_pairing]

/-- The hypotheses of `C49_real` are met. -/
example : (shippedCircuit.Define realExt).Accepted (honestTest realExt true) .init :=
  C49_real realExt_strict.toLawful realExt_sha realExt_keccak realExt_pairing rfl

end Verif
