/-
Contract of the external gadgets (gnark std, hash functions): what the theorems about the repo assume of them.
Nothing here is an axiom: theorems take `X.Lawful`, `X.Strict` or `X.Bilinear` as a hypothesis, and `idealExt` shows that all
can be met.
-/
import Verif.Model.Pairing

namespace Verif

/-- The general position in which gnark's incomplete multi-scalar multiplication is specified: no point at infinity,
no zero scalar, no two points equal or opposite, and no vanishing signed sub-sum of the products. -/
def MsmDomain (Ps : List G1) (ss : List Fr) : Prop :=
  Ps.length = ss.length ∧ (∀ P ∈ Ps, P ≠ 0) ∧ (∀ s ∈ ss, s ≠ 0) ∧
  (∀ i j : Fin Ps.length, i ≠ j → Ps[i] ≠ Ps[j] ∧ Ps[i] ≠ -Ps[j]) ∧
  (∀ e : List ℤ, (∀ x ∈ e, x = -1 ∨ x = 0 ∨ x = 1) → e.length = Ps.length → (∃ x ∈ e, x ≠ 0) →
    ((e.zip (List.zipWith (fun s P => s • P) ss Ps)).map fun x => x.1 • x.2).sum ≠ 0)

/-- The documented contract of the external hash functions and curve arithmetic; it says nothing about the pairing. -/
structure Ext.Lawful (X : Ext) : Prop where
  sha_len : ∀ m, (X.sha256 m).length = 32
  keccak_len : ∀ m, (X.keccak m).length = 32
  /-- gnark: `ScalarMul` is specified for P ≠ O and s ≠ 0. -/
  scalarMul : ∀ (P : G1) (s : Fr), P ≠ 0 → s ≠ 0 → X.scalarMul (enc P) s = some (enc (s • P))
  /-- gnark: `AddUnified` is complete. -/
  addUnified : ∀ P Q : G1, X.addUnified (enc P) (enc Q) = some (enc (P + Q))
  msm : ∀ (Ps : List G1) (ss : List Fr), Ps ≠ [] → MsmDomain Ps ss →
    X.msm (Ps.map enc) ss = some (enc (List.zipWith (fun s P => s • P) ss Ps).sum)

/-- The contract, and moreover scalar multiplication returns nothing wrong on the inputs (P = O or s = 0) for which
gnark gives no guarantee: either its constraints fail or the result is right. -/
structure Ext.Strict (X : Ext) : Prop extends X.Lawful where
  scalarMul_deg : ∀ (P : G1) (s : Fr) (R : Aff), X.scalarMul (enc P) s = some R → R = enc (s • P)

/-- The contract of the pairing with the two fixed G2 points: two homomorphisms into a group of order r, the second one
injective (g21 generates G2 and the pairing is non-degenerate). Only the theorems that mention a trapdoor assume it. -/
def Ext.Bilinear (X : Ext) : Prop :=
  ∃ (GT : Type) (_ : AddCommGroup GT) (e0 e1 : G1 →+ GT), Nat.card GT = rMod ∧ Function.Injective e1 ∧
    ∀ P Q : G1, P ≠ 0 → Q ≠ 0 → (X.pairing [enc P, enc Q] [g20, g21] = true ↔ e0 P + e1 Q = 0)

/-- The trapdoor form of the pairing equation. -/
theorem Ext.Bilinear.trapdoor {X : Ext} (h : X.Bilinear) : ∃ t : Fr, ∀ P Q : G1, P ≠ 0 → Q ≠ 0 →
    (X.pairing [enc P, enc Q] [g20, g21] = true ↔ Q = t • P) := by
  obtain ⟨GT, _, e0, e1, hc, hinj, hp⟩ := h
  have hfin : Finite GT := Nat.finite_of_card_ne_zero (by rw [hc]; exact rMod_pos.ne')
  have hbij : Function.Bijective e1 := by
    rw [Nat.bijective_iff_injective_and_card]
    exact ⟨hinj, by rw [hc, card_G1]⟩
  obtain ⟨Z, hZ⟩ := hbij.2 (-(e0 G1gen))
  obtain ⟨t, rfl⟩ := exists_smul_gen Z
  refine ⟨t, fun P Q hP hQ => ?_⟩
  rw [hp P Q hP hQ]
  obtain ⟨k, rfl⟩ := exists_smul_gen P
  have h1 : e0 (k • G1gen) = - e1 (t • k • G1gen) := by
    rw [smul_comm t k, fr_smul_eq k, fr_smul_eq k, map_nsmul, map_nsmul, hZ, smul_neg, neg_neg]
  rw [h1]
  constructor
  · intro h2
    exact hinj (neg_add_eq_zero.1 h2).symm
  · rintro rfl
    simp

open Classical in
/-- An external environment meeting the contract: scalar multiplication computed in the group on valid encodings.
The two hash functions are length-32 stand-ins. -/
noncomputable def idealExt (t : Fr) (h : List UInt8 → List UInt8) : Ext where
  sha256 m := ((h m).take 32).rightpad 32 0
  keccak m := ((h m).take 32).rightpad 32 0
  scalarMul c s := if ValidEnc c ∧ c ≠ (0, 0) ∧ s ≠ 0 then some (enc (s • dec c)) else none
  addUnified c d := if ValidEnc c ∧ ValidEnc d then some (enc (dec c + dec d)) else none
  msm cs ss := some (enc (List.zipWith (fun s c => s • dec c) ss cs).sum)
  pairing cs _ := match cs with
    | [c, d] => decide (dec d = t • dec c)
    | _ => false
  ecdsa i := decide (i.r = i.msg % 7)

theorem idealExt_strict (t : Fr) (h : List UInt8 → List UInt8) : (idealExt t h).Strict where
  sha_len m := by simp [idealExt]
  keccak_len m := by simp [idealExt]
  scalarMul P s hP hs := by
    have h0 : enc P ≠ (0, 0) := fun h0 => hP (enc_injective (h0.trans enc_zero.symm))
    simp only [idealExt, dec_enc]
    rw [if_pos ⟨validEnc_enc P, h0, hs⟩]
  addUnified P Q := by
    simp only [idealExt, dec_enc]
    rw [if_pos ⟨validEnc_enc P, validEnc_enc Q⟩]
  msm Ps ss _ _ := by
    simp only [idealExt, List.zipWith_map_right, dec_enc]
  scalarMul_deg P s R hR := by
    simp only [idealExt, dec_enc] at hR
    split at hR
    · exact (Option.some.inj hR).symm
    · cases hR

theorem idealExt_bilinear (t : Fr) (h : List UInt8 → List UInt8) : (idealExt t h).Bilinear := by
  refine ⟨G1, inferInstance, DistribMulAction.toAddMonoidHom G1 (-t), AddMonoidHom.id G1, card_G1,
    fun _ _ h => h, fun P Q _ _ => ?_⟩
  simp only [idealExt, dec_enc, decide_eq_true_eq, DistribMulAction.toAddMonoidHom_apply, AddMonoidHom.id_apply]
  rw [neg_smul, neg_add_eq_zero, eq_comm]

end Verif
