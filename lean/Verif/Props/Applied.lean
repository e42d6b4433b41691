/-
Further concrete cases, one for each theorem named in the comment.
-/
import Verif.Props.Cases
import Verif.Props.FieldValues
import Verif.Props.CurveValues
import Verif.Props.Digest
import Verif.Props.FrString
import Verif.Props.InstanceLists

namespace Verif

/-- C15_msm_strict: 2·(1,2), accepted, for an `int` scalar as well as a `*big.Int`. -/
example {res : Var × Var} (h : (CalcVerifyBN256Msm exX (.big 1) (.big 2) (.int 2)).Accepts (honestTest exX true) .init (res, none)) :
    ∃ n m : ℤ, res = (.big n, .big m) ∧ 0 ≤ n ∧ n < rMod ∧ 0 ≤ m ∧ m < rMod ∧ enc ((2 % (pMod : ℤ)) • G1gen) = ((n : Fp), (m : Fp)) :=
  C15_msm_strict exX_strict (.big 1) (.big 2) (.int 2) (by simp [G1gen]) h

/-- C19_ecc_mul_propagates: in a compiled circuit the multiplication always returns an error, and `ecc_mul` returns it, its buffer
unchanged. -/
example : ∃ m s', ecc_mul exX [.big 7, .big 1, .big 2, .big 2] 1 (exLie .compile 7) .init =
    .ok ((some m, [.big 7, .big 1, .big 2, .big 2]), s') :=
  ⟨_, _, C19_ecc_mul_propagates exX rfl rfl rfl rfl⟩

/-- C20_msm_nth: scalar 1: the second call checks the same product. -/
example (E : Engine) (s : St) : ∃ c', defineMsm ⟨G1gen, 1, enc G1gen⟩ 0 E s = .ok (c', s) ∧ ∃ r, c'.Define E s = .ok r := by
  refine ⟨_, rfl, (C20_msm_nth (c := ⟨G1gen, 1, enc G1gen⟩) (n := 0) rfl).2 ?_⟩
  have z : (1 : Fr) ^ (0 + 1) • G1gen = G1gen := by rw [one_pow, one_smul]
  exact z.symm ▸ ⟨rfl, rfl⟩

/-- C22_notZero_int, C22_range_int: r is not zero for an engine that keeps big integers, and is for one that reduces; 18 is between 18
and 65, whatever the kinds of the three. -/
example : (VerifyNotZero (.big rMod)).Accepted exTest .init ∧ ¬ (VerifyNotZero (.big rMod)).Accepted exComp .init ∧
    (VerifyRangeCheck (.wire 18) (.int 18) (.big 65)).Accepted exTest .init := by
  refine ⟨(C22_notZero_int (n := rMod) rfl rfl).2 (by decide +kernel), fun h => ?_,
    (C22_range_int (n := 18) (a := 18) (b := 65) (by decide +kernel) rfl rfl rfl).2 (by norm_num)⟩
  have h1 := (C22_notZero_int (n := 0) (by decide +kernel) rfl).1 h
  omega

/-- C24_residues: the instances -1 and p + 5, with the repo's hint: the bytes of p - 1 and of 5 are hashed. -/
example : ∃ v, (VerifyInstanceHash exX [.big (-1), .big (pMod + 5)]).Accepts (honestTest exX true) .init (v, none) ∧
    v.fr = (beNat (exX.keccak ([(-1 : ℤ), (pMod : ℤ) + 5].flatMap fun x : ℤ => beBytes (x : Fp).val 32)) : Fr) := by
  obtain ⟨v, h, e, -⟩ := C24_residues (E := honestTest exX true) exX_strict.toLawful (fun _ _ _ => rfl)
    (vs := [.big (-1), .big (pMod + 5)]) (xs := [-1, pMod + 5]) (.cons rfl (.cons rfl .nil)) (s := .init) rfl
  exact ⟨v, h, e⟩

/-- C36_unique_list: the shipped aux values. -/
example : (∀ v ∈ shippedCircuit.Aux, ∃ z : ℤ, v = .big z ∧ 0 ≤ z ∧ z < rMod) ∧ 21 ≤ shippedCircuit.Aux.length := by
  have h : ∀ m ∈ shippedAux, m < rMod := by decide +kernel
  refine ⟨fun v hv => ?_, by decide +kernel⟩
  obtain ⟨m, hm, rfl⟩ := List.mem_map.1 (show v ∈ shippedAux.map (fun m : ℕ => Var.big (m : ℤ)) from hv)
  exact ⟨m, rfl, by positivity, by exact_mod_cast h m hm⟩

/-- C37_reads: the shipped values, with more after them. -/
example (v w : Var) : VerifyProof1 realExt (shippedCircuit.Proof ++ [v]) (shippedCircuit.Aux ++ [w]) =
    VerifyProof1 realExt shippedCircuit.Proof shippedCircuit.Aux :=
  (C37_reads realExt (by rw [List.take_append_of_le_length (by decide +kernel)])
    (by rw [List.take_append_of_le_length (by decide +kernel)])).1

/-- C40_used: the accepted run of the shipped circuit. -/
example : ∃ s', shippedCircuit.Define realExt (honestTest realExt true) .init = .ok (none, s') ∧
    ∀ f ∈ s'.hints, f = .modHint ∨ f ∈ registeredHints := by
  obtain ⟨s', h, -⟩ := shipped_accepted
  exact ⟨s', h, C40_used _ _ _ _ _ h⟩

/-- C41_pairing, C41_check: e((1,2), ·)·e(5·(1,2), ·) with trapdoor 5, and one point only. -/
example (E : Engine) : (BN256PairingCircuit.Define exX ⟨[enc G1gen, enc ((5 : Fr) • G1gen)], [g20, g21]⟩).Accepted E .init ∧
    ¬ (VerifyBN256Pairing exX [enc G1gen] [g20]).Accepted E .init := by
  refine ⟨(C41_pairing exX _ _ _ _ E rfl).2 (by simp only [exX, idealExt, dec_enc, decide_eq_true_eq]), fun h => ?_⟩
  have h1 := ((C41_check exX _ _ E rfl).1 h).2.2
  cases h1

/-- C43_all: the accepted witness `exKyc` (wires), attributes replaced by Go integers. -/
example : (({ exKyc with kyc := ⟨.int 64, .int 3, .nil, .nil⟩,
                         conditionHash := { exKyc.conditionHash with level := [], time := [] } } : KycCircuit).Define exX).Accepted
    exComp .init :=
  C43_all exX rfl exKyc_accepted (age := .int 64) (country := .int 3) .nil .nil [] [] (n := 64) (a := 18) (b := 65) (by decide +kernel)
    (by decide +kernel) (by decide +kernel) (by norm_num) (by norm_num) (by norm_num) (by simp) ⟨.wire 3, by simp [exKyc], by decide +kernel⟩

/-- C67_bad: a hexadecimal text as an operand. -/
example (E : Engine) (s : St) : ∃ p, fr_mul (.big 2) (frFromString "0x10") E s = .error p :=
  (C67_bad (str := "0x10") (fun z hz => by
    rw [← setString10_iff, show setString10 "0x10".toList = none by decide +kernel] at hz
    cases hz) (.big 2) E s).2.2.1

/-- C68_message: -1 and p - 1 are hashed alike, 1 and r + 1 are not. -/
example : (([-1].flatMap fun z : ℤ => beBytes (z : Fp).val 32) = [(pMod : ℤ) - 1].flatMap fun z : ℤ => beBytes (z : Fp).val 32) ∧
    ([1].flatMap fun z : ℤ => beBytes (z : Fp).val 32) ≠ [(rMod : ℤ) + 1].flatMap fun z : ℤ => beBytes (z : Fp).val 32 := by
  refine ⟨(C68_message _ _).2 (.cons (by decide +kernel) .nil), fun h => ?_⟩
  cases (C68_message _ _).1 h with
  | cons h _ => revert h; decide +kernel

end Verif
