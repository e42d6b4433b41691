/-
Concrete cases of theorems of the other files in this directory: each theorem named in a comment is applied to data that meet its
hypotheses.
-/
import Verif.Props.Instances
import Verif.Props.Standalone
import Verif.Props.HintCalls
import Verif.Props.G2
import Verif.Props.Kyc
import Verif.Props.Hints

namespace Verif

theorem enc_gen : enc G1gen = (((1 : ℤ) : Fp), ((2 : ℤ) : Fp)) := by
  rw [G1gen, enc_mkPt]
  rfl

/-! ### Field operations -/

/-- C01_mod_value: the value of a satisfied reduction, with a hint that answers 5 for the quotient. -/
example : ∃ v, (mod (.wire 7)).Accepts (exLie .compile 7) .init v ∧ v.fr = 7 := by
  obtain ⟨v, h⟩ := (C01_mod_accepts_iff (E := exLie .compile 7) (a := .wire 7) trivial (s := .init) rfl 5 7 (fun _ => rfl)).2 (by decide +kernel)
  exact ⟨v, h, C01_mod_value h⟩

/-- C01_mod_noncanonical: the integer r + 1 in the test engine that keeps big integers. -/
example (s : St) (v : Var) : ¬ (mod (.big (rMod + 1))).Accepts exTest s v :=
  C01_mod_noncanonical rfl rfl _ (by decide +kernel) s v

/-- C04_sound, C04_quotient, C05_unique_partial: 6/2 with aux value 3. -/
example : ∃ v, (fr_div (.big 6) (.big 2) (.big 3)).Accepts exTest .init v ∧ v.fr = 3 ∧
    v.fr = (Var.big 6).fr / (Var.big 2).fr ∧ (Var.big 2).fr * (Var.big 3).fr = (Var.big 6).fr ∧
    ∀ (E : Engine) (s : St) (aux v' : Var), (fr_div (.big 6) (.big 2) aux).Accepts E s v' → v.fr = v'.fr := by
  have hb : (Var.big 2).fr ≠ 0 := by decide +kernel
  obtain ⟨v, h⟩ := (C04_accepts_iff exTest_honest (a := .big 6) (b := .big 2) (aux := .big 3) ⟨by norm_num, by decide +kernel⟩ trivial
    ⟨by norm_num, by decide +kernel⟩ (s := .init) rfl).2 (by decide +kernel)
  exact ⟨v, h, (C04_sound h).2.trans (by decide +kernel), C04_quotient h hb, (C04_sound h).1,
    fun E s aux v' h' => C05_unique_partial hb h h'⟩

/-- C04_div_zero: 6/0. -/
example (E : Engine) (s : St) (aux v : Var) : ¬ (fr_div (.big 6) (.big 0) aux).Accepts E s v :=
  C04_div_zero (by decide +kernel) (by decide +kernel)

/-- C06_panics: an exponent that is an int. -/
example (E : Engine) (s : St) : ∃ p, fr_pow (.big 2) (.int 3) E s = .error p := C06_panics (fun n h => by cases h) s

/-- C07_compile_panics. -/
example (s : St) : ∃ p, fr_mul_neg (.wire 2) (.wire 3) exComp s = .error p := C07_compile_panics rfl _ _ s

/-- C08_bytes, C08_injective: the bytes 1, 2. -/
example (E : Engine) (s : St) : ∃ v, PackUInt8Variables [.big 1, .big 2] E s = .ok (v, s) ∧ v.fr = 258 ∧
    ∀ (l : List UInt8) (v' : Var) (s' t' : St), l.length = 2 → PackUInt8Variables (l.map fun b => .big b.toNat) E s' = .ok (v', t') →
      v'.fr = 258 → l = [1, 2] := by
  obtain ⟨v, h1, h2⟩ := C08_bytes (E := E) [1, 2] (by decide) s
  have h3 : v.fr = 258 := h2.trans (by decide +kernel)
  exact ⟨v, h1, h3, fun l v' s' t' hl h hv =>
    C08_injective (by rintro rfl; cases hl) hl (by omega) h h1 (hv.trans h3.symm)⟩

/-! ### Curve functions -/

/-- C12_wire_panics, C51_check_wire: a circuit variable as coordinate. -/
example (E : Engine) (s : St) : (∃ p, VerifyCheckOnCurve (.wire 1) (.big 2) E s = .error p) ∧
    ∃ p, CheckOnCurveCircuit.Define ⟨.big 1, .wire 2⟩ E s = .error p :=
  ⟨C12_wire_panics (.inl rfl) E s, C51_check_wire (.inr rfl) E s⟩

/-- C13_const_partial: (1, 3) is refused as a constant. -/
example (E : Engine) (s : St) : ∃ m, VerifyCheckOnCurveVar (.big 1) (.int 3) E s = .ok (some m, s) := by
  rw [C13_const_partial (.big 1) (.int 3)]
  exact ⟨_, congrArg (fun e : Option String => (Except.ok (e, s) : Except Panic (Option String × St)))
    (show _ = some _ from if_neg (by decide +kernel))⟩

/-- C18_ecc_mul_range, C18_ecc_mul_add_range: a buffer that is one entry short. -/
example (E : Engine) (s : St) : (∃ p, ecc_mul exX [.big 7, .big 1, .big 2] 1 E s = .error p) ∧
    ∃ p, ecc_mul_add exX [.big 7, .big 1, .big 2, .big 1, .big 2] 1 E s = .error p :=
  ⟨C18_ecc_mul_range _ (by decide) E s, C18_ecc_mul_add_range _ (by decide) E s⟩

/-- C21_identified: the coordinates 5 and 5 + r. -/
example : ((5 : ℕ) : Fp) ≠ ((5 + rMod : ℕ) : Fp) ∧ ((5 : ℕ) : Fp).val % rMod = ((5 + rMod : ℕ) : Fp).val % rMod :=
  C21_identified 5 (by decide +kernel)

/-- C22_empty: no age is in [65, 18]. -/
example (a : ℤ) : ¬ (VerifyRangeCheck (.int a) (.int 65) (.int 18)).Accepted exComp .init :=
  C22_empty (x := .int a) (min := .int 65) (max := .int 18) trivial trivial trivial rfl (by decide +kernel)

/-- C44_length, C44_empty: two points and one scalar; nothing at all. -/
example (E : Engine) (s : St) : (∃ m, VerifyMultiScalarMul exX [enc G1gen, enc G1gen] [3] (0, 0) E s = .ok (some m, s)) ∧
    ∃ p, VerifyMultiScalarMul exX [] [] (0, 0) E s = .error p :=
  ⟨C44_length _ (by decide) _ E s, C44_empty _ _ E s⟩

/-- C47_scalarMul_mod: a scalar that is reduced modulo p first: (p + 1)·G = G. -/
example : (BN254ScalarMulC.Define exX ⟨(.big 1, .big 2), .big (pMod + 1), (.int 1, .int 2)⟩).Accepted exComp .init := by
  refine (C47_scalarMul_mod exX_strict.toLawful (.big 1) (.big 2) (.big _) (.int 1) (.int 2) enc_gen gen_ne_zero (by decide +kernel) rfl).2 ?_
  rw [show ((pMod : ℤ) + 1) % pMod = 1 by decide +kernel, one_smul]
  exact enc_gen

/-- C47_add: G + O = G, and G + O = 2·G is refused. -/
example : (BN254AddC.Define exX ⟨(.big 1, .big 2), (.int 0, .int 0), (.int 1, .int 2)⟩).Accepted exComp .init ∧
    ¬ (BN254AddC.Define exX ⟨(.big 1, .big 2), (.int 0, .int 0), (.int 1, .int 3)⟩).Accepted exComp .init := by
  have h0 : enc (0 : G1) = (((0 : ℤ) : Fp), ((0 : ℤ) : Fp)) := by rw [enc_zero]; rfl
  have h (f : ℤ) := C47_add (E := exComp) (s := .init) exX_strict.toLawful (.big 1) (.big 2) (.int 0) (.int 0) (.int 1) (.int f) enc_gen h0 rfl
  rw [h, h, add_zero, enc_gen]
  exact ⟨rfl, by decide +kernel⟩

/-- C47_scalarMul_wire, C47_add_wire: a circuit variable as scalar, and as coordinate of the second point. -/
example (E : Engine) (s : St) : (∃ m, BN254ScalarMulC.Define exX ⟨(.big 1, .big 2), .wire 3, (.big 1, .big 2)⟩ E s = .ok (some m, s)) ∧
    ∃ m, BN254AddC.Define exX ⟨(.big 1, .big 2), (.wire 1, .big 2), (.big 1, .big 2)⟩ E s = .ok (some m, s) :=
  ⟨(C47_scalarMul_wire exX (.inr (.inr (.inl rfl))) E s).2 (.inr (.inr rfl)),
    (C47_add_wire exX (.inr (.inr (.inl rfl))) E s).2 (.inr (.inr (.inl rfl)))⟩

/-! ### Hints -/

/-- C10_msm_too_big, C10_msm_arity, C10_add_too_big, C10_add_arity. -/
example : MsmHint [2 ^ 256, 2, 3] = .panic ∧ MsmHint [1, 2] = .panic ∧ AddHint [1, 2 ^ 256, 1, 2] = .panic ∧ AddHint [1, 2, 3] = .panic :=
  ⟨C10_msm_too_big (.inl (by norm_num)), C10_msm_arity (by decide), C10_add_too_big (.inr (.inl (by norm_num))), C10_add_arity (by decide)⟩

/-- C10_add_infinity, C10_add_bad_first, C10_add_bad_second, and C10_add: O + G = G. -/
example : AddHint [1, 2, 1, (pMod - 2 : ℕ)] = .ok [0, 1] ∧ AddHint [1, 3, 1, 2] = .err ∧ AddHint [1, 2, 1, 3] = .err ∧
    AddHint [0, 0, 1, 2] = .ok [1, 2] := by
  have g1 : (enc G1gen).1.val = 1 := congrArg Prod.fst encN_gen
  have g2 : (enc G1gen).2.val = 2 := congrArg Prod.snd encN_gen
  have n1 : enc (-G1gen) = (1, -2) := by rw [G1gen, enc_neg_mkPt]
  refine ⟨?_, C10_add_bad_first (by norm_num) (by norm_num) (by decide +kernel),
    C10_add_bad_second (P := G1gen) g1.symm g2.symm (by norm_num) (by norm_num) (by decide +kernel), ?_⟩
  · exact C10_add_infinity (P := G1gen) (Q := -G1gen) g1.symm g2.symm (by rw [n1]; decide +kernel) (by rw [n1]; decide +kernel) (add_neg_cancel _)
  · have h := C10_add (a := 0) (b := 0) (c := 1) (d := 2) (P := 0) (Q := G1gen) (by rw [enc_zero]; rfl) (by rw [enc_zero]; rfl) g1.symm g2.symm
      (by rw [zero_add]; exact gen_ne_zero)
    rw [zero_add, g1, g2] at h
    exact h

/-! ### Pairing, KYC -/

/-- C41_fillG1_panic: (1, 3) is not on the curve. -/
example (c : BN256PairingCircuit) (E : Engine) (s : St) : ∃ p, FillVerifyCircuitsG1 c (.big 1) (.big 2) (.big 1) (.big 3) E s = .error p := by
  refine C41_fillG1_panic c _ _ _ _ E s ?_
  rintro ⟨a, b, -, hb, -, h⟩
  obtain ⟨h1, h2⟩ := constPair_iff.1 hb
  have e : b = (((1 : ℤ) : Fp), ((3 : ℤ) : Fp)) := Prod.ext (Option.some.inj h1).symm (Option.some.inj h2).symm
  rw [e] at h
  revert h
  decide +kernel

/-- C42_empty: no country is allowed. -/
example : ¬ (({ exKyc with conditionHash := { exKyc.conditionHash with country := [] } } : KycCircuit).Define exX).Accepted exComp .init :=
  C42_empty exX (c := { exKyc with conditionHash := { exKyc.conditionHash with country := [] } })
    ⟨trivial, trivial, trivial, trivial, fun v hv => by cases hv⟩ rfl rfl

/-! ### Transcript and whole circuit -/

/-- C24_nil: an instance that is nil. -/
example (E : Engine) (s : St) : ∃ m, VerifyInstanceHash exX [.big 1, .nil] E s = .error m :=
  C24_nil ⟨.nil, by simp, fun h => h⟩ E s

/-- C37_surplus: the shipped circuit with more words. -/
example : (({ shippedCircuit with Proof := shippedCircuit.Proof ++ [.nil], Aux := shippedCircuit.Aux ++ [.wire 3] } :
    AggregatorCircuit).Define realExt).Accepted (honestTest realExt true) .init := by
  rw [C37_surplus realExt shippedCircuit [.nil] [.wire 3] (by decide +kernel) (by decide +kernel)]
  exact shipped_accepted

/-- C38_short: the shipped circuit without its last word is not accepted by any engine. -/
example (E : Engine) (s : St) : ¬ (({ shippedCircuit with Proof := shippedCircuit.Proof.dropLast } : AggregatorCircuit).Define realExt).Accepted E s :=
  fun h => absurd (C38_short realExt h).1 (by decide +kernel)

/-- C39_compile: the shape that main compiles. -/
example : compileResult exX exShape exComp ≠ none := C39_compile _ _ _ rfl

/-- C46_embed. -/
example : (((5 : ℕ) : ℤ) : Fp).val = 5 := C46_embed 5 (by decide +kernel)

/-- C28_encoding: messages of three words. -/
example : fsMessage 5 [1, 2] ≠ fsMessage 5 [1, 3] := fun h =>
  absurd (C28_encoding (by decide) (by norm_num) (by norm_num) (by simp) (by simp) h).2 (by decide)

/-! ### More cases -/

/-- C07_value: 2·3 in the test engine. -/
example : ∃ v, (fr_mul_neg (.big 2) (.big 3)).Accepts exTest .init v ∧ v = .big (rMod - 6) := by
  have h := C07_complete (E := exTest) rfl exTest_honest (a := .big 2) (b := .big 3) (by trivial) (by trivial) (s := .init) rfl
  exact ⟨_, h, (C07_value h).trans (by decide +kernel)⟩

/-- C09_injective: a text that is not the text of (1, 2). -/
example : g1String 1 2 ≠ g1String 2 1 := fun h =>
  absurd (C09_injective (by norm_num) (by norm_num) (by norm_num) (by norm_num) h).1 (by decide)

/-- C20_add_point, C20_add_nth: G + O = G, after one call, and the second call returns too. -/
example (E : Engine) (s : St) : ∃ c', defineAdd ⟨G1gen, 0, enc G1gen⟩ 1 E s = .ok (c', s) ∧ c'.g10Point = G1gen + 1 • 0 ∧
    ∃ r, c'.Define E s = .ok r := by
  have e : EqModR (enc (G1gen + 0)) (enc G1gen) := by rw [add_zero]; exact ⟨rfl, rfl⟩
  have h : defineAdd ⟨G1gen, 0, enc G1gen⟩ 1 E s = .ok (⟨G1gen + 0, 0, enc G1gen⟩, s) := by
    simp only [defineAdd, BN256AddCircuit.Define, Circ.bind_run, Circ.pure_run, (C21_add G1gen 0 _ E s).1 e]
  refine ⟨_, h, (C20_add_point h).1, (C20_add_nth h).2 ?_⟩
  have z : (1 + 1) • (0 : G1) = 0 := nsmul_zero _
  exact z.symm ▸ e

/-- C45_tests: two finite points pass, O does not. -/
example (E : Engine) : (fourTests (.big (enc G1gen).1.val) (.big (enc G1gen).2.val) (.big (enc G1gen).1.val) (.big (enc G1gen).2.val)).Accepted E .init ∧
    ¬ (fourTests (.big (enc G1gen).1.val) (.big (enc G1gen).2.val) (.big (enc (0 : G1)).1.val) (.big (enc (0 : G1)).2.val)).Accepted E .init :=
  ⟨(C45_tests rfl).2 ⟨gen_ne_zero, gen_ne_zero⟩, fun h => ((C45_tests rfl).1 h).2 rfl⟩

/-- C50_compile: in the compiled circuit, on constants. -/
example (s : St) (res : Var × Var) (s' : St) : CalcVerifyBN256Add1 (.big 1) (.big 2) (.big 1) (.big 2) exComp s ≠ .ok ((res, none), s') :=
  (C50_compile (v3 := .big 1) rfl s).2 res s'

/-- C39_false: the shipped circuit in a compiled circuit. -/
example (s s' : St) : shippedCircuit.Define realExt exComp s ≠ .ok (none, s') := C39_false _ _ _ rfl _ _

/-- C37_define_reads: the first 104 words of the shipped proof, with others after them. -/
example : (({ shippedCircuit with Proof := shippedCircuit.Proof.take 104 ++ [.nil, .int 5] } :
    AggregatorCircuit).Define realExt).Accepted (honestTest realExt true) .init := by
  have h := C37_define_reads realExt (c := { shippedCircuit with Proof := shippedCircuit.Proof.take 104 ++ [.nil, .int 5] })
    (c' := shippedCircuit) (by decide +kernel) rfl rfl rfl
  exact h.symm ▸ shipped_accepted

/-- C62_same: the accepted run of the shipped circuit, and the run with a surplus word. -/
example : ∃ t t', shippedCircuit.Define realExt (honestTest realExt true) .init = .ok (none, t) ∧
    ({ shippedCircuit with Proof := shippedCircuit.Proof ++ [.nil], Aux := shippedCircuit.Aux ++ [.nil] } : AggregatorCircuit).Define realExt
      (honestTest realExt true) .init = .ok (none, t') ∧ t.hints = t'.hints := by
  obtain ⟨t, h, -⟩ := shipped_accepted
  have e := C37_surplus realExt shippedCircuit [.nil] [.nil] (by decide +kernel) (by decide +kernel)
  have h' := (congrFun (congrFun e (honestTest realExt true)) .init).trans h
  exact ⟨t, t, h, h', C62_same h h'⟩

end Verif
