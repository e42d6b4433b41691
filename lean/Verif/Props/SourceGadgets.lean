/-
The model against the Go text, continued: the two curve gadgets of /repo/msm.go and the `Define` of /repo/kyc.go are what
the files of /repo say. As in Verif/Props/Source these are statements about the model, not properties of the program.
-/
import Verif.Model.KycText
import Verif.Props.Source

namespace Verif

open Go

section
set_option maxRecDepth 1000000

/-- The text of `VerifyBN254ScalarMul`: a pair, a value and a pair, and its run is the definition. -/
theorem source_scalar_mul : ∃ l, gadgetFun "VerifyBN254ScalarMul".toList goMsm.toList = some ([true, false, true], l) ∧
    ∀ X p k e, runGadget X [.two p, .one k, .two e] l [] = VerifyBN254ScalarMul X p k e := by
  rw [toList_lit (s := goMsm) _ (by unfold goMsm; rfl)]
  refine ⟨[.curve, .conv (.at 0 0), .conv (.at 0 1), .point 0 1, .conv (.var 1), .scalar 3, .mul 2 4, .conv (.at 2 0), .conv (.at 2 1), .point 6 7,
    .assertEq 5 8, .retNil], by decide +kernel, fun X p k e => ?_⟩
  simp only [runGadget, GArg.eval, List.getElem?_cons_zero, List.getElem?_cons_succ, List.nil_append, List.cons_append, VerifyBN254ScalarMul]
  cases setInterface p.1 <;> dsimp only
  cases setInterface p.2 <;> dsimp only
  cases setInterface k <;> dsimp only
  refine bind_congr fun _ => ?_
  cases setInterface e.1 <;> dsimp only
  cases setInterface e.2 <;> rfl

/-- The text of `VerifyBN254Add`. -/
theorem source_add_unified : ∃ l, gadgetFun "VerifyBN254Add".toList goMsm.toList = some ([true, true, true], l) ∧
    ∀ X p q e, runGadget X [.two p, .two q, .two e] l [] = VerifyBN254Add X p q e := by
  rw [toList_lit (s := goMsm) _ (by unfold goMsm; rfl)]
  refine ⟨[.curve, .conv (.at 0 0), .conv (.at 0 1), .point 0 1, .conv (.at 1 0), .conv (.at 1 1), .point 3 4, .add 2 5, .conv (.at 2 0),
    .conv (.at 2 1), .point 7 8, .assertEq 6 9, .retNil], by decide +kernel, fun X p q e => ?_⟩
  simp only [runGadget, GArg.eval, List.getElem?_cons_zero, List.getElem?_cons_succ, List.nil_append, List.cons_append, VerifyBN254Add]
  cases setInterface p.1 <;> dsimp only
  cases setInterface p.2 <;> dsimp only
  cases setInterface q.1 <;> dsimp only
  cases setInterface q.2 <;> dsimp only
  refine bind_congr fun _ => ?_
  cases setInterface e.1 <;> dsimp only
  cases setInterface e.2 <;> rfl
end

section
set_option maxRecDepth 1000000 in
/-- The text of the `Define` of kyc.go is the program `kycProg`. -/
theorem source_kyc_define : Go.kycDefine goKyc.toList = some kycProg := by
  rw [toList_lit (s := goKyc) _ (by unfold goKyc; rfl)]
  decide +kernel

/-- The loop over the countries. -/
theorem kycLoop_eq (c : KycCircuit) : ∀ (vs : List Var) (st : KState),
    kycLoop c .country .elem .isInList .hit vs st = (do
      let r ← countryLoop c.kyc.country vs st.isInList
      pure { st with isInList := r, elem := .nil, hit := .nil })
  | [], st => by simp [kycLoop, countryLoop]
  | v :: vs, st => by
    simp only [kycLoop, countryLoop, KArg.eval, pure_bind, bind_assoc]
    refine bind_congr fun z => bind_congr fun m => bind_congr fun r => ?_
    rw [kycLoop_eq c vs]

/-- Running the text is the definition. -/
theorem run_kyc (X : Ext) (c : KycCircuit) (st : KState) (h : st.consts = []) : runKyc X c kycProg st = c.Define X := by
  simp only [kycProg, runKyc, h, List.nil_append, List.cons_append, List.getElem?_cons_zero, List.getElem?_cons_succ, KArg.eval, pure_bind,
    kycLoop_eq, bind_assoc, KycCircuit.Define]
  refine bind_congr fun _ => bind_congr fun e => ?_
  cases e <;> rfl
end

end Verif
