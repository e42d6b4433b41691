/-
The model against the Go text, continued: the arithmetic of /repo/fr.go, the curve helpers and
gadget calls, the range checks, `SqueezeChallenge` and `AggregatorCircuit.Define` are what the files of /repo say. As in Verif/Props/Source these
are statements about the model, not properties of the program.
-/
import Verif.Model.DefineText
import Verif.Model.CalcText
import Verif.Model.SqueezeText
import Verif.Props.Source

namespace Verif

open Go

section
set_option maxRecDepth 1000000

/-- The text of `fr_mul` takes two values, and its run is the definition. -/
theorem source_fr_mul : ∃ l, frFun "fr_mul".toList goFr.toList = some (2, l) ∧ ∀ a b, runFr l [.one a, .one b] = fr_mul a b := by
  rw [toList_lit (s := goFr) _ (by unfold goFr; rfl)]
  exact ⟨[.decl (.op .mul (.var 0) (.var 1)), .ret (.mod (.var 2))], by decide +kernel, fun a b => by
    simp [runFr, FrExpr.eval, FrVal.get, fr_mul]⟩

/-- The text of `fr_add`. -/
theorem source_fr_add : ∃ l, frFun "fr_add".toList goFr.toList = some (2, l) ∧ ∀ a b, runFr l [.one a, .one b] = fr_add a b := by
  rw [toList_lit (s := goFr) _ (by unfold goFr; rfl)]
  exact ⟨[.decl (.op .add (.var 0) (.var 1)), .ret (.mod (.var 2))], by decide +kernel, fun a b => by
    simp [runFr, FrExpr.eval, FrVal.get, fr_add]⟩

/-- The text of `fr_sub`. -/
theorem source_fr_sub : ∃ l, frFun "fr_sub".toList goFr.toList = some (2, l) ∧ ∀ a b, runFr l [.one a, .one b] = fr_sub a b := by
  rw [toList_lit (s := goFr) _ (by unfold goFr; rfl)]
  exact ⟨[.decl (.op .sub (.var 0) (.var 1)), .ret (.mod (.var 2))], by decide +kernel, fun a b => by
    simp [runFr, FrExpr.eval, FrVal.get, fr_sub]⟩

/-- The text of `fr_neg`. -/
theorem source_fr_neg : ∃ l, frFun "fr_neg".toList goFr.toList = some (1, l) ∧ ∀ a, runFr l [.one a] = fr_neg a := by
  rw [toList_lit (s := goFr) _ (by unfold goFr; rfl)]
  exact ⟨[.ret (.op .sub .modulus (.var 0))], by decide +kernel, fun a => by simp [runFr, FrExpr.eval, FrVal.get, fr_neg]⟩

/-- The text of `fr_div`. -/
theorem source_fr_div : ∃ l, frFun "fr_div".toList goFr.toList = some (3, l) ∧
    ∀ a b c, runFr l [.one a, .one b, .one c] = fr_div a b c := by
  rw [toList_lit (s := goFr) _ (by unfold goFr; rfl)]
  exact ⟨[.decl (.op .frMul (.var 1) (.var 2)), .assertEq (.var 3) (.var 0), .ret (.mod (.var 2))], by decide +kernel, fun a b c => by
    simp [runFr, FrExpr.eval, FrVal.get, fr_div]⟩

/-- The text of `mod`. -/
theorem source_mod : ∃ l, frFun "mod".toList goFr.toList = some (1, l) ∧ ∀ a, runFr l [.one a] = mod a := by
  rw [toList_lit (s := goFr) _ (by unfold goFr; rfl)]
  refine ⟨[.hint 2 (.var 0), .assertEq (.op .add (.at 1 1) (.op .mul (.at 1 0) .modulus)) (.var 0), .ret (.at 1 1)], by decide +kernel, fun a => ?_⟩
  simp only [runFr, FrExpr.eval, FrVal.get, mod, List.getElem?_cons_zero, List.cons_append, List.nil_append, List.getElem?_cons_succ, pure_bind, bind_assoc]
  refine bind_congr fun rs => ?_
  cases h : rs[1]? with
  | none => simp only [idx, h]; rfl
  | some v => simp only [idx, h, pure_bind]
end

section
set_option maxRecDepth 1000000

/-- The text of `ecc_mul`; its run is the definition, whatever `res` and `err` are at the start. -/
theorem source_ecc_mul : ∃ l, eccFun "ecc_mul".toList "input".toList kOffset goFr.toList = some l ∧
    ∀ X B o r e, runEcc X o l ⟨B, r, e⟩ = ecc_mul X B o := by
  rw [toList_lit (s := goFr) _ (by unfold goFr; rfl)]
  refine ⟨[.msm (.entry (.off 0)) (.entry (.off 1)) (.entry (.off 2)), .ifErr, .put0 (.off 0), .put1 (.off 1), .retNil],
    by decide +kernel, fun X B o r e => ?_⟩
  simp only [runEcc, EccArg.eval, EccIdx.val, ecc_mul, Nat.add_zero]
  refine bind_congr fun _ => bind_congr fun _ => bind_congr fun _ => bind_congr fun ⟨_, e⟩ => ?_
  cases e <;> rfl

/-- The text of `ecc_mul_add`. -/
theorem source_ecc_mul_add : ∃ l, eccFun "ecc_mul_add".toList "buf".toList kOffset goFr.toList = some l ∧
    ∀ X B o r e, runEcc X o l ⟨B, r, e⟩ = ecc_mul_add X B o := by
  rw [toList_lit (s := goFr) _ (by unfold goFr; rfl)]
  refine ⟨[.mul (.off 2), .ifErr, .add (.entry (.off 0)) (.entry (.off 1)) (.entry (.off 2)) (.entry (.off 3)), .put0 (.off 0), .put1 (.off 1),
    .retNil], by decide +kernel, fun X B o r e => ?_⟩
  simp only [runEcc, EccArg.eval, EccIdx.val, ecc_mul_add, Nat.add_zero]
  refine bind_congr fun ⟨e, _⟩ => ?_
  cases e <;> rfl

/-- The text of `CalcVerifyCircuitLagrange`. -/
theorem source_lagrange : ∃ l, eccFun "CalcVerifyCircuitLagrange".toList "buf".toList [] goLib.toList = some l ∧
    ∀ X B o r e, runEcc X o l ⟨B, r, e⟩ = CalcVerifyCircuitLagrange X B := by
  rw [toList_lit (s := goLib) _ (by unfold goLib; rfl)]
  refine ⟨[.msm (.const lagrangeX) (.const lagrangeY) (.entry (.lit 2)), .put0 (.lit 0), .put1 (.lit 1), .retErr],
    by decide +kernel, fun X B o r e => ?_⟩
  simp only [runEcc, EccArg.eval, EccIdx.val, CalcVerifyCircuitLagrange, pure_bind]
end

section
set_option maxRecDepth 1000000 in
/-- The text of `AggregatorCircuit.Define` is the program `defineProg`. -/
theorem source_define : Go.define goCircuit.toList = some defineProg := by
  rw [toList_lit (s := goCircuit) _ (by unfold goCircuit; rfl)]
  decide +kernel

/-- The copying loop over an index is the recursion over the list. -/
theorem copyLoop_eq (f : List Var) : ∀ (k i : ℕ) (buf : List Var) (n : ℕ), i + k = f.length →
    copyLoop f k i buf n = (do let b ← copyInst buf n (f.drop i); pure (b, n + k))
  | 0, i, buf, n, h => by
    rw [List.drop_of_length_le (by omega)]; simp [copyLoop, copyInst]
  | k + 1, i, buf, n, h => by
    have hi : i < f.length := by omega
    rw [List.drop_eq_getElem_cons hi]
    have h1 : (idx f i : Circ Var) = pure f[i] := by simp [idx, List.getElem?_eq_getElem hi]
    simp only [copyLoop, copyInst, h1, pure_bind, bind_assoc]
    refine bind_congr fun b => ?_
    rw [copyLoop_eq f k (i + 1) b (n + 1) (by omega), Nat.add_right_comm, Nat.add_assoc n k 1]

/-- The initial loop sets all entries. -/
theorem fillLoop_eq : fillLoop (.big 0) 43 0 (List.replicate 43 .nil) = pure (List.replicate 43 (.big 0)) := by
  rfl

/-- Running the text is the definition, whatever the local variables are at the start. -/
theorem run_define (X : Ext) (c : AggregatorCircuit) (st : DefState) : runDef X c defineProg st = c.Define X := by
  have hf : ((0 : ℕ) : ℤ) = 0 := rfl
  simp only [defineProg, runDef, hf, fillLoop_eq, pure_bind, AggregatorCircuit.Define, Inst.get,
    copyLoop_eq _ _ 0 _ _ (Nat.zero_add _), bind_assoc, List.drop_zero, Nat.zero_add]
  refine bind_congr fun b => bind_congr fun b => bind_congr fun ⟨h, e⟩ => ?_
  cases e <;> dsimp only
  refine bind_congr fun hm => bind_congr fun b => bind_congr fun ⟨e, b⟩ => ?_
  cases e <;> dsimp only
  simp only [verifyFrom]
  refine bind_congr fun ⟨e, b⟩ => ?_
  cases e <;> dsimp only
  refine bind_congr fun ⟨b, e⟩ => ?_
  cases e <;> dsimp only
  refine bind_congr fun ⟨b, e⟩ => ?_
  cases e <;> dsimp only
  refine bind_congr fun ⟨b, e⟩ => ?_
  cases e <;> dsimp only
  simp only [finalCheck]
  cases h0 : b[10]? with
  | none => simp only [idx, h0]; rfl
  | some v0 =>
  simp only [idx, h0, pure_bind]
  refine bind_congr fun e => ?_
  cases e with
  | some m => rfl
  | none =>
  cases h1 : b[11]? with
  | none => rfl
  | some v1 =>
  simp only [pure_bind]
  refine bind_congr fun e => ?_
  cases e with
  | some m => rfl
  | none =>
  cases h2 : b[12]? with
  | none => rfl
  | some v2 =>
  simp only [pure_bind]
  refine bind_congr fun e => ?_
  cases e with
  | some m => rfl
  | none =>
  cases h3 : b[13]? with
  | none => rfl
  | some v3 =>
  simp only [pure_bind]
  refine bind_congr fun e => ?_
  cases e with
  | some m => rfl
  | none =>
  refine bind_congr fun p => bind_congr fun q => ?_
  simp
end

section
set_option maxRecDepth 1000000

/-- The text of `fr_mul_neg`. -/
theorem source_fr_mul_neg : ∃ l, frFun "fr_mul_neg".toList goFr.toList = some (2, l) ∧
    ∀ a b, runFr l [.one a, .one b] = fr_mul_neg a b := by
  rw [toList_lit (s := goFr) _ (by unfold goFr; rfl)]
  exact ⟨[.decl (.op .frMul (.var 0) (.var 1)), .ret (.bigNeg (.var 2))], by decide +kernel, fun a b => by
    simp [runFr, FrExpr.eval, FrVal.get, fr_mul_neg]⟩

/-- The two transcriptions of the loop of `fr_pow` agree. -/
theorem powRun_eq (a : Var) (p i : ℤ) (x : Var) : powRun a p i x = frPowLoop a p i x := by
  rw [powRun, frPowLoop]
  split
  · exact bind_congr fun y => powRun_eq a p (i + 1) y
  · rfl
termination_by (p - i).toNat
decreasing_by omega

/-- The text of `fr_pow`. -/
theorem source_fr_pow : ∃ l, frFun "fr_pow".toList goFr.toList = some (2, l) ∧
    ∀ a b, runFr l [.one a, .one b] = fr_pow a b := by
  rw [toList_lit (s := goFr) _ (by unfold goFr; rfl)]
  exact ⟨[.decl (.var 0), .powLoop 1 2 0, .ret (.mod (.var 2))], by decide +kernel, fun a b => by
    simp [runFr, FrExpr.eval, FrVal.get, fr_pow, powRun_eq]⟩

/-- The text of `CalcVerifyBN256Msm`: three values, and its run is the definition. -/
theorem source_msm : ∃ l, calcFun "CalcVerifyBN256Msm".toList cTwo goLib.toList = some (3, l) ∧
    ∀ X x y k, runCalc X l [.one x, .one y, .one k] none = (do
      let (p, err) ← CalcVerifyBN256Msm X x y k
      pure ([p.1, p.2], err)) := by
  rw [toList_lit (s := goLib) _ (by unfold goLib; rfl)]
  refine ⟨[.hint .msmHint 2 [.var 0, .var 1, .var 2], .panicErr, .mods (.at 3 0) (.at 3 1),
    .scalarMul (.var 0, .var 1) (.var 2) (.var 4, .var 5), .retPair (.var 4, .var 5)], by decide +kernel, fun X x y k => ?_⟩
  simp [runCalc, CalcArg.eval, FrVal.get, evalPair, CalcVerifyBN256Msm]

/-- The text of `CalcVerifyBN256Add`. -/
theorem source_add : ∃ l, calcFun "CalcVerifyBN256Add".toList cTwo goLib.toList = some (4, l) ∧
    ∀ X x₁ y₁ x₂ y₂, runCalc X l [.one x₁, .one y₁, .one x₂, .one y₂] none = (do
      let (p, err) ← CalcVerifyBN256Add X x₁ y₁ x₂ y₂
      pure ([p.1, p.2], err)) := by
  rw [toList_lit (s := goLib) _ (by unfold goLib; rfl)]
  refine ⟨[.hint .addHint 2 [.var 0, .var 1, .var 2, .var 3], .mods (.at 4 0) (.at 4 1),
    .add (.var 0, .var 1) (.var 2, .var 3) (.var 5, .var 6), .retPair (.var 5, .var 6)], by decide +kernel, fun X x₁ y₁ x₂ y₂ => ?_⟩
  simp [runCalc, CalcArg.eval, FrVal.get, evalPair, CalcVerifyBN256Add]

/-- The text of `VerifyNotZero`. -/
theorem source_not_zero : ∃ l, calcFun "VerifyNotZero".toList cErr goLib.toList = some (1, l) ∧
    ∀ X x, runCalc X l [.one x] none = (do let err ← VerifyNotZero x; pure ([], err)) := by
  rw [toList_lit (s := goLib) _ (by unfold goLib; rfl)]
  refine ⟨[.le (.int 1) (.var 0), .retNil], by decide +kernel, fun X x => ?_⟩
  simp [runCalc, CalcArg.eval, FrVal.get, VerifyNotZero]

/-- The text of `VerifyRangeCheck`. -/
theorem source_range_check : ∃ l, calcFun "VerifyRangeCheck".toList cErr goLib.toList = some (3, l) ∧
    ∀ X x min max, runCalc X l [.one x, .one min, .one max] none = (do let err ← VerifyRangeCheck x min max; pure ([], err)) := by
  rw [toList_lit (s := goLib) _ (by unfold goLib; rfl)]
  refine ⟨[.le (.var 1) (.var 0), .le (.var 0) (.var 2), .retNil], by decide +kernel, fun X x min max => ?_⟩
  simp [runCalc, CalcArg.eval, FrVal.get, VerifyRangeCheck]
end

section
set_option maxRecDepth 1000000 in
/-- The text of `SqueezeChallenge` is the program `squeezeProg`. -/
theorem source_squeeze : Go.squeeze goLib.toList = some squeezeProg := by
  rw [toList_lit (s := goLib) _ (by unfold goLib; rfl)]
  decide +kernel

/-- The appending loop computes the bytes to absorb. -/
theorem sqLoop_eq (a : List Var) : ∀ (n i : ℕ) (bs : List UInt8),
    sqLoop a n i bs = (do let r ← absorbBytes a n i; pure (bs ++ r))
  | 0, i, bs => by simp [sqLoop, absorbBytes]
  | n + 1, i, bs => by
    simp only [sqLoop, absorbBytes, bind_assoc]
    refine bind_congr fun v => bind_congr fun x => ?_
    cases fillBytes32 x with
    | none => rfl
    | some b => simp [sqLoop_eq a n, List.append_assoc]

/-- Running the text is the definition, whatever the local variables are at the start. -/
theorem run_squeeze (X : Ext) (length : ℕ) (st : SqState) : runSq X length squeezeProg st = SqueezeChallenge X st.absorbing length := by
  simp only [squeezeProg, runSq, SqueezeChallenge, sqLoop_eq, Nat.sub_zero, bind_assoc, pure_bind, List.nil_append]
  refine bind_congr fun a => bind_congr fun b => bind_congr fun e => ?_
  cases e <;> rfl
end

end Verif
