/-
The model against the Go text, continued: the functions on points outside the circuit, the `Define` of the small circuits, hash.go and what is left of fr.go and msm.go. As in
Verif/Props/Source these are statements about the model, not properties of the program.
-/
import Verif.Model.PlainText
import Verif.Model.MiscText
import Verif.Props.Source

namespace Verif

open Go

/-- The points that pass `IsOnCurve` are those of the group. -/
theorem affPt_isSome (x y : Fp) : (affPt x y).isSome = isOnCurve x y := by
  unfold affPt isOnCurve
  by_cases h : OnCurve x y
  · have h' := h
    unfold OnCurve at h'
    simp [h, h']
  · have h' := h
    unfold OnCurve at h'
    rw [dif_neg h]
    by_cases h0 : x = 0 ∧ y = 0 <;> simp [h', h0]

set_option maxRecDepth 1000000 in
/-- The text of `VerifyBN256Msm`; its meaning is the definition. -/
theorem source_plain_msm : ∃ p, plainMsm goLib.toList = some p ∧ ∀ g k res, runPlainMsm p g k res = VerifyBN256Msm g k res := by
  rw [toList_lit (s := goLib) _ (by unfold goLib; rfl)]
  refine ⟨⟨0, 0, 1, [((.arg 0, false), (.arg 2, false)), ((.arg 0, true), (.arg 2, true))]⟩, by decide +kernel, fun g k res => ?_⟩
  simp [runPlainMsm, plainAsserts, plainCoord, VerifyBN256Msm]

set_option maxRecDepth 1000000 in
/-- The text of `VerifyBN256Add`; its meaning is the definition. -/
theorem source_plain_add : ∃ p, plainAdd goLib.toList = some p ∧ ∀ g h res, runPlainAdd p g h res = VerifyBN256Add g h res := by
  rw [toList_lit (s := goLib) _ (by unfold goLib; rfl)]
  refine ⟨⟨0, 0, 1, [((.sum, false), (.arg 2, false)), ((.sum, true), (.arg 2, true))]⟩, by decide +kernel, fun g h res => ?_⟩
  simp [runPlainAdd, plainAsserts, plainCoord, VerifyBN256Add]

set_option maxRecDepth 1000000 in
/-- The text of `CalcVerifyBN256Msm1`; its meaning is the definition. -/
theorem source_msm1 : ∃ p, calc1Fun plHeadMsm1 [['x'], ['y'], ['k']] goLib.toList = some p ∧
    ∀ x y k, runCalc1 [x, y, k] p ⟨[], []⟩ = CalcVerifyBN256Msm1 x y k := by
  rw [toList_lit (s := goLib) _ (by unfold goLib; rfl)]
  refine ⟨[.hint .msmHint 2 [0, 1, 2], .panicErr, .point, .set 0 false (.arg 0), .set 0 true (.arg 1), .check 0, .point,
    .set 1 false (.result 0), .set 1 true (.result 1), .retMsm 1 1 0 2 1], by decide +kernel, fun x y k => ?_⟩
  unfold CalcVerifyBN256Msm1
  rw [runCalc1]
  refine bind_congr fun rs => ?_
  simp only [runCalc1, CalcSrc.get, idx, List.getElem?_cons_zero, List.getElem?_cons_succ, pure_bind, List.nil_append]
  refine bind_congr fun gx => bind_congr fun gy => ?_
  have hs := affPt_isSome gx gy
  cases h : affPt gx gy with
  | none =>
    rw [h] at hs
    simp [setCoord, ← hs]
  | some g =>
    rw [h] at hs
    simp [setCoord, ← hs, h]

set_option maxRecDepth 1000000 in
/-- The text of `CalcVerifyBN256Add1`; its meaning is the definition. -/
theorem source_add1 : ∃ p, calc1Fun plHeadAdd1 [['x', '1'], ['y', '1'], ['x', '2'], ['y', '2']] goLib.toList = some p ∧
    ∀ x1 y1 x2 y2, runCalc1 [x1, y1, x2, y2] p ⟨[], []⟩ = CalcVerifyBN256Add1 x1 y1 x2 y2 := by
  rw [toList_lit (s := goLib) _ (by unfold goLib; rfl)]
  refine ⟨[.hint .addHint 2 [0, 1, 2, 3], .point, .set 0 false (.arg 0), .set 0 true (.arg 1), .check 0, .point,
    .set 1 false (.arg 2), .set 1 true (.arg 3), .check 1, .point, .set 2 false (.result 0), .set 2 true (.result 1),
    .retAdd 2 2 0 1 2], by decide +kernel, fun x1 y1 x2 y2 => ?_⟩
  unfold CalcVerifyBN256Add1
  rw [runCalc1]
  refine bind_congr fun rs => ?_
  simp only [runCalc1, CalcSrc.get, idx, List.getElem?_cons_zero, List.getElem?_cons_succ, pure_bind, List.nil_append]
  refine bind_congr fun gx => bind_congr fun gy => ?_
  have hs := affPt_isSome gx gy
  cases h : affPt gx gy with
  | none =>
    rw [h] at hs
    simp [setCoord, ← hs]
  | some g =>
    rw [h] at hs
    simp only [setCoord, List.modify_succ_cons, List.modify_zero_cons, List.getD_cons_zero, ← hs, Option.isSome_some, if_true, Bool.false_eq_true, if_false, List.cons_append, List.nil_append]
    refine bind_congr fun hx => bind_congr fun hy => ?_
    have hs' := affPt_isSome hx hy
    cases h' : affPt hx hy with
    | none =>
      rw [h'] at hs'
      simp [← hs']
    | some g' =>
      rw [h'] at hs'
      simp [← hs', h, h']

set_option maxRecDepth 1000000 in
/-- The text of the `Define` of `BN256MsmCircuit`: the call of the definition. -/
theorem source_define_msm : wrapFun ['c']
    [.sym '*', .id ['B', 'N', '2', '5', '6', 'M', 's', 'm', 'C', 'i', 'r', 'c', 'u', 'i', 't']] goLib.toList =
      some (['V', 'e', 'r', 'i', 'f', 'y', 'B', 'N', '2', '5', '6', 'M', 's', 'm'],
        [['G', '1', 'P', 'o', 'i', 'n', 't'], ['S', 'c', 'a', 'l', 'a', 'r'], ['R', 'e', 's']]) ∧
    ∀ c : BN256MsmCircuit, c.Define = (do
      let (e, g) ← VerifyBN256Msm c.g1Point c.scalar c.res
      pure (e, { c with g1Point := g })) := by
  rw [toList_lit (s := goLib) _ (by unfold goLib; rfl)]
  exact ⟨by decide +kernel, fun _ => rfl⟩

set_option maxRecDepth 1000000 in
/-- The text of the `Define` of `BN256AddCircuit`: the call of the definition. -/
theorem source_define_add : wrapFun ['c']
    [.sym '*', .id ['B', 'N', '2', '5', '6', 'A', 'd', 'd', 'C', 'i', 'r', 'c', 'u', 'i', 't']] goLib.toList =
      some (['V', 'e', 'r', 'i', 'f', 'y', 'B', 'N', '2', '5', '6', 'A', 'd', 'd'],
        [['G', '1', '0', 'P', 'o', 'i', 'n', 't'], ['G', '1', '1', 'P', 'o', 'i', 'n', 't'], ['R', 'e', 's']]) ∧
    ∀ c : BN256AddCircuit, c.Define = (do
      let (e, g) ← VerifyBN256Add c.g10Point c.g11Point c.res
      pure (e, { c with g10Point := g })) := by
  rw [toList_lit (s := goLib) _ (by unfold goLib; rfl)]
  exact ⟨by decide +kernel, fun _ => rfl⟩

set_option maxRecDepth 1000000 in
/-- The text of the `Define` of `CheckOnCurveCircuit`: the call of the definition. -/
theorem source_define_on_curve : wrapFun ['c', 'i', 'r', 'c', 'u', 'i', 't']
    [.id ['C', 'h', 'e', 'c', 'k', 'O', 'n', 'C', 'u', 'r', 'v', 'e', 'C', 'i', 'r', 'c', 'u', 'i', 't']] goLib.toList =
      some (['V', 'e', 'r', 'i', 'f', 'y', 'C', 'h', 'e', 'c', 'k', 'O', 'n', 'C', 'u', 'r', 'v', 'e'],
        [['X'], ['Y']]) ∧
    ∀ c : CheckOnCurveCircuit, c.Define = VerifyCheckOnCurve c.x c.y := by
  rw [toList_lit (s := goLib) _ (by unfold goLib; rfl)]
  exact ⟨by decide +kernel, fun _ => rfl⟩

set_option maxRecDepth 1000000 in
/-- The text of the `Define` of `CheckOnCurveCircuitVar`: the call of the definition. -/
theorem source_define_on_curve_var : wrapFun ['c', 'i', 'r', 'c', 'u', 'i', 't']
    [.id ['C', 'h', 'e', 'c', 'k', 'O', 'n', 'C', 'u', 'r', 'v', 'e', 'C', 'i', 'r', 'c', 'u', 'i', 't', 'V', 'a', 'r']] goLib.toList =
      some (['V', 'e', 'r', 'i', 'f', 'y', 'C', 'h', 'e', 'c', 'k', 'O', 'n', 'C', 'u', 'r', 'v', 'e', 'V', 'a', 'r'],
        [['X'], ['Y']]) ∧
    ∀ c : CheckOnCurveCircuitVar, c.Define = VerifyCheckOnCurveVar c.x c.y := by
  rw [toList_lit (s := goLib) _ (by unfold goLib; rfl)]
  exact ⟨by decide +kernel, fun _ => rfl⟩

set_option maxRecDepth 1000000 in
/-- The text of the `Define` of `MultiScalarMul[T, S]`: the call of the definition. -/
theorem source_define_multi : wrapFun ['c']
    [.sym '*', .id ['M', 'u', 'l', 't', 'i', 'S', 'c', 'a', 'l', 'a', 'r', 'M', 'u', 'l'], .sym '[', .id ['T'], .sym ',', .id ['S'], .sym ']'] goMsm.toList =
      some (['V', 'e', 'r', 'i', 'f', 'y', 'M', 'u', 'l', 't', 'i', 'S', 'c', 'a', 'l', 'a', 'r', 'M', 'u', 'l'],
        [['P', 'o', 'i', 'n', 't', 's'], ['S', 'c', 'a', 'l', 'a', 'r', 's'], ['R', 'e', 's']]) ∧
    ∀ X (c : MultiScalarMulC), c.Define X = VerifyMultiScalarMul X c.points c.scalars c.res := by
  rw [toList_lit (s := goMsm) _ (by unfold goMsm; rfl)]
  exact ⟨by decide +kernel, fun _ _ => rfl⟩

set_option maxRecDepth 1000000 in
/-- The text of the `Define` of `BN254ScalarMul`: the call of the definition. -/
theorem source_define_scalar_mul : wrapFun ['c']
    [.sym '*', .id ['B', 'N', '2', '5', '4', 'S', 'c', 'a', 'l', 'a', 'r', 'M', 'u', 'l']] goMsm.toList =
      some (['V', 'e', 'r', 'i', 'f', 'y', 'B', 'N', '2', '5', '4', 'S', 'c', 'a', 'l', 'a', 'r', 'M', 'u', 'l'],
        [['P', 'o', 'i', 'n', 't'], ['S', 'c', 'a', 'l', 'a', 'r'], ['R', 'e', 's']]) ∧
    ∀ X (c : BN254ScalarMulC), c.Define X = VerifyBN254ScalarMul X c.point c.scalar c.res := by
  rw [toList_lit (s := goMsm) _ (by unfold goMsm; rfl)]
  exact ⟨by decide +kernel, fun _ _ => rfl⟩

set_option maxRecDepth 1000000 in
/-- The text of the `Define` of `BN254Add`: the call of the definition. -/
theorem source_define_bn254_add : wrapFun ['c']
    [.sym '*', .id ['B', 'N', '2', '5', '4', 'A', 'd', 'd']] goMsm.toList =
      some (['V', 'e', 'r', 'i', 'f', 'y', 'B', 'N', '2', '5', '4', 'A', 'd', 'd'],
        [['P', 'o', 'i', 'n', 't', '1'], ['P', 'o', 'i', 'n', 't', '2'], ['E', 'x', 'p', 'e', 'c', 't', 'e', 'd', 'R', 'e', 's']]) ∧
    ∀ X (c : BN254AddC), c.Define X = VerifyBN254Add X c.point1 c.point2 c.expectedRes := by
  rw [toList_lit (s := goMsm) _ (by unfold goMsm; rfl)]
  exact ⟨by decide +kernel, fun _ _ => rfl⟩

set_option maxRecDepth 1000000 in
/-- The text of the `Define` of `Keccak256Circuit`: the call of the definition. -/
theorem source_define_keccak : wrapFun ['c', 'i', 'r', 'c', 'u', 'i', 't']
    [.id ['K', 'e', 'c', 'c', 'a', 'k', '2', '5', '6', 'C', 'i', 'r', 'c', 'u', 'i', 't']] goLib.toList =
      some (['V', 'e', 'r', 'i', 'f', 'y', 'K', 'e', 'c', 'c', 'a', 'k', '2', '5', '6'],
        [['I', 'n', 'p', 'u', 't', 'V', 'a', 'l', 'u', 'e'], ['H', 'a', 's', 'h', 'V', 'a', 'l', 'u', 'e']]) ∧
    ∀ X (c : Keccak256Circuit), c.Define X = VerifyKeccak256 X c.inputValue c.hashValue := by
  rw [toList_lit (s := goLib) _ (by unfold goLib; rfl)]
  exact ⟨by decide +kernel, fun _ _ => rfl⟩

set_option maxRecDepth 1000000 in
/-- The text of the `Define` of `Sha256Circuit`: the call of the definition. -/
theorem source_define_sha : wrapFun ['c', 'i', 'r', 'c', 'u', 'i', 't']
    [.id ['S', 'h', 'a', '2', '5', '6', 'C', 'i', 'r', 'c', 'u', 'i', 't']] goLib.toList =
      some (['V', 'e', 'r', 'i', 'f', 'y', 'S', 'h', 'a', '2', '5', '6'],
        [['I', 'n', 'p', 'u', 't', 'V', 'a', 'l', 'u', 'e'], ['H', 'a', 's', 'h', 'V', 'a', 'l', 'u', 'e']]) ∧
    ∀ X (c : Sha256Circuit), c.Define X = VerifySha256 X c.inputValue c.hashValue := by
  rw [toList_lit (s := goLib) _ (by unfold goLib; rfl)]
  exact ⟨by decide +kernel, fun _ _ => rfl⟩

set_option maxRecDepth 1000000 in
/-- The text of `toBytes` and of `ValueOf`; their meaning is the definitions. -/
theorem source_hash : ∃ p n, toBytesFun goHash.toList = some p ∧ valueOfFun goHash.toList = some n ∧
    (∀ nOut ins, runToBytes p nOut ins = toBytes nOut ins) ∧ ∀ a, runValueOf n a = ValueOf a := by
  rw [toList_lit (s := goHash) _ (by unfold goHash; rfl)]
  refine ⟨⟨1, 32, 1, 8, 1, 8, 0, 32⟩, 32, by decide +kernel, by decide +kernel, fun nOut ins => ?_, fun a => rfl⟩
  unfold runToBytes toBytes
  rcases ins with _ | ⟨a, _ | ⟨b, l⟩⟩ <;> simp

set_option maxRecDepth 1000000 in
/-- The text of `fr_from_string`; its meaning is the definition. -/
theorem source_fr_from_string : ∃ b, fromStringFun goFr.toList = some b ∧ ∀ s, runFromString b s = some (frFromString s) := by
  rw [toList_lit (s := goFr) _ (by unfold goFr; rfl)]
  exact ⟨10, by decide +kernel, fun s => rfl⟩

set_option maxRecDepth 1000000 in
/-- The text of `VerifyMultiScalarMul`; its meaning is the definition. -/
theorem source_multi : ∃ p, multiFun goMsm.toList = some p ∧
    ∀ X points scalars expected, runMulti X p points scalars expected = VerifyMultiScalarMul X points scalars expected := by
  rw [toList_lit (s := goMsm) _ (by unfold goMsm; rfl)]
  exact ⟨((0, 1), (0, 1), 2), by decide +kernel, fun X points scalars expected => rfl⟩

end Verif
