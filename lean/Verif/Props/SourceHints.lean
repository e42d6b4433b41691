/-
The model against the Go text, continued: the hint functions `MsmHint`, `AddHint`, `modHint`, `Keccak256Hint`, the
functions `extractAndConvert` and `hexToDecimalString`, the
functions that test whether a point is on the curve, and those of pairing_circuit.go, are what the files of /repo say. As in Verif/Props/Source these are statements about the model, not properties of the program.
-/
import Verif.Model.HintText
import Verif.Model.CurveText
import Verif.Model.TwistText
import Verif.Model.KeccakText
import Verif.Model.RegexText
import Verif.Props.Source

namespace Verif

open Go

/-- The last statements of the two functions: print the point, read the two numbers back. -/
theorem runHint_end (inputs : List ℤ) (env : List HintVal) (e : Bool) (x y : List Char) (r : ℕ) (P : G1) (h : env[r]? = some (.point P)) :
    runHint inputs [.extract r, .result 0 false, .result 1 true, .retNil] ⟨env, e, x, y, [some 0, some 0]⟩ = pointResults P := by
  simp only [runHint, h, pointResults]
  cases extractAndConvert (bn256String P) with
  | none => rfl
  | some p =>
    obtain ⟨a, b⟩ := p
    simp only [List.length_cons, List.length_nil, List.set_cons_zero, List.set_cons_succ, Bool.false_eq_true, if_false, if_true, hintResult,
      List.mapM_cons, List.mapM_nil, Nat.zero_add, Nat.lt_add_one, Nat.reduceAdd, Nat.reduceLT]
    cases parseDec a <;> cases parseDec b <;> rfl

/-- Reading and writing the numbered variables. -/
local macro "vars" : tactic => `(tactic| simp only [List.getElem?_cons_zero, List.getElem?_cons_succ, List.nil_append, List.cons_append,
  List.set_cons_zero, List.set_cons_succ])

/-- One statement of the text. -/
local macro "stmt" : tactic => `(tactic| ((try dsimp only); rw [runHint]; try vars))

theorem run_msm_hint (ins : List ℤ) (x y : List Char) : runHint ins
    [.arity 3, .blob, .fill 0, .append 0 1, .fill 1, .append 0 2, .newPoint, .unmarshal 3 0, .ifErr, .newPoint, .mul 4 3 2, .extract 4,
    .result 0 false, .result 1 true, .retNil] ⟨[], false, x, y, [some 0, some 0]⟩ = MsmHint ins := by
  match ins with
  | [] | [_] | [_, _] | _ :: _ :: _ :: _ :: _ => rw [runHint, if_pos (by simp)]; rfl
  | [a, b, k] =>
    rw [runHint, if_neg (by simp), runHint, MsmHint]
    stmt
    cases fillBytes32 a with
    | none => rfl
    | some b0 =>
    stmt; stmt
    cases fillBytes32 b with
    | none => rfl
    | some b1 =>
    stmt; stmt; stmt
    cases bn256Unmarshal (b0 ++ b1) with
    | none => dsimp only; rw [runHint]; rfl
    | some P => dsimp only; rw [runHint, if_neg (by simp), runHint, runHint]; exact runHint_end _ _ _ _ _ 4 _ rfl

theorem run_add_hint (ins : List ℤ) (x y : List Char) : runHint ins
    [.arity 4, .blob, .fill 0, .append 0 1, .fill 1, .append 0 2, .newPoint, .unmarshal 3 0, .ifErr,
    .blob, .fill 2, .append 4 5, .fill 3, .append 4 6, .newPoint, .unmarshal 7 4, .ifErr, .newPoint, .add 8 3 7, .extract 8,
    .result 0 false, .result 1 true, .retNil] ⟨[], false, x, y, [some 0, some 0]⟩ = AddHint ins := by
  match ins with
  | [] | [_] | [_, _] | [_, _, _] | _ :: _ :: _ :: _ :: _ :: _ => rw [runHint, if_pos (by simp)]; rfl
  | [a, b, c, d] =>
    rw [runHint, if_neg (by simp), runHint, AddHint]
    stmt
    cases fillBytes32 a with
    | none => rfl
    | some b0 =>
    stmt; stmt
    cases fillBytes32 b with
    | none => rfl
    | some b1 =>
    stmt; stmt; stmt
    cases bn256Unmarshal (b0 ++ b1) with
    | none => dsimp only; rw [runHint]; rfl
    | some P =>
    dsimp only; rw [runHint, if_neg (by simp), runHint]; stmt
    cases fillBytes32 c with
    | none => rfl
    | some b2 =>
    stmt; stmt
    cases fillBytes32 d with
    | none => rfl
    | some b3 =>
    stmt; stmt; stmt
    cases bn256Unmarshal (b2 ++ b3) with
    | none => dsimp only; rw [runHint]; rfl
    | some Q => dsimp only; rw [runHint, if_neg (by simp), runHint, runHint]; exact runHint_end _ _ _ _ _ 8 _ rfl

set_option maxRecDepth 1000000 in
/-- The text of `MsmHint`; its run is the definition. -/
theorem source_msm_hint : ∃ l, hintFun "MsmHint".toList goLib.toList = some l ∧
    ∀ ins x y, runHint ins l ⟨[], false, x, y, [some 0, some 0]⟩ = MsmHint ins := by
  rw [toList_lit (s := goLib) _ (by unfold goLib; rfl)]
  exact ⟨[.arity 3, .blob, .fill 0, .append 0 1, .fill 1, .append 0 2, .newPoint, .unmarshal 3 0, .ifErr, .newPoint, .mul 4 3 2, .extract 4,
    .result 0 false, .result 1 true, .retNil],
    by decide +kernel, run_msm_hint⟩

set_option maxRecDepth 1000000 in
/-- The text of `AddHint`. -/
theorem source_add_hint : ∃ l, hintFun "AddHint".toList goLib.toList = some l ∧
    ∀ ins x y, runHint ins l ⟨[], false, x, y, [some 0, some 0]⟩ = AddHint ins := by
  rw [toList_lit (s := goLib) _ (by unfold goLib; rfl)]
  exact ⟨[.arity 4, .blob, .fill 0, .append 0 1, .fill 1, .append 0 2, .newPoint, .unmarshal 3 0, .ifErr,
    .blob, .fill 2, .append 4 5, .fill 3, .append 4 6, .newPoint, .unmarshal 7 4, .ifErr, .newPoint, .add 8 3 7, .extract 8,
    .result 0 false, .result 1 true, .retNil],
    by decide +kernel, run_add_hint⟩

set_option maxRecDepth 1000000 in
/-- The text of `modHint`; its meaning is the definition. -/
theorem source_mod_hint : ∃ p, modHintFun goFr.toList = some p ∧ ∀ ins, runModHint p ins = modHint ins := by
  rw [toList_lit (s := goFr) _ (by unfold goFr; rfl)]
  refine ⟨(0, 0, 0, 1), by decide +kernel, fun ins => ?_⟩
  cases ins <;> simp [runModHint, modHint]

set_option maxRecDepth 1000000 in
/-- The text of `VerifyCheckOnCurve`; its meaning is the definition. -/
theorem source_check_on_curve : ∃ p, onFun oHead [['x'], ['y']] goLib.toList = some p ∧
    ∀ x y, match runOn [x, y] p onStart with
      | .ret e => VerifyCheckOnCurve x y = pure e
      | .points _ _ => False
      | .panic => ∃ m, VerifyCheckOnCurve x y = Circ.panic m := by
  rw [toList_lit (s := goLib) _ (by unfold goLib; rfl)]
  refine ⟨[.point, .conv 0, .conv 1, .set 0 false 0, .set 0 true 1, .check 0, .retNil], by decide +kernel, fun x y => ?_⟩
  cases hx : setInterface x with
  | none => simp [runOn, onStart, VerifyCheckOnCurve, hx]
  | some a => cases hy : setInterface y with
    | none => simp [runOn, onStart, VerifyCheckOnCurve, hx, hy]
    | some b => by_cases h : isOnCurve a b <;> simp [runOn, onStart, setCoord, VerifyCheckOnCurve, hx, hy, h]

set_option maxRecDepth 1000000 in
/-- The text of `VerifyCheckOnCurveVar`; its meaning is the definition. -/
theorem source_check_on_curve_var : ∃ p, onFun oHeadVar [['x'], ['y']] goLib.toList = some p ∧
    ∀ x y, ∃ e, runOn [x, y] p onStart = .ret e ∧ VerifyCheckOnCurveVar x y = pure e := by
  rw [toList_lit (s := goLib) _ (by unfold goLib; rfl)]
  refine ⟨[.point, .setI 0 false 0, .setI 0 true 1, .check 0, .retNil], by decide +kernel, fun x y => ?_⟩
  refine ⟨_, ?_, rfl⟩
  cases hx : setInterface x <;> cases hy : setInterface y <;>
    (simp only [runOn, onStart, setCoord, hx, hy, List.getElem?_cons_zero, List.getElem?_cons_succ, List.nil_append,
      List.modify_cons, List.modify_nil, Option.getD_some, Option.getD_none]
     split_ifs <;> simp_all)

set_option maxRecDepth 1000000 in
/-- The text of `FillVerifyCircuitsG1`; its meaning is the definition. -/
theorem source_fill_g1 : ∃ p, onFun oHeadFill [['x', '1'], ['y', '1'], ['x', '2'], ['y', '2']] goPairing.toList = some p ∧
    ∀ c x1 y1 x2 y2, match runOn [x1, y1, x2, y2] p onStart with
      | .ret _ => False
      | .points a b => FillVerifyCircuitsG1 c x1 y1 x2 y2 = pure { c with g1Points := [a, b] }
      | .panic => ∃ m, FillVerifyCircuitsG1 c x1 y1 x2 y2 = Circ.panic m := by
  rw [toList_lit (s := goPairing) _ (by unfold goPairing; rfl)]
  refine ⟨[.point, .setErr 0 false 0 false, .setErr 0 true 1 true, .panicIf 0, .point, .setErr 1 false 2 false,
    .setErr 1 true 3 true, .panicIf 1, .fill 0 1], by decide +kernel, fun c x1 y1 x2 y2 => ?_⟩
  cases h1 : setInterface x1 with
  | none => cases h2 : setInterface y1 <;> simp [runOn, onStart, setCoord, FillVerifyCircuitsG1, h1, h2]
  | some a1 => cases h2 : setInterface y1 with
    | none => simp [runOn, onStart, setCoord, FillVerifyCircuitsG1, h1, h2]
    | some b1 =>
      by_cases hc : isOnCurve a1 b1
      · cases h3 : setInterface x2 with
        | none => cases h4 : setInterface y2 <;> simp [runOn, onStart, setCoord, FillVerifyCircuitsG1, h1, h2, h3, h4, hc]
        | some a2 => cases h4 : setInterface y2 with
          | none => simp [runOn, onStart, setCoord, FillVerifyCircuitsG1, h1, h2, h3, h4, hc]
          | some b2 =>
            by_cases hd : isOnCurve a2 b2 <;> simp [runOn, onStart, setCoord, FillVerifyCircuitsG1, h1, h2, h3, h4, hc, hd]
      · simp [runOn, onStart, setCoord, FillVerifyCircuitsG1, h1, h2, hc]

set_option maxRecDepth 1000000 in
/-- The text of `GetVerifyCircuitsG2Jac` and of `FillVerifyCircuitsG2`; their meaning is the definitions. -/
theorem source_g2 : ∃ p ij, jacFun goPairing.toList = some p ∧ fillG2Fun goPairing.toList = some ij ∧
    (∃ r, runJac p [] = some r ∧ GetVerifyCircuitsG2Jac = pure r) ∧
    ∀ c, ∃ d, runFillG2 c ij (runJac p []) = some d ∧ FillVerifyCircuitsG2 c = pure d := by
  rw [toList_lit (s := goPairing) _ (by unfold goPairing; rfl)]
  have h0 : isOnTwist g20 = true := by decide +kernel
  have h1 : isOnTwist g21 = true := by decide +kernel
  have hg : GetVerifyCircuitsG2Jac = pure (g20, g21) := by simp [GetVerifyCircuitsG2Jac, h0, h1]
  let p : List JacStmt := [.point,
    .set 0 .X 13560776910958896778309428450808722712362583089620853136731412215646945297830
      17006984783035916014836003241042945838018391379603479329912940809520477208052,
    .set 0 .Y 18091431719069275340788954644764755415339503689597559484185985670418402491565
      12900589361605111856143562381318004229723309245412571888359653960504992734777,
    .set 0 .Z 1 0, .check 0, .point,
    .set 1 .X 10857046999023057135944570762232829481370756359578518086990519993285655852781
      11559732032986387107991004021392285783925812861821192530917403151452391805634,
    .set 1 .Y 13392588948715843804641432497768002650278120570034223513918757245338268106653
      17805874995975841540914202342111839520379459829704422454583296818431106115052,
    .set 1 .Z 1 0, .check 1, .ret 0 1]
  have hr : runJac p [] = some (g20, g21) := by decide +kernel
  exact ⟨p, (0, 1), by decide +kernel, by decide +kernel, ⟨_, hr, hg⟩, fun c => ⟨_, by rw [hr]; rfl, by
    simp [FillVerifyCircuitsG2, hg]⟩⟩

set_option maxRecDepth 1000000 in
/-- The text of `VerifyBN256Pairing`; its meaning is the definition. -/
theorem source_pairing_check : ∃ p, pairingFun goPairing.toList = some p ∧
    ∀ X g1 g2, runPairing X p g1 g2 = VerifyBN256Pairing X g1 g2 := by
  rw [toList_lit (s := goPairing) _ (by unfold goPairing; rfl)]
  refine ⟨(0, 1, ['p', 'a', 'i', 'r', ':', ' ', '%', 'w']), by decide +kernel, fun X g1 g2 => ?_⟩
  have : String.ofList (['p', 'a', 'i', 'r', ':', ' ', '%', 'w'].takeWhile (· ≠ '%')) ++ "invalid inputs sizes" =
      "pair: invalid inputs sizes" := by decide +kernel
  simp only [runPairing, VerifyBN256Pairing, and_self, if_true, this]

set_option maxRecDepth 1000000 in
/-- The text of `BN256PairingCircuit.Define` is a call of `VerifyBN256Pairing` with the points of the circuit, as in the definition. -/
theorem source_pairing_define : (after wDefine (tokens goPairing.toList)).isSome = true ∧
    ∀ X (c : BN256PairingCircuit), c.Define X = VerifyBN256Pairing X c.g1Points c.g2Points := by
  rw [toList_lit (s := goPairing) _ (by unfold goPairing; rfl)]
  exact ⟨by decide +kernel, fun _ _ => rfl⟩

theorem writeBytes_eq (bs : List UInt8) : ∀ (pre : List ℤ) (m : ℕ), writeBytes bs pre.length (pre ++ List.replicate m 0) =
    if m < bs.length then none
    else some (pre.length + bs.length, (pre ++ bs.map fun b => (b.toNat : ℤ)) ++ List.replicate (m - bs.length) 0) := by
  induction bs with
  | nil => intro pre m; simp [writeBytes]
  | cons b bs ih =>
    intro pre m
    cases m with
    | zero => simp [writeBytes]
    | succ m =>
      have h := ih (pre ++ [(b.toNat : ℤ)]) m
      have hs : (pre ++ List.replicate (m + 1) (0 : ℤ)).set pre.length (b.toNat : ℤ) =
          (pre ++ [(b.toNat : ℤ)]) ++ List.replicate m 0 := by
        simp [List.replicate_succ]
      have hl : pre.length < (pre ++ List.replicate (m + 1) (0 : ℤ)).length := by simp
      rw [writeBytes, if_pos hl, hs]
      rw [List.length_append, List.length_singleton] at h
      rw [h]
      by_cases hm : m < bs.length
      · simp [hm]
      · simp [hm, Nat.add_assoc, Nat.add_comm 1]

theorem foldl_append_flatMap (f : ℤ → List UInt8) (ins : List ℤ) : ∀ b, ins.foldl (fun b n => b ++ f n) b = b ++ ins.flatMap f := by
  induction ins with
  | nil => simp
  | cons a l ih => intro b; simp [ih]

set_option maxRecDepth 1000000 in
/-- The text of `Keccak256Hint`; its meaning is the definition, whose list stops at the last result that was assigned. -/
theorem source_keccak_hint : ∃ p, kecFun goCircuit.toList = some p ∧
    ∀ X ins n, match Keccak256Hint X n ins with
      | .ok outs => runKec X ins p (kecStart n) = some (outs ++ List.replicate (n - outs.length) 0)
      | .err => False
      | .panic => runKec X ins p (kecStart n) = none := by
  rw [toList_lit (s := goCircuit) _ (by unfold goCircuit; rfl)]
  refine ⟨[.buffer, .absorb, .hash, .big true, .result 0, .setI 1, .write true, .write false, .retNil], by decide +kernel,
    fun X ins n => ?_⟩
  cases n with
  | zero => simp [Keccak256Hint, runKec, kecStart]
  | succ n =>
    have hf := foldl_append_flatMap fpBytes ins []
    rw [List.nil_append] at hf
    generalize hB : ins.flatMap fpBytes = B at hf
    generalize hH : X.keccak B = H
    have h1 := writeBytes_eq H [(beNat H : ℤ)] n
    have h2 := writeBytes_eq B ((beNat H : ℤ) :: H.map fun b => (b.toNat : ℤ)) (n - H.length)
    simp only [List.length_cons, List.length_nil, List.length_map, List.cons_append, List.nil_append, Nat.zero_add] at h1 h2
    have hs : (List.replicate (n + 1) (0 : ℤ)).set 0 (beNat H : ℤ) = (beNat H : ℤ) :: List.replicate n 0 := by
      simp [List.replicate_succ]
    have e : 1 + H.length = H.length + 1 := Nat.add_comm _ _
    simp only [Keccak256Hint, hB, hH]
    by_cases hn : n < H.length
    · rw [if_pos (by simp; omega)]
      simp [runKec, kecStart, hf, hH, KecState.bytes, hs, h1, hn]
    · by_cases hm : n - H.length < B.length
      · rw [if_pos (by simp; omega)]
        simp [runKec, kecStart, hf, hH, KecState.bytes, hs, h1, hn, e, h2, hm]
      · rw [if_neg (by simp; omega)]
        simp [runKec, kecStart, hf, hH, KecState.bytes, hs, h1, hn, e, h2, hm, Nat.sub_sub]

theorem matchRe_chars (re : List ReItem) (gs : List (List Char)) : ∀ (p s : List Char),
    matchRe (p.map (fun c => .one (.char c)) ++ re) s gs none = (stripPrefix p s).bind fun s => matchRe re s gs none := by
  intro p
  induction p with
  | nil => intro s; simp [stripPrefix]
  | cons a p ih =>
    intro s
    cases s with
    | nil => simp [matchRe, stripPrefix]
    | cons c s =>
      by_cases h : a = c
      · simpa [matchRe, stripPrefix, ReSet.has, h] using ih s
      · simp [matchRe, stripPrefix, ReSet.has, h]

theorem matchRe_star (d : Char) (hd : isWord d = false) (re : List ReItem) (gs : List (List Char)) : ∀ (s g : List Char),
    matchRe (.star .word :: .right :: .one (.char d) :: re) s gs (some g) =
      matchRe (.one (.char d) :: re) (s.dropWhile isWord) (gs ++ [g ++ s.takeWhile isWord]) none := by
  intro s
  induction s with
  | nil => intro g; simp [matchRe]
  | cons c s ih =>
    intro g
    cases hc : isWord c with
    | false => simp [matchRe, ReSet.has, hc]
    | true =>
      have hdc : d ≠ c := by rintro rfl; rw [hd] at hc; cases hc
      have hn : matchRe (.right :: .one (.char d) :: re) (c :: s) gs (some g) = none := by
        simp [matchRe, ReSet.has, hdc]
      rw [matchRe]
      simp only [ReSet.has, hc, if_true, Option.map_some, ih, hn, List.dropWhile_cons_of_pos hc, List.takeWhile_cons_of_pos hc,
        List.append_assoc, List.singleton_append]
      cases matchRe (.one (.char d) :: re) (s.dropWhile isWord) (gs ++ [g ++ c :: s.takeWhile isWord]) none <;> rfl

theorem matchRe_group (d : Char) (hd : isWord d = false) (re : List ReItem) (gs : List (List Char)) (s : List Char) :
    matchRe (.left :: .plus .word :: .right :: .one (.char d) :: re) s gs none =
      if s.takeWhile isWord = [] then none
      else (stripPrefix [d] (s.dropWhile isWord)).bind fun s' => matchRe re s' (gs ++ [s.takeWhile isWord]) none := by
  cases s with
  | nil => simp [matchRe]
  | cons c s =>
    rw [matchRe, matchRe]
    cases hc : isWord c with
    | false => simp [ReSet.has, hc]
    | true =>
      simp only [ReSet.has, hc, if_true, Option.map_some, List.nil_append]
      rw [matchRe_star d hd, List.dropWhile_cons_of_pos hc, List.takeWhile_cons_of_pos hc, if_neg (by simp)]
      simpa using matchRe_chars re (gs ++ [[c] ++ s.takeWhile isWord]) [d] (s.dropWhile isWord)

theorem matchRe_here (s : List Char) : matchRe reItems s [] none = (matchHere s).map fun m => [m.1, m.2] := by
  rw [reItems, matchRe_chars]
  unfold matchHere
  cases stripPrefix g1Prefix s with
  | none => rfl
  | some s1 =>
    simp only [Option.bind_some, Option.bind_eq_bind]
    rw [matchRe_group ',' (by decide)]
    by_cases hx : s1.takeWhile isWord = []
    · simp [hx]
    simp only [hx, if_false]
    cases stripPrefix [','] (s1.dropWhile isWord) with
    | none => rfl
    | some s2 =>
      cases s2 with
      | nil => simp [matchRe]
      | cons c s3 =>
        simp only [Option.bind_some]
        rw [matchRe]
        cases hc : isSpace c with
        | false => simp [ReSet.has, hc]
        | true =>
          simp only [ReSet.has, hc, if_true, Option.map_none]
          rw [matchRe_group ')' (by decide)]
          by_cases hy : s3.takeWhile isWord = []
          · simp [hy]
          simp only [hy, if_false]
          cases stripPrefix [')'] (s3.dropWhile isWord) with
          | none => rfl
          | some s4 => simp [matchRe]

theorem findRe_eq (s : List Char) : findRe reItems s = (findMatch s).map fun m => [m.1, m.2] := by
  induction s with
  | nil => rw [findRe, findMatch, matchRe_here]
  | cons c s ih =>
    rw [findRe, findMatch, matchRe_here, ih]
    cases matchHere (c :: s) <;> rfl

set_option maxRecDepth 1000000 in
/-- The text of `hexToDecimalString` and of `extractAndConvert`; their meaning, with the regular expression in the text, is the
definitions. -/
theorem source_extract : ∃ pre e, hexFun goLib.toList = some pre ∧ extractFun goLib.toList = some e ∧
    (∀ s, runHex pre s = hexToDecimalString s) ∧ ∀ s, runExtract e (runHex pre) s = extractAndConvert s := by
  rw [toList_lit (s := goLib) _ (by unfold goLib; rfl)]
  have hh : ∀ s, runHex ['0', 'x'] s = hexToDecimalString s := fun s => rfl
  refine ⟨['0', 'x'], ⟨reItems, 3, 1, 2⟩, by decide +kernel, by decide +kernel, hh, fun s => ?_⟩
  unfold runExtract extractAndConvert
  simp only [findRe_eq, hh]
  cases findMatch s with
  | none => rfl
  | some m => simp

end Verif
