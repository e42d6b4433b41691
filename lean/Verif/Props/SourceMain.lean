/-
The model against the Go text, continued: the declarations of the two circuits, `init` and `main`. As in Verif/Props/Source these are
statements about the model, not properties of the program.
-/
import Verif.Model.MainText
import Verif.Lemmas.Shipped
import Verif.Props.Source

namespace Verif

open Go

set_option maxRecDepth 1000000 in
/-- The text of the declaration of `AggregatorCircuit`: four slices of variables, whose inputs, with the visibility from the tags, are
those of the definition, in this order. -/
theorem source_aggregator_struct : ∃ fs, structFun ['A', 'g', 'g', 'r', 'e', 'g', 'a', 't', 'o', 'r', 'C', 'i', 'r', 'c', 'u', 'i', 't'] goCircuit.toList = some fs ∧
    (∀ f ∈ fs, f.type = .slice (.name ['f', 'r', 'o', 'n', 't', 'e', 'n', 'd'] ['V', 'a', 'r', 'i', 'a', 'b', 'l', 'e'])) ∧
    ∀ c : AggregatorCircuit, c.leaves = fs.flatMap fun f => (aggField c f.name).map (Prod.mk f.vis) := by
  rw [toList_lit (s := goCircuit) _ (by unfold goCircuit; rfl)]
  let t : GoType := .slice (.name ['f', 'r', 'o', 'n', 't', 'e', 'n', 'd'] ['V', 'a', 'r', 'i', 'a', 'b', 'l', 'e'])
  refine ⟨[⟨mtProof, t, .sec⟩, ⟨mtInst, t, .sec⟩, ⟨mtAux, t, .sec⟩, ⟨mtTarget, t, .pub⟩], by decide +kernel, by simp [t], fun c => ?_⟩
  simp [AggregatorCircuit.leaves, aggField, mtProof, mtInst, mtAux, mtTarget]

set_option maxRecDepth 1000000 in
/-- The text of the declarations of `Conditions`, `KycType` and `Circuit` in kyc.go: the inputs, with the visibility from the tags of
`Circuit` (the other two have no tags), are those of the definition, in this order. -/
theorem source_kyc_struct : ∃ cd kt fs, structFun ['C', 'o', 'n', 'd', 'i', 't', 'i', 'o', 'n', 's'] goKyc.toList = some cd ∧ structFun ['K', 'y', 'c', 'T', 'y', 'p', 'e'] goKyc.toList = some kt ∧
    structFun ['C', 'i', 'r', 'c', 'u', 'i', 't'] goKyc.toList = some fs ∧ (∀ f ∈ cd ++ kt, f.vis = .sec) ∧
    (∀ d : Conditions, d.fields = cd.flatMap fun f => condField d f.name) ∧
    ∀ c : KycCircuit, c.leaves = fs.flatMap fun f => (kycField kt cd c f.name).map (Prod.mk f.vis) := by
  rw [toList_lit (s := goKyc) _ (by unfold goKyc; rfl)]
  let v : GoType := .name ['f', 'r', 'o', 'n', 't', 'e', 'n', 'd'] ['V', 'a', 'r', 'i', 'a', 'b', 'l', 'e']
  let e : GoType := .name ['e', 'm', 'u', 'l', 'a', 't', 'e', 'd'] ['S', 'e', 'c', 'p', '2', '5', '6', 'k', '1', 'F', 'r']
  refine ⟨[⟨['A', 'g', 'e'], .array 2 v, .sec⟩, ⟨['C', 'o', 'u', 'n', 't', 'r', 'y'], .slice v, .sec⟩, ⟨['L', 'e', 'v', 'e', 'l'], .slice v, .sec⟩, ⟨['T', 'i', 'm', 'e'], .slice v, .sec⟩],
    [⟨['A', 'g', 'e'], v, .sec⟩, ⟨['C', 'o', 'u', 'n', 't', 'r', 'y'], v, .sec⟩, ⟨['L', 'e', 'v', 'e', 'l'], v, .sec⟩, ⟨['T', 'i', 'm', 'e'], v, .sec⟩],
    [⟨['S', 'i', 'g', 'n', 'a', 't', 'u', 'r', 'e'], .app ['e', 'c', 'd', 's', 'a'] ['S', 'i', 'g', 'n', 'a', 't', 'u', 'r', 'e'] e, .sec⟩, ⟨['K', 'y', 'c', 'H', 'a', 's', 'h'], .app ['e', 'm', 'u', 'l', 'a', 't', 'e', 'd'] ['E', 'l', 'e', 'm', 'e', 'n', 't'] e, .sec⟩, ⟨['K', 'y', 'c'], .name [] ['K', 'y', 'c', 'T', 'y', 'p', 'e'], .sec⟩,
      ⟨['C', 'o', 'n', 'd', 'i', 't', 'i', 'o', 'n', 'H', 'a', 's', 'h'], .name [] ['C', 'o', 'n', 'd', 'i', 't', 'i', 'o', 'n', 's'], .pub⟩], by decide +kernel, by decide +kernel, by decide +kernel, by simp, fun d => ?_,
    fun c => ?_⟩
  · simp [Conditions.fields, condField]
  · simp [KycCircuit.leaves, Conditions.fields, kycField, condField, kycTypeField]

set_option maxRecDepth 1000000 in
/-- The text of `init` registers exactly the hints of the definition. -/
theorem source_init : initFun goLib.toList = some registeredHints := by
  rw [toList_lit (s := goLib) _ (by unfold goLib; rfl)]
  decide +kernel

/-- The circuit that `main` compiles: zeros, in slices of these lengths. /repo/main.go:152-171. -/
def mainZeros : MainCircuit :=
  [List.replicate 104 (some 0), [some 0], List.replicate 21 (some 0), List.replicate 4 (some 0)]

/-- The circuit of the witness: the shipped values. /repo/main.go:173-218. -/
def mainWitness : MainCircuit :=
  [shippedProof.map some, shippedVerifyInst.map some, shippedAux.map some, shippedTargetInst.map some]

set_option maxRecDepth 1000000 in
/-- The text of `main`, with the two slices of strings: it compiles a circuit with the lengths of `mainShape`, makes the keys, makes the
witness from the shipped values, proves and verifies, in this order, and panics at the first error. -/
theorem source_main_run : ∃ p a b, mainFun goMain.toList = some p ∧ stringsFun mtProofStr goMain.toList = some a ∧
    stringsFun mtAuxStr goMain.toList = some b ∧
    runMain [a, b] p ⟨[], []⟩ =
      some [.compile mainZeros, .srs, .setup, .newWitness mainWitness, .prove, .pubWit, .verify] := by
  rw [toList_lit (s := goMain) _ (by unfold goMain; rfl)]
  exact ⟨[.alloc 0 [.strs 0, .num 1, .strs 1, .num 4], .zeroLoop 0 0 0, .zero 0 1 0, .zeroLoop 1 0 2, .zero 0 3 0, .zero 0 3 1, .zero 0 3 2, .zero 0 3 3,
    .alloc 1 [.strs 0, .num 1, .strs 1, .num 4], .call (.compile 0), .call .srs, .call .setup, .parseLoop 0 1 0,
    .parse ['v', 'e', 'r', 'i', 'f', 'y', 'I', 'n', 's'] 10573525131658455000365299935369648652552518565632155338390913030155084554858, .assign 1 1 0 ['v', 'e', 'r', 'i', 'f', 'y', 'I', 'n', 's'], .parseLoop 1 1 2,
    .parse ['t', 'a', 'r', 'g', 'e', 't', '0'] 7059793422771910484, .parse ['t', 'a', 'r', 'g', 'e', 't', '1'] 2556686405730241944, .parse ['t', 'a', 'r', 'g', 'e', 't', '2'] 2133554817341762742,
    .parse ['t', 'a', 'r', 'g', 'e', 't', '3'] 8974371243071329347, .assign 1 3 0 ['t', 'a', 'r', 'g', 'e', 't', '0'], .assign 1 3 1 ['t', 'a', 'r', 'g', 'e', 't', '1'], .assign 1 3 2 ['t', 'a', 'r', 'g', 'e', 't', '2'], .assign 1 3 3 ['t', 'a', 'r', 'g', 'e', 't', '3'],
    .call (.newWitness 1), .call .prove, .call .pubWit, .call .verify], shippedProof, shippedAux, by decide +kernel, by decide +kernel, by decide +kernel, by decide +kernel⟩

/-- The panics of this run of `main` are those of the definition, where `rest` is what follows the compilation. -/
theorem main_run (X : Ext) (c : AggregatorCircuit) (E : Engine) (err : MainEvent → GoErr)
    (h : err (.compile mainZeros) = compileResult X c E) :
    mainPanics err [.compile mainZeros, .srs, .setup, .newWitness mainWitness, .prove, .pubWit, .verify] =
      mainGo X c E (mainPanics err [.srs, .setup, .newWitness mainWitness, .prove, .pubWit, .verify]) := by
  rw [mainPanics, mainGo, h]
  cases compileResult X c E <;> rfl

/-- The lengths of the circuit `main` compiles are those of `mainShape`, and the values of the witness are those of the shipped circuit. -/
theorem main_circuits : mainZeros.map List.length = [104, 1, 21, 4] ∧
    (∀ c, mainShape c → [c.Proof, c.VerifyInst, c.Aux, c.TargetInst].map List.length = mainZeros.map List.length) ∧
    mainWitness.map (fun l => l.map fun n => (n.map fun n : ℕ => Var.big n).getD .nil) =
      [shippedCircuit.Proof, shippedCircuit.VerifyInst, shippedCircuit.Aux, shippedCircuit.TargetInst] := by
  refine ⟨by decide, fun c h => ?_, ?_⟩
  · obtain ⟨h1, h2, h3, h4, -⟩ := h
    simp [h1, h2, h3, h4, mainZeros]
  · simp [mainWitness, shippedCircuit, bigCircuit, bigs]

end Verif
