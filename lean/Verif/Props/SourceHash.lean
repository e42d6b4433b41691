/-
The model against the Go text, continued: `VerifyInstanceHash`, `PackUInt8Variables`, `VerifyKeccak256` and `VerifySha256`
are what the files of /repo say. As in Verif/Props/Source these are statements about the model, not properties of the program.
-/
import Verif.Model.HashText
import Verif.Props.Source

namespace Verif

open Go

set_option maxRecDepth 1000000 in
/-- The text of `VerifyInstanceHash` is the program `instProg`. -/
theorem source_instance_hash : Go.instanceHash goCircuit.toList = some instProg := by
  rw [toList_lit (s := goCircuit) _ (by unfold goCircuit; rfl)]
  decide +kernel

theorem bind_congr_ok {α β : Type} {m : Circ α} {f g : α → Circ β} (h : ∀ E s a s', m E s = .ok (a, s') → f a = g a) : m >>= f = m >>= g := by
  funext E s
  rw [Circ.bind_run, Circ.bind_run]
  cases hm : m E s with
  | error p => rfl
  | ok x => obtain ⟨a, s'⟩ := x; simp only [h E s a s' hm]

theorem newHint_length {f : HintId} {n : ℕ} {ins : List Var} {E : Engine} {s s' : St} {rs : List Var}
    (h : newHint f n ins E s = .ok (rs, s')) : rs.length = n := by
  rw [newHint, Circ.bind_ok] at h
  obtain ⟨xs, s1, -, h⟩ := h
  rw [callHint] at h
  split at h
  · cases h; simp [hintOuts]
  all_goals
    split at h
    · cases h
    · cases h; simp [hintOuts]

/-- The appending loop checks the bytes in a range of the slice. -/
theorem byteLoop_eq (rs : List Var) : ∀ (n i : ℕ) (l : List Var), i + n ≤ rs.length →
    byteLoop rs n i l = (do let bs ← ((rs.drop i).take n).mapM byteValueOf; pure (l ++ bs))
  | 0, i, l, _ => by simp [byteLoop]
  | n + 1, i, l, h => by
    have hi : i < rs.length := by omega
    have h1 : (idx rs i : Circ Var) = pure rs[i] := by simp [idx, List.getElem?_eq_getElem hi]
    rw [List.drop_eq_getElem_cons hi, List.take_succ_cons, List.mapM_cons, byteLoop, h1]
    simp only [pure_bind, bind_assoc]
    refine bind_congr fun b => ?_
    rw [byteLoop_eq rs n (i + 1) _ (by omega)]
    refine bind_congr fun bs => ?_
    rw [List.append_assoc]; rfl

/-- Running the text is the definition, whatever the local variables are at the start. -/
theorem run_instance_hash (X : Ext) (inputs : List Var) (st : InstState) : runInst X inputs instProg st = VerifyInstanceHash X inputs := by
  simp only [instProg, runInst, VerifyInstanceHash]
  refine bind_congr_ok fun E s rs s' h => ?_
  have hl := newHint_length h
  rw [byteLoop_eq rs _ 1 [] (by omega), byteLoop_eq rs _ 33 [] (by omega)]
  simp only [bind_assoc, pure_bind, List.nil_append]
  refine bind_congr fun _ => bind_congr fun _ => bind_congr fun _ => ?_
  rw [if_pos ⟨by omega, by omega⟩]

set_option maxRecDepth 1000000 in
/-- The text of `PackUInt8Variables`; its run is the definition. -/
theorem source_pack : ∃ l, Go.pack goUtils.toList = some l ∧ ∀ inputs r, runPack inputs l r = PackUInt8Variables inputs := by
  rw [toList_lit (s := goUtils) _ (by unfold goUtils; rfl)]
  refine ⟨[.init 0, .loop 1 2 8, .ret], by decide +kernel, fun inputs r => ?_⟩
  have h : ∀ vs v, packRun 2 8 vs v = packLoop v vs := by
    intro vs
    induction vs with
    | nil => intro v; rfl
    | cons w vs ih => intro v; simp only [packRun, packLoop, ih]; rfl
  cases inputs with
  | nil => rfl
  | cons v vs => simp [runPack, PackUInt8Variables, idx, h]

/-- The asserting loop. -/
theorem assertLoop_eq (hv res : List Var) : ∀ (n i : ℕ), i + n = res.length → assertLoop hv res n i = byteAssertLoop hv (res.drop i) i
  | 0, i, h => by rw [List.drop_of_length_le (by omega)]; rfl
  | n + 1, i, h => by
    have hi : i < res.length := by omega
    have h1 : (idx res i : Circ Var) = pure res[i] := by simp [idx, List.getElem?_eq_getElem hi]
    rw [List.drop_eq_getElem_cons hi, assertLoop, byteAssertLoop, h1]
    simp only [pure_bind, assertLoop_eq hv res n (i + 1) (by omega)]

set_option maxRecDepth 1000000 in
/-- The text of `VerifyKeccak256`; its run is the definition. -/
theorem source_keccak : ∃ l, Go.hashFun "VerifyKeccak256".toList goLib.toList = some l ∧
    ∀ X i h st, runHash X i h l st = VerifyKeccak256 X i h := by
  rw [toList_lit (s := goLib) _ (by unfold goLib; rfl)]
  refine ⟨[.keccak, .bytes, .write, .sum, .loop, .ret], by decide +kernel, fun X i h st => ?_⟩
  simp [runHash, VerifyKeccak256, assertLoop_eq]

set_option maxRecDepth 1000000 in
/-- The text of `VerifySha256`. -/
theorem source_sha : ∃ l, Go.hashFun "VerifySha256".toList goLib.toList = some l ∧
    ∀ X i h st, runHash X i h l st = VerifySha256 X i h := by
  rw [toList_lit (s := goLib) _ (by unfold goLib; rfl)]
  refine ⟨[.sha, .bytes, .write, .sum, .loop, .ret], by decide +kernel, fun X i h st => ?_⟩
  simp [runHash, VerifySha256, assertLoop_eq]

end Verif
