/-
Property C74: what each verification step changes.
-/
import Verif.Props.Compile
import Verif.Props.Recorded

namespace Verif

/-- The entries of the buffer that a statement may change. -/
def Stmt.writes : Stmt → List ℕ
  | .set ts _ => ts
  | .eccMul o => [o, o + 1]
  | .eccMulAdd o => [o, o + 1, o + 2, o + 3]

theorem setIdx_keeps {B B' : List Var} {j : ℕ} {v : Var} {E : Engine} {s s' : St} (h : setIdx B j v E s = .ok (B', s')) :
    B'.length = B.length ∧ ∀ i, i ≠ j → B'[i]? = B[i]? := by
  obtain ⟨-, rfl, -⟩ := setIdx_ok.1 h
  exact ⟨List.length_set .., fun i hi => List.getElem?_set_ne (Ne.symm hi)⟩

theorem ecc_mul_keeps {X : Ext} {B B' : List Var} {o : ℕ} {e : GoErr} {E : Engine} {s s' : St} (h : ecc_mul X B o E s = .ok ((e, B'), s')) :
    B'.length = B.length ∧ ∀ i, i ≠ o → i ≠ o + 1 → B'[i]? = B[i]? := by
  simp only [ecc_mul, Circ.bind_ok] at h
  obtain ⟨x, s1, -, y, s2, -, k, s3, -, ⟨res, err⟩, s4, -, h⟩ := h
  cases err with
  | some m => cases h; exact ⟨rfl, fun _ _ _ => rfl⟩
  | none =>
    simp only [Circ.bind_ok] at h
    obtain ⟨B1, s5, h1, B2, s6, h2, h3⟩ := h
    cases h3
    obtain ⟨l1, f1⟩ := setIdx_keeps h1
    obtain ⟨l2, f2⟩ := setIdx_keeps h2
    exact ⟨l2.trans l1, fun i a b => (f2 i b).trans (f1 i a)⟩

theorem ecc_mul_add_keeps {X : Ext} {B B' : List Var} {o : ℕ} {e : GoErr} {E : Engine} {s s' : St}
    (h : ecc_mul_add X B o E s = .ok ((e, B'), s')) :
    B'.length = B.length ∧ ∀ i, i ≠ o → i ≠ o + 1 → i ≠ o + 2 → i ≠ o + 3 → B'[i]? = B[i]? := by
  simp only [ecc_mul_add, Circ.bind_ok] at h
  obtain ⟨⟨err, B1⟩, s1, h1, h⟩ := h
  obtain ⟨l0, f0⟩ := ecc_mul_keeps h1
  cases err with
  | some m => cases h; exact ⟨l0, fun i _ _ a b => f0 i a b⟩
  | none =>
    simp only [Circ.bind_ok] at h
    obtain ⟨_, _, -, _, _, -, _, _, -, _, _, -, ⟨res, _⟩, _, -, B2, _, h2, B3, _, h3, h4⟩ := h
    cases h4
    obtain ⟨l1, f1⟩ := setIdx_keeps h2
    obtain ⟨l2, f2⟩ := setIdx_keeps h3
    exact ⟨l2.trans (l1.trans l0), fun i a b c d => (f2 i b).trans ((f1 i a).trans (f0 i c d))⟩

theorem storeMany_keeps {ts : List ℕ} {vs B : List Var} {i : ℕ} (h : i ∉ ts) : (storeMany B ts vs)[i]? = B[i]? := by
  induction ts generalizing vs B with
  | nil => simp [storeMany]
  | cons t ts ih =>
    simp only [List.mem_cons, not_or] at h
    cases vs with
    | nil => simp [storeMany]
    | cons v vs =>
      simp only [storeMany]
      rw [ih h.2, List.getElem?_set_ne (Ne.symm h.1)]

theorem exec_keeps {X : Ext} {T A B B' : List Var} {st : Stmt} {e : GoErr} {E : Engine} {s s' : St}
    (h : st.exec X T A B E s = .ok ((e, B'), s')) : B'.length = B.length ∧ ∀ i ∉ st.writes, B'[i]? = B[i]? := by
  cases st with
  | set ts es =>
    simp only [Stmt.exec, Circ.bind_ok] at h
    obtain ⟨vs, s1, -, B1, s2, h1, h2⟩ := h
    cases h2
    obtain ⟨-, rfl⟩ := setMany_ok h1
    exact ⟨storeMany_length .., fun i hi => storeMany_keeps hi⟩
  | eccMul o =>
    obtain ⟨l, f⟩ := ecc_mul_keeps h
    exact ⟨l, fun i hi => by simp only [Stmt.writes, List.mem_cons, List.not_mem_nil, or_false, not_or] at hi; exact f i hi.1 hi.2⟩
  | eccMulAdd o =>
    obtain ⟨l, f⟩ := ecc_mul_add_keeps h
    exact ⟨l, fun i hi => by
      simp only [Stmt.writes, List.mem_cons, List.not_mem_nil, or_false, not_or] at hi
      exact f i hi.1 hi.2.1 hi.2.2.1 hi.2.2.2⟩

theorem execBody_keeps {X : Ext} {T A : List Var} {E : Engine} : ∀ {p : List Stmt} {B B' : List Var} {e : GoErr} {s s' : St},
    execBody X T A B p E s = .ok ((B', e), s') →
      (e = none → B'.length = B.length ∧ ∀ i ∉ p.flatMap Stmt.writes, B'[i]? = B[i]?) ∧ (e ≠ none → B' = List.replicate 43 .nil)
  | [], B, B', e, s, s', h => by
    cases h
    exact ⟨fun _ => ⟨rfl, fun _ _ => rfl⟩, fun h => absurd rfl h⟩
  | st :: p, B, B', e, s, s', h => by
    simp only [execBody, Circ.bind_ok] at h
    obtain ⟨⟨err, B1⟩, s1, h1, h⟩ := h
    cases err with
    | some m => cases h; exact ⟨fun h => (nomatch h), fun _ => rfl⟩
    | none =>
      obtain ⟨l1, f1⟩ := exec_keeps h1
      obtain ⟨g1, g2⟩ := execBody_keeps h
      refine ⟨fun he => ⟨(g1 he).1.trans l1, fun i hi => ?_⟩, g2⟩
      rw [List.flatMap_cons, List.mem_append, not_or] at hi
      exact ((g1 he).2 i hi.2).trans (f1 i hi.1)

theorem frame_of {p : List Stmt} {P : ℕ → Bool} (h : (p.flatMap Stmt.writes).all (fun i => !P i) = true) {i : ℕ} (hi : P i = true) :
    i ∉ p.flatMap Stmt.writes := fun hm => by
  have := List.all_eq_true.1 h i hm
  rw [hi] at this
  cases this

/-- C74: `VerifyProof1`, whatever the inputs, the engine and the hints: without an error it keeps the number of entries and leaves the
entries 0 to 9 and 13 to 16 as they were; with an error it returns 43 empty entries. -/
theorem C74_step1 {X : Ext} {T A B B' : List Var} {e : GoErr} {E : Engine} {s s' : St} (h : VerifyProof1 X T A B E s = .ok ((B', e), s')) :
    (e = none → B'.length = B.length ∧ ∀ i, i ≤ 9 ∨ 13 ≤ i ∧ i ≤ 16 ∨ 43 ≤ i → B'[i]? = B[i]?) ∧ (e ≠ none → B' = List.replicate 43 .nil) := by
  obtain ⟨h1, h2⟩ := execBody_keeps h
  exact ⟨fun he => ⟨(h1 he).1, fun i hi => (h1 he).2 i (frame_of (P := fun i => decide (i ≤ 9 ∨ 13 ≤ i ∧ i ≤ 16 ∨ 43 ≤ i))
    (by decide +kernel) (decide_eq_true hi))⟩, h2⟩

/-- C74: `VerifyProof2` leaves the entries 0 to 11, 22, 28, 35, 41 and 42. -/
theorem C74_step2 {X : Ext} {T A B B' : List Var} {e : GoErr} {E : Engine} {s s' : St} (h : VerifyProof2 X T A B E s = .ok ((B', e), s')) :
    (e = none → B'.length = B.length ∧ ∀ i, i ≤ 11 ∨ i = 22 ∨ i = 28 ∨ i = 35 ∨ 41 ≤ i → B'[i]? = B[i]?) ∧
      (e ≠ none → B' = List.replicate 43 .nil) := by
  obtain ⟨h1, h2⟩ := execBody_keeps h
  exact ⟨fun he => ⟨(h1 he).1, fun i hi => (h1 he).2 i (frame_of (P := fun i => decide (i ≤ 11 ∨ i = 22 ∨ i = 28 ∨ i = 35 ∨ 41 ≤ i))
    (by decide +kernel) (decide_eq_true hi))⟩, h2⟩

/-- C74: `VerifyProof3` changes only the entries 12 to 17 and 20. -/
theorem C74_step3 {X : Ext} {T A B B' : List Var} {e : GoErr} {E : Engine} {s s' : St} (h : VerifyProof3 X T A B E s = .ok ((B', e), s')) :
    (e = none → B'.length = B.length ∧ ∀ i, i ≤ 11 ∨ i = 18 ∨ i = 19 ∨ 21 ≤ i → B'[i]? = B[i]?) ∧
      (e ≠ none → B' = List.replicate 43 .nil) := by
  obtain ⟨h1, h2⟩ := execBody_keeps h
  exact ⟨fun he => ⟨(h1 he).1, fun i hi => (h1 he).2 i (frame_of (P := fun i => decide (i ≤ 11 ∨ i = 18 ∨ i = 19 ∨ 21 ≤ i))
    (by decide +kernel) (decide_eq_true hi))⟩, h2⟩

/-- C74: the error case is what a compiled circuit gets: with a circuit variable at position 102 of the proof, `VerifyProof1` returns 43
empty entries and the error of SetInterface. -/
theorem C74_wire (X : Ext) {T A B : List Var} {E : Engine} (hE : E.mode = .compile) {a : Fr} {v : Var} (h1 : T[102]? = some (.wire a))
    (h2 : T[103]? = some v) (hv : v ≠ .nil) (hB : B.length = 43) (s : St) :
    ∃ s', VerifyProof1 X T A B E s = .ok ((List.replicate 43 .nil, some "can't set fp.Element"), s') := by
  obtain ⟨B1, hB1, l1, e10, e11, e12⟩ : ∃ B1 : List Var, ((B.set 10 (.wire a)).set 11 v).set 12 (.big 1) = B1 ∧ B1.length = 43 ∧
      B1[10]? = some (.wire a) ∧ B1[11]? = some v ∧ B1[12]? = some (.big 1) := by
    refine ⟨_, rfl, by simp [hB], ?_, ?_, ?_⟩ <;> simp [hB]
  have key : (CalcVerifyBN256Msm X (.wire a) v (.big 1)).Returns E fun p => p.2 = errSetInterface :=
    .bind (.newHint hE .msmHint 2 (by simpa using hv)) fun r hr =>
      .bind (.idx (by omega)) fun r0 h0 => .bind (.mod hE (Circ.Returns.wire_ne (Circ.Returns.mem_of_get hr.2 h0))) fun r0' _ =>
        .bind (.idx (by omega)) fun r1 h1 => .bind (.mod hE (Circ.Returns.wire_ne (Circ.Returns.mem_of_get hr.2 h1))) fun r1' _ =>
          .bind (Q := fun e => e = errSetInterface) (fun s => ⟨errSetInterface, s, rfl, rfl⟩) fun e he => .pure he
  obtain ⟨⟨res, e⟩, s', hr, he⟩ := key s
  dsimp only at he
  subst he
  refine ⟨s', ?_⟩
  have i1 : ∀ {l : List Var} {i : ℕ} {x : Var}, l[i]? = some x → idx l i E s = .ok (x, s) := fun h => idx_ok.2 ⟨h, rfl⟩
  have x1 : (Stmt.set [10, 11] [.tr 102, .tr 103]).exec X T A B E s = .ok ((none, (B.set 10 (.wire a)).set 11 v), s) :=
    Circ.bind_ok.2 ⟨[.wire a, v], s, Circ.bind_ok.2 ⟨.wire a, s, i1 h1, Circ.bind_ok.2 ⟨[v], s, Circ.bind_ok.2 ⟨v, s, i1 h2,
      Circ.bind_ok.2 ⟨[], s, rfl, rfl⟩⟩, rfl⟩⟩, Circ.bind_ok.2 ⟨_, s, Circ.bind_ok.2 ⟨_, s, setIdx_ok.2 ⟨by omega, rfl, rfl⟩,
      Circ.bind_ok.2 ⟨_, s, setIdx_ok.2 ⟨by rw [List.length_set]; omega, rfl, rfl⟩, rfl⟩⟩, rfl⟩⟩
  have x2 : (Stmt.set [12] [.str 1]).exec X T A ((B.set 10 (.wire a)).set 11 v) E s = .ok ((none, B1), s) :=
    Circ.bind_ok.2 ⟨[.big 1], s, Circ.bind_ok.2 ⟨.big 1, s, rfl, Circ.bind_ok.2 ⟨[], s, rfl, rfl⟩⟩,
      Circ.bind_ok.2 ⟨B1, s, Circ.bind_ok.2 ⟨_, s, setIdx_ok.2 ⟨by rw [List.length_set, List.length_set]; omega, hB1.symm, rfl⟩, rfl⟩, rfl⟩⟩
  have x3 : (Stmt.eccMul 10).exec X T A B1 E s = .ok ((errSetInterface, B1), s') :=
    Circ.bind_ok.2 ⟨.wire a, s, i1 e10, Circ.bind_ok.2 ⟨v, s, i1 e11, Circ.bind_ok.2 ⟨.big 1, s, i1 e12,
      Circ.bind_ok.2 ⟨(res, errSetInterface), s', hr, rfl⟩⟩⟩⟩
  have hs : step1 = .set [10, 11] [.tr 102, .tr 103] :: .set [12] [.str 1] :: .eccMul 10 :: step1.drop 3 := rfl
  rw [VerifyProof1, hs]
  exact Circ.bind_ok.2 ⟨_, s, x1, Circ.bind_ok.2 ⟨_, s, x2, Circ.bind_ok.2 ⟨_, s', x3, rfl⟩⟩⟩

/-- C74_step1: the run of `VerifyProof1` on the shipped proof. -/
example {X : Ext} (hX : X.Lawful) : ∃ B' s', VerifyProof1 X shippedCircuit.Proof shippedCircuit.Aux
    (recordedBuf.map fun n : ℕ => .big n) (honestTest X true) .init = .ok ((B', none), s') ∧ B'.length = 43 ∧ B'[16]? = some (.big (recordedBuf.getD 16 0 : ℕ)) := by
  have hl : (recordedBuf.map fun n : ℕ => Var.big n).length = 43 := by rw [List.length_map]; decide +kernel
  have hg : ∀ i < 43, (recordedBuf.map fun n : ℕ => Var.big n)[i]? = some (.big (recordedBuf.getD i 0 : ℕ)) := fun i hi => by
    have : recordedBuf.length = 43 := by decide +kernel
    rw [List.getElem?_map, List.getD_eq_getElem?_getD, List.getElem?_eq_getElem (by omega)]; rfl
  obtain ⟨B', s', h, -, -⟩ := C49_recorded_step hX hl (fun i hi => hg i (by omega)) (s := .init) rfl
  obtain ⟨l, f⟩ := (C74_step1 h).1 rfl
  exact ⟨B', s', h, l.trans hl, (f 16 (by omega)).trans (hg 16 (by omega))⟩

/-- C74_wire, and C74_step1 with an error: the circuit of `main`. -/
example (X : Ext) : ∃ s', VerifyProof1 X exShape.Proof exShape.Aux (List.replicate 43 (.wire 1)) exComp .init =
    .ok ((List.replicate 43 .nil, some "can't set fp.Element"), s') :=
  C74_wire X rfl (a := 0) (v := .wire 0) (by decide +kernel) (by decide +kernel) (by simp) (List.length_replicate) _

end Verif
