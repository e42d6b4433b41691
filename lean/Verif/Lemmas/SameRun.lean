/- Lemmas: a run does not distinguish variables that stand for the same number. -/
import Verif.Lemmas.Frame
import Verif.Lemmas.Words

namespace Verif

/-- Two variables that the engine, and conversion to the base field, do not distinguish. -/
def Same (E : Engine) (v w : Var) : Prop := toBig E v = toBig E w ∧ setInterface v = setInterface w ∧ v.isWire = w.isWire

theorem Same.refl {E : Engine} (v : Var) : Same E v v := ⟨rfl, rfl, rfl⟩

/-- Two runs that both panic, or both end in the same state with related results. -/
def SameRun {α β : Type} (E : Engine) (R : α → β → Prop) (m : Circ α) (m' : Circ β) : Prop :=
  ∀ s, (∃ a b t, m E s = .ok (a, t) ∧ m' E s = .ok (b, t) ∧ R a b) ∨ ∃ p p', m E s = .error p ∧ m' E s = .error p'

namespace SameRun
variable {α β γ δ : Type} {E : Engine}

theorem of_eq {R : α → α → Prop} (hR : ∀ a, R a a) {m m' : Circ α} (h : ∀ s, m E s = m' E s) : SameRun E R m m' := by
  intro s
  cases hm : m E s with
  | error p => exact .inr ⟨p, p, rfl, (h s).symm.trans hm⟩
  | ok r => exact .inl ⟨r.1, r.1, r.2, rfl, (h s).symm.trans hm, hR _⟩

theorem pure {R : α → β → Prop} {a : α} {b : β} (h : R a b) : SameRun E R (Pure.pure a) (Pure.pure b) :=
  fun s => .inl ⟨a, b, s, rfl, rfl, h⟩

theorem panic {R : α → β → Prop} (m m' : String) : SameRun E R (Circ.panic m) (Circ.panic m') := fun _ => .inr ⟨_, _, rfl, rfl⟩

theorem bind {R : α → β → Prop} {S : γ → δ → Prop} {m : Circ α} {m' : Circ β} {f : α → Circ γ} {f' : β → Circ δ}
    (h : SameRun E R m m') (hf : ∀ a b, R a b → SameRun E S (f a) (f' b)) : SameRun E S (m >>= f) (m' >>= f') := by
  intro s
  rcases h s with ⟨a, b, t, e1, e2, hR⟩ | ⟨p, p', e1, e2⟩
  · simp only [Circ.bind_run, e1, e2]
    exact hf a b hR t
  · right
    simp only [Circ.bind_run, e1, e2]
    exact ⟨p, p', rfl, rfl⟩

/-- The accepted results are the same. -/
theorem ok {m m' : Circ α} (h : SameRun E Eq m m') {s : St} {r : α × St} : m E s = .ok r ↔ m' E s = .ok r := by
  rcases h s with ⟨a, b, t, e1, e2, rfl⟩ | ⟨p, p', e1, e2⟩
  · rw [e1, e2]
  · rw [e1, e2]
    constructor <;> intro h <;> cases h

end SameRun

section
variable {E : Engine}

theorem readBig_same {v w : Var} (h : Same E v w) (s : St) : readBig v E s = readBig w E s := by
  rw [readBig, readBig, h.1]

theorem sr_readBig {v w : Var} (h : Same E v w) : SameRun E Eq (readBig v) (readBig w) := .of_eq (fun _ => rfl) (readBig_same h)

theorem sr_self {α : Type} (m : Circ α) : SameRun E Eq m m := .of_eq (fun _ => rfl) fun _ => rfl

theorem sr_apiMul {a a' b b' : Var} (h : Same E a a') (h' : Same E b b') : SameRun E Eq (apiMul a b) (apiMul a' b') :=
  (sr_readBig h).bind fun _ _ e => (sr_readBig h').bind fun _ _ e' => by rw [e, e', h.2.2, h'.2.2]; exact sr_self _
theorem sr_apiAdd {a a' b b' : Var} (h : Same E a a') (h' : Same E b b') : SameRun E Eq (apiAdd a b) (apiAdd a' b') :=
  (sr_readBig h).bind fun _ _ e => (sr_readBig h').bind fun _ _ e' => by rw [e, e', h.2.2, h'.2.2]; exact sr_self _
theorem sr_apiSub {a a' b b' : Var} (h : Same E a a') (h' : Same E b b') : SameRun E Eq (apiSub a b) (apiSub a' b') :=
  (sr_readBig h).bind fun _ _ e => (sr_readBig h').bind fun _ _ e' => by rw [e, e', h.2.2, h'.2.2]; exact sr_self _
theorem sr_assertEq {a a' b b' : Var} (h : Same E a a') (h' : Same E b b') :
    SameRun E Eq (apiAssertIsEqual a b) (apiAssertIsEqual a' b') :=
  (sr_readBig h).bind fun _ _ e => (sr_readBig h').bind fun _ _ e' => by rw [e, e', h.2.2, h'.2.2]; exact sr_self _
theorem sr_assertLe {a a' b b' : Var} (h : Same E a a') (h' : Same E b b') :
    SameRun E Eq (apiAssertIsLessOrEqual a b) (apiAssertIsLessOrEqual a' b') := by
  refine (sr_readBig h').bind fun x _ e => ?_
  subst e
  have hj : SameRun E Eq (readBig a >>= fun y => emit (a.isWire || b.isWire) (decide (y ≤ x)))
      (readBig a' >>= fun y => emit (a'.isWire || b'.isWire) (decide (y ≤ x))) :=
    (sr_readBig h).bind fun _ _ e' => by rw [e', h.2.2, h'.2.2]; exact sr_self _
  by_cases hx : x < 0
  · simp only [hx, if_true]
    exact (sr_self _).bind fun _ _ _ => hj
  · simp only [hx, if_false]
    exact hj

theorem sr_readBigs {l l' : List Var} (h : List.Forall₂ (Same E) l l') : SameRun E Eq (readBigs l) (readBigs l') := by
  induction h with
  | nil => exact sr_self _
  | cons h _ ih => exact (sr_readBig h).bind fun _ _ e => ih.bind fun _ _ e' => .pure (by rw [e, e'])

theorem sr_newHint (f : HintId) (k : ℕ) {l l' : List Var} (h : List.Forall₂ (Same E) l l') :
    SameRun E Eq (newHint f k l) (newHint f k l') :=
  (sr_readBigs h).bind fun _ _ e => by rw [e]; exact sr_self _

theorem sr_mod {a a' : Var} (h : Same E a a') : SameRun E Eq (mod a) (mod a') := by
  refine (sr_newHint _ _ (.cons h .nil)).bind fun r _ e => ?_
  subst e
  refine (sr_self _).bind fun _ _ e => ?_
  subst e
  refine (sr_self _).bind fun _ _ e => ?_
  subst e
  refine (sr_self _).bind fun _ _ e => ?_
  subst e
  refine (sr_self _).bind fun _ _ e => ?_
  subst e
  refine (sr_assertEq (.refl _) h).bind fun _ _ _ => sr_self _

theorem sr_fr_mul {a a' b b' : Var} (h : Same E a a') (h' : Same E b b') : SameRun E Eq (fr_mul a b) (fr_mul a' b') :=
  (sr_apiMul h h').bind fun _ _ e => by rw [e]; exact sr_self _
theorem sr_fr_add {a a' b b' : Var} (h : Same E a a') (h' : Same E b b') : SameRun E Eq (fr_add a b) (fr_add a' b') :=
  (sr_apiAdd h h').bind fun _ _ e => by rw [e]; exact sr_self _
theorem sr_fr_neg {a a' : Var} (h : Same E a a') : SameRun E Eq (fr_neg a) (fr_neg a') := sr_apiSub (.refl _) h
theorem sr_fr_div {a a' b b' c c' : Var} (h : Same E a a') (h' : Same E b b') (h'' : Same E c c') :
    SameRun E Eq (fr_div a b c) (fr_div a' b' c') :=
  (sr_fr_mul h' h'').bind fun _ _ e => by
    rw [e]
    exact (sr_assertEq (.refl _) h).bind fun _ _ _ => sr_mod h''

theorem sr_frPowLoop {a a' : Var} (h : Same E a a') (power : ℤ) : ∀ (k : ℕ) (i : ℤ) (r r' : Var), (power - i).toNat = k → Same E r r' →
    SameRun E (Same E) (frPowLoop a power i r) (frPowLoop a' power i r')
  | 0, i, r, r', hk, hr => by
    rw [frPowLoop, frPowLoop, if_neg (by omega), if_neg (by omega)]
    exact .pure hr
  | k + 1, i, r, r', hk, hr => by
    rw [frPowLoop, frPowLoop, if_pos (by omega), if_pos (by omega)]
    exact (sr_apiMul hr h).bind fun x _ e => by
      subst e
      exact sr_frPowLoop h power k (i + 1) x x (by omega) (.refl _)

theorem sr_fr_pow {a a' : Var} (h : Same E a a') (p : Var) : SameRun E Eq (fr_pow a p) (fr_pow a' p) :=
  (sr_self _).bind fun n _ e => by
    subst e
    exact (sr_frPowLoop h n _ 1 a a' rfl h).bind fun _ _ e => sr_mod e

theorem sr_idx {l l' : List Var} (h : List.Forall₂ (Same E) l l') (i : ℕ) : SameRun E (Same E) (idx l i) (idx l' i) := by
  rw [idx, idx]
  by_cases hi : i < l.length
  · have hi' : i < l'.length := h.length_eq ▸ hi
    rw [List.getElem?_eq_getElem hi, List.getElem?_eq_getElem hi']
    exact .pure (List.forall₂_iff_get.1 h |>.2 i hi hi')
  · have hi' : ¬ i < l'.length := h.length_eq ▸ hi
    rw [List.getElem?_eq_none (by omega), List.getElem?_eq_none (by omega)]
    exact .panic _ _

theorem forall2_set {l l' : List Var} (h : List.Forall₂ (Same E) l l') (i : ℕ) {v w : Var} (hv : Same E v w) :
    List.Forall₂ (Same E) (l.set i v) (l'.set i w) := by
  induction h generalizing i with
  | nil => exact .nil
  | cons h hl ih =>
    cases i with
    | zero => exact .cons hv hl
    | succ i => exact .cons h (ih i)

theorem sr_setIdx {l l' : List Var} (h : List.Forall₂ (Same E) l l') (i : ℕ) {v w : Var} (hv : Same E v w) :
    SameRun E (List.Forall₂ (Same E)) (setIdx l i v) (setIdx l' i w) := by
  rw [setIdx, setIdx, h.length_eq]
  split_ifs
  · exact .pure (forall2_set h i hv)
  · exact .panic _ _

theorem same_refl_list : ∀ l : List Var, List.Forall₂ (Same E) l l
  | [] => .nil
  | v :: l => .cons (.refl v) (same_refl_list l)

theorem SameRun.toSame {m m' : Circ Var} (h : SameRun E Eq m m') : SameRun E (Same E) m m' := fun s => by
  rcases h s with ⟨a, b, t, e1, e2, rfl⟩ | h
  · exact .inl ⟨a, a, t, e1, e2, .refl _⟩
  · exact .inr h

theorem sr_eval {T T' B B' : List Var} (A : List Var) (hT : List.Forall₂ (Same E) T T') (hB : List.Forall₂ (Same E) B B') :
    ∀ e : Expr ℕ, SameRun E (Same E) (e.eval T A B) (e.eval T' A B')
  | .str _ => .pure (.refl _)
  | .int _ => .pure (.refl _)
  | .buf i => sr_idx hB i
  | .tr i => sr_idx hT i
  | .aux i => sr_idx (same_refl_list _) i
  | .mul a b => (sr_eval A hT hB a).bind fun _ _ h => (sr_eval A hT hB b).bind fun _ _ h' => (sr_fr_mul h h').toSame
  | .add a b => (sr_eval A hT hB a).bind fun _ _ h => (sr_eval A hT hB b).bind fun _ _ h' => (sr_fr_add h h').toSame
  | .neg a => (sr_eval A hT hB a).bind fun _ _ h => (sr_fr_neg h).toSame
  | .div a b c => (sr_eval A hT hB a).bind fun _ _ h => (sr_eval A hT hB b).bind fun _ _ h' => (sr_eval A hT hB c).bind fun _ _ h'' =>
      (sr_fr_div h h' h'').toSame
  | .pow a _ => (sr_eval A hT hB a).bind fun _ _ h => (sr_fr_pow h _).toSame

theorem sr_evalExprs {T T' B B' : List Var} (A : List Var) (hT : List.Forall₂ (Same E) T T') (hB : List.Forall₂ (Same E) B B') :
    ∀ es : List (Expr ℕ), SameRun E (List.Forall₂ (Same E)) (evalExprs T A B es) (evalExprs T' A B' es)
  | [] => .pure .nil
  | e :: es => (sr_eval A hT hB e).bind fun _ _ h => (sr_evalExprs A hT hB es).bind fun _ _ h' => .pure (.cons h h')

theorem sr_setMany : ∀ (ts : List ℕ) {vs vs' B B' : List Var}, List.Forall₂ (Same E) vs vs' → List.Forall₂ (Same E) B B' →
    SameRun E (List.Forall₂ (Same E)) (setMany B ts vs) (setMany B' ts vs')
  | [], _, _, _, _, h, hB => by cases h <;> exact .pure hB
  | _ :: _, _, _, _, _, .nil, hB => .pure hB
  | t :: ts, _, _, _, _, .cons h hv, hB => (sr_setIdx hB t h).bind fun _ _ h' => sr_setMany ts hv h'

theorem sr_scalarMul (X : Ext) {x x' y y' k k' : Var} (r : Var × Var) (h : Same E x x') (h' : Same E y y') (h'' : Same E k k') :
    SameRun E Eq (VerifyBN254ScalarMul X (x, y) k r) (VerifyBN254ScalarMul X (x', y') k' r) := by
  rw [VerifyBN254ScalarMul, VerifyBN254ScalarMul, h.2.1, h'.2.1, h''.2.1]
  exact sr_self _

theorem sr_bn254Add (X : Ext) {x x' y y' z z' w w' : Var} (r : Var × Var) (h1 : Same E x x') (h2 : Same E y y') (h3 : Same E z z')
    (h4 : Same E w w') : SameRun E Eq (VerifyBN254Add X (x, y) (z, w) r) (VerifyBN254Add X (x', y') (z', w') r) := by
  rw [VerifyBN254Add, VerifyBN254Add, h1.2.1, h2.2.1, h3.2.1, h4.2.1]
  exact sr_self _

theorem sr_calcMsm (X : Ext) {x x' y y' k k' : Var} (h : Same E x x') (h' : Same E y y') (h'' : Same E k k') :
    SameRun E Eq (CalcVerifyBN256Msm X x y k) (CalcVerifyBN256Msm X x' y' k') := by
  refine (sr_newHint _ _ (.cons h (.cons h' (.cons h'' .nil)))).bind fun r _ e => ?_
  subst e
  refine (sr_self _).bind fun _ _ e => ?_
  subst e
  refine (sr_self _).bind fun _ _ e => ?_
  subst e
  refine (sr_self _).bind fun _ _ e => ?_
  subst e
  refine (sr_self _).bind fun _ _ e => ?_
  subst e
  refine (sr_scalarMul X _ h h' h'').bind fun _ _ e => ?_
  subst e
  exact sr_self _

theorem sr_calcAdd (X : Ext) {x x' y y' z z' w w' : Var} (h1 : Same E x x') (h2 : Same E y y') (h3 : Same E z z')
    (h4 : Same E w w') : SameRun E Eq (CalcVerifyBN256Add X x y z w) (CalcVerifyBN256Add X x' y' z' w') := by
  refine (sr_newHint _ _ (.cons h1 (.cons h2 (.cons h3 (.cons h4 .nil))))).bind fun r _ e => ?_
  subst e
  refine (sr_self _).bind fun _ _ e => ?_
  subst e
  refine (sr_self _).bind fun _ _ e => ?_
  subst e
  refine (sr_self _).bind fun _ _ e => ?_
  subst e
  refine (sr_self _).bind fun _ _ e => ?_
  subst e
  refine (sr_bn254Add X _ h1 h2 h3 h4).bind fun _ _ e => ?_
  subst e
  exact sr_self _

/-- The same error, and buffers that are not distinguished. -/
def SameRes (E : Engine) (a b : GoErr × List Var) : Prop := a.1 = b.1 ∧ List.Forall₂ (Same E) a.2 b.2

theorem sr_ecc_mul (X : Ext) {B B' : List Var} (hB : List.Forall₂ (Same E) B B') (o : ℕ) :
    SameRun E (SameRes E) (ecc_mul X B o) (ecc_mul X B' o) := by
  refine (sr_idx hB _).bind fun _ _ h1 => (sr_idx hB _).bind fun _ _ h2 => (sr_idx hB _).bind fun _ _ h3 =>
    (sr_calcMsm X h1 h2 h3).bind ?_
  rintro ⟨r, err⟩ _ rfl
  cases err with
  | some m => exact .pure ⟨rfl, hB⟩
  | none => exact (sr_setIdx hB _ (.refl _)).bind fun _ _ h => (sr_setIdx h _ (.refl _)).bind fun _ _ h' => .pure ⟨rfl, h'⟩

theorem sr_ecc_mul_add (X : Ext) {B B' : List Var} (hB : List.Forall₂ (Same E) B B') (o : ℕ) :
    SameRun E (SameRes E) (ecc_mul_add X B o) (ecc_mul_add X B' o) := by
  refine (sr_ecc_mul X hB _).bind ?_
  rintro ⟨err, B1⟩ ⟨err', B1'⟩ ⟨e, hB1⟩
  have e : err = err' := e
  subst e
  cases err with
  | some m => exact .pure ⟨rfl, hB1⟩
  | none =>
    refine (sr_idx hB1 _).bind fun _ _ h1 => (sr_idx hB1 _).bind fun _ _ h2 => (sr_idx hB1 _).bind fun _ _ h3 =>
      (sr_idx hB1 _).bind fun _ _ h4 => (sr_calcAdd X h1 h2 h3 h4).bind ?_
    rintro ⟨r, err⟩ _ rfl
    exact (sr_setIdx hB1 _ (.refl _)).bind fun _ _ h => (sr_setIdx h _ (.refl _)).bind fun _ _ h' => .pure ⟨rfl, h'⟩

theorem sr_exec (X : Ext) {T T' B B' : List Var} (A : List Var) (hT : List.Forall₂ (Same E) T T') (hB : List.Forall₂ (Same E) B B') :
    ∀ st : Stmt, SameRun E (SameRes E) (st.exec X T A B) (st.exec X T' A B')
  | .set ts es => (sr_evalExprs A hT hB es).bind fun _ _ h => (sr_setMany ts h hB).bind fun _ _ h' => .pure ⟨rfl, h'⟩
  | .eccMul o => sr_ecc_mul X hB o
  | .eccMulAdd o => sr_ecc_mul_add X hB o

/-- The same with the error second. -/
def SameRes' (E : Engine) (a b : List Var × GoErr) : Prop := List.Forall₂ (Same E) a.1 b.1 ∧ a.2 = b.2

theorem sr_body (X : Ext) {T T' : List Var} (A : List Var) (hT : List.Forall₂ (Same E) T T') : ∀ (p : List Stmt) {B B' : List Var},
    List.Forall₂ (Same E) B B' → SameRun E (SameRes' E) (execBody X T A B p) (execBody X T' A B' p)
  | [], _, _, hB => .pure ⟨hB, rfl⟩
  | st :: p, _, _, hB => by
    refine (sr_exec X A hT hB st).bind ?_
    rintro ⟨err, B1⟩ ⟨err', B1'⟩ ⟨e, hB1⟩
    have e : err = err' := e
    subst e
    cases err with
    | some m => exact .pure ⟨same_refl_list _, rfl⟩
    | none => exact sr_body X A hT p hB1

theorem sr_onCurve {x x' y y' : Var} (h : Same E x x') (h' : Same E y y') :
    SameRun E Eq (VerifyCheckOnCurve x y) (VerifyCheckOnCurve x' y') := by
  rw [VerifyCheckOnCurve, VerifyCheckOnCurve, h.2.1, h'.2.1]
  exact sr_self _

theorem sr_final (X : Ext) {B B' : List Var} (hB : List.Forall₂ (Same E) B B') : SameRun E Eq (finalCheck X B) (finalCheck X B') := by
  refine (sr_idx hB 10).bind fun a a' h1 => SameRun.bind (R := Eq) ((sr_assertLe (.refl _) h1).bind fun _ _ _ => sr_self _) ?_
  rintro err _ rfl
  cases err with | some m => exact sr_self _ | none =>
  refine (sr_idx hB 11).bind fun b b' h2 => SameRun.bind (R := Eq) ((sr_assertLe (.refl _) h2).bind fun _ _ _ => sr_self _) ?_
  rintro err _ rfl
  cases err with | some m => exact sr_self _ | none =>
  refine (sr_idx hB 12).bind fun c c' h3 => SameRun.bind (R := Eq) ((sr_assertLe (.refl _) h3).bind fun _ _ _ => sr_self _) ?_
  rintro err _ rfl
  cases err with | some m => exact sr_self _ | none =>
  refine (sr_idx hB 13).bind fun d d' h4 => SameRun.bind (R := Eq) ((sr_assertLe (.refl _) h4).bind fun _ _ _ => sr_self _) ?_
  rintro err _ rfl
  cases err with | some m => exact sr_self _ | none =>
  refine SameRun.bind (R := Eq) ?_ fun w _ e => by subst e; exact sr_self _
  rw [FillVerifyCircuitsG1, FillVerifyCircuitsG1, h1.2.1, h2.2.1, h3.2.1, h4.2.1]
  exact sr_self _

theorem sr_challenges (X : Ext) (buf : List Var) {T T' : List Var} (hT : List.Forall₂ (Same E) T T')
    (h : ∀ i < 102, T[i]? = T'[i]?) : SameRun E Eq (GetChallengesShPlonkCircuit X buf T) (GetChallengesShPlonkCircuit X buf T') := by
  unfold GetChallengesShPlonkCircuit
  simp only [absorbPoints_congr h 8 _ 3 0 (by norm_num), absorbPoints_congr h 4 _ 1 16 (by norm_num),
    absorbPoints_congr h 7 _ 1 24 (by norm_num), absorbPoints_congr h 3 _ 1 38 (by norm_num),
    absorbScalars_congr h 56 _ 1 44 (by norm_num), absorbPoints_congr h 1 _ 1 100 (by norm_num)]
  have hlast : ∀ buf : List Var, SameRun E Eq
      (do let x ← idx T 102; let y ← idx T 103; let err ← VerifyCheckOnCurve x y; Pure.pure (err, buf))
      (do let x ← idx T' 102; let y ← idx T' 103; let err ← VerifyCheckOnCurve x y; Pure.pure (err, buf)) := fun buf =>
    (sr_idx hT 102).bind fun _ _ h1 => (sr_idx hT 103).bind fun _ _ h2 => (sr_onCurve h1 h2).bind fun _ _ e => by
      rw [e]; exact sr_self _
  refine (sr_self _).bind fun _ _ e => ?_
  subst e
  refine (sr_self _).bind fun _ _ e => ?_
  subst e
  refine (sr_self _).bind fun _ _ e => ?_
  subst e
  refine (sr_self _).bind fun _ _ e => ?_
  subst e
  refine (sr_self _).bind fun _ _ e => ?_
  subst e
  refine (sr_self _).bind fun r _ e => ?_
  subst e
  obtain ⟨err, r⟩ := r
  cases err with | some m => exact sr_self _ | none =>
  beta_reduce
  refine (sr_self _).bind fun r _ e => ?_
  subst e
  obtain ⟨err, r⟩ := r
  cases err with | some m => exact sr_self _ | none =>
  beta_reduce
  refine (sr_self _).bind fun r _ e => ?_
  subst e
  obtain ⟨err, r⟩ := r
  cases err with | some m => exact sr_self _ | none =>
  beta_reduce
  refine (sr_self _).bind fun r _ e => ?_
  subst e
  obtain ⟨err, r⟩ := r
  cases err with | some m => exact sr_self _ | none =>
  beta_reduce
  refine (sr_self _).bind fun r _ e => ?_
  subst e
  obtain ⟨err, r⟩ := r
  cases err with | some m => exact sr_self _ | none =>
  beta_reduce
  refine (sr_self _).bind fun r _ e => ?_
  subst e
  obtain ⟨err, r⟩ := r
  cases err with | some m => exact sr_self _ | none =>
  beta_reduce
  refine (sr_self _).bind fun r _ e => ?_
  subst e
  obtain ⟨err, r⟩ := r
  cases err with | some m => exact sr_self _ | none =>
  beta_reduce
  refine (sr_self _).bind fun r _ e => ?_
  subst e
  obtain ⟨err, r⟩ := r
  cases err with | some m => exact sr_self _ | none =>
  beta_reduce
  refine (sr_self _).bind fun r _ e => ?_
  subst e
  obtain ⟨err, r⟩ := r
  cases err with | some m => exact sr_self _ | none =>
  beta_reduce
  refine (sr_self _).bind fun r _ e => ?_
  subst e
  refine (sr_self _).bind fun r _ e => ?_
  subst e
  obtain ⟨err, r⟩ := r
  cases err with | some m => exact sr_self _ | none =>
  beta_reduce
  refine (sr_self _).bind fun r _ e => ?_
  subst e
  obtain ⟨err, r⟩ := r
  cases err with | some m => exact sr_self _ | none =>
  beta_reduce
  refine (sr_self _).bind fun r _ e => ?_
  subst e
  obtain ⟨err, r⟩ := r
  cases err with | some m => exact sr_self _ | none =>
  beta_reduce
  refine (sr_self _).bind fun r _ e => ?_
  subst e
  obtain ⟨err, r⟩ := r
  cases err with | some m => exact sr_self _ | none =>
  beta_reduce
  exact hlast _

theorem sr_verifyFrom (X : Ext) {c c' : AggregatorCircuit} (hA : c.Aux = c'.Aux) (buf : List Var)
    (hT : List.Forall₂ (Same E) c.Proof c'.Proof) (h : ∀ i < 102, c.Proof[i]? = c'.Proof[i]?) :
    SameRun E Eq (verifyFrom X c buf) (verifyFrom X c' buf) := by
  unfold verifyFrom VerifyProof1 VerifyProof2 VerifyProof3
  rw [hA]
  refine (sr_challenges X buf hT h).bind ?_
  rintro ⟨err, B⟩ _ rfl
  cases err with | some m => exact sr_self _ | none =>
  refine (sr_body X _ hT step1 (same_refl_list B)).bind ?_
  rintro ⟨B1, err⟩ ⟨B1', err'⟩ ⟨h1, e⟩
  have e : err = err' := e
  subst e
  cases err with | some m => exact sr_self _ | none =>
  refine (sr_body X _ hT step2 h1).bind ?_
  rintro ⟨B2, err⟩ ⟨B2', err'⟩ ⟨h2, e⟩
  have e : err = err' := e
  subst e
  cases err with | some m => exact sr_self _ | none =>
  refine (sr_body X _ hT step3 h2).bind ?_
  rintro ⟨B3, err⟩ ⟨B3', err'⟩ ⟨h3, e⟩
  have e : err = err' := e
  subst e
  cases err with | some m => exact sr_self _ | none =>
  exact sr_final X h3

theorem sr_define (X : Ext) {c c' : AggregatorCircuit} (hA : c.Aux = c'.Aux) (hV : c.VerifyInst = c'.VerifyInst)
    (hI : c.TargetInst = c'.TargetInst) (hT : List.Forall₂ (Same E) c.Proof c'.Proof) (h : ∀ i < 102, c.Proof[i]? = c'.Proof[i]?) :
    SameRun E Eq (c.Define X) (c'.Define X) := by
  unfold AggregatorCircuit.Define
  rw [hI, hV]
  refine (sr_self _).bind fun r _ e => ?_
  subst e
  refine (sr_self _).bind fun r _ e => ?_
  subst e
  refine (sr_self _).bind ?_
  rintro ⟨v, err⟩ _ rfl
  cases err with | some m => exact sr_self _ | none =>
  refine (sr_self _).bind fun r _ e => ?_
  subst e
  refine (sr_self _).bind fun r _ e => ?_
  subst e
  refine (sr_self _).bind ?_
  rintro ⟨err, B⟩ _ rfl
  cases err with | some m => exact sr_self _ | none =>
  exact sr_verifyFrom X hA B hT h

end

/-- The scalar multiplication hint of an accepted multiplication succeeded. -/
theorem calcMsm_hint' {X : Ext} {E : Engine} (hE : HonestRaw E) {v w u : Var} {a b k : ℤ} (hv : toBig E v = some a)
    (hw : toBig E w = some b) (hu : toBig E u = some k) {r : (Var × Var) × GoErr} {s s' : St}
    (h : CalcVerifyBN256Msm X v w u E s = .ok (r, s')) : ∃ os, MsmHint [a, b, k] = .ok os := by
  rw [CalcVerifyBN256Msm, Circ.bind_ok] at h
  obtain ⟨rs, s1, h1, -⟩ := h
  rw [newHint, Circ.bind_ok] at h1
  obtain ⟨xs, s2, h2, h1⟩ := h1
  obtain ⟨-, hf⟩ := readBigs_ok h2
  cases hf with
  | cons e1 hf => cases hf with
    | cons e2 hf => cases hf with
      | cons e3 hf =>
        cases hf
        rw [hv, Option.some.injEq] at e1
        rw [hw, Option.some.injEq] at e2
        rw [hu, Option.some.injEq] at e3
        subst e1 e2 e3
        rw [callHint, hE.msm, hE.test] at h1
        cases hh : MsmHint [a, b, k] with
        | ok os => exact ⟨os, rfl⟩
        | err => rw [hh] at h1; cases h1
        | panic => rw [hh] at h1; cases h1

/-- A multiplication by one that succeeds with the hints of the repo: the engine's integers for the coordinates stand
for the same elements of the base field as the coordinates. -/
theorem calcMsm_one {X : Ext} (hX : X.Strict) {E : Engine} (hE : HonestRaw E) {v w : Var} {a b : ℤ} (hv : toBig E v = some a)
    (hw : toBig E w = some b) {Q : G1} {x y : Fp} (hx : setInterface v = some x) (hy : setInterface w = some y) (hQ : enc Q = (x, y))
    {res : Var × Var} {s s' : St} (h : CalcVerifyBN256Msm X v w (.big 1) E s = .ok ((res, none), s')) (hs : s'.sat = true) :
    x = (((a.natAbs : ℕ) : ℤ) % rMod : ℤ) ∧ y = (((b.natAbs : ℕ) : ℤ) % rMod : ℤ) := by
  have hu : toBig E (.big 1) = some 1 := reads_of_raw hE.test hE.raw 1
  obtain ⟨os, hh⟩ := calcMsm_hint' hE hv hw hu h
  obtain ⟨P, hPa, hPb⟩ := MsmHint_ok hh
  obtain ⟨-, s0, -, px, py, kk, q1, q2, q3, n, m, hres, n0, n1, m0, m1, hm⟩ := calcMsm_ok h hs
  rw [hx, Option.some.injEq] at q1
  rw [hy, Option.some.injEq] at q2
  subst q1 q2
  obtain ⟨c, c1, c2⟩ := scalar_val 1
  have hone : ((1 : Fr).val : ℤ) = 1 := by decide +kernel
  rw [hone] at c1
  rw [c1, Option.some.injEq] at q3
  subst q3
  rw [c2, ← hQ] at hm
  have he := hX.scalarMul_deg _ _ _ hm
  rw [one_smul, hQ] at he
  have hrun := calcMsm_run (X := X) (E := E) (s := s) hE.test hE.mod hv hw hu
    ((hE.msm _ _ _).trans (MsmHint_eq (P := P) (k := 1) hPa hPb))
  rw [one_smul] at hrun
  simp only [List.getD_cons_zero, List.getD_cons_succ] at hrun
  rw [hrun] at h
  have hnm : n = ((bn256Affine P).1 : ℤ) % rMod ∧ m = ((bn256Affine P).2 : ℤ) % rMod := by
    split at h
    · rw [Except.ok.injEq, Prod.mk.injEq, Prod.mk.injEq, hres, Prod.mk.injEq, Var.big.injEq, Var.big.injEq] at h
      exact ⟨h.1.1.1.symm, h.1.1.2.symm⟩
    · cases h
  rw [Prod.mk.injEq] at he
  rcases G1.cases P with rfl | ⟨u, t, hut, rfl⟩
  · exfalso
    rw [bn256Affine_zero] at hnm
    have m1 : m = 1 := by rw [hnm.2]; decide +kernel
    have n0 : n = 0 := by rw [hnm.1]; decide +kernel
    rcases G1.cases Q with rfl | ⟨x', y', hxy, rfl⟩
    · rw [enc_zero, Prod.mk.injEq] at hQ
      rw [← hQ.2, m1, Int.cast_one] at he
      exact one_ne_zero he.2
    · rw [enc_mkPt, Prod.mk.injEq] at hQ
      rw [n0, Int.cast_zero, ← hQ.1] at he
      exact hxy.x_ne he.1.symm
  · rw [bn256Affine_ne (mkPt_ne_zero _ _ _), ← hPa, ← hPb] at hnm
    rw [← he.1, ← he.2, hnm.1, hnm.2]
    exact ⟨rfl, rfl⟩

theorem prog_two : prog.take 2 = [.set [10, 11] [.tr 102, .tr 103], .set [12] [.str 1]] ∧ prog[2]? = some (.eccMul 10) := ⟨rfl, rfl⟩

/-- The steps multiply the last point of the proof by one. -/
theorem steps_msm {X : Ext} {E : Engine} (hE : E.mode = .test) {T A B B' : List Var} {s s' : St}
    (h : execBody X T A B (prog.take 301) E s = .ok ((B', none), s')) (hs : s'.sat = true) :
    ∃ v w res t t', T[102]? = some v ∧ T[103]? = some w ∧ CalcVerifyBN256Msm X v w (.big 1) E t = .ok ((res, none), t') ∧
      t'.sat = true := by
  obtain ⟨st, B1, B2, s1, s2, hst, h1, k1, h2, k2⟩ := stmt_at hE h hs (k := 2) (by norm_num)
  rw [prog_two.2, Option.some.injEq] at hst
  subst hst
  rw [prog_two.1] at h1
  simp only [execBody, Stmt.exec, Circ.bind_ok, evalExprs, Expr.eval] at h1
  obtain ⟨⟨err, C⟩, _, ⟨vs, _, ⟨v, _, hv, _, _, ⟨w, _, hw, _, _, e0, e1⟩, e2⟩, C', _, hset, e3⟩, h1⟩ := h1
  obtain ⟨gv, rfl⟩ := idx_ok.1 hv
  obtain ⟨gw, rfl⟩ := idx_ok.1 hw
  cases e0; cases e1; cases e2; cases e3
  simp only [setMany, Circ.bind_ok, setIdx_ok] at hset
  obtain ⟨C1, _, ⟨l1, rfl, rfl⟩, C2, _, ⟨l2, rfl, rfl⟩, e4⟩ := hset
  cases e4
  simp only [Circ.bind_ok] at h1
  obtain ⟨⟨err, C⟩, _, ⟨vs, _, ⟨v1, _, e1, _, _, e2, e3⟩, C', _, hset, e4⟩, h1⟩ := h1
  cases e1; cases e2; cases e3
  simp only [setMany, Circ.bind_ok, setIdx_ok] at hset
  obtain ⟨C1, _, ⟨l3, rfl, rfl⟩, e5⟩ := hset
  cases e5; cases e4; cases h1
  rw [Stmt.exec] at h2
  simp only [ecc_mul, Circ.bind_ok, idx_ok] at h2
  obtain ⟨vx, _, ⟨hx, rfl⟩, vy, _, ⟨hy, rfl⟩, vk, _, ⟨hk, rfl⟩, ⟨res, err⟩, t', hm, h2⟩ := h2
  rw [List.length_set] at l2
  rw [List.length_set, List.length_set] at l3
  rw [List.getElem?_set_ne (by norm_num), List.getElem?_set_ne (by norm_num), List.getElem?_set_self l1, Option.some.injEq] at hx
  rw [List.getElem?_set_ne (by norm_num), List.getElem?_set_self (by rw [List.length_set]; exact l2), Option.some.injEq] at hy
  rw [List.getElem?_set_self (by rw [List.length_set, List.length_set]; exact l3), Option.some.injEq] at hk
  subst hx hy hk
  cases err with
  | some m => cases h2
  | none =>
    simp only [Circ.bind_ok, setIdx_ok] at h2
    obtain ⟨_, _, ⟨-, rfl, rfl⟩, _, _, ⟨-, rfl, rfl⟩, e6⟩ := h2
    cases e6
    exact ⟨v, w, res, _, _, gv, gw, hm, k2⟩

end Verif
