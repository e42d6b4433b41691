/- Which hints a circuit function can call; and that the test engine never goes on after a failed constraint. -/
import Verif.Model.Define

namespace Verif

/-- Every successful run only adds hints of S to the log; in the test engine it leaves no constraint unsatisfied. -/
def HintsIn (S : List HintId) {α : Type} (m : Circ α) : Prop :=
  ∀ E s a s', m E s = .ok (a, s') → (∃ l, s'.hints = s.hints ++ l ∧ ∀ f ∈ l, f ∈ S) ∧ (E.mode = .test → s'.sat = s.sat)

namespace HintsIn
variable {S : List HintId} {α β : Type}

theorem of_eq {m : Circ α} (h : ∀ E s a s', m E s = .ok (a, s') → s'.hints = s.hints ∧ (E.mode = .test → s'.sat = s.sat)) :
    HintsIn S m :=
  fun E s a s' hm => ⟨⟨[], by rw [(h E s a s' hm).1, List.append_nil], by simp⟩, (h E s a s' hm).2⟩

theorem pure (a : α) : HintsIn S (Pure.pure a : Circ α) := of_eq fun E s a s' h => by cases h; exact ⟨rfl, fun _ => rfl⟩

theorem panic (m : String) : HintsIn S (Circ.panic m : Circ α) := of_eq fun E s a s' h => by cases h

theorem bind {m : Circ α} {f : α → Circ β} (h1 : HintsIn S m) (h2 : ∀ a, HintsIn S (f a)) : HintsIn S (m >>= f) := by
  intro E s b s' h
  rw [Circ.bind_ok] at h
  obtain ⟨a, s1, g1, g2⟩ := h
  obtain ⟨⟨l1, e1, m1⟩, t1⟩ := h1 _ _ _ _ g1
  obtain ⟨⟨l2, e2, m2⟩, t2⟩ := h2 a _ _ _ _ g2
  refine ⟨⟨l1 ++ l2, by rw [e2, e1, List.append_assoc], fun f hf => ?_⟩, fun hE => (t2 hE).trans (t1 hE)⟩
  rcases List.mem_append.1 hf with hf | hf
  · exact m1 f hf
  · exact m2 f hf

theorem readBig (v : Var) : HintsIn S (Verif.readBig v) := of_eq fun E s a s' h => by
  unfold Verif.readBig at h
  split at h
  · cases h; exact ⟨rfl, fun _ => rfl⟩
  · cases h

theorem mkRes (w : Bool) (n : ℤ) : HintsIn S (Verif.mkRes w n) := of_eq fun E s a s' h => by cases h; exact ⟨rfl, fun _ => rfl⟩

theorem emit (w c : Bool) : HintsIn S (Verif.emit w c) := of_eq fun E s a s' h => by
  unfold Verif.emit at h
  split at h
  · cases h; exact ⟨rfl, fun _ => rfl⟩
  · split at h
    · rename_i hm
      cases h; exact ⟨rfl, fun hE => by rw [hm.1] at hE; cases hE⟩
    · cases h

theorem apiAdd (a b : Var) : HintsIn S (Verif.apiAdd a b) := (readBig _).bind fun _ => (readBig _).bind fun _ => mkRes _ _
theorem apiSub (a b : Var) : HintsIn S (Verif.apiSub a b) := (readBig _).bind fun _ => (readBig _).bind fun _ => mkRes _ _
theorem apiMul (a b : Var) : HintsIn S (Verif.apiMul a b) := (readBig _).bind fun _ => (readBig _).bind fun _ => mkRes _ _
theorem apiAssertIsEqual (a b : Var) : HintsIn S (Verif.apiAssertIsEqual a b) :=
  (readBig _).bind fun _ => (readBig _).bind fun _ => emit _ _
theorem apiAssertIsLessOrEqual (a b : Var) : HintsIn S (Verif.apiAssertIsLessOrEqual a b) :=
  (readBig _).bind fun _ => by
    split
    · exact (panic _).bind fun _ => (readBig _).bind fun _ => emit _ _
    · exact (readBig _).bind fun _ => emit _ _

theorem readBigs : ∀ l : List Var, HintsIn S (Verif.readBigs l)
  | [] => pure _
  | _ :: l => (readBig _).bind fun _ => (readBigs l).bind fun _ => pure _

theorem newHint {f : HintId} (hf : f ∈ S) (n : ℕ) (ins : List Var) : HintsIn S (Verif.newHint f n ins) :=
  (readBigs _).bind fun xs => by
    intro E s a s' h
    refine ⟨⟨[f], ?_, by simpa using hf⟩, fun hE => ?_⟩
    · unfold callHint at h
      split at h
      · cases h; rfl
      · split at h
        · cases h
        · cases h; rfl
      · split at h
        · cases h
        · cases h; rfl
    · unfold callHint at h
      simp only [hE] at h
      split at h <;> cases h
      rfl

theorem idx (a : List Var) (i : ℕ) : HintsIn S (Verif.idx a i) := by
  unfold Verif.idx
  split
  · exact pure _
  · exact panic _

theorem setIdx (a : List Var) (i : ℕ) (v : Var) : HintsIn S (Verif.setIdx a i v) := by
  unfold Verif.setIdx
  split
  · exact pure _
  · exact panic _

theorem asBigInt (v : Var) : HintsIn S (Verif.asBigInt v) := by
  unfold Verif.asBigInt
  split
  · exact pure _
  · exact panic _

theorem mapM {γ : Type} {f : γ → Circ β} (hf : ∀ x, HintsIn S (f x)) : ∀ l : List γ, HintsIn S (l.mapM f)
  | [] => by rw [List.mapM_nil]; exact pure _
  | x :: l => by rw [List.mapM_cons]; exact (hf x).bind fun _ => (mapM hf l).bind fun _ => pure _

/-! ### Functions of the repo -/

theorem mod (hS : .modHint ∈ S) (a : Var) : HintsIn S (Verif.mod a) :=
  (newHint hS _ _).bind fun _ => (idx _ _).bind fun _ => (idx _ _).bind fun _ => (apiMul _ _).bind fun _ =>
    (apiAdd _ _).bind fun _ => (apiAssertIsEqual _ _).bind fun _ => pure _

theorem fr_mul (hS : .modHint ∈ S) (a b : Var) : HintsIn S (Verif.fr_mul a b) := (apiMul _ _).bind fun _ => mod hS _
theorem fr_add (hS : .modHint ∈ S) (a b : Var) : HintsIn S (Verif.fr_add a b) := (apiAdd _ _).bind fun _ => mod hS _
theorem fr_div (hS : .modHint ∈ S) (a b c : Var) : HintsIn S (Verif.fr_div a b c) :=
  (fr_mul hS _ _).bind fun _ => (apiAssertIsEqual _ _).bind fun _ => mod hS _
theorem fr_neg (a : Var) : HintsIn S (Verif.fr_neg a) := apiSub _ _

theorem frPowLoop (a : Var) (p : ℤ) : ∀ (k : ℕ) (i : ℤ) (r : Var), (p - i).toNat = k → HintsIn S (Verif.frPowLoop a p i r)
  | 0, i, r, h => by
    rw [Verif.frPowLoop, if_neg (by omega)]; exact pure _
  | k + 1, i, r, h => by
    rw [Verif.frPowLoop, if_pos (by omega)]
    exact (apiMul _ _).bind fun _ => frPowLoop a p k (i + 1) _ (by omega)

theorem fr_pow (hS : .modHint ∈ S) (a p : Var) : HintsIn S (Verif.fr_pow a p) :=
  (asBigInt _).bind fun _ => (frPowLoop _ _ _ _ _ rfl).bind fun _ => mod hS _

theorem vsm (X : Ext) (p e : Var × Var) (k : Var) : HintsIn S (VerifyBN254ScalarMul X p k e) := by
  unfold VerifyBN254ScalarMul
  split
  · exact pure _
  split
  · exact pure _
  split
  · exact pure _
  refine (emit _ _).bind fun _ => ?_
  split
  · exact pure _
  split
  · exact pure _
  exact (emit _ _).bind fun _ => pure _

theorem vadd (X : Ext) (p q e : Var × Var) : HintsIn S (VerifyBN254Add X p q e) := by
  unfold VerifyBN254Add
  split
  · exact pure _
  split
  · exact pure _
  split
  · exact pure _
  split
  · exact pure _
  refine (emit _ _).bind fun _ => ?_
  split
  · exact pure _
  split
  · exact pure _
  exact (emit _ _).bind fun _ => pure _

theorem calcMsm (X : Ext) (h1 : .modHint ∈ S) (h2 : .msmHint ∈ S) (x y k : Var) : HintsIn S (CalcVerifyBN256Msm X x y k) :=
  (newHint h2 _ _).bind fun _ => (idx _ _).bind fun _ => (mod h1 _).bind fun _ => (idx _ _).bind fun _ =>
    (mod h1 _).bind fun _ => (vsm _ _ _ _).bind fun _ => pure _

theorem calcAdd (X : Ext) (h1 : .modHint ∈ S) (h2 : .addHint ∈ S) (a b c d : Var) :
    HintsIn S (CalcVerifyBN256Add X a b c d) :=
  (newHint h2 _ _).bind fun _ => (idx _ _).bind fun _ => (mod h1 _).bind fun _ => (idx _ _).bind fun _ =>
    (mod h1 _).bind fun _ => (vadd _ _ _ _).bind fun _ => pure _

theorem ecc_mul (X : Ext) (h1 : .modHint ∈ S) (h2 : .msmHint ∈ S) (B : List Var) (o : ℕ) : HintsIn S (Verif.ecc_mul X B o) :=
  (idx _ _).bind fun _ => (idx _ _).bind fun _ => (idx _ _).bind fun _ => (calcMsm X h1 h2 _ _ _).bind fun ⟨_, e⟩ => by
    cases e with
    | some m => exact pure _
    | none => exact (setIdx _ _ _).bind fun _ => (setIdx _ _ _).bind fun _ => pure _

theorem ecc_mul_add (X : Ext) (h1 : .modHint ∈ S) (h2 : .msmHint ∈ S) (h3 : .addHint ∈ S) (B : List Var) (o : ℕ) :
    HintsIn S (Verif.ecc_mul_add X B o) :=
  (ecc_mul X h1 h2 _ _).bind fun ⟨e, _⟩ => by
    cases e with
    | some m => exact pure _
    | none =>
      exact (idx _ _).bind fun _ => (idx _ _).bind fun _ => (idx _ _).bind fun _ => (idx _ _).bind fun _ =>
        (calcAdd X h1 h3 _ _ _ _).bind fun _ => (setIdx _ _ _).bind fun _ => (setIdx _ _ _).bind fun _ => pure _

theorem eval (hS : .modHint ∈ S) (T A B : List Var) : ∀ e : Expr ℕ, HintsIn S (e.eval T A B)
  | .str _ => pure _
  | .int _ => pure _
  | .buf _ => idx _ _
  | .tr _ => idx _ _
  | .aux _ => idx _ _
  | .mul a b => (eval hS T A B a).bind fun _ => (eval hS T A B b).bind fun _ => fr_mul hS _ _
  | .add a b => (eval hS T A B a).bind fun _ => (eval hS T A B b).bind fun _ => fr_add hS _ _
  | .neg a => (eval hS T A B a).bind fun _ => fr_neg _
  | .div a b c => (eval hS T A B a).bind fun _ => (eval hS T A B b).bind fun _ => (eval hS T A B c).bind fun _ =>
      fr_div hS _ _ _
  | .pow a _ => (eval hS T A B a).bind fun _ => fr_pow hS _ _

theorem evalExprs (hS : .modHint ∈ S) (T A B : List Var) : ∀ es : List (Expr ℕ), HintsIn S (Verif.evalExprs T A B es)
  | [] => pure _
  | e :: es => (eval hS T A B e).bind fun _ => (evalExprs hS T A B es).bind fun _ => pure _

theorem setMany : ∀ (ts : List ℕ) (vs B : List Var), HintsIn S (Verif.setMany B ts vs)
  | [], _, _ => by unfold Verif.setMany; exact pure _
  | _ :: _, [], _ => by unfold Verif.setMany; exact pure _
  | _ :: ts, _ :: vs, _ => by unfold Verif.setMany; exact (setIdx _ _ _).bind fun _ => setMany ts vs _

theorem execBody (X : Ext) (h1 : .modHint ∈ S) (h2 : .msmHint ∈ S) (h3 : .addHint ∈ S) (T A : List Var) :
    ∀ (P : List Stmt) (B : List Var), HintsIn S (Verif.execBody X T A B P)
  | [], _ => pure _
  | st :: P, B => by
    unfold Verif.execBody
    refine bind (m := st.exec X T A B) ?_ fun ⟨e, B'⟩ => ?_
    · cases st with
      | set ts es => exact (evalExprs h1 T A B es).bind fun _ => (setMany _ _ _).bind fun _ => pure _
      | eccMul o => exact ecc_mul X h1 h2 _ _
      | eccMulAdd o => exact ecc_mul_add X h1 h2 h3 _ _
    · cases e with
      | some m => exact pure _
      | none => exact execBody X h1 h2 h3 T A P B'

theorem copyInst : ∀ (vs buf : List Var) (k : ℕ), HintsIn S (Verif.copyInst buf k vs)
  | [], _, _ => pure _
  | _ :: vs, _, k => (setIdx _ _ _).bind fun _ => copyInst vs _ (k + 1)

theorem packLoop : ∀ (l : List Var) (r : Var), HintsIn S (Verif.packLoop r l)
  | [], _ => pure _
  | _ :: l, _ => (apiMul _ _).bind fun _ => (apiAdd _ _).bind fun _ => packLoop l _

theorem pack : ∀ l : List Var, HintsIn S (PackUInt8Variables l)
  | [] => panic _
  | _ :: l => packLoop l _

theorem byteAssertLoop (hv : List Var) : ∀ (l : List Var) (i : ℕ), HintsIn S (Verif.byteAssertLoop hv l i)
  | [], _ => pure _
  | _ :: l, i => (idx _ _).bind fun _ => (apiAssertIsEqual _ _).bind fun _ => byteAssertLoop hv l (i + 1)

theorem hashGadget (h : List UInt8 → List UInt8) (l : List Var) : HintsIn S (Verif.hashGadget h l) :=
  (readBigs _).bind fun _ => (emit _ _).bind fun _ => mapM (fun _ => mkRes _ _) _

theorem keccak (X : Ext) (l d : List Var) : HintsIn S (VerifyKeccak256 X l d) :=
  (hashGadget _ _).bind fun _ => (byteAssertLoop _ _ _).bind fun _ => pure _
theorem sha (X : Ext) (l d : List Var) : HintsIn S (VerifySha256 X l d) :=
  (hashGadget _ _).bind fun _ => (byteAssertLoop _ _ _).bind fun _ => pure _

theorem byteValueOf (v : Var) : HintsIn S (Verif.byteValueOf v) := (readBig _).bind fun _ => (emit _ _).bind fun _ => pure _

theorem vih (X : Ext) (hk : .keccakHint ∈ S) (l : List Var) : HintsIn S (VerifyInstanceHash X l) :=
  (newHint hk _ _).bind fun _ => (mapM byteValueOf _).bind fun _ => (mapM byteValueOf _).bind fun _ =>
    (keccak X _ _).bind fun _ => (pack _).bind fun _ => pure _

theorem onCurve (x y : Var) : HintsIn S (VerifyCheckOnCurve x y) := by
  unfold VerifyCheckOnCurve
  split
  · exact pure _
  · exact panic _

theorem absorbPoints (T : List Var) : ∀ (n : ℕ) (A : List Var) (p t : ℕ), HintsIn S (Verif.absorbPoints T n A p t)
  | 0, _, _, _ => pure _
  | n + 1, A, p, t => (idx _ _).bind fun _ => (idx _ _).bind fun _ => (onCurve _ _).bind fun e => by
    cases e with
    | some m => exact pure _
    | none =>
      exact (idx _ _).bind fun _ => (setIdx _ _ _).bind fun _ => (idx _ _).bind fun _ => (setIdx _ _ _).bind fun _ =>
        absorbPoints T n _ _ _

theorem absorbScalars (T : List Var) : ∀ (n : ℕ) (A : List Var) (p t : ℕ), HintsIn S (Verif.absorbScalars T n A p t)
  | 0, _, _, _ => pure _
  | n + 1, A, p, t => (idx _ _).bind fun _ => (setIdx _ _ _).bind fun _ => absorbScalars T n _ _ _

theorem absorbBytes (A : List Var) : ∀ n i : ℕ, HintsIn S (Verif.absorbBytes A n i)
  | 0, _ => pure _
  | n + 1, i => (idx _ _).bind fun _ => (asBigInt _).bind fun _ => by
    split
    · exact panic _
    · exact (absorbBytes A n (i + 1)).bind fun _ => pure _

theorem squeeze (X : Ext) (A : List Var) (n : ℕ) : HintsIn S (SqueezeChallenge X A n) :=
  (setIdx _ _ _).bind fun _ => (absorbBytes _ _ _).bind fun _ => (sha X _ _).bind fun e => by
    cases e with
    | some m => exact pure _
    | none => exact (setIdx _ _ _).bind fun _ => pure _

theorem squeezeTo (X : Ext) (b A : List Var) (i n : ℕ) : HintsIn S (Verif.squeezeTo X b A i n) :=
  (squeeze X _ _).bind fun ⟨⟨_, _⟩, _⟩ => (setIdx _ _ _).bind fun _ => pure _

/-- A block of the form "call, return on error". -/
theorem guard {m : Circ (GoErr × α)} {f : α → Circ (GoErr × β)} {g : String → α → GoErr × β} (h1 : HintsIn S m)
    (h2 : ∀ a, HintsIn S (f a)) : HintsIn S (m >>= fun x => match x.1 with | some e => Pure.pure (g e x.2) | none => f x.2) :=
  h1.bind fun ⟨e, x⟩ => by
    cases e with
    | some m => exact pure _
    | none => exact h2 x

theorem challenges (X : Ext) (b T : List Var) : HintsIn S (GetChallengesShPlonkCircuit X b T) := by
  unfold GetChallengesShPlonkCircuit
  refine (setIdx _ _ _).bind fun _ => (idx _ _).bind fun _ => (setIdx _ _ _).bind fun _ => (idx _ _).bind fun _ =>
    (setIdx _ _ _).bind fun _ => ?_
  repeat' first
    | exact pure _
    | refine (absorbPoints _ _ _ _ _).bind fun ⟨e, _⟩ => ?_ <;> cases e
    | refine (squeezeTo _ _ _ _ _).bind fun ⟨e, _, _⟩ => ?_ <;> cases e
    | refine (absorbScalars _ _ _ _ _).bind fun _ => ?_
    | exact (idx _ _).bind fun _ => (idx _ _).bind fun _ => (onCurve _ _).bind fun _ => pure _
    | dsimp only

theorem notZero (v : Var) : HintsIn S (VerifyNotZero v) := (apiAssertIsLessOrEqual _ _).bind fun _ => pure _

theorem fillG1 (c : BN256PairingCircuit) (a b d e : Var) : HintsIn S (FillVerifyCircuitsG1 c a b d e) := by
  unfold FillVerifyCircuitsG1
  repeat' first | exact pure _ | exact panic _ | split

theorem fillG2 (c : BN256PairingCircuit) : HintsIn S (FillVerifyCircuitsG2 c) :=
  bind (m := GetVerifyCircuitsG2Jac) (by
    unfold GetVerifyCircuitsG2Jac
    split
    · exact panic _
    split
    · exact panic _
    · exact pure _) fun _ => pure _

theorem pairing (X : Ext) (a : List Aff) (b : List Aff2) : HintsIn S (VerifyBN256Pairing X a b) := by
  unfold VerifyBN256Pairing
  split
  · exact pure _
  · exact (emit _ _).bind fun _ => pure _

theorem finalCheck (X : Ext) (b : List Var) : HintsIn S (Verif.finalCheck X b) := by
  unfold Verif.finalCheck
  repeat' first
    | exact pure _
    | exact (fillG1 _ _ _ _ _).bind fun _ => (fillG2 _).bind fun _ => pairing X _ _
    | refine (idx _ _).bind fun _ => ?_
    | refine (notZero _).bind fun e => ?_ <;> cases e
    | dsimp only

theorem verifyFrom (X : Ext) (c : AggregatorCircuit) (b : List Var) (h1 : .modHint ∈ S) (h2 : .msmHint ∈ S)
    (h3 : .addHint ∈ S) : HintsIn S (Verif.verifyFrom X c b) := by
  unfold Verif.verifyFrom
  refine (challenges X _ _).bind fun ⟨e, _⟩ => ?_
  cases e with
  | some m => exact pure _
  | none =>
    refine bind (m := VerifyProof1 X _ _ _) (execBody X h1 h2 h3 _ _ _ _) fun ⟨_, e⟩ => ?_
    cases e with
    | some m => exact pure _
    | none =>
      refine bind (m := VerifyProof2 X _ _ _) (execBody X h1 h2 h3 _ _ _ _) fun ⟨_, e⟩ => ?_
      cases e with
      | some m => exact pure _
      | none =>
        refine bind (m := VerifyProof3 X _ _ _) (execBody X h1 h2 h3 _ _ _ _) fun ⟨_, e⟩ => ?_
        cases e with
        | some m => exact pure _
        | none => exact finalCheck X _

theorem define (X : Ext) (c : AggregatorCircuit) (h1 : .modHint ∈ S) (h2 : .msmHint ∈ S) (h3 : .addHint ∈ S)
    (h4 : .keccakHint ∈ S) : HintsIn S (c.Define X) := by
  unfold AggregatorCircuit.Define
  refine (copyInst _ _ _).bind fun _ => (copyInst _ _ _).bind fun _ => (vih X h4 _).bind fun ⟨_, e⟩ => ?_
  cases e with
  | some m => exact pure _
  | none =>
    refine (mod h1 _).bind fun _ => (setIdx _ _ _).bind fun _ => bind (m := CalcVerifyCircuitLagrange X _) ?_ fun ⟨e, _⟩ => ?_
    · exact (idx _ _).bind fun _ => (calcMsm X h1 h2 _ _ _).bind fun ⟨_, _⟩ => (setIdx _ _ _).bind fun _ =>
        (setIdx _ _ _).bind fun _ => pure _
    cases e with
    | some m => exact pure _
    | none => exact verifyFrom X c _ h1 h2 h3

end HintsIn
end Verif
