/- Lemmas: which hint functions a run calls. -/
import Verif.Model.Define

namespace Verif

/-- Every completed run of `m` calls exactly the hints `L`. -/
def Circ.Calls {α : Type} (m : Circ α) (L : List HintId) : Prop := ∀ E s a s', m E s = .ok (a, s') → s'.hints = s.hints ++ L

theorem Circ.Calls.pure {α : Type} (a : α) : (pure a : Circ α).Calls [] := by
  intro E s b s' h
  rw [Circ.pure_run, Except.ok.injEq, Prod.mk.injEq] at h
  rw [← h.2, List.append_nil]

theorem Circ.Calls.panic {α : Type} (m : String) (L : List HintId) : (Circ.panic m : Circ α).Calls L := by
  intro E s b s' h
  rw [Circ.panic_run] at h
  exact absurd h (by simp)

theorem Circ.Calls.bind {α β : Type} {m : Circ α} {f : α → Circ β} {L L' : List HintId} (h1 : m.Calls L) (h2 : ∀ a, (f a).Calls L') :
    (m >>= f).Calls (L ++ L') := by
  intro E s b s' h
  obtain ⟨a, s1, e1, e2⟩ := Circ.bind_ok.1 h
  rw [h2 a E s1 b s' e2, h1 E s a s1 e1, List.append_assoc]

/-- `bind` with a first part that calls no hint. -/
theorem Circ.Calls.bind0 {α β : Type} {m : Circ α} {f : α → Circ β} {L : List HintId} (h1 : m.Calls []) (h2 : ∀ a, (f a).Calls L) :
    (m >>= f).Calls L := Circ.Calls.bind h1 h2

/-- `bind` with a second part that calls no hint. -/
theorem Circ.Calls.bindR {α β : Type} {m : Circ α} {f : α → Circ β} {L : List HintId} (h1 : m.Calls L) (h2 : ∀ a, (f a).Calls []) :
    (m >>= f).Calls L := by
  have := Circ.Calls.bind h1 h2
  rwa [List.append_nil] at this

theorem calls_readBig (v : Var) : (readBig v).Calls [] := by
  intro E s a s' h
  rw [readBig] at h
  split at h
  · rw [Except.ok.injEq, Prod.mk.injEq] at h
    rw [← h.2, List.append_nil]
  · exact absurd h (by simp)

theorem calls_mkRes (w : Bool) (x : ℤ) : (mkRes w x).Calls [] := by
  intro E s a s' h
  rw [mkRes, Except.ok.injEq, Prod.mk.injEq] at h
  rw [← h.2, List.append_nil]

theorem calls_emit (w c : Bool) : (emit w c).Calls [] := by
  intro E s a s' h
  rw [emit] at h
  split_ifs at h
  all_goals rw [Except.ok.injEq, Prod.mk.injEq] at h; rw [← h.2, List.append_nil]

theorem calls_gadget (c : Bool) : (gadget c).Calls [] := calls_emit true c

theorem calls_idx (a : List Var) (i : ℕ) : (idx a i).Calls [] := by
  rw [idx]
  split
  · exact .pure _
  · exact .panic _ _

theorem calls_setIdx (a : List Var) (i : ℕ) (v : Var) : (setIdx a i v).Calls [] := by
  rw [setIdx]
  split_ifs
  · exact .pure _
  · exact .panic _ _

theorem calls_asBigInt (v : Var) : (asBigInt v).Calls [] := by
  cases v
  case big => exact .pure _
  all_goals exact .panic _ _

theorem calls_apiAdd (a b : Var) : (apiAdd a b).Calls [] := (calls_readBig _).bind0 fun _ => (calls_readBig _).bind0 fun _ => calls_mkRes _ _
theorem calls_apiSub (a b : Var) : (apiSub a b).Calls [] := (calls_readBig _).bind0 fun _ => (calls_readBig _).bind0 fun _ => calls_mkRes _ _
theorem calls_apiMul (a b : Var) : (apiMul a b).Calls [] := (calls_readBig _).bind0 fun _ => (calls_readBig _).bind0 fun _ => calls_mkRes _ _
theorem calls_assertEq (a b : Var) : (apiAssertIsEqual a b).Calls [] :=
  (calls_readBig _).bind0 fun _ => (calls_readBig _).bind0 fun _ => calls_emit _ _
theorem calls_assertLe (a b : Var) : (apiAssertIsLessOrEqual a b).Calls [] := by
  refine (calls_readBig _).bind0 fun x => ?_
  split_ifs
  · exact Circ.Calls.bind0 (.panic _ _) fun _ => (calls_readBig _).bind0 fun _ => calls_emit _ _
  · exact (calls_readBig _).bind0 fun _ => calls_emit _ _

theorem calls_readBigs : ∀ l, (readBigs l).Calls []
  | [] => .pure _
  | v :: l => (calls_readBig v).bind0 fun _ => (calls_readBigs l).bind0 fun _ => .pure _

theorem calls_callHint (f : HintId) (k : ℕ) (xs : List ℤ) : (callHint f k xs).Calls [f] := by
  intro E s a s' h
  rw [callHint] at h
  split at h
  · rw [Except.ok.injEq, Prod.mk.injEq] at h
    rw [← h.2]
  all_goals
    split at h
    · exact absurd h (by simp)
    · rw [Except.ok.injEq, Prod.mk.injEq] at h
      rw [← h.2]

theorem calls_newHint (f : HintId) (k : ℕ) (l : List Var) : (newHint f k l).Calls [f] := (calls_readBigs l).bind0 fun _ => calls_callHint _ _ _

theorem calls_mod (a : Var) : (mod a).Calls [.modHint] :=
  (calls_newHint _ _ _).bindR fun _ => (calls_idx _ _).bind0 fun _ => (calls_idx _ _).bind0 fun _ => (calls_apiMul _ _).bind0 fun _ =>
    (calls_apiAdd _ _).bind0 fun _ => (calls_assertEq _ _).bind0 fun _ => .pure _

theorem calls_frPowLoop (a : Var) (power i : ℤ) (res : Var) : (frPowLoop a power i res).Calls [] := by
  fun_induction frPowLoop a power i res with
  | case1 i res h ih => exact (calls_apiMul _ _).bind0 fun _ => ih _
  | case2 i res h => exact .pure _

theorem calls_fr_pow (a p : Var) : (fr_pow a p).Calls [.modHint] :=
  (calls_asBigInt _).bind0 fun _ => (calls_frPowLoop _ _ _ _).bind0 fun _ => calls_mod _
theorem calls_fr_mul (a b : Var) : (fr_mul a b).Calls [.modHint] := (calls_apiMul _ _).bind0 fun _ => calls_mod _
theorem calls_fr_add (a b : Var) : (fr_add a b).Calls [.modHint] := (calls_apiAdd _ _).bind0 fun _ => calls_mod _
theorem calls_fr_neg (a : Var) : (fr_neg a).Calls [] := calls_apiSub _ _
theorem calls_fr_div (a b c : Var) : (fr_div a b c).Calls [.modHint, .modHint] :=
  Circ.Calls.bind (L := [.modHint]) (calls_fr_mul _ _) fun _ => (calls_assertEq _ _).bind0 fun _ => calls_mod _

/-- The hints called by an expression. -/
def Expr.hints {ρ : Type} : Expr ρ → List HintId
  | .mul a b | .add a b => a.hints ++ (b.hints ++ [.modHint])
  | .neg a => a.hints
  | .div a b c => a.hints ++ (b.hints ++ (c.hints ++ [.modHint, .modHint]))
  | .pow a _ => a.hints ++ [.modHint]
  | _ => []

theorem calls_eval (T A B : List Var) : ∀ e : Expr ℕ, (e.eval T A B).Calls e.hints
  | .str _ => .pure _
  | .int _ => .pure _
  | .buf _ => calls_idx _ _
  | .tr _ => calls_idx _ _
  | .aux _ => calls_idx _ _
  | .mul a b => (calls_eval T A B a).bind fun _ => (calls_eval T A B b).bind fun _ => calls_fr_mul _ _
  | .add a b => (calls_eval T A B a).bind fun _ => (calls_eval T A B b).bind fun _ => calls_fr_add _ _
  | .neg a => (calls_eval T A B a).bindR fun _ => calls_fr_neg _
  | .div a b c => (calls_eval T A B a).bind fun _ => (calls_eval T A B b).bind fun _ => (calls_eval T A B c).bind fun _ => calls_fr_div _ _ _
  | .pow a n => (calls_eval T A B a).bind fun _ => calls_fr_pow _ _

/-- Every completed run of `m` calls a prefix of the hints `L`, and all of `L` if its result is not a Go error. -/
def Circ.Follows {α : Type} (m : Circ α) (err : α → GoErr) (L : List HintId) : Prop :=
  ∀ E s a s', m E s = .ok (a, s') → ∃ L', s'.hints = s.hints ++ L' ∧ L' <+: L ∧ (err a = none → L' = L)

theorem Circ.Calls.follows {α : Type} {m : Circ α} {err : α → GoErr} {L : List HintId} (h : m.Calls L) : m.Follows err L :=
  fun E s a s' h1 => ⟨L, h E s a s' h1, List.prefix_rfl, fun _ => rfl⟩

/-- Go on after a nil error, or return the error. -/
theorem Circ.Follows.bind {α β : Type} {m : Circ α} {e1 : α → GoErr} {f : α → Circ β} {e2 : β → GoErr} {L L' : List HintId}
    (h1 : m.Follows e1 L) (h2 : ∀ a, e1 a = none → (f a).Follows e2 L')
    (h3 : ∀ a x, e1 a = some x → ∃ b, e2 b = some x ∧ f a = pure b) : (m >>= f).Follows e2 (L ++ L') := by
  intro E s b s' h
  obtain ⟨a, s1, r1, r2⟩ := Circ.bind_ok.1 h
  obtain ⟨A, g1, g2, g3⟩ := h1 E s a s1 r1
  cases he : e1 a with
  | none =>
    obtain ⟨A', k1, k2, k3⟩ := h2 a he E s1 b s' r2
    have hA := g3 he
    subst hA
    exact ⟨A ++ A', by rw [k1, g1, List.append_assoc], (List.prefix_append_right_inj A).2 k2, fun hb => by rw [k3 hb]⟩
  | some x =>
    obtain ⟨b', hb, hf⟩ := h3 a x he
    rw [hf, Circ.pure_run, Except.ok.injEq, Prod.mk.injEq] at r2
    rw [← r2.1, ← r2.2]
    exact ⟨A, g1, g2.trans (List.prefix_append _ _), fun h => absurd (hb.symm.trans h) (by simp)⟩

/-- A first part that makes all its calls in any case. -/
theorem Circ.Calls.bindF {α β : Type} {m : Circ α} {f : α → Circ β} {e2 : β → GoErr} {L L' : List HintId} (h1 : m.Calls L)
    (h2 : ∀ a, (f a).Follows e2 L') : (m >>= f).Follows e2 (L ++ L') := by
  intro E s b s' h
  obtain ⟨a, s1, r1, r2⟩ := Circ.bind_ok.1 h
  obtain ⟨A', k1, k2, k3⟩ := h2 a E s1 b s' r2
  exact ⟨L ++ A', by rw [k1, h1 _ _ _ _ r1, List.append_assoc], (List.prefix_append_right_inj L).2 k2, fun hb => by rw [k3 hb]⟩

theorem calls_scalarMul (X : Ext) (p : Var × Var) (k : Var) (r : Var × Var) : (VerifyBN254ScalarMul X p k r).Calls [] := by
  rw [VerifyBN254ScalarMul]
  split; · exact .pure _
  split; · exact .pure _
  split; · exact .pure _
  refine (calls_gadget _).bind0 fun _ => ?_
  split; · exact .pure _
  split; · exact .pure _
  exact (calls_gadget _).bind0 fun _ => .pure _

theorem calls_add (X : Ext) (p q r : Var × Var) : (VerifyBN254Add X p q r).Calls [] := by
  rw [VerifyBN254Add]
  split; · exact .pure _
  split; · exact .pure _
  split; · exact .pure _
  split; · exact .pure _
  refine (calls_gadget _).bind0 fun _ => ?_
  split; · exact .pure _
  split; · exact .pure _
  exact (calls_gadget _).bind0 fun _ => .pure _

/-- The hints of one scalar multiplication. -/
def mulHints : List HintId := [.msmHint, .modHint, .modHint]
/-- The hints of one addition. -/
def addHints : List HintId := [.addHint, .modHint, .modHint]

theorem calls_calcMsm (X : Ext) (x y k : Var) : (CalcVerifyBN256Msm X x y k).Calls mulHints :=
  Circ.Calls.bind (L := [.msmHint]) (calls_newHint _ _ _) fun _ => (calls_idx _ _).bind0 fun _ =>
    Circ.Calls.bind (L := [.modHint]) (calls_mod _) fun _ => (calls_idx _ _).bind0 fun _ => (calls_mod _).bindR fun _ =>
      (calls_scalarMul _ _ _ _).bind0 fun _ => .pure _

theorem calls_calcAdd (X : Ext) (a b c d : Var) : (CalcVerifyBN256Add X a b c d).Calls addHints :=
  Circ.Calls.bind (L := [.addHint]) (calls_newHint _ _ _) fun _ => (calls_idx _ _).bind0 fun _ =>
    Circ.Calls.bind (L := [.modHint]) (calls_mod _) fun _ => (calls_idx _ _).bind0 fun _ => (calls_mod _).bindR fun _ =>
      (calls_add _ _ _ _).bind0 fun _ => .pure _

theorem calls_ecc_mul (X : Ext) (B : List Var) (o : ℕ) : (ecc_mul X B o).Calls mulHints := by
  refine (calls_idx _ _).bind0 fun _ => (calls_idx _ _).bind0 fun _ => (calls_idx _ _).bind0 fun _ => (calls_calcMsm _ _ _ _).bindR ?_
  rintro ⟨r, err⟩
  cases err with
  | some m => exact .pure _
  | none => exact (calls_setIdx _ _ _).bind0 fun _ => (calls_setIdx _ _ _).bind0 fun _ => .pure _

theorem follows_ecc_mul_add (X : Ext) (B : List Var) (o : ℕ) : (ecc_mul_add X B o).Follows Prod.fst (mulHints ++ addHints) := by
  refine Circ.Follows.bind (e1 := Prod.fst) (calls_ecc_mul X B (o + 2)).follows ?_ ?_
  · rintro ⟨err, B'⟩ h
    have h : err = none := h
    subst h
    refine Circ.Calls.follows ?_
    refine (calls_idx _ _).bind0 fun _ => (calls_idx _ _).bind0 fun _ => (calls_idx _ _).bind0 fun _ => (calls_idx _ _).bind0 fun _ =>
      (calls_calcAdd _ _ _ _ _).bindR ?_
    rintro ⟨r, err⟩
    exact (calls_setIdx _ _ _).bind0 fun _ => (calls_setIdx _ _ _).bind0 fun _ => .pure _
  · rintro ⟨err, B'⟩ x h
    have h : err = some x := h
    subst h
    exact ⟨(some x, B'), rfl, rfl⟩

theorem calls_evalExprs (T A B : List Var) : ∀ es, (evalExprs T A B es).Calls (es.flatMap Expr.hints)
  | [] => .pure _
  | e :: es => (calls_eval T A B e).bind fun _ => (calls_evalExprs T A B es).bindR fun _ => .pure _

theorem calls_setMany : ∀ (B : List Var) (ts : List ℕ) (vs : List Var), (setMany B ts vs).Calls []
  | B, [], vs => by rw [setMany]; exact .pure _; all_goals simp
  | B, t :: ts, [] => by rw [setMany]; exact .pure _; all_goals simp
  | B, t :: ts, v :: vs => by
    rw [setMany]
    exact (calls_setIdx _ _ _).bind0 fun _ => calls_setMany _ ts vs

/-- The hints called by a statement. -/
def Stmt.hints : Stmt → List HintId
  | .set _ es => es.flatMap Expr.hints
  | .eccMul _ => mulHints
  | .eccMulAdd _ => mulHints ++ addHints

theorem follows_exec (X : Ext) (T A B : List Var) : ∀ st : Stmt, (st.exec X T A B).Follows Prod.fst st.hints
  | .set ts es => ((calls_evalExprs T A B es).bindR fun _ => (calls_setMany _ _ _).bind0 fun _ => .pure _).follows
  | .eccMul o => (calls_ecc_mul X B o).follows
  | .eccMulAdd o => follows_ecc_mul_add X B o

theorem follows_body (X : Ext) (T A : List Var) : ∀ (p : List Stmt) (B : List Var),
    (execBody X T A B p).Follows Prod.snd (p.flatMap Stmt.hints)
  | [], B => (Circ.Calls.pure _).follows
  | st :: p, B => by
    refine Circ.Follows.bind (e1 := Prod.fst) (follows_exec X T A B st) ?_ ?_
    · rintro ⟨err, B'⟩ h
      have h : err = none := h
      subst h
      exact follows_body X T A p B'
    · rintro ⟨err, B'⟩ x h
      have h : err = some x := h
      subst h
      exact ⟨(emptyBuf, some x), rfl, rfl⟩

theorem calls_hashGadget (f : List UInt8 → List UInt8) (l : List Var) : (hashGadget f l).Calls [] := by
  refine (calls_readBigs l).bind0 fun xs => (calls_gadget _).bind0 fun _ => ?_
  generalize f _ = d
  induction d with
  | nil => exact .pure _
  | cons b d ih =>
    rw [List.mapM_cons]
    exact (calls_mkRes _ _).bind0 fun _ => ih.bind0 fun _ => .pure _

theorem calls_byteAssert (h : List Var) : ∀ (r : List Var) (i : ℕ), (byteAssertLoop h r i).Calls []
  | [], _ => .pure _
  | v :: r, i => (calls_idx _ _).bind0 fun _ => (calls_assertEq _ _).bind0 fun _ => calls_byteAssert h r (i + 1)

theorem calls_keccak (X : Ext) (a b : List Var) : (VerifyKeccak256 X a b).Calls [] :=
  (calls_hashGadget _ _).bind0 fun _ => (calls_byteAssert _ _ _).bind0 fun _ => .pure _
theorem calls_sha (X : Ext) (a b : List Var) : (VerifySha256 X a b).Calls [] :=
  (calls_hashGadget _ _).bind0 fun _ => (calls_byteAssert _ _ _).bind0 fun _ => .pure _

theorem calls_byteValueOf (v : Var) : (byteValueOf v).Calls [] := (calls_readBig _).bind0 fun _ => (calls_emit _ _).bind0 fun _ => .pure _

theorem calls_bytes (l : List Var) : (l.mapM byteValueOf).Calls [] := by
  induction l with
  | nil => exact .pure _
  | cons v l ih =>
    rw [List.mapM_cons]
    exact (calls_byteValueOf _).bind0 fun _ => ih.bind0 fun _ => .pure _

theorem calls_packLoop : ∀ (l : List Var) (r : Var), (packLoop r l).Calls []
  | [], _ => .pure _
  | v :: l, r => (calls_apiMul _ _).bind0 fun _ => (calls_apiAdd _ _).bind0 fun _ => calls_packLoop l _

theorem calls_pack (l : List Var) : (PackUInt8Variables l).Calls [] := by
  cases l with
  | nil => exact .panic _ _
  | cons v l => exact calls_packLoop l v

theorem calls_instanceHash (X : Ext) (l : List Var) : (VerifyInstanceHash X l).Calls [.keccakHint] :=
  (calls_newHint _ _ _).bindR fun _ => (calls_bytes _).bind0 fun _ => (calls_bytes _).bind0 fun _ => (calls_keccak _ _ _).bind0 fun _ =>
    (calls_pack _).bind0 fun _ => .pure _

theorem calls_absorbBytes (a : List Var) : ∀ m i, (absorbBytes a m i).Calls []
  | 0, _ => .pure _
  | m + 1, i => (calls_idx _ _).bind0 fun _ => (calls_asBigInt _).bind0 fun x => by
    cases fillBytes32 x with
    | none => exact .panic _ _
    | some b => exact (calls_absorbBytes a m (i + 1)).bind0 fun _ => .pure _

theorem calls_squeeze (X : Ext) (a : List Var) (m : ℕ) : (SqueezeChallenge X a m).Calls [] := by
  refine (calls_setIdx _ _ _).bind0 fun a' => (calls_absorbBytes _ _ _).bind0 fun bytes => (calls_sha _ _ _).bind0 fun err => ?_
  cases err with
  | some m => exact .pure _
  | none => exact (calls_setIdx _ _ _).bind0 fun _ => .pure _

theorem calls_squeezeTo (X : Ext) (b a : List Var) (i j : ℕ) : (squeezeTo X b a i j).Calls [] := by
  refine (calls_squeeze X a j).bind0 ?_
  rintro ⟨⟨c, err⟩, a'⟩
  exact (calls_setIdx _ _ _).bind0 fun _ => .pure _

theorem calls_onCurve (x y : Var) : (VerifyCheckOnCurve x y).Calls [] := by
  rw [VerifyCheckOnCurve]
  split
  · exact .pure _
  · exact .panic _ _

theorem calls_absorbPoints (t : List Var) : ∀ m a p q, (absorbPoints t m a p q).Calls []
  | 0, _, _, _ => .pure _
  | m + 1, a, p, q => (calls_idx _ _).bind0 fun x => (calls_idx _ _).bind0 fun y => (calls_onCurve x y).bind0 fun err => by
    cases err with
    | some m => exact .pure _
    | none =>
      exact (calls_idx _ _).bind0 fun _ => (calls_setIdx _ _ _).bind0 fun _ => (calls_idx _ _).bind0 fun _ =>
        (calls_setIdx _ _ _).bind0 fun _ => calls_absorbPoints t m _ _ _

theorem calls_absorbScalars (t : List Var) : ∀ m a p q, (absorbScalars t m a p q).Calls []
  | 0, _, _, _ => .pure _
  | m + 1, a, p, q => (calls_idx _ _).bind0 fun _ => (calls_setIdx _ _ _).bind0 fun _ => calls_absorbScalars t m _ _ _

theorem Circ.Calls.guard {α : Type} {e : GoErr} {a : String → Circ α} {b : Circ α} (h1 : ∀ m, (a m).Calls []) (h2 : b.Calls []) :
    (match e with | some m => a m | none => b : Circ α).Calls [] := by
  cases e with
  | some m => exact h1 m
  | none => exact h2

theorem calls_challenges (X : Ext) (b t : List Var) : (GetChallengesShPlonkCircuit X b t).Calls [] := by
  refine (calls_setIdx _ _ _).bind0 fun _ => (calls_idx _ _).bind0 fun _ => (calls_setIdx _ _ _).bind0 fun _ => (calls_idx _ _).bind0 fun _ =>
    (calls_setIdx _ _ _).bind0 fun _ => (calls_absorbPoints _ _ _ _ _).bind0 ?_
  rintro ⟨err, a⟩
  refine Circ.Calls.guard (fun _ => .pure _) ((calls_squeezeTo _ _ _ _ _).bind0 ?_)
  rintro ⟨err, b, a⟩
  refine Circ.Calls.guard (fun _ => .pure _) ((calls_absorbPoints _ _ _ _ _).bind0 ?_)
  rintro ⟨err, a⟩
  refine Circ.Calls.guard (fun _ => .pure _) ((calls_squeezeTo _ _ _ _ _).bind0 ?_)
  rintro ⟨err, b, a⟩
  refine Circ.Calls.guard (fun _ => .pure _) ((calls_squeezeTo _ _ _ _ _).bind0 ?_)
  rintro ⟨err, b, a⟩
  refine Circ.Calls.guard (fun _ => .pure _) ((calls_absorbPoints _ _ _ _ _).bind0 ?_)
  rintro ⟨err, a⟩
  refine Circ.Calls.guard (fun _ => .pure _) ((calls_squeezeTo _ _ _ _ _).bind0 ?_)
  rintro ⟨err, b, a⟩
  refine Circ.Calls.guard (fun _ => .pure _) ((calls_absorbPoints _ _ _ _ _).bind0 ?_)
  rintro ⟨err, a⟩
  refine Circ.Calls.guard (fun _ => .pure _) ((calls_squeezeTo _ _ _ _ _).bind0 ?_)
  rintro ⟨err, b, a⟩
  refine Circ.Calls.guard (fun _ => .pure _) ((calls_absorbScalars _ _ _ _ _).bind0 fun _ => (calls_squeezeTo _ _ _ _ _).bind0 ?_)
  rintro ⟨err, b, a⟩
  refine Circ.Calls.guard (fun _ => .pure _) ((calls_squeezeTo _ _ _ _ _).bind0 ?_)
  rintro ⟨err, b, a⟩
  refine Circ.Calls.guard (fun _ => .pure _) ((calls_absorbPoints _ _ _ _ _).bind0 ?_)
  rintro ⟨err, a⟩
  refine Circ.Calls.guard (fun _ => .pure _) ((calls_squeezeTo _ _ _ _ _).bind0 ?_)
  rintro ⟨err, b, a⟩
  refine Circ.Calls.guard (fun _ => .pure _) ((calls_idx _ _).bind0 fun _ => (calls_idx _ _).bind0 fun _ => (calls_onCurve _ _).bind0 fun _ => .pure _)

theorem calls_copyInst : ∀ (l : List Var) (b : List Var) (i : ℕ), (copyInst b i l).Calls []
  | [], _, _ => .pure _
  | v :: l, b, i => (calls_setIdx _ _ _).bind0 fun _ => calls_copyInst l _ _

theorem calls_lagrange (X : Ext) (b : List Var) : (CalcVerifyCircuitLagrange X b).Calls mulHints := by
  refine (calls_idx _ _).bind0 fun _ => (calls_calcMsm _ _ _ _).bindR ?_
  rintro ⟨r, err⟩
  exact (calls_setIdx _ _ _).bind0 fun _ => (calls_setIdx _ _ _).bind0 fun _ => .pure _

theorem calls_notZero (x : Var) : (VerifyNotZero x).Calls [] := (calls_assertLe _ _).bind0 fun _ => .pure _

theorem Circ.Calls.bindF0 {α β : Type} {m : Circ α} {f : α → Circ β} {e2 : β → GoErr} {L : List HintId} (h1 : m.Calls [])
    (h2 : ∀ a, (f a).Follows e2 L) : (m >>= f).Follows e2 L := Circ.Calls.bindF h1 h2

theorem calls_fillG1 (c : BN256PairingCircuit) (a b d e : Var) : (FillVerifyCircuitsG1 c a b d e).Calls [] := by
  rw [FillVerifyCircuitsG1]
  split
  · split_ifs
    · split
      · split_ifs
        · exact .pure _
        · exact .panic _ _
      · exact .panic _ _
    · exact .panic _ _
  · exact .panic _ _

theorem calls_g2 : GetVerifyCircuitsG2Jac.Calls [] := by
  rw [GetVerifyCircuitsG2Jac]
  split
  · exact .panic _ _
  · split
    · exact .panic _ _
    · exact .pure _

theorem calls_pairing (X : Ext) (a : List Aff) (b : List Aff2) : (VerifyBN256Pairing X a b).Calls [] := by
  rw [VerifyBN256Pairing]
  split
  · exact .pure _
  · exact (calls_gadget _).bind0 fun _ => .pure _

theorem calls_final (X : Ext) (b : List Var) : (finalCheck X b).Calls [] := by
  refine (calls_idx _ _).bind0 fun _ => (calls_notZero _).bind0 fun _ => Circ.Calls.guard (fun _ => .pure _) ?_
  refine (calls_idx _ _).bind0 fun _ => (calls_notZero _).bind0 fun _ => Circ.Calls.guard (fun _ => .pure _) ?_
  refine (calls_idx _ _).bind0 fun _ => (calls_notZero _).bind0 fun _ => Circ.Calls.guard (fun _ => .pure _) ?_
  refine (calls_idx _ _).bind0 fun _ => (calls_notZero _).bind0 fun _ => Circ.Calls.guard (fun _ => .pure _) ?_
  exact (calls_fillG1 _ _ _ _ _).bind0 fun _ => (calls_g2.bind0 fun _ => .pure _).bind0 fun _ => calls_pairing _ _ _

/-- Go on after a nil error in the first component, or return that error. -/
theorem Circ.Follows.step {β : Type} {m : Circ (GoErr × β)} {f : GoErr × β → Circ GoErr} {L L' : List HintId} (h1 : m.Follows Prod.fst L)
    (h2 : ∀ b, (f (none, b)).Follows id L') (h3 : ∀ b x, f (some x, b) = pure (some x)) : (m >>= f).Follows id (L ++ L') := by
  refine h1.bind ?_ ?_
  · rintro ⟨err, b⟩ h
    have h : err = none := h
    subst h
    exact h2 b
  · rintro ⟨err, b⟩ x h
    have h : err = some x := h
    subst h
    exact ⟨some x, rfl, h3 b x⟩

/-- The same with the error in the second component. -/
theorem Circ.Follows.step' {β : Type} {m : Circ (β × GoErr)} {f : β × GoErr → Circ GoErr} {L L' : List HintId} (h1 : m.Follows Prod.snd L)
    (h2 : ∀ b, (f (b, none)).Follows id L') (h3 : ∀ b x, f (b, some x) = pure (some x)) : (m >>= f).Follows id (L ++ L') := by
  refine h1.bind ?_ ?_
  · rintro ⟨b, err⟩ h
    have h : err = none := h
    subst h
    exact h2 b
  · rintro ⟨b, err⟩ x h
    have h : err = some x := h
    subst h
    exact ⟨some x, rfl, h3 b x⟩

/-- The hints called by the three verifier steps. -/
def stepHints : List HintId := step1.flatMap Stmt.hints ++ (step2.flatMap Stmt.hints ++ (step3.flatMap Stmt.hints ++ []))

theorem follows_verifyFrom (X : Ext) (c : AggregatorCircuit) (b : List Var) : (verifyFrom X c b).Follows id stepHints := by
  rw [verifyFrom]
  refine Circ.Follows.step (L := []) (calls_challenges _ _ _).follows (fun b => ?_) fun _ _ => rfl
  refine Circ.Follows.step' (follows_body X _ _ step1 _) (fun b => ?_) fun _ _ => rfl
  refine Circ.Follows.step' (follows_body X _ _ step2 _) (fun b => ?_) fun _ _ => rfl
  refine Circ.Follows.step' (follows_body X _ _ step3 _) (fun b => ?_) fun _ _ => rfl
  exact (calls_final _ _).follows

/-- The hints called by a whole run. -/
def circuitHints : List HintId := [.keccakHint] ++ ([.modHint] ++ (mulHints ++ stepHints))

theorem follows_define (X : Ext) (c : AggregatorCircuit) : (c.Define X).Follows id circuitHints := by
  refine (calls_copyInst _ _ _).bindF0 fun _ => (calls_copyInst _ _ _).bindF0 fun _ => ?_
  refine Circ.Follows.step' (calls_instanceHash _ _).follows (fun b => ?_) fun _ _ => rfl
  refine (calls_mod _).bindF fun _ => (calls_setIdx _ _ _).bindF0 fun _ => ?_
  refine Circ.Follows.step (calls_lagrange _ _).follows (fun b => ?_) fun _ _ => rfl
  exact follows_verifyFrom X c _

end Verif
