/-
Property C39, the reason: how far `Define` gets on circuit variables, and which error it returns.
-/
import Verif.Props.Whole

namespace Verif

/-- In engine `E` the run returns, from every state, a value with property `Q`. -/
def Circ.Returns {α : Type} (m : Circ α) (E : Engine) (Q : α → Prop) : Prop := ∀ s, ∃ a s', m E s = .ok (a, s') ∧ Q a

namespace Circ.Returns
variable {α β : Type} {E : Engine}

theorem pure {a : α} {Q : α → Prop} (h : Q a) : Circ.Returns (Pure.pure a : Circ α) E Q := fun s => ⟨a, s, rfl, h⟩

theorem bind {m : Circ α} {f : α → Circ β} {Q : α → Prop} {R : β → Prop} (hm : m.Returns E Q) (hf : ∀ a, Q a → (f a).Returns E R) :
    Circ.Returns (m >>= f) E R := fun s => by
  obtain ⟨a, s1, h1, ha⟩ := hm s
  obtain ⟨b, s2, h2, hb⟩ := hf a ha s1
  exact ⟨b, s2, by rw [Circ.bind_run, h1]; exact h2, hb⟩

theorem mono {m : Circ α} {Q R : α → Prop} (hm : m.Returns E Q) (h : ∀ a, Q a → R a) : m.Returns E R := fun s => by
  obtain ⟨a, s1, h1, ha⟩ := hm s
  exact ⟨a, s1, h1, h a ha⟩

theorem readBig {v : Var} (hv : v ≠ .nil) : (Verif.readBig v).Returns E fun _ => True := fun s => by
  cases v with
  | nil => exact absurd rfl hv
  | _ => exact ⟨_, s, rfl, trivial⟩

theorem readBigs : ∀ {l : List Var}, (∀ v ∈ l, v ≠ .nil) → (Verif.readBigs l).Returns E fun _ => True
  | [], _ => pure trivial
  | v :: l, h => bind (readBig (h v (by simp))) fun _ _ => bind (readBigs fun w hw => h w (by simp [hw])) fun _ _ => pure trivial

theorem mkRes (hE : E.mode = .compile) (n : ℤ) : (Verif.mkRes true n).Returns E fun v => v.isWire = true := fun s =>
  ⟨_, s, by rw [Verif.mkRes, if_pos ⟨hE, rfl⟩], rfl⟩

theorem emit (hE : E.mode = .compile) (c : Bool) : (Verif.emit true c).Returns E fun _ => True := fun s => by
  cases c with
  | true => exact ⟨(), s, rfl, trivial⟩
  | false => exact ⟨(), { s with sat := false }, by simp [Verif.emit, hE], trivial⟩

theorem wire_ne {v : Var} (h : v.isWire = true) : v ≠ .nil := by rintro rfl; cases h

theorem newHint (hE : E.mode = .compile) (f : HintId) (k : ℕ) {l : List Var} (h : ∀ v ∈ l, v ≠ .nil) :
    (Verif.newHint f k l).Returns E fun r => r.length = k ∧ ∀ v ∈ r, v.isWire = true :=
  bind (readBigs h) fun xs _ s => by
    have key : ∀ o, (hintOuts E k o).length = k ∧ ∀ v ∈ hintOuts E k o, v.isWire = true := fun o => by
      refine ⟨by simp [hintOuts], fun v hv => ?_⟩
      simp only [hintOuts, hE, List.mem_map] at hv
      obtain ⟨i, -, rfl⟩ := hv
      rfl
    unfold callHint
    cases E.strat f s.hints.length k xs with
    | ok o => exact ⟨_, _, rfl, key o⟩
    | err => simp only [hE]; exact ⟨_, _, rfl, key []⟩
    | panic => simp only [hE]; exact ⟨_, _, rfl, key []⟩

theorem idx {l : List Var} {i : ℕ} (hi : i < l.length) : (Verif.idx l i).Returns E fun v => l[i]? = some v := fun s =>
  ⟨l[i], s, by simp only [Verif.idx, List.getElem?_eq_getElem hi]; rfl, List.getElem?_eq_getElem hi⟩

theorem setIdx {l : List Var} {i : ℕ} (v : Var) (hi : i < l.length) : (Verif.setIdx l i v).Returns E fun r => r = l.set i v := fun s =>
  ⟨_, s, by rw [Verif.setIdx, if_pos hi]; rfl, rfl⟩

theorem apiMul (hE : E.mode = .compile) {a b : Var} (ha : a.isWire = true) (hb : b ≠ .nil) :
    (Verif.apiMul a b).Returns E fun v => v.isWire = true :=
  bind (readBig (wire_ne ha)) fun _ _ => bind (readBig hb) fun _ _ => by rw [ha, Bool.true_or]; exact mkRes hE _

theorem apiAdd (hE : E.mode = .compile) {a b : Var} (ha : a.isWire = true) (hb : b ≠ .nil) :
    (Verif.apiAdd a b).Returns E fun v => v.isWire = true :=
  bind (readBig (wire_ne ha)) fun _ _ => bind (readBig hb) fun _ _ => by rw [ha, Bool.true_or]; exact mkRes hE _

theorem assertEq (hE : E.mode = .compile) {a b : Var} (ha : a.isWire = true) (hb : b ≠ .nil) :
    (Verif.apiAssertIsEqual a b).Returns E fun _ => True :=
  bind (readBig (wire_ne ha)) fun _ _ => bind (readBig hb) fun _ _ => by rw [ha, Bool.true_or]; exact emit hE _

theorem mem_of_get {l : List Var} (h : ∀ v ∈ l, v.isWire = true) {i : ℕ} {v : Var} (hv : l[i]? = some v) : v.isWire = true :=
  h v (List.mem_of_getElem? hv)

theorem mod (hE : E.mode = .compile) {a : Var} (ha : a ≠ .nil) : (Verif.mod a).Returns E fun v => v.isWire = true :=
  bind (newHint hE .modHint 2 (by simpa using ha)) fun r hr =>
    bind (idx (by omega)) fun r1 h1 => bind (idx (by omega)) fun r0 h0 =>
      bind (apiMul hE (mem_of_get hr.2 h0) (by simp [modulusVar])) fun p hp =>
        bind (apiAdd hE (mem_of_get hr.2 h1) (wire_ne hp)) fun s hs => bind (assertEq hE hs ha) fun _ _ => pure (mem_of_get hr.2 h1)

theorem mapM {γ : Type} {f : γ → Circ Var} {l : List γ} (h : ∀ x ∈ l, (f x).Returns E fun v => v.isWire = true) :
    (l.mapM f).Returns E fun r => r.length = l.length ∧ ∀ v ∈ r, v.isWire = true := by
  induction l with
  | nil => exact pure ⟨rfl, by simp⟩
  | cons x l ih =>
    rw [List.mapM_cons]
    refine bind (h x (by simp)) fun a ha => bind (ih fun y hy => h y (by simp [hy])) fun r hr => pure ⟨by simp [hr.1], ?_⟩
    intro v hv
    rcases List.mem_cons.1 hv with rfl | hv
    · exact ha
    · exact hr.2 v hv

theorem byteValueOf (hE : E.mode = .compile) {v : Var} (hv : v.isWire = true) : (Verif.byteValueOf v).Returns E fun v => v.isWire = true :=
  bind (readBig (wire_ne hv)) fun _ _ => bind (by rw [hv]; exact emit hE _) fun _ _ => pure hv

theorem byteAssertLoop (hE : E.mode = .compile) {hv : List Var} (hw : ∀ v ∈ hv, v.isWire = true) :
    ∀ {rs : List Var} {i : ℕ}, (∀ v ∈ rs, v.isWire = true) → i + rs.length ≤ hv.length → (Verif.byteAssertLoop hv rs i).Returns E fun _ => True
  | [], _, _, _ => pure trivial
  | r :: rs, i, h, hl => by
    rw [List.length_cons] at hl
    exact bind (idx (by omega)) fun v h1 => bind (assertEq hE (mem_of_get hw h1) (wire_ne (h r (by simp)))) fun _ _ =>
      byteAssertLoop hE hw (fun w hw' => h w (by simp [hw'])) (by omega)

theorem hashGadget (hE : E.mode = .compile) {h : List UInt8 → List UInt8} (h32 : ∀ m, (h m).length = 32) {ins : List Var}
    (hi : ∀ v ∈ ins, v.isWire = true) : (Verif.hashGadget h ins).Returns E fun r => r.length = 32 ∧ ∀ v ∈ r, v.isWire = true :=
  bind (readBigs fun v hv => wire_ne (hi v hv)) fun _ _ => bind (emit hE _) fun _ _ =>
    (mapM fun _ _ => mkRes hE _).mono fun _ hr => ⟨hr.1.trans (h32 _), hr.2⟩

theorem keccak (hE : E.mode = .compile) {X : Ext} (hX : X.Lawful) {ins hv : List Var} (hi : ∀ v ∈ ins, v.isWire = true)
    (hh : ∀ v ∈ hv, v.isWire = true) (hl : hv.length = 32) : (VerifyKeccak256 X ins hv).Returns E fun e => e = none :=
  bind (hashGadget hE hX.keccak_len hi) fun _ hr => bind (byteAssertLoop hE hh hr.2 (by omega)) fun _ _ => pure rfl

theorem packLoop (hE : E.mode = .compile) : ∀ {l : List Var} {v : Var}, v.isWire = true → (∀ w ∈ l, w.isWire = true) →
    (Verif.packLoop v l).Returns E fun v => v.isWire = true
  | [], _, hv, _ => pure hv
  | w :: l, v, hv, h => bind (apiMul hE hv (by simp)) fun m hm => bind (apiAdd hE hm (wire_ne (h w (by simp)))) fun _ hr =>
      packLoop hE hr fun u hu => h u (by simp [hu])

theorem pack (hE : E.mode = .compile) {l : List Var} (hl : l ≠ []) (h : ∀ w ∈ l, w.isWire = true) :
    (PackUInt8Variables l).Returns E fun v => v.isWire = true := by
  cases l with
  | nil => exact absurd rfl hl
  | cons v l => exact packLoop hE (h v (by simp)) fun w hw => h w (by simp [hw])

theorem instanceHash (hE : E.mode = .compile) {X : Ext} (hX : X.Lawful) {ins : List Var} (hi : ∀ v ∈ ins, v ≠ .nil) :
    (VerifyInstanceHash X ins).Returns E fun p => p.1.isWire = true ∧ p.2 = none :=
  bind (newHint hE .keccakHint _ hi) fun r hr => by
    have hd : ∀ k m, ∀ v ∈ (r.drop k).take m, v.isWire = true := fun k m v hv => hr.2 v (List.mem_of_mem_drop (List.mem_of_mem_take hv))
    have hl : ((r.drop 1).take 32).length = 32 := by
      rw [List.length_take, List.length_drop, hr.1]; omega
    refine bind (mapM fun v hv => byteValueOf hE (hd _ _ v hv)) fun h1 k1 =>
      bind (mapM fun v hv => byteValueOf hE (hd _ _ v hv)) fun h2 k2 => bind (keccak hE hX k2.2 k1.2 (k1.1.trans hl)) fun e he =>
        bind (pack hE (by intro h0; rw [h0] at hl; cases hl) (hd _ _)) fun v hv => pure ⟨hv, he⟩

theorem msm (hE : E.mode = .compile) {X : Ext} {x y k : Var} (hx : x ≠ .nil) (hy : y ≠ .nil) (hk : k.isWire = true) :
    (CalcVerifyBN256Msm X x y k).Returns E fun p => p.2 = errSetInterface :=
  bind (newHint hE .msmHint 2 (by simpa using ⟨hx, hy, wire_ne hk⟩)) fun r hr =>
    bind (idx (by omega)) fun r0 h0 => bind (mod hE (wire_ne (mem_of_get hr.2 h0))) fun r0' _ =>
      bind (idx (by omega)) fun r1 h1 => bind (mod hE (wire_ne (mem_of_get hr.2 h1))) fun r1' _ =>
        bind (Q := fun e => e = errSetInterface) (fun s => ⟨errSetInterface, s, by
          unfold VerifyBN254ScalarMul
          have hk' : setInterface k = none := by cases k <;> first | rfl | cases hk
          cases setInterface x with
          | none => rfl
          | some a => cases setInterface y with
            | none => rfl
            | some b => simp only [hk']; rfl, rfl⟩) fun e he => pure he

theorem lagrange (hE : E.mode = .compile) {X : Ext} {buf : List Var} (hl : 2 < buf.length) {k : Var} (hk : k.isWire = true)
    (h2 : buf[2]? = some k) : (CalcVerifyCircuitLagrange X buf).Returns E fun p => p.1 = errSetInterface :=
  bind (idx hl) fun v hv => by
    obtain rfl : k = v := Option.some.inj (h2.symm.trans hv)
    refine bind (msm hE (by simp) (by simp) hk) fun p hp => bind (setIdx _ (by omega)) fun b hb => ?_
    subst hb
    exact bind (setIdx _ (by rw [List.length_set]; omega)) fun b _ => pure hp

end Circ.Returns

/-- C39: what the compiler gets (the text stands for gnark-crypto's message, whose end names the Go type): with at most 43 instance values, none of them nil, `Define` on circuit variables runs
through the instance hash and returns the error of the first scalar multiplication, `can't set fp.Element`. -/
theorem C39_reason (X : Ext) (hX : X.Lawful) (c : AggregatorCircuit) (E : Engine) (hE : E.mode = .compile)
    (hl : c.TargetInst.length + c.VerifyInst.length ≤ 43) (hn : ∀ v ∈ c.TargetInst ++ c.VerifyInst, v ≠ .nil) (s : St) :
    ∃ s', c.Define X E s = .ok (some "can't set fp.Element", s') := by
  obtain ⟨b0, h0⟩ := copyInst_run (vs := c.TargetInst) (buf := List.replicate 43 (.big 0)) (k := 0) (E := E) (s := s)
    (.inr (by rw [List.length_replicate]; omega))
  have l0 : b0.length = 43 := by rw [(copyInst_ok h0).2.1, List.length_replicate]
  obtain ⟨b1, h1⟩ := copyInst_run (vs := c.VerifyInst) (buf := b0) (k := c.TargetInst.length) (E := E) (s := s) (.inr (by omega))
  obtain ⟨-, l1, -, ht⟩ := copy_both h0 h1
  have key : (do
      let (hashValBig, err) ← VerifyInstanceHash X (b1.take (c.TargetInst.length + c.VerifyInst.length))
      match err with | some m => pure (some m) | none => do
      let hashMod ← mod hashValBig
      let buf ← setIdx b1 2 hashMod
      let (err, buf) ← CalcVerifyCircuitLagrange X buf
      match err with | some m => pure (some m) | none => do
      verifyFrom X c buf : Circ GoErr).Returns E fun e => e = errSetInterface := by
    rw [ht]
    refine .bind (.instanceHash hE hX hn) ?_
    rintro ⟨v, e⟩ ⟨hv, he⟩
    dsimp only at hv he
    subst he
    refine .bind (.mod hE (Circ.Returns.wire_ne hv)) fun w hw => .bind (.setIdx _ (by omega)) fun b hb => ?_
    subst hb
    refine .bind (.lagrange hE (by rw [List.length_set]; omega) hw (by rw [List.getElem?_set, if_pos rfl, if_pos (by omega)])) ?_
    rintro ⟨e, b⟩ he
    dsimp only at he
    subst he
    exact .pure rfl
  obtain ⟨e, s', hr, rfl⟩ := key s
  refine ⟨s', ?_⟩
  unfold AggregatorCircuit.Define
  exact Circ.bind_ok.2 ⟨b0, s, h0, Circ.bind_ok.2 ⟨b1, s, h1, hr⟩⟩

/-- C39: so the compiler reports this error for the circuit of `main`, and `main` panics with it, whatever values
the wires would get and whatever the steps after compiling would do. -/
theorem C39_main_reason (X : Ext) (hX : X.Lawful) (c : AggregatorCircuit) (hc : mainShape c) (E : Engine) (hE : E.mode = .compile)
    (rest : Except Panic Unit) : compileResult X c E = some "can't set fp.Element" ∧ mainGo X c E rest = .error (.mk "can't set fp.Element") := by
  obtain ⟨-, h1, -, h4, hw⟩ := hc
  obtain ⟨s', h⟩ := C39_reason X hX c E hE (by omega) (fun v hv => Circ.Returns.wire_ne (hw v (by
    simp only [List.mem_append] at hv ⊢; tauto))) .init
  have hr : compileResult X c E = some "can't set fp.Element" := by unfold compileResult; rw [h]
  exact ⟨hr, by unfold mainGo; rw [hr]⟩

/-- C39_reason, C39_main_reason: the circuit of `main`. -/
example (s : St) : ∃ s', exShape.Define (idealExt 2 fun _ => List.replicate 32 0) exComp s = .ok (some "can't set fp.Element", s') :=
  C39_reason _ (idealExt_strict _ _).toLawful _ _ rfl (by decide) (by
    intro v hv
    simp only [exShape, List.mem_append, List.mem_replicate, List.mem_singleton] at hv
    rcases hv with ⟨-, rfl⟩ | rfl <;> simp) _
example (rest : Except Panic Unit) : mainGo (idealExt 2 fun _ => List.replicate 32 0) exShape exComp rest = .error (.mk "can't set fp.Element") :=
  (C39_main_reason _ (idealExt_strict _ _).toLawful _ (by
    refine ⟨by decide, rfl, by decide, by decide, fun v hv => ?_⟩
    simp only [exShape, List.mem_append, List.mem_replicate, List.mem_singleton] at hv
    rcases hv with ((⟨-, rfl⟩ | rfl) | ⟨-, rfl⟩) | ⟨-, rfl⟩ <;> rfl) _ rfl _).2

end Verif
