/- Properties C34, C37–C40: the aggregation circuit as a whole. Concrete cases that meet the hypotheses: Verif/Props/Instances.lean (runs of Define). -/
import Verif.Lemmas.Define
import Verif.Spec.Verifier

namespace Verif
open Halo2

/-! ### C37 -/

/-- C37: in every engine, a step that returns no error leaves buf[0..9] (instance commitment and challenges) alone. -/
theorem C37_frame (X : Ext) (T A B B' : List Var) (E : Engine) (s s' : St)
    (h : VerifyProof1 X T A B E s = .ok ((B', none), s') ∨ VerifyProof2 X T A B E s = .ok ((B', none), s') ∨
      VerifyProof3 X T A B E s = .ok ((B', none), s')) : B'.length = B.length ∧ ∀ i < 10, B'[i]? = B[i]? := by
  have key : B'.length = B.length ∧ ∀ i < 10, B'.getD i .nil = B.getD i .nil := by
    rcases h with h | h | h
    · exact body_frame step1 (by decide +kernel) h
    · exact body_frame step2 (by decide +kernel) h
    · exact body_frame step3 (by decide +kernel) h
  exact ⟨key.1, fun i hi => getElem?_of_getD key.1 (key.2 i hi)⟩

/-- C37: the steps read the first 104 proof values and the first 21 aux values only: with the rest changed, or dropped,
they are the same function of buffer, engine and state. -/
theorem C37_reads (X : Ext) {T T' A A' : List Var} (hT : T.take 104 = T'.take 104) (hA : A.take 21 = A'.take 21) :
    VerifyProof1 X T A = VerifyProof1 X T' A' ∧ VerifyProof2 X T A = VerifyProof2 X T' A' ∧
    VerifyProof3 X T A = VerifyProof3 X T' A' := by
  have hT' : ∀ i < 104, T[i]? = T'[i]? := fun i hi => by
    rw [← List.getElem?_take_of_lt hi, hT, List.getElem?_take_of_lt hi]
  have hA' : ∀ i < 21, A[i]? = A'[i]? := fun i hi => by
    rw [← List.getElem?_take_of_lt hi, hA, List.getElem?_take_of_lt hi]
  refine ⟨?_, ?_, ?_⟩
  · funext B; exact execBody_congr hT' hA' step1 B (by decide +kernel)
  · funext B; exact execBody_congr hT' hA' step2 B (by decide +kernel)
  · funext B; exact execBody_congr hT' hA' step3 B (by decide +kernel)

/-- C37: the same for the whole circuit. -/
theorem C37_define_reads (X : Ext) {c c' : AggregatorCircuit} (hT : c.Proof.take 104 = c'.Proof.take 104)
    (hA : c.Aux.take 21 = c'.Aux.take 21) (h1 : c.VerifyInst = c'.VerifyInst) (h2 : c.TargetInst = c'.TargetInst) :
    c.Define X = c'.Define X := by
  have hT' : ∀ i < 104, c.Proof[i]? = c'.Proof[i]? := fun i hi => by
    rw [← List.getElem?_take_of_lt hi, hT, List.getElem?_take_of_lt hi]
  obtain ⟨g1, g2, g3⟩ := C37_reads X hT hA
  unfold AggregatorCircuit.Define verifyFrom
  simp only [h1, h2, challenges_congr X _ hT', g1, g2, g3]

/-- C37: surplus proof and aux values never change the outcome. -/
theorem C37_surplus (X : Ext) (c : AggregatorCircuit) (p a : List Var) (hp : 104 ≤ c.Proof.length)
    (ha : 21 ≤ c.Aux.length) : ({ c with Proof := c.Proof ++ p, Aux := c.Aux ++ a } : AggregatorCircuit).Define X =
      c.Define X :=
  C37_define_reads X (List.take_append_of_le_length hp) (List.take_append_of_le_length ha) rfl rfl

/-! ### C39 -/

/-- C39 is false: on circuit variables (what the compiler provides) `Define` never returns without error, for circuits
of every shape, with every assignment and every hint strategy. -/
theorem C39_false (X : Ext) (c : AggregatorCircuit) (E : Engine) (hE : E.mode = .compile) (s s' : St) :
    c.Define X E s ≠ .ok (none, s') := by
  intro h
  obtain ⟨r⟩ := define_ok h
  exact C15_compile_error hE r.msm rfl

/-- C39: so compilation always fails. -/
theorem C39_compile (X : Ext) (c : AggregatorCircuit) (E : Engine) (hE : E.mode = .compile) : compileResult X c E ≠ none := by
  intro h
  unfold compileResult at h
  cases hr : c.Define X E .init with
  | error p => rw [hr] at h; cases h
  | ok r =>
    obtain ⟨e, s'⟩ := r
    rw [hr] at h
    simp only [] at h
    subst h
    exact C39_false X c E hE _ _ hr

/-- C39: and main panics whatever setup, proving and verification would do. -/
theorem C39_main (X : Ext) (c : AggregatorCircuit) (E : Engine) (hE : E.mode = .compile) (rest : Except Panic Unit) :
    ∃ p, mainGo X c E rest = .error p := by
  unfold mainGo
  cases h : compileResult X c E with
  | none => exact absurd h (C39_compile X c E hE)
  | some m => exact ⟨_, rfl⟩

/-- A circuit of the shape main compiles, with all wires zero. -/
def exShape : AggregatorCircuit :=
  ⟨List.replicate 104 (.wire 0), [.wire 0], List.replicate 21 (.wire 0), List.replicate 4 (.wire 0)⟩

example : mainShape exShape := by
  refine ⟨by decide, rfl, by decide, by decide, fun v hv => ?_⟩
  simp only [exShape, List.mem_append, List.mem_replicate, List.mem_singleton] at hv
  rcases hv with ((⟨-, rfl⟩ | rfl) | ⟨-, rfl⟩) | ⟨-, rfl⟩ <;> rfl
example (rest : Except Panic Unit) : ∃ p, mainGo exX exShape exComp rest = .error p := C39_main _ _ _ rfl _

/-! ### C38 -/

/-- The aux positions read by a statement are inside the list. -/
theorem trace_aux {X : Ext} {T A : List Var} {P : List Stmt} {bufs : ℕ → List Var} (h : Trace X T A P bufs) {k : ℕ}
    {ts : List ℕ} {a b : Expr ℕ} {i : ℕ} (hk : P[k]? = some (.set ts [.div a b (.aux i)])) : i < A.length := by
  obtain ⟨vs, hf, -⟩ := h.holds k _ hk
  cases hf with
  | cons h1 _ => exact h1.range.2.2

/-- C38: whatever the engine and the hints, `Define` is never accepted with fewer than 104 proof values, fewer than 21
aux values or more than 43 instance values. -/
theorem C38_short (X : Ext) {c : AggregatorCircuit} {E : Engine} {s : St} (h : (c.Define X).Accepted E s) :
    104 ≤ c.Proof.length ∧ 21 ≤ c.Aux.length ∧ c.TargetInst.length + c.VerifyInst.length ≤ 43 := by
  obtain ⟨s', h, hs⟩ := h
  cases hE : E.mode with
  | compile => exact absurd h (C39_false X c E hE s s')
  | test =>
    obtain ⟨r⟩ := define_ok h
    obtain ⟨h7, -⟩ := finalCheck_ok r.final hs
    obtain ⟨h6, -⟩ := body_ok hE _ r.step3 h7
    obtain ⟨h5, bufs, -, -, tr⟩ := body_ok hE _ r.step2 h6
    refine ⟨(getChallenges_ok r.chal).2.1, ?_, r.len⟩
    have : step2.any (fun st => match st with
      | .set [38] [.div (.int 1) _ (.aux 20)] => true
      | _ => false) = true := by decide +kernel
    obtain ⟨st, hm, hst⟩ := List.any_eq_true.1 this
    obtain ⟨k, hk, hk'⟩ := List.getElem_of_mem hm
    have hk'' : step2[k]? = some st := by rw [List.getElem?_eq_getElem hk, hk']
    split at hst
    · exact trace_aux tr hk''
    · cases hst

/-! ### C40 -/

/-- C40: whatever the engine and the prover do, a run of `Define` calls no hints but `modHint` and registered ones. -/
theorem C40_used (X : Ext) (c : AggregatorCircuit) (E : Engine) (s' : St) (e : GoErr)
    (h : c.Define X E .init = .ok (e, s')) : ∀ f ∈ s'.hints, f = .modHint ∨ f ∈ registeredHints := by
  obtain ⟨⟨l, hl, hm⟩, -⟩ := HintsIn.define (S := .modHint :: registeredHints) X c (by simp) (by simp [registeredHints])
    (by simp [registeredHints]) (by simp [registeredHints]) _ _ _ _ h
  intro f hf
  rw [hl] at hf
  exact List.mem_cons.1 (hm f (by simpa [St.init] using hf))

/-- C40: `modHint` is not registered. -/
theorem C40_unregistered : HintId.modHint ∉ registeredHints := by decide

/-- C40: every call of `mod` that returns has called it, hence so has every field operation but negation. -/
theorem C40_mod (a b c v : Var) (E : Engine) (s s' : St)
    (h : mod a E s = .ok (v, s') ∨ fr_mul a b E s = .ok (v, s') ∨ fr_add a b E s = .ok (v, s') ∨
      fr_div a b c E s = .ok (v, s') ∨ fr_pow a b E s = .ok (v, s')) : HintId.modHint ∈ s'.hints := by
  have key : ∀ {a v : Var} {s s' : St}, mod a E s = .ok (v, s') → HintId.modHint ∈ s'.hints := fun h => by
    rw [(mod_ok h).1]; simp
  rcases h with h | h | h | h | h
  · exact key h
  · simp only [fr_mul, Circ.bind_ok] at h
    obtain ⟨_, _, _, h⟩ := h
    exact key h
  · simp only [fr_add, Circ.bind_ok] at h
    obtain ⟨_, _, _, h⟩ := h
    exact key h
  · simp only [fr_div, Circ.bind_ok] at h
    obtain ⟨_, _, _, _, _, _, h⟩ := h
    exact key h
  · simp only [fr_pow, Circ.bind_ok] at h
    obtain ⟨_, _, _, _, _, _, h⟩ := h
    exact key h

/-- C40 is false: every run of `Define` that returns, with or without an error, has called the unregistered hint. -/
theorem C40_false (X : Ext) (c : AggregatorCircuit) (E : Engine) (s' : St) (e : GoErr)
    (h : c.Define X E .init = .ok (e, s')) : HintId.modHint ∈ s'.hints ∧ HintId.modHint ∉ registeredHints := by
  refine ⟨?_, C40_unregistered⟩
  have grow : ∀ {α : Type} {m : Circ α}, HintsIn [.modHint, .msmHint, .addHint, .keccakHint] m → ∀ {s a s'},
      m E s = .ok (a, s') → HintId.modHint ∈ s.hints → HintId.modHint ∈ s'.hints := by
    intro α m hm s a s' h h1
    obtain ⟨⟨l, hl, -⟩, -⟩ := hm _ _ _ _ h
    rw [hl]; exact List.mem_append_left _ h1
  unfold AggregatorCircuit.Define at h
  rw [Circ.bind_ok] at h
  obtain ⟨b0, s0, h0, h⟩ := h
  rw [Circ.bind_ok] at h
  obtain ⟨b1, s1, h1, h⟩ := h
  rw [Circ.bind_ok] at h
  obtain ⟨⟨hv, e1⟩, t1, hh, h⟩ := h
  have he : e1 = none := by
    simp only [VerifyInstanceHash, VerifyKeccak256, Circ.bind_ok] at hh
    obtain ⟨_, _, -, _, _, -, _, _, -, e2, _, ⟨_, _, -, _, _, -, q⟩, _, _, -, hh⟩ := hh
    rw [Circ.pure_run, Except.ok.injEq, Prod.mk.injEq] at q hh
    rw [← q.1] at hh
    exact (Prod.mk.inj hh.1).2.symm
  subst he
  simp only [] at h
  rw [Circ.bind_ok] at h
  obtain ⟨hm, t2, hmod, h⟩ := h
  have m2 := C40_mod hv hv hv hm E t1 t2 (.inl hmod)
  rw [Circ.bind_ok] at h
  obtain ⟨b2, t3, hset, h⟩ := h
  have m3 := grow (HintsIn.setIdx _ _ _) hset m2
  rw [Circ.bind_ok] at h
  obtain ⟨⟨e2, B⟩, t4, hlag, h⟩ := h
  have m4 : HintId.modHint ∈ t4.hints := by
    refine grow (m := CalcVerifyCircuitLagrange X b2) ?_ hlag m3
    exact (HintsIn.idx _ _).bind fun _ => (HintsIn.calcMsm X (by simp) (by simp) _ _ _).bind fun ⟨_, _⟩ =>
      (HintsIn.setIdx _ _ _).bind fun _ => (HintsIn.setIdx _ _ _).bind fun _ => HintsIn.pure _
  cases e2 with
  | some m =>
    simp only [] at h
    rw [Circ.pure_run, Except.ok.injEq, Prod.mk.injEq] at h
    rw [← h.2]; exact m4
  | none => exact grow (HintsIn.verifyFrom X c B (by simp) (by simp) (by simp)) h m4

end Verif
