/- Property C68: what the instance hash says about the two instance lists. -/
import Verif.Props.Outcome

namespace Verif
open Halo2

theorem copyInst_append {vs ws : List Var} : ∀ {buf : List Var} {k : ℕ},
    (do let b ← copyInst buf k vs; copyInst b (k + vs.length) ws) = copyInst buf k (vs ++ ws) := by
  induction vs with
  | nil => intro buf k; funext E s; rfl
  | cons v vs ih =>
    intro buf k
    funext E s
    have h : ∀ b : List Var, (do let b ← copyInst b (k + 1) vs; copyInst b (k + (v :: vs).length) ws) = copyInst b (k + 1) (vs ++ ws) := by
      intro b
      rw [← ih, List.length_cons, show k + (vs.length + 1) = k + 1 + vs.length by omega]
    have h1 : ∀ l, copyInst buf k (v :: l) = (do let b ← setIdx buf k v; copyInst b (k + 1) l) := fun l => rfl
    rw [List.cons_append, h1, h1, Circ.bind_run, Circ.bind_run, Circ.bind_run]
    cases hs : setIdx buf k v E s with
    | error p => rfl
    | ok r =>
      obtain ⟨b, s1⟩ := r
      simp only []
      rw [← h b]
      rfl

/-- C68: in every engine, with any hints, `Define` depends on the two instance lists only through their concatenation, target
instances first: nothing in the circuit marks where one list ends and the other begins. -/
theorem C68_boundary_false (X : Ext) {c c' : AggregatorCircuit} (hP : c.Proof = c'.Proof) (hA : c.Aux = c'.Aux)
    (hI : c.TargetInst ++ c.VerifyInst = c'.TargetInst ++ c'.VerifyInst) : c.Define X = c'.Define X := by
  have key : ∀ d : AggregatorCircuit, d.Define X = (do
      let buf ← copyInst (List.replicate 43 (.big 0)) 0 (d.TargetInst ++ d.VerifyInst)
      let (hashValBig, err) ← VerifyInstanceHash X (buf.take (d.TargetInst ++ d.VerifyInst).length)
      match err with | some m => pure (some m) | none => do
      let hashMod ← mod hashValBig
      let buf ← setIdx buf 2 hashMod
      let (err, buf) ← CalcVerifyCircuitLagrange X buf
      match err with | some m => pure (some m) | none => do
      verifyFrom X d buf) := by
    intro d
    funext E s
    rw [← copyInst_append, List.length_append, Nat.zero_add]
    unfold AggregatorCircuit.Define
    rw [Circ.bind_run, Circ.bind_run, Circ.bind_run]
    cases copyInst (List.replicate 43 (.big 0)) 0 d.TargetInst E s with
    | error p => rfl
    | ok r => rfl
  have hv : ∀ buf, verifyFrom X c buf = verifyFrom X c' buf := by
    intro buf
    unfold verifyFrom
    rw [hP, hA]
  rw [key, key, hI]
  simp only [hv]

/-- C68: with the repo's hints, an instance value counts only modulo p: two assignments whose instance values agree modulo p one
by one are both accepted or both not. -/
theorem C68_residues {X : Ext} (hX : X.Strict) {c c' : AggregatorCircuit} (hf : c.Fits) (hP : c.Proof = c'.Proof) (hA : c.Aux = c'.Aux)
    (hI : List.Forall₂ (fun v w => v.IsVal ∧ w.IsVal ∧ (pMod : ℤ) ∣ engineValue v - engineValue w) (c.TargetInst ++ c.VerifyInst)
      (c'.TargetInst ++ c'.VerifyInst)) {s : St} (hs : s.sat = true) :
    (c.Define X).Accepted (honestTest X true) s ↔ (c'.Define X).Accepted (honestTest X true) s := by
  have hval : (∀ v ∈ c.TargetInst ++ c.VerifyInst, v.IsVal) ∧ (∀ v ∈ c'.TargetInst ++ c'.VerifyInst, v.IsVal) ∧
      (c.TargetInst ++ c.VerifyInst).length = (c'.TargetInst ++ c'.VerifyInst).length ∧
      ((c.TargetInst ++ c.VerifyInst).flatMap fun v => beBytes (engineValue v : Fp).val 32) =
      (c'.TargetInst ++ c'.VerifyInst).flatMap fun v => beBytes (engineValue v : Fp).val 32 := by
    generalize c.TargetInst ++ c.VerifyInst = l at hI
    generalize c'.TargetInst ++ c'.VerifyInst = l' at hI
    induction hI with
    | nil => exact ⟨by simp, by simp, rfl, rfl⟩
    | cons h _ ih =>
      obtain ⟨h1, h2, h3⟩ := h
      refine ⟨List.forall_mem_cons.2 ⟨h1, ih.1⟩, List.forall_mem_cons.2 ⟨h2, ih.2.1⟩, by simp only [List.length_cons, ih.2.2.1], ?_⟩
      rw [List.flatMap_cons, List.flatMap_cons, ih.2.2.2]
      have : (engineValue _ : Fp) = (engineValue _ : Fp) := (ZMod.intCast_eq_intCast_iff_dvd_sub _ _ _).2 ((dvd_sub_comm).1 h3)
      rw [this]
  obtain ⟨v1, v2, hl, hb⟩ := hval
  have hh : circuitHash X c.boxed = circuitHash X c'.boxed := by
    show ((beNat (X.keccak _) : ℕ) : Fr) = ((beNat (X.keccak _) : ℕ) : Fr)
    rw [show c.boxed.TargetInst ++ c.boxed.VerifyInst = c.TargetInst ++ c.VerifyInst from rfl,
      show c'.boxed.TargetInst ++ c'.boxed.VerifyInst = c'.TargetInst ++ c'.VerifyInst from rfl, hb]
  have hPb : c.boxed.Proof = c'.boxed.Proof := by rw [AggregatorCircuit.boxed, AggregatorCircuit.boxed, hP]
  have hAb : c.boxed.Aux = c'.boxed.Aux := hA
  have hf' : c'.Fits := by
    intro i hi z hz
    exact hf i hi z (by rw [hP]; exact hz)
  have e1 : circuitChallenges X c.boxed = circuitChallenges X c'.boxed := by
    rw [circuitChallenges, circuitChallenges, hh, hPb]
  have e2 : circuitCommitments X c.boxed = circuitCommitments X c'.boxed := by
    rw [circuitCommitments, circuitCommitments, hh, hPb]
  have e3 : circuitEvals c.boxed = circuitEvals c'.boxed := by
    rw [circuitEvals, circuitEvals, hPb]
  rw [C48_every hX hf hs, C48_every hX hf' hs]
  constructor
  · intro h
    refine ⟨hAb ▸ h.aux_len, hAb ▸ h.aux_good, ?_, v2, hPb ▸ h.words, hh ▸ h.hash_ne, hh ▸ h.inst, ?_, hPb ▸ h.witness, ?_, ?_⟩
    · exact hl ▸ h.len
    · have := h.aux; rwa [e1, e3, hAb] at this
    · have := h.terms; rwa [e1, e2, e3, hAb] at this
    · have := h.pairing; rwa [e1, e2, e3, hAb, hPb] at this
  · intro h
    refine ⟨hAb ▸ h.aux_len, hAb ▸ h.aux_good, ?_, v1, hPb ▸ h.words, hh ▸ h.hash_ne, hh ▸ h.inst, ?_, hPb ▸ h.witness, ?_, ?_⟩
    · exact hl ▸ h.len
    · have := h.aux; rwa [← e1, ← e3, ← hAb] at this
    · have := h.terms; rwa [← e1, ← e2, ← e3, ← hAb] at this
    · have := h.pairing; rwa [← e1, ← e2, ← e3, ← hAb, ← hPb] at this

/-- C68: and modulo p it does count: the message that is hashed (32 bytes per value, C24) determines the number of values and every
value modulo p. So two instance lists that differ modulo p have the same instance hash only if Keccak-256 collides, before or after
its reduction modulo r. -/
theorem C68_message (l l' : List ℤ) :
    ((l.flatMap fun z : ℤ => beBytes (z : Fp).val 32) = l'.flatMap fun z : ℤ => beBytes (z : Fp).val 32) ↔
      List.Forall₂ (fun z w => (pMod : ℤ) ∣ z - w) l l' := by
  have pb : pMod < 256 ^ 32 := by decide +kernel
  have len : ∀ l : List ℤ, (l.flatMap fun z : ℤ => beBytes (z : Fp).val 32).length = 32 * l.length := by
    intro l
    induction l with
    | nil => rfl
    | cons z l ih => rw [List.flatMap_cons, List.length_append, beBytes_length, ih, List.length_cons]; omega
  constructor
  · induction l generalizing l' with
    | nil =>
      intro h
      cases l' with
      | nil => exact .nil
      | cons w l' => have := congrArg List.length h; rw [len, len, List.length_nil, List.length_cons] at this; omega
    | cons z l ih =>
      intro h
      cases l' with
      | nil => have := congrArg List.length h; rw [len, len, List.length_nil, List.length_cons] at this; omega
      | cons w l' =>
        rw [List.flatMap_cons, List.flatMap_cons] at h
        obtain ⟨e1, e2⟩ := List.append_inj h (by rw [beBytes_length, beBytes_length])
        have e3 := beBytes_inj ((ZMod.val_lt _).trans pb) ((ZMod.val_lt _).trans pb) e1
        exact .cons ((dvd_sub_comm).1 ((ZMod.intCast_eq_intCast_iff_dvd_sub _ _ _).1 (ZMod.val_injective _ e3))) (ih _ e2)
  · intro h
    induction h with
    | nil => rfl
    | cons h _ ih =>
      rw [List.flatMap_cons, List.flatMap_cons, ih, (ZMod.intCast_eq_intCast_iff_dvd_sub _ _ _).2 ((dvd_sub_comm).1 h)]

/-! ### Concrete cases, from the shipped circuit -/

/-- C68_boundary_false: the shipped circuit is also accepted with its verifier instance moved to the target instances. -/
example : (({ shippedCircuit with TargetInst := shippedCircuit.TargetInst ++ shippedCircuit.VerifyInst, VerifyInst := [] } :
    AggregatorCircuit).Define realExt).Accepted (honestTest realExt true) .init := by
  have h := C68_boundary_false (c' := shippedCircuit) (c := { shippedCircuit with
    TargetInst := shippedCircuit.TargetInst ++ shippedCircuit.VerifyInst, VerifyInst := [] }) realExt rfl rfl (List.append_nil _)
  rw [h]
  exact shipped_accepted

/-- C68_residues: the shipped circuit is also accepted with p added to an instance value. -/
example : (({ shippedCircuit with VerifyInst := [.big (10573525131658455000365299935369648652552518565632155338390913030155084554858 + pMod)] } :
    AggregatorCircuit).Define realExt).Accepted (honestTest realExt true) .init := by
  have hf : shippedCircuit.Fits := by
    rintro i hi z hz
    obtain ⟨_, h1, -⟩ := shipped_canonical.words.word i (by omega)
    have h2 : shippedCircuit.Proof[i]? = _ := h1
    rw [h2] at hz
    cases hz
  refine (C68_residues realExt_strict (c := shippedCircuit)
    (c' := { shippedCircuit with VerifyInst := [.big (10573525131658455000365299935369648652552518565632155338390913030155084554858 + pMod)] })
    hf rfl rfl ?_ rfl).1 shipped_accepted
  refine List.rel_append (List.forall₂_same.2 fun v hv => ?_) (.cons ⟨trivial, trivial, ?_⟩ .nil)
  · have := shipped_instances.val v (List.mem_append_left _ hv)
    exact ⟨this, this, by rw [sub_self]; exact dvd_zero _⟩
  · show (pMod : ℤ) ∣ 10573525131658455000365299935369648652552518565632155338390913030155084554858 - (10573525131658455000365299935369648652552518565632155338390913030155084554858 + pMod)
    exact ⟨-1, by ring⟩

end Verif
