/-
Property C23 for arguments of every kind: accepted exactly when the engine reads bytes and the first 32 claimed values are read as the
bytes of the digest.
-/
import Verif.Props.Transcript

namespace Verif

/-- The engine reads the variable as this byte (`toBig`: the integer the engine works with; none for nil). -/
def ReadsByte (E : Engine) (v : Var) (b : UInt8) : Prop := toBig E v = some (b.toNat : ℤ)

theorem readsByte_res (E : Engine) (b : UInt8) : ReadsByte E (resVar E true b.toNat) b := (isByte_res E true b).toBig E

theorem byteAssertLoop_iff {hv : List Var} {E : Engine} : ∀ (ds : List UInt8) (i : ℕ) (s : St),
    (∃ s', byteAssertLoop hv (ds.map fun b => resVar E true b.toNat) i E s = .ok ((), s') ∧ s'.sat = true) ↔
      s.sat = true ∧ List.Forall₂ (ReadsByte E) ((hv.drop i).take ds.length) ds
  | [], i, s => by
    simp only [List.map_nil, byteAssertLoop, Circ.pure_run, List.length_nil, List.take_zero, List.forall₂_nil_left_iff, and_true]
    constructor
    · rintro ⟨s', h, h2⟩; cases h; exact h2
    · intro h; exact ⟨s, rfl, h⟩
  | d :: ds, i, s => by
    have ih := byteAssertLoop_iff (hv := hv) (E := E) ds (i + 1)
    constructor
    · rintro ⟨s', h, h2⟩
      simp only [List.map_cons, byteAssertLoop, Circ.bind_ok, idx_ok] at h
      obtain ⟨v, _, ⟨hv1, rfl⟩, u1, s1, h3, h4⟩ := h
      obtain ⟨a1, a2⟩ := (ih s1).1 ⟨s', h4, h2⟩
      obtain ⟨x, hx⟩ := toBig_some (E := E) (assertEq_ok h3).2.1
      rw [assertEq_run hx (readsByte_res E d)] at h3
      obtain ⟨b1, b2⟩ := (emit_ok h3).2.1 a1
      obtain ⟨hi, e⟩ := List.getElem?_eq_some_iff.1 hv1
      rw [List.drop_eq_getElem_cons hi, e, List.length_cons, List.take_succ_cons]
      refine ⟨b1, .cons ?_ a2⟩
      rw [ReadsByte, hx, beq_iff_eq.1 b2]
    · rintro ⟨hs, h⟩
      have hi : i < hv.length := by
        by_contra hc
        rw [List.drop_eq_nil_of_le (by omega), List.take_nil] at h
        cases h
      rw [List.drop_eq_getElem_cons hi, List.length_cons, List.take_succ_cons] at h
      cases h with
      | cons h1 h2 =>
        obtain ⟨s', g1, g2⟩ := (ih s).2 ⟨hs, h2⟩
        refine ⟨s', ?_, g2⟩
        simp only [List.map_cons, byteAssertLoop, Circ.bind_run, idx_run (List.getElem?_eq_getElem hi)]
        rw [assertEq_run h1 (readsByte_res E d)]
        simp only [beq_self_eq_true, emit_true]
        exact g1

theorem hashGadget_reads (h : List UInt8 → List UInt8) {E : Engine} {ins : List Var} {bs : List UInt8}
    (hb : List.Forall₂ (ReadsByte E) ins bs) (s : St) :
    hashGadget h ins E s = .ok ((h bs).map (fun b => resVar E true b.toNat), s) := by
  have h0 : List.Forall₂ (fun v x => toBig E v = some x) ins (bs.map fun b => (b.toNat : ℤ)) := by
    induction hb with
    | nil => exact .nil
    | cons a _ ih => exact .cons a ih
  have h1 : ((bs.map fun b => (b.toNat : ℤ)).all fun x => decide (0 ≤ x ∧ x < 256)) = true := by
    rw [List.all_eq_true]
    intro x hx
    obtain ⟨b, -, rfl⟩ := List.mem_map.1 hx
    have := b.toNat_lt
    simp only [decide_eq_true_eq]; omega
  have h2 : ((bs.map fun b => (b.toNat : ℤ)).map fun x => UInt8.ofNat x.toNat) = bs := by
    rw [List.map_map]; simp [Function.comp_def]
  simp only [hashGadget, Circ.bind_run, readBigs_run h0, h1, gadget_true, h2, mapM_mkRes]

theorem digest_iff {h : List UInt8 → List UInt8} (hl : ∀ m, (h m).length = 32) (ins claimed : List Var) (E : Engine) {s : St}
    (hs : s.sat = true) :
    Circ.Accepted (do let res ← hashGadget h ins; byteAssertLoop claimed res 0; pure none) E s ↔
      ∃ bs, List.Forall₂ (ReadsByte E) ins bs ∧ List.Forall₂ (ReadsByte E) (claimed.take 32) (h bs) := by
  constructor
  · rintro ⟨s', h1, h2⟩
    simp only [Circ.bind_ok] at h1
    obtain ⟨outs, s1, h1, u, s2, h3, h4⟩ := h1
    cases h4
    obtain ⟨-, xs, hx, rfl, hsat⟩ := hashGadget_ok h1
    obtain ⟨a1, a2⟩ := (byteAssertLoop_iff _ 0 s1).1 ⟨s', h3, h2⟩
    obtain ⟨-, hall⟩ := hsat a1
    rw [List.drop_zero, hl] at a2
    refine ⟨_, ?_, a2⟩
    clear a2 h3 h1 hsat
    induction hx with
    | nil => exact .nil
    | @cons v x vs xs e _ ih =>
      obtain ⟨x0, x1⟩ := hall x (by simp)
      refine .cons ?_ (ih fun y hy => hall y (List.mem_cons_of_mem _ hy))
      rw [ReadsByte, e]
      congr 1
      have : x.toNat < 256 := by omega
      rw [UInt8.toNat_ofNat', Nat.mod_eq_of_lt this]
      omega
  · rintro ⟨bs, h1, h2⟩
    obtain ⟨s', g1, g2⟩ := (byteAssertLoop_iff (hv := claimed) (E := E) (h bs) 0 s).2 ⟨hs, by rw [List.drop_zero, hl]; exact h2⟩
    refine ⟨s', ?_, g2⟩
    simp only [Circ.bind_run, hashGadget_reads h h1, g1, Circ.pure_run]

/-- C23, every pair of lists, of any lengths and with values of any kind: the two functions are accepted iff the engine reads every
input as a byte and there are 32 claimed values that it reads, in order, as the bytes of the digest of these. -/
theorem C23_exact {X : Ext} (hX : X.Lawful) (ins claimed : List Var) (E : Engine) {s : St} (hs : s.sat = true) :
    ((VerifyKeccak256 X ins claimed).Accepted E s ↔
      ∃ bs, List.Forall₂ (ReadsByte E) ins bs ∧ List.Forall₂ (ReadsByte E) (claimed.take 32) (X.keccak bs)) ∧
    ((VerifySha256 X ins claimed).Accepted E s ↔
      ∃ bs, List.Forall₂ (ReadsByte E) ins bs ∧ List.Forall₂ (ReadsByte E) (claimed.take 32) (X.sha256 bs)) :=
  ⟨digest_iff hX.keccak_len ins claimed E hs, digest_iff hX.sha_len ins claimed E hs⟩

/-- C23: the claimed digest is determined by the input: two accepted digests of the same input are read as the same 32 bytes. -/
theorem C23_unique {X : Ext} (hX : X.Lawful) {ins c c' : List Var} {E : Engine} {s : St} (hs : s.sat = true)
    (h : (VerifyKeccak256 X ins c).Accepted E s ∧ (VerifyKeccak256 X ins c').Accepted E s ∨
      (VerifySha256 X ins c).Accepted E s ∧ (VerifySha256 X ins c').Accepted E s) :
    32 ≤ c.length ∧ 32 ≤ c'.length ∧ (c.take 32).map (toBig E) = (c'.take 32).map (toBig E) := by
  have key : ∀ {hf : List UInt8 → List UInt8}, (∀ m, (hf m).length = 32) →
      (∃ bs, List.Forall₂ (ReadsByte E) ins bs ∧ List.Forall₂ (ReadsByte E) (c.take 32) (hf bs)) →
      (∃ bs, List.Forall₂ (ReadsByte E) ins bs ∧ List.Forall₂ (ReadsByte E) (c'.take 32) (hf bs)) →
      32 ≤ c.length ∧ 32 ≤ c'.length ∧ (c.take 32).map (toBig E) = (c'.take 32).map (toBig E) := by
    rintro hf hl ⟨bs, h1, h2⟩ ⟨bs', h3, h4⟩
    have toMap : ∀ {l : List Var} {d : List UInt8}, List.Forall₂ (ReadsByte E) l d →
        l.map (toBig E) = d.map fun b => some (b.toNat : ℤ) := by
      intro l d h
      induction h with
      | nil => rfl
      | cons a _ ih => rw [List.map_cons, List.map_cons, ih, a]
    have e : bs = bs' := by
      have := (toMap h1).symm.trans (toMap h3)
      refine List.map_injective_iff.2 (fun a b hab => ?_) this
      exact UInt8.toNat_inj.1 (by exact_mod_cast Option.some.inj hab)
    subst e
    have l1 := h2.length_eq
    have l2 := h4.length_eq
    rw [hl, List.length_take] at l1 l2
    exact ⟨by omega, by omega, (toMap h2).trans (toMap h4).symm⟩
  rcases h with ⟨h1, h2⟩ | ⟨h1, h2⟩
  · exact key hX.keccak_len (((C23_exact hX _ _ E hs).1).1 h1) (((C23_exact hX _ _ E hs).1).1 h2)
  · exact key hX.sha_len (((C23_exact hX _ _ E hs).2).1 h1) (((C23_exact hX _ _ E hs).2).1 h2)

-- nil, or 256, or -1 among the inputs: never accepted
example {X : Ext} (hX : X.Lawful) (c : List Var) : ¬ (VerifySha256 X [.big 7, .nil] c).Accepted exTest .init ∧
    ¬ (VerifySha256 X [.big 256] c).Accepted exTest .init ∧ ¬ (VerifySha256 X [.big (-1)] c).Accepted exTest .init := by
  rw [(C23_exact hX _ _ exTest rfl).2, (C23_exact hX _ _ exTest rfl).2, (C23_exact hX _ _ exTest rfl).2]
  have hb : ∀ n : ℤ, toBig exTest (.big n) = some n := fun n => by
    simp only [toBig, exTest, and_self, if_true]
  refine ⟨?_, ?_, ?_⟩
  · rintro ⟨bs, h, -⟩
    cases h with
    | cons _ h => cases h with
      | cons h _ => cases h
  · rintro ⟨bs, h, -⟩
    cases h with
    | @cons _ b _ _ h _ =>
      rw [ReadsByte, hb] at h
      have := Option.some.inj h
      have := b.toNat_lt
      omega
  · rintro ⟨bs, h, -⟩
    cases h with
    | @cons _ b _ _ h _ =>
      rw [ReadsByte, hb] at h
      have := Option.some.inj h
      omega

end Verif
