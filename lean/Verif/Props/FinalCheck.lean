/-
Property C45 for the part of `AggregatorCircuit.Define` that makes the four tests, /repo/circuit.go:101-125: which buffer
entries are tested, and what is decided after them.
-/
import Verif.Props.Soundness
import Verif.Lemmas.Complete
import Verif.Props.AtePairing

namespace Verif

/-- C45: when entries 10, 11 and 12, 13 of the buffer hold the coordinates of two curve points, `Define` passes its last
part iff neither is the point at infinity and the pairing equation holds of the two. -/
theorem C45_final {X : Ext} {B : List Var} {P Q : G1} (h10 : B[10]? = some (.big (enc P).1.val))
    (h11 : B[11]? = some (.big (enc P).2.val)) (h12 : B[12]? = some (.big (enc Q).1.val))
    (h13 : B[13]? = some (.big (enc Q).2.val)) (E : Engine) {s : St} (hs : s.sat = true) :
    (finalCheck X B).Accepted E s ↔ P ≠ 0 ∧ Q ≠ 0 ∧ X.pairing [enc P, enc Q] [g20, g21] = true := by
  have g {i : ℕ} {v : Var} (h : B[i]? = some v) : B.getD i .nil = v := by rw [List.getD_eq_getElem?_getD, h]; rfl
  constructor
  · rintro ⟨s', h, h'⟩
    obtain ⟨-, a, b, ca, cb, -, -, hp, hnz⟩ := finalCheck_ok h h'
    rw [g h10, g h11] at ca
    rw [g h12, g h13] at cb
    have coord (x : Fp) : setInterface (.big x.val) = some x := by simp [setInterface]
    obtain ⟨a1, a2⟩ := constPair_iff.1 ca
    obtain ⟨b1, b2⟩ := constPair_iff.1 cb
    rw [coord] at a1 a2 b1 b2
    have ea : a = enc P := Prod.ext (Option.some.inj a1).symm (Option.some.inj a2).symm
    have eb : b = enc Q := Prod.ext (Option.some.inj b1).symm (Option.some.inj b2).symm
    refine ⟨?_, ?_, ea ▸ eb ▸ hp⟩
    · rintro rfl
      obtain ⟨m, hm, h1⟩ := hnz 10 (by omega) (by omega)
      rw [g h10] at hm
      have z : (enc (0 : G1)).1.val = 0 := rfl
      rw [z] at hm
      have : m = 0 := by
        simp only [toBig] at hm
        split_ifs at hm <;> simpa using hm.symm
      omega
    · rintro rfl
      obtain ⟨m, hm, h1⟩ := hnz 12 (by omega) (by omega)
      rw [g h12] at hm
      have z : (enc (0 : G1)).1.val = 0 := rfl
      rw [z] at hm
      have : m = 0 := by
        simp only [toBig] at hm
        split_ifs at hm <;> simpa using hm.symm
      omega
  · rintro ⟨hP, hQ, hp⟩
    have hl : 13 < B.length := by
      by_contra hc
      rw [List.getElem?_eq_none (by omega)] at h13
      cases h13
    exact ⟨s, finalCheck_run ⟨g h10, g h11⟩ ⟨g h12, g h13⟩ hl hP hQ hp E s, hs⟩

/-- C45: a point at infinity stops the run before any pairing is computed: a failed assertion, whatever the pairing. -/
theorem C45_final_infinity {X : Ext} {B : List Var} {P Q : G1} (h10 : B[10]? = some (.big (enc P).1.val))
    (h11 : B[11]? = some (.big (enc P).2.val)) (h12 : B[12]? = some (.big (enc Q).1.val))
    (h13 : B[13]? = some (.big (enc Q).2.val)) (h0 : P = 0 ∨ Q = 0) (E : Engine) (s : St) :
    finalCheck X B E s = .error (.mk "assertion failed") := by
  have i {k : ℕ} {v : Var} (h : B[k]? = some v) : idx B k E s = .ok (v, s) := by
    simp only [idx, h]; rfl
  have z : (enc (0 : G1)).1 = 0 := rfl
  by_cases hP : P = 0
  · subst hP
    unfold finalCheck
    rw [Circ.bind_run, i h10]
    simp only []
    rw [Circ.bind_run, notZero_coord _ (C45_no_r_coordinate 0).1, z, if_neg (by simp)]
  · have hQ := h0.resolve_left hP
    subst hQ
    obtain ⟨p1, p2⟩ := (C45_no_zero_coordinate P).1 hP
    unfold finalCheck
    rw [Circ.bind_run, i h10]
    simp only []
    rw [Circ.bind_run, notZero_coord _ (C45_no_r_coordinate P).1, if_pos p1]
    simp only []
    rw [Circ.bind_run, i h11]
    simp only []
    rw [Circ.bind_run, notZero_coord _ (C45_no_r_coordinate P).2, if_pos p2]
    simp only []
    rw [Circ.bind_run, i h12]
    simp only []
    rw [Circ.bind_run, notZero_coord _ (C45_no_r_coordinate 0).1, z, if_neg (by simp)]

/-- C69 for the last part of `Define` as it stands, the zero tests included: it accepts two points P, Q iff P is not
infinity and Q = τ·P. -/
theorem C69_final {X : Ext} (hX : X.pairing = Ate.check) : ∃ τ : Fr, τ ≠ 0 ∧ ∀ (B : List Var) (P Q : G1) (E : Engine) (s : St),
    B[10]? = some (.big (enc P).1.val) → B[11]? = some (.big (enc P).2.val) → B[12]? = some (.big (enc Q).1.val) →
    B[13]? = some (.big (enc Q).2.val) → s.sat = true → ((finalCheck X B).Accepted E s ↔ P ≠ 0 ∧ Q = τ • P) := by
  obtain ⟨τ, h⟩ := exists_tau
  have h0 := C69_tau_ne h
  refine ⟨τ, h0, fun B P Q E s h10 h11 h12 h13 hs => ?_⟩
  rw [C45_final h10 h11 h12 h13 E hs, hX, h]
  constructor
  · exact fun ⟨a, _, b⟩ => ⟨a, b⟩
  · rintro ⟨a, rfl⟩
    exact ⟨a, fun hz => (fr_smul_eq_zero.1 hz).elim h0 a, rfl⟩

/-- A buffer whose entries 10 to 13 are the coordinates of two points. -/
def exBuf (P Q : G1) : List Var :=
  List.replicate 10 (.big 0) ++ [.big (enc P).1.val, .big (enc P).2.val, .big (enc Q).1.val, .big (enc Q).2.val]

/-- C45_final: two points the pairing accepts; the second point wrong; the first point infinity. -/
example (E : Engine) : (finalCheck exX (exBuf G1gen ((5 : Fr) • G1gen))).Accepted E .init ∧
    ¬ (finalCheck exX (exBuf G1gen G1gen)).Accepted E .init ∧
    ¬ (finalCheck exX (exBuf 0 G1gen)).Accepted E .init := by
  have ne : (5 : Fr) • G1gen ≠ 0 := fun h => (fr_smul_eq_zero.1 h).elim (by decide +kernel) gen_ne_zero
  have pr (Q : G1) : exX.pairing [enc G1gen, enc Q] [g20, g21] = true ↔ Q = (5 : Fr) • G1gen := by
    simp only [exX, idealExt, dec_enc, decide_eq_true_eq]
  refine ⟨(C45_final rfl rfl rfl rfl E rfl).2 ⟨gen_ne_zero, ne, (pr _).2 rfl⟩, fun h => ?_, fun h => ?_⟩
  · have h1 := (pr _).1 ((C45_final rfl rfl rfl rfl E rfl).1 h).2.2
    have h2 : ((5 : Fr) - 1) • G1gen = 0 := by rw [sub_smul, one_smul, ← h1, sub_self]
    exact (fr_smul_eq_zero.1 h2).elim (by decide +kernel) gen_ne_zero
  · exact ((C45_final rfl rfl rfl rfl E rfl).1 h).1 rfl

/-- C45_final_infinity: the second point infinity. -/
example (E : Engine) (s : St) : finalCheck exX (exBuf G1gen 0) E s = .error (.mk "assertion failed") :=
  C45_final_infinity (P := G1gen) (Q := 0) rfl rfl rfl rfl (.inr rfl) E s

/-- C69_final: with the real pairing, the point at infinity is never accepted, and some pair of points is. -/
example {X : Ext} (hX : X.pairing = Ate.check) (E : Engine) : (∃ Q : G1, (finalCheck X (exBuf G1gen Q)).Accepted E .init) ∧
    ∀ P : G1, ¬ (finalCheck X (exBuf 0 P)).Accepted E .init := by
  obtain ⟨τ, -, h⟩ := C69_final hX
  exact ⟨⟨τ • G1gen, (h _ _ _ E _ rfl rfl rfl rfl rfl).2 ⟨gen_ne_zero, rfl⟩⟩,
    fun P hp => ((h _ 0 P E _ rfl rfl rfl rfl rfl).1 hp).1 rfl⟩

end Verif
