/-
Property C74, continued: what the helpers that write to the buffer change, with and without an error.
-/
import Verif.Props.StepFrame
import Verif.Props.Transcript
import Verif.Props.InstanceCommitment
import Verif.Lemmas.Outcome

namespace Verif

/-- Two buffers that differ at most in the entries 2 to 9. -/
def SameBut (B B' : List Var) : Prop := B'.length = B.length ∧ ∀ i, i < 2 ∨ 9 < i → B'[i]? = B[i]?

/-- Every result of the run is a buffer that differs from `B` at most in the entries 2 to 9. -/
def Keeps (B : List Var) (m : Circ (GoErr × List Var)) : Prop := ∀ E s e B' s', m E s = .ok ((e, B'), s') → SameBut B B'

theorem Keeps.any {α : Type} {B : List Var} {m : Circ α} {f : α → Circ (GoErr × List Var)} (h : ∀ a, Keeps B (f a)) : Keeps B (m >>= f) :=
  fun E s e B' s' hr => by
    obtain ⟨a, s1, -, h2⟩ := Circ.bind_ok.1 hr
    exact h a _ _ _ _ _ h2

theorem Keeps.pure {B B' : List Var} {e : GoErr} (h : SameBut B B') : Keeps B (Pure.pure (e, B')) := fun E s e' B1 s' hr => by
  cases hr; exact h

theorem Keeps.err {B B' : List Var} {e : GoErr} {k : Circ (GoErr × List Var)} (h : SameBut B B') (hk : Keeps B k) :
    Keeps B (match e with | some m => Pure.pure (some m, B') | none => k) := by
  cases e with
  | none => exact hk
  | some m => exact .pure h

theorem Keeps.squeeze {X : Ext} {B b a : List Var} {slot pos : ℕ} (h2 : 2 ≤ slot) (h9 : slot ≤ 9) (hb : SameBut B b)
    {f : GoErr × List Var × List Var → Circ (GoErr × List Var)} (h : ∀ e b' a', SameBut B b' → Keeps B (f (e, b', a'))) :
    Keeps B (squeezeTo X b a slot pos >>= f) := fun E s e B' s' hr => by
  obtain ⟨⟨e1, b1, a1⟩, s1, h1, hr⟩ := Circ.bind_ok.1 hr
  simp only [squeezeTo, Circ.bind_ok] at h1
  obtain ⟨⟨⟨c, err⟩, ab⟩, s2, -, b2, s3, h3, h4⟩ := h1
  cases h4
  obtain ⟨l, k⟩ := setIdx_keeps h3
  exact h _ _ _ ⟨l.trans hb.1, fun i hi => (k i (by omega)).trans (hb.2 i hi)⟩ _ _ _ _ _ hr

/-- C74: deriving the challenges changes only the entries 2 to 9 of the buffer, also when it stops with an error. -/
theorem C74_challenges {X : Ext} {B B' T : List Var} {e : GoErr} {E : Engine} {s s' : St}
    (h : GetChallengesShPlonkCircuit X B T E s = .ok ((e, B'), s')) : B'.length = B.length ∧ ∀ i, i < 2 ∨ 9 < i → B'[i]? = B[i]? := by
  have hB : SameBut B B := ⟨rfl, fun _ _ => rfl⟩
  refine (?_ : Keeps B (GetChallengesShPlonkCircuit X B T)) _ _ _ _ _ h
  unfold GetChallengesShPlonkCircuit
  refine .any fun _ => .any fun _ => .any fun _ => .any fun _ => .any fun _ => ?_
  refine .any fun ⟨_, _⟩ => .err hB ?_
  refine .squeeze (by omega) (by omega) hB fun _ _ _ hB => .err hB ?_
  refine .any fun ⟨_, _⟩ => .err hB ?_
  refine .squeeze (by omega) (by omega) hB fun _ _ _ hB => .err hB ?_
  refine .squeeze (by omega) (by omega) hB fun _ _ _ hB => .err hB ?_
  refine .any fun ⟨_, _⟩ => .err hB ?_
  refine .squeeze (by omega) (by omega) hB fun _ _ _ hB => .err hB ?_
  refine .any fun ⟨_, _⟩ => .err hB ?_
  refine .squeeze (by omega) (by omega) hB fun _ _ _ hB => .err hB ?_
  refine .any fun _ => ?_
  refine .squeeze (by omega) (by omega) hB fun _ _ _ hB => .err hB ?_
  refine .squeeze (by omega) (by omega) hB fun _ _ _ hB => .err hB ?_
  refine .any fun ⟨_, _⟩ => .err hB ?_
  refine .squeeze (by omega) (by omega) hB fun _ _ _ hB => .err hB ?_
  exact .any fun _ => .any fun _ => .any fun _ => .pure hB

/-- C74: the instance commitment goes to the entries 0 and 1; nothing else changes, also with an error. -/
theorem C74_lagrange {X : Ext} {B B' : List Var} {e : GoErr} {E : Engine} {s s' : St}
    (h : CalcVerifyCircuitLagrange X B E s = .ok ((e, B'), s')) : B'.length = B.length ∧ ∀ i, 2 ≤ i → B'[i]? = B[i]? := by
  simp only [CalcVerifyCircuitLagrange, Circ.bind_ok] at h
  obtain ⟨_, _, -, ⟨_, _⟩, _, -, B1, _, h1, B2, _, h2, h3⟩ := h
  cases h3
  obtain ⟨l1, f1⟩ := setIdx_keeps h1
  obtain ⟨l2, f2⟩ := setIdx_keeps h2
  exact ⟨l2.trans l1, fun i hi => (f2 i (by omega)).trans (f1 i (by omega))⟩

/-- C74: `ecc_mul` changes the two entries at its offset, and none when it returns an error. -/
theorem C74_ecc_mul {X : Ext} {B B' : List Var} {o : ℕ} {e : GoErr} {E : Engine} {s s' : St}
    (h : ecc_mul X B o E s = .ok ((e, B'), s')) :
    B'.length = B.length ∧ (∀ i, i ≠ o → i ≠ o + 1 → B'[i]? = B[i]?) ∧ (e ≠ none → B' = B) := by
  refine ⟨(ecc_mul_keeps h).1, (ecc_mul_keeps h).2, fun he => ?_⟩
  simp only [ecc_mul, Circ.bind_ok] at h
  obtain ⟨x, s1, -, y, s2, -, k, s3, -, ⟨res, err⟩, s4, -, h⟩ := h
  cases err with
  | some m => cases h; rfl
  | none =>
    simp only [Circ.bind_ok] at h
    obtain ⟨B1, s5, h1, B2, s6, h2, h3⟩ := h
    cases h3
    exact absurd rfl he

/-- C74: `ecc_mul_add` changes the four entries at its offset, and none when it returns an error. -/
theorem C74_ecc_mul_add {X : Ext} {B B' : List Var} {o : ℕ} {e : GoErr} {E : Engine} {s s' : St}
    (h : ecc_mul_add X B o E s = .ok ((e, B'), s')) :
    B'.length = B.length ∧ (∀ i, i < o ∨ o + 3 < i → B'[i]? = B[i]?) ∧ (e ≠ none → B' = B) := by
  refine ⟨(ecc_mul_add_keeps h).1, fun i hi => (ecc_mul_add_keeps h).2 i (by omega) (by omega) (by omega) (by omega), fun he => ?_⟩
  simp only [ecc_mul_add, Circ.bind_ok] at h
  obtain ⟨⟨err, B1⟩, s1, h1, h⟩ := h
  cases err with
  | some m => cases h; exact (C74_ecc_mul h1).2.2 (by simp)
  | none =>
    simp only [Circ.bind_ok] at h
    obtain ⟨_, _, -, _, _, -, _, _, -, _, _, -, ⟨res, _⟩, _, -, B2, _, h2, B3, _, h3, h4⟩ := h
    cases h4
    exact absurd rfl he

-- C74_challenges: a run that succeeds ...
example : ∃ buf', GetChallengesShPlonkCircuit exX ([.big 1, .big 2] ++ List.replicate 41 (.big 0)) exProof exComp .init =
    .ok ((none, buf'), .init) ∧ buf'[1]? = some (.big 2) ∧ buf'[10]? = some (.big 0) := by
  obtain ⟨buf', h⟩ := exProof_ok exComp .init
  obtain ⟨-, k⟩ := C74_challenges h
  exact ⟨buf', h, (k 1 (by omega)).trans rfl, (k 10 (by omega)).trans rfl⟩

-- ... and one that stops with an error at the first point of the second block
example : ∃ buf', GetChallengesShPlonkCircuit exX ([.big 1, .big 2] ++ List.replicate 41 (.big 0)) (exProof.set 17 (.big 3)) exComp .init =
    .ok ((errNotOnCurve, buf'), .init) ∧ buf'.length = 43 ∧ buf'[42]? = some (.big 0) := by
  have hT : ∀ j < 16, (exProof.set 17 (.big 3))[j]? = some (.big (if j % 2 = 0 then 1 else 2)) := by decide
  obtain ⟨buf', h⟩ := getChallenges_fails exX_strict.toLawful.sha_len (buf := [.big 1, .big 2] ++ List.replicate 41 (.big 0))
    (T := exProof.set 17 (.big 3)) (i := 16) (ix := 1) (iy := 2) (by simp) rfl rfl (by norm_num) (by norm_num) (by decide)
    ⟨.big 1, .big 3, 1, 3, rfl, rfl, by decide +kernel, by decide +kernel, by decide +kernel⟩
    (fun j hj hj' => by
      have e : j % 2 = 0 := (by decide : ∀ j ∈ pointPositions, j % 2 = 0) j hj
      have g1 := hT j hj'
      have g2 := hT (j + 1) (by omega)
      rw [if_pos e] at g1
      rw [if_neg (by omega)] at g2
      exact ⟨_, _, g1, g2, 1, 2, by decide +kernel, by decide +kernel, by decide +kernel⟩)
    (fun j _ hj => ⟨_, hT j hj, by split <;> norm_num⟩) exComp .init
  obtain ⟨l, k⟩ := C74_challenges h
  exact ⟨buf', h, l.trans (by simp), (k 42 (by omega)).trans rfl⟩

-- C74_lagrange: a run with an error
example : ∃ m b s', CalcVerifyCircuitLagrange exX [.nil, .nil, .big 1, .int 7] (exLie .compile 7) .init = .ok ((some m, b), s') ∧
    b[2]? = some (.big 1) ∧ b[3]? = some (.int 7) :=
  ⟨_, _, _, rfl, (C74_lagrange (X := exX) (B := [.nil, .nil, .big 1, .int 7]) (E := exLie .compile 7) (s := .init) rfl).2 2 (by omega),
    (C74_lagrange (X := exX) (B := [.nil, .nil, .big 1, .int 7]) (E := exLie .compile 7) (s := .init) rfl).2 3 (by omega)⟩

-- C74_ecc_mul, C74_ecc_mul_add: runs with an error
example : ∃ m s', ecc_mul exX [.big 7, .big 1, .big 2, .big 2] 1 (exLie .compile 7) .init =
    .ok ((some m, [.big 7, .big 1, .big 2, .big 2]), s') := by
  have h : ∃ m b s', ecc_mul exX [.big 7, .big 1, .big 2, .big 2] 1 (exLie .compile 7) .init = .ok ((some m, b), s') := ⟨_, _, _, rfl⟩
  obtain ⟨m, b, s', h⟩ := h
  cases (C74_ecc_mul h).2.2 (by simp)
  exact ⟨m, s', h⟩

example : ∃ m s', ecc_mul_add exX [.big 1, .big 2, .big 1, .big 2, .big 2] 0 (exLie .compile 7) .init =
    .ok ((some m, [.big 1, .big 2, .big 1, .big 2, .big 2]), s') := by
  have h : ∃ m b s', ecc_mul_add exX [.big 1, .big 2, .big 1, .big 2, .big 2] 0 (exLie .compile 7) .init = .ok ((some m, b), s') :=
    ⟨_, _, _, rfl⟩
  obtain ⟨m, b, s', h⟩ := h
  cases (C74_ecc_mul_add h).2.2 (by simp)
  exact ⟨m, s', h⟩

end Verif
