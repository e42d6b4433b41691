/- Helper lemmas about the engine. -/
import Verif.Model.Engine

namespace Verif

theorem intCast_emod (n : ℤ) : ((n % (rMod : ℤ) : ℤ) : Fr) = (n : Fr) := by
  exact ZMod.intCast_mod n rMod

theorem rModZ_pos : (0 : ℤ) < (rMod : ℤ) := by exact_mod_cast rMod_pos

theorem emod_nonneg' (n : ℤ) : 0 ≤ n % (rMod : ℤ) := Int.emod_nonneg _ rModZ_pos.ne'
theorem emod_lt' (n : ℤ) : n % (rMod : ℤ) < rMod := Int.emod_lt_of_pos _ rModZ_pos
theorem emod_self' {n : ℤ} (h0 : 0 ≤ n) (h1 : n < rMod) : n % (rMod : ℤ) = n := Int.emod_eq_of_lt h0 h1

/-- Integers in [0, r) are determined by their field value. -/
theorem canon_ext {a b : ℤ} (ha : 0 ≤ a) (ha' : a < rMod) (hb : 0 ≤ b) (hb' : b < rMod)
    (h : (a : Fr) = (b : Fr)) : a = b := by
  have := (ZMod.intCast_eq_intCast_iff' a b rMod).1 h
  rwa [emod_self' ha ha', emod_self' hb hb'] at this

theorem cast_eq_iff (a b : ℤ) : (a : Fr) = (b : Fr) ↔ a % (rMod:ℤ) = b % (rMod:ℤ) :=
  ZMod.intCast_eq_intCast_iff' a b rMod

theorem toBig_fr {E : Engine} {v : Var} {n : ℤ} (h : toBig E v = some n) : (n : Fr) = v.fr := by
  cases v with
  | nil => simp [toBig] at h
  | int m => simp only [toBig, Option.some.injEq] at h; subst h; simp [Var.fr]
  | big m =>
    simp only [toBig, Option.some.injEq] at h; subst h
    split <;> simp [Var.fr]
  | wire w =>
    simp only [toBig, Option.some.injEq] at h; subst h
    simp only [Var.fr, Int.cast_natCast]
    exact ZMod.natCast_zmod_val w

theorem toBig_isVal {E : Engine} {v : Var} {n : ℤ} (h : toBig E v = some n) : v.IsVal := by
  cases v <;> simp_all [toBig, Var.IsVal]

theorem Var.Good.isVal {v : Var} (h : v.Good) : v.IsVal := by
  cases v <;> simp_all [Var.Good, Var.IsVal]

theorem toBig_some {E : Engine} {v : Var} (h : v.IsVal) : ∃ n, toBig E v = some n := by
  cases v <;> simp_all [toBig, Var.IsVal]

theorem toBig_good {E : Engine} {v : Var} (h : v.Good) :
    ∃ n, toBig E v = some n ∧ 0 ≤ n ∧ n < rMod := by
  cases v with
  | nil => exact h.elim
  | int m => exact ⟨_, rfl, emod_nonneg' _, emod_lt' _⟩
  | big m =>
    refine ⟨_, rfl, ?_⟩
    split
    · exact h
    · exact ⟨emod_nonneg' _, emod_lt' _⟩
  | wire w =>
    refine ⟨_, rfl, by positivity, ?_⟩
    exact_mod_cast ZMod.val_lt w

/-- Canonical engine value of a good operand. -/
theorem toBig_good' {E : Engine} {v : Var} (h : v.Good) : toBig E v = some (v.fr.val : ℤ) := by
  obtain ⟨n, hn, h0, h1⟩ := toBig_good (E := E) h
  rw [hn]
  congr 1
  have := toBig_fr hn
  rw [← this]
  apply canon_ext h0 h1 (by positivity) (by exact_mod_cast ZMod.val_lt _)
  simp

theorem readBig_run {E : Engine} {v : Var} {n : ℤ} (h : toBig E v = some n) (s : St) :
    readBig v E s = .ok (n, s) := by simp [readBig, h]

theorem readBig_ok {E : Engine} {v : Var} {s : St} {n : ℤ} {s' : St} :
    readBig v E s = .ok (n, s') ↔ toBig E v = some n ∧ s' = s := by
  unfold readBig
  cases h : toBig E v <;> simp [eq_comm]

/-- The variable returned by an arithmetic operation. -/
def resVar (E : Engine) (w : Bool) (n : ℤ) : Var :=
  if E.mode = .compile ∧ w = true then .wire (n : Fr) else .big (n % rMod)

theorem mkRes_run (E : Engine) (w : Bool) (n : ℤ) (s : St) : mkRes w n E s = .ok (resVar E w n, s) := rfl

theorem resVar_fr (E : Engine) (w : Bool) (n : ℤ) : (resVar E w n).fr = (n : Fr) := by
  unfold resVar; split <;> simp [Var.fr]

theorem resVar_good (E : Engine) (w : Bool) (n : ℤ) : (resVar E w n).Good := by
  unfold resVar; split
  · trivial
  · exact ⟨emod_nonneg' _, emod_lt' _⟩

theorem resVar_test {E : Engine} (hE : E.mode = .test) (w : Bool) (n : ℤ) :
    resVar E w n = .big (n % rMod) := by simp [resVar, hE]

theorem resVar_isBig {E : Engine} (hE : E.mode = .test) (w : Bool) (n : ℤ) :
    (resVar E w n).Canon := by
  rw [resVar_test hE]; exact ⟨_, rfl, emod_nonneg' _, emod_lt' _⟩

theorem apiAdd_run {E : Engine} {a b : Var} {x y : ℤ} (ha : toBig E a = some x) (hb : toBig E b = some y)
    (s : St) : apiAdd a b E s = .ok (resVar E (a.isWire || b.isWire) (x + y), s) := by
  simp only [apiAdd, Circ.bind_run, readBig_run ha, readBig_run hb, mkRes_run]

theorem apiSub_run {E : Engine} {a b : Var} {x y : ℤ} (ha : toBig E a = some x) (hb : toBig E b = some y)
    (s : St) : apiSub a b E s = .ok (resVar E (a.isWire || b.isWire) (x - y), s) := by
  simp only [apiSub, Circ.bind_run, readBig_run ha, readBig_run hb, mkRes_run]

theorem apiMul_run {E : Engine} {a b : Var} {x y : ℤ} (ha : toBig E a = some x) (hb : toBig E b = some y)
    (s : St) : apiMul a b E s = .ok (resVar E (a.isWire || b.isWire) (x * y), s) := by
  simp only [apiMul, Circ.bind_run, readBig_run ha, readBig_run hb, mkRes_run]

theorem apiIsZero_run {E : Engine} {a : Var} {x : ℤ} (ha : toBig E a = some x) (s : St) :
    apiIsZero a E s = .ok (resVar E a.isWire (if x = 0 then 1 else 0), s) := by
  simp only [apiIsZero, Circ.bind_run, readBig_run ha, mkRes_run]

theorem apiAdd_ok {E : Engine} {a b v : Var} {s s' : St} (h : apiAdd a b E s = .ok (v, s')) :
    s' = s ∧ v.fr = a.fr + b.fr ∧ v.Good ∧ a.IsVal ∧ b.IsVal ∧ (E.mode = .test → v.Canon) := by
  simp only [apiAdd, Circ.bind_ok, readBig_ok] at h
  obtain ⟨x, _, ⟨hx, rfl⟩, y, _, ⟨hy, rfl⟩, h⟩ := h
  rw [mkRes_run] at h
  cases h
  exact ⟨rfl, by rw [resVar_fr, ← toBig_fr hx, ← toBig_fr hy]; push_cast; rfl, resVar_good _ _ _,
    toBig_isVal hx, toBig_isVal hy, fun hE => resVar_isBig hE _ _⟩

theorem apiSub_ok {E : Engine} {a b v : Var} {s s' : St} (h : apiSub a b E s = .ok (v, s')) :
    s' = s ∧ v.fr = a.fr - b.fr ∧ v.Good ∧ a.IsVal ∧ b.IsVal ∧ (E.mode = .test → v.Canon) := by
  simp only [apiSub, Circ.bind_ok, readBig_ok] at h
  obtain ⟨x, _, ⟨hx, rfl⟩, y, _, ⟨hy, rfl⟩, h⟩ := h
  rw [mkRes_run] at h
  cases h
  exact ⟨rfl, by rw [resVar_fr, ← toBig_fr hx, ← toBig_fr hy]; push_cast; rfl, resVar_good _ _ _,
    toBig_isVal hx, toBig_isVal hy, fun hE => resVar_isBig hE _ _⟩

theorem apiMul_ok {E : Engine} {a b v : Var} {s s' : St} (h : apiMul a b E s = .ok (v, s')) :
    s' = s ∧ v.fr = a.fr * b.fr ∧ v.Good ∧ a.IsVal ∧ b.IsVal ∧ (E.mode = .test → v.Canon) := by
  simp only [apiMul, Circ.bind_ok, readBig_ok] at h
  obtain ⟨x, _, ⟨hx, rfl⟩, y, _, ⟨hy, rfl⟩, h⟩ := h
  rw [mkRes_run] at h
  cases h
  exact ⟨rfl, by rw [resVar_fr, ← toBig_fr hx, ← toBig_fr hy]; push_cast; rfl, resVar_good _ _ _,
    toBig_isVal hx, toBig_isVal hy, fun hE => resVar_isBig hE _ _⟩

theorem emit_true (E : Engine) (w : Bool) (s : St) : emit w true E s = .ok ((), s) := rfl

theorem emit_ok {E : Engine} {w c : Bool} {s s' : St} {u : Unit} (h : emit w c E s = .ok (u, s')) :
    s'.hints = s.hints ∧ (s'.sat = true ↔ s.sat = true ∧ c = true) := by
  unfold emit at h
  cases c with
  | true => simp only [if_true] at h; cases h; simp
  | false =>
    simp only [Bool.false_eq_true, if_false] at h
    split at h
    · cases h; simp
    · cases h

theorem assertEq_run {E : Engine} {a b : Var} {x y : ℤ} (ha : toBig E a = some x) (hb : toBig E b = some y)
    (s : St) : apiAssertIsEqual a b E s = emit (a.isWire || b.isWire) (x == y) E s := by
  simp only [apiAssertIsEqual, Circ.bind_run, readBig_run ha, readBig_run hb]

theorem assertEq_ok {E : Engine} {a b : Var} {s s' : St} {u : Unit}
    (h : apiAssertIsEqual a b E s = .ok (u, s')) :
    s'.hints = s.hints ∧ a.IsVal ∧ b.IsVal ∧ (s'.sat = true → s.sat = true ∧ a.fr = b.fr) := by
  simp only [apiAssertIsEqual, Circ.bind_ok, readBig_ok] at h
  obtain ⟨x, _, ⟨hx, rfl⟩, y, _, ⟨hy, rfl⟩, h⟩ := h
  have := emit_ok h
  refine ⟨this.1, toBig_isVal hx, toBig_isVal hy, fun hs => ?_⟩
  obtain ⟨h1, h2⟩ := this.2.1 hs
  refine ⟨h1, ?_⟩
  rw [← toBig_fr hx, ← toBig_fr hy]
  rw [beq_iff_eq.1 h2]

/-- An equality assertion that holds between good operands passes unchanged. -/
theorem assertEq_pass {E : Engine} {a b : Var} (ha : a.Good) (hb : b.Good) (h : a.fr = b.fr) (s : St) :
    apiAssertIsEqual a b E s = .ok ((), s) := by
  rw [assertEq_run (toBig_good' ha) (toBig_good' hb), h]
  simp [emit]

/-- In the test engine a failing equality assertion panics. -/
theorem assertEq_fail_test {E : Engine} (hE : E.mode = .test) {a b : Var} (h : a.fr ≠ b.fr) (s : St) :
    ∃ p, apiAssertIsEqual a b E s = .error p := by
  cases hh : apiAssertIsEqual a b E s with
  | error p => exact ⟨p, rfl⟩
  | ok r =>
    exfalso
    obtain ⟨u, s'⟩ := r
    simp only [apiAssertIsEqual, Circ.bind_ok, readBig_ok] at hh
    obtain ⟨x, _, ⟨hx, rfl⟩, y, _, ⟨hy, rfl⟩, hh⟩ := hh
    unfold emit at hh
    split at hh
    · rename_i hc
      apply h
      rw [← toBig_fr hx, ← toBig_fr hy, beq_iff_eq.1 hc]
    · rw [if_neg (by simp [hE])] at hh; cases hh

theorem lessEq_run {E : Engine} {v b : Var} (hv : v.Good) (hb : b.Good) (s : St) :
    apiAssertIsLessOrEqual v b E s =
      emit (v.isWire || b.isWire) (decide (v.fr.val ≤ b.fr.val)) E s := by
  simp only [apiAssertIsLessOrEqual, Circ.bind_run, readBig_run (toBig_good' hb), readBig_run (toBig_good' hv)]
  rw [if_neg (by push Not; positivity)]
  simp only [Circ.pure_run, Circ.bind_run, readBig_run (toBig_good' hv)]
  simp only [Nat.cast_le]

theorem readBigs_run {E : Engine} : ∀ {vs : List Var} {xs : List ℤ}
    (_ : List.Forall₂ (fun v x => toBig E v = some x) vs xs) (s : St),
    readBigs vs E s = .ok (xs, s)
  | [], [], _, _ => rfl
  | v :: vs, x :: xs, .cons h t, s => by
    simp only [readBigs, Circ.bind_run, readBig_run h, readBigs_run t, Circ.pure_run]

theorem readBigs_ok {E : Engine} : ∀ {vs : List Var} {xs : List ℤ} {s s' : St},
    readBigs vs E s = .ok (xs, s') → s' = s ∧ List.Forall₂ (fun v x => toBig E v = some x) vs xs
  | [], xs, s, s', h => by cases h; exact ⟨rfl, .nil⟩
  | v :: vs, xs, s, s', h => by
    simp only [readBigs, Circ.bind_ok, readBig_ok] at h
    obtain ⟨x, _, ⟨hx, rfl⟩, ys, _, hy, h⟩ := h
    cases h
    obtain ⟨rfl, hf⟩ := readBigs_ok hy
    exact ⟨rfl, .cons hx hf⟩

theorem newHint_ok {E : Engine} {f : HintId} {n : ℕ} {ins : List Var} {s s' : St} {outs : List Var}
    (h : newHint f n ins E s = .ok (outs, s')) :
    s'.hints = s.hints ++ [f] ∧ (s'.sat = true → s.sat = true) ∧ (∀ v ∈ ins, v.IsVal) ∧
    ∃ os, outs = hintOuts E n os ∧ (E.mode = .test → s'.sat = s.sat) := by
  simp only [newHint, Circ.bind_ok] at h
  obtain ⟨xs, s0, hx, h⟩ := h
  obtain ⟨e, hf⟩ := readBigs_ok hx
  subst e
  have hv : ∀ v ∈ ins, v.IsVal := by
    intro v hv
    obtain ⟨i, hi, rfl⟩ := List.getElem_of_mem hv
    have hl := hf.length_eq
    exact toBig_isVal ((List.forall₂_iff_get.1 hf).2 i hi (by omega))
  unfold callHint at h
  cases hs : E.strat f s0.hints.length n xs with
  | ok os =>
    rw [hs] at h; simp only at h; cases h
    exact ⟨rfl, id, hv, os, rfl, fun _ => rfl⟩
  | err =>
    rw [hs] at h; simp only at h
    cases hm : E.mode with
    | test => rw [hm] at h; cases h
    | compile => rw [hm] at h; cases h; exact ⟨rfl, by simp, hv, [], rfl, by simp⟩
  | panic =>
    rw [hs] at h; simp only at h
    cases hm : E.mode with
    | test => rw [hm] at h; cases h
    | compile => rw [hm] at h; cases h; exact ⟨rfl, by simp, hv, [], rfl, by simp⟩

/-- A hint call that succeeds. -/
theorem newHint_run {E : Engine} {f : HintId} {n : ℕ} {ins : List Var} {xs os : List ℤ} {s : St}
    (hx : List.Forall₂ (fun v x => toBig E v = some x) ins xs)
    (hs : E.strat f s.hints.length n xs = .ok os) :
    newHint f n ins E s = .ok (hintOuts E n os, { s with hints := s.hints ++ [f] }) := by
  simp only [newHint, Circ.bind_run, readBigs_run hx, callHint, hs]

/-- The variable holding one hint output. -/
def hintVar (E : Engine) (n : ℤ) : Var := match E.mode with
  | .test => .big (n % rMod)
  | .compile => .wire (n : Fr)

theorem hintVar_fr (E : Engine) (n : ℤ) : (hintVar E n).fr = (n : Fr) := by
  unfold hintVar; cases E.mode <;> simp [Var.fr]

theorem hintVar_good (E : Engine) (n : ℤ) : (hintVar E n).Good := by
  unfold hintVar; cases E.mode
  · exact ⟨emod_nonneg' _, emod_lt' _⟩
  · trivial

theorem hintVar_test {E : Engine} (hE : E.mode = .test) (n : ℤ) : hintVar E n = .big (n % rMod) := by
  simp [hintVar, hE]

theorem hintVar_canon {E : Engine} (hE : E.mode = .test) (n : ℤ) : (hintVar E n).Canon := by
  rw [hintVar_test hE]; exact ⟨_, rfl, emod_nonneg' _, emod_lt' _⟩

theorem hintOuts_eq (E : Engine) (n : ℕ) (os : List ℤ) :
    hintOuts E n os = (List.range n).map fun i => hintVar E (os.getD i 0) := by
  unfold hintOuts hintVar; cases E.mode <;> rfl

theorem hintOuts_get (E : Engine) {n i : ℕ} (h : i < n) (os : List ℤ) :
    (hintOuts E n os)[i]? = some (hintVar E (os.getD i 0)) := by
  rw [hintOuts_eq]; simp [h]

theorem idx_run {a : List Var} {i : ℕ} {v : Var} (h : a[i]? = some v) (E : Engine) (s : St) :
    idx a i E s = .ok (v, s) := by simp [idx, h, Circ.pure_run]

theorem idx_ok {a : List Var} {i : ℕ} {v : Var} {E : Engine} {s s' : St} :
    idx a i E s = .ok (v, s') ↔ a[i]? = some v ∧ s' = s := by
  unfold idx
  cases h : a[i]? with
  | none => simp [Circ.panic_run]
  | some w => simp [Circ.pure_run, eq_comm]

theorem setIdx_run {a : List Var} {i : ℕ} (h : i < a.length) (v : Var) (E : Engine) (s : St) :
    setIdx a i v E s = .ok (a.set i v, s) := by simp [setIdx, h, Circ.pure_run]

theorem setIdx_ok {a b : List Var} {i : ℕ} {v : Var} {E : Engine} {s s' : St} :
    setIdx a i v E s = .ok (b, s') ↔ i < a.length ∧ b = a.set i v ∧ s' = s := by
  unfold setIdx
  split
  · simp [Circ.pure_run, eq_comm, *]
  · simp [Circ.panic_run, *]

theorem asBigInt_ok {v : Var} {n : ℤ} {E : Engine} {s s' : St} :
    asBigInt v E s = .ok (n, s') ↔ v = .big n ∧ s' = s := by
  cases v <;> simp [asBigInt, Circ.pure_run, Circ.panic_run, eq_comm]

end Verif
