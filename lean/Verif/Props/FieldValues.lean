/-
Properties C01–C06 and C08 for arguments of every kind: Go nil, machine integers, big integers inside or outside [0, r), wires.
`toBig E v` is the integer the engine works with (none for nil); it is outside [0, r) only for a big integer in a test engine that
does not reduce.
-/
import Verif.Props.Field

namespace Verif

/-- The engine reads the variable as an integer in [0, r). -/
def ReadsCanonical (E : Engine) (v : Var) : Prop := ∃ n : ℤ, toBig E v = some n ∧ 0 ≤ n ∧ n < rMod

theorem readsCanonical_eq {E : Engine} {v : Var} (h : ReadsCanonical E v) : toBig E v = some (v.fr.val : ℤ) := by
  obtain ⟨n, hn, h0, h1⟩ := h
  rw [hn, ← toBig_fr hn, fr_val_of_canon h0 h1]

theorem readsCanonical_val {E : Engine} {v : Var} {x : Fr} (h : toBig E v = some (x.val : ℤ)) : ReadsCanonical E v :=
  ⟨_, h, by positivity, by exact_mod_cast ZMod.val_lt x⟩

/-- When a variable is read as an integer in [0, r): never nil, and a big integer in a test engine that does not reduce must be
in that interval itself. -/
theorem readsCanonical_iff (E : Engine) (v : Var) : ReadsCanonical E v ↔
    v ≠ .nil ∧ ∀ n, v = .big n → E.mode = .test → E.raw = true → 0 ≤ n ∧ n < rMod := by
  cases v with
  | nil => exact ⟨fun ⟨_, h, _⟩ => (by cases h), fun h => (h.1 rfl).elim⟩
  | int n => exact ⟨fun _ => ⟨by simp, by simp⟩, fun _ => ⟨_, rfl, emod_nonneg' _, emod_lt' _⟩⟩
  | wire w => exact ⟨fun _ => ⟨by simp, by simp⟩, fun _ => readsCanonical_val (x := w) rfl⟩
  | big n =>
    by_cases hE : E.mode = .test ∧ E.raw = true
    · have hb : toBig E (.big n) = some n := by simp only [toBig, if_pos hE]
      constructor
      · rintro ⟨m, hm, h0⟩
        rw [hb] at hm
        cases hm
        exact ⟨by simp, fun k hk _ _ => by cases hk; exact h0⟩
      · rintro ⟨-, h⟩
        exact ⟨n, hb, h n rfl hE.1 hE.2⟩
    · have hb : toBig E (.big n) = some (n % rMod) := by simp only [toBig, if_neg hE]
      exact ⟨fun _ => ⟨by simp, fun _ _ h1 h2 => (hE ⟨h1, h2⟩).elim⟩, fun _ => ⟨_, hb, emod_nonneg' _, emod_lt' _⟩⟩

theorem isVal_iff {v : Var} : v.IsVal ↔ v ≠ .nil := by
  cases v <;> simp [Var.IsVal]

/-! ### C01 -/

/-- C01, every argument: whatever pair (q, m) the prover answers, `mod` is accepted iff the integer the engine reads is the residue of
m modulo r. In particular nil is never accepted, nor is an integer outside [0, r) that the engine does not reduce. -/
theorem C01_exact {E : Engine} {a : Var} {s : St} (hs : s.sat = true) (q m : ℤ)
    (hst : ∀ ins, E.strat .modHint s.hints.length 2 ins = .ok [q, m]) :
    (∃ v, (mod a).Accepts E s v) ↔ toBig E a = some (m % rMod) := by
  have hm : ((((m : ℤ) : Fr).val : ℕ) : ℤ) = m % rMod := ZMod.val_intCast m
  constructor
  · rintro ⟨v, s', hv, hsat⟩
    obtain ⟨x, hx⟩ := toBig_some (E := E) (mod_ok hv).2.2.1
    rw [mod_run hx (hst [x])] at hv
    cases he : emit ((E.mode = .compile) || a.isWire)
        (((((([q, m] : List ℤ).getD 1 0 : ℤ) : Fr).val : ℤ)) == x) E { s with hints := s.hints ++ [.modHint] } with
    | error p => rw [he] at hv; cases hv
    | ok r =>
      rw [he] at hv; cases hv
      have h2 := beq_iff_eq.1 ((emit_ok he).2.1 hsat).2
      rw [hx, ← h2]
      exact congrArg some hm
  · intro h
    have hrun := mod_run h (hst [m % rMod])
    have hc : (((((([q, m] : List ℤ).getD 1 0 : ℤ) : Fr).val : ℤ)) == m % rMod) = true := by
      rw [beq_iff_eq]
      exact hm
    rw [hc] at hrun
    exact ⟨_, _, hrun, hs⟩

/-! ### C02 -/

theorem mod_honest' {E : Engine} (hE : HonestMod E) {a : Var} (ha : ReadsCanonical E a) (s : St) :
    mod a E s = .ok (hintVar E a.fr.val, s.addHints [.modHint]) := by
  have hx := readsCanonical_eq ha
  have hl : ((a.fr.val : ℕ) : ℤ) < rMod := by exact_mod_cast ZMod.val_lt a.fr
  rw [mod_run hx (os := [(a.fr.val : ℤ) / rMod, (a.fr.val : ℤ) % rMod]) (by rw [hE]; rfl)]
  have e1 : ([(a.fr.val : ℤ) / (rMod:ℤ), (a.fr.val : ℤ) % rMod] : List ℤ).getD 1 0 = (a.fr.val : ℤ) := by
    exact emod_self' (by positivity) hl
  rw [e1, fr_val_of_canon (by positivity) hl]
  simp only [beq_self_eq_true, emit_true]
  rfl

/-- C02, every argument: with the honest hint `mod` is accepted iff the engine reads an integer in [0, r). -/
theorem C02_exact {E : Engine} (hE : HonestMod E) (a : Var) {s : St} (hs : s.sat = true) :
    (∃ v, (mod a).Accepts E s v) ↔ ReadsCanonical E a := by
  constructor
  · rintro ⟨v, s', hv, hsat⟩
    obtain ⟨x, hx⟩ := toBig_some (E := E) (mod_ok hv).2.2.1
    rw [mod_run hx (os := [x / rMod, x % rMod]) (by rw [hE]; rfl)] at hv
    cases he : emit ((E.mode = .compile) || a.isWire)
        (((((([x / rMod, x % rMod] : List ℤ).getD 1 0 : ℤ) : Fr).val : ℤ)) == x) E { s with hints := s.hints ++ [.modHint] } with
    | error p => rw [he] at hv; cases hv
    | ok r =>
      rw [he] at hv; cases hv
      have h2 := beq_iff_eq.1 ((emit_ok he).2.1 hsat).2
      rw [← h2] at hx
      exact readsCanonical_val hx
  · intro h
    exact ⟨_, _, mod_honest' hE h s, hs⟩

-- r + 7 in a test engine that keeps big integers is rejected even by the honest hint; in a compiled circuit it is accepted
example : (¬ ∃ v, (mod (.big (rMod + 7))).Accepts exTest .init v) ∧ ∃ v, (mod (.big (rMod + 7))).Accepts exComp .init v := by
  rw [C02_exact exTest_honest _ rfl, C02_exact exComp_honest _ rfl, readsCanonical_iff, readsCanonical_iff]
  refine ⟨fun h => ?_, by simp, fun _ _ h => by cases h⟩
  have := (h.2 _ rfl rfl rfl).2
  omega

/-! ### C03 -/

/-- C03: a nil operand panics, whatever the other operand, the engine and the hints. -/
theorem C03_nil (E : Engine) (s : St) {a b : Var} (h : a = .nil ∨ b = .nil) :
    (∃ p, fr_add a b E s = .error p) ∧ (∃ p, fr_sub a b E s = .error p) ∧ (∃ p, fr_mul a b E s = .error p) ∧
      ∃ p, fr_neg .nil E s = .error p := by
  have key : ∀ {m : Circ Var}, (∀ v s', m E s = .ok (v, s') → a.IsVal ∧ b.IsVal) → ∃ p, m E s = .error p := by
    intro m hm
    cases hr : m E s with
    | error p => exact ⟨p, rfl⟩
    | ok r =>
      obtain ⟨ha, hb⟩ := hm r.1 r.2 hr
      rcases h with rfl | rfl
      · exact ha.elim
      · exact hb.elim
  refine ⟨key fun v s' h => ?_, key fun v s' h => ?_, key fun v s' h => ?_, ?_⟩
  · simp only [fr_add, Circ.bind_ok] at h
    obtain ⟨t, s1, h1, -⟩ := h
    exact ⟨(apiAdd_ok h1).2.2.2.1, (apiAdd_ok h1).2.2.2.2.1⟩
  · simp only [fr_sub, Circ.bind_ok] at h
    obtain ⟨t, s1, h1, -⟩ := h
    exact ⟨(apiSub_ok h1).2.2.2.1, (apiSub_ok h1).2.2.2.2.1⟩
  · exact ⟨(fr_mul_ok h).2.2.1, (fr_mul_ok h).2.2.2.1⟩
  · cases hr : fr_neg .nil E s with
    | error p => exact ⟨p, rfl⟩
    | ok r => exact (apiSub_ok (v := r.1) (s' := r.2) hr).2.2.2.2.1.elim

/-! ### C04 -/

/-- C04, every argument: with the honest hint `fr_div a b aux` is accepted iff a and aux are read as integers in [0, r), b is not nil,
and b·aux = a in the field. The divisor may be any integer. -/
theorem C04_exact {E : Engine} (hE : HonestMod E) (a b aux : Var) {s : St} (hs : s.sat = true) :
    (∃ v, (fr_div a b aux).Accepts E s v) ↔
      ReadsCanonical E a ∧ b ≠ .nil ∧ ReadsCanonical E aux ∧ b.fr * aux.fr = a.fr := by
  constructor
  · rintro ⟨v, s', h, hsat⟩
    have hok := fr_div_ok h
    have hval := (hok.2.2.2.2.2.2 hsat).2.1
    simp only [fr_div, Circ.bind_ok] at h
    obtain ⟨r, s1, h1, u, s2, h2, h3⟩ := h
    have hs2 := ((mod_ok h3).2.2.2.2.2 hsat).1
    obtain ⟨-, g2, -⟩ := fr_mul_ok h1
    obtain ⟨x, hx⟩ := toBig_some (E := E) hok.2.2.1
    rw [assertEq_run (toBig_good' g2) hx] at h2
    have e := beq_iff_eq.1 ((emit_ok h2).2.1 hs2).2
    rw [← e] at hx
    exact ⟨readsCanonical_val hx, isVal_iff.1 hok.2.2.2.1, (C02_exact hE aux hs2).1 ⟨v, s', h3, hsat⟩, hval⟩
  · rintro ⟨ha, hb, hx, h⟩
    have hxv : aux.IsVal := toBig_isVal (readsCanonical_eq hx)
    refine ⟨hintVar E aux.fr.val, (s.addHints [.modHint]).addHints [.modHint], ?_, hs⟩
    simp only [fr_div, Circ.bind_run, fr_mul_honest hE (isVal_iff.2 hb) hxv]
    rw [assertEq_run (toBig_good' (frVar_good E _)) (readsCanonical_eq ha), frVar_fr, h]
    simp only [beq_self_eq_true, emit_true]
    rw [mod_honest' hE hx]

-- 6 / 2 = 3 with the divisor given as 2 - r; with the dividend given as 6 + r it is rejected
example : (∃ v, (fr_div (.big 6) (.big (2 - rMod)) (.big 3)).Accepts exTest .init v) ∧
    ¬ ∃ v, (fr_div (.big (6 + rMod)) (.big 2) (.big 3)).Accepts exTest .init v := by
  rw [C04_exact exTest_honest _ _ _ rfl, C04_exact exTest_honest _ _ _ rfl]
  refine ⟨⟨⟨6, rfl, by norm_num, by decide +kernel⟩, by simp, ⟨3, rfl, by norm_num, by decide +kernel⟩, by decide +kernel⟩, ?_⟩
  rintro ⟨h, -⟩
  have := (((readsCanonical_iff _ _).1 h).2 _ rfl rfl rfl).2
  omega

/-! ### C06 -/

/-- C06, every base: with the honest hint `fr_pow` with a constant exponent is accepted iff the base is not nil and, for exponents
n ≤ 1, is read as an integer in [0, r). -/
theorem C06_exact {E : Engine} (hE : HonestMod E) (a : Var) (n : ℤ) {s : St} (hs : s.sat = true) :
    (∃ v, (fr_pow a (.big n)).Accepts E s v) ↔ a ≠ .nil ∧ (n ≤ 1 → ReadsCanonical E a) := by
  constructor
  · rintro ⟨v, s', h, hsat⟩
    simp only [fr_pow, Circ.bind_ok, asBigInt_ok] at h
    obtain ⟨m, _, ⟨hm, rfl⟩, r, s1, h1, h2⟩ := h
    cases hm
    have hr := (C02_exact hE r (s := s1) (by rw [(frPowLoop_ok _ rfl h1).1]; exact hs)).1 ⟨v, s', h2, hsat⟩
    by_cases hn : n ≤ 1
    · have e := (frPowLoop_ok _ rfl h1).2.2.1 (by omega)
      rw [e] at hr
      exact ⟨((readsCanonical_iff E a).1 hr).1, fun _ => hr⟩
    · refine ⟨?_, fun h => (hn h).elim⟩
      rintro rfl
      rw [frPowLoop, if_pos (by omega)] at h1
      simp only [Circ.bind_ok] at h1
      obtain ⟨r', s2, h3, -⟩ := h1
      exact (apiMul_ok h3).2.2.2.1.elim
  · rintro ⟨ha, hg⟩
    by_cases hn : n ≤ 1
    · refine ⟨hintVar E a.fr.val, s.addHints [.modHint], ?_, hs⟩
      have : asBigInt (.big n) E s = .ok (n, s) := rfl
      simp only [fr_pow, Circ.bind_run, this]
      rw [frPowLoop, if_neg (by omega)]
      simp only [Circ.pure_run]
      exact mod_honest' hE (hg hn) s
    · exact ⟨_, _, fr_pow_honest hE n (isVal_iff.2 ha) (fun h => (hn h).elim) s, hs⟩

-- (r + 2)^2 is accepted, (r + 2)^1 is not
example : (∃ v, (fr_pow (.big (rMod + 2)) (.big 2)).Accepts exTest .init v) ∧
    ¬ ∃ v, (fr_pow (.big (rMod + 2)) (.big 1)).Accepts exTest .init v := by
  rw [C06_exact exTest_honest _ _ rfl, C06_exact exTest_honest _ _ rfl]
  refine ⟨⟨by simp, fun h => by omega⟩, fun h => ?_⟩
  have := (((readsCanonical_iff _ _).1 (h.2 (le_refl 1))).2 _ rfl rfl rfl).2
  omega

/-! ### C08 -/

theorem packLoop_isVal {E : Engine} : ∀ {l : List Var} {res v : Var} {s s' : St}, packLoop res l E s = .ok (v, s') → l ≠ [] →
    res.IsVal ∧ ∀ w ∈ l, w.IsVal
  | [], _, _, _, _, _, h => (h rfl).elim
  | x :: l, res, v, s, s', h, _ => by
    simp only [packLoop, Circ.bind_ok] at h
    obtain ⟨m, s1, h1, r, s2, h2, h3⟩ := h
    refine ⟨(apiMul_ok h1).2.2.2.1, fun w hw => ?_⟩
    rcases List.mem_cons.1 hw with rfl | hw
    · exact (apiAdd_ok h2).2.2.2.2.1
    · by_cases hl : l = []
      · rw [hl] at hw; cases hw
      · exact (packLoop_isVal h3 hl).2 w hw

/-- C08: nil among two or more variables panics; a single variable is returned as it is, without any operation, even nil. -/
theorem C08_nil (E : Engine) (s : St) : (∀ l : List Var, 2 ≤ l.length → .nil ∈ l → ∃ p, PackUInt8Variables l E s = .error p) ∧
    ∀ v : Var, PackUInt8Variables [v] E s = .ok (v, s) := by
  refine ⟨fun l hl hn => ?_, fun v => rfl⟩
  match l, hl with
  | x :: y :: l, _ =>
    cases h : PackUInt8Variables (x :: y :: l) E s with
    | error p => exact ⟨p, rfl⟩
    | ok r =>
      obtain ⟨h1, h2⟩ := packLoop_isVal (v := r.1) (s' := r.2) h (by simp)
      rcases List.mem_cons.1 hn with e | hn
      · rw [← e] at h1; exact h1.elim
      · exact (h2 _ hn).elim

example : ∃ p, PackUInt8Variables [.big 1, .nil] exTest .init = .error p := (C08_nil _ _).1 _ (by simp) (by simp)

end Verif
