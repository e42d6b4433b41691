/- Helper lemmas about the model of fr.go and utils.go. -/
import Verif.Model.Fr
import Verif.Lemmas.Engine
import Mathlib.Algebra.BigOperators.Fin

namespace Verif

theorem rMod_cast : ((rMod : ℤ) : Fr) = 0 := by
  rw [Int.cast_natCast]; exact ZMod.natCast_self rMod

theorem toBig_modulus (E : Engine) : ∃ n : ℤ, toBig E modulusVar = some n ∧ (n : Fr) = 0 := by
  refine ⟨_, rfl, ?_⟩
  split
  · exact rMod_cast
  · rw [Int.emod_self]; exact Int.cast_zero

theorem modulusVar_fr : modulusVar.fr = 0 := rMod_cast

/-- `mod` for an arbitrary hint strategy. -/
theorem mod_ok {E : Engine} {a v : Var} {s s' : St} (h : mod a E s = .ok (v, s')) :
    s'.hints = s.hints ++ [.modHint] ∧ v.Good ∧ a.IsVal ∧ (E.mode = .test → v.Canon) ∧
      (E.mode = .compile → v.isWire = true) ∧
      (s'.sat = true → s.sat = true ∧ v.fr = a.fr) := by
  simp only [mod, Circ.bind_ok, idx_ok] at h
  obtain ⟨res, s1, h1, r1, _, ⟨hr1, rfl⟩, r0, _, ⟨hr0, rfl⟩, p, s2, hp, t, s3, ht, u, s4, ha, hret⟩ := h
  obtain ⟨hh, hsat, hv, os, rfl, -⟩ := newHint_ok h1
  rw [hintOuts_get E (by decide)] at hr0 hr1
  cases hr0; cases hr1
  obtain ⟨rfl, hp', -⟩ := apiMul_ok hp
  obtain ⟨rfl, ht', -⟩ := apiAdd_ok ht
  obtain ⟨hh', -, hva, hs'⟩ := assertEq_ok ha
  cases hret
  refine ⟨hh'.trans hh, hintVar_good _ _, hva, fun hE => hintVar_canon hE _, ?_, fun h => ?_⟩
  · intro hE; simp [hintVar, hE, Var.isWire]
  · obtain ⟨h2, h3⟩ := hs' h
    refine ⟨hsat h2, ?_⟩
    rw [← h3, ht', hp', modulusVar_fr, mul_zero, add_zero]

/-- `mod` when the hint answers `os`, in any engine. -/
theorem mod_run {E : Engine} {a : Var} {s : St} {x : ℤ} {os : List ℤ} (hx : toBig E a = some x)
    (hs : E.strat .modHint s.hints.length 2 [x] = .ok os) :
    mod a E s = match emit ((E.mode = .compile) || a.isWire)
        ((((os.getD 1 0 : ℤ) : Fr).val : ℤ) == x) E { s with hints := s.hints ++ [.modHint] } with
      | .ok (_, s') => .ok (hintVar E (os.getD 1 0), s')
      | .error p => .error p := by
  obtain ⟨m, hm, hm0⟩ := toBig_modulus E
  simp only [mod, Circ.bind_run, newHint_run (.cons hx .nil) hs,
    idx_run (hintOuts_get E (n := 2) (i := 1) (by decide) os),
    idx_run (hintOuts_get E (n := 2) (i := 0) (by decide) os),
    apiMul_run (toBig_good' (hintVar_good E _)) hm]
  rw [apiAdd_run (toBig_good' (hintVar_good E _)) (toBig_good' (resVar_good E _ _))]
  simp only []
  rw [assertEq_run (toBig_good' (resVar_good E _ _)) hx]
  simp only [resVar_fr, hintVar_fr]
  have key : ((((((os.getD 1 0 : ℤ) : Fr).val : ℤ) +
      ((((((os.getD 0 0 : ℤ) : Fr).val : ℤ) * m : ℤ) : Fr).val : ℤ) : ℤ) : Fr)) = ((os.getD 1 0 : ℤ) : Fr) := by
    push_cast
    rw [hm0, mul_zero]
    simp
  rw [key]
  have w : ((resVar E ((hintVar E (os.getD 1 0)).isWire ||
        (resVar E ((hintVar E (os.getD 0 0)).isWire || modulusVar.isWire)
          ((((os.getD 0 0 : ℤ) : Fr).val : ℤ) * m)).isWire)
      ((((os.getD 1 0 : ℤ) : Fr).val : ℤ) +
        ((((((os.getD 0 0 : ℤ) : Fr).val : ℤ) * m : ℤ) : Fr).val : ℤ))).isWire || a.isWire)
      = ((E.mode = .compile) || a.isWire) := by
    cases hE : E.mode <;> simp [resVar, hintVar, hE, Var.isWire, modulusVar]
  rw [w]
  cases hh : emit ((E.mode = .compile) || a.isWire) ((((os.getD 1 0 : ℤ) : Fr).val : ℤ) == x) E
      { s with hints := s.hints ++ [.modHint] } <;> simp [Circ.pure_run]

/-- The engine runs the repo's `modHint`. -/
def HonestMod (E : Engine) : Prop := ∀ k n ins, E.strat .modHint k n ins = modHint ins

/-- State after one more call of `modHint`. -/
def St.addHints (s : St) (l : List HintId) : St := { s with hints := s.hints ++ l }

theorem fr_val_of_canon {x : ℤ} (h0 : 0 ≤ x) (h1 : x < rMod) : (((x : Fr)).val : ℤ) = x := by
  apply canon_ext (by positivity) (by exact_mod_cast ZMod.val_lt _) h0 h1
  simp

theorem mod_honest {E : Engine} (hE : HonestMod E) {a : Var} (ha : a.Good) (s : St) :
    mod a E s = .ok (hintVar E a.fr.val, s.addHints [.modHint]) := by
  obtain ⟨x, hx, h0, h1⟩ := toBig_good (E := E) ha
  have hfr := toBig_fr hx
  have hxv : x = a.fr.val := by rw [← hfr, fr_val_of_canon h0 h1]
  rw [mod_run hx (os := [x / rMod, x % rMod]) (by rw [hE]; rfl)]
  have e1 : ([x / (rMod:ℤ), x % rMod] : List ℤ).getD 1 0 = x := by
    simp [emod_self' h0 h1]
  rw [e1, fr_val_of_canon h0 h1]
  simp only [beq_self_eq_true, emit_true, hxv]
  rfl

/-- Canonical result variable for a field value. -/
def frVar (E : Engine) (x : Fr) : Var := hintVar E x.val

theorem frVar_fr (E : Engine) (x : Fr) : (frVar E x).fr = x := by
  rw [frVar, hintVar_fr]; simp
theorem frVar_good (E : Engine) (x : Fr) : (frVar E x).Good := hintVar_good _ _
theorem frVar_test {E : Engine} (hE : E.mode = .test) (x : Fr) : frVar E x = .big x.val := by
  rw [frVar, hintVar_test hE, emod_self' (by positivity) (by exact_mod_cast ZMod.val_lt x)]

theorem fr_add_ok {E : Engine} {a b v : Var} {s s' : St} (h : fr_add a b E s = .ok (v, s')) :
    s'.hints = s.hints ++ [.modHint] ∧ v.Good ∧ a.IsVal ∧ b.IsVal ∧ (E.mode = .test → v.Canon) ∧
      (s'.sat = true → s.sat = true ∧ v.fr = a.fr + b.fr) := by
  simp only [fr_add, Circ.bind_ok] at h
  obtain ⟨t, s1, h1, h2⟩ := h
  obtain ⟨rfl, h3, -, ha, hb, -⟩ := apiAdd_ok h1
  obtain ⟨h4, h5, -, h6, -, h7⟩ := mod_ok h2
  exact ⟨h4, h5, ha, hb, h6, fun h => ⟨(h7 h).1, by rw [(h7 h).2, h3]⟩⟩

theorem fr_sub_ok {E : Engine} {a b v : Var} {s s' : St} (h : fr_sub a b E s = .ok (v, s')) :
    s'.hints = s.hints ++ [.modHint] ∧ v.Good ∧ a.IsVal ∧ b.IsVal ∧ (E.mode = .test → v.Canon) ∧
      (s'.sat = true → s.sat = true ∧ v.fr = a.fr - b.fr) := by
  simp only [fr_sub, Circ.bind_ok] at h
  obtain ⟨t, s1, h1, h2⟩ := h
  obtain ⟨rfl, h3, -, ha, hb, -⟩ := apiSub_ok h1
  obtain ⟨h4, h5, -, h6, -, h7⟩ := mod_ok h2
  exact ⟨h4, h5, ha, hb, h6, fun h => ⟨(h7 h).1, by rw [(h7 h).2, h3]⟩⟩

theorem fr_mul_ok {E : Engine} {a b v : Var} {s s' : St} (h : fr_mul a b E s = .ok (v, s')) :
    s'.hints = s.hints ++ [.modHint] ∧ v.Good ∧ a.IsVal ∧ b.IsVal ∧ (E.mode = .test → v.Canon) ∧
      (E.mode = .compile → v.isWire = true) ∧
      (s'.sat = true → s.sat = true ∧ v.fr = a.fr * b.fr) := by
  simp only [fr_mul, Circ.bind_ok] at h
  obtain ⟨t, s1, h1, h2⟩ := h
  obtain ⟨rfl, h3, -, ha, hb, -⟩ := apiMul_ok h1
  obtain ⟨h4, h5, -, h6, hw, h7⟩ := mod_ok h2
  exact ⟨h4, h5, ha, hb, h6, hw, fun h => ⟨(h7 h).1, by rw [(h7 h).2, h3]⟩⟩

theorem fr_neg_ok {E : Engine} {a v : Var} {s s' : St} (h : fr_neg a E s = .ok (v, s')) :
    s' = s ∧ v.Good ∧ a.IsVal ∧ (E.mode = .test → v.Canon) ∧ v.fr = - a.fr := by
  obtain ⟨h1, h2, h3, -, h4, h5⟩ := apiSub_ok h
  exact ⟨h1, h3, h4, h5, by rw [h2, modulusVar_fr, zero_sub]⟩

theorem fr_div_ok {E : Engine} {a b aux v : Var} {s s' : St} (h : fr_div a b aux E s = .ok (v, s')) :
    s'.hints = s.hints ++ [.modHint, .modHint] ∧ v.Good ∧ a.IsVal ∧ b.IsVal ∧ aux.IsVal ∧
      (E.mode = .test → v.Canon) ∧
      (s'.sat = true → s.sat = true ∧ b.fr * aux.fr = a.fr ∧ v.fr = aux.fr) := by
  simp only [fr_div, Circ.bind_ok] at h
  obtain ⟨r, s1, h1, u, s2, h2, h3⟩ := h
  obtain ⟨g1, g2, g3, g4, -, -, g5⟩ := fr_mul_ok h1
  obtain ⟨e1, -, e2, e3⟩ := assertEq_ok h2
  obtain ⟨f1, f2, -, f3, -, f4⟩ := mod_ok h3
  refine ⟨by rw [f1, e1, g1]; simp, f2, e2, g3, g4, f3, fun h => ?_⟩
  obtain ⟨k1, k2⟩ := f4 h
  obtain ⟨k3, k4⟩ := e3 k1
  obtain ⟨k5, k6⟩ := g5 k3
  exact ⟨k5, by rw [← k6, k4], k2⟩

theorem fr_add_honest {E : Engine} (hE : HonestMod E) {a b : Var} (ha : a.IsVal) (hb : b.IsVal) (s : St) :
    fr_add a b E s = .ok (frVar E (a.fr + b.fr), s.addHints [.modHint]) := by
  obtain ⟨x, hx⟩ := toBig_some (E := E) ha
  obtain ⟨y, hy⟩ := toBig_some (E := E) hb
  simp only [fr_add, Circ.bind_run, apiAdd_run hx hy]
  rw [mod_honest hE (resVar_good _ _ _), resVar_fr, ← toBig_fr hx, ← toBig_fr hy, Int.cast_add]
  rfl

theorem fr_sub_honest {E : Engine} (hE : HonestMod E) {a b : Var} (ha : a.IsVal) (hb : b.IsVal) (s : St) :
    fr_sub a b E s = .ok (frVar E (a.fr - b.fr), s.addHints [.modHint]) := by
  obtain ⟨x, hx⟩ := toBig_some (E := E) ha
  obtain ⟨y, hy⟩ := toBig_some (E := E) hb
  simp only [fr_sub, Circ.bind_run, apiSub_run hx hy]
  rw [mod_honest hE (resVar_good _ _ _), resVar_fr, ← toBig_fr hx, ← toBig_fr hy, Int.cast_sub]
  rfl

theorem fr_mul_honest {E : Engine} (hE : HonestMod E) {a b : Var} (ha : a.IsVal) (hb : b.IsVal) (s : St) :
    fr_mul a b E s = .ok (frVar E (a.fr * b.fr), s.addHints [.modHint]) := by
  obtain ⟨x, hx⟩ := toBig_some (E := E) ha
  obtain ⟨y, hy⟩ := toBig_some (E := E) hb
  simp only [fr_mul, Circ.bind_run, apiMul_run hx hy]
  rw [mod_honest hE (resVar_good _ _ _), resVar_fr, ← toBig_fr hx, ← toBig_fr hy, Int.cast_mul]
  rfl

theorem fr_neg_run {E : Engine} {a : Var} (ha : a.IsVal) (s : St) :
    ∃ v, fr_neg a E s = .ok (v, s) ∧ v.fr = -a.fr ∧ v.Good := by
  obtain ⟨x, hx⟩ := toBig_some (E := E) ha
  obtain ⟨m, hm, hm0⟩ := toBig_modulus E
  refine ⟨_, apiSub_run hm hx s, ?_, resVar_good _ _ _⟩
  rw [resVar_fr, Int.cast_sub, hm0, zero_sub, toBig_fr hx]

theorem fr_neg_test {E : Engine} (hE : E.mode = .test) {a : Var} (ha : a.IsVal) (s : St) :
    fr_neg a E s = .ok (.big (-a.fr).val, s) := by
  obtain ⟨v, h, h1, -⟩ := fr_neg_run (E := E) ha s
  obtain ⟨-, -, -, h2, h3⟩ := fr_neg_ok h
  obtain ⟨n, rfl, h0, hl⟩ := h2 hE
  rw [h, ← h3]
  simp only [Var.fr]
  rw [fr_val_of_canon h0 hl]

theorem fr_div_honest {E : Engine} (hE : HonestMod E) {a b aux : Var} (ha : a.Good) (hb : b.IsVal)
    (hx : aux.Good) (h : b.fr * aux.fr = a.fr) (s : St) :
    fr_div a b aux E s = .ok (frVar E aux.fr, s.addHints [.modHint, .modHint]) := by
  simp only [fr_div, Circ.bind_run, fr_mul_honest hE hb hx.isVal]
  rw [h, assertEq_pass (frVar_good _ _) ha (frVar_fr _ _)]
  simp only []
  rw [mod_honest hE hx]
  simp [St.addHints, frVar]

/-! fr_pow -/

theorem frPowLoop_ok {E : Engine} {a : Var} {power : ℤ} : ∀ (n : ℕ) {i : ℤ} {res v : Var} {s s' : St},
    (power - i).toNat = n → frPowLoop a power i res E s = .ok (v, s') →
    s' = s ∧ v.fr = res.fr * a.fr ^ n ∧ (n = 0 → v = res) ∧ (n ≠ 0 → v.Good) := by
  intro n
  induction n with
  | zero =>
    intro i res v s s' hn h
    rw [frPowLoop, if_neg (by omega)] at h
    cases h; simp
  | succ n ih =>
    intro i res v s s' hn h
    rw [frPowLoop, if_pos (by omega)] at h
    simp only [Circ.bind_ok] at h
    obtain ⟨r, s1, h1, h2⟩ := h
    obtain ⟨rfl, hr, hg, -⟩ := apiMul_ok h1
    obtain ⟨rfl, h3, h4, h5⟩ := ih (by omega) h2
    refine ⟨rfl, by rw [h3, hr, pow_succ]; ring, by simp, fun _ => ?_⟩
    by_cases hn0 : n = 0
    · rw [h4 hn0]; exact hg
    · exact h5 hn0

theorem frPowLoop_run {E : Engine} {a : Var} (ha : a.IsVal) {power : ℤ} : ∀ (n : ℕ) {i : ℤ} {res : Var}
    (_ : (power - i).toNat = n) (_ : res.IsVal) (s : St),
    ∃ v, frPowLoop a power i res E s = .ok (v, s) := by
  intro n
  induction n with
  | zero => intro i res hn hr s; rw [frPowLoop, if_neg (by omega)]; exact ⟨res, rfl⟩
  | succ n ih =>
    intro i res hn hr s
    rw [frPowLoop, if_pos (by omega)]
    obtain ⟨x, hx⟩ := toBig_some (E := E) hr
    obtain ⟨y, hy⟩ := toBig_some (E := E) ha
    simp only [Circ.bind_run, apiMul_run hx hy]
    exact ih (by omega) (resVar_good _ _ _).isVal s

theorem fr_pow_ok {E : Engine} {a power v : Var} {s s' : St} (h : fr_pow a power E s = .ok (v, s')) :
    ∃ n : ℤ, power = .big n ∧ s'.hints = s.hints ++ [.modHint] ∧ v.Good ∧ (E.mode = .test → v.Canon) ∧
      (s'.sat = true → s.sat = true ∧ v.fr = a.fr * a.fr ^ (n - 1).toNat) := by
  simp only [fr_pow, Circ.bind_ok, asBigInt_ok] at h
  obtain ⟨n, _, ⟨rfl, rfl⟩, r, s1, h1, h2⟩ := h
  obtain ⟨rfl, h3, -⟩ := frPowLoop_ok _ rfl h1
  obtain ⟨h4, h5, -, h6, -, h7⟩ := mod_ok h2
  exact ⟨n, rfl, h4, h5, h6, fun h => ⟨(h7 h).1, by rw [(h7 h).2, h3]⟩⟩

theorem fr_pow_honest {E : Engine} (hE : HonestMod E) {a : Var} (n : ℤ) (ha : a.IsVal)
    (hg : n ≤ 1 → a.Good) (s : St) :
    fr_pow a (.big n) E s = .ok (frVar E (a.fr * a.fr ^ (n - 1).toNat), s.addHints [.modHint]) := by
  obtain ⟨v, hv⟩ := frPowLoop_run (E := E) ha (power := n) _ (i := 1) rfl ha s
  obtain ⟨-, h3, h4, h5⟩ := frPowLoop_ok _ rfl hv
  have hgood : v.Good := by
    by_cases h : (n - 1).toNat = 0
    · rw [h4 h]; exact hg (by omega)
    · exact h5 h
  have : asBigInt (.big n) E s = .ok (n, s) := rfl
  simp only [fr_pow, Circ.bind_run, this, hv]
  rw [mod_honest hE hgood, h3]
  rfl

/-! PackUInt8Variables -/

theorem packLoop_run {E : Engine} : ∀ (l : List Var) (res : Var), res.IsVal → (∀ v ∈ l, v.IsVal) →
    ∀ s, ∃ v, packLoop res l E s = .ok (v, s) ∧ v.fr = l.foldl (fun acc x => acc * 256 + x.fr) res.fr ∧
      (res.Good ∨ l ≠ [] → v.Good) ∧ (E.mode = .test → l ≠ [] → v.Canon)
  | [], res, hr, _, s => ⟨res, rfl, rfl, by simp, by simp⟩
  | x :: l, res, hr, hl, s => by
    obtain ⟨n, hn⟩ := toBig_some (E := E) hr
    obtain ⟨y, hy⟩ := toBig_some (E := E) (hl x (by simp))
    obtain ⟨k, hk⟩ := toBig_some (E := E) (v := .big (2^8)) trivial
    have hk' : (k : Fr) = 256 := by rw [toBig_fr hk]; norm_num [Var.fr]
    simp only [packLoop, Circ.bind_run, apiMul_run hn hk]
    rw [apiAdd_run (toBig_good' (resVar_good E _ _)) hy]
    simp only []
    obtain ⟨v, h1, h2, h3, h4⟩ := packLoop_run l _ (resVar_good E _ _).isVal
      (fun v hv => hl v (List.mem_cons_of_mem _ hv)) s
    refine ⟨v, h1, ?_, fun _ => h3 (.inl (resVar_good _ _ _)), fun hE _ => ?_⟩
    · rw [h2]
      simp only [List.foldl_cons, resVar_fr]
      congr 1
      push_cast
      rw [toBig_fr hy, ZMod.natCast_zmod_val, toBig_fr hn, hk']
    · cases l with
      | nil => rw [packLoop] at h1; cases h1; exact resVar_isBig hE _ _
      | cons y l => exact h4 hE (by simp)

theorem foldl_horner (l : List Fr) (a : Fr) :
    l.foldl (fun acc x => acc * 256 + x) a =
      a * 256 ^ l.length + ∑ i : Fin l.length, l[i] * 256 ^ (l.length - 1 - i.val) := by
  induction l generalizing a with
  | nil => simp
  | cons x l ih =>
    rw [List.foldl_cons, ih]
    simp only [List.length_cons, Fin.sum_univ_succ, Fin.getElem_fin, Fin.val_zero, List.getElem_cons_zero,
      Fin.val_succ, List.getElem_cons_succ]
    rw [pow_succ]
    have : ∀ i : Fin l.length, l.length - (i.val + 1) = l.length - 1 - i.val := by intro i; omega
    simp only [Nat.add_sub_cancel, Nat.sub_zero, this]
    ring

end Verif
