/-
Properties C01–C08: the field layer (/repo/fr.go) and byte packing (/repo/utils.go).
`E : Engine` is any engine: test or compiled, any hint strategy. `HonestMod E` says that the engine answers
calls of `modHint` with the repo's `modHint`.
-/
import Verif.Lemmas.Fr
import Verif.Spec.Bytes

namespace Verif

/-- Two concrete engines used for examples: test engine (raw comparison) and compiled circuit, honest `modHint`. -/
def exTest : Engine := ⟨.test, true, fun f _ _ ins => match f with | .modHint => modHint ins | _ => .err⟩
def exComp : Engine := ⟨.compile, false, fun f _ _ ins => match f with | .modHint => modHint ins | _ => .err⟩
/-- A dishonest engine: answers quotient 5, remainder `m`. -/
def exLie (mode : Mode) (m : ℤ) : Engine := ⟨mode, true, fun _ _ _ _ => .ok [5, m]⟩

theorem exTest_honest : HonestMod exTest := fun _ _ _ => rfl
theorem exComp_honest : HonestMod exComp := fun _ _ _ => rfl

/-! ### C01 -/

/-- C01, value: for every engine, input and hint strategy, an accepted `mod` returns the value of its input. -/
theorem C01_mod_value {E : Engine} {a v : Var} {s : St} (h : (mod a).Accepts E s v) : v.fr = a.fr := by
  obtain ⟨s', h1, h2⟩ := h
  exact ((mod_ok h1).2.2.2.2.2 h2).2

/-- C01, exactness: whatever pair (q, m) the prover answers, the constraint of `mod` is satisfied iff the
remainder m is the field value of the input. The quotient q plays no role. -/
theorem C01_mod_accepts_iff {E : Engine} {a : Var} (ha : a.Good) {s : St} (hs : s.sat = true) (q m : ℤ)
    (hst : ∀ ins, E.strat .modHint s.hints.length 2 ins = .ok [q, m]) :
    (∃ v, (mod a).Accepts E s v) ↔ (m : Fr) = a.fr := by
  obtain ⟨x, hx, h0, h1⟩ := toBig_good (E := E) ha
  have hrun := mod_run hx (hst [x])
  constructor
  · rintro ⟨v, s', hv, hsat⟩
    rw [hrun] at hv
    cases he : emit ((E.mode = .compile) || a.isWire)
        (((((([q, m] : List ℤ).getD 1 0 : ℤ) : Fr).val : ℤ)) == x) E { s with hints := s.hints ++ [.modHint] } with
    | error p => rw [he] at hv; cases hv
    | ok r =>
      rw [he] at hv; cases hv
      have := (emit_ok he).2.1 hsat
      have h2 := beq_iff_eq.1 this.2
      rw [← toBig_fr hx, ← h2]
      simp
  · intro hm
    have hc : (((((([q, m] : List ℤ).getD 1 0 : ℤ) : Fr).val : ℤ)) == x) = true := by
      rw [beq_iff_eq]
      show (((m : Fr)).val : ℤ) = x
      rw [hm, ← toBig_fr hx, fr_val_of_canon h0 h1]
    rw [hc] at hrun
    exact ⟨_, _, hrun, hs⟩

/-- C01, non-canonical integers: the test engine (which compares unreduced integers) never accepts `mod` of an
integer outside [0, r). -/
theorem C01_mod_noncanonical {E : Engine} (hE : E.mode = .test) (hraw : E.raw = true) (n : ℤ)
    (hn : ¬ (0 ≤ n ∧ n < rMod)) (s : St) (v : Var) : ¬ (mod (.big n)).Accepts E s v := by
  rintro ⟨s', h, -⟩
  simp only [mod, Circ.bind_ok, idx_ok] at h
  obtain ⟨res, s1, h1, r1, _, ⟨hr1, rfl⟩, r0, _, ⟨hr0, rfl⟩, p, s2, hp, t, s3, ht, u, s4, ha, -⟩ := h
  obtain ⟨m, rfl, h0, hl⟩ := (apiAdd_ok ht).2.2.2.2.2 hE
  have h1 : toBig E (.big m) = some m := by simp [toBig, hE, hraw]
  have h2 : toBig E (.big n) = some n := by simp [toBig, hE, hraw]
  rw [assertEq_run h1 h2] at ha
  have := emit_ok ha
  unfold emit at ha
  split at ha
  · rename_i hc
    rw [beq_iff_eq.1 hc] at h0 hl
    exact hn ⟨h0, hl⟩
  · simp [hE] at ha

-- a prover answering (5, 7) is accepted on input 7 and rejected on input 8, in both engines
example : ∃ v, (mod (.big 7)).Accepts (exLie .test 7) .init v :=
  (C01_mod_accepts_iff (a := .big 7) ⟨by norm_num, by decide +kernel⟩ rfl 5 7 (fun _ => rfl)).2 rfl
example : ∃ v, (mod (.wire 7)).Accepts (exLie .compile 7) .init v :=
  (C01_mod_accepts_iff (a := .wire 7) trivial rfl 5 7 (fun _ => rfl)).2 (by simp [Var.fr])
example : ¬ ∃ v, (mod (.big 8)).Accepts (exLie .test 7) .init v := by
  rw [C01_mod_accepts_iff (a := .big 8) ⟨by norm_num, by decide +kernel⟩ rfl 5 7 (fun _ => rfl)]
  intro h
  have := canon_ext (by norm_num) (by decide +kernel) (by norm_num) (by decide +kernel) h
  omega

/-! ### C02 -/

/-- C02: the honest reduction hint is Euclidean division by r, for every integer. -/
theorem C02_modHint (a : ℤ) : ∃ d m : ℤ, modHint [a] = .ok [d, m] ∧ a = d * rMod + m ∧ 0 ≤ m ∧ m < rMod :=
  ⟨a / rMod, a % rMod, rfl, (Int.ediv_mul_add_emod a rMod).symm, emod_nonneg' a, emod_lt' a⟩

/-- C02: with the honest hint `mod` is accepted on every good operand, in both engines. -/
theorem C02_mod_accepts {E : Engine} (hE : HonestMod E) {a : Var} (ha : a.Good) {s : St} (hs : s.sat = true) :
    ∃ v, (mod a).Accepts E s v ∧ v.fr = a.fr :=
  ⟨_, ⟨_, mod_honest hE ha s, hs⟩, frVar_fr E _⟩

example : ∃ v, (mod (.big 123456789)).Accepts exTest .init v ∧ v.fr = 123456789 := by
  simpa [Var.fr] using C02_mod_accepts exTest_honest (a := .big 123456789) ⟨by norm_num, by decide +kernel⟩ (s := .init) rfl

/-! ### C03 -/

/-- C03: soundness of the field operations for every hint strategy. -/
theorem C03_sound {E : Engine} {a b v : Var} {s : St} :
    ((fr_add a b).Accepts E s v → v.fr = a.fr + b.fr) ∧
    ((fr_sub a b).Accepts E s v → v.fr = a.fr - b.fr) ∧
    ((fr_mul a b).Accepts E s v → v.fr = a.fr * b.fr) ∧
    ((fr_neg a).Accepts E s v → v.fr = - a.fr) :=
  ⟨fun ⟨_, h, hs⟩ => ((fr_add_ok h).2.2.2.2.2 hs).2, fun ⟨_, h, hs⟩ => ((fr_sub_ok h).2.2.2.2.2 hs).2,
   fun ⟨_, h, hs⟩ => ((fr_mul_ok h).2.2.2.2.2.2 hs).2, fun ⟨_, h, _⟩ => (fr_neg_ok h).2.2.2.2⟩

/-- C03: with the honest hint the field operations never fail, on any operands (canonical or not). -/
theorem C03_complete {E : Engine} (hE : HonestMod E) {a b : Var} (ha : a.IsVal) (hb : b.IsVal) {s : St}
    (hs : s.sat = true) :
    (∃ v, (fr_add a b).Accepts E s v ∧ v.fr = a.fr + b.fr) ∧
    (∃ v, (fr_sub a b).Accepts E s v ∧ v.fr = a.fr - b.fr) ∧
    (∃ v, (fr_mul a b).Accepts E s v ∧ v.fr = a.fr * b.fr) ∧
    (∃ v, (fr_neg a).Accepts E s v ∧ v.fr = - a.fr) := by
  refine ⟨⟨_, ⟨_, fr_add_honest hE ha hb s, hs⟩, frVar_fr _ _⟩, ⟨_, ⟨_, fr_sub_honest hE ha hb s, hs⟩, frVar_fr _ _⟩,
    ⟨_, ⟨_, fr_mul_honest hE ha hb s, hs⟩, frVar_fr _ _⟩, ?_⟩
  obtain ⟨v, h, h1, -⟩ := fr_neg_run (E := E) ha s
  exact ⟨v, ⟨s, h, hs⟩, h1⟩

-- non-canonical (negative) and Go-int operands
example : ∃ v, (fr_mul (.big (-3)) (.int 5)).Accepts exTest .init v ∧ v.fr = (-3 : ℤ) * (5 : ℤ) :=
  (C03_complete exTest_honest (a := .big (-3)) (b := .int 5) trivial trivial rfl).2.2.1

/-! ### C04 -/

/-- C04, soundness for every strategy: an accepted `fr_div` had b·aux = a and returns aux. -/
theorem C04_sound {E : Engine} {a b aux v : Var} {s : St} (h : (fr_div a b aux).Accepts E s v) :
    b.fr * aux.fr = a.fr ∧ v.fr = aux.fr := by
  obtain ⟨s', h, hs⟩ := h
  exact ((fr_div_ok h).2.2.2.2.2.2 hs).2

/-- C04, exactness with the honest hint: accepted iff b·aux = a. -/
theorem C04_accepts_iff {E : Engine} (hE : HonestMod E) {a b aux : Var} (ha : a.Good) (hb : b.IsVal)
    (hx : aux.Good) {s : St} (hs : s.sat = true) :
    (∃ v, (fr_div a b aux).Accepts E s v) ↔ b.fr * aux.fr = a.fr :=
  ⟨fun ⟨_, h⟩ => (C04_sound h).1, fun h => ⟨_, _, fr_div_honest hE ha hb hx h s, hs⟩⟩

/-- C04: for b ≠ 0 the result is the field quotient. -/
theorem C04_quotient {E : Engine} {a b aux v : Var} {s : St} (h : (fr_div a b aux).Accepts E s v)
    (hb : b.fr ≠ 0) : v.fr = a.fr / b.fr := by
  obtain ⟨h1, h2⟩ := C04_sound h
  rw [h2, eq_div_iff hb, mul_comm]; exact h1

/-- C04: division of a non-zero value by zero is always rejected. -/
theorem C04_div_zero {E : Engine} {a b aux v : Var} {s : St} (hb : b.fr = 0) (ha : a.fr ≠ 0) :
    ¬ (fr_div a b aux).Accepts E s v := by
  intro h
  have := (C04_sound h).1
  rw [hb, zero_mul] at this
  exact ha this.symm

example : ∃ v, (fr_div (.big 6) (.big 2) (.big 3)).Accepts exTest .init v :=
  (C04_accepts_iff exTest_honest (a := .big 6) ⟨by norm_num, by decide +kernel⟩ (b := .big 2) trivial
    (aux := .big 3) ⟨by norm_num, by decide +kernel⟩ rfl).2 (by norm_num [Var.fr])

/-! ### C05 -/

/-- C05 is false: at 0/0 two different aux values are both accepted and returned (in the test engine). -/
theorem C05_false : ¬ ∀ (E : Engine) (a b aux aux' v v' : Var), HonestMod E →
    (fr_div a b aux).Accepts E .init v → (fr_div a b aux').Accepts E .init v' → v.fr = v'.fr := by
  intro h
  have z : (Var.big 0).Good := ⟨le_refl _, by decide +kernel⟩
  have o : (Var.big 1).Good := ⟨by norm_num, by decide +kernel⟩
  have h1 := h exTest (.big 0) (.big 0) (.big 0) (.big 1) _ _ exTest_honest
    ⟨_, fr_div_honest exTest_honest z z.isVal z (by simp [Var.fr]) .init, rfl⟩
    ⟨_, fr_div_honest exTest_honest z z.isVal o (by simp [Var.fr]) .init, rfl⟩
  rw [frVar_fr, frVar_fr] at h1
  simp [Var.fr] at h1

/-- C05, strength of the failure: at 0/0 every canonical aux is accepted and returned. -/
theorem C05_zero_div_zero {E : Engine} (hE : HonestMod E) {aux : Var} (hx : aux.Good) {s : St}
    (hs : s.sat = true) : ∃ v, (fr_div (.big 0) (.big 0) aux).Accepts E s v ∧ v.fr = aux.fr :=
  ⟨_, ⟨_, fr_div_honest hE (a := .big 0) (b := .big 0) ⟨le_refl _, by decide +kernel⟩ trivial hx (by simp [Var.fr]) s, hs⟩,
    frVar_fr _ _⟩

-- C05_zero_div_zero: 0/0 is 5
example : ∃ v, (fr_div (.big 0) (.big 0) (.big 5)).Accepts exTest .init v ∧ v.fr = 5 := by
  simpa [Var.fr] using C05_zero_div_zero exTest_honest (aux := .big 5) ⟨by norm_num, by decide +kernel⟩ (s := .init) rfl

/-- C05, the part that holds: for b ≠ 0 the result is determined by a and b, across engines and strategies. -/
theorem C05_unique_partial {E E' : Engine} {a b aux aux' v v' : Var} {s s' : St} (hb : b.fr ≠ 0)
    (h : (fr_div a b aux).Accepts E s v) (h' : (fr_div a b aux').Accepts E' s' v') : v.fr = v'.fr := by
  rw [C04_quotient h hb, C04_quotient h' hb]

/-! ### C06 -/

/-- C06: for an exponent n ≥ 1 an accepted `fr_pow` is the n-th power, for every strategy. -/
theorem C06_pow {E : Engine} {a v : Var} {n : ℤ} (hn : 1 ≤ n) {s : St}
    (h : (fr_pow a (.big n)).Accepts E s v) : v.fr = a.fr ^ n.toNat := by
  obtain ⟨s', h, hs⟩ := h
  obtain ⟨m, hm, -, -, -, h2⟩ := fr_pow_ok h
  cases hm
  rw [(h2 hs).2, ← pow_succ']
  congr 1; omega

/-- C06: for every exponent n ≤ 1, `fr_pow` returns its base (so a⁰ is computed as a). -/
theorem C06_pow_le_one {E : Engine} {a v : Var} {n : ℤ} (hn : n ≤ 1) {s : St}
    (h : (fr_pow a (.big n)).Accepts E s v) : v.fr = a.fr := by
  obtain ⟨s', h, hs⟩ := h
  obtain ⟨m, hm, -, -, -, h2⟩ := fr_pow_ok h
  cases hm
  rw [(h2 hs).2, show (n - 1).toNat = 0 by omega, pow_zero, mul_one]

/-- C06: with the honest hint `fr_pow` with a constant exponent is accepted. -/
theorem C06_complete {E : Engine} (hE : HonestMod E) {a : Var} (ha : a.Good) (n : ℤ) {s : St}
    (hs : s.sat = true) : ∃ v, (fr_pow a (.big n)).Accepts E s v :=
  ⟨_, _, fr_pow_honest hE n ha.isVal (fun _ => ha) s, hs⟩

/-- C06: an exponent that is not a `*big.Int` (a circuit variable, a Go int, nil) panics. -/
theorem C06_panics {E : Engine} {a power : Var} (hp : ∀ n, power ≠ .big n) (s : St) :
    ∃ p, fr_pow a power E s = .error p := by
  cases power with
  | big n => exact absurd rfl (hp n)
  | nil => exact ⟨_, rfl⟩
  | int n => exact ⟨_, rfl⟩
  | wire w => exact ⟨_, rfl⟩

-- the exponent 2^23 used by the verifier
example : ∃ v, (fr_pow (.big 7) (.big 8388608)).Accepts exTest .init v ∧
    v.fr = (Var.big 7).fr ^ (8388608 : ℤ).toNat := by
  obtain ⟨v, hv⟩ := C06_complete exTest_honest (a := .big 7) ⟨by norm_num, by decide +kernel⟩ 8388608 (s := .init) rfl
  exact ⟨v, hv, C06_pow (by norm_num) hv⟩
example : ∃ v, (fr_pow (.wire 7) (.big 0)).Accepts exComp .init v ∧ v.fr = 7 := by
  obtain ⟨v, hv⟩ := C06_complete exComp_honest (a := .wire 7) trivial 0 (s := .init) rfl
  exact ⟨v, hv, C06_pow_le_one (by norm_num) hv⟩

/-! ### C07 -/

/-- C07: for every strategy, an accepted `fr_mul_neg` returns the integer r − (a·b mod r). -/
theorem C07_value {E : Engine} {a b v : Var} {s : St}
    (h : (fr_mul_neg a b).Accepts E s v) : v = .big (rMod - (a.fr * b.fr).val) := by
  obtain ⟨s', h, hs⟩ := h
  simp only [fr_mul_neg, Circ.bind_ok, asBigInt_ok] at h
  obtain ⟨t, s1, h1, n, _, ⟨rfl, rfl⟩, h2⟩ := h
  cases h2
  obtain ⟨-, hg, -, -, hc, -, h3⟩ := fr_mul_ok h1
  rw [← (h3 hs).2]
  simp only [Var.fr]
  rw [fr_val_of_canon hg.1 hg.2]

/-- C07: that integer represents −a·b, lies in [1, r], and equals r exactly when a·b = 0. -/
theorem C07_range (a b : Fr) :
    (((rMod : ℤ) - (a * b).val : ℤ) : Fr) = -(a * b) ∧ 1 ≤ (rMod : ℤ) - (a * b).val ∧
    (rMod : ℤ) - (a * b).val ≤ rMod ∧ ((rMod : ℤ) - (a * b).val = rMod ↔ a * b = 0) := by
  have h := ZMod.val_lt (a * b)
  refine ⟨?_, by omega, by omega, ?_⟩
  · push_cast; simp
  · rw [← ZMod.val_eq_zero]; omega

/-- C07: it is accepted with the honest hint in the test engine. -/
theorem C07_complete {E : Engine} (hE : E.mode = .test) (hH : HonestMod E) {a b : Var} (ha : a.IsVal)
    (hb : b.IsVal) {s : St} (hs : s.sat = true) :
    (fr_mul_neg a b).Accepts E s (.big (rMod - (a.fr * b.fr).val)) := by
  have h : ∃ v, (fr_mul_neg a b).Accepts E s v := by
    refine ⟨.big (rMod - (a.fr * b.fr).val), s.addHints [.modHint], ?_, hs⟩
    simp only [fr_mul_neg, Circ.bind_run, fr_mul_honest hH ha hb, frVar_test hE]
    rfl
  obtain ⟨v, hv⟩ := h
  exact C07_value hv ▸ hv

/-- C07: when compiling, `fr_mul_neg` always panics. -/
theorem C07_compile_panics {E : Engine} (hE : E.mode = .compile) (a b : Var) (s : St) :
    ∃ p, fr_mul_neg a b E s = .error p := by
  cases h : fr_mul_neg a b E s with
  | error p => exact ⟨p, rfl⟩
  | ok r =>
    exfalso
    obtain ⟨v, s'⟩ := r
    simp only [fr_mul_neg, Circ.bind_ok, asBigInt_ok] at h
    obtain ⟨t, s1, h1, n, _, ⟨rfl, rfl⟩, -⟩ := h
    have := (fr_mul_ok h1).2.2.2.2.2.1 hE
    simp [Var.isWire] at this

example : (fr_mul_neg (.big 0) (.big 5)).Accepts exTest .init (.big rMod) := by
  have := C07_complete (E := exTest) rfl exTest_honest (a := .big 0) (b := .big 5) trivial trivial (s := .init) rfl
  simpa [Var.fr] using this

/-! ### C08 -/

/-- C08: packing n ≥ 1 variables gives Σ bᵢ·256^(n−1−i), in every engine; no hint is involved. -/
theorem C08_value {E : Engine} (l : List Var) (hl : l ≠ []) (hv : ∀ v ∈ l, v.IsVal) (s : St) :
    ∃ v, PackUInt8Variables l E s = .ok (v, s) ∧
      v.fr = ∑ i : Fin l.length, l[i].fr * 256 ^ (l.length - 1 - i.val) := by
  cases l with
  | nil => exact absurd rfl hl
  | cons x l =>
    obtain ⟨v, h1, h2, -⟩ := packLoop_run (E := E) l x (hv x (by simp))
      (fun v hv' => hv v (List.mem_cons_of_mem _ hv')) s
    refine ⟨v, h1, ?_⟩
    rw [h2]
    have := foldl_horner ((x :: l).map Var.fr) 0
    simp only [List.map_cons, List.foldl_cons, zero_mul, zero_add, List.foldl_map] at this
    rw [this]
    have hlen : (x.fr :: l.map Var.fr).length = (x :: l).length := by simp
    refine Fintype.sum_equiv (finCongr hlen) _ _ ?_
    intro i
    rcases i with ⟨i, hi⟩
    cases i <;> simp

/-- C08: on an empty list it panics. -/
theorem C08_empty (E : Engine) (s : St) : ∃ p, PackUInt8Variables [] E s = .error p := ⟨_, rfl⟩

/-- C08: on bytes, packing is the big-endian integer modulo r. -/
theorem C08_bytes {E : Engine} (l : List UInt8) (hl : l ≠ []) (s : St) :
    ∃ v, PackUInt8Variables (l.map fun b => .big b.toNat) E s = .ok (v, s) ∧ v.fr = (beNat l : Fr) := by
  cases l with
  | nil => exact absurd rfl hl
  | cons x l =>
    obtain ⟨v, h1, h2, -⟩ := packLoop_run (E := E) (l.map fun b => .big b.toNat) (.big x.toNat) trivial
      (by intro v hv; obtain ⟨b, -, rfl⟩ := List.mem_map.1 hv; trivial) s
    refine ⟨v, h1, ?_⟩
    rw [h2]
    unfold beNat
    simp only [List.foldl_cons, zero_mul, zero_add, List.foldl_map, Var.fr, Int.cast_natCast]
    clear h1 h2 hl
    generalize x.toNat = n
    induction l generalizing n with
    | nil => rfl
    | cons y l ih => simp only [List.foldl_cons]; rw [← ih]; push_cast; rfl

/-- C08: packing is injective on byte lists of the same length n ≤ 31. -/
theorem C08_injective {E : Engine} {l l' : List UInt8} (hl : l ≠ []) (hlen : l.length = l'.length)
    (h31 : l.length ≤ 31) {s s' t t' : St} {v v' : Var}
    (h : PackUInt8Variables (l.map fun b => .big b.toNat) E s = .ok (v, t))
    (h' : PackUInt8Variables (l'.map fun b => .big b.toNat) E s' = .ok (v', t')) (hv : v.fr = v'.fr) :
    l = l' := by
  have hl' : l' ≠ [] := by rintro rfl; simp at hlen; exact hl hlen
  obtain ⟨w, h1, h2⟩ := C08_bytes (E := E) l hl s
  obtain ⟨w', h1', h2'⟩ := C08_bytes (E := E) l' hl' s'
  rw [h1] at h; cases h
  rw [h1'] at h'; cases h'
  rw [h2, h2', ZMod.natCast_eq_natCast_iff'] at hv
  have b1 : beNat l < rMod := (beNat_lt l).trans_le
    ((Nat.pow_le_pow_right (by norm_num) h31).trans (by decide +kernel))
  have b2 : beNat l' < rMod := (beNat_lt l').trans_le
    ((Nat.pow_le_pow_right (by norm_num) (hlen ▸ h31)).trans (by decide +kernel))
  rw [Nat.mod_eq_of_lt b1, Nat.mod_eq_of_lt b2] at hv
  exact beNat_inj hlen hv

/-- C08: packing is not injective on 32-byte lists: the bytes of 0 and of r collide. -/
theorem C08_not_injective_32 (E : Engine) (s : St) : ∃ (l l' : List UInt8) (v v' : Var), l.length = 32 ∧ l'.length = 32 ∧ l ≠ l' ∧
    PackUInt8Variables (l.map fun b => .big b.toNat) E s = .ok (v, s) ∧
    PackUInt8Variables (l'.map fun b => .big b.toNat) E s = .ok (v', s) ∧ v.fr = v'.fr := by
  obtain ⟨v, h1, h2⟩ := C08_bytes (E := E) (List.replicate 32 0) (by simp) s
  obtain ⟨v', h1', h2'⟩ := C08_bytes (E := E) (beBytes rMod 32) (by simp [beBytes]) s
  refine ⟨_, _, v, v', by simp, by simp [beBytes], ?_, h1, h1', ?_⟩
  · intro h
    have := congrArg beNat h
    revert this
    decide +kernel
  · rw [h2, h2', show beNat (beBytes rMod 32) = rMod by decide +kernel,
      show beNat (List.replicate 32 0) = 0 by decide +kernel, ZMod.natCast_self]
    simp

example : ∃ v, PackUInt8Variables [.big 1, .wire 2, .int 3] exComp .init = .ok (v, .init) ∧
    v.fr = 1 * 256 ^ 2 + 2 * 256 + 3 := by
  obtain ⟨v, h, hv⟩ := C08_value (E := exComp) [.big 1, .wire 2, .int 3] (by simp)
    (by intro v hv; simp at hv; rcases hv with rfl | rfl | rfl <;> trivial) .init
  refine ⟨v, h, ?_⟩
  rw [hv]
  simp [Fin.sum_univ_succ, Var.fr]
  ring

end Verif
