/- How a run of Define in the test engine can end with a Go error (no property theorems here). -/
import Verif.Lemmas.Define
import Verif.Props.Transcript

namespace Verif

/-! ### Challenge derivation -/

/-- Two constants at i, i+1 that are not a point. -/
def OffAt (T : List Var) (i : ℕ) : Prop := ∃ (x y : Var) (a b : Fp), T[i]? = some x ∧ T[i + 1]? = some y ∧
  setInterface x = some a ∧ setInterface y = some b ∧ ¬ ValidEnc (a, b)

/-- The first word of the block of the transcript to which a word belongs. -/
def blockStart (i : ℕ) : ℕ :=
  if i < 16 then 0 else if i < 24 then 16 else if i < 38 then 24 else if i < 44 then 38 else if i < 100 then 44
  else if i < 102 then 100 else 102

/-- Words lo, …, hi-1 are big integers of at most 32 bytes. -/
def BigWords (T : List Var) (lo hi : ℕ) : Prop :=
  ∀ j, lo ≤ j → j < hi → ∃ z : ℤ, T[j]? = some (.big z) ∧ z.natAbs < 2 ^ 256

theorem BigWords.append {T : List Var} {a b c : ℕ} (h1 : BigWords T a b) (h2 : BigWords T b c) : BigWords T a c := by
  intro j hj hj'
  by_cases h : j < b
  · exact h1 j hj h
  · exact h2 j (by omega) hj'

/-- What was squeezed are big integers of at most 32 bytes. -/
theorem words_of_squeeze {T P A : List Var} {tp k pos : ℕ} {l : List ℤ} (h : A.take pos = P ++ (T.drop tp).take k)
    (hA : A.take pos = l.map .big) (hb : ∀ x ∈ l, x.natAbs < 2 ^ 256) (hT : tp + k ≤ T.length) : BigWords T tp (tp + k) := by
  intro j h1 h2
  have hm : T[j]'(by omega) ∈ l.map Var.big := by
    rw [← hA, h]
    refine List.mem_append_right _ ?_
    rw [List.mem_take_iff_getElem]
    exact ⟨j - tp, by rw [List.length_drop]; omega, by rw [List.getElem_drop]; congr 1; omega⟩
  obtain ⟨z, hz, e⟩ := List.mem_map.1 hm
  exact ⟨z, by rw [List.getElem?_eq_getElem (by omega), ← e], hb z hz⟩

theorem checkOnCurve_err {x y : Var} {m : String} {E : Engine} {s s' : St}
    (h : VerifyCheckOnCurve x y E s = .ok (some m, s')) :
    some m = errNotOnCurve ∧ ∃ a b : Fp, setInterface x = some a ∧ setInterface y = some b ∧ ¬ ValidEnc (a, b) := by
  obtain ⟨-, h2⟩ := checkOnCurve_ok h
  have h2 : ¬ PairOk x y := fun hp => by cases h2.2 hp
  unfold VerifyCheckOnCurve at h
  cases hx : setInterface x with
  | none => rw [hx] at h; cases h
  | some a =>
    cases hy : setInterface y with
    | none => rw [hx, hy] at h; cases h
    | some b =>
      rw [hx, hy] at h
      refine ⟨?_, a, b, rfl, rfl, fun hv => h2 ⟨a, b, hx, hy, hv⟩⟩
      cases hc : isOnCurve a b
      · simp only [hc, Bool.false_eq_true, if_false] at h
        cases h; rfl
      · simp only [hc, if_true] at h
        cases h

theorem absorbPoints_err {T : List Var} : ∀ {n : ℕ} {A A' : List Var} {pos tp : ℕ} {E : Engine} {m : String} {s s' : St},
    absorbPoints T n A pos tp E s = .ok ((some m, A'), s') → some m = errNotOnCurve ∧
      ∃ i < n, OffAt T (tp + 2 * i) ∧ ∀ j < i, PairAt T (tp + 2 * j)
  | 0, A, A', pos, tp, E, m, s, s', h => by cases h
  | n + 1, A, A', pos, tp, E, m, s, s', h => by
    simp only [absorbPoints, Circ.bind_ok, idx_ok] at h
    obtain ⟨x, _, ⟨hx, rfl⟩, y, _, ⟨hy, rfl⟩, e, s1, h1, h2⟩ := h
    cases e with
    | some m' =>
      cases h2
      obtain ⟨e1, a, b, ha, hb, hn⟩ := checkOnCurve_err h1
      exact ⟨e1, 0, by omega, ⟨x, y, a, b, hx, hy, ha, hb, hn⟩, fun j hj => absurd hj (by omega)⟩
    | none =>
      have hp := (checkOnCurve_ok h1).2.1 rfl
      simp only [Circ.bind_ok, idx_ok, setIdx_ok] at h2
      obtain ⟨x', _, ⟨-, rfl⟩, A1, _, ⟨-, rfl, rfl⟩, y', _, ⟨-, rfl⟩, A2, s2, ⟨-, rfl, rfl⟩, h3⟩ := h2
      obtain ⟨e1, i, hi, ho, hj⟩ := absorbPoints_err h3
      refine ⟨e1, i + 1, by omega, by rwa [show tp + 2 * (i + 1) = tp + 2 + 2 * i by omega], fun j hji => ?_⟩
      cases j with
      | zero => exact ⟨x, y, hx, hy, hp⟩
      | succ j =>
        have := hj j (by omega)
        rwa [show tp + 2 * (j + 1) = tp + 2 + 2 * j by omega]

theorem getChallenges_err {X : Ext} {buf T buf' : List Var} {E : Engine} {m : String} {s s' : St}
    (h : GetChallengesShPlonkCircuit X buf T E s = .ok ((some m, buf'), s')) :
    some m = errNotOnCurve ∧ ∃ i ∈ pointPositions, OffAt T i ∧ (∀ j ∈ pointPositions, j < i → PairAt T j) ∧
      BigWords T 0 (blockStart i) := by
  have start : ∀ {i a b : ℕ}, blockStart i = a → BigWords T 0 b → a = b → BigWords T 0 (blockStart i) := by
    rintro i a b h1 h2 rfl; rwa [h1]
  have blk : ∀ {i : ℕ}, i ∈ pointPositions → (i < 16 ∧ i % 2 = 0) ∨ (16 ≤ i ∧ i < 24 ∧ i % 2 = 0) ∨ (24 ≤ i ∧ i < 38 ∧ i % 2 = 0) ∨
      (38 ≤ i ∧ i < 44 ∧ i % 2 = 0) ∨ i = 100 ∨ i = 102 := by
    intro i; revert i; decide
  have back : ∀ {tp n : ℕ}, (∀ i < n, ∃ x y, T[tp + 2 * i]? = some x ∧ T[tp + 2 * i + 1]? = some y ∧ PairOk x y) →
      ∀ j, tp ≤ j → j < tp + 2 * n → j % 2 = tp % 2 → PairAt T j := by
    intro tp n hall j h1 h2 h3
    have := hall ((j - tp) / 2) (by omega)
    rwa [show tp + 2 * ((j - tp) / 2) = j by omega] at this
  simp only [GetChallengesShPlonkCircuit, Circ.bind_ok, setIdx_ok, idx_ok] at h
  obtain ⟨A0, _, ⟨-, rfl, rfl⟩, b0, _, ⟨hb0, rfl⟩, A1, _, ⟨-, rfl, rfl⟩, b1, _, ⟨hb1, rfl⟩, A2, _, ⟨-, rfl, rfl⟩,
    ⟨e, A3⟩, s1, h1, h⟩ := h
  cases e with
  | some m =>
    cases h
    obtain ⟨g1, i, hi, ho, hj⟩ := absorbPoints_err h1
    refine ⟨g1, 0 + 2 * i, ?_, ho, fun j hm hji => ?_, start (b := 0) (a := 0) (by unfold blockStart; split_ifs <;> omega) (fun j _ hj => absurd hj (by omega)) rfl⟩
    · clear ho hj; revert i; decide
    · have := hj (j / 2) (by have := blk hm; omega)
      rwa [show 0 + 2 * (j / 2) = j by have := blk hm; omega] at this
  | none =>
  obtain ⟨-, -, -, n1, d1, e1⟩ := absorbPoints_ok h1
  replace e1 := back e1
  simp only [Circ.bind_ok] at h
  obtain ⟨⟨e, bf1, A4⟩, s2, h2, h⟩ := h
  obtain ⟨rfl, rfl, -, -, l2, -, r2, u2, -⟩ := squeezeTo_ok h2
  have w1 : BigWords T 0 16 := words_of_squeeze (k := 16) d1 r2 u2 (n1 (by decide))
  simp only [Circ.bind_ok] at h
  obtain ⟨⟨e, A5⟩, s3, h3, h⟩ := h
  cases e with
  | some m =>
    cases h
    obtain ⟨g1, i, hi, ho, hj⟩ := absorbPoints_err h3
    refine ⟨g1, 16 + 2 * i, ?_, ho, fun j hm hji => ?_, start (a := 16) (by unfold blockStart; split_ifs <;> omega) w1 rfl⟩
    · clear ho hj; revert i; decide
    · have hb := blk hm
      by_cases h16 : j < 16
      · exact e1 j (by omega) (by omega) (by omega)
      · have := hj ((j - 16) / 2) (by omega)
        rwa [show 16 + 2 * ((j - 16) / 2) = j by omega] at this
  | none =>
  obtain ⟨-, -, -, n1, d1, e2⟩ := absorbPoints_ok h3
  replace e2 := back e2
  simp only [Circ.bind_ok] at h
  obtain ⟨⟨e, bf1, A6⟩, s4, h4, h⟩ := h
  obtain ⟨rfl, rfl, -, -, l2, -, r2, u2, -⟩ := squeezeTo_ok h4
  have w2 := w1.append (words_of_squeeze (k := 8) d1 r2 u2 (n1 (by decide)))
  simp only [Circ.bind_ok] at h
  obtain ⟨⟨e, bf1, A7⟩, s5, h5, h⟩ := h
  obtain ⟨rfl, rfl, -⟩ := squeezeTo_ok h5
  simp only [Circ.bind_ok] at h
  obtain ⟨⟨e, A8⟩, s6, h6, h⟩ := h
  cases e with
  | some m =>
    cases h
    obtain ⟨g1, i, hi, ho, hj⟩ := absorbPoints_err h6
    refine ⟨g1, 24 + 2 * i, ?_, ho, fun j hm hji => ?_, start (a := 24) (by unfold blockStart; split_ifs <;> omega) w2 rfl⟩
    · clear ho hj; revert i; decide
    · have hb := blk hm
      by_cases h16 : j < 16
      · exact e1 j (by omega) (by omega) (by omega)
      by_cases h24 : j < 24
      · exact e2 j (by omega) (by omega) (by omega)
      · have := hj ((j - 24) / 2) (by omega)
        rwa [show 24 + 2 * ((j - 24) / 2) = j by omega] at this
  | none =>
  obtain ⟨-, -, -, n1, d1, e3⟩ := absorbPoints_ok h6
  replace e3 := back e3
  simp only [Circ.bind_ok] at h
  obtain ⟨⟨e, bf1, A9⟩, s7, h7, h⟩ := h
  obtain ⟨rfl, rfl, -, -, l2, -, r2, u2, -⟩ := squeezeTo_ok h7
  have w3 := w2.append (words_of_squeeze (k := 14) d1 r2 u2 (n1 (by decide)))
  simp only [Circ.bind_ok] at h
  obtain ⟨⟨e, A10⟩, s8, h8, h⟩ := h
  cases e with
  | some m =>
    cases h
    obtain ⟨g1, i, hi, ho, hj⟩ := absorbPoints_err h8
    refine ⟨g1, 38 + 2 * i, ?_, ho, fun j hm hji => ?_, start (a := 38) (by unfold blockStart; split_ifs <;> omega) w3 rfl⟩
    · clear ho hj; revert i; decide
    · have hb := blk hm
      by_cases h16 : j < 16
      · exact e1 j (by omega) (by omega) (by omega)
      by_cases h24 : j < 24
      · exact e2 j (by omega) (by omega) (by omega)
      by_cases h38 : j < 38
      · exact e3 j (by omega) (by omega) (by omega)
      · have := hj ((j - 38) / 2) (by omega)
        rwa [show 38 + 2 * ((j - 38) / 2) = j by omega] at this
  | none =>
  obtain ⟨-, -, -, n1, d1, e4⟩ := absorbPoints_ok h8
  replace e4 := back e4
  simp only [Circ.bind_ok] at h
  obtain ⟨⟨e, bf1, A11⟩, s9, h9, h⟩ := h
  obtain ⟨rfl, rfl, -, -, l2, -, r2, u2, -⟩ := squeezeTo_ok h9
  have w4 := w3.append (words_of_squeeze (k := 6) d1 r2 u2 (n1 (by decide)))
  simp only [Circ.bind_ok] at h
  obtain ⟨A12, s10, h10, h⟩ := h
  obtain ⟨⟨e, bf1, A13⟩, s11, h11, h⟩ := h
  obtain ⟨-, -, n1, d1⟩ := absorbScalars_ok h10
  obtain ⟨rfl, rfl, -, -, l2, -, r2, u2, -⟩ := squeezeTo_ok h11
  have w5 := w4.append (words_of_squeeze (k := 56) d1 r2 u2 (n1 (by decide)))
  simp only [Circ.bind_ok] at h
  obtain ⟨⟨e, bf1, A14⟩, s12, h12, h⟩ := h
  obtain ⟨rfl, rfl, -⟩ := squeezeTo_ok h12
  simp only [Circ.bind_ok] at h
  obtain ⟨⟨e, A15⟩, s13, h13, h⟩ := h
  have low : ∀ j ∈ pointPositions, j < 100 → PairAt T j := by
    intro j hm hlt
    have hb := blk hm
    by_cases h16 : j < 16
    · exact e1 j (by omega) (by omega) (by omega)
    by_cases h24 : j < 24
    · exact e2 j (by omega) (by omega) (by omega)
    by_cases h38 : j < 38
    · exact e3 j (by omega) (by omega) (by omega)
    · exact e4 j (by omega) (by omega) (by omega)
  cases e with
  | some m =>
    cases h
    obtain ⟨g1, i, hi, ho, hj⟩ := absorbPoints_err h13
    refine ⟨g1, 100 + 2 * i, ?_, ho, fun j hm hji => low j hm (by omega), start (by unfold blockStart; split_ifs <;> omega) w5 rfl⟩
    clear ho hj; revert i; decide
  | none =>
  obtain ⟨-, -, -, n1, d1, e5⟩ := absorbPoints_ok h13
  simp only [Circ.bind_ok] at h
  obtain ⟨⟨e, bf1, A16⟩, s14, h14, h⟩ := h
  obtain ⟨rfl, rfl, -, -, l2, -, r2, u2, -⟩ := squeezeTo_ok h14
  have w6 := w5.append (words_of_squeeze (k := 2) d1 r2 u2 (n1 (by decide)))
  simp only [Circ.bind_ok, idx_ok] at h
  obtain ⟨x, _, ⟨hx, rfl⟩, y, _, ⟨hy, rfl⟩, e, s15, h15, h16⟩ := h
  rw [Circ.pure_run, Except.ok.injEq, Prod.mk.injEq, Prod.mk.injEq] at h16
  obtain ⟨⟨rfl, rfl⟩, rfl⟩ := h16
  obtain ⟨g1, a, b, ha, hb, hn⟩ := checkOnCurve_err h15
  refine ⟨g1, 102, by decide, ⟨x, y, a, b, hx, hy, ha, hb, hn⟩, fun j hm hji => ?_, w6⟩
  by_cases h100 : j = 100
  · subst h100; exact e5 0 (by omega)
  · exact low j hm (by have := blk hm; omega)

theorem absorbPoints_run {T : List Var} : ∀ {n : ℕ} {A : List Var} {pos tp : ℕ}, pos + 2 * n ≤ A.length →
    (∀ i < n, PairAt T (tp + 2 * i)) → ∀ (E : Engine) (s : St), ∃ A', absorbPoints T n A pos tp E s = .ok ((none, A'), s)
  | 0, A, pos, tp, _, _, E, s => ⟨A, rfl⟩
  | n + 1, A, pos, tp, hA, hp, E, s => by
    obtain ⟨x, y, hx, hy, a, b, ha, hb, hv⟩ := hp 0 (by omega)
    rw [Nat.mul_zero, Nat.add_zero] at hx hy
    have hc : VerifyCheckOnCurve x y E s = .ok (none, s) := by
      simp only [VerifyCheckOnCurve, ha, hb, (isOnCurve_iff a b).2 hv, if_true, Circ.pure_run]
    simp only [absorbPoints, Circ.bind_run, idx_run hx, idx_run hy, hc]
    rw [setIdx_run (by omega)]
    simp only []
    rw [setIdx_run (by simp; omega)]
    refine absorbPoints_run (by simp; omega) (fun i hi => ?_) E s
    have := hp (i + 1) (by omega)
    rwa [show tp + 2 * (i + 1) = tp + 2 + 2 * i by omega] at this

theorem absorbPoints_fails {T : List Var} : ∀ {n : ℕ} {A : List Var} {pos tp k : ℕ}, pos + 2 * n ≤ A.length → k < n →
    OffAt T (tp + 2 * k) → (∀ i < k, PairAt T (tp + 2 * i)) → ∀ (E : Engine) (s : St),
    ∃ A', absorbPoints T n A pos tp E s = .ok ((errNotOnCurve, A'), s)
  | 0, A, pos, tp, k, _, hk, _, _, E, s => absurd hk (by omega)
  | n + 1, A, pos, tp, 0, hA, hk, ho, hp, E, s => by
    obtain ⟨x, y, a, b, hx, hy, ha, hb, hv⟩ := ho
    rw [Nat.mul_zero, Nat.add_zero] at hx hy
    have hi : isOnCurve a b = false := by
      by_contra h
      exact hv ((isOnCurve_iff a b).1 (by simpa using h))
    have hc : VerifyCheckOnCurve x y E s = .ok (errNotOnCurve, s) := by
      simp only [VerifyCheckOnCurve, ha, hb, hi, Bool.false_eq_true, if_false, Circ.pure_run]
    exact ⟨A, by simp only [absorbPoints, Circ.bind_run, idx_run hx, idx_run hy, hc]; rfl⟩
  | n + 1, A, pos, tp, k + 1, hA, hk, ho, hp, E, s => by
    obtain ⟨x, y, hx, hy, a, b, ha, hb, hv⟩ := hp 0 (by omega)
    rw [Nat.mul_zero, Nat.add_zero] at hx hy
    have hc : VerifyCheckOnCurve x y E s = .ok (none, s) := by
      simp only [VerifyCheckOnCurve, ha, hb, (isOnCurve_iff a b).2 hv, if_true, Circ.pure_run]
    simp only [absorbPoints, Circ.bind_run, idx_run hx, idx_run hy, hc]
    rw [setIdx_run (by omega)]
    simp only []
    rw [setIdx_run (by simp; omega)]
    refine absorbPoints_fails (k := k) (by simp; omega) (by omega) ?_ (fun i hi => ?_) E s
    · rwa [show tp + 2 * (k + 1) = tp + 2 + 2 * k by omega] at ho
    have := hp (i + 1) (by omega)
    rwa [show tp + 2 * (i + 1) = tp + 2 + 2 * i by omega] at this

/-- A slice of such words. -/
theorem BigWords.slice {T : List Var} {n a k : ℕ} (h : BigWords T 0 n) (hk : a + k ≤ n) : a + k ≤ T.length ∧ ∃ l : List ℤ,
    (T.drop a).take k = l.map .big ∧ l.length = k ∧ ∀ x ∈ l, x.natAbs < 2 ^ 256 := by
  have hl : a + k ≤ T.length ∨ k = 0 := by
    rcases Nat.eq_zero_or_pos k with h0 | h0
    · exact .inr h0
    · obtain ⟨z, hz, -⟩ := h (a + k - 1) (by omega) (by omega)
      have := (List.getElem?_eq_some_iff.1 hz).1
      exact .inl (by omega)
  have hl' : a + k ≤ T.length := by
    rcases hl with hl | rfl
    · exact hl
    · rcases Nat.eq_zero_or_pos a with h0 | h0
      · omega
      · obtain ⟨z, hz, -⟩ := h (a - 1) (by omega) (by omega)
        have := (List.getElem?_eq_some_iff.1 hz).1
        omega
  have hm : ∀ v ∈ (T.drop a).take k, ∃ z : ℤ, v = .big z ∧ z.natAbs < 2 ^ 256 := by
    intro v hv
    rw [List.mem_take_iff_getElem] at hv
    obtain ⟨j, hj, rfl⟩ := hv
    rw [List.length_drop] at hj
    obtain ⟨z, hz, hb⟩ := h (a + j) (by omega) (by omega)
    refine ⟨z, ?_, hb⟩
    rw [List.getElem_drop]
    exact Option.some.inj (by rw [← hz, List.getElem?_eq_getElem])
  refine ⟨hl', ((T.drop a).take k).map Var.toInt, ?_, by simp; omega, ?_⟩
  · rw [List.map_map]
    symm
    calc _ = ((T.drop a).take k).map id := List.map_congr_left fun v hv => by
            obtain ⟨x, rfl, -⟩ := hm v hv; rfl
      _ = _ := List.map_id _
  · intro x hx
    obtain ⟨v, hv, rfl⟩ := List.mem_map.1 hx
    obtain ⟨x, rfl, h⟩ := hm v hv
    exact h

/-- The converse of getChallenges_err. -/
theorem getChallenges_fails {X : Ext} (hsha : ∀ m, (X.sha256 m).length = 32) {buf T : List Var} {ix iy : ℤ}
    (hB : 10 ≤ buf.length) (h0 : buf[0]? = some (.big ix)) (h1 : buf[1]? = some (.big iy)) (hix : ix.natAbs < 2 ^ 256)
    (hiy : iy.natAbs < 2 ^ 256) {i : ℕ} (hi : i ∈ pointPositions) (ho : OffAt T i)
    (hp : ∀ j ∈ pointPositions, j < i → PairAt T j) (hw : BigWords T 0 (blockStart i)) (E : Engine) (s : St) :
    ∃ buf', GetChallengesShPlonkCircuit X buf T E s = .ok ((errNotOnCurve, buf'), s) := by
  have blk : (i < 16 ∧ i % 2 = 0) ∨ (16 ≤ i ∧ i < 24 ∧ i % 2 = 0) ∨ (24 ≤ i ∧ i < 38 ∧ i % 2 = 0) ∨
      (38 ≤ i ∧ i < 44 ∧ i % 2 = 0) ∨ i = 100 ∨ i = 102 := by
    revert hi; clear ho hp hw; revert i; decide
  have mem : ∀ j, j < 44 → j % 2 = 0 → j ∈ pointPositions := by decide
  -- a block containing the bad point
  have bad : ∀ {n pos tp : ℕ} {A : List Var} (s : St), (∀ k < n, tp + 2 * k ∈ pointPositions) → pos + 2 * n ≤ A.length → tp ≤ i →
      i < tp + 2 * n → i % 2 = tp % 2 → ∃ A', absorbPoints T n A pos tp E s = .ok ((errNotOnCurve, A'), s) := by
    intro n pos tp A s hm hA h1 h2 h3
    refine absorbPoints_fails (k := (i - tp) / 2) hA (by omega) ?_ (fun k hk => ?_) E s
    · rwa [show tp + 2 * ((i - tp) / 2) = i by omega]
    · exact hp _ (hm k (by omega)) (by omega)
  -- a block before the bad point
  have good : ∀ {n pos tp : ℕ} {A : List Var} (s : St), (∀ k < n, tp + 2 * k ∈ pointPositions) → pos + 2 * n ≤ A.length →
      tp + 2 * n ≤ i → ∃ A', absorbPoints T n A pos tp E s = .ok ((none, A'), s) := by
    intro n pos tp A s hm hA h1
    exact absorbPoints_run hA (fun k hk => hp _ (hm k hk) (by omega)) E s
  unfold GetChallengesShPlonkCircuit
  simp only [Circ.bind_run]
  rw [setIdx_run (by simp)]
  simp only [idx_run h0]
  rw [setIdx_run (by simp)]
  simp only [idx_run h1]
  rw [setIdx_run (by simp)]
  simp only []
  -- theta
  by_cases c1 : i < 16
  · obtain ⟨A', g⟩ := bad (n := 8) (pos := 3) (tp := 0)
      (A := (((List.replicate 112 Var.nil).set 0 (.big (absorb0 : ℤ))).set 1 (.big ix)).set 2 (.big iy)) s (by decide) (by simp) (by omega)
      (by omega) (by omega)
    rw [g]; exact ⟨_, rfl⟩
  obtain ⟨A3, g⟩ := good (n := 8) (pos := 3) (tp := 0)
    (A := (((List.replicate 112 Var.nil).set 0 (.big (absorb0 : ℤ))).set 1 (.big ix)).set 2 (.big iy)) s (by decide) (by simp) (by omega)
  have hw16 : 16 ≤ blockStart i := by unfold blockStart; split_ifs <;> omega
  obtain ⟨-, a1, -, -, d1, -⟩ := absorbPoints_ok g
  obtain ⟨-, l, l1, l2, l3⟩ := hw.slice (a := 0) (k := 16) hw16
  have hA3 : A3.length = 112 := by rw [a1]; simp
  simp only [g]
  obtain ⟨bf, A4, d, g, b1, b2, b3, b4⟩ := squeeze_block X (buf := buf) (A := A3) (slot := 2) (pos := 19)
    (d := absorb0) (S := .big ix :: .big iy :: (T.drop 0).take 16) (l := ix :: iy :: l) (by omega) (by omega)
    (by rw [d1]; simp) (by rw [l1]; rfl) (by decide +kernel)
    (by
      intro x hx
      simp only [List.mem_cons] at hx
      rcases hx with rfl | rfl | hx
      · exact hix
      · exact hiy
      · exact l3 x hx) (by simp [l2]) E s
  simp only [Circ.bind_run, g]
  have b4 := b4 hsha
  -- beta
  by_cases c2 : i < 24
  · obtain ⟨A', g⟩ := bad (n := 4) (pos := 1) (tp := 16) (A := A4) s (by decide) (by omega) (by omega) (by omega) (by omega)
    rw [g]; exact ⟨_, rfl⟩
  obtain ⟨A5, g⟩ := good (n := 4) (pos := 1) (tp := 16) (A := A4) s (by decide) (by omega) (by omega)
  have hw24 : 24 ≤ blockStart i := by unfold blockStart; split_ifs <;> omega
  simp only [g]
  obtain ⟨-, a1, -, -, d1, -⟩ := absorbPoints_ok g
  obtain ⟨-, l, l1, l2, l3⟩ := hw.slice (a := 16) (k := 8) hw24
  have hA5 : A5.length = 112 := by omega
  obtain ⟨bf2, A6, d2, g, c1, c2, c3, c4⟩ := squeeze_block X (buf := bf) (A := A5) (slot := 3) (pos := 9)
    (d := d) (S := (T.drop 16).take 8) (l := l) (by omega) (by omega)
    (by rw [show 9 = 1 + 2 * 4 from rfl, d1, b3]) l1 b4 l3 (by omega) E s
  simp only [Circ.bind_run, g]
  have c4 := c4 hsha
  -- gamma
  obtain ⟨bf3, A7, d3, g, i1, i2, i3, i4⟩ := squeeze_block X (buf := bf2) (A := A6) (slot := 4) (pos := 1)
    (d := d2) (S := []) (l := []) (by omega) (by omega) (by rw [c3]; rfl) rfl c4 (by simp) (by simp) E s
  simp only [Circ.bind_run, g]
  have i4 := i4 hsha
  -- y
  by_cases cc3 : i < 38
  · obtain ⟨A', g⟩ := bad (n := 7) (pos := 1) (tp := 24) (A := A7) s (by decide) (by omega) (by omega) (by omega) (by omega)
    rw [g]; exact ⟨_, rfl⟩
  obtain ⟨A8, g⟩ := good (n := 7) (pos := 1) (tp := 24) (A := A7) s (by decide) (by omega) (by omega)
  have hw38 : 38 ≤ blockStart i := by unfold blockStart; split_ifs <;> omega
  simp only [g]
  obtain ⟨-, a1, -, -, d1, -⟩ := absorbPoints_ok g
  obtain ⟨-, l, l1, l2, l3⟩ := hw.slice (a := 24) (k := 14) hw38
  have hA8 : A8.length = 112 := by omega
  obtain ⟨bf4, A9, d4, g, j1, j2, j3, j4⟩ := squeeze_block X (buf := bf3) (A := A8) (slot := 5) (pos := 15)
    (d := d3) (S := (T.drop 24).take 14) (l := l) (by omega) (by omega)
    (by rw [show 15 = 1 + 2 * 7 from rfl, d1, i3]) l1 i4 l3 (by omega) E s
  simp only [Circ.bind_run, g]
  have j4 := j4 hsha
  -- x
  by_cases cc4 : i < 44
  · obtain ⟨A', g⟩ := bad (n := 3) (pos := 1) (tp := 38) (A := A9) s (by decide) (by omega) (by omega) (by omega) (by omega)
    rw [g]; exact ⟨_, rfl⟩
  obtain ⟨A10, g⟩ := good (n := 3) (pos := 1) (tp := 38) (A := A9) s (by decide) (by omega) (by omega)
  have hw100 : 100 ≤ blockStart i := by unfold blockStart; split_ifs <;> omega
  simp only [g]
  obtain ⟨-, a1, -, -, d1, -⟩ := absorbPoints_ok g
  obtain ⟨-, l, l1, l2, l3⟩ := hw.slice (a := 38) (k := 6) (by omega)
  have hA10 : A10.length = 112 := by omega
  obtain ⟨bf5, A11, d5, g, k1, k2, k3, k4⟩ := squeeze_block X (buf := bf4) (A := A10) (slot := 6) (pos := 7)
    (d := d4) (S := (T.drop 38).take 6) (l := l) (by omega) (by omega)
    (by rw [show 7 = 1 + 2 * 3 from rfl, d1, j3]) l1 j4 l3 (by omega) E s
  simp only [Circ.bind_run, g]
  have k4 := k4 hsha
  -- evaluations
  obtain ⟨hlen, l, l1, l2, l3⟩ := hw.slice (a := 44) (k := 56) hw100
  obtain ⟨A12, g⟩ := absorbScalars_total (T := T) (n := 56) (A := A11) (pos := 1) (tp := 44) (by omega) hlen E s
  obtain ⟨-, a1, -, d1⟩ := absorbScalars_ok g
  simp only [g]
  obtain ⟨bf6, A13, d6, g, m1, m2, m3, m4⟩ := squeeze_block X (buf := bf5) (A := A12) (slot := 7) (pos := 57)
    (d := d5) (S := (T.drop 44).take 56) (l := l) (by omega) (by omega)
    (by rw [show 57 = 1 + 56 from rfl, d1, k3]) l1 k4 l3 (by omega) E s
  simp only [Circ.bind_run, g]
  have m4 := m4 hsha
  -- v
  obtain ⟨bf7, A14, d7, g, n1, n2, n3, n4⟩ := squeeze_block X (buf := bf6) (A := A13) (slot := 8) (pos := 1)
    (d := d6) (S := []) (l := []) (by omega) (by omega) (by rw [m3]; rfl) rfl m4 (by simp) (by simp) E s
  simp only [Circ.bind_run, g]
  have n4 := n4 hsha
  -- u
  by_cases cc5 : i < 102
  · obtain ⟨A', g⟩ := bad (n := 1) (pos := 1) (tp := 100) (A := A14) s (by decide) (by omega) (by omega) (by omega) (by omega)
    rw [g]; exact ⟨_, rfl⟩
  have e102 : i = 102 := by omega
  subst e102
  obtain ⟨A15, g⟩ := good (n := 1) (pos := 1) (tp := 100) (A := A14) s (by decide) (by omega) (by omega)
  simp only [g]
  obtain ⟨-, a1, -, -, d1, -⟩ := absorbPoints_ok g
  obtain ⟨-, l, l1, l2, l3⟩ := hw.slice (a := 100) (k := 2) (by decide)
  have hA15 : A15.length = 112 := by omega
  obtain ⟨bf8, A16, d8, g, o1, o2, o3, o4⟩ := squeeze_block X (buf := bf7) (A := A15) (slot := 9) (pos := 3)
    (d := d7) (S := (T.drop 100).take 2) (l := l) (by omega) (by omega)
    (by rw [show 3 = 1 + 2 * 1 from rfl, d1, n3]) l1 n4 l3 (by omega) E s
  simp only [Circ.bind_run, g]
  obtain ⟨x, y, a, b, hx, hy, ha, hb, hv⟩ := ho
  have hi : isOnCurve a b = false := by
    by_contra h
    exact hv ((isOnCurve_iff a b).1 (by simpa using h))
  have hc : VerifyCheckOnCurve x y E s = .ok (errNotOnCurve, s) := by
    simp only [VerifyCheckOnCurve, ha, hb, hi, Bool.false_eq_true, if_false, Circ.pure_run]
  simp only [idx_run hx, idx_run hy, hc, Circ.pure_run]
  exact ⟨bf8, rfl⟩

/-! ### The three steps: which cells hold constants -/

/-- Is the value of an expression a constant, given the cells that hold constants? Results of field operations are;
so are the coordinates of the points of the proof. -/
def Expr.isConst (K : List Bool) : Expr ℕ → Bool
  | .str _ | .int _ => true
  | .buf i => K.getD i false
  | .tr i => decide (i < 44) || decide (100 ≤ i ∧ i < 104)
  | .aux _ => false
  | .mul _ _ | .add _ _ | .neg _ | .div _ _ _ | .pow _ _ => true

def constStore (K : List Bool) : List ℕ → List Bool → List Bool
  | t :: ts, b :: bs => constStore (K.set t b) ts bs
  | _, _ => K

/-- The cells that hold constants after a statement; none if a curve operation reads a cell that may not. -/
def Stmt.constCells (K : List Bool) : Stmt → Option (List Bool)
  | .set ts es => some (constStore K ts (es.map (Expr.isConst K)))
  | .eccMul o => if K.getD o false && K.getD (o + 1) false && K.getD (o + 2) false
      then some ((K.set o true).set (o + 1) true) else none
  | .eccMulAdd o => if K.getD (o + 2) false && K.getD (o + 3) false && K.getD (o + 4) false
      then some ((((K.set (o + 2) true).set (o + 3) true).set o true).set (o + 1) true) else none

def bodyConst : List Bool → List Stmt → Option (List Bool)
  | K, [] => some K
  | K, st :: rest => (st.constCells K).bind fun K => bodyConst K rest

/-- The cells marked in K hold constants. -/
def Holds (K : List Bool) (B : List Var) : Prop :=
  K.length = B.length ∧ ∀ i, K.getD i false = true → (setInterface (B.getD i .nil)).isSome = true

theorem Var.Canon.isConst {v : Var} (h : v.Canon) : (Verif.setInterface v).isSome = true := by
  obtain ⟨n, rfl, -⟩ := h; rfl

theorem Holds.set {K : List Bool} {B : List Var} (h : Holds K B) (i : ℕ) {b : Bool} {v : Var}
    (hv : b = true → (setInterface v).isSome = true) : Holds (K.set i b) (B.set i v) := by
  obtain ⟨h1, h2⟩ := h
  refine ⟨by rw [List.length_set, List.length_set, h1], fun j hj => ?_⟩
  rw [List.getD_eq_getElem?_getD, List.getElem?_set] at hj ⊢
  by_cases hij : i = j
  · subst hij
    by_cases hl : i < B.length
    · rw [if_pos rfl, if_pos hl]
      rw [if_pos rfl, if_pos (by omega)] at hj
      exact hv hj
    · rw [if_pos rfl, if_neg (by omega)] at hj
      cases hj
  · rw [if_neg hij] at hj ⊢
    rw [← List.getD_eq_getElem?_getD] at hj ⊢
    exact h2 j hj

theorem Holds.store {ts : List ℕ} : ∀ {K : List Bool} {B : List Var} {bs : List Bool} {vs : List Var}, Holds K B →
    List.Forall₂ (fun b v => b = true → (setInterface v).isSome = true) bs vs →
    Holds (constStore K ts bs) (storeMany B ts vs) := by
  induction ts with
  | nil => intro K B bs vs h _; simpa [constStore, storeMany] using h
  | cons t ts ih =>
    intro K B bs vs h hf
    cases hf with
    | nil => simpa [constStore, storeMany] using h
    | cons h1 h2 => exact ih (h.set t h1) h2

theorem eval_const {T A B : List Var} {K : List Bool} {E : Engine} (hE : E.mode = .test) (hT : ∀ i ∈ pointPositions, PairAt T i)
    (hB : Holds K B) (e : Expr ℕ) {v : Var} {s s' : St} (h : e.eval T A B E s = .ok (v, s')) (hc : e.isConst K = true) :
    (setInterface v).isSome = true := by
  cases e with
  | str n => cases h; rfl
  | int n => cases h; rfl
  | buf i =>
    obtain ⟨h1, -⟩ := idx_ok.1 h
    have := hB.2 i hc
    rwa [getD_some h1] at this
  | tr i =>
    obtain ⟨h1, -⟩ := idx_ok.1 h
    have hi : i - i % 2 ∈ pointPositions := by
      have h2 : i < 44 ∨ 100 ≤ i ∧ i < 104 := by simpa [Expr.isConst] using hc
      have key : ∀ i < 104, i < 44 ∨ 100 ≤ i → i - i % 2 ∈ pointPositions := by decide
      exact key i (by omega) (by omega)
    obtain ⟨x, y, q1, q2, a, b, ha, hb, -⟩ := hT _ hi
    rcases Nat.mod_two_eq_zero_or_one i with h0 | h0
    · rw [h0, Nat.sub_zero, h1] at q1
      cases q1; rw [ha]; rfl
    · rw [show i - i % 2 + 1 = i by omega, h1] at q2
      cases q2; rw [hb]; rfl
  | aux i => cases hc
  | mul a b =>
    simp only [Expr.eval, Circ.bind_ok, fr_mul] at h
    obtain ⟨_, _, -, _, _, -, _, _, -, h⟩ := h
    exact ((mod_ok h).2.2.2.1 hE).isConst
  | add a b =>
    simp only [Expr.eval, Circ.bind_ok, fr_add] at h
    obtain ⟨_, _, -, _, _, -, _, _, -, h⟩ := h
    exact ((mod_ok h).2.2.2.1 hE).isConst
  | neg a =>
    simp only [Expr.eval, Circ.bind_ok] at h
    obtain ⟨_, _, -, h⟩ := h
    exact ((fr_neg_ok h).2.2.2.1 hE).isConst
  | div a b c =>
    simp only [Expr.eval, Circ.bind_ok] at h
    obtain ⟨_, _, -, _, _, -, _, _, -, h⟩ := h
    exact ((fr_div_ok h).2.2.2.2.2.1 hE).isConst
  | pow a n =>
    simp only [Expr.eval, Circ.bind_ok] at h
    obtain ⟨_, _, -, h⟩ := h
    obtain ⟨_, -, -, -, h1, -⟩ := fr_pow_ok h
    exact (h1 hE).isConst

theorem evalExprs_const {T A B : List Var} {K : List Bool} {E : Engine} (hE : E.mode = .test)
    (hT : ∀ i ∈ pointPositions, PairAt T i) (hB : Holds K B) : ∀ (es : List (Expr ℕ)) {vs : List Var} {s s' : St},
    evalExprs T A B es E s = .ok (vs, s') →
    List.Forall₂ (fun b v => b = true → (setInterface v).isSome = true) (es.map (Expr.isConst K)) vs
  | [], vs, s, s', h => by cases h; exact .nil
  | e :: es, vs, s, s', h => by
    simp only [evalExprs, Circ.bind_ok] at h
    obtain ⟨v, s1, h1, ws, s2, h2, h3⟩ := h
    cases h3
    exact .cons (fun hc => eval_const hE hT hB e h1 hc) (evalExprs_const hE hT hB es h2)

/-- On constants the curve operations return no error. -/
theorem scalarMul_const {X : Ext} {p e : Var × Var} {k : Var} {E : Engine} {s s' : St} {err : GoErr}
    (h1 : (setInterface p.1).isSome = true) (h2 : (setInterface p.2).isSome = true) (h3 : (setInterface k).isSome = true)
    (h4 : (setInterface e.1).isSome = true) (h5 : (setInterface e.2).isSome = true)
    (h : VerifyBN254ScalarMul X p k e E s = .ok (err, s')) : err = none := by
  obtain ⟨a1, h1⟩ := Option.isSome_iff_exists.1 h1
  obtain ⟨a2, h2⟩ := Option.isSome_iff_exists.1 h2
  obtain ⟨a3, h3⟩ := Option.isSome_iff_exists.1 h3
  obtain ⟨a4, h4⟩ := Option.isSome_iff_exists.1 h4
  obtain ⟨a5, h5⟩ := Option.isSome_iff_exists.1 h5
  simp only [VerifyBN254ScalarMul, h1, h2, h3, h4, h5, Circ.bind_ok] at h
  obtain ⟨_, _, -, _, _, -, h⟩ := h
  cases h; rfl

theorem msm_const {X : Ext} {x y k : Var} {E : Engine} (hE : E.mode = .test) {s s' : St} {res : Var × Var} {err : GoErr}
    (h1 : (setInterface x).isSome = true) (h2 : (setInterface y).isSome = true) (h3 : (setInterface k).isSome = true)
    (h : CalcVerifyBN256Msm X x y k E s = .ok ((res, err), s')) : err = none ∧ res.1.Canon ∧ res.2.Canon := by
  simp only [CalcVerifyBN256Msm, Circ.bind_ok, idx_ok] at h
  obtain ⟨rs, _, -, r0, _, -, e0, _, m1, r1, _, -, e1, _, m2, e, _, h4, h5⟩ := h
  cases h5
  have k1 := (mod_ok m1).2.2.2.1 hE
  have k2 := (mod_ok m2).2.2.2.1 hE
  exact ⟨scalarMul_const h1 h2 h3 k1.isConst k2.isConst h4, k1, k2⟩

theorem ecc_mul_const {X : Ext} {B B' : List Var} {K : List Bool} {o : ℕ} {E : Engine} (hE : E.mode = .test) {s s' : St} {err : GoErr}
    (hB : Holds K B) (hK : (K.getD o false && K.getD (o + 1) false && K.getD (o + 2) false) = true)
    (h : ecc_mul X B o E s = .ok ((err, B'), s')) : err = none ∧ Holds ((K.set o true).set (o + 1) true) B' := by
  simp only [Bool.and_eq_true] at hK
  obtain ⟨⟨k1, k2⟩, k3⟩ := hK
  simp only [ecc_mul, Circ.bind_ok, idx_ok] at h
  obtain ⟨vx, _, ⟨hx, rfl⟩, vy, _, ⟨hy, rfl⟩, vk, _, ⟨hk, rfl⟩, ⟨res, e⟩, s1, h1, h⟩ := h
  have c1 := hB.2 _ k1
  have c2 := hB.2 _ k2
  have c3 := hB.2 _ k3
  rw [getD_some hx] at c1
  rw [getD_some hy] at c2
  rw [getD_some hk] at c3
  obtain ⟨rfl, r1, r2⟩ := msm_const hE c1 c2 c3 h1
  simp only [Circ.bind_ok, setIdx_ok] at h
  obtain ⟨b1, _, ⟨-, rfl, rfl⟩, b2, _, ⟨-, rfl, rfl⟩, h⟩ := h
  cases h
  exact ⟨rfl, (hB.set _ fun _ => r1.isConst).set _ fun _ => r2.isConst⟩

theorem stmt_const {X : Ext} {T A B B' : List Var} {K K' : List Bool} {E : Engine} (hE : E.mode = .test)
    (hT : ∀ i ∈ pointPositions, PairAt T i) (hB : Holds K B) {st : Stmt} (hK : st.constCells K = some K') {s s' : St} {err : GoErr}
    (h : st.exec X T A B E s = .ok ((err, B'), s')) : err = none ∧ Holds K' B' := by
  cases st with
  | set ts es =>
    simp only [Stmt.exec, Circ.bind_ok] at h
    obtain ⟨vs, s1, h1, B1, s2, h2, h3⟩ := h
    cases h3
    obtain ⟨rfl, rfl⟩ := setMany_ok h2
    cases hK
    exact ⟨rfl, hB.store (evalExprs_const hE hT hB es h1)⟩
  | eccMul o =>
    simp only [Stmt.constCells, Option.ite_none_right_eq_some, Option.some.injEq] at hK
    obtain ⟨hK, rfl⟩ := hK
    exact ecc_mul_const hE hB hK h
  | eccMulAdd o =>
    simp only [Stmt.constCells, Option.ite_none_right_eq_some, Option.some.injEq] at hK
    obtain ⟨hK, rfl⟩ := hK
    simp only [Stmt.exec, ecc_mul_add, Circ.bind_ok] at h
    obtain ⟨⟨e, B1⟩, s1, h1, h⟩ := h
    obtain ⟨rfl, hB1⟩ := ecc_mul_const (o := o + 2) hE hB hK h1
    simp only [Circ.bind_ok, idx_ok, setIdx_ok] at h
    obtain ⟨a, _, -, b, _, -, c, _, -, d, _, -, ⟨res, e⟩, s2, h2, b1, _, ⟨-, rfl, rfl⟩, b2, _, ⟨-, rfl, rfl⟩, h⟩ := h
    cases h
    simp only [CalcVerifyBN256Add, Circ.bind_ok, idx_ok] at h2
    obtain ⟨rs, _, -, r0, _, -, e0, _, m1, r1, _, -, e1, _, m2, err, _, -, h5⟩ := h2
    cases h5
    exact ⟨rfl, (hB1.set _ fun _ => ((mod_ok m1).2.2.2.1 hE).isConst).set _ fun _ => ((mod_ok m2).2.2.2.1 hE).isConst⟩

theorem body_const {X : Ext} {T A : List Var} {E : Engine} (hE : E.mode = .test) (hT : ∀ i ∈ pointPositions, PairAt T i) :
    ∀ (P : List Stmt) {B B' : List Var} {K K' : List Bool} {s s' : St} {err : GoErr}, Holds K B → bodyConst K P = some K' →
    execBody X T A B P E s = .ok ((B', err), s') → err = none ∧ Holds K' B'
  | [], B, B', K, K', s, s', err, hB, hK, h => by cases hK; cases h; exact ⟨rfl, hB⟩
  | st :: P, B, B', K, K', s, s', err, hB, hK, h => by
    simp only [bodyConst, Option.bind_eq_some_iff] at hK
    obtain ⟨K1, hK1, hK2⟩ := hK
    simp only [execBody, Circ.bind_ok] at h
    obtain ⟨⟨e, B1⟩, s1, h1, h2⟩ := h
    obtain ⟨rfl, hB1⟩ := stmt_const hE hT hB hK1 h1
    exact body_const hE hT P hB1 hK2 h2

/-- Cells 0..9 of 43: the instance commitment and the challenges. -/
def cells0 : List Bool := List.replicate 10 true ++ List.replicate 33 false

/-- The cells holding constants after each step. -/
theorem steps_const : ∃ K1 K2 K3, bodyConst cells0 step1 = some K1 ∧ bodyConst K1 step2 = some K2 ∧ bodyConst K2 step3 = some K3 := by
  have h : (((bodyConst cells0 step1).bind fun K => bodyConst K step2).bind fun K => bodyConst K step3).isSome = true := by
    decide +kernel
  obtain ⟨K3, h⟩ := Option.isSome_iff_exists.1 h
  obtain ⟨K2, h, h3⟩ := Option.bind_eq_some_iff.1 h
  obtain ⟨K1, h1, h2⟩ := Option.bind_eq_some_iff.1 h
  exact ⟨K1, K2, K3, h1, h2, h3⟩

theorem finalCheck_noerr {X : Ext} {B : List Var} {E : Engine} {s s' : St} {err : GoErr}
    (h : finalCheck X B E s = .ok (err, s')) : err = none := by
  have nz : ∀ {v : Var} {e : GoErr} {s s' : St}, VerifyNotZero v E s = .ok (e, s') → e = none := by
    intro v e s s' h
    simp only [VerifyNotZero, Circ.bind_ok] at h
    obtain ⟨_, _, -, h⟩ := h
    cases h; rfl
  simp only [finalCheck, Circ.bind_ok] at h
  obtain ⟨b10, _, -, e, _, h1, h⟩ := h
  cases nz h1
  simp only [Circ.bind_ok] at h
  obtain ⟨b11, _, -, e, _, h1, h⟩ := h
  cases nz h1
  simp only [Circ.bind_ok] at h
  obtain ⟨b12, _, -, e, _, h1, h⟩ := h
  cases nz h1
  simp only [Circ.bind_ok] at h
  obtain ⟨b13, _, -, e, _, h1, h⟩ := h
  cases nz h1
  simp only [Circ.bind_ok] at h
  obtain ⟨w1, _, g1, w2, _, g2, h⟩ := h
  have l1 : w1.g1Points.length = 2 := by
    unfold FillVerifyCircuitsG1 at g1
    cases h1 : setInterface b10 with
    | none => rw [h1] at g1; cases g1
    | some a1 =>
    cases h2 : setInterface b11 with
    | none => rw [h1, h2] at g1; cases g1
    | some a2 =>
    cases h3 : setInterface b12 with
    | none => simp only [h1, h2, h3] at g1; split at g1 <;> cases g1
    | some a3 =>
    cases h4 : setInterface b13 with
    | none => simp only [h1, h2, h3, h4] at g1; split at g1 <;> cases g1
    | some a4 =>
    simp only [h1, h2, h3, h4] at g1
    split at g1
    · split at g1
      · cases g1; rfl
      · cases g1
    · cases g1
  simp only [FillVerifyCircuitsG2, Circ.bind_ok] at g2
  obtain ⟨⟨a, b⟩, _, -, g2⟩ := g2
  cases g2
  simp only [VerifyBN256Pairing, l1, Circ.bind_ok] at h
  simp at h
  obtain ⟨_, _, -, h⟩ := Circ.bind_ok.1 h
  cases h; rfl

theorem keccak_noerr {X : Ext} {ins hs : List Var} {E : Engine} {s s' : St} {err : GoErr}
    (h : VerifyKeccak256 X ins hs E s = .ok (err, s')) : err = none := by
  simp only [VerifyKeccak256, Circ.bind_ok] at h
  obtain ⟨_, _, -, _, _, -, h⟩ := h
  cases h; rfl

/-- The stages of a run of `Define` that ends with the Go error `m`. -/
structure ErrRun (X : Ext) (c : AggregatorCircuit) (E : Engine) (m : String) (s s' : St) where
  (hv hm : Var) (res : Var × Var) (b B0 : List Var) (t1 t2 t3 : St)
  len : c.TargetInst.length + c.VerifyInst.length ≤ 43
  hash : VerifyInstanceHash X (c.TargetInst ++ c.VerifyInst) E s = .ok ((hv, none), t1)
  hmod : mod hv E t1 = .ok (hm, t2)
  msm : CalcVerifyBN256Msm X (.big lagrangeX) (.big lagrangeY) hm E t2 = .ok ((res, none), t3)
  chal : GetChallengesShPlonkCircuit X b c.Proof E t3 = .ok ((some m, B0), s')

/-- A Go error of Define in the test engine comes from the derivation of the challenges. -/
theorem define_err {X : Ext} {c : AggregatorCircuit} {E : Engine} (hE : E.mode = .test) {m : String} {s s' : St}
    (h : c.Define X E s = .ok (some m, s')) : Nonempty (ErrRun X c E m s s') := by
  unfold AggregatorCircuit.Define at h
  rw [Circ.bind_ok] at h
  obtain ⟨b0, s0, h0, h⟩ := h
  rw [Circ.bind_ok] at h
  obtain ⟨b1, s1, h1, h⟩ := h
  obtain ⟨rfl, l1, hlen, htake⟩ := copy_both h0 h1
  rw [Circ.bind_ok] at h
  obtain ⟨⟨hv, e⟩, t1, hh, h⟩ := h
  have he : e = none := by
    simp only [VerifyInstanceHash, Circ.bind_ok] at hh
    obtain ⟨res, s1, h1, hu, s2, h2, iu, s3, h3, err, s4, h4, w, s5, h5, h6⟩ := hh
    rw [Circ.pure_run, Except.ok.injEq, Prod.mk.injEq, Prod.mk.injEq] at h6
    obtain ⟨⟨rfl, rfl⟩, rfl⟩ := h6
    exact keccak_noerr h4
  subst he
  rw [Circ.bind_ok] at h
  obtain ⟨hm, t2, hmod, h⟩ := h
  rw [Circ.bind_ok] at h
  obtain ⟨b, _, hset, h⟩ := h
  obtain ⟨hlt, rfl, rfl⟩ := setIdx_ok.1 hset
  rw [Circ.bind_ok] at h
  obtain ⟨⟨e, B⟩, t3, hl, h⟩ := h
  unfold CalcVerifyCircuitLagrange at hl
  rw [Circ.bind_ok] at hl
  obtain ⟨k, _, hk', hl⟩ := hl
  obtain ⟨hk, rfl⟩ := idx_ok.1 hk'
  have hk2 : (b1.set 2 hm)[2]? = some hm := by rw [List.getElem?_set_self hlt]
  rw [hk2, Option.some.injEq] at hk
  subst hk
  rw [Circ.bind_ok] at hl
  obtain ⟨⟨res, e'⟩, t3', hmsm, hl⟩ := hl
  obtain ⟨rfl, r1, r2⟩ := msm_const hE rfl rfl ((mod_ok hmod).2.2.2.1 hE).isConst hmsm
  rw [Circ.bind_ok] at hl
  obtain ⟨c1, _, q1, hl⟩ := hl
  obtain ⟨-, rfl, rfl⟩ := setIdx_ok.1 q1
  rw [Circ.bind_ok] at hl
  obtain ⟨c2, _, q2, hl⟩ := hl
  obtain ⟨-, rfl, rfl⟩ := setIdx_ok.1 q2
  rw [Circ.pure_run, Except.ok.injEq, Prod.mk.injEq, Prod.mk.injEq] at hl
  obtain ⟨⟨rfl, rfl⟩, rfl⟩ := hl
  unfold verifyFrom at h
  rw [Circ.bind_ok] at h
  obtain ⟨⟨e, B0⟩, t4, hc, h⟩ := h
  cases e with
  | some m' => rw [htake] at hh; cases h; exact ⟨⟨_, _, _, _, _, _, _, _, hlen, hh, hmod, hmsm, hc⟩⟩
  | none =>
  exfalso
  obtain ⟨K1, K2, K3, k1, k2, k3⟩ := steps_const
  have hT := (getChallenges_ok hc).2.2.2.1
  have hB0 : Holds cells0 B0 := by
    obtain ⟨-, ix, iy, t, i0, i1, -, -, g1, g2, g3⟩ := C27_schedule hc
    have hl0 : B0.length = 43 := by rw [g3]; simp only [List.length_set]; exact l1
    refine ⟨by rw [hl0]; rfl, fun i hi => ?_⟩
    have hi10 : i < 10 := by
      by_contra hge
      rw [cells0, List.getD_eq_getElem?_getD, List.getElem?_append_right (by simp; omega), List.getElem?_replicate] at hi
      split at hi <;> cases hi
    by_cases h2 : 2 ≤ i
    · have := g1 (i - 2) (by omega)
      rw [show 2 + (i - 2) = i by omega] at this
      rw [getD_some this]; rfl
    · have h3 := g2 i (by omega)
      obtain rfl | rfl : i = 0 ∨ i = 1 := by omega
      · rw [getD_some (h3.trans i0)]; rfl
      · rw [getD_some (h3.trans i1)]; rfl
  rw [Circ.bind_ok] at h
  obtain ⟨⟨B1, e⟩, t5, g1, h⟩ := h
  obtain ⟨rfl, hB1⟩ := body_const hE hT _ hB0 k1 g1
  rw [Circ.bind_ok] at h
  obtain ⟨⟨B2, e⟩, t6, g2, h⟩ := h
  obtain ⟨rfl, hB2⟩ := body_const hE hT _ hB1 k2 g2
  rw [Circ.bind_ok] at h
  obtain ⟨⟨B3, e⟩, t7, g3, h⟩ := h
  obtain ⟨rfl, hB3⟩ := body_const hE hT _ hB2 k3 g3
  cases finalCheck_noerr h

end Verif
