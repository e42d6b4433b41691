/- Lemmas about GetChallengesShPlonkCircuit (no property theorems here). -/
import Verif.Lemmas.Transcript
import Verif.Spec.Transcript

namespace Verif

/-- The integer of a constant. -/
def Var.toInt : Var → ℤ
  | .big n => n
  | _ => 0

theorem map_toInt_big (l : List ℤ) : (l.map Var.big).map Var.toInt = l := by
  rw [List.map_map]; exact List.map_id _

theorem wordHash_eq (X : Ext) (d : ℕ) (l : List ℤ) :
    wordHash X ((d : ℤ) :: l) = beNat (X.sha256 (fsMessage d (l.map Int.natAbs))) := by
  simp only [wordHash, fsMessage, List.flatMap_cons, List.flatMap_map, Int.natAbs_natCast]

theorem squeezeTo_ok {X : Ext} {buf A buf' A' : List Var} {slot pos : ℕ} {e : GoErr} {E : Engine} {s s' : St}
    (h : squeezeTo X buf A slot pos E s = .ok ((e, buf', A'), s')) :
    s' = s ∧ e = none ∧ slot < buf.length ∧ pos < A.length ∧ ∃ l : List ℤ, l.length = pos ∧ A.take pos = l.map .big ∧
      (∀ x ∈ l, x.natAbs < 2 ^ 256) ∧ buf' = buf.set slot (.big ((wordHash X l : ℤ) % rMod)) ∧
      A'.take 1 = [.big (wordHash X l)] ∧ A'.length = A.length := by
  simp only [squeezeTo, Circ.bind_ok, setIdx_ok] at h
  obtain ⟨⟨⟨c, e1⟩, A1⟩, s1, h1, b, s2, ⟨h2, rfl, rfl⟩, h3⟩ := h
  rw [Circ.pure_run, Except.ok.injEq, Prod.mk.injEq, Prod.mk.injEq, Prod.mk.injEq] at h3
  obtain ⟨⟨rfl, rfl, rfl⟩, rfl⟩ := h3
  obtain ⟨rfl, rfl, hn, l, l1, l2, l3, rfl, rfl⟩ := squeeze_ok h1
  refine ⟨rfl, rfl, h2, hn, l, l1, l2, l3, rfl, ?_, by simp⟩
  rw [show (1 : ℕ) = 0 + 1 from rfl, take_set_succ _ (by simp; omega)]
  rfl

theorem squeezeTo_run (X : Ext) {buf A : List Var} {slot : ℕ} {l : List ℤ} (hs : slot < buf.length)
    (hn : l.length < A.length) (hA : A.take l.length = l.map .big) (hb : ∀ x ∈ l, x.natAbs < 2 ^ 256) (E : Engine)
    (s : St) : squeezeTo X buf A slot l.length E s = .ok ((none, buf.set slot (.big ((wordHash X l : ℤ) % rMod)),
      (A.set l.length (.big 0)).set 0 (.big (wordHash X l))), s) := by
  simp only [squeezeTo, Circ.bind_run, squeeze_run X hn hA hb, setIdx_run hs, Circ.pure_run]

/-- Splitting off the chaining word. -/
theorem split_block {d : ℕ} {S : List Var} {l : List ℤ} (h : [Var.big (d : ℤ)] ++ S = l.map .big) :
    ∃ l', l = (d : ℤ) :: l' ∧ S = l'.map .big ∧ l' = S.map Var.toInt := by
  cases l with
  | nil => simp at h
  | cons x l =>
    simp only [List.singleton_append, List.map_cons, List.cons.injEq, Var.big.injEq] at h
    obtain ⟨rfl, rfl⟩ := h
    exact ⟨l, rfl, rfl, (map_toInt_big l).symm⟩

/-- Pairs of the proof that must be points. -/
def pointPositions : List ℕ :=
  [0, 2, 4, 6, 8, 10, 12, 14, 16, 18, 20, 22, 24, 26, 28, 30, 32, 34, 36, 38, 40, 42, 100, 102]

def PairAt (T : List Var) (i : ℕ) : Prop := ∃ x y, T[i]? = some x ∧ T[i + 1]? = some y ∧ PairOk x y

/-- The eight writes of the challenges. -/
def writeChallenges (buf : List Var) (ds : List ℕ) : List Var :=
  let c := fun i => Var.big ((ds.getD i 0 : ℤ) % rMod)
  (((((((buf.set 2 (c 0)).set 3 (c 1)).set 4 (c 2)).set 5 (c 3)).set 6 (c 4)).set 7 (c 5)).set 8 (c 6)).set 9 (c 7)

theorem take_map_big_append {T : List Var} {i j : ℕ} {l1 l2 : List ℤ} (h1 : T.take i = l1.map .big)
    (h2 : (T.drop i).take j = l2.map .big) : T.take (i + j) = (l1 ++ l2).map .big := by
  rw [List.take_add, h1, h2, List.map_append]

theorem slice_toInt {T : List Var} {n i j : ℕ} (h : i + j ≤ n) :
    (((T.take n).map Var.toInt).drop i).take j = ((T.drop i).take j).map Var.toInt := by
  rw [← List.map_drop, ← List.map_take, List.drop_take, List.take_take, min_eq_left (by omega)]

theorem getChallenges_ok {X : Ext} {buf T buf' : List Var} {E : Engine} {s s' : St}
    (h : GetChallengesShPlonkCircuit X buf T E s = .ok ((none, buf'), s')) :
    s' = s ∧ 104 ≤ T.length ∧ 10 ≤ buf.length ∧ (∀ i ∈ pointPositions, PairAt T i) ∧
    ∃ (ix iy : ℤ) (t : List ℤ), buf[0]? = some (.big ix) ∧ buf[1]? = some (.big iy) ∧ t.length = 102 ∧
      T.take 102 = t.map .big ∧ ix.natAbs < 2 ^ 256 ∧ iy.natAbs < 2 ^ 256 ∧ (∀ x ∈ t, x.natAbs < 2 ^ 256) ∧
      buf' = writeChallenges buf
        (fsDigests X.sha256 fsSeed (fsBlocks ix.natAbs iy.natAbs (t.map Int.natAbs))) := by
  simp only [GetChallengesShPlonkCircuit, Circ.bind_ok, setIdx_ok, idx_ok] at h
  obtain ⟨A0, _, ⟨-, rfl, rfl⟩, b0, _, ⟨hb0, rfl⟩, A1, _, ⟨-, rfl, rfl⟩, b1, _, ⟨hb1, rfl⟩, A2, _, ⟨-, rfl, rfl⟩,
    ⟨e, A3⟩, s1, h1, h⟩ := h
  cases e with
  | some m => cases h
  | none =>
  simp only [Circ.bind_ok] at h
  obtain ⟨⟨e, bf1, A4⟩, s2, h2, h⟩ := h
  obtain ⟨rfl, rfl, k2, p2, l2, q2, r2, u2, rfl, v2, w2⟩ := squeezeTo_ok h2
  simp only [Circ.bind_ok] at h
  obtain ⟨⟨e, A5⟩, s3, h3, h⟩ := h
  cases e with
  | some m => cases h
  | none =>
  simp only [Circ.bind_ok] at h
  obtain ⟨⟨e, bf1, A6⟩, s4, h4, h⟩ := h
  obtain ⟨rfl, rfl, k4, p4, l4, q4, r4, u4, rfl, v4, w4⟩ := squeezeTo_ok h4
  simp only [Circ.bind_ok] at h
  obtain ⟨⟨e, bf1, A7⟩, s5, h5, h⟩ := h
  obtain ⟨rfl, rfl, k5, p5, l5, q5, r5, u5, rfl, v5, w5⟩ := squeezeTo_ok h5
  simp only [Circ.bind_ok] at h
  obtain ⟨⟨e, A8⟩, s6, h6, h⟩ := h
  cases e with
  | some m => cases h
  | none =>
  simp only [Circ.bind_ok] at h
  obtain ⟨⟨e, bf1, A9⟩, s7, h7, h⟩ := h
  obtain ⟨rfl, rfl, k7, p7, l7, q7, r7, u7, rfl, v7, w7⟩ := squeezeTo_ok h7
  simp only [Circ.bind_ok] at h
  obtain ⟨⟨e, A10⟩, s8, h8, h⟩ := h
  cases e with
  | some m => cases h
  | none =>
  simp only [Circ.bind_ok] at h
  obtain ⟨⟨e, bf1, A11⟩, s9, h9, h⟩ := h
  obtain ⟨rfl, rfl, k9, p9, l9, q9, r9, u9, rfl, v9, w9⟩ := squeezeTo_ok h9
  simp only [Circ.bind_ok] at h
  obtain ⟨A12, s10, h10, h⟩ := h
  obtain ⟨⟨e, bf1, A13⟩, s11, h11, h⟩ := h
  obtain ⟨rfl, rfl, k11, p11, l11, q11, r11, u11, rfl, v11, w11⟩ := squeezeTo_ok h11
  simp only [Circ.bind_ok] at h
  obtain ⟨⟨e, bf1, A14⟩, s12, h12, h⟩ := h
  obtain ⟨rfl, rfl, k12, p12, l12, q12, r12, u12, rfl, v12, w12⟩ := squeezeTo_ok h12
  simp only [Circ.bind_ok] at h
  obtain ⟨⟨e, A15⟩, s13, h13, h⟩ := h
  cases e with
  | some m => cases h
  | none =>
  simp only [Circ.bind_ok] at h
  obtain ⟨⟨e, bf1, A16⟩, s14, h14, h⟩ := h
  obtain ⟨rfl, rfl, k14, p14, l14, q14, r14, u14, rfl, v14, w14⟩ := squeezeTo_ok h14
  simp only [Circ.bind_ok, idx_ok] at h
  obtain ⟨x, _, ⟨hx, rfl⟩, y, _, ⟨hy, rfl⟩, e, s15, h15, h16⟩ := h
  rw [Circ.pure_run, Except.ok.injEq, Prod.mk.injEq, Prod.mk.injEq] at h16
  obtain ⟨⟨rfl, rfl⟩, rfl⟩ := h16
  obtain ⟨rfl, c15⟩ := checkOnCurve_ok h15
  obtain ⟨rfl, a1, -, -, d1, e1⟩ := absorbPoints_ok h1
  obtain ⟨rfl, a3, -, -, d3, e3⟩ := absorbPoints_ok h3
  obtain ⟨rfl, a6, -, -, d6, e6⟩ := absorbPoints_ok h6
  obtain ⟨rfl, a8, -, -, d8, e8⟩ := absorbPoints_ok h8
  obtain ⟨rfl, a10, -, d10⟩ := absorbScalars_ok h10
  obtain ⟨rfl, a13, -, -, d13, e13⟩ := absorbPoints_ok h13
  have hT : 104 ≤ T.length := (List.getElem?_eq_some_iff.1 hy).1
  have hB : 10 ≤ buf.length := by simp at k14; omega
  -- the blocks
  rw [show 19 = 3 + 2 * 8 from rfl, d1] at r2
  have i3 : ((((List.replicate 112 Var.nil).set 0 (.big (absorb0 : ℤ))).set 1 b0).set 2 b1).take 3
      = [.big ((absorb0 : ℕ) : ℤ), b0, b1] := by simp
  rw [i3, show [Var.big ((absorb0 : ℕ) : ℤ), b0, b1] ++ (T.drop 0).take (2 * 8) =
    [Var.big ((absorb0 : ℕ) : ℤ)] ++ (b0 :: b1 :: T.take 16) from rfl] at r2
  obtain ⟨m2, rfl, n2, o2⟩ := split_block r2
  rw [show 9 = 1 + 2 * 4 from rfl, d3, v2, wordHash_eq] at r4
  obtain ⟨m4, rfl, n4, o4⟩ := split_block r4
  rw [v4, wordHash_eq, show ([Var.big (_ : ℤ)] : List Var) = [Var.big _] ++ [] from rfl] at r5
  obtain ⟨m5, rfl, n5, o5⟩ := split_block r5
  rw [show 15 = 1 + 2 * 7 from rfl, d6, v5, wordHash_eq] at r7
  obtain ⟨m7, rfl, n7, o7⟩ := split_block r7
  rw [show 7 = 1 + 2 * 3 from rfl, d8, v7, wordHash_eq] at r9
  obtain ⟨m9, rfl, n9, o9⟩ := split_block r9
  rw [show 57 = 1 + 56 from rfl, d10, v9, wordHash_eq] at r11
  obtain ⟨m11, rfl, n11, o11⟩ := split_block r11
  rw [v11, wordHash_eq, show ([Var.big (_ : ℤ)] : List Var) = [Var.big _] ++ [] from rfl] at r12
  obtain ⟨m12, rfl, n12, o12⟩ := split_block r12
  rw [show 3 = 1 + 2 * 1 from rfl, d13, v12, wordHash_eq] at r14
  obtain ⟨m14, rfl, n14, o14⟩ := split_block r14
  cases m2 with
  | nil => simp at n2
  | cons ix m2 =>
  cases m2 with
  | nil => simp at n2
  | cons iy m2 =>
  simp only [List.map_cons, List.cons.injEq] at n2
  obtain ⟨rfl, rfl, n2⟩ := n2
  simp only [List.map_cons, List.cons.injEq, Var.toInt, true_and] at o2
  have t1 := take_map_big_append n2 n4
  have t2 := take_map_big_append t1 n7
  have t3 := take_map_big_append t2 n9
  have t4 := take_map_big_append t3 n11
  have t5 := take_map_big_append t4 n14
  change T.take 102 = _ at t5
  refine ⟨rfl, hT, hB, ?_, ix, iy, (T.take 102).map Var.toInt, hb0, hb1, ?_, ?_, ?_, ?_, ?_, ?_⟩
  · intro i hi
    have hh : (i < 16 ∧ i % 2 = 0) ∨ (16 ≤ i ∧ i < 24 ∧ i % 2 = 0) ∨ (24 ≤ i ∧ i < 38 ∧ i % 2 = 0) ∨
        (38 ≤ i ∧ i < 44 ∧ i % 2 = 0) ∨ i = 100 ∨ i = 102 := by
      revert i; decide
    rcases hh with hh | hh | hh | hh | rfl | rfl
    · obtain ⟨x, y, q⟩ := e1 (i / 2) (by omega)
      rw [show 0 + 2 * (i / 2) = i by omega] at q
      exact ⟨x, y, q⟩
    · obtain ⟨x, y, q⟩ := e3 ((i - 16) / 2) (by omega)
      rw [show 16 + 2 * ((i - 16) / 2) = i by omega] at q
      exact ⟨x, y, q⟩
    · obtain ⟨x, y, q⟩ := e6 ((i - 24) / 2) (by omega)
      rw [show 24 + 2 * ((i - 24) / 2) = i by omega] at q
      exact ⟨x, y, q⟩
    · obtain ⟨x, y, q⟩ := e8 ((i - 38) / 2) (by omega)
      rw [show 38 + 2 * ((i - 38) / 2) = i by omega] at q
      exact ⟨x, y, q⟩
    · obtain ⟨x, y, q⟩ := e13 0 (by omega)
      exact ⟨x, y, q⟩
    · exact ⟨x, y, hx, hy, c15.1 rfl⟩
  · simp; omega
  · rw [t5, map_toInt_big]
  · exact u2 ix (by simp)
  · exact u2 iy (by simp)
  · intro z hz
    rw [t5, map_toInt_big] at hz
    simp only [List.mem_append] at hz
    rcases hz with (((((hz | hz) | hz) | hz) | hz) | hz)
    · exact u2 z (by simp [hz])
    · exact u4 z (by simp [hz])
    · exact u7 z (by simp [hz])
    · exact u9 z (by simp [hz])
    · exact u11 z (by simp [hz])
    · exact u14 z (by simp [hz])
  · have z5 : m5 = [] := o5
    have z12 : m12 = [] := o12
    subst z5 z12
    have B : fsBlocks ix.natAbs iy.natAbs (((T.take 102).map Var.toInt).map Int.natAbs) =
        [(ix :: iy :: m2).map Int.natAbs, m4.map Int.natAbs, [], m7.map Int.natAbs, m9.map Int.natAbs,
          m11.map Int.natAbs, [], m14.map Int.natAbs] := by
      have sl : ∀ i j, i + j ≤ 102 → ((((T.take 102).map Var.toInt).map Int.natAbs).drop i).take j =
          (((T.drop i).take j).map Var.toInt).map Int.natAbs := by
        intro i j hij
        rw [← List.map_drop, ← List.map_take, slice_toInt hij]
      have sl0 := sl 0 16 (by norm_num)
      simp only [List.drop_zero] at sl0
      unfold fsBlocks
      rw [sl0, sl 16 8 (by norm_num), sl 24 14 (by norm_num), sl 38 6 (by norm_num), sl 44 56 (by norm_num),
        sl 100 2 (by norm_num), o2, o4, o7, o9, o11, o14]
      rfl
    rw [B]
    simp only [wordHash_eq]
    rfl

/-- Slots of a list of constants. -/
theorem slice_big {T : List Var} (hT : ∀ v ∈ T, ∃ x : ℤ, v = .big x ∧ x.natAbs < 2 ^ 256) (i j : ℕ) :
    ∃ l : List ℤ, (T.drop i).take j = l.map .big ∧ ∀ x ∈ l, x.natAbs < 2 ^ 256 := by
  refine ⟨((T.drop i).take j).map Var.toInt, ?_, ?_⟩
  · rw [List.map_map]
    symm
    calc _ = ((T.drop i).take j).map id := List.map_congr_left fun v hv => by
            obtain ⟨x, rfl, -⟩ := hT v (List.mem_of_mem_drop (List.mem_of_mem_take hv)); rfl
      _ = _ := List.map_id _
  · intro x hx
    obtain ⟨v, hv, rfl⟩ := List.mem_map.1 hx
    obtain ⟨x, rfl, h⟩ := hT v (List.mem_of_mem_drop (List.mem_of_mem_take hv))
    exact h

/-- One block: absorb after the chaining word, then squeeze. -/
theorem squeeze_block (X : Ext) {buf A : List Var} {slot pos : ℕ} {d : ℕ} {S : List Var} {l : List ℤ}
    (hs : slot < buf.length) (hn : pos < A.length) (hA : A.take pos = [.big (d : ℤ)] ++ S) (hS : S = l.map .big)
    (hd : d < 2 ^ 256) (hb : ∀ x ∈ l, x.natAbs < 2 ^ 256) (hpos : pos = l.length + 1) (E : Engine) (s : St) :
    ∃ (buf' A' : List Var) (d' : ℕ), squeezeTo X buf A slot pos E s = .ok ((none, buf', A'), s) ∧
      buf'.length = buf.length ∧ A'.length = A.length ∧ A'.take 1 = [.big (d' : ℤ)] ∧
      ((∀ m, (X.sha256 m).length = 32) → d' < 2 ^ 256) := by
  have h := squeezeTo_run X (buf := buf) (A := A) (slot := slot) (l := (d : ℤ) :: l) hs (by simp; omega) (by
    rw [List.length_cons, ← hpos, hA, hS]; rfl) (by
    intro x hx
    rcases List.mem_cons.1 hx with rfl | hx
    · rw [Int.natAbs_natCast]; exact hd
    · exact hb x hx) E s
  rw [List.length_cons, ← hpos] at h
  refine ⟨_, _, wordHash X ((d : ℤ) :: l), h, by simp, by simp, ?_, fun hl => ?_⟩
  · rw [show (1 : ℕ) = 0 + 1 from rfl, take_set_succ _ (by simp; omega)]
    rfl
  · have := beNat_lt (X.sha256 ((((d : ℤ) :: l).flatMap fun x => beBytes x.natAbs 32) ++ [0]))
    rw [hl, show (256 : ℕ) ^ 32 = 2 ^ 256 by norm_num] at this
    exact this

theorem slice_length {T : List Var} {i j : ℕ} {l : List ℤ} (h : (T.drop i).take j = l.map .big)
    (hT : i + j ≤ T.length) : l.length = j := by
  have := congrArg List.length h
  simp at this; omega

theorem getChallenges_total {X : Ext} (hsha : ∀ m, (X.sha256 m).length = 32) {buf T : List Var} {ix iy : ℤ}
    (hB : 10 ≤ buf.length) (h0 : buf[0]? = some (.big ix)) (h1 : buf[1]? = some (.big iy)) (hix : ix.natAbs < 2 ^ 256)
    (hiy : iy.natAbs < 2 ^ 256) (hT : 104 ≤ T.length) (hc : ∀ v ∈ T.take 102, ∃ x : ℤ, v = .big x ∧ x.natAbs < 2 ^ 256)
    (hc' : ∀ v ∈ T.take 104, ∃ x : ℤ, v = .big x) (E : Engine) (s : St) :
    ∃ e buf', GetChallengesShPlonkCircuit X buf T E s = .ok ((e, buf'), s) ∧
      ((∀ i ∈ pointPositions, PairAt T i) → e = none) := by
  have sl : ∀ i j, i + j ≤ 102 → ∃ l : List ℤ, (T.drop i).take j = l.map .big ∧ l.length = j ∧
      ∀ x ∈ l, x.natAbs < 2 ^ 256 := by
    intro i j hij
    obtain ⟨l, hl, hb⟩ := slice_big hc i j
    have e : ((T.take 102).drop i).take j = (T.drop i).take j := by
      rw [List.drop_take, List.take_take, min_eq_left (by omega)]
    rw [e] at hl
    exact ⟨l, hl, slice_length hl (by omega), hb⟩
  have tb : ∀ n, n ≤ 104 → ∀ v ∈ T.take n, ∃ x : ℤ, v = .big x := by
    intro n hn v hv
    obtain ⟨x, hx⟩ := hc' v (by
      rw [← Nat.min_eq_left hn, ← List.take_take] at hv
      exact List.mem_of_mem_take hv)
    exact ⟨x, hx⟩
  have fail : ∀ {buf' : List Var} {m : String} {P : Prop}, ¬ P →
      ∃ e buf'', (.ok ((some m, buf'), s) : Except Panic ((GoErr × List Var) × St)) = .ok ((e, buf''), s) ∧
        (P → e = none) := fun h => ⟨_, _, rfl, fun h' => absurd h' h⟩
  have pa : ∀ {tp n : ℕ} {A : List Var} {pos : ℕ} {m : String} {A' : List Var},
      (∀ i < n, tp + 2 * i ∈ pointPositions) →
      absorbPoints T n A pos tp E s = .ok ((some m, A'), s) →
      ((∀ i < n, ∃ x y, T[tp + 2 * i]? = some x ∧ T[tp + 2 * i + 1]? = some y ∧ PairOk x y) → some m = (none : GoErr)) →
      ¬ ∀ i ∈ pointPositions, PairAt T i := by
    intro tp n A pos m A' hm _ h hall
    exact absurd (h fun i hi => hall _ (hm i hi)) (by simp)
  unfold GetChallengesShPlonkCircuit
  simp only [Circ.bind_run]
  rw [setIdx_run (by simp)]
  simp only [idx_run h0]
  rw [setIdx_run (by simp)]
  simp only [idx_run h1]
  rw [setIdx_run (by simp)]
  simp only []
  -- theta
  obtain ⟨e, A3, g, ge⟩ := absorbPoints_total (T := T) (n := 8)
    (A := (((List.replicate 112 Var.nil).set 0 (.big (absorb0 : ℤ))).set 1 (.big ix)).set 2 (.big iy)) (pos := 3) (tp := 0)
    (by simp) (by omega) (tb _ (by norm_num)) E s
  simp only [g]
  cases e with
  | some m => exact fail (pa (by decide) g ge)
  | none =>
  obtain ⟨-, a1, -, -, d1, -⟩ := absorbPoints_ok g
  obtain ⟨l, l1, l2, l3⟩ := sl 0 16 (by norm_num)
  have hA3 : A3.length = 112 := by rw [a1]; simp
  obtain ⟨bf, A4, d, g, b1, b2, b3, b4⟩ := squeeze_block X (buf := buf) (A := A3) (slot := 2) (pos := 19)
    (d := absorb0) (S := .big ix :: .big iy :: (T.drop 0).take 16) (l := ix :: iy :: l) (by omega) (by omega)
    (by rw [d1]; simp) (by rw [l1]; rfl) (by decide +kernel)
    (by
      intro x hx
      simp only [List.mem_cons] at hx
      rcases hx with rfl | rfl | hx
      · exact hix
      · exact hiy
      · exact l3 x hx) (by simp [l2]) E s
  simp only [Circ.bind_run, g]
  have b4 := b4 hsha
  -- beta
  obtain ⟨e, A5, g, ge⟩ := absorbPoints_total (T := T) (n := 4) (A := A4) (pos := 1) (tp := 16)
    (by omega) (by omega) (tb _ (by norm_num)) E s
  simp only [g]
  cases e with
  | some m => exact fail (pa (by decide) g ge)
  | none =>
  obtain ⟨-, a1, -, -, d1, -⟩ := absorbPoints_ok g
  obtain ⟨l, l1, l2, l3⟩ := sl 16 8 (by norm_num)
  have hA5 : A5.length = 112 := by omega
  obtain ⟨bf2, A6, d2, g, c1, c2, c3, c4⟩ := squeeze_block X (buf := bf) (A := A5) (slot := 3) (pos := 9)
    (d := d) (S := (T.drop 16).take 8) (l := l) (by omega) (by omega)
    (by rw [show 9 = 1 + 2 * 4 from rfl, d1, b3]) l1 b4 l3 (by omega) E s
  simp only [Circ.bind_run, g]
  have c4 := c4 hsha
  -- gamma
  obtain ⟨bf3, A7, d3, g, i1, i2, i3, i4⟩ := squeeze_block X (buf := bf2) (A := A6) (slot := 4) (pos := 1)
    (d := d2) (S := []) (l := []) (by omega) (by omega) (by rw [c3]; rfl) rfl c4 (by simp) (by simp) E s
  simp only [Circ.bind_run, g]
  have i4 := i4 hsha
  -- y
  obtain ⟨e, A8, g, ge⟩ := absorbPoints_total (T := T) (n := 7) (A := A7) (pos := 1) (tp := 24)
    (by omega) (by omega) (tb _ (by norm_num)) E s
  simp only [g]
  cases e with
  | some m => exact fail (pa (by decide) g ge)
  | none =>
  obtain ⟨-, a1, -, -, d1, -⟩ := absorbPoints_ok g
  obtain ⟨l, l1, l2, l3⟩ := sl 24 14 (by norm_num)
  have hA8 : A8.length = 112 := by omega
  obtain ⟨bf4, A9, d4, g, j1, j2, j3, j4⟩ := squeeze_block X (buf := bf3) (A := A8) (slot := 5) (pos := 15)
    (d := d3) (S := (T.drop 24).take 14) (l := l) (by omega) (by omega)
    (by rw [show 15 = 1 + 2 * 7 from rfl, d1, i3]) l1 i4 l3 (by omega) E s
  simp only [Circ.bind_run, g]
  have j4 := j4 hsha
  -- x
  obtain ⟨e, A10, g, ge⟩ := absorbPoints_total (T := T) (n := 3) (A := A9) (pos := 1) (tp := 38)
    (by omega) (by omega) (tb _ (by norm_num)) E s
  simp only [g]
  cases e with
  | some m => exact fail (pa (by decide) g ge)
  | none =>
  obtain ⟨-, a1, -, -, d1, -⟩ := absorbPoints_ok g
  obtain ⟨l, l1, l2, l3⟩ := sl 38 6 (by norm_num)
  have hA10 : A10.length = 112 := by omega
  obtain ⟨bf5, A11, d5, g, k1, k2, k3, k4⟩ := squeeze_block X (buf := bf4) (A := A10) (slot := 6) (pos := 7)
    (d := d4) (S := (T.drop 38).take 6) (l := l) (by omega) (by omega)
    (by rw [show 7 = 1 + 2 * 3 from rfl, d1, j3]) l1 j4 l3 (by omega) E s
  simp only [Circ.bind_run, g]
  have k4 := k4 hsha
  -- evaluations
  obtain ⟨A12, g⟩ := absorbScalars_total (T := T) (n := 56) (A := A11) (pos := 1) (tp := 44) (by omega) (by omega) E s
  obtain ⟨-, a1, -, d1⟩ := absorbScalars_ok g
  simp only [g]
  obtain ⟨l, l1, l2, l3⟩ := sl 44 56 (by norm_num)
  obtain ⟨bf6, A13, d6, g, m1, m2, m3, m4⟩ := squeeze_block X (buf := bf5) (A := A12) (slot := 7) (pos := 57)
    (d := d5) (S := (T.drop 44).take 56) (l := l) (by omega) (by omega)
    (by rw [show 57 = 1 + 56 from rfl, d1, k3]) l1 k4 l3 (by omega) E s
  simp only [Circ.bind_run, g]
  have m4 := m4 hsha
  -- v
  obtain ⟨bf7, A14, d7, g, n1, n2, n3, n4⟩ := squeeze_block X (buf := bf6) (A := A13) (slot := 8) (pos := 1)
    (d := d6) (S := []) (l := []) (by omega) (by omega) (by rw [m3]; rfl) rfl m4 (by simp) (by simp) E s
  simp only [Circ.bind_run, g]
  have n4 := n4 hsha
  -- u
  obtain ⟨e, A15, g, ge⟩ := absorbPoints_total (T := T) (n := 1) (A := A14) (pos := 1) (tp := 100)
    (by omega) (by omega) (tb _ (by norm_num)) E s
  simp only [g]
  cases e with
  | some m => exact fail (pa (by decide) g ge)
  | none =>
  obtain ⟨-, a1, -, -, d1, -⟩ := absorbPoints_ok g
  obtain ⟨l, l1, l2, l3⟩ := sl 100 2 (by norm_num)
  have hA15 : A15.length = 112 := by omega
  obtain ⟨bf8, A16, d8, g, o1, o2, o3, o4⟩ := squeeze_block X (buf := bf7) (A := A15) (slot := 9) (pos := 3)
    (d := d7) (S := (T.drop 100).take 2) (l := l) (by omega) (by omega)
    (by rw [show 3 = 1 + 2 * 1 from rfl, d1, n3]) l1 n4 l3 (by omega) E s
  simp only [Circ.bind_run, g]
  have gt : ∀ i < 104, ∃ x, T[i]? = some (.big x) := by
    intro i hi
    have hlt : i < T.length := by omega
    obtain ⟨x, hx⟩ := tb 104 (le_refl _) T[i] (by
      rw [List.mem_take_iff_getElem]; exact ⟨i, by omega, rfl⟩)
    exact ⟨x, by rw [List.getElem?_eq_getElem hlt, hx]⟩
  obtain ⟨x, hx⟩ := gt 102 (by norm_num)
  obtain ⟨y, hy⟩ := gt 103 (by norm_num)
  obtain ⟨e, he⟩ := checkOnCurve_big x y E s
  simp only [idx_run hx, idx_run hy, he, Circ.pure_run]
  refine ⟨e, bf8, rfl, fun hall => ?_⟩
  obtain ⟨x', y', q1, q2, q3⟩ := hall 102 (by decide)
  rw [hx] at q1; rw [hy] at q2; cases q1; cases q2
  exact (checkOnCurve_ok he).2.2 q3

end Verif
