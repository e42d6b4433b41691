/- Lemmas about the hash gadgets and the transcript (no property theorems here). -/
import Verif.Model.Transcript
import Verif.Lemmas.Curve
import Verif.Lemmas.Hints

namespace Verif

/-- A variable holding a byte. -/
def IsByte (v : Var) (b : UInt8) : Prop := v.Good ∧ v.fr = (b.toNat : Fr)

theorem byte_lt_r (b : UInt8) : b.toNat < rMod := b.toNat_lt.trans (by decide +kernel)

theorem IsByte.toBig {v : Var} {b : UInt8} (h : IsByte v b) (E : Engine) : toBig E v = some (b.toNat : ℤ) := by
  rw [toBig_good' h.1, h.2, ZMod.val_natCast_of_lt (byte_lt_r b)]

theorem isByte_big (b : UInt8) : IsByte (.big b.toNat) b :=
  ⟨⟨by positivity, by exact_mod_cast byte_lt_r b⟩, by simp [Var.fr]⟩

theorem isByte_res (E : Engine) (w : Bool) (b : UInt8) : IsByte (resVar E w b.toNat) b :=
  ⟨resVar_good _ _ _, by rw [resVar_fr]; simp⟩

theorem isByte_hint (E : Engine) (b : UInt8) : IsByte (hintVar E b.toNat) b :=
  ⟨hintVar_good _ _, by rw [hintVar_fr]; simp⟩

theorem mapM_mkRes (E : Engine) (w : Bool) (d : List UInt8) (s : St) :
    (d.mapM fun b => mkRes w b.toNat) E s = .ok (d.map fun b => resVar E w b.toNat, s) := by
  induction d with
  | nil => rfl
  | cons b d ih => simp only [List.mapM_cons, Circ.bind_run, mkRes_run, ih, Circ.pure_run, List.map_cons]

theorem isByte_forall₂_toBig {vs : List Var} {bs : List UInt8} (h : List.Forall₂ IsByte vs bs) (E : Engine) :
    List.Forall₂ (fun v x => toBig E v = some x) vs (bs.map fun b => (b.toNat : ℤ)) := by
  induction h with
  | nil => exact .nil
  | cons h _ ih => exact .cons (h.toBig E) ih

theorem hashGadget_bytes (h : List UInt8 → List UInt8) {ins : List Var} {bs : List UInt8}
    (hb : List.Forall₂ IsByte ins bs) (E : Engine) (s : St) :
    hashGadget h ins E s = .ok ((h bs).map (fun b => resVar E true b.toNat), s) := by
  have h1 : ((bs.map fun b => (b.toNat : ℤ)).all fun x => decide (0 ≤ x ∧ x < 256)) = true := by
    rw [List.all_eq_true]
    intro x hx
    obtain ⟨b, -, rfl⟩ := List.mem_map.1 hx
    have := b.toNat_lt
    simp only [decide_eq_true_eq]; omega
  have h2 : ((bs.map fun b => (b.toNat : ℤ)).map fun x => UInt8.ofNat x.toNat) = bs := by
    rw [List.map_map]; simp [Function.comp_def]
  simp only [hashGadget, Circ.bind_run, readBigs_run (isByte_forall₂_toBig hb E), h1, gadget_true, h2, mapM_mkRes]

theorem hashGadget_ok {h : List UInt8 → List UInt8} {ins outs : List Var} {E : Engine} {s s' : St}
    (hg : hashGadget h ins E s = .ok (outs, s')) : s'.hints = s.hints ∧ ∃ xs, List.Forall₂ (fun v x => toBig E v = some x) ins xs ∧
      outs = (h (xs.map fun x => UInt8.ofNat x.toNat)).map (fun b => resVar E true b.toNat) ∧
      (s'.sat = true → s.sat = true ∧ ∀ x ∈ xs, 0 ≤ x ∧ x < 256) := by
  simp only [hashGadget, Circ.bind_ok, mapM_mkRes] at hg
  obtain ⟨xs, _, h1, u, s1, h2, h3⟩ := hg
  obtain ⟨rfl, hf⟩ := readBigs_ok h1
  cases h3
  obtain ⟨g1, g2⟩ := gadget_ok h2
  refine ⟨g1, xs, hf, rfl, fun h => ?_⟩
  obtain ⟨a, b⟩ := g2.1 h
  refine ⟨a, fun x hx => ?_⟩
  have := List.all_eq_true.1 b x hx
  simpa using this

theorem byteAssertLoop_ok {hv : List Var} : ∀ {rs : List Var} {i : ℕ} {E : Engine} {s s' : St} {u : Unit},
    byteAssertLoop hv rs i E s = .ok (u, s') →
    s'.hints = s.hints ∧ (rs ≠ [] → i + rs.length ≤ hv.length) ∧
    (s'.sat = true → s.sat = true ∧ ∀ j, (hj : j < rs.length) → ∀ v, hv[i + j]? = some v → v.fr = rs[j].fr)
  | [], i, E, s, s', u, h => by cases h; simp
  | r :: rs, i, E, s, s', u, h => by
    simp only [byteAssertLoop, Circ.bind_ok, idx_ok] at h
    obtain ⟨v, _, ⟨hv1, rfl⟩, u1, s1, h1, h2⟩ := h
    obtain ⟨a1, -, -, a2⟩ := assertEq_ok h1
    obtain ⟨b1, b2, b3⟩ := byteAssertLoop_ok h2
    have hi : i < hv.length := (List.getElem?_eq_some_iff.1 hv1).1
    refine ⟨b1.trans a1, fun _ => ?_, fun hs => ?_⟩
    · rcases rs with _ | ⟨r', rs⟩
      · simpa using hi
      · have := b2 (by simp)
        simp only [List.length_cons] at this ⊢; omega
    · obtain ⟨c1, c2⟩ := b3 hs
      obtain ⟨d1, d2⟩ := a2 c1
      refine ⟨d1, fun j hj w hw => ?_⟩
      cases j with
      | zero => rw [Nat.add_zero, hv1] at hw; cases hw; exact d2
      | succ j =>
        have := c2 j (by simpa using hj) w (by rw [← hw]; congr 1; omega)
        simpa using this

theorem byteAssertLoop_run {hv : List Var} : ∀ {rs : List Var} {i : ℕ}, i + rs.length ≤ hv.length →
    (∀ v ∈ hv, v.Good) → (∀ v ∈ rs, v.Good) → (∀ j, (hj : j < rs.length) → ∀ v, hv[i + j]? = some v → v.fr = rs[j].fr) →
    ∀ (E : Engine) (s : St), byteAssertLoop hv rs i E s = .ok ((), s)
  | [], i, _, _, _, _, E, s => rfl
  | r :: rs, i, hl, hg, hr, he, E, s => by
    simp only [List.length_cons] at hl
    have hi : i < hv.length := by omega
    have e : hv[i]? = some hv[i] := List.getElem?_eq_getElem hi
    simp only [byteAssertLoop, Circ.bind_run, idx_run e]
    rw [assertEq_pass (hg _ (List.getElem_mem hi)) (hr r (by simp)) (he 0 (by simp) _ (by simp))]
    refine byteAssertLoop_run (by omega) hg (fun v hv => hr v (List.mem_cons_of_mem _ hv)) (fun j hj v hv => ?_) E s
    have := he (j + 1) (by simpa using hj) v (by rw [← hv]; congr 1; omega)
    simpa using this

/-- A byte list as claimed digest of itself passes. -/
theorem verifySha_self (X : Ext) (bs : List UInt8) (E : Engine) (s : St) :
    VerifySha256 X (u8Array bs) (u8Array (X.sha256 bs)) E s = .ok (none, s) := by
  have h1 : List.Forall₂ IsByte (u8Array bs) bs := by
    unfold u8Array
    induction bs with
    | nil => exact .nil
    | cons b bs ih => exact .cons (isByte_big b) ih
  simp only [VerifySha256, Circ.bind_run, hashGadget_bytes _ h1]
  rw [byteAssertLoop_run]
  · rfl
  · simp [u8Array]
  · intro v hv; obtain ⟨b, -, rfl⟩ := List.mem_map.1 hv; exact (isByte_big b).1
  · intro v hv; obtain ⟨b, -, rfl⟩ := List.mem_map.1 hv; exact (isByte_res E true b).1
  · intro j hj v hv
    simp only [List.length_map] at hj
    simp only [u8Array, zero_add, List.getElem?_map, List.getElem?_eq_getElem hj, Option.map_some,
      Option.some.injEq] at hv
    subst hv
    rw [List.getElem_map, (isByte_res E true _).2, (isByte_big _).2]

/-! ### byteValueOf -/

theorem mapM_byteValueOf_ok : ∀ {l l' : List Var} {E : Engine} {s s' : St},
    l.mapM byteValueOf E s = .ok (l', s') → l' = l ∧ s'.hints = s.hints ∧ (s'.sat = true → s.sat = true) ∧
      (s'.sat = true → (∀ v ∈ l, v.Good) → ∃ bs, List.Forall₂ IsByte l bs)
  | [], l', E, s, s', h => by cases h; exact ⟨rfl, rfl, id, fun _ _ => ⟨[], .nil⟩⟩
  | v :: l, l', E, s, s', h => by
    simp only [List.mapM_cons, Circ.bind_ok, byteValueOf, readBig_ok] at h
    obtain ⟨a, s1, ⟨x, _, ⟨hx, rfl⟩, u, s2, he, hp⟩, l1, s3, h1, h2⟩ := h
    cases hp; cases h2
    obtain ⟨rfl, b1, b2, b3⟩ := mapM_byteValueOf_ok h1
    obtain ⟨e1, e2⟩ := emit_ok he
    refine ⟨rfl, b1.trans e1, fun h => (e2.1 (b2 h)).1, fun h hg => ?_⟩
    obtain ⟨bs, hbs⟩ := b3 h (fun w hw => hg w (List.mem_cons_of_mem _ hw))
    have hv := hg v (by simp)
    obtain ⟨-, hc⟩ := e2.1 (b2 h)
    simp only [decide_eq_true_eq] at hc
    rw [toBig_good' hv] at hx
    simp only [Option.some.injEq] at hx
    have hb : v.fr.val < 256 := by omega
    refine ⟨UInt8.ofNat v.fr.val :: bs, .cons ⟨hv, ?_⟩ hbs⟩
    rw [UInt8.toNat_ofNat', Nat.mod_eq_of_lt (by simpa using hb), ZMod.natCast_zmod_val]

theorem mapM_byteValueOf_run {l : List Var} {bs : List UInt8} (h : List.Forall₂ IsByte l bs) (E : Engine) (s : St) :
    l.mapM byteValueOf E s = .ok (l, s) := by
  induction h with
  | nil => rfl
  | @cons v b l bs hb _ ih =>
    have hlt := b.toNat_lt
    have : decide (0 ≤ (b.toNat : ℤ) ∧ (b.toNat : ℤ) < 256) = true := by
      rw [decide_eq_true_eq]; omega
    simp only [List.mapM_cons, Circ.bind_run, byteValueOf, readBig_run (hb.toBig E), this, emit_true, Circ.pure_run, ih]

/-! ### SqueezeChallenge -/

theorem absorbBytes_ok {A : List Var} : ∀ {n i : ℕ} {E : Engine} {s s' : St} {bs : List UInt8},
    absorbBytes A n i E s = .ok (bs, s') → s' = s ∧ ∃ l : List ℤ, l.length = n ∧ (A.drop i).take n = l.map .big ∧
      (∀ x ∈ l, x.natAbs < 2 ^ 256) ∧ bs = l.flatMap fun x => beBytes x.natAbs 32
  | 0, i, E, s, s', bs, h => by cases h; exact ⟨rfl, [], rfl, by simp, by simp, rfl⟩
  | n + 1, i, E, s, s', bs, h => by
    simp only [absorbBytes, Circ.bind_ok, idx_ok, asBigInt_ok] at h
    obtain ⟨v, _, ⟨hv, rfl⟩, x, _, ⟨rfl, rfl⟩, h⟩ := h
    by_cases hx : x.natAbs < 2 ^ 256
    · rw [fillBytes32_of_lt hx] at h
      simp only [Circ.bind_ok] at h
      obtain ⟨rest, s1, h1, h2⟩ := h
      rw [Circ.pure_run, Except.ok.injEq, Prod.mk.injEq] at h2
      obtain ⟨rfl, rfl⟩ := h2
      obtain ⟨rfl, l, l1, l2, l3, rfl⟩ := absorbBytes_ok h1
      refine ⟨rfl, x :: l, by simp [l1], ?_, ?_, by simp⟩
      · obtain ⟨hi, he⟩ := List.getElem?_eq_some_iff.1 hv
        rw [List.drop_eq_getElem_cons hi, he, List.take_succ_cons, l2, List.map_cons]
      · intro y hy
        rcases List.mem_cons.1 hy with rfl | hy
        · exact hx
        · exact l3 y hy
    · rw [fillBytes32_none (Nat.not_lt.1 hx)] at h
      cases h

theorem absorbBytes_run {A : List Var} : ∀ {l : List ℤ} {i : ℕ}, (A.drop i).take l.length = l.map .big →
    (∀ x ∈ l, x.natAbs < 2 ^ 256) → ∀ (E : Engine) (s : St),
    absorbBytes A l.length i E s = .ok (l.flatMap fun x => beBytes x.natAbs 32, s)
  | [], i, _, _, E, s => rfl
  | x :: l, i, h, hb, E, s => by
    have hi : i < A.length := by
      by_contra hc
      rw [List.drop_eq_nil_of_le (by omega)] at h
      simp at h
    rw [List.drop_eq_getElem_cons hi, List.length_cons, List.take_succ_cons, List.map_cons, List.cons.injEq] at h
    have e : A[i]? = some (.big x) := by rw [List.getElem?_eq_getElem hi, h.1]
    simp only [List.length_cons, absorbBytes, Circ.bind_run, idx_run e, asBigInt, Circ.pure_run,
      fillBytes32_of_lt (hb x (by simp)), absorbBytes_run h.2 (fun y hy => hb y (List.mem_cons_of_mem _ hy)) E s,
      List.flatMap_cons]

/-- The integer value of the hash of a message of 32-byte words followed by a zero byte. -/
def wordHash (X : Ext) (l : List ℤ) : ℕ := beNat (X.sha256 ((l.flatMap fun x => beBytes x.natAbs 32) ++ [0]))

theorem take_set_self {α} (A : List α) (n : ℕ) (v : α) : (A.set n v).take n = A.take n := by
  rw [List.take_set_of_le (le_refl n)]

theorem squeeze_run (X : Ext) {A : List Var} {l : List ℤ} (hn : l.length < A.length) (hA : A.take l.length = l.map .big)
    (hb : ∀ x ∈ l, x.natAbs < 2 ^ 256) (E : Engine) (s : St) :
    SqueezeChallenge X A l.length E s =
      .ok (((.big ((wordHash X l : ℤ) % rMod), none), (A.set l.length (.big 0)).set 0 (.big (wordHash X l))), s) := by
  have h1 : ((A.set l.length (Var.big 0)).drop 0).take l.length = l.map .big := by
    rw [List.drop_zero, take_set_self, hA]
  simp only [SqueezeChallenge, Circ.bind_run, setIdx_run hn, absorbBytes_run h1 hb, verifySha_self]
  rw [setIdx_run (by simp; omega)]
  rfl

theorem squeeze_ok {X : Ext} {A A' : List Var} {n : ℕ} {c : Var} {e : GoErr} {E : Engine} {s s' : St}
    (h : SqueezeChallenge X A n E s = .ok (((c, e), A'), s')) :
    s' = s ∧ e = none ∧ n < A.length ∧ ∃ l : List ℤ, l.length = n ∧ A.take n = l.map .big ∧
      (∀ x ∈ l, x.natAbs < 2 ^ 256) ∧ c = .big ((wordHash X l : ℤ) % rMod) ∧
      A' = (A.set n (.big 0)).set 0 (.big (wordHash X l)) := by
  have h0 := h
  simp only [SqueezeChallenge, Circ.bind_ok, setIdx_ok] at h
  obtain ⟨A1, _, ⟨hn, rfl, rfl⟩, bs, s1, h1, -⟩ := h
  obtain ⟨rfl, l, rfl, l2, l3, -⟩ := absorbBytes_ok h1
  rw [List.drop_zero, take_set_self] at l2
  rw [squeeze_run X hn l2 l3] at h0
  cases h0
  exact ⟨rfl, rfl, hn, l, rfl, l2, l3, rfl, rfl⟩

/-! ### absorbing loops -/

/-- The pair (x, y) of variables is a pair of constants whose residues mod p are on the curve or both zero. -/
def PairOk (x y : Var) : Prop := ∃ a b : Fp, setInterface x = some a ∧ setInterface y = some b ∧ ValidEnc (a, b)

theorem checkOnCurve_ok {x y : Var} {e : GoErr} {E : Engine} {s s' : St}
    (h : VerifyCheckOnCurve x y E s = .ok (e, s')) : s' = s ∧ (e = none ↔ PairOk x y) := by
  unfold VerifyCheckOnCurve at h
  cases hx : setInterface x with
  | none => rw [hx] at h; cases h
  | some a =>
    cases hy : setInterface y with
    | none => rw [hx, hy] at h; cases h
    | some b =>
      rw [hx, hy] at h
      cases h
      refine ⟨rfl, ?_⟩
      have := isOnCurve_iff a b
      cases hc : isOnCurve a b
      · rw [hc] at this
        simp only [Bool.false_eq_true, if_false, errNotOnCurve, reduceCtorEq, false_iff]
        rintro ⟨a', b', h1, h2, h3⟩
        rw [hx] at h1; rw [hy] at h2; cases h1; cases h2
        simp at this
        exact this h3
      · simp only [if_true, true_iff]
        exact ⟨a, b, hx, hy, this.1 hc⟩

theorem checkOnCurve_big (x y : ℤ) (E : Engine) (s : St) :
    ∃ e, VerifyCheckOnCurve (.big x) (.big y) E s = .ok (e, s) := ⟨_, rfl⟩

theorem take_set_succ {α} {A : List α} {n : ℕ} (v : α) (h : n < A.length) :
    (A.set n v).take (n + 1) = A.take n ++ [v] := by
  rw [List.take_add_one, take_set_self]
  simp [h]

theorem absorbPoints_ok {T : List Var} : ∀ {n : ℕ} {A A' : List Var} {pos tp : ℕ} {E : Engine} {s s' : St},
    absorbPoints T n A pos tp E s = .ok ((none, A'), s') → s' = s ∧ A'.length = A.length ∧
      (pos ≤ A.length → pos + 2 * n ≤ A.length) ∧
      (n ≠ 0 → tp + 2 * n ≤ T.length) ∧ A'.take (pos + 2 * n) = A.take pos ++ (T.drop tp).take (2 * n) ∧
      ∀ i < n, ∃ x y, T[tp + 2 * i]? = some x ∧ T[tp + 2 * i + 1]? = some y ∧ PairOk x y
  | 0, A, A', pos, tp, E, s, s', h => by cases h; simp
  | n + 1, A, A', pos, tp, E, s, s', h => by
    simp only [absorbPoints, Circ.bind_ok, idx_ok] at h
    obtain ⟨x, _, ⟨hx, rfl⟩, y, _, ⟨hy, rfl⟩, e, s1, h1, h2⟩ := h
    obtain ⟨rfl, he⟩ := checkOnCurve_ok h1
    cases e with
    | some m => cases h2
    | none =>
      simp only [Circ.bind_ok, idx_ok, setIdx_ok] at h2
      obtain ⟨x', _, ⟨hx', rfl⟩, A1, _, ⟨l1, rfl, rfl⟩, y', _, ⟨hy', rfl⟩, A2, s2, ⟨l2, rfl, rfl⟩, h3⟩ := h2
      rw [hx] at hx'; cases hx'
      rw [hy] at hy'; cases hy'
      rw [List.length_set] at l2
      obtain ⟨rfl, b1, b2, b2', b3, b4⟩ := absorbPoints_ok h3
      simp only [List.length_set] at b1 b2
      obtain ⟨ly, hy2⟩ := List.getElem?_eq_some_iff.1 hy
      obtain ⟨lx, hx2⟩ := List.getElem?_eq_some_iff.1 hx
      refine ⟨rfl, b1, fun _ => by have := b2 (by omega); omega, fun _ => ?_, ?_, ?_⟩
      · rcases Nat.eq_zero_or_pos n with rfl | hn
        · omega
        · have := b2' (by omega); omega
      · rw [show pos + 2 * (n + 1) = pos + 2 + 2 * n by ring, b3, List.drop_eq_getElem_cons lx,
          List.drop_eq_getElem_cons ly, hx2, hy2, show 2 * (n + 1) = 2 * n + 1 + 1 by ring, List.take_succ_cons,
          List.take_succ_cons, show pos + 2 = (pos + 1) + 1 by ring, take_set_succ _ (by simpa using l2),
          take_set_succ _ l1]
        simp
      · intro i hi
        cases i with
        | zero => exact ⟨x, y, hx, hy, he.1 rfl⟩
        | succ i =>
          obtain ⟨x', y', q1, q2, q3⟩ := b4 i (by omega)
          refine ⟨x', y', ?_, ?_, q3⟩
          · rw [← q1]; congr 1; ring
          · rw [← q2]; congr 1; ring

theorem absorbPoints_total {T : List Var} : ∀ {n : ℕ} {A : List Var} {pos tp : ℕ}, pos + 2 * n ≤ A.length →
    tp + 2 * n ≤ T.length → (∀ v ∈ T.take (tp + 2 * n), ∃ x, v = .big x) → ∀ (E : Engine) (s : St),
    ∃ e A', absorbPoints T n A pos tp E s = .ok ((e, A'), s) ∧
      ((∀ i < n, ∃ x y, T[tp + 2 * i]? = some x ∧ T[tp + 2 * i + 1]? = some y ∧ PairOk x y) → e = none)
  | 0, A, pos, tp, _, _, _, E, s => ⟨none, A, rfl, fun _ => rfl⟩
  | n + 1, A, pos, tp, hA, hT, hb, E, s => by
    have gx : ∃ x, T[tp]? = some (.big x) := by
      have hlt : tp < T.length := by omega
      obtain ⟨x, hx⟩ := hb T[tp] (by
        rw [List.mem_take_iff_getElem]; exact ⟨tp, by omega, rfl⟩)
      exact ⟨x, by rw [List.getElem?_eq_getElem hlt, hx]⟩
    have gy : ∃ y, T[tp + 1]? = some (.big y) := by
      have hlt : tp + 1 < T.length := by omega
      obtain ⟨x, hx⟩ := hb T[tp + 1] (by
        rw [List.mem_take_iff_getElem]; exact ⟨tp + 1, by omega, rfl⟩)
      exact ⟨x, by rw [List.getElem?_eq_getElem hlt, hx]⟩
    obtain ⟨x, hx⟩ := gx
    obtain ⟨y, hy⟩ := gy
    obtain ⟨e, he⟩ := checkOnCurve_big x y E s
    simp only [absorbPoints, Circ.bind_run, idx_run hx, idx_run hy, he]
    cases e with
    | some m =>
      refine ⟨some m, A, rfl, fun hall => ?_⟩
      obtain ⟨x', y', q1, q2, q3⟩ := hall 0 (by omega)
      simp only [Nat.mul_zero, Nat.add_zero] at q1 q2
      rw [hx] at q1; rw [hy] at q2; cases q1; cases q2
      exact ((checkOnCurve_ok he).2.2 q3)
    | none =>
      simp only [Circ.bind_run, idx_run hx, idx_run hy]
      rw [setIdx_run (by omega)]
      simp only [setIdx_run (a := A.set pos (.big x)) (i := pos + 1) (by simp; omega)]
      obtain ⟨e, A', h1, h2⟩ := absorbPoints_total (T := T) (n := n) (A := (A.set pos (.big x)).set (pos + 1) (.big y))
        (pos := pos + 2) (tp := tp + 2) (by simp; omega) (by omega) (by
          intro v hv
          refine hb v ?_
          rwa [show tp + 2 * (n + 1) = tp + 2 + 2 * n by ring]) E s
      refine ⟨e, A', h1, fun hall => h2 fun i hi => ?_⟩
      obtain ⟨x', y', q1, q2, q3⟩ := hall (i + 1) (by omega)
      refine ⟨x', y', ?_, ?_, q3⟩
      · rw [← q1]; congr 1; ring
      · rw [← q2]; congr 1; ring

theorem absorbScalars_ok {T : List Var} : ∀ {n : ℕ} {A A' : List Var} {pos tp : ℕ} {E : Engine} {s s' : St},
    absorbScalars T n A pos tp E s = .ok (A', s') → s' = s ∧ A'.length = A.length ∧
      (n ≠ 0 → tp + n ≤ T.length) ∧ A'.take (pos + n) = A.take pos ++ (T.drop tp).take n
  | 0, A, A', pos, tp, E, s, s', h => by cases h; simp
  | n + 1, A, A', pos, tp, E, s, s', h => by
    simp only [absorbScalars, Circ.bind_ok, idx_ok, setIdx_ok] at h
    obtain ⟨x, _, ⟨hx, rfl⟩, A1, s1, ⟨l1, rfl, rfl⟩, h3⟩ := h
    obtain ⟨rfl, b1, b2, b3⟩ := absorbScalars_ok h3
    simp only [List.length_set] at b1
    obtain ⟨lx, hx2⟩ := List.getElem?_eq_some_iff.1 hx
    refine ⟨rfl, b1, fun _ => ?_, ?_⟩
    · rcases Nat.eq_zero_or_pos n with rfl | hn
      · omega
      · have := b2 (by omega); omega
    · rw [show pos + (n + 1) = pos + 1 + n by ring, b3, List.drop_eq_getElem_cons lx, hx2, List.take_succ_cons,
        take_set_succ _ l1]
      simp

theorem absorbScalars_total {T : List Var} : ∀ {n : ℕ} {A : List Var} {pos tp : ℕ}, pos + n ≤ A.length →
    tp + n ≤ T.length → ∀ (E : Engine) (s : St), ∃ A', absorbScalars T n A pos tp E s = .ok (A', s)
  | 0, A, pos, tp, _, _, E, s => ⟨A, rfl⟩
  | n + 1, A, pos, tp, hA, hT, E, s => by
    have hx : T[tp]? = some T[tp] := List.getElem?_eq_getElem (by omega)
    simp only [absorbScalars, Circ.bind_run, idx_run hx]
    rw [setIdx_run (by omega)]
    exact absorbScalars_total (by simp; omega) (by omega) E s

end Verif
