/- The string parsing of the model and the specification of Spec/Regex.lean. -/
import Verif.Lemmas.Strings
import Verif.Spec.Regex
import Mathlib.Tactic.Ring
import Mathlib.Tactic.IntervalCases
import Mathlib.Data.List.TakeWhile
import Mathlib.Data.List.Forall2

namespace Verif

theorem isWord_iff (c : Char) : isWord c = true ↔ Regex.Word c := by
  unfold isWord Regex.Word Char.isAlphanum Char.isAlpha Char.isUpper Char.isLower Char.isDigit
  simp only [Char.le_def, decide_eq_true_eq, Bool.or_eq_true, Bool.and_eq_true]
  first
    | done
    | (simp only [ge_iff_le]; tauto)

theorem isSpace_iff (c : Char) : isSpace c = true ↔ Regex.Space c := by
  unfold isSpace Regex.Space
  simp only [decide_eq_true_eq, List.mem_cons, List.not_mem_nil, or_false]

theorem matchHere_iff (t x y : List Char) : matchHere t = some (x, y) ↔ Regex.MatchesAt t x y := by
  constructor
  · intro h
    unfold matchHere at h
    simp only [Option.bind_eq_bind, Option.bind_eq_some_iff] at h
    obtain ⟨s1, h1, h⟩ := h
    have e1 := stripPrefix_some h1
    split at h
    · simp at h
    rename_i hx
    simp only [Option.bind_eq_some_iff] at h
    obtain ⟨s2, h2, h⟩ := h
    have e2 := stripPrefix_some h2
    cases s2 with
    | nil => simp at h
    | cons c s3 =>
      simp only at h
      split at h
      · simp at h
      rename_i hc
      split at h
      · simp at h
      rename_i hy
      simp only [Option.bind_eq_some_iff, Option.some.injEq, Prod.mk.injEq] at h
      obtain ⟨s4, h4, rfl, rfl⟩ := h
      have e4 := stripPrefix_some h4
      refine ⟨hx, hy, fun c hc => (isWord_iff c).1 (List.mem_takeWhile_imp hc), fun c hc => (isWord_iff c).1 (List.mem_takeWhile_imp hc),
        c, s4, (isSpace_iff c).1 (by simpa using hc), ?_⟩
      have a1 := List.takeWhile_append_dropWhile (p := isWord) (l := s1)
      have a3 := List.takeWhile_append_dropWhile (p := isWord) (l := s3)
      rw [e2] at a1
      rw [e4] at a3
      rw [e1]
      conv_lhs => rw [← a1, ← a3]
      simp [g1Prefix]
  · rintro ⟨hx, hy, wx, wy, c, suf, hc, rfl⟩
    unfold matchHere
    rw [List.append_assoc, List.append_assoc, show "bn256.G1(".toList = g1Prefix from rfl, stripPrefix_append]
    obtain ⟨t1, d1⟩ := takeWhile_words (r := c :: (y ++ ')' :: suf)) (c := ',') (fun c h => (isWord_iff c).2 (wx c h)) (by decide)
    obtain ⟨t2, d2⟩ := takeWhile_words (r := suf) (c := ')') (fun c h => (isWord_iff c).2 (wy c h)) (by decide)
    simp [-List.takeWhile_eq_nil_iff, t1, d1, t2, d2, hx, hy, stripPrefix, (isSpace_iff c).2 hc]

theorem findMatch_iff : ∀ (s x y : List Char), findMatch s = some (x, y) ↔ Regex.Leftmost s x y
  | [], x, y => by
    rw [findMatch, matchHere_iff]
    constructor
    · exact fun h => ⟨[], [], rfl, h, fun _ _ _ h => absurd h (by simp)⟩
    · rintro ⟨pre, t, h, ht, -⟩
      obtain ⟨rfl, rfl⟩ := List.append_eq_nil_iff.1 h.symm
      exact ht
  | c :: s, x, y => by
    rw [findMatch]
    cases hm : matchHere (c :: s) with
    | some m =>
      obtain ⟨x', y'⟩ := m
      simp only [Option.some.injEq]
      constructor
      · intro e
        rw [e] at hm
        exact ⟨[], _, rfl, (matchHere_iff _ _ _).1 hm, fun _ _ _ h => absurd h (by simp)⟩
      · rintro ⟨pre, t, h, ht, hl⟩
        cases pre with
        | nil =>
          subst h
          rw [(matchHere_iff _ _ _).2 ht, Option.some.injEq] at hm
          exact hm.symm
        | cons d pre => exact absurd ((matchHere_iff _ _ _).1 hm) (hl [] _ rfl (by simp) _ _)
    | none =>
      simp only
      rw [findMatch_iff s]
      have hn : ∀ x y, ¬ Regex.MatchesAt (c :: s) x y := fun x y h => by
        rw [(matchHere_iff _ _ _).2 h] at hm; cases hm
      constructor
      · rintro ⟨pre, t, h, ht, hl⟩
        refine ⟨c :: pre, t, by rw [h, List.cons_append], ht, fun pre' t' h' hlt x' y' => ?_⟩
        cases pre' with
        | nil => rw [List.nil_append] at h'; exact h' ▸ hn _ _
        | cons d pre' =>
          rw [List.cons_append, List.cons.injEq] at h'
          exact hl pre' t' h'.2 (by simpa using hlt) _ _
      · rintro ⟨pre, t, h, ht, hl⟩
        cases pre with
        | nil => rw [List.nil_append] at h; exact absurd (h ▸ ht) (hn _ _)
        | cons d pre =>
          rw [List.cons_append, List.cons.injEq] at h
          exact ⟨pre, t, h.2, ht, fun pre' t' h' hlt => hl (c :: pre') t' (by rw [h', List.cons_append]) (by simpa using hlt)⟩

theorem hexVal_iff (c : Char) (d : ℕ) : hexVal c = some d ↔ ("0123456789abcdef".toList[d]? = some c ∨
    "0123456789ABCDEF".toList[d]? = some c) := by
  constructor
  · intro h
    unfold hexVal at h
    have key : ∀ (lo hi : Char), lo ≤ c → c ≤ hi → ∃ k, k ≤ hi.toNat - lo.toNat ∧ c = Char.ofNat (lo.toNat + k) := by
      intro lo hi h1 h2
      have h1' : lo.toNat ≤ c.toNat := h1
      have h2' : c.toNat ≤ hi.toNat := h2
      exact ⟨c.toNat - lo.toNat, by omega, by rw [Nat.add_sub_cancel' h1', Char.ofNat_toNat]⟩
    split at h
    · rename_i hc
      obtain ⟨k, hk, rfl⟩ := key _ _ hc.1 hc.2
      have : k ≤ 9 := hk
      interval_cases k <;> (obtain rfl := Option.some.inj h; decide)
    split at h
    · rename_i hc
      obtain ⟨k, hk, rfl⟩ := key _ _ hc.1 hc.2
      have : k ≤ 5 := hk
      interval_cases k <;> (obtain rfl := Option.some.inj h; decide)
    split at h
    · rename_i hc
      obtain ⟨k, hk, rfl⟩ := key _ _ hc.1 hc.2
      have : k ≤ 5 := hk
      interval_cases k <;> (obtain rfl := Option.some.inj h; decide)
    · cases h
  · intro h
    have hd : d < 16 := by
      by_contra hd
      rw [List.getElem?_eq_none (by simpa using hd), List.getElem?_eq_none (by simpa using hd)] at h
      simp at h
    interval_cases d <;> rcases h with h | h <;> (obtain rfl := Option.some.inj h; decide)

theorem ofDigits_snoc16 (l : List ℕ) (a : ℕ) : Nat.ofDigits 16 (a :: l).reverse = a * 16 ^ l.length + Nat.ofDigits 16 l.reverse := by
  rw [List.reverse_cons, Nat.ofDigits_append, Nat.ofDigits_singleton, List.length_reverse]; ring

theorem beNat_cons (b : UInt8) (l : List UInt8) : beNat (b :: l) = b.toNat * 256 ^ l.length + beNat l := by
  induction l using List.reverseRecOn with
  | nil => simp [beNat]
  | append_singleton l c ih =>
    rw [← List.cons_append, beNat_snoc, ih, beNat_snoc, List.length_append, List.length_singleton, pow_succ]; ring

theorem hexVal_lt {c : Char} {d : ℕ} (h : hexVal c = some d) : d < 16 := by
  by_contra hd
  have := (hexVal_iff c d).1 h
  rw [List.getElem?_eq_none (by simpa using hd), List.getElem?_eq_none (by simpa using hd)] at this
  simp at this

theorem hexDecode_digits : ∀ {l : List Char} {ds : List ℕ}, List.Forall₂ (fun c d => hexVal c = some d) l ds → Even l.length →
    ∃ bs, hexDecode l = some bs ∧ beNat bs = Nat.ofDigits 16 ds.reverse ∧ bs.length * 2 = l.length
  | [], _, h, _ => by cases h; exact ⟨[], rfl, rfl, rfl⟩
  | [_], _, _, h => by simp at h
  | a :: b :: l, _, h, he => by
    cases h with
    | cons ha h =>
    cases h with
    | @cons _ y _ ds hb h =>
      rename_i x
      obtain ⟨bs, h1, h2, h3⟩ := hexDecode_digits h (by simpa [Nat.even_add_one] using he)
      refine ⟨UInt8.ofNat (16 * x + y) :: bs, by simp [hexDecode, ha, hb, h1], ?_, by simp [← h3]; ring⟩
      have hx := hexVal_lt ha
      have hy := hexVal_lt hb
      rw [beNat_cons, h2, ofDigits_snoc16, ofDigits_snoc16, List.length_cons, ← h.length_eq, ← h3, UInt8.toNat_ofNat',
        Nat.mod_eq_of_lt (by omega), pow_succ, mul_comm bs.length, pow_mul]
      norm_num
      ring

theorem hexDecode_even : ∀ {l : List Char} {bs : List UInt8}, hexDecode l = some bs →
    Even l.length ∧ ∃ ds, List.Forall₂ (fun c d => hexVal c = some d) l ds
  | [], _, _ => ⟨by simp, [], .nil⟩
  | [_], _, h => by simp [hexDecode] at h
  | a :: b :: l, bs, h => by
    simp only [hexDecode, Option.bind_eq_bind, Option.bind_eq_some_iff] at h
    obtain ⟨x, hx, y, hy, t, ht, -⟩ := h
    obtain ⟨h1, ds, h2⟩ := hexDecode_even ht
    exact ⟨by simpa [Nat.even_add_one] using h1, x :: y :: ds, .cons hx (.cons hy h2)⟩

theorem hexDecode_iff (l : List Char) (v : ℕ) : (∃ bs, hexDecode l = some bs ∧ beNat bs = v) ↔ HexNumeral l v := by
  unfold HexNumeral
  simp only [← hexVal_iff]
  constructor
  · rintro ⟨bs, h, rfl⟩
    obtain ⟨he, ds, hd⟩ := hexDecode_even h
    obtain ⟨bs', h1, h2, -⟩ := hexDecode_digits hd he
    obtain rfl := Option.some.inj (h.symm.trans h1)
    exact ⟨he, ds, hd, h2⟩
  · rintro ⟨he, ds, hd, rfl⟩
    obtain ⟨bs, h1, h2, -⟩ := hexDecode_digits hd he
    exact ⟨bs, h1, h2⟩

theorem hexToDecimalString_iff (l a : List Char) : hexToDecimalString l = some a ↔
    ∃ body v, (l = body ∨ l = "0x".toList ++ body) ∧ HexNumeral body v ∧ a = decString v := by
  unfold hexToDecimalString
  simp only [Option.bind_eq_bind, Option.bind_eq_some_iff, Option.some.injEq]
  constructor
  · rintro ⟨bs, h, rfl⟩
    refine ⟨trim0x l, _, ?_, (hexDecode_iff _ _).1 ⟨bs, h, rfl⟩, rfl⟩
    unfold trim0x
    cases h : stripPrefix ['0', 'x'] l with
    | none => exact .inl rfl
    | some r => exact .inr (stripPrefix_some h)
  · rintro ⟨body, v, hl, hv, rfl⟩
    obtain ⟨bs, h, rfl⟩ := (hexDecode_iff _ _).2 hv
    refine ⟨bs, ?_, rfl⟩
    rcases hl with rfl | rfl
    · have : stripPrefix ['0', 'x'] l = none := by
        cases hs : stripPrefix ['0', 'x'] l with
        | none => rfl
        | some r =>
          exfalso
          rw [stripPrefix_some hs] at hv
          obtain ⟨-, ds, hd, -⟩ := hv
          simp only [← hexVal_iff] at hd
          cases hd with
          | cons _ hd => cases hd with
            | cons hx _ => exact absurd hx (by simp [hexVal])
      rw [trim0x, this]; exact h
    · rw [trim0x, show "0x".toList = ['0', 'x'] from rfl, stripPrefix_append]; exact h

/-- A match cannot begin inside a text that does not contain "bn256.G1(". -/
theorem findMatch_leftmost {m} (s : List Char) (h : matchHere s = some m) (pre : List Char) (hp : ¬ g1Prefix <:+: pre) :
    findMatch (pre ++ s) = some m := by
  obtain ⟨x, y⟩ := m
  rw [findMatch_iff]
  refine ⟨pre, s, rfl, (matchHere_iff _ _ _).1 h, fun pre' t' e hlt x' y' hm => ?_⟩
  obtain ⟨u, hu⟩ := matchHere_prefix ((matchHere_iff _ _ _).2 hm)
  obtain ⟨w, hw⟩ := matchHere_prefix h
  obtain ⟨d, hd, ht⟩ | ⟨d, hd, -⟩ := List.append_eq_append_iff.1 e.symm
  · rw [← hu, List.append_eq_append_iff] at ht
    rcases ht with ⟨a, ha, hs⟩ | ⟨a, ha, hs⟩
    · exact hp ⟨pre', a, by rw [List.append_assoc, ← ha, ← hd]⟩
    · cases d with
      | nil => rw [hd, List.append_nil] at hlt; exact absurd hlt (lt_irrefl _)
      | cons d0 d =>
        cases a with
        | nil => exact hp ⟨pre', [], by rw [ha, List.append_nil, List.append_nil, ← hd]⟩
        | cons a0 a =>
          have h1 : a0 = 'b' := by
            rw [hs] at hw; simp only [g1Prefix, List.cons_append, List.cons.injEq] at hw; exact hw.1.symm
          have h2 : a0 ∈ g1Prefix.tail := by
            rw [ha, List.cons_append, List.tail_cons]; simp
          rw [h1] at h2
          exact absurd h2 (by decide)
  · rw [hd, List.length_append] at hlt
    omega

theorem extract_iff (s a b : List Char) : extractAndConvert s = some (a, b) ↔ ∃ x y, Regex.Leftmost s x y ∧
    hexToDecimalString x = some a ∧ hexToDecimalString y = some b := by
  unfold extractAndConvert
  constructor
  · intro h
    simp only [Option.bind_eq_bind, Option.bind_eq_some_iff, Option.some.injEq, Prod.mk.injEq] at h
    obtain ⟨⟨x, y⟩, h, a', ha, b', hb, rfl, rfl⟩ := h
    exact ⟨x, y, (findMatch_iff _ _ _).1 h, ha, hb⟩
  · rintro ⟨x, y, h, ha, hb⟩
    rw [(findMatch_iff _ _ _).2 h]
    simp [ha, hb]

theorem extract_g1 {x y : ℕ} (hx : x < 2 ^ 256) (hy : y < 2 ^ 256) (pre suf : List Char) (hp : ¬ g1Prefix <:+: pre) :
    extractAndConvert (pre ++ (g1String x y ++ suf)) = some (decString x, decString y) := by
  unfold extractAndConvert
  rw [findMatch_leftmost _ (matchHere_g1 x y suf) pre hp]
  simp [hexToDecimalString_gfP hx, hexToDecimalString_gfP hy]

end Verif
