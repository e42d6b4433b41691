/- Helper lemmas about string parsing. -/
import Verif.Model.Strings
import Mathlib.Data.List.Infix

namespace Verif

theorem stripPrefix_append : ∀ (p l : List Char), stripPrefix p (p ++ l) = some l
  | [], l => rfl
  | c :: p, l => by simp [stripPrefix, stripPrefix_append p l]

theorem stripPrefix_some : ∀ {p l r : List Char}, stripPrefix p l = some r → l = p ++ r
  | [], l, r, h => by simp [stripPrefix] at h; simpa using h
  | c :: p, [], r, h => by simp [stripPrefix] at h
  | c :: p, d :: l, r, h => by
    simp only [stripPrefix] at h
    split at h
    · rename_i e; subst e; rw [stripPrefix_some h]; rfl
    · cases h

theorem hexDigit_isWord (n : Fin 16) : isWord (hexDigit n.val) = true := by revert n; decide
theorem hexDigit_hexVal (n : Fin 16) : hexVal (hexDigit n.val) = some n.val := by revert n; decide
theorem hexDigit_ne_x (n : Fin 16) : hexDigit n.val ≠ 'x' := by revert n; decide

theorem hexFixed_length : ∀ (k n : ℕ), (hexFixed n k).length = k
  | 0, _ => rfl
  | k + 1, n => by simp [hexFixed, hexFixed_length k]

theorem hexFixed_mem : ∀ (k n : ℕ) (c : Char), c ∈ hexFixed n k → ∃ d : Fin 16, c = hexDigit d.val
  | 0, _, c, h => by simp [hexFixed] at h
  | k + 1, n, c, h => by
    simp only [hexFixed, List.mem_append, List.mem_singleton] at h
    rcases h with h | h
    · exact hexFixed_mem k _ c h
    · exact ⟨⟨n % 16, Nat.mod_lt _ (by norm_num)⟩, h⟩

theorem hexFixed_add : ∀ (b a n : ℕ), hexFixed n (a + b) = hexFixed (n / 16 ^ b) a ++ hexFixed n b
  | 0, a, n => by simp [hexFixed]
  | b + 1, a, n => by
    rw [← Nat.add_assoc, hexFixed, hexFixed_add b a, hexFixed, List.append_assoc, Nat.div_div_eq_div_mul,
      pow_succ, mul_comm 16]

theorem hexFixed_mod : ∀ (k n : ℕ), hexFixed (n % 16 ^ k) k = hexFixed n k
  | 0, _ => rfl
  | k + 1, n => by
    rw [hexFixed, hexFixed]
    have h1 : n % 16 ^ (k + 1) / 16 = (n / 16) % 16 ^ k := by
      rw [pow_succ, mul_comm, Nat.mod_mul_right_div_self]
    have h2 : n % 16 ^ (k + 1) % 16 = n % 16 := Nat.mod_mod_of_dvd n (dvd_pow_self 16 (by omega))
    rw [h1, h2, hexFixed_mod k]

theorem gfPString_eq (n : ℕ) : gfPString n = hexFixed n 64 := by
  unfold gfPString
  have e : (2:ℕ)^64 = 16^16 := by norm_num
  rw [e, hexFixed_mod, hexFixed_mod, hexFixed_mod, hexFixed_mod]
  rw [show (64:ℕ) = 16 + 48 from rfl, hexFixed_add, show (48:ℕ) = 16 + 32 from rfl, hexFixed_add,
    show (32:ℕ) = 16 + 16 from rfl, hexFixed_add]
  simp only [List.append_assoc]
  norm_num

theorem hexDecode_snoc : ∀ {l : List Char} {r : List UInt8} {a b : Char} {x y : ℕ},
    hexDecode l = some r → hexVal a = some x → hexVal b = some y →
    hexDecode (l ++ [a, b]) = some (r ++ [UInt8.ofNat (16 * x + y)])
  | [], r, a, b, x, y, h, ha, hb => by
    simp only [hexDecode, Option.some.injEq] at h; subst h
    simp [hexDecode, ha, hb]
  | [c], r, a, b, x, y, h, ha, hb => by simp [hexDecode] at h
  | c :: d :: l, r, a, b, x, y, h, ha, hb => by
    simp only [hexDecode, Option.bind_eq_bind, Option.bind_eq_some_iff, Option.some.injEq] at h
    obtain ⟨u, hu, w, hw, t, ht, rfl⟩ := h
    simp [hexDecode, hu, hw, hexDecode_snoc ht ha hb]

theorem hexDecode_hexFixed : ∀ (k n : ℕ), hexDecode (hexFixed n (2 * k)) = some (beBytes n k)
  | 0, _ => rfl
  | k + 1, n => by
    rw [show 2 * (k + 1) = (2 * k + 1) + 1 by ring, hexFixed, hexFixed, List.append_assoc]
    have h1 : hexVal (hexDigit (n / 16 % 16)) = some (n / 16 % 16) :=
      hexDigit_hexVal ⟨n / 16 % 16, Nat.mod_lt _ (by norm_num)⟩
    have h2 : hexVal (hexDigit (n % 16)) = some (n % 16) :=
      hexDigit_hexVal ⟨n % 16, Nat.mod_lt _ (by norm_num)⟩
    have h3 := hexDecode_snoc (hexDecode_hexFixed k (n / 16 / 16)) h1 h2
    rw [List.singleton_append, h3, beBytes]
    rw [show n / 16 / 16 = n / 256 by omega, show 16 * (n / 16 % 16) + n % 16 = n % 256 by omega]

theorem trim0x_hexFixed (n k : ℕ) : trim0x (hexFixed n k) = hexFixed n k := by
  unfold trim0x
  cases h : stripPrefix ['0', 'x'] (hexFixed n k) with
  | none => rfl
  | some r =>
    exfalso
    have := stripPrefix_some h
    obtain ⟨d, hd⟩ := hexFixed_mem k n 'x' (by rw [this]; simp)
    exact hexDigit_ne_x d hd.symm

theorem hexToDecimalString_gfP {n : ℕ} (h : n < 2 ^ 256) :
    hexToDecimalString (gfPString n) = some (decString n) := by
  unfold hexToDecimalString
  rw [gfPString_eq, trim0x_hexFixed, show (64:ℕ) = 2 * 32 from rfl, hexDecode_hexFixed]
  simp only [Option.bind_eq_bind, Option.bind_some]
  rw [beNat_beBytes 32 n (by rw [show (256:ℕ) = 2^8 by norm_num, ← pow_mul]; exact h)]

theorem takeWhile_words {l r : List Char} {c : Char} (hl : ∀ a ∈ l, isWord a = true) (hc : isWord c = false) :
    (l ++ c :: r).takeWhile isWord = l ∧ (l ++ c :: r).dropWhile isWord = c :: r := by
  induction l with
  | nil => simp [hc]
  | cons a l ih =>
    have := ih (fun b hb => hl b (List.mem_cons_of_mem _ hb))
    simp [hl a (by simp), this]

theorem gfPString_words (n : ℕ) : ∀ a ∈ gfPString n, isWord a = true := by
  intro a ha
  rw [gfPString_eq] at ha
  obtain ⟨d, rfl⟩ := hexFixed_mem _ _ _ ha
  exact hexDigit_isWord d

theorem gfPString_ne (n : ℕ) : gfPString n ≠ [] := by
  intro h
  have := congrArg List.length h
  rw [gfPString_eq, hexFixed_length] at this
  simp at this

theorem matchHere_g1 (x y : ℕ) (suf : List Char) :
    matchHere (g1String x y ++ suf) = some (gfPString x, gfPString y) := by
  have e : g1String x y ++ suf = g1Prefix ++ (gfPString x ++ ',' :: ' ' :: (gfPString y ++ ')' :: suf)) := by
    simp [g1String]
  unfold matchHere
  rw [e, stripPrefix_append]
  obtain ⟨t1, d1⟩ := takeWhile_words (r := ' ' :: (gfPString y ++ ')' :: suf)) (c := ',')
    (gfPString_words x) (by decide)
  obtain ⟨t2, d2⟩ := takeWhile_words (r := suf) (c := ')') (gfPString_words y) (by decide)
  simp [t1, d1, t2, d2, gfPString_ne, stripPrefix, show isSpace ' ' = true by decide]

theorem matchHere_prefix {s : List Char} {m} (h : matchHere s = some m) : g1Prefix <+: s := by
  unfold matchHere at h
  simp only [Option.bind_eq_bind, Option.bind_eq_some_iff] at h
  obtain ⟨s1, h1, -⟩ := h
  exact ⟨s1, (stripPrefix_some h1).symm⟩

theorem findMatch_none : ∀ (s : List Char), ¬ g1Prefix <:+: s → findMatch s = none
  | [], _ => by decide
  | c :: s, h => by
    rw [findMatch]
    cases hm : matchHere (c :: s) with
    | none => exact findMatch_none s (fun h' => h (h'.trans (List.suffix_cons c s).isInfix))
    | some m => exact absurd (matchHere_prefix hm).isInfix h

theorem decDigit_step (a : ℕ) (n : Fin 10) : decStep (some a) (decDigit n.val) = some (10 * a + n.val) := by
  have : ∀ n : Fin 10, ('0' ≤ decDigit n.val ∧ decDigit n.val ≤ '9') ∧ (decDigit n.val).toNat - '0'.toNat = n.val := by
    decide
  simp [decStep, (this n).1.1, (this n).1.2]
  exact (this n).2

theorem decString_ne (n : ℕ) : decString n ≠ [] := by
  rw [decString]; split <;> simp

theorem foldl_decString (n : ℕ) : (decString n).foldl decStep (some 0) = some n := by
  induction n using Nat.strong_induction_on with
  | _ n ih =>
    rw [decString]
    split
    · rename_i h
      have := decDigit_step 0 ⟨n, h⟩
      simpa using this
    · rename_i h
      rw [List.foldl_append, ih (n / 10) (by omega)]
      have := decDigit_step (n / 10) ⟨n % 10, Nat.mod_lt _ (by norm_num)⟩
      simp only [List.foldl_cons, List.foldl_nil]
      rw [this]
      congr 1
      simp only []
      omega

theorem parseDec_decString (n : ℕ) : parseDec (decString n) = some n := by
  unfold parseDec
  rw [if_neg (decString_ne n), foldl_decString]

end Verif
