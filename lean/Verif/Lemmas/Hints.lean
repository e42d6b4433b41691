/- Helper lemmas about the hint functions. -/
import Verif.Model.Hints
import Verif.Lemmas.Regex
import Verif.Lemmas.Fr

namespace Verif

theorem p_lt_256 : pMod < 2 ^ 256 := by decide +kernel

/-- The canonical coordinates of a point as integers. -/
def coords (P : G1) : ℤ × ℤ := (((enc P).1.val : ℤ), ((enc P).2.val : ℤ))

theorem fillBytes32_of_lt {a : ℤ} (h : a.natAbs < 2 ^ 256) : fillBytes32 a = some (beBytes a.natAbs 32) := by
  unfold fillBytes32; rw [if_pos h]

theorem fillBytes32_none {a : ℤ} (h : 2 ^ 256 ≤ a.natAbs) : fillBytes32 a = none := by
  unfold fillBytes32; rw [if_neg (Nat.not_lt.2 h)]

theorem beNat_beBytes32 {n : ℕ} (h : n < 2 ^ 256) : beNat (beBytes n 32) = n :=
  beNat_beBytes 32 n (by rw [show (256:ℕ) = 2^8 by norm_num, ← pow_mul]; exact h)

theorem unmarshal_eq {x y : ℕ} (hx : x < 2 ^ 256) (hy : y < 2 ^ 256) :
    bn256Unmarshal (beBytes x 32 ++ beBytes y 32) =
      if x < pMod ∧ y < pMod then
        if x = 0 ∧ y = 0 then some 0
        else if h : OnCurve (x : Fp) (y : Fp) then some (mkPt _ _ h) else none
      else none := by
  unfold bn256Unmarshal
  have hl : (beBytes x 32 ++ beBytes y 32).length = 64 := by simp [beBytes_length]
  have h1 : (beBytes x 32 ++ beBytes y 32).take 32 = beBytes x 32 := by
    rw [List.take_append_of_le_length (by rw [beBytes_length]), List.take_of_length_le (by rw [beBytes_length])]
  have h2 : ((beBytes x 32 ++ beBytes y 32).drop 32).take 32 = beBytes y 32 := by
    rw [List.drop_append_of_le_length (by rw [beBytes_length]), List.drop_of_length_le (by rw [beBytes_length]),
      List.nil_append, List.take_of_length_le (by rw [beBytes_length])]
  rw [if_neg (by omega), h1, h2, beNat_beBytes32 hx, beNat_beBytes32 hy]

theorem unmarshal_enc (P : G1) {x y : ℕ} (hx : x = (enc P).1.val) (hy : y = (enc P).2.val) :
    bn256Unmarshal (beBytes x 32 ++ beBytes y 32) = some P := by
  have lx : x < pMod := hx ▸ fp_val_lt _
  have ly : y < pMod := hy ▸ fp_val_lt _
  rw [unmarshal_eq (lx.trans p_lt_256) (ly.trans p_lt_256), if_pos ⟨lx, ly⟩]
  rcases G1.cases P with rfl | ⟨x', y', h, rfl⟩
  · rw [enc_zero] at hx hy
    rw [if_pos ⟨by simpa using hx, by simpa using hy⟩]
  · rw [enc_mkPt] at hx hy
    simp only at hx hy
    have ex : ((x : ℕ) : Fp) = x' := by rw [hx]; exact ZMod.natCast_zmod_val x'
    have ey : ((y : ℕ) : Fp) = y' := by rw [hy]; exact ZMod.natCast_zmod_val y'
    rw [if_neg, dif_pos]
    · simp only [ex, ey]
    · rw [ex, ey]; exact h
    · rintro ⟨h0, -⟩
      apply h.x_ne
      rw [← ex, h0]; simp

theorem unmarshal_some {x y : ℕ} (hx : x < 2 ^ 256) (hy : y < 2 ^ 256) {P : G1}
    (h : bn256Unmarshal (beBytes x 32 ++ beBytes y 32) = some P) : (enc P).1.val = x ∧ (enc P).2.val = y := by
  rw [unmarshal_eq hx hy] at h
  split at h
  · rename_i hlt
    split at h
    · rename_i h0
      cases h
      simp [h0]
    · split at h
      · cases h
        rw [enc_mkPt]
        exact ⟨ZMod.val_natCast_of_lt hlt.1, ZMod.val_natCast_of_lt hlt.2⟩
      · cases h
  · cases h

theorem pointResults_eq (P : G1) :
    pointResults P = .ok [((bn256Affine P).1 : ℤ), ((bn256Affine P).2 : ℤ)] := by
  have h1 : (bn256Affine P).1 < 2 ^ 256 := by
    unfold bn256Affine; split
    · norm_num
    · exact (fp_val_lt _).trans p_lt_256
  have h2 : (bn256Affine P).2 < 2 ^ 256 := by
    unfold bn256Affine; split
    · norm_num
    · exact (fp_val_lt _).trans p_lt_256
  unfold pointResults bn256String
  have := extract_g1 h1 h2 [] [] (by decide)
  simp only [List.nil_append, List.append_nil] at this
  rw [this]
  simp only [parseDec_decString]

theorem bn256Affine_ne {P : G1} (h : P ≠ 0) : bn256Affine P = ((enc P).1.val, (enc P).2.val) := by
  simp [bn256Affine, h]

theorem bn256Affine_zero : bn256Affine 0 = (0, 1) := by simp [bn256Affine]

theorem MsmHint_eq {a b k : ℤ} {P : G1} (ha : a.natAbs = (enc P).1.val) (hb : b.natAbs = (enc P).2.val) :
    MsmHint [a, b, k] = .ok [((bn256Affine (k • P)).1 : ℤ), ((bn256Affine (k • P)).2 : ℤ)] := by
  have h1 : a.natAbs < 2 ^ 256 := ha ▸ (fp_val_lt _).trans p_lt_256
  have h2 : b.natAbs < 2 ^ 256 := hb ▸ (fp_val_lt _).trans p_lt_256
  simp only [MsmHint, fillBytes32_of_lt h1, fillBytes32_of_lt h2, unmarshal_enc P ha hb, pointResults_eq]

theorem AddHint_eq {a b c d : ℤ} {P Q : G1} (ha : a.natAbs = (enc P).1.val) (hb : b.natAbs = (enc P).2.val)
    (hc : c.natAbs = (enc Q).1.val) (hd : d.natAbs = (enc Q).2.val) :
    AddHint [a, b, c, d] = .ok [((bn256Affine (P + Q)).1 : ℤ), ((bn256Affine (P + Q)).2 : ℤ)] := by
  have h1 : a.natAbs < 2 ^ 256 := ha ▸ (fp_val_lt _).trans p_lt_256
  have h2 : b.natAbs < 2 ^ 256 := hb ▸ (fp_val_lt _).trans p_lt_256
  have h3 : c.natAbs < 2 ^ 256 := hc ▸ (fp_val_lt _).trans p_lt_256
  have h4 : d.natAbs < 2 ^ 256 := hd ▸ (fp_val_lt _).trans p_lt_256
  simp only [AddHint, fillBytes32_of_lt h1, fillBytes32_of_lt h2, fillBytes32_of_lt h3, fillBytes32_of_lt h4,
    unmarshal_enc P ha hb, unmarshal_enc Q hc hd, pointResults_eq]

theorem unmarshal_none {x y : ℕ} (hx : x < 2 ^ 256) (hy : y < 2 ^ 256)
    (h : ¬ ∃ P : G1, (enc P).1.val = x ∧ (enc P).2.val = y) :
    bn256Unmarshal (beBytes x 32 ++ beBytes y 32) = none := by
  cases hu : bn256Unmarshal (beBytes x 32 ++ beBytes y 32) with
  | none => rfl
  | some P => exact absurd ⟨P, unmarshal_some hx hy hu⟩ h

/-- The pairs of naturals that encode a point: canonical, on the curve or (0,0). -/
theorem exists_enc_iff {x y : ℕ} : (∃ P : G1, (enc P).1.val = x ∧ (enc P).2.val = y) ↔
    x < pMod ∧ y < pMod ∧ ((y : Fp) ^ 2 = (x : Fp) ^ 3 + 3 ∨ (x = 0 ∧ y = 0)) := by
  constructor
  · rintro ⟨P, rfl, rfl⟩
    refine ⟨fp_val_lt _, fp_val_lt _, ?_⟩
    rcases G1.cases P with rfl | ⟨x', y', h, rfl⟩
    · right; simp
    · left
      rw [enc_mkPt]
      simp only [ZMod.natCast_zmod_val]
      exact h
  · rintro ⟨hx, hy, h | ⟨rfl, rfl⟩⟩
    · exact ⟨mkPt _ _ h, ZMod.val_natCast_of_lt hx, ZMod.val_natCast_of_lt hy⟩
    · exact ⟨0, by simp, by simp⟩

theorem honest_honestMod {mode raw} (X : Ext) : HonestMod ⟨mode, raw, honest X⟩ := fun _ _ _ => rfl

end Verif
