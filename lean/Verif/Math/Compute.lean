/-
Kernel-computable curve arithmetic on pairs of natural numbers, proved equal to Mathlib's group law.
Used for the group order and to evaluate concrete examples. Models nothing of /repo.
-/
import Verif.Math.BN254

namespace Verif

/-- Canonical natural-number coordinates of a point ((0,0) for infinity). -/
def encN (P : G1) : ℕ × ℕ := ((enc P).1.val, (enc P).2.val)

/-- Inverse modulo p by Fermat. -/
def invN (x : ℕ) : ℕ := powMod pMod x (pMod - 2)

/-- Third point of the chord/tangent of slope `l` through (x1,y1), (x2,·), negated. -/
def chordN (l x1 y1 x2 : ℕ) : ℕ × ℕ :=
  let x3 := (l * l + 2 * pMod - x1 - x2) % pMod
  (x3, (l * (x1 + pMod - x3) + pMod - y1) % pMod)

/-- Addition on coordinate pairs. -/
def addN (P Q : ℕ × ℕ) : ℕ × ℕ :=
  bif Nat.beq P.1 0 then Q else bif Nat.beq Q.1 0 then P else
  bif Nat.beq P.1 Q.1 then
    bif Nat.beq ((P.2 + Q.2) % pMod) 0 then (0, 0)
    else chordN (3 * P.1 * P.1 * invN (2 * P.2) % pMod) P.1 P.2 Q.1
  else chordN ((Q.2 + pMod - P.2) * invN (Q.1 + pMod - P.1) % pMod) P.1 P.2 Q.1

/-- Double-and-add: `mulNAux fuel k P acc = acc + k•P`. -/
def mulNAux : ℕ → ℕ → ℕ × ℕ → ℕ × ℕ → ℕ × ℕ
  | 0, _, _, acc => acc
  | f+1, k, P, acc => bif Nat.beq k 0 then acc else
     mulNAux f (k/2) (addN P P) (bif Nat.beq (k % 2) 1 then addN acc P else acc)

def mulN (k : ℕ) (P : ℕ × ℕ) : ℕ × ℕ := mulNAux 256 k P (0, 0)

theorem beq_false {a b : ℕ} (h : a ≠ b) : Nat.beq a b = false := by
  cases hh : Nat.beq a b with
  | false => rfl
  | true => exact absurd (Nat.eq_of_beq_eq_true hh) h

theorem beq_true {a b : ℕ} (h : a = b) : Nat.beq a b = true := by subst h; exact Nat.beq_refl a

theorem invN_cast (x : ℕ) : ((invN x : ℕ) : Fp) = (x : Fp)⁻¹ := by
  rw [invN, powMod_cast _ _ _ (by decide +kernel)]
  by_cases h : (x : Fp) = 0
  · rw [h, inv_zero, zero_pow (by decide +kernel)]
  · apply eq_inv_of_mul_eq_one_left
    rw [← pow_succ, show pMod - 2 + 1 = pMod - 1 by decide +kernel]
    exact ZMod.pow_card_sub_one_eq_one h

theorem fp_val_lt (x : Fp) : x.val < pMod := ZMod.val_lt x

theorem chordN_eq (l : ℕ) (x1 y1 x2 : Fp) :
    chordN l x1.val y1.val x2.val =
      (((l : Fp)^2 - x1 - x2).val,
        ((l : Fp) * (x1 - ((l : Fp)^2 - x1 - x2)) - y1).val) := by
  have hx1 := fp_val_lt x1
  have hx2 := fp_val_lt x2
  have hy1 := fp_val_lt y1
  have h3 : (l * l + 2 * pMod - x1.val - x2.val) % pMod = ((l : Fp)^2 - x1 - x2).val := by
    rw [← ZMod.val_natCast]
    congr 1
    rw [Nat.cast_sub (by omega), Nat.cast_sub (by omega)]
    push_cast [ZMod.natCast_zmod_val, ZMod.natCast_self]
    ring
  unfold chordN
  simp only [h3]
  have hx3 := fp_val_lt ((l : Fp)^2 - x1 - x2)
  congr 1
  rw [← ZMod.val_natCast]
  congr 1
  rw [Nat.cast_sub (by omega), Nat.cast_add, Nat.cast_mul, Nat.cast_sub (by omega)]
  push_cast [ZMod.natCast_zmod_val, ZMod.natCast_self]
  ring

theorem enc_add_slope {x1 y1 x2 y2 : Fp} (h1 : OnCurve x1 y1) (h2 : OnCurve x2 y2)
    (h : ¬ (x1 = x2 ∧ y1 = -y2)) :
    enc (mkPt x1 y1 h1 + mkPt x2 y2 h2) =
      (let l := curve.slope x1 x2 y1 y2
       (l^2 - x1 - x2, l * (x1 - (l^2 - x1 - x2)) - y1)) := by
  unfold mkPt
  rw [WeierstrassCurve.Affine.Point.add_some (by simpa [WeierstrassCurve.Affine.negY, curve] using h)]
  simp only [enc]
  ext
  · simp [WeierstrassCurve.Affine.addX, curve]
  · simp [WeierstrassCurve.Affine.addY, WeierstrassCurve.Affine.negAddY,
      WeierstrassCurve.Affine.negY, WeierstrassCurve.Affine.addX, curve]
    ring

theorem fp_val_eq_zero_iff (x : Fp) : x.val = 0 ↔ x = 0 := ZMod.val_eq_zero x

theorem addN_encN (P Q : G1) : addN (encN P) (encN Q) = encN (P + Q) := by
  rcases G1.cases P with rfl | ⟨x1, y1, h1, rfl⟩
  · simp only [zero_add]
    unfold addN
    rw [beq_true (by simp [encN]), cond_true]
  rcases G1.cases Q with rfl | ⟨x2, y2, h2, rfl⟩
  · simp only [add_zero]
    unfold addN
    rw [beq_false, cond_false, beq_true (by simp [encN]), cond_true]
    simpa [encN] using h1.x_ne
  have e1 : encN (mkPt x1 y1 h1) = (x1.val, y1.val) := rfl
  have e2 : encN (mkPt x2 y2 h2) = (x2.val, y2.val) := rfl
  rw [e1, e2]
  unfold addN
  simp only []
  rw [beq_false (by simpa using h1.x_ne), cond_false, beq_false (by simpa using h2.x_ne), cond_false]
  by_cases hx : x1 = x2
  · subst hx
    rw [beq_true rfl, cond_true]
    by_cases hy : y1 = -y2
    · rw [beq_true, cond_true]
      · have : mkPt x1 y1 h1 + mkPt x1 y2 h2 = 0 := by
          unfold mkPt
          rw [WeierstrassCurve.Affine.Point.add_of_Y_eq rfl
            (by simpa [WeierstrassCurve.Affine.negY, curve] using hy)]
        rw [this]
        simp [encN]
      · have : ((y1.val + y2.val : ℕ) : Fp) = 0 := by
          push_cast [ZMod.natCast_zmod_val]; rw [hy]; ring
        rw [ZMod.natCast_eq_zero_iff] at this
        exact Nat.mod_eq_zero_of_dvd this
    · rw [beq_false, cond_false, chordN_eq]
      · have hs : curve.slope x1 x1 y1 y2 =
            ((3 * x1.val * x1.val * invN (2 * y1.val) % pMod : ℕ) : Fp) := by
          have hyy : y1 = y2 := by
            have : (y1 - y2) * (y1 + y2) = 0 := by
              unfold OnCurve at h1 h2
              linear_combination h1 - h2
            rcases mul_eq_zero.1 this with h | h
            · exact sub_eq_zero.1 h
            · exact absurd (eq_neg_of_add_eq_zero_left h) hy
          rw [WeierstrassCurve.Affine.slope_of_Y_ne rfl
            (by simpa [WeierstrassCurve.Affine.negY, curve] using hy)]
          rw [ZMod.natCast_mod]
          push_cast [ZMod.natCast_zmod_val, invN_cast]
          simp only [curve, WeierstrassCurve.Affine.negY]
          rw [div_eq_mul_inv]
          congr 1
          · ring
          · congr 1; ring
        unfold encN
        rw [enc_add_slope h1 h2 (by simpa using hy), hs]
      · intro h0
        apply hy
        have : ((y1.val + y2.val : ℕ) : Fp) = 0 := by
          rw [ZMod.natCast_eq_zero_iff]; exact Nat.dvd_of_mod_eq_zero h0
        push_cast [ZMod.natCast_zmod_val] at this
        exact eq_neg_of_add_eq_zero_left this
  · rw [beq_false, cond_false, chordN_eq]
    · have hs : curve.slope x1 x2 y1 y2 =
          (((y2.val + pMod - y1.val) * invN (x2.val + pMod - x1.val) % pMod : ℕ) : Fp) := by
        rw [WeierstrassCurve.Affine.slope_of_X_ne hx]
        have a1 := fp_val_lt x1
        have a2 := fp_val_lt y1
        rw [ZMod.natCast_mod, Nat.cast_mul, invN_cast, Nat.cast_sub (by omega), Nat.cast_sub (by omega)]
        push_cast [ZMod.natCast_zmod_val, ZMod.natCast_self]
        rw [div_eq_mul_inv, ← neg_sub y2 y1, ← neg_sub x2 x1, inv_neg, add_zero, add_zero]
        ring
      unfold encN
      rw [enc_add_slope h1 h2 (by tauto), hs]
    · intro h; exact hx (ZMod.val_injective _ h)

theorem mulNAux_encN : ∀ (f k : ℕ) (P A : G1), k < 2 ^ f →
    mulNAux f k (encN P) (encN A) = encN (A + k • P) := by
  intro f
  induction f with
  | zero => intro k P A h; obtain rfl : k = 0 := by simpa using h
            simp [mulNAux]
  | succ f ih =>
    intro k P A h
    rw [mulNAux]
    by_cases h0 : k = 0
    · subst h0; simp [show Nat.beq 0 0 = true from rfl]
    rw [beq_false h0, cond_false, addN_encN]
    have hk : k = k % 2 + (k / 2) * 2 := by omega
    have hlt : k / 2 < 2 ^ f := by rw [pow_succ] at h; omega
    rcases Nat.mod_two_eq_zero_or_one k with h2 | h2
    · rw [beq_false (by omega), cond_false, ih _ _ _ hlt]
      conv_rhs => rw [hk, h2, zero_add, mul_smul, two_smul]
    · rw [beq_true h2, cond_true, addN_encN, ih _ _ _ hlt]
      conv_rhs => rw [hk, h2, add_smul, mul_smul, two_smul, one_smul, ← add_assoc]

theorem mulN_encN (k : ℕ) (P : G1) (h : k < 2 ^ 256) : mulN k (encN P) = encN (k • P) := by
  have := mulNAux_encN 256 k P 0 h
  simpa [mulN, encN] using this

theorem encN_injective : Function.Injective encN := by
  intro P Q h
  apply enc_injective
  unfold encN at h
  simp only [Prod.mk.injEq] at h
  exact Prod.ext (ZMod.val_injective _ h.1) (ZMod.val_injective _ h.2)

theorem encN_zero : encN 0 = (0, 0) := by simp [encN]

theorem encN_gen : encN G1gen = (1, 2) := by decide +kernel

/-- r·G = 0, by kernel computation. -/
theorem r_smul_gen : rMod • G1gen = 0 := by
  apply encN_injective
  rw [← mulN_encN _ _ (by decide +kernel), encN_gen, encN_zero]
  decide +kernel

end Verif
