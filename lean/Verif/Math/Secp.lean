/-
secp256k1, the curve of the signature check of /repo/kyc.go: its two prime fields, the curve y² = x³ + 7 with Mathlib's
group law, and a kernel-computable scalar multiplication proved equal to it. Specification-level mathematics; the
development repeats Math/BN254, Math/Compute and Math/Jacobian for the other curve.
-/
import Verif.Math.SecpPrimes
import Verif.Math.Jacobian

namespace Verif.Secp

/-- Base-field modulus of secp256k1. -/
def pMod : ℕ := 115792089237316195423570985008687907853269984665640564039457584007908834671663
/-- Order of the base point of secp256k1. -/
def nMod : ℕ := 115792089237316195423570985008687907852837564279074904382605163141518161494337

instance pMod_prime : Fact (Nat.Prime pMod) := ⟨prime_q_lit⟩
instance nMod_prime : Fact (Nat.Prime nMod) := ⟨prime_n_lit⟩

/-- Base field. -/
abbrev Fp := ZMod pMod
/-- Field of scalars. -/
abbrev Fn := ZMod nMod

theorem pMod_pos : 0 < pMod := by decide +kernel

/-- The curve y² = x³ + 7. -/
def curve : WeierstrassCurve.Affine Fp := ⟨0, 0, 0, 0, 7⟩

/-- The group of points of secp256k1. -/
abbrev G1 := curve.Point

/-- Affine on-curve predicate. -/
def OnCurve (x y : Fp) : Prop := y ^ 2 = x ^ 3 + 7

instance (x y : Fp) : Decidable (OnCurve x y) := inferInstanceAs (Decidable (_ = _))

theorem fp_natCast_ne_zero {n : ℕ} (h : n % pMod ≠ 0) : (n : Fp) ≠ 0 := by
  intro h0
  rw [ZMod.natCast_eq_zero_iff] at h0
  exact h (Nat.mod_eq_zero_of_dvd h0)

theorem fp_two_ne : (2 : Fp) ≠ 0 := by
  exact_mod_cast fp_natCast_ne_zero (n := 2) (by decide +kernel)
theorem fp_seven_ne : (7 : Fp) ≠ 0 := by
  exact_mod_cast fp_natCast_ne_zero (n := 7) (by decide +kernel)

theorem equation_iff (x y : Fp) : curve.Equation x y ↔ OnCurve x y := by
  rw [WeierstrassCurve.Affine.equation_iff]
  simp [curve, OnCurve]

theorem not_sq_seven (y : Fp) : y ^ 2 ≠ 7 := by
  intro h
  have hy : y ≠ 0 := by
    rintro rfl
    exact fp_seven_ne (by rw [← h]; ring)
  have h1 : y ^ (pMod - 1) = 1 := ZMod.pow_card_sub_one_eq_one hy
  have h2 : pMod - 1 = 2 * ((pMod - 1) / 2) := by decide +kernel
  rw [h2, pow_mul, h] at h1
  have h3 := powMod_cast pMod 7 ((pMod - 1) / 2) (by decide +kernel)
  rw [show ((7 : ℕ) : ZMod pMod) = 7 by norm_cast, h1] at h3
  have h4 := (ZMod.natCast_eq_natCast_iff' (powMod pMod 7 ((pMod - 1) / 2)) 1 pMod).1 (h3.trans Nat.cast_one.symm)
  exact absurd h4 (by decide +kernel)

theorem not_cube_neg_seven (x : Fp) : x ^ 3 ≠ -7 := by
  intro h
  have hx : x ≠ 0 := by
    rintro rfl
    apply fp_seven_ne
    linear_combination h
  have h1 : x ^ (pMod - 1) = 1 := ZMod.pow_card_sub_one_eq_one hx
  have h2 : pMod - 1 = 3 * ((pMod - 1) / 3) := by decide +kernel
  rw [h2, pow_mul, h] at h1
  have h3 := powMod_cast pMod (pMod - 7) ((pMod - 1) / 3) (by decide +kernel)
  rw [show ((pMod - 7 : ℕ) : ZMod pMod) = -7 by
    rw [Nat.cast_sub (by decide +kernel)]; simp, h1] at h3
  have h4 := (ZMod.natCast_eq_natCast_iff' (powMod pMod (pMod - 7) ((pMod - 1) / 3)) 1 pMod).1
    (h3.trans Nat.cast_one.symm)
  exact absurd h4 (by decide +kernel)

theorem OnCurve.x_ne {x y : Fp} (h : OnCurve x y) : x ≠ 0 := by
  rintro rfl
  exact not_sq_seven y (by rw [h]; ring)

theorem OnCurve.y_ne {x y : Fp} (h : OnCurve x y) : y ≠ 0 := by
  rintro rfl
  refine not_cube_neg_seven x ?_
  unfold OnCurve at h
  linear_combination -h

theorem not_onCurve_zero : ¬ OnCurve 0 0 := fun h => h.x_ne rfl

theorem nonsingular_iff (x y : Fp) : curve.Nonsingular x y ↔ OnCurve x y := by
  rw [WeierstrassCurve.Affine.nonsingular_iff, equation_iff]
  refine ⟨fun h => h.1, fun h => ⟨h, Or.inr ?_⟩⟩
  simp only [curve]
  intro h2
  have : (2 : Fp) * y = 0 := by linear_combination h2
  rcases mul_eq_zero.1 this with h3 | h3
  · exact fp_two_ne h3
  · exact h.y_ne h3

/-- The point with given on-curve coordinates. -/
def mkPt (x y : Fp) (h : OnCurve x y) : G1 := .some x y ((nonsingular_iff x y).2 h)

/-- Coordinates of a point; the point at infinity is encoded as (0,0)
(gnark, gnark-crypto and EVM convention). -/
def enc : G1 → Fp × Fp
  | .zero => (0, 0)
  | .some x y _ => (x, y)

/-- A pair is a valid encoding: it is on the curve or it is (0,0). -/
def ValidEnc (c : Fp × Fp) : Prop := OnCurve c.1 c.2 ∨ c = (0, 0)

instance (c : Fp × Fp) : Decidable (ValidEnc c) := inferInstanceAs (Decidable (_ ∨ _))

@[simp] theorem enc_zero : enc 0 = (0, 0) := rfl
@[simp] theorem enc_mkPt (x y : Fp) (h : OnCurve x y) : enc (mkPt x y h) = (x, y) := rfl

theorem mkPt_ne_zero (x y : Fp) (h : OnCurve x y) : mkPt x y h ≠ 0 :=
  WeierstrassCurve.Affine.Point.some_ne_zero _

theorem exists_of_ne_zero {P : G1} (h : P ≠ 0) : ∃ x y, ∃ h' : OnCurve x y, P = mkPt x y h' := by
  cases P with
  | zero => exact absurd rfl h
  | some x y hn => exact ⟨x, y, (nonsingular_iff x y).1 hn, rfl⟩

theorem G1.cases (P : G1) : P = 0 ∨ ∃ x y, ∃ h' : OnCurve x y, P = mkPt x y h' := by
  by_cases h : P = 0
  · exact .inl h
  · exact .inr (exists_of_ne_zero h)

theorem enc_injective : Function.Injective enc := by
  intro P Q h
  rcases G1.cases P with rfl | ⟨x, y, hxy, rfl⟩ <;> rcases G1.cases Q with rfl | ⟨x', y', hxy', rfl⟩
  · rfl
  · simp only [enc_zero, enc_mkPt, Prod.mk.injEq] at h
    exact absurd h.1.symm hxy'.x_ne
  · simp only [enc_zero, enc_mkPt, Prod.mk.injEq] at h
    exact absurd h.1 hxy.x_ne
  · simp only [enc_mkPt, Prod.mk.injEq] at h
    obtain ⟨rfl, rfl⟩ := h
    rfl

theorem validEnc_enc (P : G1) : ValidEnc (enc P) := by
  rcases G1.cases P with rfl | ⟨x, y, hxy, rfl⟩
  · exact .inr rfl
  · exact .inl hxy

theorem validEnc_iff (c : Fp × Fp) : ValidEnc c ↔ ∃ P : G1, enc P = c := by
  constructor
  · rintro (h | h)
    · exact ⟨mkPt _ _ h, rfl⟩
    · exact ⟨0, h.symm⟩
  · rintro ⟨P, rfl⟩
    exact validEnc_enc P

/-- The point of a valid encoding (0 on invalid pairs; only used on valid ones). -/
def dec (c : Fp × Fp) : G1 := if h : OnCurve c.1 c.2 then mkPt c.1 c.2 h else 0

theorem dec_enc (P : G1) : dec (enc P) = P := by
  rcases G1.cases P with rfl | ⟨x, y, hxy, rfl⟩
  · simp [dec, not_onCurve_zero]
  · simp [dec, hxy]

theorem enc_dec {c : Fp × Fp} (h : ValidEnc c) : enc (dec c) = c := by
  obtain ⟨P, rfl⟩ := (validEnc_iff c).1 h
  rw [dec_enc]


/-- Canonical natural-number coordinates of a point ((0,0) for infinity). -/
def encN (P : G1) : ℕ × ℕ := ((enc P).1.val, (enc P).2.val)

/-- Inverse modulo p by Fermat. -/
def invN (x : ℕ) : ℕ := powMod pMod x (pMod - 2)

/-- Third point of the chord/tangent of slope `l` through (x1,y1), (x2,·), negated. -/
def chordN (l x1 y1 x2 : ℕ) : ℕ × ℕ :=
  let x3 := (l * l + 2 * pMod - x1 - x2) % pMod
  (x3, (l * (x1 + pMod - x3) + pMod - y1) % pMod)

/-- Addition on coordinate pairs. -/
def addN (P Q : ℕ × ℕ) : ℕ × ℕ :=
  bif Nat.beq P.1 0 then Q else bif Nat.beq Q.1 0 then P else
  bif Nat.beq P.1 Q.1 then
    bif Nat.beq ((P.2 + Q.2) % pMod) 0 then (0, 0)
    else chordN (3 * P.1 * P.1 * invN (2 * P.2) % pMod) P.1 P.2 Q.1
  else chordN ((Q.2 + pMod - P.2) * invN (Q.1 + pMod - P.1) % pMod) P.1 P.2 Q.1

/-- Double-and-add: `mulNAux fuel k P acc = acc + k•P`. -/
def mulNAux : ℕ → ℕ → ℕ × ℕ → ℕ × ℕ → ℕ × ℕ
  | 0, _, _, acc => acc
  | f+1, k, P, acc => bif Nat.beq k 0 then acc else
     mulNAux f (k/2) (addN P P) (bif Nat.beq (k % 2) 1 then addN acc P else acc)

def mulN (k : ℕ) (P : ℕ × ℕ) : ℕ × ℕ := mulNAux 256 k P (0, 0)

theorem invN_cast (x : ℕ) : ((invN x : ℕ) : Fp) = (x : Fp)⁻¹ := by
  rw [invN, powMod_cast _ _ _ (by decide +kernel)]
  by_cases h : (x : Fp) = 0
  · rw [h, inv_zero, zero_pow (by decide +kernel)]
  · apply eq_inv_of_mul_eq_one_left
    rw [← pow_succ, show pMod - 2 + 1 = pMod - 1 by decide +kernel]
    exact ZMod.pow_card_sub_one_eq_one h

theorem fp_val_lt (x : Fp) : x.val < pMod := ZMod.val_lt x

theorem chordN_eq (l : ℕ) (x1 y1 x2 : Fp) :
    chordN l x1.val y1.val x2.val =
      (((l : Fp)^2 - x1 - x2).val,
        ((l : Fp) * (x1 - ((l : Fp)^2 - x1 - x2)) - y1).val) := by
  have hx1 := fp_val_lt x1
  have hx2 := fp_val_lt x2
  have hy1 := fp_val_lt y1
  have h3 : (l * l + 2 * pMod - x1.val - x2.val) % pMod = ((l : Fp)^2 - x1 - x2).val := by
    rw [← ZMod.val_natCast]
    congr 1
    rw [Nat.cast_sub (by omega), Nat.cast_sub (by omega)]
    push_cast [ZMod.natCast_zmod_val, ZMod.natCast_self]
    ring
  unfold chordN
  simp only [h3]
  have hx3 := fp_val_lt ((l : Fp)^2 - x1 - x2)
  congr 1
  rw [← ZMod.val_natCast]
  congr 1
  rw [Nat.cast_sub (by omega), Nat.cast_add, Nat.cast_mul, Nat.cast_sub (by omega)]
  push_cast [ZMod.natCast_zmod_val, ZMod.natCast_self]
  ring

theorem enc_add_slope {x1 y1 x2 y2 : Fp} (h1 : OnCurve x1 y1) (h2 : OnCurve x2 y2)
    (h : ¬ (x1 = x2 ∧ y1 = -y2)) :
    enc (mkPt x1 y1 h1 + mkPt x2 y2 h2) =
      (let l := curve.slope x1 x2 y1 y2
       (l^2 - x1 - x2, l * (x1 - (l^2 - x1 - x2)) - y1)) := by
  unfold mkPt
  rw [WeierstrassCurve.Affine.Point.add_some (by simpa [WeierstrassCurve.Affine.negY, curve] using h)]
  simp only [enc]
  ext
  · simp [WeierstrassCurve.Affine.addX, curve]
  · simp [WeierstrassCurve.Affine.addY, WeierstrassCurve.Affine.negAddY,
      WeierstrassCurve.Affine.negY, WeierstrassCurve.Affine.addX, curve]
    ring

theorem fp_val_eq_zero_iff (x : Fp) : x.val = 0 ↔ x = 0 := ZMod.val_eq_zero x

theorem addN_encN (P Q : G1) : addN (encN P) (encN Q) = encN (P + Q) := by
  rcases G1.cases P with rfl | ⟨x1, y1, h1, rfl⟩
  · simp only [zero_add]
    unfold addN
    rw [beq_true (by simp [encN]), cond_true]
  rcases G1.cases Q with rfl | ⟨x2, y2, h2, rfl⟩
  · simp only [add_zero]
    unfold addN
    rw [beq_false, cond_false, beq_true (by simp [encN]), cond_true]
    simpa [encN] using h1.x_ne
  have e1 : encN (mkPt x1 y1 h1) = (x1.val, y1.val) := rfl
  have e2 : encN (mkPt x2 y2 h2) = (x2.val, y2.val) := rfl
  rw [e1, e2]
  unfold addN
  simp only []
  rw [beq_false (by simpa using h1.x_ne), cond_false, beq_false (by simpa using h2.x_ne), cond_false]
  by_cases hx : x1 = x2
  · subst hx
    rw [beq_true rfl, cond_true]
    by_cases hy : y1 = -y2
    · rw [beq_true, cond_true]
      · have : mkPt x1 y1 h1 + mkPt x1 y2 h2 = 0 := by
          unfold mkPt
          rw [WeierstrassCurve.Affine.Point.add_of_Y_eq rfl
            (by simpa [WeierstrassCurve.Affine.negY, curve] using hy)]
        rw [this]
        simp [encN]
      · have : ((y1.val + y2.val : ℕ) : Fp) = 0 := by
          push_cast [ZMod.natCast_zmod_val]; rw [hy]; ring
        rw [ZMod.natCast_eq_zero_iff] at this
        exact Nat.mod_eq_zero_of_dvd this
    · rw [beq_false, cond_false, chordN_eq]
      · have hs : curve.slope x1 x1 y1 y2 =
            ((3 * x1.val * x1.val * invN (2 * y1.val) % pMod : ℕ) : Fp) := by
          have hyy : y1 = y2 := by
            have : (y1 - y2) * (y1 + y2) = 0 := by
              unfold OnCurve at h1 h2
              linear_combination h1 - h2
            rcases mul_eq_zero.1 this with h | h
            · exact sub_eq_zero.1 h
            · exact absurd (eq_neg_of_add_eq_zero_left h) hy
          rw [WeierstrassCurve.Affine.slope_of_Y_ne rfl
            (by simpa [WeierstrassCurve.Affine.negY, curve] using hy)]
          rw [ZMod.natCast_mod]
          push_cast [ZMod.natCast_zmod_val, invN_cast]
          simp only [curve, WeierstrassCurve.Affine.negY]
          rw [div_eq_mul_inv]
          congr 1
          · ring
          · congr 1; ring
        unfold encN
        rw [enc_add_slope h1 h2 (by simpa using hy), hs]
      · intro h0
        apply hy
        have : ((y1.val + y2.val : ℕ) : Fp) = 0 := by
          rw [ZMod.natCast_eq_zero_iff]; exact Nat.dvd_of_mod_eq_zero h0
        push_cast [ZMod.natCast_zmod_val] at this
        exact eq_neg_of_add_eq_zero_left this
  · rw [beq_false, cond_false, chordN_eq]
    · have hs : curve.slope x1 x2 y1 y2 =
          (((y2.val + pMod - y1.val) * invN (x2.val + pMod - x1.val) % pMod : ℕ) : Fp) := by
        rw [WeierstrassCurve.Affine.slope_of_X_ne hx]
        have a1 := fp_val_lt x1
        have a2 := fp_val_lt y1
        rw [ZMod.natCast_mod, Nat.cast_mul, invN_cast, Nat.cast_sub (by omega), Nat.cast_sub (by omega)]
        push_cast [ZMod.natCast_zmod_val, ZMod.natCast_self]
        rw [div_eq_mul_inv, ← neg_sub y2 y1, ← neg_sub x2 x1, inv_neg, add_zero, add_zero]
        ring
      unfold encN
      rw [enc_add_slope h1 h2 (by tauto), hs]
    · intro h; exact hx (ZMod.val_injective _ h)

theorem mulNAux_encN : ∀ (f k : ℕ) (P A : G1), k < 2 ^ f →
    mulNAux f k (encN P) (encN A) = encN (A + k • P) := by
  intro f
  induction f with
  | zero => intro k P A h; obtain rfl : k = 0 := by simpa using h
            simp [mulNAux]
  | succ f ih =>
    intro k P A h
    rw [mulNAux]
    by_cases h0 : k = 0
    · subst h0; simp [show Nat.beq 0 0 = true from rfl]
    rw [beq_false h0, cond_false, addN_encN]
    have hk : k = k % 2 + (k / 2) * 2 := by omega
    have hlt : k / 2 < 2 ^ f := by rw [pow_succ] at h; omega
    rcases Nat.mod_two_eq_zero_or_one k with h2 | h2
    · rw [beq_false (by omega), cond_false, ih _ _ _ hlt]
      conv_rhs => rw [hk, h2, zero_add, mul_smul, two_smul]
    · rw [beq_true h2, cond_true, addN_encN, ih _ _ _ hlt]
      conv_rhs => rw [hk, h2, add_smul, mul_smul, two_smul, one_smul, ← add_assoc]

theorem mulN_encN (k : ℕ) (P : G1) (h : k < 2 ^ 256) : mulN k (encN P) = encN (k • P) := by
  have := mulNAux_encN 256 k P 0 h
  simpa [mulN, encN] using this

theorem encN_injective : Function.Injective encN := by
  intro P Q h
  apply enc_injective
  unfold encN at h
  simp only [Prod.mk.injEq] at h
  exact Prod.ext (ZMod.val_injective _ h.1) (ZMod.val_injective _ h.2)

theorem encN_zero : encN 0 = (0, 0) := by simp [encN]

/-- Subtraction modulo p. -/
def subN (a b : ℕ) : ℕ := (a + (pMod - b % pMod)) % pMod

theorem subN_cast (a b : ℕ) : ((subN a b : ℕ) : Fp) = (a : Fp) - b := by
  rw [subN, ZMod.natCast_mod, Nat.cast_add, Nat.cast_sub (Nat.mod_lt _ (by decide +kernel)).le, ZMod.natCast_self,
    ZMod.natCast_mod]
  ring

/-- The Jacobian state represents the point, unless its last part is 0. -/
def JRep (s : Jac) (P : G1) : Prop := (s.2.2 : Fp) ≠ 0 →
  P ≠ 0 ∧ (s.1 : Fp) = (enc P).1 * (s.2.2 : Fp) ^ 2 ∧ (s.2.1 : Fp) = (enc P).2 * (s.2.2 : Fp) ^ 3

def jdblX (X D : ℕ) : ℕ := subN (9 * (X * X % pMod) * (X * X % pMod)) (2 * D)

/-- Doubling. -/
def jdbl (s : Jac) : Jac :=
  let X := s.1
  let Y := s.2.1
  let B := Y * Y % pMod
  let D := 4 * X * B % pMod
  let X3 := jdblX X D
  mkJac X3 (subN (3 * (X * X % pMod) * subN D X3) (8 * B * B)) (2 * Y * s.2.2 % pMod)

/-- Addition of a point given by its coordinates. -/
def jadd (s : Jac) (Q : ℕ × ℕ) : Jac :=
  let X := s.1
  let Y := s.2.1
  let Z := s.2.2
  let ZZ := Z * Z % pMod
  let H := subN (Q.1 * ZZ) X
  let R := subN (Q.2 * (ZZ * Z % pMod)) Y
  let HH := H * H % pMod
  let HHH := HH * H % pMod
  let V := X * HH % pMod
  let X3 := subN (R * R) (HHH + 2 * V)
  mkJac X3 (subN (R * subN V X3) (Y * HHH)) (Z * H % pMod)

theorem enc_neg_mkPt {x y : Fp} (h : OnCurve x y) : enc (-mkPt x y h) = (x, -y) := by
  unfold mkPt
  rw [WeierstrassCurve.Affine.Point.neg_some]
  simp [enc, WeierstrassCurve.Affine.negY, curve]

theorem jdbl_rep {s : Jac} {P : G1} (h : JRep s P) : JRep (jdbl s) (P + P) := by
  intro hz
  unfold jdbl at hz ⊢
  simp only [mkJac_eq] at hz ⊢
  obtain ⟨X, Y, Z⟩ := s
  simp only [ZMod.natCast_mod, Nat.cast_mul, Nat.cast_ofNat] at hz
  have hZ : (Z : Fp) ≠ 0 := right_ne_zero_of_mul hz
  obtain ⟨hP, hx, hy⟩ := h hZ
  rcases G1.cases P with rfl | ⟨x, y, hc, rfl⟩
  · exact absurd rfl hP
  have e : enc (mkPt x y hc) = (x, y) := rfl
  rw [e] at hx hy
  simp only [] at hx hy
  have hy0 : y ≠ 0 := hc.y_ne
  have hyy : y ≠ -y := by
    intro h
    have : 2 * y = 0 := by linear_combination h
    rcases mul_eq_zero.1 this with h | h
    · exact fp_two_ne h
    · exact hy0 h
  have hs := enc_add_slope hc hc (fun h => hyy h.2)
  have hsl : curve.slope x x y y = 3 * x ^ 2 / (2 * y) := by
    rw [WeierstrassCurve.Affine.slope_of_Y_ne rfl (by simpa [WeierstrassCurve.Affine.negY, curve] using hyy)]
    simp only [curve, WeierstrassCurve.Affine.negY]
    congr 1 <;> ring
  rw [hsl] at hs
  refine ⟨?_, ?_⟩
  · intro h0
    have := congrArg enc (eq_neg_of_add_eq_zero_left h0)
    rw [enc_neg_mkPt, e, Prod.mk.injEq] at this
    exact hyy this.2
  rw [hs]
  simp only [jdblX, subN_cast, ZMod.natCast_mod, Nat.cast_mul, Nat.cast_ofNat, hx, hy]
  have h2 := fp_two_ne
  constructor
  · field_simp
    ring
  · field_simp
    ring

theorem jadd_rep {s : Jac} {P Q : G1} (h : JRep s P) (hQ : Q ≠ 0) : JRep (jadd s (encN Q)) (P + Q) := by
  intro hz
  unfold jadd at hz ⊢
  simp only [mkJac_eq] at hz ⊢
  obtain ⟨X, Y, Z⟩ := s
  simp only [ZMod.natCast_mod, Nat.cast_mul, subN_cast] at hz
  have hZ : (Z : Fp) ≠ 0 := left_ne_zero_of_mul hz
  have hH := right_ne_zero_of_mul hz
  obtain ⟨hP, hx, hy⟩ := h hZ
  rcases G1.cases P with rfl | ⟨x, y, hc, rfl⟩
  · exact absurd rfl hP
  rcases G1.cases Q with rfl | ⟨x', y', hc', rfl⟩
  · exact absurd rfl hQ
  have e : enc (mkPt x y hc) = (x, y) := rfl
  have e' : encN (mkPt x' y' hc') = (x'.val, y'.val) := rfl
  rw [e] at hx hy
  simp only [] at hx hy
  rw [e'] at hH ⊢
  simp only [ZMod.natCast_zmod_val] at hH
  rw [hx] at hH
  have hne : x ≠ x' := by
    rintro rfl
    apply hH
    ring
  have hs := enc_add_slope hc hc' (fun h => hne h.1)
  rw [WeierstrassCurve.Affine.slope_of_X_ne hne] at hs
  have hd : x - x' ≠ 0 := sub_ne_zero.2 hne
  have hd' : x' - x ≠ 0 := sub_ne_zero.2 hne.symm
  refine ⟨?_, ?_⟩
  · intro h0
    have := congrArg enc (eq_neg_of_add_eq_zero_left h0)
    rw [enc_neg_mkPt, e, Prod.mk.injEq] at this
    exact hne this.1
  rw [hs]
  simp only [subN_cast, ZMod.natCast_mod, Nat.cast_mul, Nat.cast_add, Nat.cast_ofNat, hx, hy, ZMod.natCast_zmod_val]
  constructor
  · field_simp
    ring
  · field_simp
    ring

/-- Double-and-add from the top bit; `fuel` bounds the bit length of `k`. -/
def jmulAux : ℕ → ℕ → ℕ × ℕ → Jac
  | 0, _, _ => (0, 0, 0)
  | f + 1, k, P => bif Nat.beq k 1 then (P.1, P.2, 1) else
      bif Nat.beq (k % 2) 1 then jadd (jdbl (jmulAux f (k / 2) P)) P else jdbl (jmulAux f (k / 2) P)

theorem jmulAux_rep {P : G1} (hP : P ≠ 0) : ∀ f k, 0 < k → JRep (jmulAux f k (encN P)) (k • P)
  | 0, k, _ => fun h => absurd (by simp [jmulAux]) h
  | f + 1, k, hk => by
    unfold jmulAux
    by_cases h1 : k = 1
    · subst h1
      rw [beq_true rfl, cond_true, one_smul]
      intro _
      refine ⟨hP, ?_⟩
      simp [encN]
    · rw [beq_false h1, cond_false]
      have ih := jdbl_rep (jmulAux_rep hP f (k / 2) (by omega))
      have hk2 : k = k % 2 + (k / 2) * 2 := by omega
      rcases Nat.mod_two_eq_zero_or_one k with h2 | h2
      · rw [beq_false (by omega), cond_false]
        conv => arg 2; rw [hk2, h2, zero_add, mul_smul, two_smul, nsmul_add]
        exact ih
      · rw [beq_true h2, cond_true]
        conv => arg 2; rw [hk2, h2, add_smul, mul_smul, two_smul, one_smul, add_comm, nsmul_add]
        exact jadd_rep ih hP

/-- `k`·(x, y) in affine coordinates; `none` if a special case was met. -/
def jmul (k : ℕ) (P : ℕ × ℕ) : Option (ℕ × ℕ) :=
  let s := jmulAux 256 k P
  bif Nat.beq (s.2.2 % pMod) 0 then none else
    let i := invN s.2.2
    let ii := i * i % pMod
    some (s.1 * ii % pMod, s.2.1 * (ii * i % pMod) % pMod)

theorem jmul_encN {k : ℕ} {P : G1} {c : ℕ × ℕ} (hk : 0 < k) (hP : P ≠ 0) (h : jmul k (encN P) = some c) :
    c = encN (k • P) ∧ k • P ≠ 0 := by
  have hr := jmulAux_rep hP 256 k hk
  unfold jmul at h
  generalize jmulAux 256 k (encN P) = s at h hr
  simp only [] at h
  by_cases hz : s.2.2 % pMod = 0
  · rw [beq_true hz, cond_true] at h; cases h
  · rw [beq_false hz, cond_false, Option.some.injEq] at h
    have hz' : (s.2.2 : Fp) ≠ 0 := fp_natCast_ne_zero hz
    obtain ⟨h0, h1, h2⟩ := hr hz'
    refine ⟨?_, h0⟩
    have e1 : ((s.1 * (invN s.2.2 * invN s.2.2 % pMod) % pMod : ℕ) : Fp) = (enc (k • P)).1 := by
      rw [ZMod.natCast_mod, Nat.cast_mul, ZMod.natCast_mod, Nat.cast_mul, invN_cast, h1]
      field_simp
    have e2 : ((s.2.1 * (invN s.2.2 * invN s.2.2 % pMod * invN s.2.2 % pMod) % pMod : ℕ) : Fp) = (enc (k • P)).2 := by
      rw [ZMod.natCast_mod, Nat.cast_mul, ZMod.natCast_mod, Nat.cast_mul, ZMod.natCast_mod, Nat.cast_mul, invN_cast, h2]
      field_simp
    rw [← h, encN, ← e1, ← e2, ZMod.val_natCast_of_lt (Nat.mod_lt _ pMod_pos), ZMod.val_natCast_of_lt (Nat.mod_lt _ pMod_pos)]

/-- The base point of secp256k1 (SEC 2, 2.4.1). -/
def gen : G1 := mkPt 55066263022277343669578718895168534326250603453777594175500187360389116729240
  32670510020758816978083085130507043184471273380659243275938904335757337482424
  (by decide +kernel)

theorem gen_ne_zero : gen ≠ 0 := mkPt_ne_zero _ _ _

end Verif.Secp
