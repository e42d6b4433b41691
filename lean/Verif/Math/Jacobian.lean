/-
Division-free scalar multiplication in Jacobian coordinates, kernel-computable and proved equal to Mathlib's group law.
Used to evaluate concrete runs. Models nothing of /repo.
-/
import Verif.Math.Compute
import Mathlib.Tactic.FieldSimp
import Mathlib.Tactic.LinearCombination

namespace Verif

/-- Subtraction modulo p. -/
def subN (a b : ℕ) : ℕ := (a + (pMod - b % pMod)) % pMod

theorem subN_cast (a b : ℕ) : ((subN a b : ℕ) : Fp) = (a : Fp) - b := by
  rw [subN, ZMod.natCast_mod, Nat.cast_add, Nat.cast_sub (Nat.mod_lt _ (by decide +kernel)).le, ZMod.natCast_self,
    ZMod.natCast_mod]
  ring

/-- A state (X, Y, Z) for the point (X/Z², Y/Z³); Z = 0 means that a special case occurred and nothing is known. -/
abbrev Jac := ℕ × ℕ × ℕ

def JRep (s : Jac) (P : G1) : Prop := (s.2.2 : Fp) ≠ 0 →
  P ≠ 0 ∧ (s.1 : Fp) = (enc P).1 * (s.2.2 : Fp) ^ 2 ∧ (s.2.1 : Fp) = (enc P).2 * (s.2.2 : Fp) ^ 3

/-- Build a state, evaluating its parts. -/
def mkJac (X Y Z : ℕ) : Jac :=
  bif Nat.beq X 0 then (X, Y, Z) else bif Nat.beq Y 0 then (X, Y, Z) else bif Nat.beq Z 0 then (X, Y, Z) else (X, Y, Z)

theorem mkJac_eq (X Y Z : ℕ) : mkJac X Y Z = (X, Y, Z) := by
  unfold mkJac
  cases Nat.beq X 0 <;> cases Nat.beq Y 0 <;> cases Nat.beq Z 0 <;> rfl

def jdblX (X D : ℕ) : ℕ := subN (9 * (X * X % pMod) * (X * X % pMod)) (2 * D)

/-- Doubling. -/
def jdbl (s : Jac) : Jac :=
  let X := s.1
  let Y := s.2.1
  let B := Y * Y % pMod
  let D := 4 * X * B % pMod
  let X3 := jdblX X D
  mkJac X3 (subN (3 * (X * X % pMod) * subN D X3) (8 * B * B)) (2 * Y * s.2.2 % pMod)

/-- Addition of a point given by its coordinates. -/
def jadd (s : Jac) (Q : ℕ × ℕ) : Jac :=
  let X := s.1
  let Y := s.2.1
  let Z := s.2.2
  let ZZ := Z * Z % pMod
  let H := subN (Q.1 * ZZ) X
  let R := subN (Q.2 * (ZZ * Z % pMod)) Y
  let HH := H * H % pMod
  let HHH := HH * H % pMod
  let V := X * HH % pMod
  let X3 := subN (R * R) (HHH + 2 * V)
  mkJac X3 (subN (R * subN V X3) (Y * HHH)) (Z * H % pMod)

theorem enc_neg_mkPt {x y : Fp} (h : OnCurve x y) : enc (-mkPt x y h) = (x, -y) := by
  unfold mkPt
  rw [WeierstrassCurve.Affine.Point.neg_some]
  simp [enc, WeierstrassCurve.Affine.negY, curve]

theorem jdbl_rep {s : Jac} {P : G1} (h : JRep s P) : JRep (jdbl s) (P + P) := by
  intro hz
  unfold jdbl at hz ⊢
  simp only [mkJac_eq] at hz ⊢
  obtain ⟨X, Y, Z⟩ := s
  simp only [ZMod.natCast_mod, Nat.cast_mul, Nat.cast_ofNat] at hz
  have hZ : (Z : Fp) ≠ 0 := right_ne_zero_of_mul hz
  obtain ⟨hP, hx, hy⟩ := h hZ
  rcases G1.cases P with rfl | ⟨x, y, hc, rfl⟩
  · exact absurd rfl hP
  have e : enc (mkPt x y hc) = (x, y) := rfl
  rw [e] at hx hy
  simp only [] at hx hy
  have hy0 : y ≠ 0 := hc.y_ne
  have hyy : y ≠ -y := by
    intro h
    have : 2 * y = 0 := by linear_combination h
    rcases mul_eq_zero.1 this with h | h
    · exact fp_two_ne h
    · exact hy0 h
  have hs := enc_add_slope hc hc (fun h => hyy h.2)
  have hsl : curve.slope x x y y = 3 * x ^ 2 / (2 * y) := by
    rw [WeierstrassCurve.Affine.slope_of_Y_ne rfl (by simpa [WeierstrassCurve.Affine.negY, curve] using hyy)]
    simp only [curve, WeierstrassCurve.Affine.negY]
    congr 1 <;> ring
  rw [hsl] at hs
  refine ⟨?_, ?_⟩
  · intro h0
    have := congrArg enc (eq_neg_of_add_eq_zero_left h0)
    rw [enc_neg_mkPt, e, Prod.mk.injEq] at this
    exact hyy this.2
  rw [hs]
  simp only [jdblX, subN_cast, ZMod.natCast_mod, Nat.cast_mul, Nat.cast_ofNat, hx, hy]
  have h2 := fp_two_ne
  constructor
  · field_simp
    ring
  · field_simp
    ring

theorem jadd_rep {s : Jac} {P Q : G1} (h : JRep s P) (hQ : Q ≠ 0) : JRep (jadd s (encN Q)) (P + Q) := by
  intro hz
  unfold jadd at hz ⊢
  simp only [mkJac_eq] at hz ⊢
  obtain ⟨X, Y, Z⟩ := s
  simp only [ZMod.natCast_mod, Nat.cast_mul, subN_cast] at hz
  have hZ : (Z : Fp) ≠ 0 := left_ne_zero_of_mul hz
  have hH := right_ne_zero_of_mul hz
  obtain ⟨hP, hx, hy⟩ := h hZ
  rcases G1.cases P with rfl | ⟨x, y, hc, rfl⟩
  · exact absurd rfl hP
  rcases G1.cases Q with rfl | ⟨x', y', hc', rfl⟩
  · exact absurd rfl hQ
  have e : enc (mkPt x y hc) = (x, y) := rfl
  have e' : encN (mkPt x' y' hc') = (x'.val, y'.val) := rfl
  rw [e] at hx hy
  simp only [] at hx hy
  rw [e'] at hH ⊢
  simp only [ZMod.natCast_zmod_val] at hH
  rw [hx] at hH
  have hne : x ≠ x' := by
    rintro rfl
    apply hH
    ring
  have hs := enc_add_slope hc hc' (fun h => hne h.1)
  rw [WeierstrassCurve.Affine.slope_of_X_ne hne] at hs
  have hd : x - x' ≠ 0 := sub_ne_zero.2 hne
  have hd' : x' - x ≠ 0 := sub_ne_zero.2 hne.symm
  refine ⟨?_, ?_⟩
  · intro h0
    have := congrArg enc (eq_neg_of_add_eq_zero_left h0)
    rw [enc_neg_mkPt, e, Prod.mk.injEq] at this
    exact hne this.1
  rw [hs]
  simp only [subN_cast, ZMod.natCast_mod, Nat.cast_mul, Nat.cast_add, Nat.cast_ofNat, hx, hy, ZMod.natCast_zmod_val]
  constructor
  · field_simp
    ring
  · field_simp
    ring

/-- Double-and-add from the top bit; `fuel` bounds the bit length of `k`. -/
def jmulAux : ℕ → ℕ → ℕ × ℕ → Jac
  | 0, _, _ => (0, 0, 0)
  | f + 1, k, P => bif Nat.beq k 1 then (P.1, P.2, 1) else
      bif Nat.beq (k % 2) 1 then jadd (jdbl (jmulAux f (k / 2) P)) P else jdbl (jmulAux f (k / 2) P)

theorem jmulAux_rep {P : G1} (hP : P ≠ 0) : ∀ f k, 0 < k → JRep (jmulAux f k (encN P)) (k • P)
  | 0, k, _ => fun h => absurd (by simp [jmulAux]) h
  | f + 1, k, hk => by
    unfold jmulAux
    by_cases h1 : k = 1
    · subst h1
      rw [beq_true rfl, cond_true, one_smul]
      intro _
      refine ⟨hP, ?_⟩
      simp [encN]
    · rw [beq_false h1, cond_false]
      have ih := jdbl_rep (jmulAux_rep hP f (k / 2) (by omega))
      have hk2 : k = k % 2 + (k / 2) * 2 := by omega
      rcases Nat.mod_two_eq_zero_or_one k with h2 | h2
      · rw [beq_false (by omega), cond_false]
        conv => arg 2; rw [hk2, h2, zero_add, mul_smul, two_smul, nsmul_add]
        exact ih
      · rw [beq_true h2, cond_true]
        conv => arg 2; rw [hk2, h2, add_smul, mul_smul, two_smul, one_smul, add_comm, nsmul_add]
        exact jadd_rep ih hP

/-- `k`·(x, y) in affine coordinates; `none` if a special case was met. -/
def jmul (k : ℕ) (P : ℕ × ℕ) : Option (ℕ × ℕ) :=
  let s := jmulAux 256 k P
  bif Nat.beq (s.2.2 % pMod) 0 then none else
    let i := invN s.2.2
    let ii := i * i % pMod
    some (s.1 * ii % pMod, s.2.1 * (ii * i % pMod) % pMod)

theorem jmul_encN {k : ℕ} {P : G1} {c : ℕ × ℕ} (hk : 0 < k) (hP : P ≠ 0) (h : jmul k (encN P) = some c) :
    c = encN (k • P) ∧ k • P ≠ 0 := by
  have hr := jmulAux_rep hP 256 k hk
  unfold jmul at h
  generalize jmulAux 256 k (encN P) = s at h hr
  simp only [] at h
  by_cases hz : s.2.2 % pMod = 0
  · rw [beq_true hz, cond_true] at h; cases h
  · rw [beq_false hz, cond_false, Option.some.injEq] at h
    have hz' : (s.2.2 : Fp) ≠ 0 := fp_natCast_ne_zero hz
    obtain ⟨h0, h1, h2⟩ := hr hz'
    refine ⟨?_, h0⟩
    have e1 : ((s.1 * (invN s.2.2 * invN s.2.2 % pMod) % pMod : ℕ) : Fp) = (enc (k • P)).1 := by
      rw [ZMod.natCast_mod, Nat.cast_mul, ZMod.natCast_mod, Nat.cast_mul, invN_cast, h1]
      field_simp
    have e2 : ((s.2.1 * (invN s.2.2 * invN s.2.2 % pMod * invN s.2.2 % pMod) % pMod : ℕ) : Fp) = (enc (k • P)).2 := by
      rw [ZMod.natCast_mod, Nat.cast_mul, ZMod.natCast_mod, Nat.cast_mul, ZMod.natCast_mod, Nat.cast_mul, invN_cast, h2]
      field_simp
    rw [← h, encN, ← e1, ← e2, ZMod.val_natCast_of_lt (Nat.mod_lt _ pMod_pos), ZMod.val_natCast_of_lt (Nat.mod_lt _ pMod_pos)]

end Verif
