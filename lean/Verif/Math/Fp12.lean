/-
Kernel-computable arithmetic of Fp12 in the basis 1, w, …, w¹¹, proved equal to the arithmetic of Mathlib's `AdjoinRoot`.
Written by tools/gen_fp12.py. Models nothing of /repo.
-/
import Verif.Spec.Ate
import Verif.Spec.Hashes
import Verif.Math.Compute
import Mathlib.Tactic.LinearCombination

namespace Verif
open Polynomial Ate

theorem w_pow : w ^ 12 = 18 * w ^ 6 - 82 := by
  have h : aeval (AdjoinRoot.root fp12Poly) fp12Poly = 0 := by
    rw [AdjoinRoot.aeval_eq, AdjoinRoot.mk_self]
  rw [fp12Poly] at h
  simp only [map_add, map_sub, map_mul, map_pow, aeval_X, map_ofNat] at h
  rw [← fp12Poly] at h
  change w ^ 12 - 18 * w ^ 6 + 82 = 0 at h
  linear_combination h

theorem emb_natCast (k : ℕ) : emb (k : Fp) = (k : Fp12) := by rw [emb, map_natCast]

theorem natCast_mod12 (k : ℕ) : ((k % pMod : ℕ) : Fp12) = (k : Fp12) := by
  rw [← emb_natCast, ← emb_natCast, ZMod.natCast_mod]

/-- -c modulo p. -/
def negN (c : ℕ) : ℕ := pMod - c % pMod

theorem negN_cast (c : ℕ) : ((negN c : ℕ) : Fp) = -(c : Fp) := by
  rw [negN, Nat.cast_sub (Nat.mod_lt _ (by decide +kernel)).le, ZMod.natCast_self, ZMod.natCast_mod, zero_sub]

theorem negN_cast12 (c : ℕ) : ((negN c : ℕ) : Fp12) = -(c : Fp12) := by
  rw [← emb_natCast, negN_cast, emb, map_neg, map_natCast]

/-- An element of Fp12 by its coordinates. -/
structure F12 where
  a0 : ℕ
  a1 : ℕ
  a2 : ℕ
  a3 : ℕ
  a4 : ℕ
  a5 : ℕ
  a6 : ℕ
  a7 : ℕ
  a8 : ℕ
  a9 : ℕ
  a10 : ℕ
  a11 : ℕ

/-- The element with given coordinates. -/
noncomputable def F12.val : F12 → Fp12
  | ⟨a0, a1, a2, a3, a4, a5, a6, a7, a8, a9, a10, a11⟩ => a0 * w ^ 0 + a1 * w ^ 1 + a2 * w ^ 2 + a3 * w ^ 3 + a4 * w ^ 4 + a5 * w ^ 5 + a6 * w ^ 6 + a7 * w ^ 7 + a8 * w ^ 8 + a9 * w ^ 9 + a10 * w ^ 10 + a11 * w ^ 11

/-- Build an element, evaluating its coordinates. -/
def mkF12 (a0 a1 a2 a3 a4 a5 a6 a7 a8 a9 a10 a11 : ℕ) : F12 :=
  forceN (a0) fun a0 =>
  forceN (a1) fun a1 =>
  forceN (a2) fun a2 =>
  forceN (a3) fun a3 =>
  forceN (a4) fun a4 =>
  forceN (a5) fun a5 =>
  forceN (a6) fun a6 =>
  forceN (a7) fun a7 =>
  forceN (a8) fun a8 =>
  forceN (a9) fun a9 =>
  forceN (a10) fun a10 =>
  forceN (a11) fun a11 =>
  ⟨a0, a1, a2, a3, a4, a5, a6, a7, a8, a9, a10, a11⟩

theorem forceN_id {α : Sort*} (n : ℕ) (k : ℕ → α) : forceN n k = k n := by cases n <;> rfl

theorem mkF12_val (a0 a1 a2 a3 a4 a5 a6 a7 a8 a9 a10 a11 : ℕ) : (mkF12 a0 a1 a2 a3 a4 a5 a6 a7 a8 a9 a10 a11).val = a0 * w ^ 0 + a1 * w ^ 1 + a2 * w ^ 2 + a3 * w ^ 3 + a4 * w ^ 4 + a5 * w ^ 5 + a6 * w ^ 6 + a7 * w ^ 7 + a8 * w ^ 8 + a9 * w ^ 9 + a10 * w ^ 10 + a11 * w ^ 11 := by
  unfold mkF12
  simp only [forceN_id]
  rfl

theorem mul_conv {R : Type*} [CommRing R] (w : R) (a0 a1 a2 a3 a4 a5 a6 a7 a8 a9 a10 a11 b0 b1 b2 b3 b4 b5 b6 b7 b8 b9 b10 b11 : R) :
    (a0 * w ^ 0 + a1 * w ^ 1 + a2 * w ^ 2 + a3 * w ^ 3 + a4 * w ^ 4 + a5 * w ^ 5 + a6 * w ^ 6 + a7 * w ^ 7 + a8 * w ^ 8 + a9 * w ^ 9 + a10 * w ^ 10 + a11 * w ^ 11) * (b0 * w ^ 0 + b1 * w ^ 1 + b2 * w ^ 2 + b3 * w ^ 3 + b4 * w ^ 4 + b5 * w ^ 5 + b6 * w ^ 6 + b7 * w ^ 7 + b8 * w ^ 8 + b9 * w ^ 9 + b10 * w ^ 10 + b11 * w ^ 11) =
    (a0 * b0) * w ^ 0 + (a0 * b1 + a1 * b0) * w ^ 1 + (a0 * b2 + a1 * b1 + a2 * b0) * w ^ 2 + (a0 * b3 + a1 * b2 + a2 * b1 + a3 * b0) * w ^ 3 + (a0 * b4 + a1 * b3 + a2 * b2 + a3 * b1 + a4 * b0) * w ^ 4 + (a0 * b5 + a1 * b4 + a2 * b3 + a3 * b2 + a4 * b1 + a5 * b0) * w ^ 5 + (a0 * b6 + a1 * b5 + a2 * b4 + a3 * b3 + a4 * b2 + a5 * b1 + a6 * b0) * w ^ 6 + (a0 * b7 + a1 * b6 + a2 * b5 + a3 * b4 + a4 * b3 + a5 * b2 + a6 * b1 + a7 * b0) * w ^ 7 + (a0 * b8 + a1 * b7 + a2 * b6 + a3 * b5 + a4 * b4 + a5 * b3 + a6 * b2 + a7 * b1 + a8 * b0) * w ^ 8 + (a0 * b9 + a1 * b8 + a2 * b7 + a3 * b6 + a4 * b5 + a5 * b4 + a6 * b3 + a7 * b2 + a8 * b1 + a9 * b0) * w ^ 9 + (a0 * b10 + a1 * b9 + a2 * b8 + a3 * b7 + a4 * b6 + a5 * b5 + a6 * b4 + a7 * b3 + a8 * b2 + a9 * b1 + a10 * b0) * w ^ 10 + (a0 * b11 + a1 * b10 + a2 * b9 + a3 * b8 + a4 * b7 + a5 * b6 + a6 * b5 + a7 * b4 + a8 * b3 + a9 * b2 + a10 * b1 + a11 * b0) * w ^ 11 + (a1 * b11 + a2 * b10 + a3 * b9 + a4 * b8 + a5 * b7 + a6 * b6 + a7 * b5 + a8 * b4 + a9 * b3 + a10 * b2 + a11 * b1) * w ^ 12 + (a2 * b11 + a3 * b10 + a4 * b9 + a5 * b8 + a6 * b7 + a7 * b6 + a8 * b5 + a9 * b4 + a10 * b3 + a11 * b2) * w ^ 13 + (a3 * b11 + a4 * b10 + a5 * b9 + a6 * b8 + a7 * b7 + a8 * b6 + a9 * b5 + a10 * b4 + a11 * b3) * w ^ 14 + (a4 * b11 + a5 * b10 + a6 * b9 + a7 * b8 + a8 * b7 + a9 * b6 + a10 * b5 + a11 * b4) * w ^ 15 + (a5 * b11 + a6 * b10 + a7 * b9 + a8 * b8 + a9 * b7 + a10 * b6 + a11 * b5) * w ^ 16 + (a6 * b11 + a7 * b10 + a8 * b9 + a9 * b8 + a10 * b7 + a11 * b6) * w ^ 17 + (a7 * b11 + a8 * b10 + a9 * b9 + a10 * b8 + a11 * b7) * w ^ 18 + (a8 * b11 + a9 * b10 + a10 * b9 + a11 * b8) * w ^ 19 + (a9 * b11 + a10 * b10 + a11 * b9) * w ^ 20 + (a10 * b11 + a11 * b10) * w ^ 21 + (a11 * b11) * w ^ 22 := by
  ring

theorem red_conv {R : Type*} [CommRing R] (w : R) (hw : w ^ 12 = 18 * w ^ 6 - 82) (c0 c1 c2 c3 c4 c5 c6 c7 c8 c9 c10 c11 c12 c13 c14 c15 c16 c17 c18 c19 c20 c21 c22 : R) :
    c0 * w ^ 0 + c1 * w ^ 1 + c2 * w ^ 2 + c3 * w ^ 3 + c4 * w ^ 4 + c5 * w ^ 5 + c6 * w ^ 6 + c7 * w ^ 7 + c8 * w ^ 8 + c9 * w ^ 9 + c10 * w ^ 10 + c11 * w ^ 11 + c12 * w ^ 12 + c13 * w ^ 13 + c14 * w ^ 14 + c15 * w ^ 15 + c16 * w ^ 16 + c17 * w ^ 17 + c18 * w ^ 18 + c19 * w ^ 19 + c20 * w ^ 20 + c21 * w ^ 21 + c22 * w ^ 22 =
    (c0 - 82 * c12 - 1476 * c18) * w ^ 0 + (c1 - 82 * c13 - 1476 * c19) * w ^ 1 + (c2 - 82 * c14 - 1476 * c20) * w ^ 2 + (c3 - 82 * c15 - 1476 * c21) * w ^ 3 + (c4 - 82 * c16 - 1476 * c22) * w ^ 4 + (c5 - 82 * c17) * w ^ 5 + (c6 + 18 * c12 + 242 * c18) * w ^ 6 + (c7 + 18 * c13 + 242 * c19) * w ^ 7 + (c8 + 18 * c14 + 242 * c20) * w ^ 8 + (c9 + 18 * c15 + 242 * c21) * w ^ 9 + (c10 + 18 * c16 + 242 * c22) * w ^ 10 + (c11 + 18 * c17) * w ^ 11 := by
  linear_combination (c12 * w ^ 0 + c13 * w ^ 1 + c14 * w ^ 2 + c15 * w ^ 3 + c16 * w ^ 4 + c17 * w ^ 5 + c18 * (w ^ 6 + 18 * w ^ 0) + c19 * (w ^ 7 + 18 * w ^ 1) + c20 * (w ^ 8 + 18 * w ^ 2) + c21 * (w ^ 9 + 18 * w ^ 3) + c22 * (w ^ 10 + 18 * w ^ 4)) * hw

/-- Product. -/
def mul12 : F12 → F12 → F12
  | ⟨a0, a1, a2, a3, a4, a5, a6, a7, a8, a9, a10, a11⟩, ⟨b0, b1, b2, b3, b4, b5, b6, b7, b8, b9, b10, b11⟩ =>
  forceN (a0 * b0) fun c0 =>
  forceN (a0 * b1 + a1 * b0) fun c1 =>
  forceN (a0 * b2 + a1 * b1 + a2 * b0) fun c2 =>
  forceN (a0 * b3 + a1 * b2 + a2 * b1 + a3 * b0) fun c3 =>
  forceN (a0 * b4 + a1 * b3 + a2 * b2 + a3 * b1 + a4 * b0) fun c4 =>
  forceN (a0 * b5 + a1 * b4 + a2 * b3 + a3 * b2 + a4 * b1 + a5 * b0) fun c5 =>
  forceN (a0 * b6 + a1 * b5 + a2 * b4 + a3 * b3 + a4 * b2 + a5 * b1 + a6 * b0) fun c6 =>
  forceN (a0 * b7 + a1 * b6 + a2 * b5 + a3 * b4 + a4 * b3 + a5 * b2 + a6 * b1 + a7 * b0) fun c7 =>
  forceN (a0 * b8 + a1 * b7 + a2 * b6 + a3 * b5 + a4 * b4 + a5 * b3 + a6 * b2 + a7 * b1 + a8 * b0) fun c8 =>
  forceN (a0 * b9 + a1 * b8 + a2 * b7 + a3 * b6 + a4 * b5 + a5 * b4 + a6 * b3 + a7 * b2 + a8 * b1 + a9 * b0) fun c9 =>
  forceN (a0 * b10 + a1 * b9 + a2 * b8 + a3 * b7 + a4 * b6 + a5 * b5 + a6 * b4 + a7 * b3 + a8 * b2 + a9 * b1 + a10 * b0) fun c10 =>
  forceN (a0 * b11 + a1 * b10 + a2 * b9 + a3 * b8 + a4 * b7 + a5 * b6 + a6 * b5 + a7 * b4 + a8 * b3 + a9 * b2 + a10 * b1 + a11 * b0) fun c11 =>
  forceN (a1 * b11 + a2 * b10 + a3 * b9 + a4 * b8 + a5 * b7 + a6 * b6 + a7 * b5 + a8 * b4 + a9 * b3 + a10 * b2 + a11 * b1) fun c12 =>
  forceN (a2 * b11 + a3 * b10 + a4 * b9 + a5 * b8 + a6 * b7 + a7 * b6 + a8 * b5 + a9 * b4 + a10 * b3 + a11 * b2) fun c13 =>
  forceN (a3 * b11 + a4 * b10 + a5 * b9 + a6 * b8 + a7 * b7 + a8 * b6 + a9 * b5 + a10 * b4 + a11 * b3) fun c14 =>
  forceN (a4 * b11 + a5 * b10 + a6 * b9 + a7 * b8 + a8 * b7 + a9 * b6 + a10 * b5 + a11 * b4) fun c15 =>
  forceN (a5 * b11 + a6 * b10 + a7 * b9 + a8 * b8 + a9 * b7 + a10 * b6 + a11 * b5) fun c16 =>
  forceN (a6 * b11 + a7 * b10 + a8 * b9 + a9 * b8 + a10 * b7 + a11 * b6) fun c17 =>
  forceN (a7 * b11 + a8 * b10 + a9 * b9 + a10 * b8 + a11 * b7) fun c18 =>
  forceN (a8 * b11 + a9 * b10 + a10 * b9 + a11 * b8) fun c19 =>
  forceN (a9 * b11 + a10 * b10 + a11 * b9) fun c20 =>
  forceN (a10 * b11 + a11 * b10) fun c21 =>
  forceN (a11 * b11) fun c22 =>
  mkF12 ((c0 + 82 * negN c12 + 1476 * negN c18) % pMod)
    ((c1 + 82 * negN c13 + 1476 * negN c19) % pMod)
    ((c2 + 82 * negN c14 + 1476 * negN c20) % pMod)
    ((c3 + 82 * negN c15 + 1476 * negN c21) % pMod)
    ((c4 + 82 * negN c16 + 1476 * negN c22) % pMod)
    ((c5 + 82 * negN c17) % pMod)
    ((c6 + 18 * c12 + 242 * c18) % pMod)
    ((c7 + 18 * c13 + 242 * c19) % pMod)
    ((c8 + 18 * c14 + 242 * c20) % pMod)
    ((c9 + 18 * c15 + 242 * c21) % pMod)
    ((c10 + 18 * c16 + 242 * c22) % pMod)
    ((c11 + 18 * c17) % pMod)

theorem mul12_val (a b : F12) : (mul12 a b).val = a.val * b.val := by
  obtain ⟨a0, a1, a2, a3, a4, a5, a6, a7, a8, a9, a10, a11⟩ := a
  obtain ⟨b0, b1, b2, b3, b4, b5, b6, b7, b8, b9, b10, b11⟩ := b
  unfold mul12
  simp only [forceN_id]
  rw [mkF12_val, F12.val, F12.val, mul_conv, red_conv w w_pow]
  simp only [natCast_mod12, Nat.cast_add, Nat.cast_mul, negN_cast12, Nat.cast_ofNat]
  simp only [mul_neg, ← sub_eq_add_neg]

end Verif
