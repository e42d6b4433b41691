#!/usr/bin/env python3
"""Write lean/Verif/Math/Fp12.lean: kernel-computable arithmetic of Fp12 in the basis 1, w, ..., w^11."""
A=[f'a{i}' for i in range(12)]; B=[f'b{i}' for i in range(12)]; C=[f'c{k}' for k in range(23)]
def conv(k): return ' + '.join(f'a{i} * b{k-i}' for i in range(12) if 0<=k-i<12)
def poly(xs): return ' + '.join(f'{x} * w ^ {i}' for i,x in enumerate(xs))
def red(i):
    if i<5: return f'(c{i} - 82 * c{12+i} - 1476 * c{18+i})'
    if i==5: return '(c5 - 82 * c17)'
    if i<11: return f'(c{i} + 18 * c{6+i} + 242 * c{12+i})'
    return '(c11 + 18 * c17)'
def redN(i):
    if i<5: return f'(c{i} + 82 * negN c{12+i} + 1476 * negN c{18+i}) % pMod'
    if i==5: return '(c5 + 82 * negN c17) % pMod'
    if i<11: return f'(c{i} + 18 * c{6+i} + 242 * c{12+i}) % pMod'
    return '(c11 + 18 * c17) % pMod'
force=lambda e,x: f'forceN ({e}) fun {x} =>'
mk='\n'.join('  '+force(x,x) for x in A)+'\n  ⟨'+', '.join(A)+'⟩'
mul='\n'.join('  '+force(conv(k),f'c{k}') for k in range(23))+'\n  mkF12 '+'\n    '.join(f'({redN(i)})' for i in range(12))
coef=', '.join(A)
s=f'''/-
Kernel-computable arithmetic of Fp12 in the basis 1, w, …, w¹¹, proved equal to the arithmetic of Mathlib's `AdjoinRoot`.
Written by tools/gen_fp12.py. Models nothing of /repo.
-/
import Verif.Spec.Ate
import Verif.Spec.Hashes
import Verif.Math.Compute
import Mathlib.Tactic.LinearCombination

namespace Verif
open Polynomial Ate

theorem w_pow : w ^ 12 = 18 * w ^ 6 - 82 := by
  have h : aeval (AdjoinRoot.root fp12Poly) fp12Poly = 0 := by
    rw [AdjoinRoot.aeval_eq, AdjoinRoot.mk_self]
  rw [fp12Poly] at h
  simp only [map_add, map_sub, map_mul, map_pow, aeval_X, map_ofNat] at h
  rw [← fp12Poly] at h
  change w ^ 12 - 18 * w ^ 6 + 82 = 0 at h
  linear_combination h

theorem emb_natCast (k : ℕ) : emb (k : Fp) = (k : Fp12) := by rw [emb, map_natCast]

theorem natCast_mod12 (k : ℕ) : ((k % pMod : ℕ) : Fp12) = (k : Fp12) := by
  rw [← emb_natCast, ← emb_natCast, ZMod.natCast_mod]

/-- -c modulo p. -/
def negN (c : ℕ) : ℕ := pMod - c % pMod

theorem negN_cast (c : ℕ) : ((negN c : ℕ) : Fp) = -(c : Fp) := by
  rw [negN, Nat.cast_sub (Nat.mod_lt _ (by decide +kernel)).le, ZMod.natCast_self, ZMod.natCast_mod, zero_sub]

theorem negN_cast12 (c : ℕ) : ((negN c : ℕ) : Fp12) = -(c : Fp12) := by
  rw [← emb_natCast, negN_cast, emb, map_neg, map_natCast]

/-- An element of Fp12 by its coordinates. -/
structure F12 where
  {chr(10).join('  '+x+' : ℕ' for x in A).strip()}

/-- The element with given coordinates. -/
noncomputable def F12.val : F12 → Fp12
  | ⟨{coef}⟩ => {poly(A)}

/-- Build an element, evaluating its coordinates. -/
def mkF12 ({' '.join(A)} : ℕ) : F12 :=
{mk}

theorem forceN_id {{α : Sort*}} (n : ℕ) (k : ℕ → α) : forceN n k = k n := by cases n <;> rfl

theorem mkF12_val ({' '.join(A)} : ℕ) : (mkF12 {' '.join(A)}).val = {poly(A)} := by
  unfold mkF12
  simp only [forceN_id]
  rfl

theorem mul_conv {{R : Type*}} [CommRing R] (w : R) ({' '.join(A+B)} : R) :
    ({poly(A)}) * ({poly(B)}) =
    {poly([f'({conv(k)})' for k in range(23)])} := by
  ring

theorem red_conv {{R : Type*}} [CommRing R] (w : R) (hw : w ^ 12 = 18 * w ^ 6 - 82) ({' '.join(C)} : R) :
    {poly(C)} =
    {poly([red(i) for i in range(12)])} := by
  linear_combination ({' + '.join([f'c{12+k} * w ^ {k}' for k in range(6)]+[f'c{18+j} * (w ^ {6+j} + 18 * w ^ {j})' for j in range(5)])}) * hw

/-- Product. -/
def mul12 : F12 → F12 → F12
  | ⟨{', '.join(A)}⟩, ⟨{', '.join(B)}⟩ =>
{mul}

theorem mul12_val (a b : F12) : (mul12 a b).val = a.val * b.val := by
  obtain ⟨{', '.join(A)}⟩ := a
  obtain ⟨{', '.join(B)}⟩ := b
  unfold mul12
  simp only [forceN_id]
  rw [mkF12_val, F12.val, F12.val, mul_conv, red_conv w w_pow]
  simp only [natCast_mod12, Nat.cast_add, Nat.cast_mul, negN_cast12, Nat.cast_ofNat]
  simp only [mul_neg, ← sub_eq_add_neg]

end Verif
'''
open('/verif/lean/Verif/Math/Fp12.lean','w').write(s)
