/- The evaluation domain: values of the constants of the code, Lagrange basis values. -/
import Verif.Lemmas.StepEqs
import Verif.Spec.Halo2
import Mathlib.RingTheory.RootsOfUnity.PrimitiveRoots

namespace Verif
open Halo2

/-- Equality of two naturals mod r gives equality in Fr. -/
theorem fr_eq_of_mod {m n : ℕ} (h : m % rMod = n % rMod) : (m : Fr) = (n : Fr) :=
  (ZMod.natCast_eq_natCast_iff' m n rMod).2 h

theorem fr_ne_of_mod {m n : ℕ} (h : m % rMod ≠ n % rMod) : (m : Fr) ≠ (n : Fr) :=
  fun h' => h ((ZMod.natCast_eq_natCast_iff' m n rMod).1 h')

theorem ω_eq : (kω1 : Fr) = ω := by
  have h := powMod_cast rMod 7 ((rMod - 1) / 2 ^ 23) (by decide +kernel)
  have h2 : (kω1 : Fr) = ((powMod rMod 7 ((rMod - 1) / 2 ^ 23) : ℕ) : Fr) := fr_eq_of_mod (by decide +kernel)
  rw [h2, ω, show (7 : Fr) = ((7 : ℕ) : Fr) by norm_cast]
  exact h

theorem δ_eq : (kδ : Fr) = δ := by
  have h := powMod_cast rMod 7 (2 ^ 28) (by decide +kernel)
  have h2 : (kδ : Fr) = ((powMod rMod 7 (2 ^ 28) : ℕ) : Fr) := fr_eq_of_mod (by decide +kernel)
  rw [h2, δ, show (7 : Fr) = ((7 : ℕ) : Fr) by norm_cast]
  exact h

theorem ω_ne : ω ≠ 0 := by
  rw [← ω_eq, ← Nat.cast_zero]
  exact fr_ne_of_mod (by decide +kernel)

theorem ω_neg {k : ℕ} {i : ℕ} (h : k * kω1 ^ i % rMod = 1 % rMod) : (k : Fr) = ω ^ (-(i : ℤ)) := by
  have h1 := fr_eq_of_mod h
  push_cast at h1
  rw [ω_eq] at h1
  rw [zpow_neg, zpow_natCast]
  exact eq_inv_of_mul_eq_one_left h1

theorem ωn1_eq : (kωn1 : Fr) = ω ^ (-1 : ℤ) := ω_neg (i := 1) (by decide +kernel)
theorem ωn2_eq : (kωn2 : Fr) = ω ^ (-2 : ℤ) := ω_neg (i := 2) (by decide +kernel)
theorem ωn3_eq : (kωn3 : Fr) = ω ^ (-3 : ℤ) := ω_neg (i := 3) (by decide +kernel)
theorem ωn4_eq : (kωn4 : Fr) = ω ^ (-4 : ℤ) := ω_neg (i := 4) (by decide +kernel)
theorem ωn5_eq : (kωn5 : Fr) = ω ^ (-5 : ℤ) := ω_neg (i := 5) (by decide +kernel)
theorem ωn6_eq : (kωn6 : Fr) = ω ^ (-6 : ℤ) := ω_neg (i := 6) (by decide +kernel)
theorem ω2_eq : (kω2 : Fr) = ω ^ (2 : ℤ) := by
  have h1 : (kω2 : Fr) = ((kω1 ^ 2 : ℕ) : Fr) := fr_eq_of_mod (by decide +kernel)
  rw [h1, Nat.cast_pow, ω_eq]
  exact (zpow_natCast ω 2).symm

theorem n_ne : (n : Fr) ≠ 0 := by
  rw [← Nat.cast_zero]
  exact fr_ne_of_mod (by decide +kernel)

theorem kl_eq {k w : ℕ} (h : k * n % rMod = w % rMod) : (k : Fr) = (w : Fr) / (n : Fr) := by
  have h1 := fr_eq_of_mod h
  rw [Nat.cast_mul] at h1
  exact eq_div_of_mul_eq n_ne h1

theorem kl0_eq : (kl0 : Fr) = 1 / (n : Fr) := by
  have := kl_eq (k := kl0) (w := 1) (by decide +kernel)
  rwa [Nat.cast_one] at this
theorem kl1_eq : (kl1 : Fr) = ω ^ (-1 : ℤ) / (n : Fr) := by rw [← ωn1_eq]; exact kl_eq (by decide +kernel)
theorem kl2_eq : (kl2 : Fr) = ω ^ (-2 : ℤ) / (n : Fr) := by rw [← ωn2_eq]; exact kl_eq (by decide +kernel)
theorem kl3_eq : (kl3 : Fr) = ω ^ (-3 : ℤ) / (n : Fr) := by rw [← ωn3_eq]; exact kl_eq (by decide +kernel)
theorem kl4_eq : (kl4 : Fr) = ω ^ (-4 : ℤ) / (n : Fr) := by rw [← ωn4_eq]; exact kl_eq (by decide +kernel)
theorem kl5_eq : (kl5 : Fr) = ω ^ (-5 : ℤ) / (n : Fr) := by rw [← ωn5_eq]; exact kl_eq (by decide +kernel)
theorem kl6_eq : (kl6 : Fr) = ω ^ (-6 : ℤ) / (n : Fr) := by rw [← ωn6_eq]; exact kl_eq (by decide +kernel)

theorem krm_eq {k m : ℕ} (h : (k + m) % rMod = 0 % rMod) : (k : Fr) = -(m : Fr) := by
  have h1 := fr_eq_of_mod h
  rw [Nat.cast_add, Nat.cast_zero] at h1
  exact eq_neg_of_add_eq_zero_left h1
theorem krm1_eq : (krm1 : Fr) = -1 := by have := krm_eq (k := krm1) (m := 1) (by decide +kernel); rwa [Nat.cast_one] at this
theorem krm2_eq : (krm2 : Fr) = -2 := by have := krm_eq (k := krm2) (m := 2) (by decide +kernel); rwa [Nat.cast_ofNat] at this
theorem krm3_eq : (krm3 : Fr) = -3 := by have := krm_eq (k := krm3) (m := 3) (by decide +kernel); rwa [Nat.cast_ofNat] at this

/-- ω has order exactly n. -/
theorem ω_pow_n : ω ^ n = 1 := by
  have h := powMod_cast rMod 7 (rMod - 1) (by decide +kernel)
  have h2 : ((powMod rMod 7 (rMod - 1) : ℕ) : Fr) = ((1 : ℕ) : Fr) := fr_eq_of_mod (by decide +kernel)
  rw [ω, ← pow_mul, show (rMod - 1) / 2 ^ 23 * n = rMod - 1 by decide +kernel, show (7 : Fr) = ((7 : ℕ) : Fr) by norm_cast,
    ← h, h2, Nat.cast_one]

theorem ω_primitive : IsPrimitiveRoot ω n := by
  rw [show n = 2 ^ (22 + 1) by decide]
  refine IsPrimitiveRoot.iff_orderOf.2 (orderOf_eq_prime_pow ?_ ω_pow_n)
  intro h
  have h1 := powMod_cast rMod 7 ((rMod - 1) / 2) (by decide +kernel)
  rw [ω, ← pow_mul, show (rMod - 1) / 2 ^ 23 * 2 ^ 22 = (rMod - 1) / 2 by decide +kernel,
    show (7 : Fr) = ((7 : ℕ) : Fr) by norm_cast] at h
  have h3 := h1.trans h
  rw [← Nat.cast_one] at h3
  exact absurd h3 (fr_ne_of_mod (by decide +kernel))

open Polynomial

section
variable {K : Type} [Field K] {ζ : K} {m : ℕ}

/-- X^m - 1 is the vanishing polynomial of the powers of a primitive m-th root of unity. -/
theorem nodal_pow (h : IsPrimitiveRoot ζ m) (hm : 0 < m) :
    Lagrange.nodal (Finset.range m) (fun j => ζ ^ j) = (X ^ m - 1 : K[X]) := by
  have hinj : Set.InjOn (fun j => ζ ^ j) (Finset.range m : Set ℕ) := fun i hi j hj hij =>
    h.pow_inj (by simpa using hi) (by simpa using hj) hij
  have hd2 : (X ^ m - 1 : K[X]).degree = m := by rw [← C_1]; exact degree_X_pow_sub_C hm 1
  refine eq_of_degree_sub_lt_of_eval_index_eq (Finset.range m) hinj ?_ ?_
  · have hd1 : (Lagrange.nodal (Finset.range m) (fun j => ζ ^ j)).degree = m := by
      rw [Lagrange.degree_nodal, Finset.card_range]
    rw [Finset.card_range, ← hd1]
    refine degree_sub_lt_left (hd1.trans hd2.symm) Lagrange.nodal_ne_zero ?_
    rw [Lagrange.nodal_monic.leadingCoeff, ← C_1, leadingCoeff_X_pow_sub_C hm]
  · intro i hi
    rw [Lagrange.eval_nodal_at_node hi]
    simp only [eval_sub, eval_pow, eval_X, eval_one]
    rw [← pow_mul, mul_comm i m, pow_mul, h.pow_eq_one, one_pow, sub_self]

/-- Barycentric form of a Lagrange basis polynomial of the domain. -/
theorem basis_pow (h : IsPrimitiveRoot ζ m) (hm : (m : K) ≠ 0) {i : ℕ} (hi : i < m) (x : K) :
    (Lagrange.basis (Finset.range m) (fun j => ζ ^ j) i).eval x * (x - ζ ^ i) = ζ ^ i / m * (x ^ m - 1) := by
  have hm0 : 0 < m := by omega
  have hz : ζ ≠ 0 := h.ne_zero (by omega)
  by_cases hx : x = ζ ^ i
  · subst hx
    rw [← pow_mul, mul_comm i m, pow_mul, h.pow_eq_one]
    simp
  · rw [Lagrange.eval_basis_not_at_node (by simpa using hi) hx, nodal_pow h hm0,
      Lagrange.nodalWeight_eq_eval_derivative_nodal (by simpa using hi), nodal_pow h hm0]
    have h1 : x - ζ ^ i ≠ 0 := sub_ne_zero.2 hx
    simp only [eval_sub, eval_pow, eval_X, eval_one, derivative_sub, derivative_X_pow, derivative_one, sub_zero, eval_mul,
      eval_C]
    have h2 : (ζ ^ i) ^ (m - 1) * ζ ^ i = 1 := by
      rw [← pow_succ, Nat.sub_add_cancel hm0, ← pow_mul, mul_comm i m, pow_mul, h.pow_eq_one, one_pow]
    have h3 : ((ζ ^ i) ^ (m - 1))⁻¹ = ζ ^ i := inv_eq_of_mul_eq_one_right h2
    rw [mul_inv, h3]
    field_simp

end

theorem lagrange_mul (i : ℕ) (hi : i < n) (x : Fr) : lagrange i x * (x - ω ^ i) = ω ^ i / n * (x ^ n - 1) :=
  basis_pow ω_primitive n_ne hi x

/-- x is outside the domain exactly when x^n ≠ 1. -/
theorem domain_iff (x : Fr) : (∃ i < n, x = ω ^ i) ↔ x ^ n = 1 := by
  constructor
  · rintro ⟨i, -, rfl⟩
    rw [← pow_mul, mul_comm, pow_mul, ω_pow_n, one_pow]
  · intro h
    have : NeZero n := ⟨by decide⟩
    obtain ⟨i, hi, rfl⟩ := ω_primitive.eq_pow_of_pow_eq_one h
    exact ⟨i, hi, rfl⟩

theorem ω_zpow_neg {k : ℕ} (hk : k ≤ n) : ω ^ (-(k : ℤ)) = ω ^ (n - k) := by
  rw [zpow_neg, zpow_natCast]
  refine inv_eq_of_mul_eq_one_right ?_
  rw [← pow_add, Nat.add_sub_cancel' hk, ω_pow_n]

end Verif
