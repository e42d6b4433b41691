/-
Fp12 = Fp[X]/(X¹² - 18X⁶ + 82) is a field. Models nothing of /repo.
-/
import Verif.Math.AteN
import Mathlib.RingTheory.Polynomial.UniqueFactorization
import Mathlib.FieldTheory.Finite.Basic

namespace Verif
open Polynomial Ate

theorem fp12Poly_natDegree : fp12Poly.natDegree = 12 := by
  unfold fp12Poly
  compute_degree!

theorem fp12Poly_ne : fp12Poly ≠ 0 := by
  intro h
  have := fp12Poly_natDegree
  rw [h, natDegree_zero] at this
  cases this

theorem emb2_pow (a : Fp2) : ∀ k, emb2 (pow2 a k) = emb2 a ^ k
  | 0 => by simp [pow2, emb2, emb]
  | k + 1 => by rw [pow2, emb2_mul, emb2_pow a k, pow_succ]

theorem emb2_ξ : emb2 ξ = w ^ 6 := by
  simp only [emb2, ξ, emb, map_ofNat, map_one]
  ring

/-- A primitive sixth root of unity in Fp. -/
def zetaN : ℕ := 21888242871839275220042445260109153167277707414472061641714758635765020556617

theorem zeta_check : pow2N 512 (9, 1) ((pMod ^ 2 - 1) / 6) = (zetaN, 0) := by decide +kernel

/-- The p²-power Frobenius map multiplies w by the root of unity. -/
theorem w_pow_p2 : w ^ (pMod ^ 2) = (zetaN : Fp12) * w := by
  have h9 : val2 (9, 1) = ξ := by simp [val2, ξ]
  have h1 := congrArg (fun a => emb2 (val2 a)) zeta_check
  beta_reduce at h1
  rw [pow2N_val _ _ _ (by decide +kernel), h9, emb2_pow, emb2_ξ] at h1
  have hp : pMod ^ 2 = 6 * ((pMod ^ 2 - 1) / 6) + 1 := by decide +kernel
  refine (congrArg (fun k : ℕ => w ^ k) hp).trans ?_
  rw [pow_succ, pow_mul, h1]
  simp only [val2, emb2, emb_natCast]
  rw [Nat.cast_zero, zero_mul, add_zero]

theorem zeta_pow6 : (zetaN : Fp) ^ 6 = 1 := by
  have h : zetaN ^ 6 % pMod = 1 % pMod := by decide +kernel
  have h2 := (ZMod.natCast_eq_natCast_iff' _ _ _).2 h
  simpa using h2

theorem zeta_pow_ne {k : ℕ} (h1 : 0 < k) (h2 : k < 6) : (zetaN : Fp) ^ k ≠ 1 := by
  intro h
  have h3 : ((zetaN ^ k : ℕ) : Fp) = ((1 : ℕ) : Fp) := by simpa using h
  have h4 := (ZMod.natCast_eq_natCast_iff' _ _ _).1 h3
  have key : ∀ k < 6, 0 < k → zetaN ^ k % pMod ≠ 1 % pMod := by decide +kernel
  exact key k h2 h1 h4

theorem zeta_pow_one {k : ℕ} (h : (zetaN : Fp) ^ k = 1) : 6 ∣ k := by
  by_contra hk
  have h1 : (zetaN : Fp) ^ (k % 6) = 1 := by
    rw [← h]
    conv_rhs => rw [← Nat.div_add_mod k 6, pow_add, pow_mul, zeta_pow6, one_pow, one_mul]
  exact zeta_pow_ne (by omega) (by omega) h1

theorem natDegree_of_factor {q : Fp[X]} (hq : Irreducible q) (hd : q ∣ fp12Poly) : 12 ≤ q.natDegree := by
  have : Fact (Irreducible q) := ⟨hq⟩
  let π : Fp12 →ₐ[Fp] AdjoinRoot q := AdjoinRoot.algHomOfDvd Fp fp12Poly q hd
  have : Module.Finite Fp (AdjoinRoot q) := (AdjoinRoot.powerBasis hq.ne_zero).finite
  have : Finite (AdjoinRoot q) := Module.finite_of_finite Fp
  haveI : Fintype (AdjoinRoot q) := Fintype.ofFinite _
  have hcard : Fintype.card (AdjoinRoot q) = pMod ^ q.natDegree := by
    rw [Module.card_eq_pow_finrank (K := Fp), ZMod.card, (AdjoinRoot.powerBasis hq.ne_zero).finrank, AdjoinRoot.powerBasis_dim]
  have hfix : ∀ x : AdjoinRoot q, x ^ (pMod ^ q.natDegree) = x := fun x => by
    rw [← hcard, FiniteField.pow_card]
  have hpos : 0 < q.natDegree := hq.natDegree_pos
  rcases Nat.even_or_odd' q.natDegree with ⟨k, hk | hk⟩
  · -- even degree
    have hz : ∀ k, (π w) ^ (pMod ^ (2 * k)) = algebraMap Fp _ ((zetaN : Fp) ^ k) * π w := by
      intro k
      induction k with
      | zero => simp
      | succ k ih =>
        have e : pMod ^ (2 * (k + 1)) = pMod ^ (2 * k) * pMod ^ 2 := by rw [← pow_add]; rfl
        have h2 : (π w) ^ (pMod ^ 2) = algebraMap Fp _ (zetaN : Fp) * π w := by
          rw [← map_pow, w_pow_p2, map_mul, map_natCast, map_natCast]
        rw [e, pow_mul, ih, mul_pow, h2, ← map_pow, ZMod.pow_card_pow, pow_succ, map_mul, mul_assoc]
    have h1 := hz k
    rw [← hk, hfix] at h1
    have hw : π w ≠ 0 := by
      intro h0
      have h2 := congrArg π w_pow
      have h82 : (82 : Fp) ≠ 0 := by
        have := fp_natCast_ne_zero (n := 82) (by decide +kernel)
        exact_mod_cast this
      simp only [map_pow, map_sub, map_mul, map_ofNat, h0] at h2
      have h3 : algebraMap Fp (AdjoinRoot q) 82 = 0 := by
        rw [map_ofNat]
        linear_combination h2
      exact h82 ((map_eq_zero _).1 h3)
    have h2 : algebraMap Fp (AdjoinRoot q) ((zetaN : Fp) ^ k) = 1 := by
      refine mul_right_cancel₀ hw ?_
      rw [one_mul, ← h1]
    have h3 : (zetaN : Fp) ^ k = 1 := by
      rw [← map_one (algebraMap Fp (AdjoinRoot q))] at h2
      exact (algebraMap Fp (AdjoinRoot q)).injective h2
    have h6 := zeta_pow_one h3
    omega
  · -- odd degree: u is not fixed
    exfalso
    have hu2 : π (w ^ 6 - 9) * π (w ^ 6 - 9) = -1 := by
      rw [← map_mul, u_sq, map_neg, map_one]
    have hu : ∀ k, (π (w ^ 6 - 9)) ^ (pMod ^ (2 * k)) = π (w ^ 6 - 9) := by
      intro k
      induction k with
      | zero => simp
      | succ k ih =>
        have e : pMod ^ (2 * (k + 1)) = pMod ^ (2 * k) * pMod * pMod := by
          rw [mul_assoc, ← pow_two, ← pow_add]; rfl
        have hodd : Odd pMod := by rw [Nat.odd_iff]; decide +kernel
        rw [e, pow_mul, pow_mul, ih, ← map_pow, u_pow_p, map_neg, hodd.neg_pow, ← map_pow, u_pow_p, map_neg, neg_neg]
    have h1 := hfix (π (w ^ 6 - 9))
    rw [hk, pow_succ pMod, pow_mul, hu, ← map_pow, u_pow_p, map_neg] at h1
    have h2 : (2 : AdjoinRoot q) = 0 := by
      linear_combination (2 : AdjoinRoot q) * hu2 + (π (w ^ 6 - 9)) * h1
    have h3 : algebraMap Fp (AdjoinRoot q) 2 = 0 := by rw [map_ofNat]; exact h2
    exact fp_two_ne ((map_eq_zero _).1 h3)

theorem fp12_irreducible : Irreducible fp12Poly := by
  obtain ⟨q, hq, c, hc⟩ := exists_irreducible_of_natDegree_pos (f := fp12Poly) (by rw [fp12Poly_natDegree]; norm_num)
  have h12 := natDegree_of_factor hq ⟨c, hc⟩
  have hc0 : c ≠ 0 := by
    rintro rfl
    exact fp12Poly_ne (by rw [hc, mul_zero])
  have hdeg := congrArg natDegree hc
  rw [natDegree_mul hq.ne_zero hc0, fp12Poly_natDegree] at hdeg
  have hu : IsUnit c := by
    rw [Polynomial.isUnit_iff_degree_eq_zero, degree_eq_natDegree hc0]
    have : c.natDegree = 0 := by omega
    rw [this]; rfl
  obtain ⟨v, rfl⟩ := hu
  exact (Associated.irreducible_iff ⟨v, hc.symm⟩).1 hq

instance : Fact (Irreducible fp12Poly) := ⟨fp12_irreducible⟩

end Verif
