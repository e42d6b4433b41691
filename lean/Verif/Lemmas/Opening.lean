/- The field computation of the opening values and weights. -/
import Verif.Lemmas.Quotient

namespace Verif
open Halo2

theorem interp_one (p e u : Fr) : interp [p] [e] u = e := by
  simp [interp, Lagrange.interpolate_apply]

theorem interp_two (p q e f u : Fr) : interp [p, q] [e, f] u = e * ((p - q)⁻¹ * (u - q)) + f * ((q - p)⁻¹ * (u - p)) := by
  have h0 : (Finset.range 2).erase 0 = {1} := by decide
  have h1 : (Finset.range 2).erase 1 = {0} := by decide
  simp [interp, Lagrange.interpolate_apply, Finset.sum_range_succ, Lagrange.basis, Lagrange.basisDivisor, h0, h1]

theorem interp_three (p q r e f g u : Fr) : interp [p, q, r] [e, f, g] u =
    e * (((p - q)⁻¹ * (u - q)) * ((p - r)⁻¹ * (u - r))) + f * (((q - p)⁻¹ * (u - p)) * ((q - r)⁻¹ * (u - r))) +
      g * (((r - p)⁻¹ * (u - p)) * ((r - q)⁻¹ * (u - q))) := by
  have h0 : (Finset.range 3).erase 0 = {1, 2} := by decide
  have h1 : (Finset.range 3).erase 1 = {0, 2} := by decide
  have h2 : (Finset.range 3).erase 2 = {0, 1} := by decide
  simp [interp, Lagrange.interpolate_apply, Finset.sum_range_succ, Lagrange.basis, Lagrange.basisDivisor, h0, h1, h2]

namespace Eqs
variable {b : ℕ → ℕ → Fr} {t a : ℕ → Fr} {N : ℕ}

/-! The five rotations of x as computed. -/
theorem p0 : ω ^ (0 : ℤ) * b 0 6 = b 0 6 := by rw [zpow_zero, one_mul]
theorem p1 (H : FrRun b t a N) (hN : 5 < N) : ω ^ (1 : ℤ) * b 0 6 = b 6 19 := by rw [e5 H, ω_eq, zpow_one]
theorem pm6 (H : FrRun b t a N) (hN : 3 < N) : ω ^ (-6 : ℤ) * b 0 6 = b 4 17 := by rw [e3 H, ωn6_eq]
theorem pm1 (H : FrRun b t a N) (hN : 32 < N) : ω ^ (-1 : ℤ) * b 0 6 = b 33 20 := by rw [e32 H, ωn1_eq]
theorem p2 (H : FrRun b t a N) (hN : 41 < N) : ω ^ (2 : ℤ) * b 0 6 = b 42 24 := by rw [e41 H, ω2_eq]

theorem inv_of {x y z : Fr} (h : (x + -y) * z = 1) : (x - y)⁻¹ = z := by
  rw [← sub_eq_add_neg] at h
  exact inv_eq_of_mul_eq_one_right h

theorem r0 (H : FrRun b t a N) (hN : 45 < N) : b 32 18 = combine (b 0 7) [
    interp (points (b 0 6) [0, 1, -6]) [t 79, t 80, t 81] (b 0 9), interp (points (b 0 6) [0, 1, -6]) [t 82, t 83, t 84] (b 0 9),
    interp (points (b 0 6) [0, 1, -6]) [t 85, t 86, t 87] (b 0 9)] := by
  simp only [points, List.map_cons, List.map_nil, p0, p1 H (by omega), pm6 H (by omega), interp_three, combine, List.foldl_cons, List.foldl_nil]
  rw [inv_of (d0 H), inv_of (d1 H), inv_of (d2 H), inv_of (d3 H), inv_of (d4 H), inv_of (d5 H)]
  rw [e31 H, e30 H, e29 H, e28 H, e27 H, e26 H, e25 H, e24 H, e23 H, e22 H, e21 H, e20 H, e19 H, e18 H, e17 H, e16 H, e15 H,
    e14 H, e13 H, e12 H, e11 H, e10 H, e9 H, e8 H, e7 H, e6 H, e4 H]
  ring

theorem r1 (H : FrRun b t a N) (hN : 45 < N) : b 39 21 = combine (b 0 7) [
    interp (points (b 0 6) [0, -1]) [t 92, t 93] (b 0 9), interp (points (b 0 6) [0, -1]) [t 97, t 98] (b 0 9)] := by
  simp only [points, List.map_cons, List.map_nil, p0, pm1 H (by omega), interp_two, combine, List.foldl_cons, List.foldl_nil]
  rw [inv_of (d6 H), inv_of (d7 H)]
  rw [e38 H, e37 H, e36 H, e35 H, e34 H, e33 H]
  ring

/-- The claimed evaluations at x alone, in the order of the combination. -/
theorem rx (H : FrRun b t a N) (hN : 141 < N) : b 0 7 * (b 57 29 + b 109 31) + t 71 = combine (b 0 7) (
    [t 44, t 45, t 46, t 47, t 48, t 51, t 94, t 99] ++ (List.range 13).map (fun i => t (58 + i)) ++
      (List.range 7).map (fun i => t (72 + i)) ++ [a 16, t 71]) := by
  rw [e56 H, e55 H, e54 H, e53 H, e52 H, e51 H, e50 H, e49 H, e48 H, e47 H, e46 H, e108 H]
  simp only [show List.range 13 = [0, 1, 2, 3, 4, 5, 6, 7, 8, 9, 10, 11, 12] from rfl,
    show List.range 7 = [0, 1, 2, 3, 4, 5, 6] from rfl, List.map_cons, List.map_nil, List.cons_append, List.nil_append,
    combine, List.foldl_cons, List.foldl_nil, Nat.reduceAdd]
  ring

theorem r3 (H : FrRun b t a N) (hN : 141 < N) : b 118 30 = combine (b 0 7) [
    interp (points (b 0 6) [0, 1]) [t 49, t 50] (b 0 9), interp (points (b 0 6) [0, 1]) [t 88, t 89] (b 0 9),
    interp (points (b 0 6) [0, 1]) [t 90, t 91] (b 0 9), interp (points (b 0 6) [0, 1]) [t 95, t 96] (b 0 9)] := by
  simp only [points, List.map_cons, List.map_nil, p0, p1 H (by omega), interp_two, combine, List.foldl_cons, List.foldl_nil]
  rw [inv_of (d3 H), inv_of (d5 H)]
  rw [e117 H, e116 H, e115 H, e114 H, e113 H, e112 H, e21 H, e18 H, e12 H, e9 H]
  ring

theorem r4 (H : FrRun b t a N) (hN : 141 < N) : b 140 19 = combine (b 0 7) [
    interp (points (b 0 6) [0, 1, 2]) [t 52, t 55, t 57] (b 0 9),
    interp (points (b 0 6) [0, 1, 2]) [t 53, t 54, t 56] (b 0 9)] := by
  simp only [points, List.map_cons, List.map_nil, p0, p1 H (by omega), p2 H (by omega), interp_three, combine, List.foldl_cons,
    List.foldl_nil]
  rw [inv_of (d3 H), inv_of (d5 H), inv_of (d17 H), inv_of (d18 H), inv_of (d19 H), inv_of (d20 H)]
  rw [e139 H, e138 H, e137 H, e136 H, e135 H, e134 H, e133 H, e132 H, e131 H, e130 H, e129 H, e128 H, e127 H, e126 H, e125 H,
    e124 H, e123 H, e122 H, e121 H, e120 H, e119 H, e113 H, e112 H, e21 H, e18 H, e12 H, e9 H]
  ring

/-! Weights. -/

theorem denom (H : FrRun b t a N) (hN : 45 < N) : (vanish (points (b 0 6) [2, -1]) (b 0 9))⁻¹ = a 8 := by
  have h := d8 H
  rw [e43 H, e42 H] at h
  simp only [points, List.map_cons, List.map_nil, vanish, List.prod_cons, List.prod_nil, pm1 H (by omega), p2 H (by omega)]
  refine inv_eq_of_mul_eq_one_right ?_
  linear_combination h

theorem denom_ne (H : FrRun b t a N) (hN : 45 < N) : vanish (points (b 0 6) [2, -1]) (b 0 9) ≠ 0 := by
  intro h0
  have h := d8 H
  rw [e43 H, e42 H] at h
  simp only [points, List.map_cons, List.map_nil, vanish, List.prod_cons, List.prod_nil, pm1 H (by omega), p2 H (by omega)] at h0
  have : (0 : Fr) = 1 := by linear_combination h - a 8 * h0
  exact zero_ne_one this

theorem z1 (H : FrRun b t a N) (hN : 45 < N) :
    b 46 28 = vanish (points (b 0 6) [1, 2, -6]) (b 0 9) / vanish (points (b 0 6) [2, -1]) (b 0 9) := by
  rw [div_eq_mul_inv, denom H hN, e45 H, e44 H, e42 H, e40 H, e39 H]
  simp only [points, List.map_cons, List.map_nil, vanish, List.prod_cons, List.prod_nil, p1 H (by omega), p2 H (by omega), pm6 H (by omega)]
  ring

theorem zx (H : FrRun b t a N) (hN : 141 < N) :
    b 111 33 = vanish (points (b 0 6) [1, 2, -1, -6]) (b 0 9) / vanish (points (b 0 6) [2, -1]) (b 0 9) := by
  have hN' : 45 < N := by omega
  rw [div_eq_mul_inv, denom H hN', e110 H, e109 H, e44 H, e43 H, e42 H, e40 H, e39 H]
  simp only [points, List.map_cons, List.map_nil, vanish, List.prod_cons, List.prod_nil, p1 H (by omega), p2 H (by omega), pm6 H (by omega), pm1 H (by omega)]
  ring

theorem z3 (H : FrRun b t a N) (hN : 141 < N) :
    b 119 25 = vanish (points (b 0 6) [2, -1, -6]) (b 0 9) / vanish (points (b 0 6) [2, -1]) (b 0 9) := by
  have hN' : 45 < N := by omega
  rw [div_eq_mul_inv, denom H hN', e118 H, e109 H, e44 H, e43 H, e42 H, e39 H]
  simp only [points, List.map_cons, List.map_nil, vanish, List.prod_cons, List.prod_nil, p2 H (by omega), pm6 H (by omega), pm1 H (by omega)]
  ring

theorem z4 (H : FrRun b t a N) (hN : 141 < N) :
    b 141 20 = vanish (points (b 0 6) [-1, -6]) (b 0 9) / vanish (points (b 0 6) [2, -1]) (b 0 9) := by
  have hN' : 45 < N := by omega
  rw [div_eq_mul_inv, denom H hN', e140 H, e109 H, e44 H, e43 H, e39 H]
  simp only [points, List.map_cons, List.map_nil, vanish, List.prod_cons, List.prod_nil, pm6 H (by omega), pm1 H (by omega)]
  ring

/-! The rotation sets. -/

/-- The rotation sets of a run. -/
noncomputable def sets (b : ℕ → ℕ → Fr) (t a : ℕ → Fr) (C : Commitments) : List RotSet :=
  rotSets (challengesOf (b 0)) C (Evals.ofProof t) (a 16)

theorem values (H : FrRun b t a N) (hN : 141 < N) (C : Commitments) :
    (sets b t a C).map (fun S => S.value (challengesOf (b 0))) =
      [b 32 18, b 39 21, b 0 7 * (b 57 29 + b 109 31) + t 71, b 118 30, b 140 19] := by
  have hp : points (b 0 6) [0] = [b 0 6] := by simp only [points, List.map_cons, List.map_nil, p0]
  have hx : (singleSet (challengesOf (b 0)) C (Evals.ofProof t) (a 16)).value (challengesOf (b 0)) =
      b 0 7 * (b 57 29 + b 109 31) + t 71 := by
    rw [rx H hN]
    simp only [singleSet, RotSet.value, challengesOf, Evals.ofProof, List.map_append, List.map_map, List.map_cons, List.map_nil,
      Function.comp_def, hp, interp_one]
  simp only [sets, rotSets, List.map_cons, List.map_nil]
  rw [hx, r0 H (by omega), r1 H (by omega), r3 H hN, r4 H hN]
  rfl

theorem weights (H : FrRun b t a N) (hN : 141 < N) (C : Commitments) :
    (sets b t a C).map (fun S => S.weight (challengesOf (b 0))) = [1, b 46 28, b 111 33, b 119 25, b 141 20] := by
  rw [z1 H (by omega), zx H hN, z3 H hN, z4 H hN]
  have h1 : (1 : Fr) = vanish (points (b 0 6) [2, -1]) (b 0 9) / vanish (points (b 0 6) [2, -1]) (b 0 9) :=
    (div_self (denom_ne H (by omega))).symm
  rw [h1]
  rfl

theorem total (H : FrRun b t a N) (hN : 141 < N) (C : Commitments) :
    b 142 18 = combine (b 0 8) ((sets b t a C).map fun S => S.weight (challengesOf (b 0)) * S.value (challengesOf (b 0))) := by
  have hv := values H hN C
  have hw := weights H hN C
  have key : ∀ (f g : RotSet → Fr) (l : List RotSet), l.map (fun S => f S * g S) = List.zipWith (· * ·) (l.map f) (l.map g) := by
    intro f g l
    induction l with
    | nil => rfl
    | cons x l ih => rw [List.map_cons, List.map_cons, List.map_cons, List.zipWith_cons_cons, ih]
  rw [key, hv, hw, e141 H, e111 H]
  simp only [List.zipWith_cons_cons, List.zipWith_nil_left, combine, List.foldl_cons, List.foldl_nil]
  ring

end Eqs

end Verif
