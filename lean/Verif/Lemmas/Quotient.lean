/- The field computation of VerifyProof1/2 up to the quotient value. -/
import Verif.Lemmas.Domain

namespace Verif
open Halo2

namespace Eqs
variable {b : ℕ → ℕ → Fr} {t a : ℕ → Fr} {N : ℕ}

theorem xn (H : FrRun b t a N) (hN : 68 < N) : b 69 35 = b 0 6 ^ n := by
  rw [e68 H, show n = 8388607 + 1 by decide]
  exact (pow_succ' _ _).symm

theorem zh (H : FrRun b t a N) (hN : 69 < N) : b 70 36 = b 0 6 ^ n - 1 := by
  rw [e69 H, xn H (by omega), sub_eq_add_neg]

/-- Lagrange checks. -/
theorem lag0 (H : FrRun b t a N) (hN : 108 < N) : a 9 * (b 0 6 - 1) = 1 / n * (b 0 6 ^ n - 1) := by
  have h := d9 H
  rw [zh H (by omega), kl0_eq] at h
  linear_combination h

theorem lag_aux {a x z nn w : Fr} (h : (x + -w) * a = w / nn * z) : a * (x - w) = w / nn * z := by
  linear_combination h

theorem lag1 (H : FrRun b t a N) (hN : 108 < N) :
    a 15 * (b 0 6 - ω ^ (-1 : ℤ)) = ω ^ (-1 : ℤ) / n * (b 0 6 ^ n - 1) := by
  have h := d15 H
  rw [zh H (by omega), kl1_eq, ωn1_eq] at h
  exact lag_aux h
theorem lag2 (H : FrRun b t a N) (hN : 108 < N) :
    a 14 * (b 0 6 - ω ^ (-2 : ℤ)) = ω ^ (-2 : ℤ) / n * (b 0 6 ^ n - 1) := by
  have h := d14 H
  rw [zh H (by omega), kl2_eq, ωn2_eq] at h
  exact lag_aux h
theorem lag3 (H : FrRun b t a N) (hN : 108 < N) :
    a 13 * (b 0 6 - ω ^ (-3 : ℤ)) = ω ^ (-3 : ℤ) / n * (b 0 6 ^ n - 1) := by
  have h := d13 H
  rw [zh H (by omega), kl3_eq, ωn3_eq] at h
  exact lag_aux h
theorem lag4 (H : FrRun b t a N) (hN : 108 < N) :
    a 12 * (b 0 6 - ω ^ (-4 : ℤ)) = ω ^ (-4 : ℤ) / n * (b 0 6 ^ n - 1) := by
  have h := d12 H
  rw [zh H (by omega), kl4_eq, ωn4_eq] at h
  exact lag_aux h
theorem lag5 (H : FrRun b t a N) (hN : 108 < N) :
    a 11 * (b 0 6 - ω ^ (-5 : ℤ)) = ω ^ (-5 : ℤ) / n * (b 0 6 ^ n - 1) := by
  have h := d11 H
  rw [zh H (by omega), kl5_eq, ωn5_eq] at h
  exact lag_aux h
theorem lag6 (H : FrRun b t a N) (hN : 108 < N) :
    a 10 * (b 0 6 - ω ^ (-6 : ℤ)) = ω ^ (-6 : ℤ) / n * (b 0 6 ^ n - 1) := by
  have h := d10 H
  rw [zh H (by omega), kl6_eq, ωn6_eq] at h
  exact lag_aux h

theorem lagk (H : FrRun b t a N) (hN : 108 < N) (k : ℕ) (h1 : 1 ≤ k) (h6 : k ≤ 6) :
    a (16 - k) * (b 0 6 - ω ^ (-(k : ℤ))) = ω ^ (-(k : ℤ)) / n * (b 0 6 ^ n - 1) := by
  obtain rfl | rfl | rfl | rfl | rfl | rfl : k = 1 ∨ k = 2 ∨ k = 3 ∨ k = 4 ∨ k = 5 ∨ k = 6 := by omega
  · rw [Nat.cast_one]; exact lag1 H hN
  · rw [Nat.cast_ofNat]; exact lag2 H hN
  · rw [Nat.cast_ofNat]; exact lag3 H hN
  · rw [Nat.cast_ofNat]; exact lag4 H hN
  · rw [Nat.cast_ofNat]; exact lag5 H hN
  · rw [Nat.cast_ofNat]; exact lag6 H hN

/-- One step of Horner's rule. -/
theorem combine_snoc (y : Fr) (l : List Fr) (e : Fr) : combine y (l ++ [e]) = combine y l * y + e := by
  simp [combine]

theorem gates_eq (H : FrRun b t a N) (hN : 107 < N) :
    b 66 31 + b 68 34 * b 60 33 = combine (b 0 5) (gates (Evals.ofProof t)) := by
  rw [e65 H, e67 H, e66 H, e64 H, e63 H, e62 H, e61 H, e60 H, e59 H, e58 H, e57 H, krm1_eq, krm2_eq, krm3_eq]
  simp only [combine, gates, Evals.ofProof, List.foldl_cons, List.foldl_nil, kc0, kc1, kc2, kc3]
  push_cast
  ring

theorem active_eq (H : FrRun b t a N) (hN : 107 < N) : b 81 38 = (lagrangeOf a).active := by
  rw [e80 H, e79 H, e72 H]
  simp only [LagrangeVals.active, lagrangeOf]
  norm_num
  ring

theorem chunk_two_aux (β γ x d : Fr) (j : ℕ) (p p' q q' z zω : Fr) :
    zω * ([(p, p'), (q, q')].map fun p => p.1 + β * p.2 + γ).prod -
      z * (([(p, p'), (q, q')].zipIdx j).map fun p => p.1.1 + β * d ^ p.2 * x + γ).prod =
    zω * ((p + β * p' + γ) * (q + β * q' + γ)) -
      z * ((p + β * d ^ j * x + γ) * (q + β * d ^ (j + 1) * x + γ)) := by
  simp

theorem permChunk_two (c : Challenges) (j : ℕ) (p p' q q' z zω : Fr) : permChunk c j [(p, p'), (q, q')] z zω =
    zω * ((p + c.β * p' + c.γ) * (q + c.β * q' + c.γ)) -
      z * ((p + c.β * δ ^ j * c.x + c.γ) * (q + c.β * δ ^ (j + 1) * c.x + c.γ)) :=
  chunk_two_aux ..

theorem permChunk_one (c : Challenges) (j : ℕ) (p p' z zω : Fr) : permChunk c j [(p, p')] z zω =
    zω * (p + c.β * p' + c.γ) - z * (p + c.β * δ ^ j * c.x + c.γ) := by
  unfold permChunk
  generalize δ = d
  simp

theorem c0 (H : FrRun b t a N) (hN : 107 < N) : b 79 34 = permChunk (challengesOf (b 0)) 0 [(t 45, t 72), (t 46, t 73)] (t 79) (t 80) := by
  rw [e78 H, e77 H, e76 H, e75 H, δ_eq, permChunk_two]
  generalize δ = d
  simp only [challengesOf]
  ring

theorem c1 (H : FrRun b t a N) (hN : 107 < N) : b 87 34 = permChunk (challengesOf (b 0)) 2 [(t 47, t 74), (t 48, t 75)] (t 82) (t 83) := by
  rw [permChunk_two, e86 H, e85 H, e84 H, e83 H, e82 H, e77 H, δ_eq]
  generalize δ = d
  simp only [challengesOf]
  ring

theorem c2 (H : FrRun b t a N) (hN : 107 < N) : b 92 40 = permChunk (challengesOf (b 0)) 4 [(t 49, t 76), (t 51, t 77)] (t 85) (t 86) := by
  rw [permChunk_two, e91 H, e90 H, e89 H, e88 H, e87 H, e77 H, δ_eq]
  generalize δ = d
  simp only [challengesOf]
  ring

theorem c3 (H : FrRun b t a N) (hN : 107 < N) : b 96 34 = permChunk (challengesOf (b 0)) 6 [(t 44, t 78)] (t 88) (t 89) * b 81 38 := by
  rw [permChunk_one, e95 H, e94 H, e93 H, e77 H, δ_eq]
  generalize δ = d
  simp only [challengesOf]
  ring

theorem perm_eq (H : FrRun b t a N) (hN : 107 < N) :
    b 93 31 + b 96 34 = combine (b 0 5) (gates (Evals.ofProof t) ++
      permutation (challengesOf (b 0)) (lagrangeOf a) (Evals.ofProof t)) := by
  have hA := active_eq H (by omega)
  have hg := gates_eq H (by omega)
  have hc : ∀ (l : List Fr) (x0 x1 x2 x3 x4 x5 x6 x7 x8 : Fr), combine (b 0 5) (l ++ [x0, x1, x2, x3, x4, x5, x6, x7, x8]) =
      ((((((((combine (b 0 5) l * b 0 5 + x0) * b 0 5 + x1) * b 0 5 + x2) * b 0 5 + x3) * b 0 5 + x4) * b 0 5 + x5) * b 0 5
        + x6) * b 0 5 + x7) * b 0 5 + x8 := by
    intro l x0 x1 x2 x3 x4 x5 x6 x7 x8
    simp [combine]
  rw [permutation, hc, ← hg, c3 H (by omega), e92 H, e81 H, e74 H, e73 H, e71 H, c0 H (by omega), c1 H (by omega), c2 H (by omega), hA, e72 H, e70 H]
  simp only [LagrangeVals.last, lagrangeOf, Evals.ofProof]
  norm_num
  ring

theorem lookup0_eq (H : FrRun b t a N) (hN : 107 < N) :
    b 102 31 + (b 101 40 * (t 92 + -t 93)) * b 81 38 = combine (b 0 5) (gates (Evals.ofProof t) ++
      permutation (challengesOf (b 0)) (lagrangeOf a) (Evals.ofProof t) ++
      lookup (challengesOf (b 0)) (lagrangeOf a) (b 0 2 * t 67 + t 52) (b 0 2 * t 68 + t 69)
        (Evals.ofProof t).lookup0) := by
  have hp := perm_eq H (by omega)
  have hA := active_eq H (by omega)
  have hc : ∀ (l : List Fr) (x0 x1 x2 x3 x4 : Fr), combine (b 0 5) (l ++ [x0, x1, x2, x3, x4]) =
      ((((combine (b 0 5) l * b 0 5 + x0) * b 0 5 + x1) * b 0 5 + x2) * b 0 5 + x3) * b 0 5 + x4 := by
    intro l x0 x1 x2 x3 x4
    simp [combine]
  rw [lookup, hc, ← hp, ← hA, e101 H, e100 H, e99 H, e98 H, e97 H, e96 H, e72 H, e70 H]
  simp only [LagrangeVals.last, lagrangeOf, Evals.ofProof, challengesOf]
  norm_num
  ring

/-- The combined constraint value as computed. -/
theorem constraint_eq (H : FrRun b t a N) (hN : 107 < N) :
    b 108 31 + ((b 107 34 * (t 97 + (-t 98))) * b 81 38) =
      combine (b 0 5) (constraints (challengesOf (b 0)) (lagrangeOf a) (Evals.ofProof t)) := by
  have hp := lookup0_eq H (by omega)
  have hA := active_eq H (by omega)
  have hc : ∀ (l : List Fr) (x0 x1 x2 x3 x4 : Fr), combine (b 0 5) (l ++ [x0, x1, x2, x3, x4]) =
      ((((combine (b 0 5) l * b 0 5 + x0) * b 0 5 + x1) * b 0 5 + x2) * b 0 5 + x3) * b 0 5 + x4 := by
    intro l x0 x1 x2 x3 x4
    simp [combine]
  show _ = combine (b 0 5) (gates (Evals.ofProof t) ++
      permutation (challengesOf (b 0)) (lagrangeOf a) (Evals.ofProof t) ++
      lookup (challengesOf (b 0)) (lagrangeOf a) (b 0 2 * t 67 + t 52) (b 0 2 * t 68 + t 69)
        (Evals.ofProof t).lookup0 ++
      lookup (challengesOf (b 0)) (lagrangeOf a) (b 0 2 * 18 + t 53) (b 0 2 * t 68 + t 69)
        (Evals.ofProof t).lookup1)
  rw [lookup.eq_def (challengesOf (b 0)) (lagrangeOf a) (b 0 2 * 18 + t 53), hc, ← hp, ← hA, e107 H, e106 H, e105 H, e104 H, e103 H, e102 H, e97 H, e72 H, e70 H]
  simp only [LagrangeVals.last, lagrangeOf, Evals.ofProof, challengesOf]
  norm_num
  ring

theorem quotient_eq (H : FrRun b t a N) (hN : 108 < N) :
    QuotientIdentity (challengesOf (b 0)) (lagrangeOf a) (Evals.ofProof t) (a 16) := by
  have h := d16 H
  rw [zh H (by omega), mul_comm, constraint_eq H (by omega)] at h
  exact h

end Eqs
end Verif
