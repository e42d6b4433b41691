/-
(r - 1)·Q = -Q for the two fixed G2 points, evaluated in the kernel.
-/
import Verif.Math.TwistN

namespace Verif

/-- The coordinates of `g20` and `g21`, /repo/pairing_circuit.go:84-107. -/
def g20N : Tw :=
  ((13560776910958896778309428450808722712362583089620853136731412215646945297830,
    17006984783035916014836003241042945838018391379603479329912940809520477208052),
   (18091431719069275340788954644764755415339503689597559484185985670418402491565,
    12900589361605111856143562381318004229723309245412571888359653960504992734777))
def g21N : Tw :=
  ((10857046999023057135944570762232829481370756359578518086990519993285655852781,
    11559732032986387107991004021392285783925812861821192530917403151452391805634),
   (13392588948715843804641432497768002650278120570034223513918757245338268106653,
    17805874995975841540914202342111839520379459829704422454583296818431106115052))

theorem g20N_val : valT g20N = g20 := rfl
theorem g21N_val : valT g21N = g21 := rfl

theorem g20_orderCheck : orderCheck g20N = true := by decide +kernel
theorem g21_orderCheck : orderCheck g21N = true := by decide +kernel

/-- A pair that satisfies the twist equation, not of order 2, is a point of the twist. -/
theorem twist_point {A : Aff2} (h : isOnTwist A = true) (hy : A.2 ≠ (0, 0)) : ∃ P : twist.Point, IsTwistPoint A P := by
  rw [isOnTwist, decide_eq_true_eq] at h
  have h1 := congrArg toF h
  have hadd : ∀ a b : Fp2, toF (Fp2.add a b) = toF a + toF b := fun a b => by ext <;> simp [toF, Fp2.add]
  rw [hadd, toF_mul, toF_mul, toF_mul] at h1
  have hy0 : toF A.2 ≠ 0 := fun h0 => hy (toF_injective h0)
  refine ⟨.some (toF A.1) (toF A.2) ?_, _, _, _, rfl, rfl, rfl⟩
  rw [WeierstrassCurve.Affine.nonsingular_iff, WeierstrassCurve.Affine.equation_iff]
  simp only [twist]
  refine ⟨by linear_combination h1, .inr fun h2 => ?_⟩
  exact mul_ne_zero twist_two hy0 (by linear_combination h2)

end Verif
