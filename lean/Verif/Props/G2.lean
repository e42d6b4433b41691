/-
Property C41, the two fixed G2 points: they lie in the subgroup of order r of the twist.
-/
import Verif.Lemmas.G2Order
import Verif.Props.Kyc

namespace Verif

/-- C41: the two pairs of coordinates stored by the circuit are points of the twist, of order exactly r: they are in the
group G2 on which the pairing is defined. -/
theorem C41_order (c c' : BN256PairingCircuit) (E : Engine) (s s' : St) (h : FillVerifyCircuitsG2 c E s = .ok (c', s')) :
    c'.g2Points.length = 2 ∧ ∀ A ∈ c'.g2Points, ∃ P : twist.Point, IsTwistPoint A P ∧ addOrderOf P = rMod := by
  rw [C41_fillG2, Except.ok.injEq, Prod.mk.injEq] at h
  obtain ⟨rfl, -⟩ := h
  refine ⟨rfl, fun A hA => ?_⟩
  simp only [List.mem_cons, List.not_mem_nil, or_false] at hA
  rcases hA with rfl | rfl
  · obtain ⟨P, hP⟩ := twist_point ((isOnTwist_iff _).2 C41_g2.1) (by decide +kernel)
    exact ⟨P, hP, order_of_check (Q := g20N) (g20N_val ▸ hP) g20_orderCheck⟩
  · obtain ⟨P, hP⟩ := twist_point ((isOnTwist_iff _).2 C41_g2.2) (by decide +kernel)
    exact ⟨P, hP, order_of_check (Q := g21N) (g21N_val ▸ hP) g21_orderCheck⟩

/-- The hypothesis is met: the function never panics. -/
example (c : BN256PairingCircuit) (E : Engine) (s : St) : ∃ c' s', FillVerifyCircuitsG2 c E s = .ok (c', s') :=
  ⟨_, _, C41_fillG2 c E s⟩

end Verif
