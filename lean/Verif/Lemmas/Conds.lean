/- The division checks of the step bodies follow from the specified relations on the aux values. -/
import Verif.Lemmas.Shplonk
import Verif.Lemmas.StepConds
import Verif.Spec.Verifier

namespace Verif
open Halo2

namespace Eqs
variable {b : ℕ → ℕ → Fr} {t a : ℕ → Fr} {N : ℕ}

theorem sub_form {x y z w : Fr} (h : (x - y) * z = w) : (x + -y) * z = w := by rw [← sub_eq_add_neg]; exact h

theorem lag_form {x w z l : Fr} (h : l * (x - w) = z) : (x + -w) * l = z := by linear_combination h

/-- Each statement's division checks hold, given the field equations of the statements before it. -/
theorem conds_at (h : AuxRelations (challengesOf (b 0)) (.ofProof t) a) {k : ℕ} (H : FrRun b t a k) (hk : k < 301) :
    (ssaLit.getD k (.set [] [])).Conds b t a := by
  have htab := List.all_eq_true.1 divFree_table k (List.mem_range.2 hk)
  rw [Bool.or_eq_true] at htab
  have hcx : (challengesOf (b 0)).x = b 0 6 := rfl
  have hcu : (challengesOf (b 0)).u = b 0 9 := rfl
  rcases htab with hd | hd
  · have hm : k ∈ divIdx := by simpa using hd
    simp only [divIdx, List.mem_cons, List.not_mem_nil, or_false] at hm
    rcases hm with rfl | rfl | rfl | rfl | rfl | rfl | rfl | rfl | rfl | rfl | rfl | rfl | rfl | rfl | rfl | rfl | rfl | rfl
    · refine c4' (sub_form ?_); have := h.i0; rw [hcx, pm6 H (by omega)] at this; exact this
    · have q := p1 H (by omega); rw [zpow_one] at q
      refine c6' (sub_form ?_); have := h.i1; rw [hcx, pm6 H (by omega), q] at this; exact this
    · refine c8' (sub_form ?_); have := h.i2; rw [hcx, pm6 H (by omega)] at this; exact this
    · have q := p1 H (by omega); rw [zpow_one] at q
      refine c9' (sub_form ?_); have := h.i3; rw [hcx, q] at this; exact this
    · have q := p1 H (by omega); rw [zpow_one] at q
      refine c11' (sub_form ?_); have := h.i4; rw [hcx, pm6 H (by omega), q] at this; exact this
    · have q := p1 H (by omega); rw [zpow_one] at q
      refine c12' (sub_form ?_); have := h.i5; rw [hcx, q] at this; exact this
    · refine c33' (sub_form ?_); have := h.i6; rw [hcx, pm1 H (by omega)] at this; exact this
    · refine c34' (sub_form ?_); have := h.i7; rw [hcx, pm1 H (by omega)] at this; exact this
    · refine c44' ?_
      have := h.i8
      rw [hcx, hcu] at this
      simp only [points, List.map_cons, List.map_nil, vanish, List.prod_cons, List.prod_nil, pm1 H (by omega), p2 H (by omega)] at this
      rw [e43 H, e42 H]
      linear_combination this
    · refine c70' (lag_form ?_)
      rw [zh H (by omega), kl0_eq]
      exact h.lagrange.zero
    · refine c72' (lag_form ?_)
      rw [zh H (by omega), kl6_eq, ωn6_eq]
      have := h.lagrange.neg 6 (by norm_num) (by norm_num)
      exact this
    · have l5 := h.lagrange.neg 5 (by norm_num) (by norm_num)
      have l4 := h.lagrange.neg 4 (by norm_num) (by norm_num)
      have l3 := h.lagrange.neg 3 (by norm_num) (by norm_num)
      have l2 := h.lagrange.neg 2 (by norm_num) (by norm_num)
      refine c79' (lag_form ?_) (lag_form ?_) (lag_form ?_) (lag_form ?_)
      · rw [zh H (by omega), kl5_eq, ωn5_eq]; exact l5
      · rw [zh H (by omega), kl4_eq, ωn4_eq]; exact l4
      · rw [zh H (by omega), kl3_eq, ωn3_eq]; exact l3
      · rw [zh H (by omega), kl2_eq, ωn2_eq]; exact l2
    · refine c80' (lag_form ?_)
      rw [zh H (by omega), kl1_eq, ωn1_eq]
      have := h.lagrange.neg 1 (by norm_num) (by norm_num)
      exact this
    · refine c108' ?_
      rw [zh H (by omega), constraint_eq H (by omega)]
      have := h.quotient
      rw [mul_comm]
      exact this
    · refine c119' (sub_form ?_); have := h.i17; rw [hcx, p2 H (by omega)] at this; exact this
    · have q := p1 H (by omega); rw [zpow_one] at q
      refine c121' (sub_form ?_); have := h.i18; rw [hcx, p2 H (by omega), q] at this; exact this
    · refine c123' (sub_form ?_); have := h.i19; rw [hcx, p2 H (by omega)] at this; exact this
    · have q := p1 H (by omega); rw [zpow_one] at q
      refine c124' (sub_form ?_); have := h.i20; rw [hcx, p2 H (by omega), q] at this; exact this
  · exact SStmt.divFree_conds _ hd

end Eqs
end Verif
