/-
The division checks of the three bodies. GENERATED by tools/gen_stepconds.py.
-/
import Verif.Lemmas.StepEqs

namespace Verif

/-- The division checks of a list of expressions. -/
def CondList {ρ : Type} (b : ρ → Fr) (t a : ℕ → Fr) : List (Expr ρ) → Prop
  | [] => True
  | e :: es => e.cond b t a ∧ CondList b t a es

/-- The division checks of a statement. -/
def SStmt.Conds (b : ℕ → ℕ → Fr) (t a : ℕ → Fr) : SStmt → Prop
  | .set _ es => CondList (fun r => b r.1 r.2) t a es
  | _ => True

def Expr.divFree {ρ : Type} : Expr ρ → Bool
  | .mul x y => x.divFree && y.divFree
  | .add x y => x.divFree && y.divFree
  | .neg x => x.divFree
  | .div _ _ _ => false
  | .pow x _ => x.divFree
  | _ => true

theorem Expr.divFree_cond {ρ : Type} {b : ρ → Fr} {t a : ℕ → Fr} (e : Expr ρ) (h : e.divFree = true) : e.cond b t a := by
  induction e <;> simp_all [Expr.divFree, Expr.cond]

def SStmt.divFree : SStmt → Bool
  | .set _ es => es.all Expr.divFree
  | _ => true

theorem SStmt.divFree_conds {b : ℕ → ℕ → Fr} {t a : ℕ → Fr} (st : SStmt) (h : st.divFree = true) : st.Conds b t a := by
  cases st with
  | set ts es =>
    simp only [SStmt.divFree] at h
    simp only [SStmt.Conds]
    induction es with
    | nil => trivial
    | cons e es ih =>
      simp only [List.all_cons, Bool.and_eq_true] at h
      exact ⟨e.divFree_cond h.1, ih h.2⟩
  | _ => trivial

namespace Eqs
variable {b : ℕ → ℕ → Fr} {t a : ℕ → Fr}

theorem c4' (h0 : (b 4 17 + (-b 0 6)) * (a 0) = 1) : (ssaLit.getD 4 (.set [] [])).Conds b t a := by
  rw [← Nat.cast_one (R := Fr)] at h0
  exact ⟨⟨trivial, ⟨trivial, trivial⟩, trivial, h0⟩, trivial⟩
theorem c6' (h1 : (b 4 17 + (-b 6 19)) * (a 1) = 1) : (ssaLit.getD 6 (.set [] [])).Conds b t a := by
  rw [← Nat.cast_one (R := Fr)] at h1
  exact ⟨⟨trivial, ⟨trivial, trivial⟩, trivial, h1⟩, trivial⟩
theorem c8' (h2 : (b 0 6 + (-b 4 17)) * (a 2) = 1) : (ssaLit.getD 8 (.set [] [])).Conds b t a := by
  rw [← Nat.cast_one (R := Fr)] at h2
  exact ⟨⟨trivial, ⟨trivial, trivial⟩, trivial, h2⟩, trivial⟩
theorem c9' (h3 : (b 0 6 + (-b 6 19)) * (a 3) = 1) : (ssaLit.getD 9 (.set [] [])).Conds b t a := by
  rw [← Nat.cast_one (R := Fr)] at h3
  exact ⟨⟨trivial, ⟨trivial, trivial⟩, trivial, h3⟩, trivial⟩
theorem c11' (h4 : (b 6 19 + (-b 4 17)) * (a 4) = 1) : (ssaLit.getD 11 (.set [] [])).Conds b t a := by
  rw [← Nat.cast_one (R := Fr)] at h4
  exact ⟨⟨trivial, ⟨trivial, trivial⟩, trivial, h4⟩, trivial⟩
theorem c12' (h5 : (b 6 19 + (-b 0 6)) * (a 5) = 1) : (ssaLit.getD 12 (.set [] [])).Conds b t a := by
  rw [← Nat.cast_one (R := Fr)] at h5
  exact ⟨⟨trivial, ⟨trivial, trivial⟩, trivial, h5⟩, trivial⟩
theorem c33' (h6 : (b 33 20 + (-b 0 6)) * (a 6) = 1) : (ssaLit.getD 33 (.set [] [])).Conds b t a := by
  rw [← Nat.cast_one (R := Fr)] at h6
  exact ⟨⟨trivial, ⟨trivial, trivial⟩, trivial, h6⟩, trivial⟩
theorem c34' (h7 : (b 0 6 + (-b 33 20)) * (a 7) = 1) : (ssaLit.getD 34 (.set [] [])).Conds b t a := by
  rw [← Nat.cast_one (R := Fr)] at h7
  exact ⟨⟨trivial, ⟨trivial, trivial⟩, trivial, h7⟩, trivial⟩
theorem c44' (h8 : (b 44 20 * b 43 25) * (a 8) = 1) : (ssaLit.getD 44 (.set [] [])).Conds b t a := by
  rw [← Nat.cast_one (R := Fr)] at h8
  exact ⟨⟨trivial, ⟨trivial, trivial⟩, trivial, h8⟩, trivial⟩
theorem c70' (h9 : (b 0 6 + (-1)) * (a 9) = (kl0 : ℕ) * b 70 36) : (ssaLit.getD 70 (.set [] [])).Conds b t a := by
  rw [← Nat.cast_one (R := Fr)] at h9
  exact ⟨⟨⟨trivial, trivial⟩, ⟨trivial, trivial⟩, trivial, h9⟩, trivial⟩
theorem c72' (h10 : (b 0 6 + (-(kωn6 : ℕ))) * (a 10) = (kl6 : ℕ) * b 70 36) : (ssaLit.getD 72 (.set [] [])).Conds b t a := by
  exact ⟨⟨⟨trivial, trivial⟩, ⟨trivial, trivial⟩, trivial, h10⟩, trivial⟩
theorem c79' (h11 : (b 0 6 + (-(kωn5 : ℕ))) * (a 11) = (kl5 : ℕ) * b 70 36) (h12 : (b 0 6 + (-(kωn4 : ℕ))) * (a 12) = (kl4 : ℕ) * b 70 36) (h13 : (b 0 6 + (-(kωn3 : ℕ))) * (a 13) = (kl3 : ℕ) * b 70 36) (h14 : (b 0 6 + (-(kωn2 : ℕ))) * (a 14) = (kl2 : ℕ) * b 70 36) : (ssaLit.getD 79 (.set [] [])).Conds b t a := by
  exact ⟨⟨⟨⟨⟨⟨trivial, trivial⟩, ⟨trivial, trivial⟩, trivial, h11⟩, ⟨⟨trivial, trivial⟩, ⟨trivial, trivial⟩, trivial, h12⟩⟩, ⟨⟨trivial, trivial⟩, ⟨trivial, trivial⟩, trivial, h13⟩⟩, ⟨⟨trivial, trivial⟩, ⟨trivial, trivial⟩, trivial, h14⟩⟩, trivial⟩
theorem c80' (h15 : (b 0 6 + (-(kωn1 : ℕ))) * (a 15) = (kl1 : ℕ) * b 70 36) : (ssaLit.getD 80 (.set [] [])).Conds b t a := by
  exact ⟨⟨trivial, ⟨trivial, ⟨trivial, ⟨⟨trivial, trivial⟩, ⟨trivial, trivial⟩, trivial, h15⟩⟩⟩⟩, trivial⟩
theorem c108' (h16 : (b 70 36) * (a 16) = b 108 31 + ((b 107 34 * (t 97 + (-t 98))) * b 81 38)) : (ssaLit.getD 108 (.set [] [])).Conds b t a := by
  exact ⟨⟨⟨trivial, ⟨⟨trivial, ⟨trivial, trivial⟩⟩, trivial⟩⟩, trivial, trivial, h16⟩, trivial⟩
theorem c119' (h17 : (b 0 6 + (-b 42 24)) * (a 17) = 1) : (ssaLit.getD 119 (.set [] [])).Conds b t a := by
  rw [← Nat.cast_one (R := Fr)] at h17
  exact ⟨⟨trivial, ⟨trivial, trivial⟩, trivial, h17⟩, trivial⟩
theorem c121' (h18 : (b 6 19 + (-b 42 24)) * (a 18) = 1) : (ssaLit.getD 121 (.set [] [])).Conds b t a := by
  rw [← Nat.cast_one (R := Fr)] at h18
  exact ⟨⟨trivial, ⟨trivial, trivial⟩, trivial, h18⟩, trivial⟩
theorem c123' (h19 : (b 42 24 + (-b 0 6)) * (a 19) = 1) : (ssaLit.getD 123 (.set [] [])).Conds b t a := by
  rw [← Nat.cast_one (R := Fr)] at h19
  exact ⟨⟨trivial, ⟨trivial, trivial⟩, trivial, h19⟩, trivial⟩
theorem c124' (h20 : (b 42 24 + (-b 6 19)) * (a 20) = 1) : (ssaLit.getD 124 (.set [] [])).Conds b t a := by
  rw [← Nat.cast_one (R := Fr)] at h20
  exact ⟨⟨trivial, ⟨trivial, trivial⟩, trivial, h20⟩, trivial⟩

end Eqs

/-- The statements with a division. -/
def divIdx : List ℕ := [4, 6, 8, 9, 11, 12, 33, 34, 44, 70, 72, 79, 80, 108, 119, 121, 123, 124]

theorem divFree_table : (List.range 301).all (fun k => divIdx.contains k || (ssaLit.getD k (.set [] [])).divFree) = true := by decide +kernel

end Verif
