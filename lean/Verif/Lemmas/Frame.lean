/- What the verification steps read and write, in every engine (no property theorems here). -/
import Verif.Model.Define
import Verif.Lemmas.Run
import Verif.Lemmas.HintsIn

namespace Verif

/-! ### Writes -/

theorem stmt_frame {X : Ext} {T A B B' : List Var} {E : Engine} {st : Stmt} {s s' : St}
    (h : st.exec X T A B E s = .ok ((none, B'), s')) :
    B'.length = B.length ∧ ∀ i, i ∉ st.targets → B'.getD i .nil = B.getD i .nil := by
  cases st with
  | set ts es =>
    simp only [Stmt.exec, Circ.bind_ok] at h
    obtain ⟨vs, s1, h1, B1, s2, h2, h3⟩ := h
    cases h3
    obtain ⟨rfl, rfl⟩ := setMany_ok h2
    exact ⟨storeMany_length _ _ _, fun i hi => storeMany_frame hi⟩
  | eccMul o =>
    obtain ⟨v0, v1, h⟩ := ecc_mul_frame h
    rw [h rfl]
    refine ⟨by simp, fun i hi => ?_⟩
    simp only [Stmt.targets, List.mem_cons, List.not_mem_nil, or_false, not_or] at hi
    rw [getD_set, if_neg (by omega), getD_set, if_neg (by omega)]
  | eccMulAdd o =>
    obtain ⟨v0, v1, v2, v3, rfl⟩ := ecc_mul_add_frame h
    refine ⟨by simp, fun i hi => ?_⟩
    simp only [Stmt.targets, List.mem_cons, List.not_mem_nil, or_false, not_or] at hi
    rw [getD_set, if_neg (by omega), getD_set, if_neg (by omega), getD_set, if_neg (by omega), getD_set,
      if_neg (by omega)]

theorem body_frame {X : Ext} {T A : List Var} {E : Engine} {m : ℕ} : ∀ (P : List Stmt) {B B' : List Var} {s s' : St},
    (P.all fun st => st.targets.all fun t => decide (m ≤ t)) = true →
    execBody X T A B P E s = .ok ((B', none), s') →
    B'.length = B.length ∧ ∀ i < m, B'.getD i .nil = B.getD i .nil
  | [], B, B', s, s', _, h => by cases h; exact ⟨rfl, fun _ _ => rfl⟩
  | st :: P, B, B', s, s', hP, h => by
    simp only [execBody, Circ.bind_ok] at h
    obtain ⟨⟨err, B1⟩, s1, h1, h2⟩ := h
    rw [List.all_cons, Bool.and_eq_true] at hP
    cases err with
    | some m => cases h2
    | none =>
      obtain ⟨l1, f1⟩ := stmt_frame h1
      obtain ⟨l2, f2⟩ := body_frame P hP.2 h2
      refine ⟨l2.trans l1, fun i hi => (f2 i hi).trans (f1 i fun hm => ?_)⟩
      have := of_decide_eq_true (List.all_eq_true.1 hP.1 i hm)
      omega

theorem getElem?_of_getD {B B' : List Var} (hl : B'.length = B.length) {i : ℕ} (h : B'.getD i .nil = B.getD i .nil) :
    B'[i]? = B[i]? := by
  by_cases hi : i < B.length
  · rw [List.getD_eq_getElem?_getD, List.getD_eq_getElem?_getD, List.getElem?_eq_getElem hi,
      List.getElem?_eq_getElem (hl ▸ hi)] at h
    rw [List.getElem?_eq_getElem hi, List.getElem?_eq_getElem (hl ▸ hi)]
    exact congrArg some h
  · rw [List.getElem?_eq_none (by omega), List.getElem?_eq_none (by omega)]

/-! ### Reads -/

/-- The positions of the transcript and of the aux list an expression reads are below the bounds. -/
def Expr.bounded {ρ : Type} (nT nA : ℕ) : Expr ρ → Bool
  | .tr i => decide (i < nT)
  | .aux i => decide (i < nA)
  | .mul x y => x.bounded nT nA && y.bounded nT nA
  | .add x y => x.bounded nT nA && y.bounded nT nA
  | .neg x => x.bounded nT nA
  | .div x y z => x.bounded nT nA && y.bounded nT nA && z.bounded nT nA
  | .pow x _ => x.bounded nT nA
  | _ => true

def Stmt.bounded (nT nA : ℕ) : Stmt → Bool
  | .set _ es => es.all (Expr.bounded nT nA)
  | _ => true

theorem idx_congr {l l' : List Var} {i : ℕ} (h : l[i]? = l'[i]?) : idx l i = idx l' i := by unfold idx; rw [h]

theorem eval_congr {T T' A A' B : List Var} {nT nA : ℕ} (hT : ∀ i < nT, T[i]? = T'[i]?) (hA : ∀ i < nA, A[i]? = A'[i]?) :
    ∀ e : Expr ℕ, e.bounded nT nA = true → e.eval T A B = e.eval T' A' B
  | .str _, _ => rfl
  | .int _, _ => rfl
  | .buf _, _ => rfl
  | .tr i, h => idx_congr (hT i (of_decide_eq_true h))
  | .aux i, h => idx_congr (hA i (of_decide_eq_true h))
  | .mul x y, h => by
    simp only [Expr.bounded, Bool.and_eq_true] at h
    simp only [Expr.eval, eval_congr hT hA x h.1, eval_congr hT hA y h.2]
  | .add x y, h => by
    simp only [Expr.bounded, Bool.and_eq_true] at h
    simp only [Expr.eval, eval_congr hT hA x h.1, eval_congr hT hA y h.2]
  | .neg x, h => by simp only [Expr.eval, eval_congr hT hA x h]
  | .div x y z, h => by
    simp only [Expr.bounded, Bool.and_eq_true] at h
    simp only [Expr.eval, eval_congr hT hA x h.1.1, eval_congr hT hA y h.1.2, eval_congr hT hA z h.2]
  | .pow x _, h => by simp only [Expr.eval, eval_congr hT hA x h]

theorem evalExprs_congr {T T' A A' B : List Var} {nT nA : ℕ} (hT : ∀ i < nT, T[i]? = T'[i]?)
    (hA : ∀ i < nA, A[i]? = A'[i]?) : ∀ es : List (Expr ℕ), es.all (Expr.bounded nT nA) = true →
    evalExprs T A B es = evalExprs T' A' B es
  | [], _ => rfl
  | e :: es, h => by
    simp only [List.all_cons, Bool.and_eq_true] at h
    simp only [evalExprs, eval_congr hT hA e h.1, evalExprs_congr hT hA es h.2]

theorem execBody_congr {X : Ext} {T T' A A' : List Var} {nT nA : ℕ} (hT : ∀ i < nT, T[i]? = T'[i]?)
    (hA : ∀ i < nA, A[i]? = A'[i]?) : ∀ (P : List Stmt) (B : List Var), P.all (Stmt.bounded nT nA) = true →
    execBody X T A B P = execBody X T' A' B P
  | [], _, _ => rfl
  | st :: P, B, h => by
    simp only [List.all_cons, Bool.and_eq_true] at h
    have h1 : st.exec X T A B = st.exec X T' A' B := by
      cases st with
      | set ts es => simp only [Stmt.exec, evalExprs_congr hT hA es h.1]
      | eccMul => rfl
      | eccMulAdd => rfl
    simp only [execBody, h1]
    congr 1
    funext ⟨e, B1⟩
    cases e with
    | some m => rfl
    | none => exact execBody_congr hT hA P B1 h.2

theorem absorbPoints_congr {T T' : List Var} {m : ℕ} (hT : ∀ i < m, T[i]? = T'[i]?) : ∀ (n : ℕ) (A : List Var) (p t : ℕ),
    t + 2 * n ≤ m → absorbPoints T n A p t = absorbPoints T' n A p t
  | 0, _, _, _, _ => rfl
  | n + 1, A, p, t, h => by
    simp only [absorbPoints, idx_congr (hT t (by omega)), idx_congr (hT (t + 1) (by omega))]
    congr 1; funext x; congr 1; funext y; congr 1; funext e
    cases e with
    | some m => rfl
    | none =>
      simp only []
      congr 1; funext x; congr 1; funext A1; congr 1; funext y; congr 1; funext A2
      exact absorbPoints_congr hT n A2 _ _ (by omega)

theorem absorbScalars_congr {T T' : List Var} {m : ℕ} (hT : ∀ i < m, T[i]? = T'[i]?) : ∀ (n : ℕ) (A : List Var) (p t : ℕ),
    t + n ≤ m → absorbScalars T n A p t = absorbScalars T' n A p t
  | 0, _, _, _, _ => rfl
  | n + 1, A, p, t, h => by
    simp only [absorbScalars, idx_congr (hT t (by omega))]
    congr 1; funext x; congr 1; funext A1
    exact absorbScalars_congr hT n A1 _ _ (by omega)

theorem challenges_congr (X : Ext) (buf : List Var) {T T' : List Var} (hT : ∀ i < 104, T[i]? = T'[i]?) :
    GetChallengesShPlonkCircuit X buf T = GetChallengesShPlonkCircuit X buf T' := by
  unfold GetChallengesShPlonkCircuit
  simp only [absorbPoints_congr hT 8 _ 3 0 (by norm_num), absorbPoints_congr hT 4 _ 1 16 (by norm_num),
    absorbPoints_congr hT 7 _ 1 24 (by norm_num), absorbPoints_congr hT 3 _ 1 38 (by norm_num),
    absorbScalars_congr hT 56 _ 1 44 (by norm_num), absorbPoints_congr hT 1 _ 1 100 (by norm_num),
    idx_congr (hT 102 (by norm_num)), idx_congr (hT 103 (by norm_num))]

end Verif
