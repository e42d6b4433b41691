/-
Concrete runs of the verification steps: an evaluator on natural numbers that the kernel can run, proved to agree with
the model. Models nothing of /repo.
-/
import Verif.Props.Completeness
import Verif.Math.Jacobian
import Verif.Spec.Hashes

namespace Verif
open Halo2

/-- Value of an expression, and whether it is stored as the canonical constant; `none` when a check fails or a cell is
unknown. -/
def Expr.evalN (t a : List ℕ) (b : List (Option ℕ)) : Expr ℕ → Option (ℕ × Bool)
  | .str n => some (n, true)
  | .int n => some (n, false)
  | .buf i => match b.getD i none with
    | some n => some (n, true)
    | none => none
  | .tr i => match t[i]? with
    | some n => some (n, true)
    | none => none
  | .aux i => match a[i]? with
    | some n => some (n, true)
    | none => none
  | .mul x y => match x.evalN t a b with
    | none => none
    | some (m, _) => match y.evalN t a b with
      | none => none
      | some (n, _) => forceN (m * n % rMod) fun k => some (k, true)
  | .add x y => match x.evalN t a b with
    | none => none
    | some (m, _) => match y.evalN t a b with
      | none => none
      | some (n, _) => forceN ((m + n) % rMod) fun k => some (k, true)
  | .neg x => match x.evalN t a b with
    | none => none
    | some (m, _) => forceN ((rMod - m % rMod) % rMod) fun k => some (k, true)
  | .div x y z => match x.evalN t a b with
    | none => none
    | some (l, _) => match y.evalN t a b with
      | none => none
      | some (m, _) => match z.evalN t a b with
        | some (n, true) => bif Nat.ble rMod l || Nat.ble rMod n || !Nat.beq (m * n % rMod) l then none else some (n, true)
        | _ => none
  | .pow x n => match x.evalN t a b with
    | none => none
    | some (m, _) => bif Nat.ble n 1 || Nat.ble (2 ^ 512) n then none else
        forceN (m * powMod rMod m (n - 1) % rMod) fun k => some (k, true)

def evalNs (t a : List ℕ) (b : List (Option ℕ)) : List (Expr ℕ) → Option (List ℕ)
  | [] => some []
  | e :: es => match e.evalN t a b with
    | some (n, true) => match evalNs t a b es with
      | some l => some (n :: l)
      | none => none
    | _ => none

def storeN (b : List (Option ℕ)) : List ℕ → List ℕ → List (Option ℕ)
  | t :: ts, v :: vs => storeN (b.set t (some v)) ts vs
  | _, _ => b

/-- Scalar multiple with all the checks of the circuit. -/
def mulChk (x y k : ℕ) : Option (ℕ × ℕ) :=
  bif Nat.ble pMod x || Nat.ble pMod y || !Nat.beq (y * y % pMod) ((x * x % pMod * x + 3) % pMod) || Nat.beq k 0 || Nat.ble rMod k
    then none else
  match jmul k (x, y) with
  | none => none
  | some (x', y') => forceN x' fun x' => forceN y' fun y' =>
    bif Nat.ble rMod x' || Nat.ble rMod y' then none else some (x', y')

/-- Sum with all the checks of the circuit. -/
def addChk (P Q : ℕ × ℕ) : Option (ℕ × ℕ) :=
  bif Nat.ble pMod P.1 || Nat.ble pMod P.2 || !Nat.beq (P.2 * P.2 % pMod) ((P.1 * P.1 % pMod * P.1 + 3) % pMod) then none else
  match addN P Q with
  | (x, y) => forceN x fun x => forceN y fun y =>
    bif Nat.beq x 0 || Nat.ble rMod x || Nat.ble rMod y then none else some (x, y)

def Stmt.execN (t a : List ℕ) (b : List (Option ℕ)) : Stmt → Option (List (Option ℕ))
  | .set ts es => match evalNs t a b es with
    | none => none
    | some vs => bif ts.all fun i => Nat.ble (i + 1) b.length then some (storeN b ts vs) else none
  | .eccMul o => match b.getD o none, b.getD (o + 1) none, b.getD (o + 2) none with
    | some x, some y, some k => match mulChk x y k with
      | some (x', y') => some ((b.set o (some x')).set (o + 1) (some y'))
      | none => none
    | _, _, _ => none
  | .eccMulAdd o =>
    match b.getD o none, b.getD (o + 1) none, b.getD (o + 2) none, b.getD (o + 3) none, b.getD (o + 4) none with
    | some x0, some y0, some x, some y, some k => match mulChk x y k with
      | some (x', y') => match addChk (x0, y0) (x', y') with
        | some (x2, y2) => some ((((b.set (o + 2) (some x')).set (o + 2 + 1) (some y')).set o (some x2)).set (o + 1) (some y2))
        | none => none
      | none => none
    | _, _, _, _, _ => none

/-- `k b`, with the cells evaluated first by the kernel. -/
def forceB {α : Sort*} : List (Option ℕ) → (List (Option ℕ) → α) → α
  | [], k => k []
  | none :: l, k => forceB l fun l' => k (none :: l')
  | some x :: l, k => forceN x fun y => forceB l fun l' => k (some y :: l')

def execNs (t a : List ℕ) : List (Option ℕ) → List Stmt → Option (List (Option ℕ))
  | b, [] => some b
  | b, st :: P => match st.execN t a b with
    | none => none
    | some b' => forceB b' fun b' => execNs t a b' P

/-! ### Agreement with the model -/

theorem forceN_eq {α : Sort*} (n : ℕ) (k : ℕ → α) : forceN n k = k n := by cases n <;> rfl
theorem forceB_eq {α : Sort*} : ∀ (l : List (Option ℕ)) (k : List (Option ℕ) → α), forceB l k = k l
  | [], k => rfl
  | none :: l, k => by rw [forceB, forceB_eq l]
  | some x :: l, k => by rw [forceB, forceN_eq, forceB_eq l]

/-- The known cells agree. -/
def Agree (b : List (Option ℕ)) (B : List Var) : Prop :=
  B.length = b.length ∧ ∀ i n, b.getD i none = some n → B.getD i .nil = .big n

theorem frVar_nat {E : Engine} (hE : E.mode = .test) {x : Fr} {k : ℕ} (h : x = (k : Fr)) (hk : k < rMod) :
    frVar E x = .big k := by
  rw [frVar_test hE, h, ZMod.val_natCast_of_lt hk]

theorem big_good {n : ℕ} (h : n < rMod) : (Var.big n).Good := ⟨by positivity, by exact_mod_cast h⟩

theorem evalN_ok {t a : List ℕ} {b : List (Option ℕ)} {T A B : List Var} {E : Engine} (hE : E.mode = .test) (hm : HonestMod E)
    (hT : T = t.map fun m : ℕ => .big (m : ℤ)) (hA : A = a.map fun m : ℕ => .big (m : ℤ)) (hB : Agree b B) (e : Expr ℕ) :
    ∀ (n : ℕ) (x : Bool) (s : St), e.evalN t a b = some (n, x) →
    ∃ v s', e.eval T A B E s = .ok (v, s') ∧ s'.sat = s.sat ∧ v.IsVal ∧ v.fr = (n : Fr) ∧ (x = true → v = .big n) ∧
      (x = false → v.Good) := by
  have rpos := rMod_pos
  have hbig : ∀ {k : ℕ}, (Var.big (k : ℤ)).fr = (k : Fr) := fun {k} => by simp [Var.fr]
  induction e with
  | str m =>
    intro n x s h
    simp only [Expr.evalN, Option.some.injEq, Prod.mk.injEq] at h
    obtain ⟨rfl, rfl⟩ := h
    exact ⟨_, s, rfl, rfl, trivial, hbig, fun _ => rfl, fun h => by cases h⟩
  | int m =>
    intro n x s h
    simp only [Expr.evalN, Option.some.injEq, Prod.mk.injEq] at h
    obtain ⟨rfl, rfl⟩ := h
    exact ⟨_, s, rfl, rfl, trivial, by simp [Var.fr], (fun h => by cases h), fun _ => trivial⟩
  | buf i =>
    intro n x s h
    simp only [Expr.evalN] at h
    split at h
    · rename_i m hm'
      simp only [Option.some.injEq, Prod.mk.injEq] at h
      obtain ⟨rfl, rfl⟩ := h
      have hi : i < B.length := by
        rw [hB.1]
        by_contra hc
        rw [List.getD_eq_getElem?_getD, List.getElem?_eq_none (by omega)] at hm'
        cases hm'
      refine ⟨_, s, idx_at hi E s, rfl, ?_, ?_, fun _ => hB.2 i m hm', fun h => by cases h⟩
      · rw [hB.2 i m hm']; trivial
      · rw [hB.2 i m hm']; exact hbig
    · cases h
  | tr i =>
    intro n x s h
    simp only [Expr.evalN] at h
    split at h
    · rename_i m hm'
      simp only [Option.some.injEq, Prod.mk.injEq] at h
      obtain ⟨rfl, rfl⟩ := h
      have hi : T[i]? = some (.big (m : ℤ)) := by rw [hT, List.getElem?_map, hm']; rfl
      exact ⟨_, s, idx_ok.2 ⟨hi, rfl⟩, rfl, trivial, hbig, fun _ => rfl, fun h => by cases h⟩
    · cases h
  | aux i =>
    intro n x s h
    simp only [Expr.evalN] at h
    split at h
    · rename_i m hm'
      simp only [Option.some.injEq, Prod.mk.injEq] at h
      obtain ⟨rfl, rfl⟩ := h
      have hi : A[i]? = some (.big (m : ℤ)) := by rw [hA, List.getElem?_map, hm']; rfl
      exact ⟨_, s, idx_ok.2 ⟨hi, rfl⟩, rfl, trivial, hbig, fun _ => rfl, fun h => by cases h⟩
    · cases h
  | mul e1 e2 ih1 ih2 =>
    intro n x s h
    simp only [Expr.evalN] at h
    split at h
    · cases h
    · rename_i m1 x1 g1
      split at h
      · cases h
      · rename_i m2 x2 g2
        rw [forceN_eq, Option.some.injEq, Prod.mk.injEq] at h
        obtain ⟨rfl, rfl⟩ := h
        obtain ⟨v1, s1, p1, p2, p3, p4, -⟩ := ih1 _ _ s g1
        obtain ⟨v2, s2, q1, q2, q3, q4, -⟩ := ih2 _ _ s1 g2
        have he : v1.fr * v2.fr = ((m1 * m2 % rMod : ℕ) : Fr) := by rw [p4, q4, ZMod.natCast_mod, Nat.cast_mul]
        have hv := frVar_nat hE he (Nat.mod_lt _ rpos)
        refine ⟨_, s2.addHints [.modHint], ?_, q2.trans p2, ?_, ?_, fun _ => hv, fun h => by cases h⟩
        · simp only [Expr.eval, Circ.bind_run, p1, q1]; exact fr_mul_honest hm p3 q3 s2
        · rw [hv]; trivial
        · rw [hv]; exact hbig
  | add e1 e2 ih1 ih2 =>
    intro n x s h
    simp only [Expr.evalN] at h
    split at h
    · cases h
    · rename_i m1 x1 g1
      split at h
      · cases h
      · rename_i m2 x2 g2
        rw [forceN_eq, Option.some.injEq, Prod.mk.injEq] at h
        obtain ⟨rfl, rfl⟩ := h
        obtain ⟨v1, s1, p1, p2, p3, p4, -⟩ := ih1 _ _ s g1
        obtain ⟨v2, s2, q1, q2, q3, q4, -⟩ := ih2 _ _ s1 g2
        have he : v1.fr + v2.fr = (((m1 + m2) % rMod : ℕ) : Fr) := by rw [p4, q4, ZMod.natCast_mod, Nat.cast_add]
        have hv := frVar_nat hE he (Nat.mod_lt _ rpos)
        refine ⟨_, s2.addHints [.modHint], ?_, q2.trans p2, ?_, ?_, fun _ => hv, fun h => by cases h⟩
        · simp only [Expr.eval, Circ.bind_run, p1, q1]; exact fr_add_honest hm p3 q3 s2
        · rw [hv]; trivial
        · rw [hv]; exact hbig
  | neg e1 ih1 =>
    intro n x s h
    simp only [Expr.evalN] at h
    split at h
    · cases h
    · rename_i m1 x1 g1
      rw [forceN_eq, Option.some.injEq, Prod.mk.injEq] at h
      obtain ⟨rfl, rfl⟩ := h
      obtain ⟨v1, s1, p1, p2, p3, p4, -⟩ := ih1 _ _ s g1
      have he : -v1.fr = (((rMod - m1 % rMod) % rMod : ℕ) : Fr) := by
        rw [p4, ZMod.natCast_mod, Nat.cast_sub (Nat.mod_lt _ rpos).le, ZMod.natCast_self, ZMod.natCast_mod, zero_sub]
      have hv : Var.big ((-v1.fr).val : ℤ) = .big (((rMod - m1 % rMod) % rMod : ℕ) : ℤ) := by
        rw [he, ZMod.val_natCast_of_lt (Nat.mod_lt _ rpos)]
      refine ⟨_, s1, ?_, p2, ?_, ?_, fun _ => hv, fun h => by cases h⟩
      · simp only [Expr.eval, Circ.bind_run, p1]; exact fr_neg_test hE p3 s1
      · trivial
      · rw [hv]; exact hbig
  | div e1 e2 e3 ih1 ih2 ih3 =>
    intro n x s h
    simp only [Expr.evalN] at h
    split at h
    · cases h
    · rename_i l x1 g1
      split at h
      · cases h
      · rename_i m x2 g2
        split at h
        · rename_i k g3
          cases hc : (Nat.ble rMod l || Nat.ble rMod k || !Nat.beq (m * k % rMod) l) with
          | true => rw [hc] at h; cases h
          | false =>
            rw [hc, cond_false, Option.some.injEq, Prod.mk.injEq] at h
            obtain ⟨rfl, rfl⟩ := h
            rw [Bool.or_eq_false_iff, Bool.or_eq_false_iff, Bool.not_eq_false'] at hc
            obtain ⟨⟨c1, c2⟩, c3⟩ := hc
            have c1' : l < rMod := by
              by_contra hh
              rw [Nat.ble_eq_true_of_le (by omega)] at c1; cases c1
            have c2' : k < rMod := by
              by_contra hh
              rw [Nat.ble_eq_true_of_le (by omega)] at c2; cases c2
            have c3' := Nat.eq_of_beq_eq_true c3
            obtain ⟨v1, s1, p1, p2, p3, p4, p5⟩ := ih1 _ _ s g1
            obtain ⟨v2, s2, q1, q2, q3, q4, -⟩ := ih2 _ _ s1 g2
            obtain ⟨v3, s3, o1, o2, o3, o4, o5⟩ := ih3 _ _ s2 g3
            have hv := frVar_nat hE o4 c2'
            have hdiv := fr_div_honest hm (a := v1) (b := v2) (aux := v3) (by
                cases x1 with
                | true => rw [p5.1 rfl]; exact big_good c1'
                | false => exact p5.2 rfl) q3
              (by rw [o5.1 rfl]; exact big_good c2') (by rw [q4, o4, p4, ← Nat.cast_mul, ← ZMod.natCast_mod, c3']) s3
            refine ⟨_, s3.addHints [.modHint, .modHint], ?_, o2.trans (q2.trans p2), ?_, ?_, fun _ => hv, fun h => by cases h⟩
            · simp only [Expr.eval, Circ.bind_run, p1, q1, o1]; exact hdiv
            · rw [hv]; trivial
            · rw [hv]; exact hbig
        · cases h
  | pow e1 m ih1 =>
    intro n x s h
    simp only [Expr.evalN] at h
    split at h
    · cases h
    · rename_i m1 x1 g1
      cases hc : (Nat.ble m 1 || Nat.ble (2 ^ 512) m) with
      | true => rw [hc] at h; cases h
      | false =>
        rw [hc, cond_false, forceN_eq, Option.some.injEq, Prod.mk.injEq] at h
        obtain ⟨rfl, rfl⟩ := h
        rw [Bool.or_eq_false_iff] at hc
        obtain ⟨c1, c2⟩ := hc
        have c1' : 1 < m := by
          by_contra hh
          rw [Nat.ble_eq_true_of_le (by omega)] at c1; cases c1
        have c2' : m < 2 ^ 512 := by
          by_contra hh
          rw [Nat.ble_eq_true_of_le (by omega)] at c2; cases c2
        obtain ⟨v1, s1, p1, p2, p3, p4, -⟩ := ih1 _ _ s g1
        have he : v1.fr * v1.fr ^ ((m : ℤ) - 1).toNat = ((m1 * powMod rMod m1 (m - 1) % rMod : ℕ) : Fr) := by
          rw [p4, ZMod.natCast_mod, Nat.cast_mul, powMod_cast _ _ _ (by omega), show ((m : ℤ) - 1).toNat = m - 1 by omega]
        have hv := frVar_nat hE he (Nat.mod_lt _ rpos)
        refine ⟨_, s1.addHints [.modHint], ?_, p2, ?_, ?_, fun _ => hv, fun h => by cases h⟩
        · simp only [Expr.eval, Circ.bind_run, p1]
          exact fr_pow_honest hm m p3 (by omega) s1
        · rw [hv]; trivial
        · rw [hv]; exact hbig

theorem evalNs_ok {t a : List ℕ} {b : List (Option ℕ)} {T A B : List Var} {E : Engine} (hE : E.mode = .test) (hm : HonestMod E)
    (hT : T = t.map fun m : ℕ => .big (m : ℤ)) (hA : A = a.map fun m : ℕ => .big (m : ℤ)) (hB : Agree b B) : ∀ (es : List (Expr ℕ))
    (l : List ℕ) (s : St), evalNs t a b es = some l →
    ∃ s', evalExprs T A B es E s = .ok (l.map fun m : ℕ => .big (m : ℤ), s') ∧ s'.sat = s.sat
  | [], l, s, h => by cases h; exact ⟨s, rfl, rfl⟩
  | e :: es, l, s, h => by
    simp only [evalNs] at h
    split at h
    · rename_i n g1
      split at h
      · rename_i l' g2
        cases h
        obtain ⟨v, s1, p1, p2, -, -, p5⟩ := evalN_ok hE hm hT hA hB e _ _ s g1
        obtain ⟨s2, q1, q2⟩ := evalNs_ok hE hm hT hA hB es _ s1 g2
        refine ⟨s2, ?_, q2.trans p2⟩
        simp only [evalExprs, Circ.bind_run, p1, q1, p5.1 rfl]; rfl
      · cases h
    · cases h

theorem Agree.set {b : List (Option ℕ)} {B : List Var} (h : Agree b B) (i n : ℕ) : Agree (b.set i (some n)) (B.set i (.big n)) := by
  refine ⟨by rw [List.length_set, List.length_set, h.1], fun j m hj => ?_⟩
  rw [getD_set]
  have hb : (b.set i (some n)).getD j none = if i = j ∧ j < b.length then some n else b.getD j none := by
    simp only [List.getD_eq_getElem?_getD, List.getElem?_set]
    by_cases h1 : i = j
    · subst h1
      by_cases h2 : i < b.length
      · simp [h2]
      · simp only [h2, if_false, and_false, if_true]
        rw [List.getElem?_eq_none (by omega)]
    · simp [h1]
  rw [hb, ← h.1] at hj
  split
  · rename_i hc
    rw [if_pos hc, Option.some.injEq] at hj
    rw [hj]
  · rename_i hc
    rw [if_neg hc] at hj
    exact h.2 j m hj

theorem storeN_agree : ∀ (ts vs : List ℕ) {b : List (Option ℕ)} {B : List Var}, Agree b B →
    Agree (storeN b ts vs) (storeMany B ts (vs.map fun m : ℕ => .big (m : ℤ)))
  | [], vs, b, B, h => by simpa [storeN, storeMany] using h
  | t :: ts, [], b, B, h => by simpa [storeN, storeMany] using h
  | t :: ts, v :: vs, b, B, h => by
    simp only [storeN, List.map_cons, storeMany]
    exact storeN_agree ts vs (h.set t v)

theorem ble_false {a b : ℕ} (h : Nat.ble a b = false) : b < a := by
  by_contra hh
  rw [Nat.ble_eq_true_of_le (by omega)] at h; cases h

theorem curve_of_chk {x y : ℕ} (h : Nat.beq (y * y % pMod) ((x * x % pMod * x + 3) % pMod) = true) : OnCurve (x : Fp) (y : Fp) := by
  have h1 := Nat.eq_of_beq_eq_true h
  have h2 := congrArg (Nat.cast (R := Fp)) h1
  rw [ZMod.natCast_mod, ZMod.natCast_mod, Nat.cast_mul, Nat.cast_add, Nat.cast_mul, ZMod.natCast_mod, Nat.cast_mul] at h2
  show (y : Fp) ^ 2 = (x : Fp) ^ 3 + 3
  rw [sq, h2]
  push_cast
  ring

theorem enc_mk {x y : ℕ} (hx : x < pMod) (hy : y < pMod) (h : OnCurve (x : Fp) (y : Fp)) : encN (mkPt (x : Fp) (y : Fp) h) = (x, y) := by
  have e : enc (mkPt (x : Fp) (y : Fp) h) = ((x : Fp), (y : Fp)) := rfl
  rw [encN, e, ZMod.val_natCast_of_lt hx, ZMod.val_natCast_of_lt hy]

theorem mulChk_ok {x y k x' y' : ℕ} (h : mulChk x y k = some (x', y')) : ∃ p : Fr × G1, encN p.2 = (x, y) ∧ p.2 ≠ 0 ∧
    p.1.val = k ∧ p.1 ≠ 0 ∧ encN (p.1 • p.2) = (x', y') ∧ Representable (p.1 • p.2) := by
  unfold mulChk at h
  cases hc : (Nat.ble pMod x || Nat.ble pMod y || !Nat.beq (y * y % pMod) ((x * x % pMod * x + 3) % pMod) || Nat.beq k 0 ||
    Nat.ble rMod k) with
  | true => rw [hc, cond_true] at h; cases h
  | false =>
    rw [hc, cond_false] at h
    rw [Bool.or_eq_false_iff, Bool.or_eq_false_iff, Bool.or_eq_false_iff, Bool.or_eq_false_iff, Bool.not_eq_false'] at hc
    obtain ⟨⟨⟨⟨c1, c2⟩, c3⟩, c4⟩, c5⟩ := hc
    have hx := ble_false c1
    have hy := ble_false c2
    have hk := ble_false c5
    have hcv := curve_of_chk c3
    have hk0 : k ≠ 0 := by
      rintro rfl
      cases c4
    split at h
    · cases h
    rename_i x1 y1 hj
    rw [forceN_eq, forceN_eq] at h
    cases hc' : (Nat.ble rMod x1 || Nat.ble rMod y1) with
    | true => rw [hc', cond_true] at h; cases h
    | false =>
      rw [hc', cond_false, Option.some.injEq, Prod.mk.injEq] at h
      obtain ⟨rfl, rfl⟩ := h
      rw [Bool.or_eq_false_iff] at hc'
      have hx1 := ble_false hc'.1
      have hy1 := ble_false hc'.2
      have hP0 : mkPt (x : Fp) (y : Fp) hcv ≠ 0 := WeierstrassCurve.Affine.Point.some_ne_zero _
      rw [← enc_mk hx hy hcv] at hj
      obtain ⟨j1, j2⟩ := jmul_encN (Nat.pos_of_ne_zero hk0) hP0 hj
      have hkv : ((k : Fr)).val = k := ZMod.val_natCast_of_lt hk
      have hsm : (k : Fr) • mkPt (x : Fp) (y : Fp) hcv = k • mkPt (x : Fp) (y : Fp) hcv := by rw [fr_smul_eq, hkv]
      refine ⟨((k : Fr), mkPt (x : Fp) (y : Fp) hcv), enc_mk hx hy hcv, hP0, hkv, ?_, ?_, ?_⟩
      · intro h0
        have : ((k : Fr)).val = 0 := by rw [show (k : Fr) = 0 from h0, ZMod.val_zero]
        omega
      · rw [hsm, ← j1]
      · rw [hsm]
        refine ⟨j2, ?_, ?_⟩
        · have := congrArg Prod.fst j1
          simp only [encN] at this
          rw [← this]; exact hx1
        · have := congrArg Prod.snd j1
          simp only [encN] at this
          rw [← this]; exact hy1

theorem addChk_ok {c d e : ℕ × ℕ} {Q : G1} (hQ : encN Q = d) (h : addChk c d = some e) : ∃ P : G1, encN P = c ∧ P ≠ 0 ∧
    encN (P + Q) = e ∧ Representable (P + Q) := by
  unfold addChk at h
  cases hc : (Nat.ble pMod c.1 || Nat.ble pMod c.2 || !Nat.beq (c.2 * c.2 % pMod) ((c.1 * c.1 % pMod * c.1 + 3) % pMod)) with
  | true => rw [hc, cond_true] at h; cases h
  | false =>
    rw [hc, cond_false] at h
    rw [Bool.or_eq_false_iff, Bool.or_eq_false_iff, Bool.not_eq_false'] at hc
    obtain ⟨⟨c1, c2⟩, c3⟩ := hc
    have hx := ble_false c1
    have hy := ble_false c2
    have hcv := curve_of_chk c3
    obtain ⟨⟨x, y⟩, hxy⟩ : ∃ q, addN c d = q := ⟨_, rfl⟩
    rw [hxy] at h
    simp only [] at h
    rw [forceN_eq, forceN_eq] at h
    cases hc' : (Nat.beq x 0 || Nat.ble rMod x || Nat.ble rMod y) with
    | true => rw [hc', cond_true] at h; cases h
    | false =>
      rw [hc', cond_false, Option.some.injEq] at h
      rw [Bool.or_eq_false_iff, Bool.or_eq_false_iff] at hc'
      obtain ⟨⟨d1, d2⟩, d3⟩ := hc'
      have hx1 := ble_false d2
      have hy1 := ble_false d3
      have hP0 : mkPt (c.1 : Fp) (c.2 : Fp) hcv ≠ 0 := WeierstrassCurve.Affine.Point.some_ne_zero _
      have hadd : (x, y) = encN (mkPt (c.1 : Fp) (c.2 : Fp) hcv + Q) := by
        rw [← addN_encN, enc_mk hx hy hcv, hQ, ← hxy]
      refine ⟨mkPt (c.1 : Fp) (c.2 : Fp) hcv, enc_mk hx hy hcv, hP0, hadd.symm.trans h, ?_, ?_, ?_⟩
      · intro h0
        rw [h0] at hadd
        simp [encN] at hadd
        rw [hadd.1] at d1
        cases d1
      · have := congrArg Prod.fst hadd
        simp only [encN] at this
        rw [← this]; exact hx1
      · have := congrArg Prod.snd hadd
        simp only [encN] at this
        rw [← this]; exact hy1

theorem Agree.lt {b : List (Option ℕ)} {B : List Var} (h : Agree b B) {i n : ℕ} (hi : b.getD i none = some n) : i < B.length := by
  rw [h.1]
  by_contra hc
  rw [List.getD_eq_getElem?_getD, List.getElem?_eq_none (by omega)] at hi
  cases hi

theorem encN_exact {P : G1} {x y : ℕ} (h : encN P = (x, y)) {v w : Var} (hv : v = .big x) (hw : w = .big y) : PtExact v w P := by
  rw [encN, Prod.mk.injEq] at h
  rw [PtExact, h.1, h.2]
  exact ⟨hv, hw⟩

theorem execN_ok {X : Ext} (hX : X.Lawful) {t a : List ℕ} {b b' : List (Option ℕ)} {T A B : List Var} {E : Engine} (hE : HonestRaw E)
    (hT : T = t.map fun m : ℕ => .big (m : ℤ)) (hA : A = a.map fun m : ℕ => .big (m : ℤ)) (hB : Agree b B) (st : Stmt) (s : St)
    (h : st.execN t a b = some b') : ∃ B' s', st.exec X T A B E s = .ok ((none, B'), s') ∧ s'.sat = s.sat ∧ Agree b' B' := by
  cases st with
  | set ts es =>
    simp only [Stmt.execN] at h
    split at h
    · cases h
    rename_i vs hvs
    cases hc : ts.all fun i => Nat.ble (i + 1) b.length with
    | false => rw [hc, cond_false] at h; cases h
    | true =>
      rw [hc, cond_true, Option.some.injEq] at h
      subst h
      obtain ⟨s1, h1, h2⟩ := evalNs_ok hE.test hE.mod hT hA hB es vs s hvs
      have hr := setMany_run (E := E) (s := s1) ts (vs.map fun m : ℕ => .big (m : ℤ)) B fun i hi => by
        have := List.all_eq_true.1 hc i hi
        rw [hB.1]
        exact Nat.le_of_ble_eq_true this
      refine ⟨_, s1, ?_, h2, storeN_agree ts vs hB⟩
      simp only [Stmt.exec, Circ.bind_run, h1, hr]
      rfl
  | eccMul o =>
    simp only [Stmt.execN] at h
    split at h
    · rename_i x y k h0 h1 h2
      split at h
      · rename_i x' y' hm
        cases h
        obtain ⟨p, e1, e2, e3, e4, e5, e6⟩ := mulChk_ok hm
        obtain ⟨s', g1, g2⟩ := ecc_mul_exec hX hE (B := B) (o := o) (p := p) (encN_exact e1 (hB.2 _ _ h0) (hB.2 _ _ h1))
          (by rw [e3]; exact hB.2 _ _ h2) e4 e2 e6 (hB.lt h2) s
        rw [encN, Prod.mk.injEq] at e5
        rw [e5.1, e5.2] at g1
        exact ⟨_, s', g1, g2, (hB.set _ _).set _ _⟩
      · cases h
    · cases h
  | eccMulAdd o =>
    simp only [Stmt.execN] at h
    split at h
    · rename_i x0 y0 x y k i0 i1 h0 h1 h2
      split at h
      · rename_i x' y' hm
        split at h
        · rename_i x2 y2 ha
          cases h
          obtain ⟨p, e1, e2, e3, e4, e5, e6⟩ := mulChk_ok hm
          obtain ⟨Q, f1, f2, f3, f4⟩ := addChk_ok e5 ha
          obtain ⟨s', g1, g2⟩ := ecc_mul_add_store hX hE (B := B) (o := o) (p := p) (Q := Q)
            (encN_exact f1 (hB.2 _ _ i0) (hB.2 _ _ i1)) (encN_exact e1 (hB.2 _ _ h0) (hB.2 _ _ h1))
            (by rw [e3]; exact hB.2 _ _ h2) e4 e2 e6 f4 (hB.lt h2) s
          rw [encN, Prod.mk.injEq] at e5 f3
          rw [e5.1, e5.2, f3.1, f3.2] at g1
          exact ⟨_, s', g1, g2, (((hB.set _ _).set _ _).set _ _).set _ _⟩
        · cases h
      · cases h
    · cases h

theorem execNs_ok {X : Ext} (hX : X.Lawful) {t a : List ℕ} {T A : List Var} {E : Engine} (hE : HonestRaw E)
    (hT : T = t.map fun m : ℕ => .big (m : ℤ)) (hA : A = a.map fun m : ℕ => .big (m : ℤ)) : ∀ (P : List Stmt) {b b' : List (Option ℕ)}
    {B : List Var} (s : St), Agree b B → execNs t a b P = some b' →
    ∃ B' s', execBody X T A B P E s = .ok ((B', none), s') ∧ s'.sat = s.sat ∧ Agree b' B'
  | [], b, b', B, s, hB, h => by cases h; exact ⟨B, s, rfl, rfl, hB⟩
  | st :: P, b, b', B, s, hB, h => by
    simp only [execNs] at h
    split at h
    · cases h
    rename_i b1 h1
    rw [forceB_eq] at h
    obtain ⟨B1, s1, g1, g2, g3⟩ := execN_ok hX hE hT hA hB st s h1
    obtain ⟨B2, s2, f1, f2, f3⟩ := execNs_ok hX hE hT hA P s1 g3 h
    refine ⟨B2, s2, ?_, f2.trans g2, f3⟩
    simp only [execBody, Circ.bind_run, g1]
    exact f1

end Verif
