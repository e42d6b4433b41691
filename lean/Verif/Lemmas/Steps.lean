/- Meaning of accepted runs of the straight-line bodies: value equations, frame, and single-assignment form. -/
import Verif.Model.StepLang
import Verif.Lemmas.Curve
import Verif.Spec.Layout

namespace Verif

namespace Expr
variable {ρ σ : Type}

/-- Field value of an expression, given the values of the buffer cells, the transcript and the aux list. A division
`fr_div(a, b, c)` returns the witness `c`. -/
def val (b : ρ → Fr) (t a : ℕ → Fr) : Expr ρ → Fr
  | .str n => (n : Fr)
  | .int n => (n : Fr)
  | .buf r => b r
  | .tr i => t i
  | .aux i => a i
  | .mul x y => x.val b t a * y.val b t a
  | .add x y => x.val b t a + y.val b t a
  | .neg x => - x.val b t a
  | .div _ _ z => z.val b t a
  | .pow x n => x.val b t a * x.val b t a ^ (n - 1)

/-- The division checks of an expression. -/
def cond (b : ρ → Fr) (t a : ℕ → Fr) : Expr ρ → Prop
  | .mul x y => x.cond b t a ∧ y.cond b t a
  | .add x y => x.cond b t a ∧ y.cond b t a
  | .neg x => x.cond b t a
  | .div x y z => x.cond b t a ∧ y.cond b t a ∧ z.cond b t a ∧ y.val b t a * z.val b t a = x.val b t a
  | .pow x _ => x.cond b t a
  | _ => True

/-- What the variable returned by the expression is: a copied variable, or a canonical integer. -/
def Shape (b : ρ → Var) (T A : List Var) (v : Var) : Expr ρ → Prop
  | .str n => v = .big n
  | .int n => v = .int n
  | .buf r => v = b r
  | .tr i => T[i]? = some v
  | .aux i => A[i]? = some v
  | _ => v.Canon

/-- All positions read exist. -/
def InRange (nT nA : ℕ) : Expr ρ → Prop
  | .tr i => i < nT
  | .aux i => i < nA
  | .mul x y => x.InRange nT nA ∧ y.InRange nT nA
  | .add x y => x.InRange nT nA ∧ y.InRange nT nA
  | .neg x => x.InRange nT nA
  | .div x y z => x.InRange nT nA ∧ y.InRange nT nA ∧ z.InRange nT nA
  | .pow x _ => x.InRange nT nA
  | _ => True

def map (f : ρ → σ) : Expr ρ → Expr σ
  | .str n => .str n
  | .int n => .int n
  | .buf r => .buf (f r)
  | .tr i => .tr i
  | .aux i => .aux i
  | .mul x y => .mul (x.map f) (y.map f)
  | .add x y => .add (x.map f) (y.map f)
  | .neg x => .neg (x.map f)
  | .div x y z => .div (x.map f) (y.map f) (z.map f)
  | .pow x n => .pow (x.map f) n

theorem val_map (f : ρ → σ) (b : σ → Fr) (t a : ℕ → Fr) (e : Expr ρ) :
    (e.map f).val b t a = e.val (fun r => b (f r)) t a := by
  induction e <;> simp_all [map, val]

theorem cond_map (f : ρ → σ) (b : σ → Fr) (t a : ℕ → Fr) (e : Expr ρ) :
    (e.map f).cond b t a ↔ e.cond (fun r => b (f r)) t a := by
  induction e <;> simp_all [map, cond, val_map]

theorem shape_map (f : ρ → σ) (b : σ → Var) (T A : List Var) (v : Var) (e : Expr ρ) :
    (e.map f).Shape b T A v ↔ e.Shape (fun r => b (f r)) T A v := by
  cases e <;> simp [map, Shape]

theorem inRange_map (f : ρ → σ) (nT nA : ℕ) (e : Expr ρ) : (e.map f).InRange nT nA ↔ e.InRange nT nA := by
  induction e <;> simp_all [map, InRange]

end Expr

theorem frAt_of {l : List Var} {i : ℕ} {v : Var} (h : l[i]? = some v) : v.fr = frAt l i := by
  simp [frAt, List.getD_eq_getElem?_getD, h]

/-- Everything an accepted evaluation of `e` to `v` establishes. -/
structure ExprHolds {ρ : Type} (b : ρ → Var) (T A : List Var) (e : Expr ρ) (v : Var) : Prop where
  val : v.fr = e.val (fun r => (b r).fr) (frAt T) (frAt A)
  cond : e.cond (fun r => (b r).fr) (frAt T) (frAt A)
  shape : e.Shape b T A v
  range : e.InRange T.length A.length

theorem ExprHolds.map {ρ σ : Type} {b : ρ → Var} {b' : σ → Var} {T A : List Var} {e : Expr ρ} {v : Var} (f : ρ → σ)
    (hb : ∀ r, b r = b' (f r)) (h : ExprHolds b T A e v) : ExprHolds b' T A (e.map f) v := by
  have e1 : b = fun r => b' (f r) := funext hb
  subst e1
  exact ⟨by rw [Expr.val_map]; exact h.val, (Expr.cond_map ..).2 h.cond, (Expr.shape_map ..).2 h.shape,
    (Expr.inRange_map ..).2 h.range⟩

theorem eval_ok {T A B : List Var} {E : Engine} (hE : E.mode = .test) (e : Expr ℕ) : ∀ {v : Var} {s s' : St},
    e.eval T A B E s = .ok (v, s') → s'.sat = true →
    s.sat = true ∧ ExprHolds (fun i => B.getD i .nil) T A e v := by
  induction e with
  | str n => intro v s s' h hs; cases h; exact ⟨hs, rfl, trivial, rfl, trivial⟩
  | int n => intro v s s' h hs; cases h; exact ⟨hs, rfl, trivial, rfl, trivial⟩
  | buf i =>
    intro v s s' h hs
    simp only [Expr.eval, idx_ok] at h
    obtain ⟨h, rfl⟩ := h
    have : v = B.getD i .nil := by simp [List.getD_eq_getElem?_getD, h]
    exact ⟨hs, by simp only [Expr.val]; rw [this], trivial, this, trivial⟩
  | tr i =>
    intro v s s' h hs
    simp only [Expr.eval, idx_ok] at h
    obtain ⟨h, rfl⟩ := h
    exact ⟨hs, frAt_of h, trivial, h, (List.getElem?_eq_some_iff.1 h).1⟩
  | aux i =>
    intro v s s' h hs
    simp only [Expr.eval, idx_ok] at h
    obtain ⟨h, rfl⟩ := h
    exact ⟨hs, frAt_of h, trivial, h, (List.getElem?_eq_some_iff.1 h).1⟩
  | mul x y ihx ihy =>
    intro v s s' h hs
    simp only [Expr.eval, Circ.bind_ok] at h
    obtain ⟨vx, s1, h1, vy, s2, h2, h3⟩ := h
    obtain ⟨-, -, -, -, hc, -, h4⟩ := fr_mul_ok h3
    obtain ⟨h5, h6⟩ := h4 hs
    obtain ⟨g5, g6⟩ := ihy h2 h5
    obtain ⟨k5, k6⟩ := ihx h1 g5
    exact ⟨k5, by rw [h6, k6.val, g6.val]; rfl, ⟨k6.cond, g6.cond⟩, hc hE, ⟨k6.range, g6.range⟩⟩
  | add x y ihx ihy =>
    intro v s s' h hs
    simp only [Expr.eval, Circ.bind_ok] at h
    obtain ⟨vx, s1, h1, vy, s2, h2, h3⟩ := h
    obtain ⟨-, -, -, -, hc, h4⟩ := fr_add_ok h3
    obtain ⟨h5, h6⟩ := h4 hs
    obtain ⟨g5, g6⟩ := ihy h2 h5
    obtain ⟨k5, k6⟩ := ihx h1 g5
    exact ⟨k5, by rw [h6, k6.val, g6.val]; rfl, ⟨k6.cond, g6.cond⟩, hc hE, ⟨k6.range, g6.range⟩⟩
  | neg x ihx =>
    intro v s s' h hs
    simp only [Expr.eval, Circ.bind_ok] at h
    obtain ⟨vx, s1, h1, h3⟩ := h
    obtain ⟨rfl, -, -, hc, h4⟩ := fr_neg_ok h3
    obtain ⟨k5, k6⟩ := ihx h1 hs
    exact ⟨k5, by rw [h4, k6.val]; rfl, k6.cond, hc hE, k6.range⟩
  | div x y z ihx ihy ihz =>
    intro v s s' h hs
    simp only [Expr.eval, Circ.bind_ok] at h
    obtain ⟨vx, s1, h1, vy, s2, h2, vz, s3, h3, h4⟩ := h
    obtain ⟨-, -, -, -, -, hc, h5⟩ := fr_div_ok h4
    obtain ⟨h6, h7, h8⟩ := h5 hs
    obtain ⟨g5, g6⟩ := ihz h3 h6
    obtain ⟨k5, k6⟩ := ihy h2 g5
    obtain ⟨l5, l6⟩ := ihx h1 k5
    exact ⟨l5, by rw [h8, g6.val]; rfl, ⟨l6.cond, k6.cond, g6.cond, by rw [← k6.val, ← g6.val, ← l6.val]; exact h7⟩,
      hc hE, ⟨l6.range, k6.range, g6.range⟩⟩
  | pow x n ihx =>
    intro v s s' h hs
    simp only [Expr.eval, Circ.bind_ok] at h
    obtain ⟨vx, s1, h1, h3⟩ := h
    obtain ⟨m, hm, -, -, hc, h4⟩ := fr_pow_ok h3
    cases hm
    obtain ⟨h5, h6⟩ := h4 hs
    obtain ⟨k5, k6⟩ := ihx h1 h5
    refine ⟨k5, ?_, k6.cond, hc hE, k6.range⟩
    rw [h6, k6.val]
    simp only [Expr.val]
    congr 2
    omega

theorem evalExprs_ok {T A B : List Var} {E : Engine} (hE : E.mode = .test) : ∀ (es : List (Expr ℕ)) {vs : List Var}
    {s s' : St}, evalExprs T A B es E s = .ok (vs, s') → s'.sat = true →
    s.sat = true ∧ List.Forall₂ (fun e v => ExprHolds (fun i => B.getD i .nil) T A e v) es vs
  | [], vs, s, s', h, hs => by cases h; exact ⟨hs, .nil⟩
  | e :: es, vs, s, s', h, hs => by
    simp only [evalExprs, Circ.bind_ok] at h
    obtain ⟨v, s1, h1, ws, s2, h2, h3⟩ := h
    cases h3
    obtain ⟨g1, g2⟩ := evalExprs_ok hE es h2 hs
    obtain ⟨k1, k2⟩ := eval_ok hE e h1 g1
    exact ⟨k1, .cons k2 g2⟩

/-- The stores of an assignment as a function. -/
def storeMany (B : List Var) : List ℕ → List Var → List Var
  | t :: ts, v :: vs => storeMany (B.set t v) ts vs
  | _, _ => B

theorem setMany_ok : ∀ {ts : List ℕ} {vs B B' : List Var} {E : Engine} {s s' : St},
    setMany B ts vs E s = .ok (B', s') → s' = s ∧ B' = storeMany B ts vs
  | [], vs, B, B', E, s, s', h => by
    simp only [setMany] at h; cases h; exact ⟨rfl, by simp [storeMany]⟩
  | t :: ts, [], B, B', E, s, s', h => by
    simp only [setMany] at h; cases h; exact ⟨rfl, by simp [storeMany]⟩
  | t :: ts, v :: vs, B, B', E, s, s', h => by
    simp only [setMany, Circ.bind_ok, setIdx_ok] at h
    obtain ⟨B1, _, ⟨-, rfl, rfl⟩, h⟩ := h
    exact setMany_ok (ts := ts) h

theorem storeMany_length (ts : List ℕ) (vs B : List Var) : (storeMany B ts vs).length = B.length := by
  induction ts generalizing vs B with
  | nil => simp [storeMany]
  | cons t ts ih => cases vs <;> simp [storeMany, ih]

theorem getD_set (B : List Var) (t i : ℕ) (v : Var) : (B.set t v).getD i .nil =
    if t = i ∧ i < B.length then v else B.getD i .nil := by
  simp only [List.getD_eq_getElem?_getD, List.getElem?_set]
  by_cases h : t = i
  · subst h
    by_cases h2 : t < B.length
    · simp [h2]
    · simp [h2]
  · simp [h]

theorem storeMany_frame {ts : List ℕ} {vs B : List Var} {i : ℕ} (h : i ∉ ts) :
    (storeMany B ts vs).getD i .nil = B.getD i .nil := by
  induction ts generalizing vs B with
  | nil => simp [storeMany]
  | cons t ts ih =>
    simp only [List.mem_cons, not_or] at h
    cases vs with
    | nil => simp [storeMany]
    | cons v vs =>
      simp only [storeMany]
      rw [ih h.2, getD_set, if_neg (fun h' => h.1 h'.1.symm)]

/-- Relation for the target/value pairs of an assignment. -/
def AllSet (F : ℕ → Var → Prop) : List ℕ → List Var → Prop
  | t :: ts, v :: vs => F t v ∧ AllSet F ts vs
  | _, _ => True

/-- What a statement establishes between the array before and after it. -/
def Stmt.Holds (X : Ext) (T A B B' : List Var) : Stmt → Prop
  | .set ts es => ∃ vs, List.Forall₂ (fun e v => ExprHolds (fun i => B.getD i .nil) T A e v) es vs ∧
      B' = storeMany B ts vs
  | .eccMul o => ∃ (px py kk : Fp) (n m : ℤ), setInterface (B.getD o .nil) = some px ∧
      setInterface (B.getD (o + 1) .nil) = some py ∧ setInterface (B.getD (o + 2) .nil) = some kk ∧
      0 ≤ n ∧ n < rMod ∧ 0 ≤ m ∧ m < rMod ∧
      X.scalarMul (px, py) (kk.val : Fr) = some ((n : Fp), (m : Fp)) ∧
      B' = (B.set o (.big n)).set (o + 1) (.big m) ∧ o + 2 < B.length
  | .eccMulAdd o => (∃ v0 v1 v2 v3, B' = (((B.set (o + 2) v2).set (o + 3) v3).set o v0).set (o + 1) v1) ∧
    ∀ ax ay, setInterface (B.getD o .nil) = some ax → setInterface (B.getD (o + 1) .nil) = some ay →
    ∃ (px py kk : Fp) (n m n' m' : ℤ), setInterface (B.getD (o + 2) .nil) = some px ∧
      setInterface (B.getD (o + 3) .nil) = some py ∧ setInterface (B.getD (o + 4) .nil) = some kk ∧
      0 ≤ n ∧ n < rMod ∧ 0 ≤ m ∧ m < rMod ∧ 0 ≤ n' ∧ n' < rMod ∧ 0 ≤ m' ∧ m' < rMod ∧
      X.scalarMul (px, py) (kk.val : Fr) = some ((n : Fp), (m : Fp)) ∧
      X.addUnified (ax, ay) ((n : Fp), (m : Fp)) = some ((n' : Fp), (m' : Fp)) ∧
      B' = (((B.set (o + 2) (.big n)).set (o + 3) (.big m)).set o (.big n')).set (o + 1) (.big m') ∧ o + 4 < B.length

theorem ecc_mul_frame {X : Ext} {B B' : List Var} {o : ℕ} {E : Engine} {s s' : St} {e : GoErr}
    (h : ecc_mul X B o E s = .ok ((e, B'), s')) : ∃ v0 v1, e = none → B' = (B.set o v0).set (o + 1) v1 := by
  simp only [ecc_mul, Circ.bind_ok, idx_ok] at h
  obtain ⟨vx, _, -, vy, _, -, vk, _, -, ⟨res, err⟩, s1, -, h⟩ := h
  cases err with
  | some m => cases h; exact ⟨.nil, .nil, by simp⟩
  | none =>
    simp only [Circ.bind_ok, setIdx_ok] at h
    obtain ⟨b1, _, ⟨l1, rfl, rfl⟩, b2, _, ⟨l2, rfl, rfl⟩, h⟩ := h
    cases h
    exact ⟨res.1, res.2, fun _ => rfl⟩

theorem ecc_mul_add_frame {X : Ext} {B B' : List Var} {o : ℕ} {E : Engine} {s s' : St}
    (h : ecc_mul_add X B o E s = .ok ((none, B'), s')) :
    ∃ v0 v1 v2 v3, B' = (((B.set (o + 2) v2).set (o + 3) v3).set o v0).set (o + 1) v1 := by
  simp only [ecc_mul_add, Circ.bind_ok] at h
  obtain ⟨⟨err, B1⟩, s1, h1, h⟩ := h
  cases err with
  | some m => cases h
  | none =>
    simp only [Circ.bind_ok, idx_ok, setIdx_ok] at h
    obtain ⟨a, _, -, b, _, -, c, _, -, d, _, -, ⟨res, e⟩, s2, h2, b1, _, ⟨-, rfl, rfl⟩, b2, _, ⟨-, rfl, rfl⟩, h⟩ := h
    cases h
    obtain ⟨v2, v3, h3⟩ := ecc_mul_frame h1
    exact ⟨res.1, res.2, v2, v3, by rw [h3 rfl]⟩

theorem getD_some {B : List Var} {i : ℕ} {v : Var} (h : B[i]? = some v) : B.getD i .nil = v := by
  simp [List.getD_eq_getElem?_getD, h]

theorem getD_some' {B : List Var} {i : ℕ} {a : Fp} (h : setInterface (B.getD i .nil) = some a) :
    B[i]? = some (B.getD i .nil) := by
  cases h1 : B[i]? with
  | some v => simp [List.getD_eq_getElem?_getD, h1]
  | none => simp [List.getD_eq_getElem?_getD, h1, setInterface] at h

/-- In the test engine constraints are never left unsatisfied: a run that returns had `sat` before iff after. -/
theorem newHint_sat {E : Engine} (hE : E.mode = .test) {f : HintId} {n : ℕ} {ins : List Var} {s s' : St} {outs : List Var}
    (h : newHint f n ins E s = .ok (outs, s')) : s'.sat = s.sat := by
  obtain ⟨-, -, -, os, -, h⟩ := newHint_ok h
  exact h hE

theorem emit_sat {E : Engine} (hE : E.mode = .test) {w c : Bool} {s s' : St} {u : Unit}
    (h : emit w c E s = .ok (u, s')) : s' = s := by
  unfold emit at h
  cases c with
  | true => simp only [if_true] at h; cases h; rfl
  | false => simp [hE] at h

theorem mod_sat {E : Engine} (hE : E.mode = .test) {a v : Var} {s s' : St} (h : mod a E s = .ok (v, s')) :
    s'.sat = s.sat := by
  simp only [mod, Circ.bind_ok, idx_ok] at h
  obtain ⟨res, s1, h1, r1, _, ⟨hr1, rfl⟩, r0, _, ⟨hr0, rfl⟩, p, s2, hp, t, s3, ht, u, s4, ha, hret⟩ := h
  cases hret
  simp only [apiAssertIsEqual, Circ.bind_ok, readBig_ok] at ha
  obtain ⟨x, _, ⟨hx, rfl⟩, y, _, ⟨hy, rfl⟩, ha⟩ := ha
  rw [emit_sat hE ha, (apiAdd_ok ht).1, (apiMul_ok hp).1, newHint_sat hE h1]

theorem vsm_sat {X : Ext} {E : Engine} (hE : E.mode = .test) {p e : Var × Var} {k : Var} {s s' : St} {r : GoErr}
    (h : VerifyBN254ScalarMul X p k e E s = .ok (r, s')) : s' = s := by
  unfold VerifyBN254ScalarMul at h
  cases q1 : setInterface p.1 with
  | none => rw [q1] at h; cases h; rfl
  | some _ =>
  cases q2 : setInterface p.2 with
  | none => rw [q1, q2] at h; cases h; rfl
  | some _ =>
  cases q3 : setInterface k with
  | none => rw [q1, q2, q3] at h; cases h; rfl
  | some _ =>
  rw [q1, q2, q3] at h
  simp only [Circ.bind_ok] at h
  obtain ⟨u, s1, h1, h⟩ := h
  have := emit_sat hE h1
  subst this
  cases q4 : setInterface e.1 with
  | none => rw [q4] at h; cases h; rfl
  | some _ =>
  cases q5 : setInterface e.2 with
  | none => rw [q4, q5] at h; cases h; rfl
  | some _ =>
  rw [q4, q5] at h
  simp only [Circ.bind_ok] at h
  obtain ⟨u, s1, h1, h⟩ := h
  cases h
  exact emit_sat hE h1

theorem stmt_ok {X : Ext} {T A B B' : List Var} {E : Engine} (hE : E.mode = .test) {st : Stmt} {s s' : St}
    (h : st.exec X T A B E s = .ok ((none, B'), s')) (hs : s'.sat = true) :
    s.sat = true ∧ st.Holds X T A B B' := by
  cases st with
  | set ts es =>
    simp only [Stmt.exec, Circ.bind_ok] at h
    obtain ⟨vs, s1, h1, B1, s2, h2, h3⟩ := h
    cases h3
    obtain ⟨rfl, rfl⟩ := setMany_ok h2
    obtain ⟨g1, g2⟩ := evalExprs_ok hE es h1 hs
    exact ⟨g1, vs, g2, rfl⟩
  | eccMul o =>
    obtain ⟨-, hsat, -, hl, vx, vy, vk, k1, k2, k3, px, py, kk, e1, e2, e3, n, m, n0, n1, m0, m1, hm, rfl⟩ :=
      ecc_mul_ok h hs
    exact ⟨hsat, px, py, kk, n, m, by rw [getD_some k1]; exact e1, by rw [getD_some k2]; exact e2,
      by rw [getD_some k3]; exact e3, n0, n1, m0, m1, hm, rfl, hl⟩
  | eccMulAdd o =>
    have hsat : s.sat = true := by
      have h' := h
      simp only [Stmt.exec, ecc_mul_add, Circ.bind_ok] at h'
      obtain ⟨⟨err, B1⟩, s1, h1, h'⟩ := h'
      cases err with
      | some m => cases h'
      | none =>
        simp only [Circ.bind_ok, idx_ok, setIdx_ok] at h'
        obtain ⟨a, _, ⟨-, rfl⟩, b, _, ⟨-, rfl⟩, c, _, ⟨-, rfl⟩, d, s1, ⟨-, rfl⟩, ⟨res, e⟩, s2, h2, b1, _, ⟨-, rfl, rfl⟩, b2, s2,
          ⟨-, rfl, rfl⟩, h3⟩ := h'
        cases h3
        have hs1 : s1.sat = true := by
          simp only [CalcVerifyBN256Add, Circ.bind_ok, idx_ok] at h2
          obtain ⟨rs, t1, g1, r0, t1, ⟨-, rfl⟩, e0, t2, g2, r1, t2, ⟨-, rfl⟩, e1, t3, g3, err, t4, g4, g5⟩ := h2
          rw [Circ.pure_run, Except.ok.injEq, Prod.mk.injEq] at g5
          obtain ⟨-, rfl⟩ := g5
          have : t4 = t3 := by
            clear h h1 g1 g2 g3
            unfold VerifyBN254Add at g4
            cases q1 : setInterface a with
            | none => rw [q1] at g4; cases g4; rfl
            | some _ =>
            cases q2 : setInterface b with
            | none => rw [q1, q2] at g4; cases g4; rfl
            | some _ =>
            cases q3 : setInterface c with
            | none => rw [q1, q2, q3] at g4; cases g4; rfl
            | some _ =>
            cases q4 : setInterface d with
            | none => rw [q1, q2, q3, q4] at g4; cases g4; rfl
            | some _ =>
              rw [q1, q2, q3, q4] at g4
              simp only [Circ.bind_ok] at g4
              obtain ⟨u, s1, h1, g4⟩ := g4
              have := emit_sat hE h1
              subst this
              cases q5 : setInterface e0 with
              | none => simp only [q5] at g4; cases g4; rfl
              | some _ =>
              cases q6 : setInterface e1 with
              | none => simp only [q5, q6] at g4; cases g4; rfl
              | some _ =>
                simp only [q5, q6, Circ.bind_ok] at g4
                obtain ⟨u, s2, h2, g4⟩ := g4
                cases g4
                exact emit_sat hE h2
          rw [← newHint_sat hE g1, ← mod_sat hE g2, ← mod_sat hE g3, ← this]
          exact hs
        exact (ecc_mul_ok h1 hs1).2.1
    refine ⟨hsat, ecc_mul_add_frame h, fun ax ay hax hay => ?_⟩
    obtain ⟨-, -, -, hl, wx, wy, wk, k1, k2, k3, px, py, kk, e1, e2, e3, n, m, n', m', n0, n1, m0, m1, n0', n1', m0', m1',
      hm, ham, rfl⟩ := ecc_mul_add_ok h hs (getD_some' hax) (getD_some' hay) hax hay
    exact ⟨px, py, kk, n, m, n', m', by rw [getD_some k1]; exact e1, by rw [getD_some k2]; exact e2,
      by rw [getD_some k3]; exact e3, n0, n1, m0, m1, n0', n1', m0', m1', hm, ham, rfl, hl⟩

/-- The arrays after 0, 1, 2, … statements of an accepted run. -/
structure Trace (X : Ext) (T A : List Var) (P : List Stmt) (bufs : ℕ → List Var) : Prop where
  holds : ∀ (k : ℕ) (st : Stmt), P[k]? = some st → st.Holds X T A (bufs k) (bufs (k + 1))

theorem body_ok {X : Ext} {T A : List Var} {E : Engine} (hE : E.mode = .test) : ∀ (P : List Stmt) {B B' : List Var}
    {s s' : St}, execBody X T A B P E s = .ok ((B', none), s') → s'.sat = true →
    s.sat = true ∧ ∃ bufs, bufs 0 = B ∧ bufs P.length = B' ∧ Trace X T A P bufs
  | [], B, B', s, s', h, hs => by
    cases h
    exact ⟨hs, fun _ => B, rfl, rfl, ⟨by simp⟩⟩
  | st :: P, B, B', s, s', h, hs => by
    simp only [execBody, Circ.bind_ok] at h
    obtain ⟨⟨err, B1⟩, s1, h1, h2⟩ := h
    cases err with
    | some m => cases h2
    | none =>
      obtain ⟨g1, bufs, g2, g3, g4⟩ := body_ok hE P h2 hs
      obtain ⟨k1, k2⟩ := stmt_ok hE h1 g1
      refine ⟨k1, fun k => match k with | 0 => B | k + 1 => bufs k, rfl, g3, ⟨fun k st' hk => ?_⟩⟩
      cases k with
      | zero =>
        simp only [List.getElem?_cons_zero, Option.some.injEq] at hk
        subst hk
        show Stmt.Holds X T A B (bufs 0) st
        rw [g2]; exact k2
      | succ k => exact g4.holds k st' (by simpa using hk)

theorem execBody_append {X : Ext} {T A : List Var} {E : Engine} {Q : List Stmt} : ∀ (P : List Stmt) {B B1 : List Var}
    {s s1 : St}, execBody X T A B P E s = .ok ((B1, none), s1) →
    execBody X T A B (P ++ Q) E s = execBody X T A B1 Q E s1
  | [], B, B1, s, s1, h => by cases h; rfl
  | st :: P, B, B1, s, s1, h => by
    simp only [execBody, Circ.bind_ok] at h
    obtain ⟨⟨err, B2⟩, s2, h1, h2⟩ := h
    cases err with
    | some m => cases h2
    | none =>
      simp only [List.cons_append, execBody, Circ.bind_run, h1]
      exact execBody_append P h2

/-! ### Single-assignment form -/

/-- The positions a statement writes. -/
def Stmt.targets : Stmt → List ℕ
  | .set ts _ => ts
  | .eccMul o => [o, o + 1]
  | .eccMulAdd o => [o, o + 1, o + 2, o + 3]

/-- A statement whose buffer reads name the time at which the cell was last written: `(j, i)` is `buf[i]` after `j`
statements. -/
inductive SStmt where
  | set (ts : List ℕ) (es : List (Expr (ℕ × ℕ)))
  | eccMul (o jx jy jk : ℕ)
  | eccMulAdd (o ja jb jx jy jk : ℕ)
deriving DecidableEq

/-- `w[i]`: when `buf[i]` was last written. -/
def Stmt.rename (w : List ℕ) : Stmt → SStmt
  | .set ts es => .set ts (es.map (Expr.map fun i => (w.getD i 0, i)))
  | .eccMul o => .eccMul o (w.getD o 0) (w.getD (o + 1) 0) (w.getD (o + 2) 0)
  | .eccMulAdd o => .eccMulAdd o (w.getD o 0) (w.getD (o + 1) 0) (w.getD (o + 2) 0) (w.getD (o + 3) 0) (w.getD (o + 4) 0)

def stamp (w : List ℕ) (k : ℕ) (ts : List ℕ) : List ℕ := ts.foldl (fun w t => w.set t (k + 1)) w

/-- Single-assignment form of a program and the final write times. -/
def ssaFrom : ℕ → List ℕ → List Stmt → List SStmt × List ℕ
  | _, w, [] => ([], w)
  | k, w, st :: P =>
    let r := ssaFrom (k + 1) (stamp w k st.targets) P
    (st.rename w :: r.1, r.2)

/-- Static checks: distinct targets inside the array, as many as expressions. -/
def Stmt.wf : Stmt → Bool
  | .set ts es => ts.Nodup && (ts.length == es.length) && ts.all (· < 43)
  | .eccMul o => o + 2 < 43
  | .eccMulAdd o => o + 4 < 43

/-- What a statement in single-assignment form establishes. `β j i` is `buf[i]` after `j` statements. -/
def SStmt.Holds (X : Ext) (T A : List Var) (β : ℕ → ℕ → Var) (k : ℕ) : SStmt → Prop
  | .set ts es => List.Forall₂ (fun t e => ExprHolds (fun r : ℕ × ℕ => β r.1 r.2) T A e (β (k + 1) t)) ts es
  | .eccMul o jx jy jk => ∃ (px py kk : Fp) (n m : ℤ), setInterface (β jx o) = some px ∧
      setInterface (β jy (o + 1)) = some py ∧ setInterface (β jk (o + 2)) = some kk ∧
      0 ≤ n ∧ n < rMod ∧ 0 ≤ m ∧ m < rMod ∧
      X.scalarMul (px, py) (kk.val : Fr) = some ((n : Fp), (m : Fp)) ∧
      β (k + 1) o = .big n ∧ β (k + 1) (o + 1) = .big m
  | .eccMulAdd o ja jb jx jy jk =>
    ∀ ax ay, setInterface (β ja o) = some ax → setInterface (β jb (o + 1)) = some ay →
    ∃ (px py kk : Fp) (n m n' m' : ℤ), setInterface (β jx (o + 2)) = some px ∧
      setInterface (β jy (o + 3)) = some py ∧ setInterface (β jk (o + 4)) = some kk ∧
      0 ≤ n ∧ n < rMod ∧ 0 ≤ m ∧ m < rMod ∧ 0 ≤ n' ∧ n' < rMod ∧ 0 ≤ m' ∧ m' < rMod ∧
      X.scalarMul (px, py) (kk.val : Fr) = some ((n : Fp), (m : Fp)) ∧
      X.addUnified (ax, ay) ((n : Fp), (m : Fp)) = some ((n' : Fp), (m' : Fp)) ∧
      β (k + 1) o = .big n' ∧ β (k + 1) (o + 1) = .big m' ∧ β (k + 1) (o + 2) = .big n ∧ β (k + 1) (o + 3) = .big m

theorem Stmt.Holds.frame {X : Ext} {T A B B' : List Var} {st : Stmt} (h : st.Holds X T A B B') :
    B'.length = B.length ∧ ∀ i, i ∉ st.targets → B'.getD i .nil = B.getD i .nil := by
  cases st with
  | set ts es =>
    obtain ⟨vs, -, rfl⟩ := h
    exact ⟨storeMany_length _ _ _, fun i hi => storeMany_frame hi⟩
  | eccMul o =>
    obtain ⟨px, py, kk, n, m, -, -, -, -, -, -, -, -, rfl, -⟩ := h
    refine ⟨by simp, fun i hi => ?_⟩
    simp only [Stmt.targets, List.mem_cons, List.not_mem_nil, or_false, not_or] at hi
    rw [getD_set, if_neg (by omega), getD_set, if_neg (by omega)]
  | eccMulAdd o =>
    obtain ⟨⟨v0, v1, v2, v3, rfl⟩, -⟩ := h
    refine ⟨by simp, fun i hi => ?_⟩
    simp only [Stmt.targets, List.mem_cons, List.not_mem_nil, or_false, not_or] at hi
    rw [getD_set, if_neg (by omega), getD_set, if_neg (by omega), getD_set, if_neg (by omega), getD_set,
      if_neg (by omega)]

theorem storeMany_get {F : Expr ℕ → Var → Prop} : ∀ {ts : List ℕ} {es : List (Expr ℕ)} {vs : List Var} {B : List Var},
    ts.Nodup → ts.length = es.length → (∀ t ∈ ts, t < B.length) → List.Forall₂ F es vs →
    List.Forall₂ (fun t e => F e ((storeMany B ts vs).getD t .nil)) ts es
  | [], [], _, _, _, _, _, _ => .nil
  | [], _ :: _, _, _, _, h, _, _ => by simp at h
  | _ :: _, [], _, _, _, h, _, _ => by simp at h
  | t :: ts, e :: es, v :: vs, B, hn, hl, hb, .cons h hf => by
    rw [List.nodup_cons] at hn
    refine .cons ?_ ?_
    · simp only [storeMany]
      rw [storeMany_frame hn.1, getD_set, if_pos ⟨rfl, hb t (by simp)⟩]
      exact h
    · simp only [storeMany]
      exact storeMany_get hn.2 (by simpa using hl) (fun t' ht => by simpa using hb t' (List.mem_cons_of_mem _ ht)) hf

theorem Stmt.Holds.ssa {X : Ext} {T A : List Var} {bufs : ℕ → List Var} {k : ℕ} {st : Stmt} {w : List ℕ}
    (h : st.Holds X T A (bufs k) (bufs (k + 1))) (hwf : st.wf = true) (hl : (bufs k).length = 43)
    (hw : ∀ i, (bufs k).getD i .nil = (bufs (w.getD i 0)).getD i .nil) :
    (st.rename w).Holds X T A (fun j i => (bufs j).getD i .nil) k := by
  cases st with
  | set ts es =>
    obtain ⟨vs, hf, hB⟩ := h
    simp only [Stmt.wf, Bool.and_eq_true, decide_eq_true_eq, beq_iff_eq, List.all_eq_true] at hwf
    have := storeMany_get (B := bufs k) hwf.1.1 hwf.1.2 (fun t ht => by rw [hl]; exact hwf.2 t ht) hf
    rw [← hB] at this
    simp only [Stmt.rename, SStmt.Holds]
    rw [List.forall₂_map_right_iff]
    exact this.imp fun t e he => he.map (fun i => (w.getD i 0, i)) hw
  | eccMul o =>
    obtain ⟨px, py, kk, n, m, h1, h2, h3, n0, n1, m0, m1, hm, hB, hlen⟩ := h
    refine ⟨px, py, kk, n, m, ?_, ?_, ?_, n0, n1, m0, m1, hm, ?_, ?_⟩
    · beta_reduce; rw [← hw]; exact h1
    · beta_reduce; rw [← hw]; exact h2
    · beta_reduce; rw [← hw]; exact h3
    · beta_reduce; rw [hB, getD_set, if_neg (by omega), getD_set, if_pos ⟨rfl, by omega⟩]
    · beta_reduce; rw [hB, getD_set, if_pos ⟨rfl, by rw [List.length_set]; omega⟩]
  | eccMulAdd o =>
    obtain ⟨-, h⟩ := h
    intro ax ay hax hay
    simp only at hax hay
    rw [← hw] at hax hay
    obtain ⟨px, py, kk, n, m, n', m', h1, h2, h3, n0, n1, m0, m1, n0', n1', m0', m1', hm, ham, hB, hlen⟩ := h ax ay hax hay
    refine ⟨px, py, kk, n, m, n', m', ?_, ?_, ?_, n0, n1, m0, m1, n0', n1', m0', m1', hm, ham, ?_, ?_, ?_, ?_⟩
    · beta_reduce; rw [← hw]; exact h1
    · beta_reduce; rw [← hw]; exact h2
    · beta_reduce; rw [← hw]; exact h3
    · beta_reduce; rw [hB, getD_set, if_neg (by omega), getD_set, if_pos ⟨rfl, by simp only [List.length_set]; omega⟩]
    · beta_reduce; rw [hB, getD_set, if_pos ⟨rfl, by simp only [List.length_set]; omega⟩]
    · beta_reduce; rw [hB, getD_set, if_neg (by omega), getD_set, if_neg (by omega), getD_set, if_neg (by omega), getD_set,
        if_pos ⟨rfl, by omega⟩]
    · beta_reduce; rw [hB, getD_set, if_neg (by omega), getD_set, if_neg (by omega), getD_set,
        if_pos ⟨rfl, by simp only [List.length_set]; omega⟩]

theorem stamp_get (w : List ℕ) (k : ℕ) (ts : List ℕ) (i : ℕ) :
    (stamp w k ts).getD i 0 = w.getD i 0 ∧ i ∉ ts ∨ (stamp w k ts).getD i 0 = k + 1 ∨
      (stamp w k ts).getD i 0 = 0 ∧ w.length ≤ i ∧ w.getD i 0 = 0 := by
  induction ts generalizing w with
  | nil => exact .inl ⟨rfl, by simp⟩
  | cons t ts ih =>
    simp only [stamp, List.foldl_cons]
    have key : (w.set t (k + 1)).getD i 0 = if t = i ∧ i < w.length then k + 1 else w.getD i 0 := by
      simp only [List.getD_eq_getElem?_getD, List.getElem?_set]
      by_cases h : t = i
      · subst h
        by_cases h2 : t < w.length
        · simp [h2]
        · simp [h2]
      · simp [h]
    have := ih (w.set t (k + 1))
    simp only [stamp, key, List.length_set] at this
    by_cases h : t = i
    · subst h
      by_cases h2 : t < w.length
      · simp only [h2, and_self, if_true] at this
        rcases this with ⟨h3, -⟩ | h3 | ⟨-, h3, -⟩
        · exact .inr (.inl h3)
        · exact .inr (.inl h3)
        · omega
      · have h0 : w.getD t 0 = 0 := by simp [List.getD_eq_getElem?_getD, List.getElem?_eq_none (not_lt.1 h2)]
        simp only [h2, and_false, if_false] at this
        rcases this with ⟨h3, -⟩ | h3 | ⟨h3, -, -⟩
        · exact .inr (.inr ⟨by rw [h3, h0], not_lt.1 h2, h0⟩)
        · exact .inr (.inl h3)
        · exact .inr (.inr ⟨h3, not_lt.1 h2, h0⟩)
    · simp only [h, false_and, if_false] at this
      rcases this with ⟨h3, h4⟩ | h3 | h3
      · exact .inl ⟨h3, by simp only [List.mem_cons, not_or]; exact ⟨fun h' => h h'.symm, h4⟩⟩
      · exact .inr (.inl h3)
      · exact .inr (.inr h3)

theorem ssaFrom_holds {X : Ext} {T A : List Var} {bufs : ℕ → List Var} : ∀ (P : List Stmt) (k : ℕ) (w : List ℕ),
    (∀ (i : ℕ) (st : Stmt), P[i]? = some st → st.Holds X T A (bufs (k + i)) (bufs (k + i + 1))) → P.all Stmt.wf = true →
    (bufs k).length = 43 → w.length = 43 → (bufs 0).length = 43 →
    (∀ i, (bufs k).getD i .nil = (bufs (w.getD i 0)).getD i .nil) →
    (∀ (i : ℕ) (sst : SStmt), (ssaFrom k w P).1[i]? = some sst → sst.Holds X T A (fun j i => (bufs j).getD i .nil) (k + i)) ∧
      (bufs (k + P.length)).length = 43 ∧
      ∀ i, (bufs (k + P.length)).getD i .nil = (bufs ((ssaFrom k w P).2.getD i 0)).getD i .nil
  | [], k, w, _, _, hl, _, _, hw => ⟨by simp [ssaFrom], hl, hw⟩
  | st :: P, k, w, h, hwf, hl, hwl, h0, hw => by
    simp only [List.all_cons, Bool.and_eq_true] at hwf
    have hst := h 0 st rfl
    obtain ⟨f1, f2⟩ := hst.frame
    simp only [Nat.add_zero] at hst f1 f2
    have hsl : (stamp w k st.targets).length = 43 := by
      have : ∀ (ts : List ℕ) (w : List ℕ), (stamp w k ts).length = w.length := by
        intro ts
        induction ts with
        | nil => intro w; rfl
        | cons t ts ih => intro w; simp only [stamp, List.foldl_cons]; rw [← stamp, ih]; simp
      rw [this, hwl]
    have ih := ssaFrom_holds P (k + 1) (stamp w k st.targets)
      (fun i st' hi => by have := h (i + 1) st' (by simpa using hi); rw [show k + (i + 1) = k + 1 + i by omega] at this; exact this)
      hwf.2 (by rw [f1, hl]) hsl h0 (by
        intro i
        rcases stamp_get w k st.targets i with ⟨g1, g2⟩ | g1 | ⟨g1, g2, g3⟩
        · rw [g1, ← hw, f2 i g2]
        · rw [g1]
        · rw [g1]
          have e1 : (bufs (k + 1)).getD i .nil = .nil := by
            rw [List.getD_eq_getElem?_getD, List.getElem?_eq_none (by omega)]; rfl
          have e2 : (bufs 0).getD i .nil = .nil := by
            rw [List.getD_eq_getElem?_getD, List.getElem?_eq_none (by omega)]; rfl
          rw [e1, e2])
    obtain ⟨i1, i2, i3⟩ := ih
    refine ⟨fun i sst hi => ?_, ?_, ?_⟩
    · cases i with
      | zero =>
        simp only [ssaFrom, List.getElem?_cons_zero, Option.some.injEq] at hi
        subst hi
        exact hst.ssa hwf.1 hl hw
      | succ i =>
        have := i1 i sst (by simpa [ssaFrom] using hi)
        rw [show k + (i + 1) = k + 1 + i by omega]
        exact this
    · rw [List.length_cons, show k + (P.length + 1) = k + 1 + P.length by omega]; exact i2
    · intro i
      rw [List.length_cons, show k + (P.length + 1) = k + 1 + P.length by omega]
      exact i3 i

end Verif
