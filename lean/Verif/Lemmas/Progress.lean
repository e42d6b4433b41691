/- Progress of the straight-line bodies under honest hints: when a statement runs without error or panic. -/
import Verif.Lemmas.Shplonk
import Verif.Lemmas.StepConds
import Verif.Lemmas.Sound

namespace Verif
open Halo2

/-! ### Expressions -/

/-- An expression whose value is certainly a canonical number. -/
def Expr.solid {ρ : Type} : Expr ρ → Bool
  | .str n => n < rMod
  | .int _ => true
  | .buf _ => false
  | .tr _ => false
  | .aux _ => false
  | _ => true

def Expr.isAux {ρ : Type} : Expr ρ → Bool
  | .aux _ => true
  | _ => false

/-- Static check: reads are in range and of written cells, divisions have a canonical numerator and an aux witness,
powers have exponent at least 2. -/
def Expr.chk {ρ : Type} (ok : ρ → Bool) : Expr ρ → Bool
  | .str _ => true
  | .int _ => true
  | .buf r => ok r
  | .tr i => i < 104
  | .aux i => i < 21
  | .mul x y => x.chk ok && y.chk ok
  | .add x y => x.chk ok && y.chk ok
  | .neg x => x.chk ok
  | .div x y z => x.chk ok && y.chk ok && z.chk ok && x.solid && z.isAux
  | .pow x n => x.chk ok && decide (1 < n)

theorem idx_at {B : List Var} {i : ℕ} (h : i < B.length) (E : Engine) (s : St) :
    idx B i E s = .ok (B.getD i .nil, s) := by
  rw [idx_ok]
  exact ⟨by rw [List.getD_eq_getElem?_getD, List.getElem?_eq_getElem h]; rfl, rfl⟩

theorem eval_run {T A B : List Var} {E : Engine} (hE : E.mode = .test) (hm : HonestMod E)
    (hT : ∀ i < 104, i < T.length ∧ (T.getD i .nil).IsVal) (hA : ∀ i < 21, i < A.length ∧ (A.getD i .nil).Good)
    {ok : ℕ → Bool} (hB : ∀ i, ok i = true → i < B.length ∧ (B.getD i .nil).IsVal) (e : Expr ℕ) : ∀ (s : St), s.sat = true →
    e.chk ok = true → e.cond (fun i => (B.getD i .nil).fr) (frAt T) (frAt A) →
    ∃ v s', e.eval T A B E s = .ok (v, s') ∧ s'.sat = true ∧ v.IsVal ∧ (e.solid = true → v.Good) ∧
      (e.isAux = true → v.Good) := by
  have hop : ∀ x : Fr, (frVar E x).IsVal := fun x => (frVar_good E x).isVal
  induction e with
  | str n =>
    intro s hs _ _
    exact ⟨_, s, rfl, hs, trivial, fun h => ⟨by simp, by simpa [Expr.solid] using h⟩, by simp [Expr.isAux]⟩
  | int n => intro s hs _ _; exact ⟨_, s, rfl, hs, trivial, fun _ => trivial, by simp [Expr.isAux]⟩
  | buf i =>
    intro s hs hc _
    obtain ⟨h1, h2⟩ := hB i hc
    exact ⟨_, s, idx_at h1 E s, hs, h2, by simp [Expr.solid], by simp [Expr.isAux]⟩
  | tr i =>
    intro s hs hc _
    obtain ⟨h1, h2⟩ := hT i (by simpa [Expr.chk] using hc)
    exact ⟨_, s, idx_at h1 E s, hs, h2, by simp [Expr.solid], by simp [Expr.isAux]⟩
  | aux i =>
    intro s hs hc _
    obtain ⟨h1, h2⟩ := hA i (by simpa [Expr.chk] using hc)
    exact ⟨_, s, idx_at h1 E s, hs, h2.isVal, fun _ => h2, fun _ => h2⟩
  | mul x y ihx ihy =>
    intro s hs hc hd
    simp only [Expr.chk, Bool.and_eq_true] at hc
    obtain ⟨vx, s1, h1, k1, v1, -⟩ := ihx s hs hc.1 hd.1
    obtain ⟨vy, s2, h2, k2, v2, -⟩ := ihy s1 k1 hc.2 hd.2
    refine ⟨frVar E (vx.fr * vy.fr), s2.addHints [.modHint], ?_, ?_, hop _, fun _ => frVar_good _ _, fun _ => frVar_good _ _⟩
    · simp only [Expr.eval, Circ.bind_run, h1, h2]; exact fr_mul_honest hm v1 v2 s2
    · exact k2
  | add x y ihx ihy =>
    intro s hs hc hd
    simp only [Expr.chk, Bool.and_eq_true] at hc
    obtain ⟨vx, s1, h1, k1, v1, -⟩ := ihx s hs hc.1 hd.1
    obtain ⟨vy, s2, h2, k2, v2, -⟩ := ihy s1 k1 hc.2 hd.2
    refine ⟨frVar E (vx.fr + vy.fr), s2.addHints [.modHint], ?_, ?_, hop _, fun _ => frVar_good _ _, fun _ => frVar_good _ _⟩
    · simp only [Expr.eval, Circ.bind_run, h1, h2]; exact fr_add_honest hm v1 v2 s2
    · exact k2
  | neg x ihx =>
    intro s hs hc hd
    obtain ⟨vx, s1, h1, k1, v1, -⟩ := ihx s hs hc hd
    obtain ⟨v, g1, -, g2⟩ := fr_neg_run (E := E) v1 s1
    refine ⟨v, s1, ?_, k1, g2.isVal, fun _ => g2, fun _ => g2⟩
    simp only [Expr.eval, Circ.bind_run, h1]; exact g1
  | div x y z ihx ihy ihz =>
    intro s hs hc hd
    simp only [Expr.chk, Bool.and_eq_true] at hc
    obtain ⟨⟨⟨⟨c1, c2⟩, c3⟩, c4⟩, c5⟩ := hc
    obtain ⟨d1, d2, d3, d4⟩ := hd
    obtain ⟨vx, s1, h1, k1, -, g1, -⟩ := ihx s hs c1 d1
    obtain ⟨vy, s2, h2, k2, v2, -⟩ := ihy s1 k1 c2 d2
    obtain ⟨vz, s3, h3, k3, -, -, g3⟩ := ihz s2 k2 c3 d3
    refine ⟨frVar E vz.fr, s3.addHints [.modHint, .modHint], ?_, ?_, hop _, fun _ => frVar_good _ _, fun _ => frVar_good _ _⟩
    · simp only [Expr.eval, Circ.bind_run, h1, h2, h3]
      refine fr_div_honest hm (g1 c4) v2 (g3 c5) ?_ s3
      rw [(eval_ok hE _ h1 k1).2.val, (eval_ok hE _ h2 k2).2.val, (eval_ok hE _ h3 k3).2.val]
      exact d4
    · exact k3
  | pow x n ihx =>
    intro s hs hc hd
    simp only [Expr.chk, Bool.and_eq_true, decide_eq_true_eq] at hc
    obtain ⟨vx, s1, h1, k1, v1, -⟩ := ihx s hs hc.1 hd
    refine ⟨frVar E (vx.fr * vx.fr ^ ((n : ℤ) - 1).toNat), s1.addHints [.modHint], ?_, ?_, hop _, fun _ => frVar_good _ _, fun _ => frVar_good _ _⟩
    · simp only [Expr.eval, Circ.bind_run, h1]
      exact fr_pow_honest hm n v1 (by omega) s1
    · exact k1

theorem evalExprs_run {T A B : List Var} {E : Engine} (hE : E.mode = .test) (hm : HonestMod E)
    (hT : ∀ i < 104, i < T.length ∧ (T.getD i .nil).IsVal) (hA : ∀ i < 21, i < A.length ∧ (A.getD i .nil).Good)
    {ok : ℕ → Bool} (hB : ∀ i, ok i = true → i < B.length ∧ (B.getD i .nil).IsVal) : ∀ (es : List (Expr ℕ)) (s : St),
    s.sat = true → es.all (·.chk ok) = true → (∀ e ∈ es, e.cond (fun i => (B.getD i .nil).fr) (frAt T) (frAt A)) →
    ∃ vs s', evalExprs T A B es E s = .ok (vs, s') ∧ s'.sat = true ∧ ∀ v ∈ vs, v.IsVal
  | [], s, hs, _, _ => ⟨[], s, rfl, hs, by simp⟩
  | e :: es, s, hs, hc, hd => by
    simp only [List.all_cons, Bool.and_eq_true] at hc
    obtain ⟨v, s1, h1, k1, v1, -⟩ := eval_run hE hm hT hA hB e s hs hc.1 (hd e (by simp))
    obtain ⟨vs, s2, h2, k2, v2⟩ := evalExprs_run hE hm hT hA hB es s1 k1 hc.2 fun e he => hd e (by simp [he])
    refine ⟨v :: vs, s2, ?_, k2, ?_⟩
    · simp only [evalExprs, Circ.bind_run, h1, h2]; rfl
    · intro w hw
      rcases List.mem_cons.1 hw with rfl | hw
      · exact v1
      · exact v2 w hw

theorem setMany_run {E : Engine} {s : St} : ∀ (ts : List ℕ) (vs B : List Var), (∀ t ∈ ts, t < B.length) →
    setMany B ts vs E s = .ok (storeMany B ts vs, s)
  | [], vs, B, _ => by simp [setMany, storeMany, Circ.pure_run]
  | t :: ts, [], B, _ => by simp [setMany, storeMany, Circ.pure_run]
  | t :: ts, v :: vs, B, h => by
    have h1 : setIdx B t v E s = .ok (B.set t v, s) := by rw [setIdx_ok]; exact ⟨h t (by simp), rfl, rfl⟩
    simp only [setMany, Circ.bind_run, h1, storeMany]
    exact setMany_run ts vs (B.set t v) fun t' ht => by rw [List.length_set]; exact h t' (by simp [ht])

theorem storeMany_isVal : ∀ (ts : List ℕ) (vs B : List Var), ts.length = vs.length → (∀ t ∈ ts, t < B.length) →
    (∀ v ∈ vs, v.IsVal) → ∀ i, i ∈ ts ∨ (B.getD i .nil).IsVal → ((storeMany B ts vs).getD i .nil).IsVal
  | [], vs, B, _, _, _, i, h => by simpa [storeMany] using h
  | t :: ts, [], B, hl, _, _, i, h => by simp at hl
  | t :: ts, v :: vs, B, hl, hb, hv, i, h => by
    simp only [storeMany]
    refine storeMany_isVal ts vs (B.set t v) (by simpa using hl)
      (fun t' ht => by rw [List.length_set]; exact hb t' (by simp [ht])) (fun w hw => hv w (by simp [hw])) i ?_
    rw [getD_set]
    by_cases hi : t = i
    · subst hi
      rw [if_pos ⟨rfl, hb t (by simp)⟩]
      exact .inr (hv v (by simp))
    · rw [if_neg (by tauto)]
      rcases h with h | h
      · rcases List.mem_cons.1 h with h | h
        · exact absurd h.symm hi
        · exact .inl h
      · exact .inr h

theorem evalExprs_length {T A B : List Var} {E : Engine} : ∀ (es : List (Expr ℕ)) {vs : List Var} {s s' : St},
    evalExprs T A B es E s = .ok (vs, s') → vs.length = es.length
  | [], vs, s, s', h => by cases h; rfl
  | e :: es, vs, s, s', h => by
    simp only [evalExprs, Circ.bind_ok] at h
    obtain ⟨v, s1, h1, ws, s2, h2, h3⟩ := h
    cases h3
    simp [evalExprs_length es h2]

/-- The cells written, when those of `V` were. -/
def Stmt.grow (V : List ℕ) (st : Stmt) : List ℕ := st.targets ++ V

/-- Static check of a statement, when the cells of `V` were written. -/
def Stmt.chk (V : List ℕ) : Stmt → Bool
  | .set _ es => es.all (·.chk fun i => V.contains i)
  | .eccMul _ => true
  | .eccMulAdd _ => true

def chkFrom : List ℕ → List Stmt → Bool
  | _, [] => true
  | V, st :: P => st.chk V && chkFrom (st.grow V) P

def growFrom : List ℕ → List Stmt → List ℕ
  | V, [] => V
  | V, st :: P => growFrom (st.grow V) P

theorem chkFrom_get : ∀ (P : List Stmt) (V : List ℕ) (k : ℕ) (st : Stmt), chkFrom V P = true → P[k]? = some st →
    st.chk (growFrom V (P.take k)) = true ∧ growFrom V (P.take (k + 1)) = st.grow (growFrom V (P.take k))
  | [], V, k, st, _, hk => by simp at hk
  | st' :: P, V, 0, st, h, hk => by
    simp only [List.getElem?_cons_zero, Option.some.injEq] at hk
    subst hk
    simp only [chkFrom, Bool.and_eq_true] at h
    exact ⟨h.1, rfl⟩
  | st' :: P, V, k + 1, st, h, hk => by
    simp only [chkFrom, Bool.and_eq_true] at h
    exact chkFrom_get P (st'.grow V) k st h.2 (by simpa using hk)

/-- The cells with values when the first step starts: all but the scratch cells 10 and up. -/
def V0 : List ℕ := [0, 1, 2, 3, 4, 5, 6, 7, 8, 9]



theorem prog_chk : chkFrom V0 prog = true := by decide +kernel

end Verif
