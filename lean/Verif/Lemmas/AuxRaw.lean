/- In the raw test engine every value that goes through `mod` is canonical; every aux value does. -/
import Verif.Lemmas.Steps
import Verif.Model.StepProgs

namespace Verif

theorem mkRes_test {w : Bool} {n : ℤ} {E : Engine} (hE : E.mode = .test) (s : St) : mkRes w n E s = .ok (.big (n % rMod), s) := by
  simp [mkRes, hE]

/-- `mod` compares with the unreduced integer, so it only accepts canonical values. -/
theorem mod_good {E : Engine} (hE : E.mode = .test) (hr : E.raw = true) {a v : Var} {s s' : St} (h : mod a E s = .ok (v, s')) :
    a.Good := by
  cases a with
  | nil =>
    simp only [mod, newHint, readBigs, Circ.bind_ok] at h
    obtain ⟨_, _, ⟨_, _, ⟨_, _, h, -⟩, -⟩, -⟩ := h
    cases h
  | int n => trivial
  | wire w => trivial
  | big n =>
    simp only [mod, apiAssertIsEqual, apiAdd, Circ.bind_ok] at h
    obtain ⟨outs, s1, -, r1, s2, -, r0, s3, -, m, s4, -, su, s5, ⟨x, s6, -, y, s7, -, hsu⟩, u, s8, ⟨x', s9, hx', y', s10, hy', he⟩, -⟩ := h
    rw [mkRes_test hE, Except.ok.injEq, Prod.mk.injEq] at hsu
    rw [← hsu.1, readBig] at hx'
    simp only [toBig, hE, hr, and_self, if_true, Except.ok.injEq, Prod.mk.injEq] at hx'
    rw [readBig] at hy'
    simp only [toBig, hE, hr, and_self, if_true, Except.ok.injEq, Prod.mk.injEq] at hy'
    have hxy : x' = y' := by
      by_contra hne
      have : (x' == y') = false := by simpa using hne
      rw [emit, this] at he
      simp [hE] at he
    have rpos : (0 : ℤ) < rMod := by exact_mod_cast rMod_pos
    rw [← hx'.1, ← hy'.1] at hxy
    show 0 ≤ n ∧ n < rMod
    rw [← hxy]
    exact ⟨Int.emod_nonneg _ rpos.ne', Int.emod_lt_of_pos _ rpos⟩

theorem fr_div_good {E : Engine} (hE : E.mode = .test) (hr : E.raw = true) {a b c v : Var} {s s' : St}
    (h : fr_div a b c E s = .ok (v, s')) : c.Good := by
  simp only [fr_div, Circ.bind_ok] at h
  obtain ⟨_, _, _, _, _, _, h⟩ := h
  exact mod_good hE hr h

/-- The aux values read as last argument of `fr_div`. -/
def Expr.auxDivs : Expr ℕ → List ℕ
  | .mul a b => a.auxDivs ++ b.auxDivs
  | .add a b => a.auxDivs ++ b.auxDivs
  | .neg a => a.auxDivs
  | .div a b (.aux i) => i :: (a.auxDivs ++ b.auxDivs)
  | .pow a _ => a.auxDivs
  | _ => []

/-- The same for a statement. -/
def Stmt.auxDivs : Stmt → List ℕ
  | .set _ es => es.flatMap Expr.auxDivs
  | _ => []

theorem idx_getD {A : List Var} {i : ℕ} {v : Var} {E : Engine} {s s' : St} (h : idx A i E s = .ok (v, s')) :
    A[i]? = some v := by
  unfold idx at h
  cases hi : A[i]? with
  | none => rw [hi] at h; cases h
  | some w =>
    rw [hi] at h
    cases h
    rfl

theorem eval_aux_good {E : Engine} (hE : E.mode = .test) (hr : E.raw = true) {T A B : List Var} (e : Expr ℕ) {v : Var} {s s' : St}
    (h : e.eval T A B E s = .ok (v, s')) : ∀ i ∈ e.auxDivs, ∃ w, A[i]? = some w ∧ w.Good := by
  induction e generalizing v s s' with
  | str n => intro i hi; cases hi
  | int n => intro i hi; cases hi
  | buf n => intro i hi; cases hi
  | tr n => intro i hi; cases hi
  | aux n => intro i hi; cases hi
  | mul a b iha ihb =>
    simp only [Expr.eval, Circ.bind_ok] at h
    obtain ⟨_, _, h1, _, _, h2, -⟩ := h
    intro i hi
    rcases List.mem_append.1 hi with hi | hi
    · exact iha h1 i hi
    · exact ihb h2 i hi
  | add a b iha ihb =>
    simp only [Expr.eval, Circ.bind_ok] at h
    obtain ⟨_, _, h1, _, _, h2, -⟩ := h
    intro i hi
    rcases List.mem_append.1 hi with hi | hi
    · exact iha h1 i hi
    · exact ihb h2 i hi
  | neg a iha =>
    simp only [Expr.eval, Circ.bind_ok] at h
    obtain ⟨_, _, h1, -⟩ := h
    exact iha h1
  | pow a n iha =>
    simp only [Expr.eval, Circ.bind_ok] at h
    obtain ⟨_, _, h1, -⟩ := h
    exact iha h1
  | div a b c iha ihb ihc =>
    simp only [Expr.eval, Circ.bind_ok] at h
    obtain ⟨_, _, h1, _, _, h2, z, _, h3, h4⟩ := h
    intro i hi
    cases c with
    | aux j =>
      rcases List.mem_cons.1 hi with rfl | hi
      · exact ⟨z, idx_getD h3, fr_div_good hE hr h4⟩
      · rcases List.mem_append.1 hi with hi | hi
        · exact iha h1 i hi
        · exact ihb h2 i hi
    | _ => cases hi

theorem evalExprs_aux_good {E : Engine} (hE : E.mode = .test) (hr : E.raw = true) {T A B : List Var} :
    ∀ (es : List (Expr ℕ)) {vs : List Var} {s s' : St}, evalExprs T A B es E s = .ok (vs, s') →
    ∀ i ∈ es.flatMap Expr.auxDivs, ∃ w, A[i]? = some w ∧ w.Good
  | [], _, _, _, _ => by simp
  | e :: es, vs, s, s', h => by
    simp only [evalExprs, Circ.bind_ok] at h
    obtain ⟨_, _, h1, _, _, h2, -⟩ := h
    intro i hi
    rw [List.flatMap_cons] at hi
    rcases List.mem_append.1 hi with hi | hi
    · exact eval_aux_good hE hr e h1 i hi
    · exact evalExprs_aux_good hE hr es h2 i hi

theorem execBody_aux_good {X : Ext} {E : Engine} (hE : E.mode = .test) (hr : E.raw = true) {T A : List Var} :
    ∀ (P : List Stmt) {B B' : List Var} {s s' : St}, execBody X T A B P E s = .ok ((B', none), s') →
    ∀ i ∈ P.flatMap Stmt.auxDivs, ∃ w, A[i]? = some w ∧ w.Good
  | [], _, _, _, _, _ => by simp
  | st :: P, B, B', s, s', h => by
    simp only [execBody, Circ.bind_ok] at h
    obtain ⟨⟨err, B1⟩, s1, h1, h2⟩ := h
    intro i hi
    rw [List.flatMap_cons] at hi
    cases err with
    | some m => cases h2
    | none =>
      rcases List.mem_append.1 hi with hi | hi
      · cases st with
        | eccMul o => cases hi
        | eccMulAdd o => cases hi
        | set ts es =>
          simp only [Stmt.exec, Circ.bind_ok] at h1
          obtain ⟨vs, _, h1, -⟩ := h1
          exact evalExprs_aux_good hE hr es h1 i hi
      · exact execBody_aux_good hE hr P h2 i hi

/-- Every aux value is used. -/
theorem aux_all_used : ∀ i < 21, i ∈ step1.flatMap Stmt.auxDivs ∨ i ∈ step2.flatMap Stmt.auxDivs ∨ i ∈ step3.flatMap Stmt.auxDivs := by
  decide +kernel

end Verif
