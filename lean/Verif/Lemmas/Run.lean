/- From accepted runs of the step functions to the single-assignment equations and the group computation. -/
import Verif.Lemmas.Opening
import Verif.Lemmas.Challenges
import Verif.Spec.Ext

namespace Verif
open Halo2

theorem ssaFrom_take : ∀ (P : List Stmt) (k N : ℕ) (w : List ℕ),
    (ssaFrom k w (P.take N)).1 = (ssaFrom k w P).1.take N
  | [], k, N, w => by simp [ssaFrom]
  | st :: P, k, 0, w => by simp [ssaFrom]
  | st :: P, k, N + 1, w => by simp [ssaFrom, ssaFrom_take P (k + 1) N]

theorem setFr_of {X : Ext} {T A : List Var} {β : ℕ → ℕ → Var} {k : ℕ} : ∀ {ts : List ℕ} {es : List (Expr (ℕ × ℕ))},
    List.Forall₂ (fun t e => ExprHolds (fun r : ℕ × ℕ => β r.1 r.2) T A e (β (k + 1) t)) ts es →
    SetFr (fun j i => (β j i).fr) (frAt T) (frAt A) k ts es
  | [], [], .nil => trivial
  | _ :: _, _ :: _, .cons h hs => ⟨h.val, h.cond, setFr_of (X := X) hs⟩

/-- All statements hold. -/
def SRun (X : Ext) (T A : List Var) (β : ℕ → ℕ → Var) (N : ℕ) : Prop :=
  ∀ k, k < N → (ssaLit.getD k (.set [] [])).Holds X T A β k

theorem SRun.fr {X : Ext} {T A : List Var} {β : ℕ → ℕ → Var} {N : ℕ} (h : SRun X T A β N) :
    FrRun (fun j i => (β j i).fr) (frAt T) (frAt A) N := by
  intro k hk
  have h1 := h k hk
  generalize ssaLit.getD k (.set [] []) = st at *
  cases st with
  | set ts es => exact setFr_of (X := X) h1
  | eccMul => trivial
  | eccMulAdd => trivial

theorem ssaLit_length : ssaLit.length = 301 := by decide +kernel
theorem prog_length : prog.length = 301 := by decide +kernel

/-- An accepted run of the first N statements. -/
theorem prefix_run {X : Ext} {T A B B' : List Var} {E : Engine} (hE : E.mode = .test) {s s' : St} {N : ℕ} (hN : N ≤ 301)
    (hB : B.length = 43) (h : execBody X T A B (prog.take N) E s = .ok ((B', none), s')) (hs : s'.sat = true) :
    s.sat = true ∧ ∃ bufs : ℕ → List Var, bufs 0 = B ∧ bufs N = B' ∧ B'.length = 43 ∧
      SRun X T A (fun j i => (bufs j).getD i .nil) N ∧
      ∀ i, B'.getD i .nil = (bufs ((ssaFrom 0 (List.replicate 43 0) (prog.take N)).2.getD i 0)).getD i .nil := by
  obtain ⟨h0, bufs, hb0, hbN, htr⟩ := body_ok hE _ h hs
  have hl : (prog.take N).length = N := by rw [List.length_take, prog_length]; omega
  rw [hl] at hbN
  have hwf : (prog.take N).all Stmt.wf = true := by
    rw [List.all_eq_true]
    intro x hx
    exact List.all_eq_true.1 prog_wf x (List.mem_of_mem_take hx)
  obtain ⟨g1, g2, g3⟩ := ssaFrom_holds (prog.take N) 0 (List.replicate 43 0)
    (fun i st hi => by rw [Nat.zero_add]; exact htr.holds i st hi) hwf (by rw [hb0, hB]) (by simp) (by rw [hb0, hB]) (by
      intro i
      have : (List.replicate 43 (0 : ℕ)).getD i 0 = 0 := by
        rw [List.getD_eq_getElem?_getD, List.getElem?_replicate]
        split <;> rfl
      rw [this])
  rw [Nat.zero_add, hl, hbN] at g2 g3
  refine ⟨h0, bufs, hb0, hbN, g2, fun k hk => ?_, g3⟩
  have := g1 k (ssaLit.getD k (.set [] [])) (by
    rw [ssaFrom_take, ssa_eq, List.getElem?_take_of_lt hk]
    rw [List.getD_eq_getElem?_getD, List.getElem?_eq_getElem (by rw [ssaLit_length]; omega)]
    rfl)
  rwa [Nat.zero_add] at this

theorem take1 : prog.take 99 = step1 := by decide +kernel
theorem take2 : prog.take 234 = step1 ++ step2 := by decide +kernel
theorem take3 : prog.take 301 = step1 ++ step2 ++ step3 := by decide +kernel

/-! ### Points -/

theorem Var.Canon.setInterface {v : Var} (h : v.Canon) : ∃ k : Fp, setInterface v = some k ∧ (k.val : Fr) = v.fr := by
  obtain ⟨n, rfl, h0, h1⟩ := h
  lift n to ℕ using h0
  refine ⟨(n : Fp), by simp [Verif.setInterface], ?_⟩
  have h1' : n < rMod := by exact_mod_cast h1
  rw [ZMod.val_natCast_of_lt (h1'.trans rMod_lt_pMod)]
  simp [Var.fr]

theorem mul_step {X : Ext} (hX : X.Strict) {T A : List Var} {β : ℕ → ℕ → Var} {k o jx jk : ℕ}
    (h : (SStmt.eccMul o jx jx jk).Holds X T A β k) {Q : G1} (hQ : PtAt (β jx o) (β jx (o + 1)) Q)
    (hk : (β jk (o + 2)).Canon) : PtAt (β (k + 1) o) (β (k + 1) (o + 1)) ((β jk (o + 2)).fr • Q) := by
  obtain ⟨px, py, kk, n, m, h1, h2, h3, -, -, -, -, hm, r1, r2⟩ := h
  obtain ⟨x, y, q1, q2, q3⟩ := hQ
  obtain ⟨c, c1, c2⟩ := hk.setInterface
  rw [h1, Option.some.injEq] at q1
  rw [h2, Option.some.injEq] at q2
  rw [h3, Option.some.injEq] at c1
  subst q1 q2 c1
  rw [← q3, c2] at hm
  have := hX.scalarMul_deg _ _ _ hm
  rw [r1, r2]
  exact ⟨_, _, rfl, rfl, this.symm⟩

theorem mulAdd_step {X : Ext} (hX : X.Strict) {T A : List Var} {β : ℕ → ℕ → Var} {k o ja jx jk : ℕ}
    (h : (SStmt.eccMulAdd o ja ja jx jx jk).Holds X T A β k) {P Q : G1} (hP : PtAt (β ja o) (β ja (o + 1)) P)
    (hQ : PtAt (β jx (o + 2)) (β jx (o + 3)) Q) (hk : (β jk (o + 4)).Canon) :
    PtAt (β (k + 1) o) (β (k + 1) (o + 1)) (P + (β jk (o + 4)).fr • Q) := by
  obtain ⟨ax, ay, a1, a2, a3⟩ := hP
  obtain ⟨px, py, kk, n, m, n', m', h1, h2, h3, -, -, -, -, -, -, -, -, hm, ham, r1, r2, -, -⟩ := h ax ay a1 a2
  obtain ⟨x, y, q1, q2, q3⟩ := hQ
  obtain ⟨c, c1, c2⟩ := hk.setInterface
  rw [h1, Option.some.injEq] at q1
  rw [h2, Option.some.injEq] at q2
  rw [h3, Option.some.injEq] at c1
  subst q1 q2 c1
  rw [← q3, c2] at hm
  rw [hX.scalarMul_deg _ _ _ hm] at ham
  rw [← a3, hX.addUnified, Option.some.injEq] at ham
  rw [r1, r2]
  exact ⟨_, _, rfl, rfl, ham⟩

/-- Canonical scalar from an assignment of an operation. -/
theorem canon_of {T A : List Var} {β : ℕ → ℕ → Var} {t k : ℕ} {e : Expr (ℕ × ℕ)} {X : Ext}
    (h : (SStmt.set [t] [e]).Holds X T A β k)
    (he : ∀ v, e.Shape (fun r : ℕ × ℕ => β r.1 r.2) T A v → v.Canon) : (β (k + 1) t).Canon := by
  cases h with
  | cons h1 _ => exact he _ h1.shape

theorem PtAt.ptVar {v w : Var} {P : G1} (h : PtAt v w P) : ptVar v w = P := by
  obtain ⟨x, y, h1, h2, h3⟩ := h
  simp only [Verif.ptVar, h1, h2, Option.getD_some]
  rw [← h3, dec_enc]

theorem PtAt.of_pair {T : List Var} {i : ℕ} (h : PairAt T i) :
    PtAt (T.getD i .nil) (T.getD (i + 1) .nil) (proofPoint T i) := by
  obtain ⟨v, w, hv, hw, a, b, ha, hb, h⟩ := h
  have e1 : T.getD i .nil = v := getD_some hv
  have e2 : T.getD (i + 1) .nil = w := getD_some hw
  rw [proofPoint, e1, e2, Verif.ptVar, ha, hb]
  exact ⟨a, b, ha, hb, by rw [Option.getD_some, Option.getD_some]; exact enc_dec h⟩

theorem pt_tr {T A : List Var} {β : ℕ → ℕ → Var} {k i : ℕ} {X : Ext}
    (h : (SStmt.set [14, 15] [.tr i, .tr (i + 1)]).Holds X T A β k) (hp : PairAt T i) :
    PtAt (β (k + 1) 14) (β (k + 1) 15) (proofPoint T i) := by
  have := PtAt.of_pair hp
  cases h with
  | cons h1 h2 => cases h2 with
    | cons h3 _ =>
      rw [getD_some h1.shape, getD_some h3.shape] at this
      exact this

theorem pt_str {T A : List Var} {β : ℕ → ℕ → Var} {k c d n m : ℕ} {X : Ext}
    (h : (SStmt.set [c, d] [.str n, .str m]).Holds X T A β k) (hp : ValidEnc ((n : Fp), (m : Fp))) :
    PtAt (β (k + 1) c) (β (k + 1) d) (ptOf (n, m)) := by
  cases h with
  | cons h1 h2 => cases h2 with
    | cons h3 _ =>
      rw [h1.shape, h3.shape]
      exact ⟨(n : Fp), (m : Fp), by simp [Verif.setInterface], by simp [Verif.setInterface], enc_dec hp⟩

theorem pt_buf {T A : List Var} {β : ℕ → ℕ → Var} {k : ℕ} {X : Ext} {P : G1}
    (h : (SStmt.set [14, 15] [.buf (0, 0), .buf (0, 1)]).Holds X T A β k) (hp : PtAt (β 0 0) (β 0 1) P) :
    PtAt (β (k + 1) 14) (β (k + 1) 15) P := by
  cases h with
  | cons h1 h2 => cases h2 with
    | cons h3 _ =>
      rw [h1.shape, h3.shape]
      exact hp

/-- The sum of scalar multiples, accumulated from the left. -/
theorem sum_assoc (p : Fr × G1) (l : List (Fr × G1)) :
    ((p :: l).map fun p => p.1 • p.2).sum = l.foldl (fun acc q => acc + q.1 • q.2) (p.1 • p.2) := by
  rw [List.map_cons, List.sum_cons]
  generalize p.1 • p.2 = a
  induction l generalizing a with
  | nil => simp
  | cons q l ih => rw [List.map_cons, List.sum_cons, ← add_assoc, ih, List.foldl_cons]

end Verif
