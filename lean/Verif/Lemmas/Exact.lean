/- Exact operands of the ecc calls. -/
import Verif.Lemmas.Shplonk
import Verif.Spec.Verifier

namespace Verif
open Halo2

/-- The two variables are the canonical coordinates of P. -/
def PtExact (v w : Var) (P : G1) : Prop := v = .big (enc P).1.val ∧ w = .big (enc P).2.val

/-- The two variables are constants whose residues modulo p are the coordinates of P. -/
def PtRes (v w : Var) (P : G1) : Prop := setInterface v = some (enc P).1 ∧ setInterface w = some (enc P).2

/-- The operands of an ecc call: the point in cells c, c+1 written by time jx, the scalar in cell c+2 by time jk. `R` says
how two cells stand for a point. -/
def TermAt (R : Var → Var → G1 → Prop) (β : ℕ → ℕ → Var) (jx jk c : ℕ) (p : Fr × G1) : Prop :=
  R (β jx c) (β jx (c + 1)) p.2 ∧ β jk (c + 2) = .big p.1.val

theorem canon_exact {v : Var} (h : v.Canon) {x : Fr} (hx : v.fr = x) : v = .big x.val := by
  obtain ⟨n, rfl, h0, h1⟩ := h
  rw [← hx, Var.fr, fr_val_of_canon h0 h1]

theorem ex_tr {R : Var → Var → G1 → Prop} {T A : List Var} {β : ℕ → ℕ → Var} {k i : ℕ} {X : Ext}
    (h : (SStmt.set [14, 15] [.tr i, .tr (i + 1)]).Holds X T A β k)
    (hp : R (T.getD i .nil) (T.getD (i + 1) .nil) (proofPoint T i)) :
    R (β (k + 1) 14) (β (k + 1) 15) (proofPoint T i) := by
  cases h with
  | cons h1 h2 => cases h2 with
    | cons h3 _ =>
      have e1 := getD_some h1.shape
      have e2 := getD_some h3.shape
      rw [e1, e2] at hp
      exact hp

theorem ex_str {T A : List Var} {β : ℕ → ℕ → Var} {k c d n m : ℕ} {X : Ext} {P : G1}
    (h : (SStmt.set [c, d] [.str n, .str m]).Holds X T A β k) (hp : ValidEnc ((n : Fp), (m : Fp)))
    (hn : n < pMod) (hm : m < pMod) (hP : ptOf (n, m) = P) :
    PtExact (β (k + 1) c) (β (k + 1) d) P := by
  subst hP
  cases h with
  | cons h1 h2 => cases h2 with
    | cons h3 _ =>
      rw [show _ = _ from h1.shape, show _ = _ from h3.shape]
      have e : enc (ptOf (n, m)) = ((n : Fp), (m : Fp)) := enc_dec hp
      unfold PtExact
      rw [e, ZMod.val_natCast_of_lt hn, ZMod.val_natCast_of_lt hm]
      exact ⟨rfl, rfl⟩

theorem ex_buf {T A : List Var} {β : ℕ → ℕ → Var} {k : ℕ} {X : Ext} {P : G1}
    (h : (SStmt.set [14, 15] [.buf (0, 0), .buf (0, 1)]).Holds X T A β k) (hp : PtExact (β 0 0) (β 0 1) P) :
    PtExact (β (k + 1) 14) (β (k + 1) 15) P := by
  cases h with
  | cons h1 h2 => cases h2 with
    | cons h3 _ =>
      rw [show _ = _ from h1.shape, show _ = _ from h3.shape]
      exact hp

end Verif
