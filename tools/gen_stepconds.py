#!/usr/bin/env python3
"""Generate lean/Verif/Lemmas/StepConds.lean: the division checks of each statement, as sufficient conditions."""
import os
from gen_stepeqs import S, val, divs, hasone, ROOT
def con(e):
    k = e[0]
    if k in ('fr_mul', 'fr_add'): return f'⟨{con(e[1])}, {con(e[2])}⟩'
    if k == 'fr_neg': return con(e[1])
    if k == 'fr_pow': return con(e[1])
    if k == 'fr_div':
        h = f'h{e[3][1]}'
        return f'⟨{con(e[1])}, {con(e[2])}, {con(e[3])}, {h}⟩'
    return 'trivial'
out = ['/-', 'The division checks of the three bodies. GENERATED by tools/gen_stepconds.py.', '-/', 'import Verif.Lemmas.StepEqs', '',
  'namespace Verif', '',
  '/-- The division checks of a list of expressions. -/',
  'def CondList {ρ : Type} (b : ρ → Fr) (t a : ℕ → Fr) : List (Expr ρ) → Prop', '  | [] => True', '  | e :: es => e.cond b t a ∧ CondList b t a es', '',
  '/-- The division checks of a statement. -/',
  'def SStmt.Conds (b : ℕ → ℕ → Fr) (t a : ℕ → Fr) : SStmt → Prop', '  | .set _ es => CondList (fun r => b r.1 r.2) t a es', '  | _ => True', '',
  'def Expr.divFree {ρ : Type} : Expr ρ → Bool', '  | .mul x y => x.divFree && y.divFree', '  | .add x y => x.divFree && y.divFree', '  | .neg x => x.divFree',
  '  | .div _ _ _ => false', '  | .pow x _ => x.divFree', '  | _ => true', '',
  'theorem Expr.divFree_cond {ρ : Type} {b : ρ → Fr} {t a : ℕ → Fr} (e : Expr ρ) (h : e.divFree = true) : e.cond b t a := by',
  '  induction e <;> simp_all [Expr.divFree, Expr.cond]', '',
  'def SStmt.divFree : SStmt → Bool', '  | .set _ es => es.all Expr.divFree', '  | _ => true', '',
  'theorem SStmt.divFree_conds {b : ℕ → ℕ → Fr} {t a : ℕ → Fr} (st : SStmt) (h : st.divFree = true) : st.Conds b t a := by',
  '  cases st with', '  | set ts es =>', '    simp only [SStmt.divFree] at h', '    simp only [SStmt.Conds]',
  '    induction es with', '    | nil => trivial', '    | cons e es ih =>', '      simp only [List.all_cons, Bool.and_eq_true] at h',
  '      exact ⟨e.divFree_cond h.1, ih h.2⟩', '  | _ => trivial', '',
  'namespace Eqs', 'variable {b : ℕ → ℕ → Fr} {t a : ℕ → Fr}', '']
idx = []
for k, s in enumerate(S):
    if s[0] != 'set': continue
    ds = [d for e in s[2] for d in divs(e)]
    if not ds: continue
    idx.append(k)
    assert len(s[2]) == 1
    hs = ' '.join(f'(h{d[3][1]} : ({val(d[2])}) * ({val(d[3])}) = {val(d[1])})' for d in ds)
    out.append(f'theorem c{k}\' {hs} : (ssaLit.getD {k} (.set [] [])).Conds b t a := by')
    for d in ds:
        if hasone(d[1]) or hasone(d[2]): out.append(f'  rw [← Nat.cast_one (R := Fr)] at h{d[3][1]}')
    out.append(f'  exact ⟨{con(s[2][0])}, trivial⟩')
out += ['', 'end Eqs', '', '/-- The statements with a division. -/', f'def divIdx : List ℕ := {idx}', '',
  'theorem divFree_table : (List.range 301).all (fun k => divIdx.contains k || (ssaLit.getD k (.set [] [])).divFree) = true := by decide +kernel', '',
  'end Verif']
open(os.path.join(ROOT, 'lean/Verif/Lemmas/StepConds.lean'), 'w').write('\n'.join(out) + '\n')
