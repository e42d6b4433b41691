#!/usr/bin/env python3
"""Generate lean/Verif/Lemmas/StepPoints.lean: every point of the proof is an operand of an ecc call with a canonical scalar.
Untrusted: checked by the kernel."""
from gen_stepacc import S, assigned, canon_term
acc = [k for k, s in enumerate(S) if s[0] != 'set' and s[1] == 12]
out = ['/- Every point of the proof is an operand of an ecc call with a canonical scalar. GENERATED by tools/gen_steppoints.py. -/',
  'import Verif.Lemmas.StepTerms', '', 'namespace Verif', 'open Halo2', '',
  '/-- Call `k` (on cells 12 to 16) multiplies the point at position `i` of the proof by a canonical scalar. -/',
  'structure PointUse (T : List Var) (β : ℕ → ℕ → Var) (i k : ℕ) : Prop where',
  '  x : T[i]? = some (β (k - 1) 14)', '  y : T[i + 1]? = some (β (k - 1) 15)', '  scalar : (β k 16).Canon', '',
  'variable {X : Ext} {T A : List Var} {β : ℕ → ℕ → Var} {N : ℕ}', '',
  'theorem use_tr {k i : ℕ} (h : (SStmt.set [14, 15] [.tr i, .tr (i + 1)]).Holds X T A β k) :',
  '    T[i]? = some (β (k + 1) 14) ∧ T[i + 1]? = some (β (k + 1) 15) := by',
  '  cases h with', '  | cons h1 h2 => cases h2 with', '    | cons h3 _ => exact ⟨h1.shape, h3.shape⟩', '']
uses = []
for k in acc[1:]:
    s = S[k]; jx, jk = s[4], s[6]
    assert jx == k - 1 and jk == k
    j, st, _ = assigned[(jx, 14)]
    e, f = st[2]
    if e[0] != 'transcript': continue
    assert j == k - 2 and f[1] == e[1] + 1
    uses.append((e[1], k))
    out.append(f'theorem u{k} (H : SRun X T A β N) (hN : {k} ≤ N) (hu : (β 0 9).Canon) : PointUse T β {e[1]} {k} :=')
    out.append(f'  have h := use_tr (H {j} (by omega))')
    out.append(f'  ⟨h.1, h.2, {canon_term(jk, 16)}⟩')
uses.sort()
out += ['', '/-- Which call uses which point. -/', f'def pointUses : List (ℕ × ℕ) := {uses}', '',
  'theorem point_uses (H : SRun X T A β N) (hu : (β 0 9).Canon) : ∀ q ∈ pointUses, q.2 ≤ N → PointUse T β q.1 q.2 := by',
  '  simp only [pointUses, List.forall_mem_cons]',
  '  exact ⟨' + ', '.join(f'fun h => u{k} H h hu' for _, k in uses) + ', fun _ h => absurd h List.not_mem_nil⟩', '',
  'theorem pointUses_complete : pointPositions.all (fun i => (pointUses.map Prod.fst).contains i) = true := by decide +kernel', '',
  'theorem pointUses_calls : pointUses.all (fun q => decide (q.2 < 301) && (prog[q.2]? == some (.eccMulAdd 12)) &&',
  '    match ssaLit.getD q.2 (.set [] []) with',
  '    | .eccMulAdd o _ _ jx jy jk => o == 12 && jx == q.2 - 1 && jy == q.2 - 1 && jk == q.2',
  '    | _ => false) = true := by decide +kernel', '', 'end Verif']
open('/verif/lean/Verif/Lemmas/StepPoints.lean', 'w').write('\n'.join(out) + '\n')
