#!/usr/bin/env python3
"""Generate lean/Verif/Lemmas/StepEqs.lean: single-assignment form of the three bodies and one equation per assignment.
Nothing in the generated file is trusted: the form is checked against Verif/Model/StepProgs by the kernel."""
import os, sys
sys.path.insert(0, os.path.dirname(os.path.abspath(__file__)))
from gen_steps import parse, ROOT
P = []
for k in (1, 2, 3): P += parse(f'/repo/AggregatorVerifierStep{k}.go')
R = 21888242871839275222246405745257275088548364400416034343698204186575808495617
Q = 21888242871839275222246405745257275088696311157297823662689037894645226208583
OM = pow(7, (R - 1) // 2**23, R)
named = {}
for i in (-6, -5, -4, -3, -2, -1, 1, 2): named[pow(OM, i, R)] = 'kω' + ('n' if i < 0 else '') + str(abs(i))
ninv = pow(2**23, -1, R)
for i in (-6, -5, -4, -3, -2, -1, 0): named[pow(OM, i, R) * ninv % R] = 'kl' + str(abs(i))
named[pow(7, 2**28, R)] = 'kδ'
named[Q - 2] = 'kpm2'
for i in (1, 2, 3): named[R - i] = f'krm{i}'
used = {}
def const(n):
    if n == 1 or len(str(n)) < 8 : return str(n)
    if n in named: used[named[n]] = n; return named[n]
    nm = f'kc{len([u for u in used if u.startswith("kc")])}'
    named[n] = nm; used[nm] = n
    return nm
w = [0] * 43
def ren(e):
    k = e[0]
    if k == 'buf': return ('buf', w[e[1]], e[1])
    if k in ('transcript', 'aux', 'int', 'str'): return e
    return (k,) + tuple(map(ren, e[1:]))
def lean(e):
    k = e[0]
    if k == 'buf': return f'.buf ({e[1]}, {e[2]})'
    if k == 'transcript': return f'.tr {e[1]}'
    if k == 'aux': return f'.aux {e[1]}'
    if k == 'int': return f'.int {e[1]}'
    if k == 'str': return f'.str {const(e[1])}'
    p = lambda a: '(' + lean(a) + ')'
    if k == 'fr_pow': return f'.pow {p(e[1])} {e[2][1]}'
    return '.' + k[3:] + ' ' + ' '.join(map(p, e[1:]))
def hasone(e): return e in (('int', 1), ('str', 1)) or any(hasone(x) for x in e[1:] if isinstance(x, tuple))
def val(e):
    k = e[0]
    if k == 'buf': return f'b {e[1]} {e[2]}'
    if k == 'transcript': return f't {e[1]}'
    if k == 'aux': return f'a {e[1]}'
    if k in ('int', 'str'):
        c = const(e[1]) if k == 'str' else str(e[1])
        return '1' if c == '1' else (f'({c} : ℕ)' )
    p = lambda a: val(a) if a[0] not in ('fr_mul', 'fr_add', 'fr_neg', 'fr_pow') else '(' + val(a) + ')'
    if k == 'fr_mul': return f'{p(e[1])} * {p(e[2])}'
    if k == 'fr_add': return f'{p(e[1])} + {p(e[2])}'
    if k == 'fr_neg': return f'-{p(e[1])}'
    if k == 'fr_div': return p(e[3])
    if k == 'fr_pow': return f'{p(e[1])} * {p(e[1])} ^ {e[2][1] - 1}'
def divs(e):
    out = []
    for x in e[1:]:
        if isinstance(x, tuple): out += divs(x)
    if e[0] == 'fr_div': out.append(e)
    return out
S = []
for k, s in enumerate(P):
    if s[0] == 'set':
        S.append(('set', s[1], [ren(e) for e in s[2]])); ts = s[1]
    else:
        o = s[1]
        if s[0] == 'ecc_mul': S.append(('ecc_mul', o, w[o], w[o+1], w[o+2])); ts = [o, o+1]
        else: S.append(('ecc_mul_add', o, *[w[o+j] for j in range(5)])); ts = [o, o+1, o+2, o+3]
    for t in ts: w[t] = k + 1
if __name__ == '__main__':
    lits = []
    for k, s in enumerate(S):
        if s[0] == 'set': x = f'.set [{", ".join(map(str, s[1]))}] [{", ".join(map(lean, s[2]))}]'
        elif s[0] == 'ecc_mul': x = '.eccMul ' + ' '.join(map(str, s[1:]))
        else: x = '.eccMulAdd ' + ' '.join(map(str, s[1:]))
        lits.append(f'  {x}' + (',' if k + 1 < len(S) else ']') + f'  -- {k}')
    thms = []
    for k, s in enumerate(S):
        if s[0] != 'set' or len(s[1]) != 1: continue
        e = s[2][0]; t = s[1][0]; one = hasone(e)
        thms.append(f'theorem e{k} (H : FrRun b t a N) (hN : {k} < N := by omega) : b {k+1} {t} = {val(e)} := by')
        thms.append(f'  have h := (H {k} hN).1')
        if one: thms.append('  try rw [← Nat.cast_one (R := Fr)]')
        thms.append('  exact h')
        for j, d in enumerate(divs(e)):
            nm = d[3][1]
            thms.append(f'theorem d{nm} (H : FrRun b t a N) (hN : {k} < N := by omega) : ({val(d[2])}) * ({val(d[3])}) = {val(d[1])} := by')
            thms.append(f'  have h := (H {k} hN).2.1')
            path = ''
            # locate the division inside the expression
            def loc(x):
                if x is d: return ['.2.2.2']
                if x[0] in ('fr_mul', 'fr_add'):
                    l = loc(x[1])
                    if l is not None: return ['.1'] + l
                    l = loc(x[2])
                    if l is not None: return ['.2'] + l
                if x[0] == 'fr_neg': return loc(x[1])
                return None
            if hasone(d[1]) or hasone(d[2]): thms.append('  try rw [← Nat.cast_one (R := Fr)]')
            thms.append(f'  exact h{"".join(loc(e))}')
    out = ['/-', 'Single-assignment form of the concatenated bodies of VerifyProof1, 2, 3, and one equation per assignment.',
           'GENERATED by tools/gen_stepeqs.py; `ssa_eq` checks the form against Verif/Model/StepProgs in the kernel.', '-/',
           'import Verif.Lemmas.Steps', 'import Verif.Model.Define', '', 'namespace Verif', '',
           '/-- The three bodies in sequence. -/', 'def prog : List Stmt := step1 ++ step2 ++ step3', '']
    for nm, n in used.items(): out.append(f'def {nm} : ℕ := {n}')
    out += ['', 'def ssaLit : List SStmt := ['] + lits
    out += ['', '/-- When each cell is last written. -/', f'def wLit : List ℕ := {w}', '',
            'theorem ssa_eq : ssaFrom 0 (List.replicate 43 0) prog = (ssaLit, wLit) := by decide +kernel', '',
            'theorem prog_wf : prog.all Stmt.wf = true := by decide +kernel', '',
            '/-- Field-level content of an assignment. -/',
            'def SetFr (b : ℕ → ℕ → Fr) (t a : ℕ → Fr) (k : ℕ) : List ℕ → List (Expr (ℕ × ℕ)) → Prop',
            '  | i :: is, e :: es => b (k + 1) i = e.val (fun r => b r.1 r.2) t a ∧ e.cond (fun r => b r.1 r.2) t a ∧ SetFr b t a k is es',
            '  | _, _ => True', '',
            'def SStmt.FrHolds (b : ℕ → ℕ → Fr) (t a : ℕ → Fr) (k : ℕ) : SStmt → Prop',
            '  | .set ts es => SetFr b t a k ts es', '  | _ => True', '',
            '/-- The field equations of the first N statements of an accepted run: `b j i` is the value of `buf[i]` after `j` statements. -/',
            'def FrRun (b : ℕ → ℕ → Fr) (t a : ℕ → Fr) (N : ℕ) : Prop := ∀ k, k < N → (ssaLit.getD k (.set [] [])).FrHolds b t a k', '',
            'namespace Eqs', 'variable {b : ℕ → ℕ → Fr} {t a : ℕ → Fr} {N : ℕ}', ''] + thms + ['', 'end Eqs', '', 'end Verif']
    open(os.path.join(ROOT, 'lean/Verif/Lemmas/StepEqs.lean'), 'w').write('\n'.join(out) + '\n')
