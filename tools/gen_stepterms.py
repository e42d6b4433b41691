#!/usr/bin/env python3
"""Generate lean/Verif/Lemmas/StepTerms.lean: the operands of every ecc call are exactly those of the specified term list.
Untrusted: checked by the kernel."""
import re, sys
from gen_stepacc import S, assigned, canon_term, G
src = open('/verif/lean/Verif/Lemmas/Shplonk.lean').read()
i = src.index('theorem acc_aux'); i = src.index('[\n', i); j = src.index('].sum', i)
terms = []
for l in src[i+2:j].split('\n'):
    l = l.strip().rstrip(',')
    m = re.match(r'\((.*)\) • \((.*)\)$', l)
    terms.append((m.group(1), m.group(2)))
assert len(terms) == 46
def comm(p):
    if p == '-G': return '-G1gen'
    if p == 'I': return 'C.inst'
    k, n = p.split(); n = int(n)
    if k == 'f': return f'vkFixed {n}'
    if k == 's': return f'vkSigma {n}'
    if n < 16: return f'C.a {n//2}'
    return {16: 'C.permA 0', 20: 'C.permA 1', 18: 'C.permS 0', 22: 'C.permS 1', 24: 'C.z 0', 26: 'C.z 1', 28: 'C.z 2', 30: 'C.z 3',
      32: 'C.Z 0', 34: 'C.Z 1', 36: 'C.random', 38: 'C.h 0', 40: 'C.h 1', 42: 'C.h 2', 100: 'C.W', 102: 'C.W\''}[n]
def sc(s): return s.replace('z1', 'wi').replace('zx', 'ws').replace('z3', 'wn').replace('z4', 'ww').replace(' * y ^ 0', '')
spec = '\n'.join(f'   ({sc(s)}, {comm(p)})' + (',' if k < 45 else ']') for k, (s, p) in enumerate(terms)).replace('   (', '  [(', 1)
if len(sys.argv) > 1: print(spec); sys.exit()
acc = [k for k, s in enumerate(S) if s[0] != 'set' and s[1] == 12]
sub = {'y': '(β 0 7).fr', 'v': '(β 0 8).fr', 'wi': '(β 46 28).fr', 'ws': '(β 111 33).fr', 'wn': '(β 119 25).fr', 'ww': '(β 141 20).fr',
  'R': '(β 142 18).fr', 'cW': '(-vanish (points (β 0 6).fr firstRots) (β 0 9).fr)', 'u': '(β 0 9).fr', 'xn': '(β 69 35).fr'}
out = ['/- The operands of every ecc call are those of the specified term list. GENERATED by tools/gen_stepterms.py. -/',
  'import Verif.Lemmas.Exact', '', 'namespace Verif', 'open Halo2', '',
  '/-- The positions of the ecc calls on cells 12, 13. -/', f'def accIdx : List ℕ := {acc}', '',
  'variable {R : Var → Var → G1 → Prop} {X : Ext} {T A : List Var} {β : ℕ → ℕ → Var} {N : ℕ} {I : G1}', '']
vkn = {}
for m in re.finditer(r'theorem (vk_\w+) : ptOf \((\w+), (\w+)\)', src): vkn[(m.group(2), m.group(3))] = m.group(1)
def ptx(j, c):
    k, s, _ = assigned[(j, c)]
    e, f = s[2]
    if e[0] == 'transcript': return f'(ex_tr (H {k} (by omega)) (hT {e[1]} (by decide)))'
    if e[0] == 'str':
        n, m = G.const(e[1]), G.const(f[1])
        nm = vkn.get((n, m), 'ptOf_negG')
        return f'(hR _ _ _ <| ex_str (H {k} (by omega)) (by decide +kernel) (by decide +kernel) (by decide +kernel) {nm})'
    return f'(hR _ _ _ <| ex_buf (H {k} (by omega)) hI)'
for m, k in enumerate(acc):
    s = S[k]
    e = re.sub(r'\b(y|v|wi|ws|wn|ww|R|cW|u|xn)\b', lambda x: sub[x.group(1)], sc(terms[m][0]))
    p = terms[m][1]
    if m == 0:
        jx, jk, c = s[2], s[4], 12
        h = 'Eqs.e143 H.fr (by omega)'
    else:
        jx, jk, c = s[4], s[6], 14
        assert jx == k - 1 and jk == k
        h = f'Eqs.s{k} H.fr (by omega)' if k != 226 else 'Eqs.coeffW H.fr (by omega)'
        if k == 300: h = '(by rw [Eqs.s300 H.fr (by omega), pow_zero, mul_one])'
    pt = {'-G': '-G1gen', 'I': 'I'}.get(p) or (('proofPoint T' if p[0] == 'p' else 'vkFixed' if p[0] == 'f' else 'vkSigma') + p[1:])
    out.append(f'theorem t{k} (H : SRun X T A β N) (hN : {k} ≤ N) (hR : ∀ v w P, PtExact v w P → R v w P) (hT : ∀ i ∈ pointPositions, R (T.getD i .nil) (T.getD (i + 1) .nil) (proofPoint T i))')
    out.append(f'    (hI : PtExact (β 0 0) (β 0 1) I) (hu : (β 0 9).Canon) : TermAt R β {jx} {jk} {c} ({e}, {pt}) :=')
    out.append(f'  ⟨{ptx(jx, c)}, canon_exact {canon_term(jk, c + 2)} ({h})⟩')
out += ['', '/-- All 46 terms. -/',
 'theorem term_at (H : SRun X T A β N) (hR : ∀ v w P, PtExact v w P → R v w P) (hT : ∀ i ∈ pointPositions, R (T.getD i .nil) (T.getD (i + 1) .nil) (proofPoint T i))',
 '    (hI : PtExact (β 0 0) (β 0 1) I) (hu : (β 0 9).Canon) : ∀ m, m < 45 → accIdx.getD (m + 1) 0 ≤ N →',
 '    TermAt R β (accIdx.getD (m + 1) 0 - 1) (accIdx.getD (m + 1) 0) 14 ((termList ' + ' '.join(sub.values()) + '',
 '      (.ofProof I (proofPoint T))).getD (m + 1) 0)']
for m in range(45): out.append(f'  | {m}, _, h => t{acc[m+1]} H h hR hT hI hu')
out += ['  | m + 45, h, _ => by omega', '', 'end Verif']
open('/verif/lean/Verif/Lemmas/StepTerms.lean', 'w').write('\n'.join(out) + '\n')
