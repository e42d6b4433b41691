#!/usr/bin/env python3
"""Generate lean/Verif/Lemmas/StepAcc.lean: the point accumulated by the ecc calls, one line per call. Untrusted: checked by
the kernel."""
import os, sys
sys.path.insert(0, os.path.dirname(os.path.abspath(__file__)))
import gen_stepeqs as G
S = G.S
for s in S:
    if s[0] == 'set': [G.lean(e) for e in s[2]]  # same numbering of the constants
vk = []
lines = []
pts = {}   # time -> (proof term name, point expr)
canon = {}
def operation(e): return e[0] in ('fr_mul', 'fr_add', 'fr_neg', 'fr_div', 'fr_pow')
assigned = {}
for k, s in enumerate(S):
    if s[0] == 'set':
        for t, e in zip(s[1], s[2]): assigned[(k + 1, t)] = (k, s, e)
def canon_term(j, i):
    if (j, i) == (0, 9): return 'hu'
    k, s, e = assigned[(j, i)]
    assert len(s[1]) == 1
    if operation(e): return f'(canon_of (H {k} (by omega)) fun _ h => h)'
    assert e[0] == 'buf'
    return f'(canon_of (H {k} (by omega)) fun _ h => by rw [show _ = _ from h]; exact {canon_term(e[1], e[2])})'
def pt_term(j, c):
    k, s, _ = assigned[(j, c)]
    e, f = s[2]
    if e[0] == 'transcript':
        assert f == ('transcript', e[1] + 1)
        return f'(pt_tr (H {k} (by omega)) (hT {e[1]} (by decide)))'
    if e[0] == 'str': return f'(pt_str (H {k} (by omega)) (by decide +kernel))'
    return f'(pt_buf (H {k} (by omega)) hI)'
out = []
prev = None
for k, s in enumerate(S):
    if s[0] == 'ecc_mul' and s[1] == 12:
        _, o, jx, jy, jk = s
        assert jx == jy
        out.append(f'  have q{k} := mul_step hX (H {k} (by omega)) {pt_term(jx, 12)}')
        out.append(f'    {canon_term(jk, 14)}')
    if s[0] == 'ecc_mul_add':
        _, o, ja, jb, jx, jy, jk = s
        assert ja == jb == prev + 1 and jx == jy and o == 12
        out.append(f'  have q{k} := mulAdd_step hX (H {k} (by omega)) q{prev} {pt_term(jx, 14)}')
        out.append(f'    {canon_term(jk, 16)}')
    if s[0] != 'set' and s[1] == 12: prev = k
def ptx(j, c):
    k, s, _ = assigned[(j, c)]
    e, f = s[2]
    if e[0] == 'transcript': return f'proofPoint T {e[1]}'
    if e[0] == 'str': return f'ptOf ({G.const(e[1])}, {G.const(f[1])})'
    return 'I'
if __name__ == '__main__':
    terms = []
    for k, s in enumerate(S):
        if s[0] == 'ecc_mul' and s[1] == 12: terms.append(f'((β {s[4]} 14).fr, {ptx(s[2], 12)})')
        if s[0] == 'ecc_mul_add': terms.append(f'((β {s[6]} 16).fr, {ptx(s[4], 14)})')
    P = '/verif/lean/Verif/Lemmas/StepAcc.lean'
    txt = ['/- The point accumulated by the ecc calls. GENERATED by tools/gen_stepacc.py. -/', 'import Verif.Lemmas.Run', '',
      'namespace Verif', 'open Halo2', '',
      '/-- Scalar and point of every ecc call on cells 12, 13. -/',
      'noncomputable def accTerms (T : List Var) (I : G1) (β : ℕ → ℕ → Var) : List (Fr × G1) := [']
    txt += ['  ' + t + (',' if i + 1 < len(terms) else ']') for i, t in enumerate(terms)]
    txt += ['',
      'theorem acc_run {X : Ext} (hX : X.Strict) {T A : List Var} {β : ℕ → ℕ → Var} {N : ℕ} (H : SRun X T A β N) (hN : 300 < N)',
      '    (hT : ∀ i, i ∈ pointPositions → PairAt T i) {I : G1} (hI : PtAt (β 0 0) (β 0 1) I) (hu : (β 0 9).Canon) :',
      '    PtAt (β 301 12) (β 301 13) ((accTerms T I β).map fun p => p.1 • p.2).sum := by'] + out
    txt += ['  rw [accTerms, sum_assoc]', '  simp only [List.foldl_cons, List.foldl_nil]', f'  exact q{prev}', '', 'end Verif']
    open(P, 'w').write('\n'.join(txt) + '\n')
