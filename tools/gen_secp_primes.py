from pratt import isp, fac
from collections import Counter
q=2**256-2**32-977
n=0xFFFFFFFFFFFFFFFFFFFFFFFFFFFFFFFEBAAEDCE6AF48A03BBFD25E8CD0364141
BIG=205115282021455665897114700593932402728804164701536103180137503955397371
KNOWN={
 q-1:[2,3,7,13441,BIG],
 n-1:[2]*6+[3,149,631,107361793816595537,174723607534414371449,341948486974166000522343609283189],
 BIG-1:[2,3,5,29,29,31,7723,132896956044521568488119,255515944373312847190720520512484175977],
}
done={}
out=[]
def factors(m):
    fs=KNOWN.get(m) or fac(m)
    k=1
    for f in fs:
        assert isp(f); k*=f
    assert k==m
    return fs
def gen(m):
    if m in done:return
    name={q:'prime_q_lit',n:'prime_n_lit'}.get(m,f'prime_{m}')
    done[m]=name
    if m<2*10**6:
        out.append(f'theorem {name} : Nat.Prime {m} := by norm_num'); return
    fs=sorted(Counter(factors(m-1)).items())
    for f,_ in fs: gen(f)
    a=2
    while not all(pow(a,(m-1)//f,m)!=1 for f,_ in fs): a+=1
    fl=', '.join(f'({f}, {e})' for f,e in fs)
    out.append(f'''theorem {name} : Nat.Prime {m} := by
  refine lucas_of_factors {m} {a} [{fl}] (by norm_num) (by decide +kernel) ?_ (by decide +kernel) (by decide +kernel)
  simp only [List.forall_mem_cons, List.not_mem_nil, false_imp_iff, implies_true, and_true]
  exact ⟨{', '.join(done[f] for f,_ in fs)}⟩''')
gen(n);gen(q)
print('''/-
Primality of the base-field and scalar-field moduli of secp256k1 (the curve of the signature check in
/repo/kyc.go:36-53), by Pratt (Lucas) certificates checked in the kernel. Generated by tools/gen_secp_primes.py.
-/
import Verif.Math.PowMod

namespace Verif.Secp
''')
print('\n\n'.join(out))
print('\nend Verif.Secp')
