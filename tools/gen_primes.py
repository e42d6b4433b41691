from pratt import *
from collections import Counter
done={}
out=[]
def gen(n):
    if n in done:return
    name={p:'prime_pMod_lit',r:'prime_rMod_lit'}.get(n,f'prime_{n}')
    done[n]=name
    if n<2*10**6:
        out.append(f'theorem {name} : Nat.Prime {n} := by norm_num'); return
    fs=sorted(Counter(fac(n-1)).items())
    for q,_ in fs: gen(q)
    a=2
    while not all(pow(a,(n-1)//q,n)!=1 for q,_ in fs): a+=1
    fl=', '.join(f'({q}, {e})' for q,e in fs)
    out.append(f'''theorem {name} : Nat.Prime {n} := by
  refine lucas_of_factors {n} {a} [{fl}] (by norm_num) (by decide +kernel) ?_ (by decide +kernel) (by decide +kernel)
  simp only [List.forall_mem_cons, List.not_mem_nil, false_imp_iff, implies_true, and_true]
  exact ⟨{', '.join(done[q] for q,_ in fs)}⟩''')
gen(r);gen(p)
print('''/-
Primality of the two BN254 moduli, by Pratt (Lucas) certificates checked in the kernel.
The numbers are the constants of /repo/aggregator_lib_circuit.go:24-26 (FpModulus, FrModulus).
Generated by tools/gen_primes.py.
-/
import Verif.Math.PowMod

namespace Verif
''')
print('\n\n'.join(out))
print('\nend Verif')
