#!/usr/bin/env python3
"""Generates lean/Verif/Curves/Bls377Prime.lean: a Pratt certificate for the order of BLS12-377 (checked by the kernel)."""
import subprocess
x=0x8508c00000000001
r=x**4-x*x+1
F={r-1: sorted([x,x]+[2]*46+[3,7,13,499]+[2,5,958612291309063373])}
out=[];done=set()
def fac(n):
    if n in F: return F[n]
    return sorted(int(t) for t in subprocess.run(['factor',str(n)],capture_output=True,text=True).stdout.split(':')[1].split())
def emit(p):
    if p in done: return
    done.add(p)
    if p<5000:
        out.append(f"theorem prime_{p} : Nat.Prime {p} := by norm_num\n"); return
    l=fac(p-1); t=1
    for q in l: t*=q
    assert t==p-1
    for q in sorted(set(l)): emit(q)
    a=2
    while not (pow(a,p-1,p)==1 and all(pow(a,(p-1)//q,p)!=1 for q in set(l))): a+=1
    out.append(f"theorem prime_{p} : Nat.Prime\n    {p} :=\n  pratt _ {a} [{', '.join(map(str,l))}]\n    "+''.join(f"(all_cons prime_{q} " for q in l)+"all_nil"+')'*len(l)+"\n    (by decide +kernel) (by decide +kernel) (by decide +kernel)\n")
emit(r)
# a prime of the size of the base field's, one more than a multiple of r, for the instance of the contract
a,b,c=9,71,1
toy=r*2**a*3**b*5**c+1
F[toy-1]=sorted([r]+[2]*a+[3]*b+[5]*c)
emit(toy)
open('/verif/lean/Verif/Curves/Bls377Prime.lean','w').write('''import Verif.Native.Primes

/-!
# Primality of the order of BLS12-377 (generated by `tools/pratt377.py`)

A Pratt certificate; nothing the generator says is trusted, the kernel checks it.
-/

namespace Verif.B377.Prime
open Verif.Native.Primes (pratt all_cons all_nil)

'''+'\n'.join(out)+f'''
/-- `bls12377modulus` (crypto/core/curves/bls12377_curve.go:27-30). -/
def r : Nat := {hex(r)}

theorem prime_r : Nat.Prime r := prime_{r}

/-- A prime with 377 bits, one more than a multiple of the order. -/
def toyP : Nat := {hex(toy)}

theorem prime_toyP : Nat.Prime toyP := prime_{toy}

end Verif.B377.Prime
''')
