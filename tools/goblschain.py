#!/usr/bin/env python3
"""Translates the `Invert` addition chain of bls12381/fq.go to lean/Verif/Bls381/FqChain.lean."""
import re
F='/repo/crypto/core/curves/native/bls12381/fq.go'
p=0x73eda753299d7d483339d80809a1d80553bda402fffe5bfeffffffff00000001
L=open(F).read().split('\n')
i0=next(i for i,l in enumerate(L) if ') Invert(' in l)
cur={'arg':'arg'}; cnt={}; ops=[]; i=i0+1
def new(v):
    cnt[v]=cnt.get(v,0)+1
    return v if cnt[v]==1 else f"{v}_{cnt[v]}"
while 'wasInverted =' not in L[i]:
    l=L[i].strip(); i+=1
    if not l or l.startswith('//') or l.startswith('var '): continue
    m=re.match(r'native\.Pow2k\(&(\w+), &?(\w+), (\d+), f\)$',l)
    if m:
        src=cur[m[2]]; d=new(m[1]); cur[m[1]]=d; ops.append(('p',d,src,m[3])); continue
    m=re.match(r'f\.Square\(&(\w+), &?(\w+)\)$',l)
    if m:
        src=cur[m[2]]; d=new(m[1]); cur[m[1]]=d; ops.append(('s',d,src,None)); continue
    m=re.match(r'f\.Mul\(&(\w+), &?(\w+), &?(\w+)\)$',l)
    if m:
        a,b=cur[m[2]],cur[m[3]]; d=new(m[1]); cur[m[1]]=d; ops.append(('m',d,a,b)); continue
    raise Exception(l)
last=cur['t0']
out=['''import Verif.Native.Chains

/-!
# Addition chain of `Invert` in `crypto/core/curves/native/bls12381/fq.go` (generated by `tools/goblschain.py`)

One instruction per Go statement between the declarations and the computation of `wasInverted`; it computes `arg^(q-2)`.
-/

set_option maxRecDepth 100000

namespace Verif.Bls381
open Verif.Native

/-- `f.Square(&out, &a)` followed by the rest of the function. -/
def CSq {β : Type} (A : Arith) (a : L4) (k : L4 → β) : β := k (A.square a)

theorem wp_csq {A : Arith} {P : Params} {p : Nat} (L : Lawful A P p) {β : Type} {x : ZMod p} {a : L4} {m : Nat}
    (ha : Rep p a (x ^ m)) (Q : β → Prop) (k : L4 → β) (hk : ∀ r, Rep p r (x ^ (m + m)) → Q (k r)) : Q (CSq A a k) := by
  refine hk _ ?_
  rw [pow_add]
  exact C50_square L ha
''']
out.append(f"/-- The chain of `Invert` (crypto/core/curves/native/bls12381/fq.go:{i0+2}-{i}). -/\ndef fqChain (A : Arith) (arg : L4) : L4 :=")
for o in ops:
    out.append({'m':f"  CMul A {o[2]} {o[3]} fun {o[1]} =>",'p':f"  CPow2k A {o[2]} {o[3]} fun {o[1]} =>",'s':f"  CSq A {o[2]} fun {o[1]} =>"}[o[0]])
out.append(f"  {last}\n")
out.append(f"theorem fqChain_spec {{A : Arith}} {{P : Params}} {{p : Nat}} (L : Lawful A P p)\n    (hp : p = {p})\n    {{arg : L4}} {{x : ZMod p}} (h : Rep p arg x) : Rep p (fqChain A arg) (x ^ (p - 2)) := by")
out.append("  suffices H : ∀ Q : L4 → Prop, (∀ r (n : Nat), n = p - 2 → Rep p r (x ^ n) → Q r) → Q (fqChain A arg) from\n    H _ (fun r n hn hr => hn ▸ hr)")
out.append("  intro Q hQ\n  have h_arg : Rep p arg (x ^ 1) := by rw [pow_one]; exact h\n  unfold fqChain")
for o in ops:
    if o[0]=='m': out.append(f"  refine wp_cmul L h_{o[2]} h_{o[3]} Q _ fun {o[1]} h_{o[1]} => ?_")
    elif o[0]=='p': out.append(f"  refine wp_cpow2k L h_{o[2]} {o[3]} Q _ fun {o[1]} h_{o[1]} => ?_")
    else: out.append(f"  refine wp_csq L h_{o[2]} Q _ fun {o[1]} h_{o[1]} => ?_")
out.append(f"  exact hQ _ _ (by rw [hp]; norm_num) h_{last}\n")
out.append("end Verif.Bls381")
open('/verif/lean/Verif/Bls381/FqChain.lean','w').write('\n'.join(out)+'\n')
