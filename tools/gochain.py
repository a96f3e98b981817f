#!/usr/bin/env python3
"""Translates the straight-line `Invert` addition chains of the native fields to lean/Verif/Native/Chains.lean."""
import re
B='/repo/crypto/core/curves/native/'
J=[('k256FpChain','k256/fp/fp.go',(1<<256)-(1<<32)-977),('k256FqChain','k256/fq/fq.go',0xfffffffffffffffffffffffffffffffebaaedce6af48a03bbfd25e8cd0364141),
   ('p256FqChain','p256/fq/fq.go',0xffffffff00000000ffffffffffffffffbce6faada7179e84f3b9cac2fc632551)]
out=['''import Verif.Native.Field

/-!
# Addition chains of `Invert` (generated by `tools/gochain.py`)

Straight-line translations, one instruction per Go statement, of the code between the declarations and the computation of
`wasInverted`.  Each computes `arg^(p-2)`.
-/

set_option maxRecDepth 100000

namespace Verif.Native

/-- `Mul(&out, &a, &b)` followed by the rest of the function. -/
def CMul {β : Type} (A : Arith) (a b : L4) (k : L4 → β) : β := k (A.mul a b)

/-- `native.Pow2k(&out, &a, n, f)` followed by the rest of the function. -/
def CPow2k {β : Type} (A : Arith) (a : L4) (n : Nat) (k : L4 → β) : β := k (pow2k A a n)

section
variable {A : Arith} {P : Params} {p : Nat} (L : Lawful A P p)
include L

theorem wp_cmul {β : Type} {x : ZMod p} {a b : L4} {m n : Nat} (ha : Rep p a (x ^ m)) (hb : Rep p b (x ^ n))
    (Q : β → Prop) (k : L4 → β) (hk : ∀ r, Rep p r (x ^ (m + n)) → Q (k r)) : Q (CMul A a b k) := by
  refine hk _ ?_
  rw [pow_add]
  exact C50_mul L ha hb

theorem wp_cpow2k {β : Type} {x : ZMod p} {a : L4} {m : Nat} (ha : Rep p a (x ^ m)) (j : Nat)
    (Q : β → Prop) (k : L4 → β) (hk : ∀ r, Rep p r (x ^ (m * 2 ^ j)) → Q (k r)) : Q (CPow2k A a j k) := by
  refine hk _ ?_
  rw [pow_mul]
  exact C50_pow2k L ha j

end
''']
for name,f,p in J:
    L=open(B+f).read().split('\n')
    i0=next(i for i,l in enumerate(L) if ') Invert(' in l)
    cur={'arg':'arg'}; cnt={}; ops=[]; i=i0+1
    last=None
    def new(v):
        cnt[v]=cnt.get(v,0)+1
        cur_name=v if cnt[v]==1 else f"{v}_{cnt[v]}"
        return cur_name
    while 'wasInverted =' not in L[i] and 'tv := &native' not in L[i]:
        l=L[i].strip(); i+=1
        if not l or l.startswith('//') or l.startswith('var '): continue
        l=l.replace('(*MontgomeryDomainFieldElement)','')
        l=re.sub(r'\((&?\w+)\)',r'\1',l)
        m=re.match(r'copy\((\w+)\[:\], (\w+)\[:\]\)$',l)
        if m: cur[m[1]]=cur[m[2]]; continue
        m=re.match(r'native\.Pow2k\(&(\w+), &?(\w+), (\d+), f\)$',l)
        if m:
            src=cur[m[2]]; d=new(m[1]); cur[m[1]]=d; ops.append(('p',d,src,m[3])); last=d; continue
        m=re.match(r'(?:f\.)?Mul\(?&(\w+), &?(\w+), &?(\w+)\)?$',l)
        if m:
            a,b=cur[m[2]],cur[m[3]]; d=new(m[1]); cur[m[1]]=d; ops.append(('m',d,a,b)); last=d; continue
        raise Exception(l)
    out.append(f"/-- The chain of `Invert` (crypto/core/curves/native/{f}:{i0+2}-{i}). -/\ndef {name} (A : Arith) (arg : L4) : L4 :=")
    for o in ops:
        out.append(f"  CMul A {o[2]} {o[3]} fun {o[1]} =>" if o[0]=='m' else f"  CPow2k A {o[2]} {o[3]} fun {o[1]} =>")
    out.append(f"  {last}\n")
    out.append(f"theorem {name}_spec {{A : Arith}} {{P : Params}} {{p : Nat}} (L : Lawful A P p)\n    (hp : p = {p})\n    {{arg : L4}} {{x : ZMod p}} (h : Rep p arg x) : Rep p ({name} A arg) (x ^ (p - 2)) := by")
    out.append("  suffices H : ∀ Q : L4 → Prop, (∀ r (n : Nat), n = p - 2 → Rep p r (x ^ n) → Q r) → Q ("+name+" A arg) from\n    H _ (fun r n hn hr => hn ▸ hr)")
    out.append("  intro Q hQ")
    out.append("  have h_arg : Rep p arg (x ^ 1) := by rw [pow_one]; exact h")
    out.append(f"  unfold {name}")
    for o in ops:
        if o[0]=='m': out.append(f"  refine wp_cmul L h_{o[2]} h_{o[3]} Q _ fun {o[1]} h_{o[1]} => ?_")
        else: out.append(f"  refine wp_cpow2k L h_{o[2]} {o[3]} Q _ fun {o[1]} h_{o[1]} => ?_")
    out.append(f"  exact hQ _ _ (by rw [hp]; norm_num) h_{last}\n")
out.append("end Verif.Native")
open('/verif/lean/Verif/Native/Chains.lean','w').write('\n'.join(out)+'\n')
