#!/usr/bin/env python3
"""Writes lean/Verif/Native/Instances.lean: parameters of the six fields, read from the Go sources, and lawfulness."""
import re
B='/repo/crypto/core/curves/native/'
def limbs(t): return '⟨'+', '.join(x.strip() for x in t.split(','))+'⟩'
out=['''import Verif.Native.Roots
import Verif.Native.Primes
import Verif.Native.K256Fp.Proof
import Verif.Native.K256Fq.Proof
import Verif.Native.P256Fp.Proof
import Verif.Native.P256Fq.Proof
import Verif.Native.PastaFp.Proof
import Verif.Native.PastaFq.Proof

/-!
# The six fields (generated by `tools/goinst.py`)

The parameter blocks are transcribed from the Go sources, every constant is checked by the kernel, and the generated
arithmetic is shown to be lawful.
-/

set_option maxRecDepth 20000
set_option exponentiation.threshold 1000

namespace Verif.Native

/-- `new(big.Int).SetBytes` of the 32-byte literal (package math/big). -/
def bigOfBytes (b : List UInt8) : Int := (Bytes.beToNat b : Int)
''']
for name,f,const,inv in [('K256Fp','k256/fp/fp.go','prime_k256p',None),('K256Fq','k256/fq/fq.go','',None),('P256Fp','p256/fp/fp.go','',None),('P256Fq','p256/fq/fq.go','',None),('PastaFp','pasta/fp/fp.go','',None),('PastaFq','pasta/fq/fq.go','',None)]:
    src=open(B+f).read()
    L=src.split('\n')
    d={}
    if 'pasta' in f:
        for k,v in [('R','r'),('R2','r2'),('R3','r3'),('modulus','modulus')]:
            m=re.search(r'^var %s = &F[pq]\{([^}]*)\}'%v,src,re.M); d[k]=m[1]
        m=re.search(r'^var [bB]iModulus = new\(big.Int\).SetBytes\(\[\]byte\{([^}]*)\}',src,re.M); bi=m[1]
        lo=next(i for i,l in enumerate(L) if l.startswith('var r =')); hi=next(i for i,l in enumerate(L) if 'iModulus =' in l)+6
    else:
        for k,v in [('R','R'),('R2','R2'),('R3','R3'),('modulus','Modulus')]:
            m=re.search(r'^\s*%s:\s*\[native.FieldLimbs\]uint64\{([^}]*)\}'%v,src,re.M); d[k]=m[1]
        m=re.search(r'BiModulus: new\(big.Int\).SetBytes\(\[\]byte\{([^}]*)\}',src); bi=m[1]
        lo=next(i for i,l in enumerate(L) if 'ParamsInit() {' in l); hi=next(i for i,l in enumerate(L) if i>lo and l.startswith('}'))+1
    bs=[x.strip() for x in bi.replace('\n',' ').split(',') if x.strip()]
    assert len(bs)==32
    p=sum(int(x.strip(),16)<<(64*i) for i,x in enumerate(d['modulus'].split(',')))
    out.append(f'''/-! ## {name} -/

/-- The modulus. -/
abbrev {name}.prime : Nat := {p}

instance : Fact (Nat.Prime {name}.prime) := ⟨Primes.prime_{p}⟩

/-- The constants (crypto/core/curves/native/{f}:{lo+1}-{hi}). -/
def {name}.params : Params where
  R := {limbs(d['R'])}
  R2 := {limbs(d['R2'])}
  R3 := {limbs(d['R3'])}
  modulus := {limbs(d['modulus'])}
  biModulus := bigOfBytes [{', '.join(bs[:16])},
    {', '.join(bs[16:])}]

/-- The arithmetic backend. -/
def {name}.arith : Arith where
  toMont := {name}.toMont
  fromMont := {name}.fromMont
  neg := {name}.opp
  square := {name}.square
  mul := {name}.mul
  add := {name}.add
  sub := {name}.sub

theorem {name}.lawful : Lawful {name}.arith {name}.params {name}.prime where
  one_lt := by norm_num
  lt := by norm_num
  odd := by norm_num
  R := by decide +kernel
  R2 := by decide +kernel
  R3 := by decide +kernel
  modulus := by decide +kernel
  bi := by decide +kernel
  mul := {name}.mul_spec
  square := {name}.square_spec
  add := {name}.add_spec
  sub := {name}.sub_spec
  neg := {name}.opp_spec
  fromMont := {name}.fromMont_spec
  toMont a := by
    have h := {name}.toMont_spec a
    rwa [← (by decide +kernel : 2 ^ 512 % {name}.prime = {pow(2,512,p)})] at h
''')
out.append('end Verif.Native')
open('/verif/lean/Verif/Native/Instances.lean','w').write('\n'.join(out)+'\n')
