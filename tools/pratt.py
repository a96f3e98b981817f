#!/usr/bin/env python3
"""Generates lean/Verif/Native/Primes.lean: Pratt certificates for the field moduli (factorisations by GNU factor;
nothing here is trusted, the kernel checks every certificate)."""
import subprocess
N = {
 'k256p': (1<<256)-(1<<32)-977,
 'k256n': 0xfffffffffffffffffffffffffffffffebaaedce6af48a03bbfd25e8cd0364141,
 'p256p': 0xffffffff00000001000000000000000000000000ffffffffffffffffffffffff,
 'p256n': 0xffffffff00000000ffffffffffffffffbce6faada7179e84f3b9cac2fc632551,
 'pastap': 0x40000000000000000000000000000000224698fc094cf91b992d30ed00000001,
 'pastaq': 0x40000000000000000000000000000000224698fc0994a8dd8c46eb2100000001,
 'ed25519p': (1<<255)-19,
 'ed25519l': (1<<252)+27742317777372353535851937790883648493,
 'blsr': 0x73eda753299d7d483339d80809a1d80553bda402fffe5bfeffffffff00000001,
}
HINT={(1<<256)-(1<<32)-978:[2,3,7,13441,205115282021455665897114700593932402728804164701536103180137503955397371],
 205115282021455665897114700593932402728804164701536103180137503955397370:[2,3,5,29,29,31,7723,132896956044521568488119,255515944373312847190720520512484175977],
 N['pastap']-1:[2]*32+[3,463,539204044132271846773,8999194758858563409123804352480028797519453],
 N['pastaq']-1:[2]*32+[3,3,1709,24859,1690502597179744445941507,10427374428728808478656897599072717],
 N['ed25519p']-1:[2,2,3,65147,74058212732561358302231226437062788676166966415465897661863160754340907],
 N['ed25519l']-1:[2,2,3,11,198211423230930754013084525763697,276602624281642239937218680557139826668747],
 74058212732561358302231226437062788676166966415465897661863160754340906:[2,3,353,57467,132049,1923133,31757755568855353,75445702479781427272750846543864801],
 N['k256n']-1:[2]*6+[3,149,631,107361793816595537,174723607534414371449,341948486974166000522343609283189]}
def fac(n):
    if n in HINT:
        l=HINT[n]; p=1
        for q in l: p*=q
        assert p==n; return l
    o=subprocess.run(['timeout','900','factor',str(n)],capture_output=True,text=True).stdout.strip()
    if ':' not in o: raise Exception('cannot factor %d'%n)
    return [int(x) for x in o.split(':')[1].split()]
out=[]; done=set()
def emit(p):
    if p in done: return
    done.add(p)
    if p<5000:
        out.append(f"theorem prime_{p} : Nat.Prime {p} := by norm_num\n"); return
    l=sorted(fac(p-1))
    for q in set(l): emit(q)
    a=2
    while not (pow(a,p-1,p)==1 and all(pow(a,(p-1)//q,p)!=1 for q in set(l))): a+=1
    ls=', '.join(map(str,l))
    mem=' '.join(f"prime_{q}" for q in l)
    out.append(
     f"theorem prime_{p} : Nat.Prime\n    {p} :=\n  pratt _ {a} [{ls}]\n    "+''.join(f"(all_cons prime_{q} " for q in l)+"all_nil"+')'*len(l)+"\n    (by decide +kernel) (by decide +kernel) (by decide +kernel)\n")
for k,p in N.items():
    try: emit(p)
    except Exception as e: print(k,e)
hdr='''import Mathlib.NumberTheory.LucasPrimality
import Mathlib.Tactic.NormNum.Prime

/-!
# Primality of the field moduli (generated by `tools/pratt.py`)

Pratt certificates: a complete factorisation of `p - 1` and a primitive root, checked by the kernel with a modular power
function and `lucas_primality`.
-/

namespace Verif.Native.Primes

/-- Square-and-multiply modulo `m`, least significant bit first. -/
def pw (m : Nat) : Nat → Nat → Nat → Nat → Nat
  | 0, _, _, acc => acc
  | f + 1, b, e, acc => pw m f (b * b % m) (e / 2) (if e % 2 = 1 then acc * b % m else acc)

theorem pw_spec (m f : Nat) : ∀ b e acc : Nat, e < 2 ^ f → ((pw m f b e acc : Nat) : ZMod m) = acc * (b : ZMod m) ^ e := by
  induction f with
  | zero =>
    intro b e acc h
    have : e = 0 := by omega
    subst this
    simp [pw]
  | succ f ih =>
    intro b e acc h
    rw [pw, ih _ _ _ (by omega)]
    have he : e = 2 * (e / 2) + e % 2 := by omega
    have hb : ((b * b % m : Nat) : ZMod m) = (b : ZMod m) ^ 2 := by
      rw [ZMod.natCast_mod, Nat.cast_mul, pow_two]
    rw [hb, ← pow_mul]
    by_cases h1 : e % 2 = 1
    · rw [if_pos h1, ZMod.natCast_mod, Nat.cast_mul]
      conv_rhs => rw [he, h1, pow_succ]
      rw [mul_assoc, mul_comm ((b : ZMod m))]
    · have h0 : e % 2 = 0 := by omega
      rw [if_neg h1]
      conv_rhs => rw [he, h0, Nat.add_zero]

theorem all_nil : ∀ q ∈ ([] : List Nat), Nat.Prime q := fun _ h => absurd h (by simp)

theorem all_cons {a : Nat} {l : List Nat} (ha : Nat.Prime a) (hl : ∀ q ∈ l, Nat.Prime q) :
    ∀ q ∈ a :: l, Nat.Prime q := by
  intro q hq
  rcases List.mem_cons.1 hq with rfl | h
  · exact ha
  · exact hl q h

theorem pratt (p a : Nat) (l : List Nat) (hl : ∀ q ∈ l, Nat.Prime q) (hprod : l.prod + 1 = p ∧ 1 < p ∧ p < 2 ^ 400)
    (h1 : pw p 400 a (p - 1) 1 % p = 1) (h2 : l.all (fun q => pw p 400 a ((p - 1) / q) 1 % p != 1) = true) :
    Nat.Prime p := by
  obtain ⟨hp, hp1, hp2⟩ := hprod
  refine lucas_primality p (a : ZMod p) ?_ ?_
  · have h := pw_spec p 400 a (p - 1) 1 (by omega)
    rw [Nat.cast_one, one_mul] at h
    rw [← h, ← ZMod.natCast_mod, h1, Nat.cast_one]
  · intro q hq hd hc
    rw [← hp, Nat.add_sub_cancel] at hd
    obtain ⟨r, hr, hdr⟩ := (Prime.dvd_prod_iff hq.prime).1 hd
    have : q = r := (Nat.prime_dvd_prime_iff_eq hq (hl r hr)).1 hdr
    subst this
    have hne := List.all_eq_true.1 h2 q hr
    have h := pw_spec p 400 a ((p - 1) / q) 1 (lt_of_le_of_lt (Nat.div_le_self _ _) (by omega))
    rw [Nat.cast_one, one_mul, hc] at h
    have hm := (ZMod.natCast_eq_natCast_iff (pw p 400 a ((p - 1) / q) 1) 1 p).1 (by rw [Nat.cast_one]; exact h)
    unfold Nat.ModEq at hm
    rw [Nat.mod_eq_of_lt hp1] at hm
    simp [hm] at hne

'''
open('/verif/lean/Verif/Native/Primes.lean','w').write(hdr+'\n'.join(out)+'\nend Verif.Native.Primes\n')
