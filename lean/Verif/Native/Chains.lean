import Verif.Native.Field

/-!
# Addition chains of `Invert` (generated by `tools/gochain.py`)

Straight-line translations, one instruction per Go statement, of the code between the declarations and the computation of
`wasInverted`.  Each computes `arg^(p-2)`.
-/

set_option maxRecDepth 100000

namespace Verif.Native

/-- `Mul(&out, &a, &b)` followed by the rest of the function. -/
def CMul {β : Type} (A : Arith) (a b : L4) (k : L4 → β) : β := k (A.mul a b)

/-- `native.Pow2k(&out, &a, n, f)` followed by the rest of the function. -/
def CPow2k {β : Type} (A : Arith) (a : L4) (n : Nat) (k : L4 → β) : β := k (pow2k A a n)

section
variable {A : Arith} {P : Params} {p : Nat} (L : Lawful A P p)
include L

theorem wp_cmul {β : Type} {x : ZMod p} {a b : L4} {m n : Nat} (ha : Rep p a (x ^ m)) (hb : Rep p b (x ^ n))
    (Q : β → Prop) (k : L4 → β) (hk : ∀ r, Rep p r (x ^ (m + n)) → Q (k r)) : Q (CMul A a b k) := by
  refine hk _ ?_
  rw [pow_add]
  exact C50_mul L ha hb

theorem wp_cpow2k {β : Type} {x : ZMod p} {a : L4} {m : Nat} (ha : Rep p a (x ^ m)) (j : Nat)
    (Q : β → Prop) (k : L4 → β) (hk : ∀ r, Rep p r (x ^ (m * 2 ^ j)) → Q (k r)) : Q (CPow2k A a j k) := by
  refine hk _ ?_
  rw [pow_mul]
  exact C50_pow2k L ha j

end

/-- The chain of `Invert` (crypto/core/curves/native/k256/fp/fp.go:106-159). -/
def k256FpChain (A : Arith) (arg : L4) : L4 :=
  CPow2k A arg 1 fun x2 =>
  CMul A x2 arg fun x2_2 =>
  CPow2k A x2_2 1 fun x3 =>
  CMul A x3 arg fun x3_2 =>
  CPow2k A x3_2 3 fun x6 =>
  CMul A x6 x3_2 fun x6_2 =>
  CPow2k A x6_2 3 fun x9 =>
  CMul A x9 x3_2 fun x9_2 =>
  CPow2k A x9_2 2 fun x11 =>
  CMul A x11 x2_2 fun x11_2 =>
  CPow2k A x11_2 11 fun x22 =>
  CMul A x22 x11_2 fun x22_2 =>
  CPow2k A x22_2 22 fun x44 =>
  CMul A x44 x22_2 fun x44_2 =>
  CPow2k A x44_2 44 fun x88 =>
  CMul A x88 x44_2 fun x88_2 =>
  CPow2k A x88_2 88 fun x176 =>
  CMul A x176 x88_2 fun x176_2 =>
  CPow2k A x176_2 44 fun x220 =>
  CMul A x220 x44_2 fun x220_2 =>
  CPow2k A x220_2 3 fun x223 =>
  CMul A x223 x3_2 fun x223_2 =>
  CPow2k A x223_2 23 fun s =>
  CMul A s x22_2 fun s_2 =>
  CPow2k A s_2 5 fun s_3 =>
  CMul A s_3 arg fun s_4 =>
  CPow2k A s_4 3 fun s_5 =>
  CMul A s_5 x2_2 fun s_6 =>
  CPow2k A s_6 2 fun s_7 =>
  CMul A s_7 arg fun s_8 =>
  s_8

theorem k256FpChain_spec {A : Arith} {P : Params} {p : Nat} (L : Lawful A P p)
    (hp : p = 115792089237316195423570985008687907853269984665640564039457584007908834671663)
    {arg : L4} {x : ZMod p} (h : Rep p arg x) : Rep p (k256FpChain A arg) (x ^ (p - 2)) := by
  suffices H : ∀ Q : L4 → Prop, (∀ r (n : Nat), n = p - 2 → Rep p r (x ^ n) → Q r) → Q (k256FpChain A arg) from
    H _ (fun r n hn hr => hn ▸ hr)
  intro Q hQ
  have h_arg : Rep p arg (x ^ 1) := by rw [pow_one]; exact h
  unfold k256FpChain
  refine wp_cpow2k L h_arg 1 Q _ fun x2 h_x2 => ?_
  refine wp_cmul L h_x2 h_arg Q _ fun x2_2 h_x2_2 => ?_
  refine wp_cpow2k L h_x2_2 1 Q _ fun x3 h_x3 => ?_
  refine wp_cmul L h_x3 h_arg Q _ fun x3_2 h_x3_2 => ?_
  refine wp_cpow2k L h_x3_2 3 Q _ fun x6 h_x6 => ?_
  refine wp_cmul L h_x6 h_x3_2 Q _ fun x6_2 h_x6_2 => ?_
  refine wp_cpow2k L h_x6_2 3 Q _ fun x9 h_x9 => ?_
  refine wp_cmul L h_x9 h_x3_2 Q _ fun x9_2 h_x9_2 => ?_
  refine wp_cpow2k L h_x9_2 2 Q _ fun x11 h_x11 => ?_
  refine wp_cmul L h_x11 h_x2_2 Q _ fun x11_2 h_x11_2 => ?_
  refine wp_cpow2k L h_x11_2 11 Q _ fun x22 h_x22 => ?_
  refine wp_cmul L h_x22 h_x11_2 Q _ fun x22_2 h_x22_2 => ?_
  refine wp_cpow2k L h_x22_2 22 Q _ fun x44 h_x44 => ?_
  refine wp_cmul L h_x44 h_x22_2 Q _ fun x44_2 h_x44_2 => ?_
  refine wp_cpow2k L h_x44_2 44 Q _ fun x88 h_x88 => ?_
  refine wp_cmul L h_x88 h_x44_2 Q _ fun x88_2 h_x88_2 => ?_
  refine wp_cpow2k L h_x88_2 88 Q _ fun x176 h_x176 => ?_
  refine wp_cmul L h_x176 h_x88_2 Q _ fun x176_2 h_x176_2 => ?_
  refine wp_cpow2k L h_x176_2 44 Q _ fun x220 h_x220 => ?_
  refine wp_cmul L h_x220 h_x44_2 Q _ fun x220_2 h_x220_2 => ?_
  refine wp_cpow2k L h_x220_2 3 Q _ fun x223 h_x223 => ?_
  refine wp_cmul L h_x223 h_x3_2 Q _ fun x223_2 h_x223_2 => ?_
  refine wp_cpow2k L h_x223_2 23 Q _ fun s h_s => ?_
  refine wp_cmul L h_s h_x22_2 Q _ fun s_2 h_s_2 => ?_
  refine wp_cpow2k L h_s_2 5 Q _ fun s_3 h_s_3 => ?_
  refine wp_cmul L h_s_3 h_arg Q _ fun s_4 h_s_4 => ?_
  refine wp_cpow2k L h_s_4 3 Q _ fun s_5 h_s_5 => ?_
  refine wp_cmul L h_s_5 h_x2_2 Q _ fun s_6 h_s_6 => ?_
  refine wp_cpow2k L h_s_6 2 Q _ fun s_7 h_s_7 => ?_
  refine wp_cmul L h_s_7 h_arg Q _ fun s_8 h_s_8 => ?_
  exact hQ _ _ (by rw [hp]; norm_num) h_s_8

/-- The chain of `Invert` (crypto/core/curves/native/k256/fq/fq.go:149-263). -/
def k256FqChain (A : Arith) (arg : L4) : L4 :=
  CPow2k A arg 1 fun x10 =>
  CMul A x10 arg fun x11 =>
  CMul A x10 x11 fun x101 =>
  CMul A x10 x101 fun x111 =>
  CMul A x10 x111 fun x1001 =>
  CMul A x10 x1001 fun x1011 =>
  CMul A x10 x1011 fun x1101 =>
  CPow2k A x1101 2 fun x6 =>
  CMul A x6 x1011 fun x6_2 =>
  CPow2k A x6_2 2 fun x8 =>
  CMul A x8 x11 fun x8_2 =>
  CPow2k A x8_2 6 fun x14 =>
  CMul A x14 x6_2 fun x14_2 =>
  CPow2k A x14_2 14 fun x28 =>
  CMul A x28 x14_2 fun x28_2 =>
  CPow2k A x28_2 28 fun x56 =>
  CMul A x56 x28_2 fun x56_2 =>
  CPow2k A x56_2 56 fun tmp =>
  CMul A tmp x56_2 fun tmp_2 =>
  CPow2k A tmp_2 14 fun tmp_3 =>
  CMul A tmp_3 x14_2 fun tmp_4 =>
  CPow2k A tmp_4 3 fun tmp_5 =>
  CMul A tmp_5 x101 fun tmp_6 =>
  CPow2k A tmp_6 4 fun tmp_7 =>
  CMul A tmp_7 x111 fun tmp_8 =>
  CPow2k A tmp_8 4 fun tmp_9 =>
  CMul A tmp_9 x101 fun tmp_10 =>
  CPow2k A tmp_10 5 fun tmp_11 =>
  CMul A tmp_11 x1011 fun tmp_12 =>
  CPow2k A tmp_12 4 fun tmp_13 =>
  CMul A tmp_13 x1011 fun tmp_14 =>
  CPow2k A tmp_14 4 fun tmp_15 =>
  CMul A tmp_15 x111 fun tmp_16 =>
  CPow2k A tmp_16 5 fun tmp_17 =>
  CMul A tmp_17 x111 fun tmp_18 =>
  CPow2k A tmp_18 6 fun tmp_19 =>
  CMul A tmp_19 x1101 fun tmp_20 =>
  CPow2k A tmp_20 4 fun tmp_21 =>
  CMul A tmp_21 x101 fun tmp_22 =>
  CPow2k A tmp_22 3 fun tmp_23 =>
  CMul A tmp_23 x111 fun tmp_24 =>
  CPow2k A tmp_24 5 fun tmp_25 =>
  CMul A tmp_25 x1001 fun tmp_26 =>
  CPow2k A tmp_26 6 fun tmp_27 =>
  CMul A tmp_27 x101 fun tmp_28 =>
  CPow2k A tmp_28 10 fun tmp_29 =>
  CMul A tmp_29 x111 fun tmp_30 =>
  CPow2k A tmp_30 4 fun tmp_31 =>
  CMul A tmp_31 x111 fun tmp_32 =>
  CPow2k A tmp_32 9 fun tmp_33 =>
  CMul A tmp_33 x8_2 fun tmp_34 =>
  CPow2k A tmp_34 5 fun tmp_35 =>
  CMul A tmp_35 x1001 fun tmp_36 =>
  CPow2k A tmp_36 6 fun tmp_37 =>
  CMul A tmp_37 x1011 fun tmp_38 =>
  CPow2k A tmp_38 4 fun tmp_39 =>
  CMul A tmp_39 x1101 fun tmp_40 =>
  CPow2k A tmp_40 5 fun tmp_41 =>
  CMul A tmp_41 x11 fun tmp_42 =>
  CPow2k A tmp_42 6 fun tmp_43 =>
  CMul A tmp_43 x1101 fun tmp_44 =>
  CPow2k A tmp_44 10 fun tmp_45 =>
  CMul A tmp_45 x1101 fun tmp_46 =>
  CPow2k A tmp_46 4 fun tmp_47 =>
  CMul A tmp_47 x1001 fun tmp_48 =>
  CPow2k A tmp_48 6 fun tmp_49 =>
  CMul A tmp_49 arg fun tmp_50 =>
  CPow2k A tmp_50 8 fun tmp_51 =>
  CMul A tmp_51 x6_2 fun tmp_52 =>
  tmp_52

theorem k256FqChain_spec {A : Arith} {P : Params} {p : Nat} (L : Lawful A P p)
    (hp : p = 115792089237316195423570985008687907852837564279074904382605163141518161494337)
    {arg : L4} {x : ZMod p} (h : Rep p arg x) : Rep p (k256FqChain A arg) (x ^ (p - 2)) := by
  suffices H : ∀ Q : L4 → Prop, (∀ r (n : Nat), n = p - 2 → Rep p r (x ^ n) → Q r) → Q (k256FqChain A arg) from
    H _ (fun r n hn hr => hn ▸ hr)
  intro Q hQ
  have h_arg : Rep p arg (x ^ 1) := by rw [pow_one]; exact h
  unfold k256FqChain
  refine wp_cpow2k L h_arg 1 Q _ fun x10 h_x10 => ?_
  refine wp_cmul L h_x10 h_arg Q _ fun x11 h_x11 => ?_
  refine wp_cmul L h_x10 h_x11 Q _ fun x101 h_x101 => ?_
  refine wp_cmul L h_x10 h_x101 Q _ fun x111 h_x111 => ?_
  refine wp_cmul L h_x10 h_x111 Q _ fun x1001 h_x1001 => ?_
  refine wp_cmul L h_x10 h_x1001 Q _ fun x1011 h_x1011 => ?_
  refine wp_cmul L h_x10 h_x1011 Q _ fun x1101 h_x1101 => ?_
  refine wp_cpow2k L h_x1101 2 Q _ fun x6 h_x6 => ?_
  refine wp_cmul L h_x6 h_x1011 Q _ fun x6_2 h_x6_2 => ?_
  refine wp_cpow2k L h_x6_2 2 Q _ fun x8 h_x8 => ?_
  refine wp_cmul L h_x8 h_x11 Q _ fun x8_2 h_x8_2 => ?_
  refine wp_cpow2k L h_x8_2 6 Q _ fun x14 h_x14 => ?_
  refine wp_cmul L h_x14 h_x6_2 Q _ fun x14_2 h_x14_2 => ?_
  refine wp_cpow2k L h_x14_2 14 Q _ fun x28 h_x28 => ?_
  refine wp_cmul L h_x28 h_x14_2 Q _ fun x28_2 h_x28_2 => ?_
  refine wp_cpow2k L h_x28_2 28 Q _ fun x56 h_x56 => ?_
  refine wp_cmul L h_x56 h_x28_2 Q _ fun x56_2 h_x56_2 => ?_
  refine wp_cpow2k L h_x56_2 56 Q _ fun tmp h_tmp => ?_
  refine wp_cmul L h_tmp h_x56_2 Q _ fun tmp_2 h_tmp_2 => ?_
  refine wp_cpow2k L h_tmp_2 14 Q _ fun tmp_3 h_tmp_3 => ?_
  refine wp_cmul L h_tmp_3 h_x14_2 Q _ fun tmp_4 h_tmp_4 => ?_
  refine wp_cpow2k L h_tmp_4 3 Q _ fun tmp_5 h_tmp_5 => ?_
  refine wp_cmul L h_tmp_5 h_x101 Q _ fun tmp_6 h_tmp_6 => ?_
  refine wp_cpow2k L h_tmp_6 4 Q _ fun tmp_7 h_tmp_7 => ?_
  refine wp_cmul L h_tmp_7 h_x111 Q _ fun tmp_8 h_tmp_8 => ?_
  refine wp_cpow2k L h_tmp_8 4 Q _ fun tmp_9 h_tmp_9 => ?_
  refine wp_cmul L h_tmp_9 h_x101 Q _ fun tmp_10 h_tmp_10 => ?_
  refine wp_cpow2k L h_tmp_10 5 Q _ fun tmp_11 h_tmp_11 => ?_
  refine wp_cmul L h_tmp_11 h_x1011 Q _ fun tmp_12 h_tmp_12 => ?_
  refine wp_cpow2k L h_tmp_12 4 Q _ fun tmp_13 h_tmp_13 => ?_
  refine wp_cmul L h_tmp_13 h_x1011 Q _ fun tmp_14 h_tmp_14 => ?_
  refine wp_cpow2k L h_tmp_14 4 Q _ fun tmp_15 h_tmp_15 => ?_
  refine wp_cmul L h_tmp_15 h_x111 Q _ fun tmp_16 h_tmp_16 => ?_
  refine wp_cpow2k L h_tmp_16 5 Q _ fun tmp_17 h_tmp_17 => ?_
  refine wp_cmul L h_tmp_17 h_x111 Q _ fun tmp_18 h_tmp_18 => ?_
  refine wp_cpow2k L h_tmp_18 6 Q _ fun tmp_19 h_tmp_19 => ?_
  refine wp_cmul L h_tmp_19 h_x1101 Q _ fun tmp_20 h_tmp_20 => ?_
  refine wp_cpow2k L h_tmp_20 4 Q _ fun tmp_21 h_tmp_21 => ?_
  refine wp_cmul L h_tmp_21 h_x101 Q _ fun tmp_22 h_tmp_22 => ?_
  refine wp_cpow2k L h_tmp_22 3 Q _ fun tmp_23 h_tmp_23 => ?_
  refine wp_cmul L h_tmp_23 h_x111 Q _ fun tmp_24 h_tmp_24 => ?_
  refine wp_cpow2k L h_tmp_24 5 Q _ fun tmp_25 h_tmp_25 => ?_
  refine wp_cmul L h_tmp_25 h_x1001 Q _ fun tmp_26 h_tmp_26 => ?_
  refine wp_cpow2k L h_tmp_26 6 Q _ fun tmp_27 h_tmp_27 => ?_
  refine wp_cmul L h_tmp_27 h_x101 Q _ fun tmp_28 h_tmp_28 => ?_
  refine wp_cpow2k L h_tmp_28 10 Q _ fun tmp_29 h_tmp_29 => ?_
  refine wp_cmul L h_tmp_29 h_x111 Q _ fun tmp_30 h_tmp_30 => ?_
  refine wp_cpow2k L h_tmp_30 4 Q _ fun tmp_31 h_tmp_31 => ?_
  refine wp_cmul L h_tmp_31 h_x111 Q _ fun tmp_32 h_tmp_32 => ?_
  refine wp_cpow2k L h_tmp_32 9 Q _ fun tmp_33 h_tmp_33 => ?_
  refine wp_cmul L h_tmp_33 h_x8_2 Q _ fun tmp_34 h_tmp_34 => ?_
  refine wp_cpow2k L h_tmp_34 5 Q _ fun tmp_35 h_tmp_35 => ?_
  refine wp_cmul L h_tmp_35 h_x1001 Q _ fun tmp_36 h_tmp_36 => ?_
  refine wp_cpow2k L h_tmp_36 6 Q _ fun tmp_37 h_tmp_37 => ?_
  refine wp_cmul L h_tmp_37 h_x1011 Q _ fun tmp_38 h_tmp_38 => ?_
  refine wp_cpow2k L h_tmp_38 4 Q _ fun tmp_39 h_tmp_39 => ?_
  refine wp_cmul L h_tmp_39 h_x1101 Q _ fun tmp_40 h_tmp_40 => ?_
  refine wp_cpow2k L h_tmp_40 5 Q _ fun tmp_41 h_tmp_41 => ?_
  refine wp_cmul L h_tmp_41 h_x11 Q _ fun tmp_42 h_tmp_42 => ?_
  refine wp_cpow2k L h_tmp_42 6 Q _ fun tmp_43 h_tmp_43 => ?_
  refine wp_cmul L h_tmp_43 h_x1101 Q _ fun tmp_44 h_tmp_44 => ?_
  refine wp_cpow2k L h_tmp_44 10 Q _ fun tmp_45 h_tmp_45 => ?_
  refine wp_cmul L h_tmp_45 h_x1101 Q _ fun tmp_46 h_tmp_46 => ?_
  refine wp_cpow2k L h_tmp_46 4 Q _ fun tmp_47 h_tmp_47 => ?_
  refine wp_cmul L h_tmp_47 h_x1001 Q _ fun tmp_48 h_tmp_48 => ?_
  refine wp_cpow2k L h_tmp_48 6 Q _ fun tmp_49 h_tmp_49 => ?_
  refine wp_cmul L h_tmp_49 h_arg Q _ fun tmp_50 h_tmp_50 => ?_
  refine wp_cpow2k L h_tmp_50 8 Q _ fun tmp_51 h_tmp_51 => ?_
  refine wp_cmul L h_tmp_51 h_x6_2 Q _ fun tmp_52 h_tmp_52 => ?_
  exact hQ _ _ (by rw [hp]; norm_num) h_tmp_52

/-- The chain of `Invert` (crypto/core/curves/native/p256/fq/fq.go:149-268). -/
def p256FqChain (A : Arith) (arg : L4) : L4 :=
  CPow2k A arg 1 fun x10 =>
  CMul A x10 arg fun x11 =>
  CMul A x10 x11 fun x101 =>
  CMul A x10 x101 fun x111 =>
  CPow2k A x101 1 fun x1010 =>
  CMul A x101 x1010 fun x1111 =>
  CPow2k A x1010 1 fun x10101 =>
  CMul A x10101 arg fun x10101_2 =>
  CPow2k A x10101_2 1 fun x101010 =>
  CMul A x101 x101010 fun x101111 =>
  CMul A x10101_2 x101010 fun x6 =>
  CPow2k A x6 2 fun x8 =>
  CMul A x8 x11 fun x8_2 =>
  CPow2k A x8_2 8 fun x16 =>
  CMul A x16 x8_2 fun x16_2 =>
  CPow2k A x16_2 16 fun x32 =>
  CMul A x32 x16_2 fun x32_2 =>
  CPow2k A x32_2 64 fun tmp =>
  CMul A tmp x32_2 fun tmp_2 =>
  CPow2k A tmp_2 32 fun tmp_3 =>
  CMul A tmp_3 x32_2 fun tmp_4 =>
  CPow2k A tmp_4 6 fun tmp_5 =>
  CMul A tmp_5 x101111 fun tmp_6 =>
  CPow2k A tmp_6 5 fun tmp_7 =>
  CMul A tmp_7 x111 fun tmp_8 =>
  CPow2k A tmp_8 4 fun tmp_9 =>
  CMul A tmp_9 x11 fun tmp_10 =>
  CPow2k A tmp_10 5 fun tmp_11 =>
  CMul A tmp_11 x1111 fun tmp_12 =>
  CPow2k A tmp_12 5 fun tmp_13 =>
  CMul A tmp_13 x10101_2 fun tmp_14 =>
  CPow2k A tmp_14 4 fun tmp_15 =>
  CMul A tmp_15 x101 fun tmp_16 =>
  CPow2k A tmp_16 3 fun tmp_17 =>
  CMul A tmp_17 x101 fun tmp_18 =>
  CPow2k A tmp_18 3 fun tmp_19 =>
  CMul A tmp_19 x101 fun tmp_20 =>
  CPow2k A tmp_20 5 fun tmp_21 =>
  CMul A tmp_21 x111 fun tmp_22 =>
  CPow2k A tmp_22 9 fun tmp_23 =>
  CMul A tmp_23 x101111 fun tmp_24 =>
  CPow2k A tmp_24 6 fun tmp_25 =>
  CMul A tmp_25 x1111 fun tmp_26 =>
  CPow2k A tmp_26 2 fun tmp_27 =>
  CMul A tmp_27 arg fun tmp_28 =>
  CPow2k A tmp_28 5 fun tmp_29 =>
  CMul A tmp_29 arg fun tmp_30 =>
  CPow2k A tmp_30 6 fun tmp_31 =>
  CMul A tmp_31 x1111 fun tmp_32 =>
  CPow2k A tmp_32 5 fun tmp_33 =>
  CMul A tmp_33 x111 fun tmp_34 =>
  CPow2k A tmp_34 4 fun tmp_35 =>
  CMul A tmp_35 x111 fun tmp_36 =>
  CPow2k A tmp_36 5 fun tmp_37 =>
  CMul A tmp_37 x111 fun tmp_38 =>
  CPow2k A tmp_38 5 fun tmp_39 =>
  CMul A tmp_39 x101 fun tmp_40 =>
  CPow2k A tmp_40 3 fun tmp_41 =>
  CMul A tmp_41 x11 fun tmp_42 =>
  CPow2k A tmp_42 10 fun tmp_43 =>
  CMul A tmp_43 x101111 fun tmp_44 =>
  CPow2k A tmp_44 2 fun tmp_45 =>
  CMul A tmp_45 x11 fun tmp_46 =>
  CPow2k A tmp_46 5 fun tmp_47 =>
  CMul A tmp_47 x11 fun tmp_48 =>
  CPow2k A tmp_48 5 fun tmp_49 =>
  CMul A tmp_49 x11 fun tmp_50 =>
  CPow2k A tmp_50 3 fun tmp_51 =>
  CMul A tmp_51 arg fun tmp_52 =>
  CPow2k A tmp_52 7 fun tmp_53 =>
  CMul A tmp_53 x10101_2 fun tmp_54 =>
  CPow2k A tmp_54 6 fun tmp_55 =>
  CMul A tmp_55 x1111 fun tmp_56 =>
  tmp_56

theorem p256FqChain_spec {A : Arith} {P : Params} {p : Nat} (L : Lawful A P p)
    (hp : p = 115792089210356248762697446949407573529996955224135760342422259061068512044369)
    {arg : L4} {x : ZMod p} (h : Rep p arg x) : Rep p (p256FqChain A arg) (x ^ (p - 2)) := by
  suffices H : ∀ Q : L4 → Prop, (∀ r (n : Nat), n = p - 2 → Rep p r (x ^ n) → Q r) → Q (p256FqChain A arg) from
    H _ (fun r n hn hr => hn ▸ hr)
  intro Q hQ
  have h_arg : Rep p arg (x ^ 1) := by rw [pow_one]; exact h
  unfold p256FqChain
  refine wp_cpow2k L h_arg 1 Q _ fun x10 h_x10 => ?_
  refine wp_cmul L h_x10 h_arg Q _ fun x11 h_x11 => ?_
  refine wp_cmul L h_x10 h_x11 Q _ fun x101 h_x101 => ?_
  refine wp_cmul L h_x10 h_x101 Q _ fun x111 h_x111 => ?_
  refine wp_cpow2k L h_x101 1 Q _ fun x1010 h_x1010 => ?_
  refine wp_cmul L h_x101 h_x1010 Q _ fun x1111 h_x1111 => ?_
  refine wp_cpow2k L h_x1010 1 Q _ fun x10101 h_x10101 => ?_
  refine wp_cmul L h_x10101 h_arg Q _ fun x10101_2 h_x10101_2 => ?_
  refine wp_cpow2k L h_x10101_2 1 Q _ fun x101010 h_x101010 => ?_
  refine wp_cmul L h_x101 h_x101010 Q _ fun x101111 h_x101111 => ?_
  refine wp_cmul L h_x10101_2 h_x101010 Q _ fun x6 h_x6 => ?_
  refine wp_cpow2k L h_x6 2 Q _ fun x8 h_x8 => ?_
  refine wp_cmul L h_x8 h_x11 Q _ fun x8_2 h_x8_2 => ?_
  refine wp_cpow2k L h_x8_2 8 Q _ fun x16 h_x16 => ?_
  refine wp_cmul L h_x16 h_x8_2 Q _ fun x16_2 h_x16_2 => ?_
  refine wp_cpow2k L h_x16_2 16 Q _ fun x32 h_x32 => ?_
  refine wp_cmul L h_x32 h_x16_2 Q _ fun x32_2 h_x32_2 => ?_
  refine wp_cpow2k L h_x32_2 64 Q _ fun tmp h_tmp => ?_
  refine wp_cmul L h_tmp h_x32_2 Q _ fun tmp_2 h_tmp_2 => ?_
  refine wp_cpow2k L h_tmp_2 32 Q _ fun tmp_3 h_tmp_3 => ?_
  refine wp_cmul L h_tmp_3 h_x32_2 Q _ fun tmp_4 h_tmp_4 => ?_
  refine wp_cpow2k L h_tmp_4 6 Q _ fun tmp_5 h_tmp_5 => ?_
  refine wp_cmul L h_tmp_5 h_x101111 Q _ fun tmp_6 h_tmp_6 => ?_
  refine wp_cpow2k L h_tmp_6 5 Q _ fun tmp_7 h_tmp_7 => ?_
  refine wp_cmul L h_tmp_7 h_x111 Q _ fun tmp_8 h_tmp_8 => ?_
  refine wp_cpow2k L h_tmp_8 4 Q _ fun tmp_9 h_tmp_9 => ?_
  refine wp_cmul L h_tmp_9 h_x11 Q _ fun tmp_10 h_tmp_10 => ?_
  refine wp_cpow2k L h_tmp_10 5 Q _ fun tmp_11 h_tmp_11 => ?_
  refine wp_cmul L h_tmp_11 h_x1111 Q _ fun tmp_12 h_tmp_12 => ?_
  refine wp_cpow2k L h_tmp_12 5 Q _ fun tmp_13 h_tmp_13 => ?_
  refine wp_cmul L h_tmp_13 h_x10101_2 Q _ fun tmp_14 h_tmp_14 => ?_
  refine wp_cpow2k L h_tmp_14 4 Q _ fun tmp_15 h_tmp_15 => ?_
  refine wp_cmul L h_tmp_15 h_x101 Q _ fun tmp_16 h_tmp_16 => ?_
  refine wp_cpow2k L h_tmp_16 3 Q _ fun tmp_17 h_tmp_17 => ?_
  refine wp_cmul L h_tmp_17 h_x101 Q _ fun tmp_18 h_tmp_18 => ?_
  refine wp_cpow2k L h_tmp_18 3 Q _ fun tmp_19 h_tmp_19 => ?_
  refine wp_cmul L h_tmp_19 h_x101 Q _ fun tmp_20 h_tmp_20 => ?_
  refine wp_cpow2k L h_tmp_20 5 Q _ fun tmp_21 h_tmp_21 => ?_
  refine wp_cmul L h_tmp_21 h_x111 Q _ fun tmp_22 h_tmp_22 => ?_
  refine wp_cpow2k L h_tmp_22 9 Q _ fun tmp_23 h_tmp_23 => ?_
  refine wp_cmul L h_tmp_23 h_x101111 Q _ fun tmp_24 h_tmp_24 => ?_
  refine wp_cpow2k L h_tmp_24 6 Q _ fun tmp_25 h_tmp_25 => ?_
  refine wp_cmul L h_tmp_25 h_x1111 Q _ fun tmp_26 h_tmp_26 => ?_
  refine wp_cpow2k L h_tmp_26 2 Q _ fun tmp_27 h_tmp_27 => ?_
  refine wp_cmul L h_tmp_27 h_arg Q _ fun tmp_28 h_tmp_28 => ?_
  refine wp_cpow2k L h_tmp_28 5 Q _ fun tmp_29 h_tmp_29 => ?_
  refine wp_cmul L h_tmp_29 h_arg Q _ fun tmp_30 h_tmp_30 => ?_
  refine wp_cpow2k L h_tmp_30 6 Q _ fun tmp_31 h_tmp_31 => ?_
  refine wp_cmul L h_tmp_31 h_x1111 Q _ fun tmp_32 h_tmp_32 => ?_
  refine wp_cpow2k L h_tmp_32 5 Q _ fun tmp_33 h_tmp_33 => ?_
  refine wp_cmul L h_tmp_33 h_x111 Q _ fun tmp_34 h_tmp_34 => ?_
  refine wp_cpow2k L h_tmp_34 4 Q _ fun tmp_35 h_tmp_35 => ?_
  refine wp_cmul L h_tmp_35 h_x111 Q _ fun tmp_36 h_tmp_36 => ?_
  refine wp_cpow2k L h_tmp_36 5 Q _ fun tmp_37 h_tmp_37 => ?_
  refine wp_cmul L h_tmp_37 h_x111 Q _ fun tmp_38 h_tmp_38 => ?_
  refine wp_cpow2k L h_tmp_38 5 Q _ fun tmp_39 h_tmp_39 => ?_
  refine wp_cmul L h_tmp_39 h_x101 Q _ fun tmp_40 h_tmp_40 => ?_
  refine wp_cpow2k L h_tmp_40 3 Q _ fun tmp_41 h_tmp_41 => ?_
  refine wp_cmul L h_tmp_41 h_x11 Q _ fun tmp_42 h_tmp_42 => ?_
  refine wp_cpow2k L h_tmp_42 10 Q _ fun tmp_43 h_tmp_43 => ?_
  refine wp_cmul L h_tmp_43 h_x101111 Q _ fun tmp_44 h_tmp_44 => ?_
  refine wp_cpow2k L h_tmp_44 2 Q _ fun tmp_45 h_tmp_45 => ?_
  refine wp_cmul L h_tmp_45 h_x11 Q _ fun tmp_46 h_tmp_46 => ?_
  refine wp_cpow2k L h_tmp_46 5 Q _ fun tmp_47 h_tmp_47 => ?_
  refine wp_cmul L h_tmp_47 h_x11 Q _ fun tmp_48 h_tmp_48 => ?_
  refine wp_cpow2k L h_tmp_48 5 Q _ fun tmp_49 h_tmp_49 => ?_
  refine wp_cmul L h_tmp_49 h_x11 Q _ fun tmp_50 h_tmp_50 => ?_
  refine wp_cpow2k L h_tmp_50 3 Q _ fun tmp_51 h_tmp_51 => ?_
  refine wp_cmul L h_tmp_51 h_arg Q _ fun tmp_52 h_tmp_52 => ?_
  refine wp_cpow2k L h_tmp_52 7 Q _ fun tmp_53 h_tmp_53 => ?_
  refine wp_cmul L h_tmp_53 h_x10101_2 Q _ fun tmp_54 h_tmp_54 => ?_
  refine wp_cpow2k L h_tmp_54 6 Q _ fun tmp_55 h_tmp_55 => ?_
  refine wp_cmul L h_tmp_55 h_x1111 Q _ fun tmp_56 h_tmp_56 => ?_
  exact hQ _ _ (by rw [hp]; norm_num) h_tmp_56

end Verif.Native
