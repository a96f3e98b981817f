import Verif.Native.Chains

/-!
# Addition chain of `Invert` in `crypto/core/curves/native/bls12381/fq.go` (generated by `tools/goblschain.py`)

One instruction per Go statement between the declarations and the computation of `wasInverted`; it computes `arg^(q-2)`.
-/

set_option maxRecDepth 100000

namespace Verif.Bls381
open Verif.Native

/-- `f.Square(&out, &a)` followed by the rest of the function. -/
def CSq {β : Type} (A : Arith) (a : L4) (k : L4 → β) : β := k (A.square a)

theorem wp_csq {A : Arith} {P : Params} {p : Nat} (L : Lawful A P p) {β : Type} {x : ZMod p} {a : L4} {m : Nat}
    (ha : Rep p a (x ^ m)) (Q : β → Prop) (k : L4 → β) (hk : ∀ r, Rep p r (x ^ (m + m)) → Q (k r)) : Q (CSq A a k) := by
  refine hk _ ?_
  rw [pow_add]
  exact C50_square L ha

/-- The chain of `Invert` (crypto/core/curves/native/bls12381/fq.go:257-347). -/
def fqChain (A : Arith) (arg : L4) : L4 :=
  CSq A arg fun t0 =>
  CMul A t0 arg fun t1 =>
  CSq A t0 fun t16 =>
  CSq A t16 fun t6 =>
  CMul A t6 t0 fun t5 =>
  CMul A t6 t16 fun t0_2 =>
  CMul A t5 t16 fun t12 =>
  CSq A t6 fun t2 =>
  CMul A t5 t6 fun t7 =>
  CMul A t0_2 t5 fun t15 =>
  CSq A t12 fun t17 =>
  CMul A t1 t17 fun t1_2 =>
  CMul A t7 t2 fun t3 =>
  CMul A t1_2 t17 fun t8 =>
  CMul A t8 t2 fun t4 =>
  CMul A t8 t7 fun t9 =>
  CMul A t4 t5 fun t7_2 =>
  CMul A t4 t17 fun t11 =>
  CMul A t9 t17 fun t5_2 =>
  CMul A t7_2 t15 fun t14 =>
  CMul A t11 t12 fun t13 =>
  CMul A t11 t17 fun t12_2 =>
  CMul A t15 t12_2 fun t15_2 =>
  CMul A t16 t15_2 fun t16_2 =>
  CMul A t3 t16_2 fun t3_2 =>
  CMul A t17 t3_2 fun t17_2 =>
  CMul A t0_2 t17_2 fun t0_3 =>
  CMul A t6 t0_3 fun t6_2 =>
  CMul A t2 t6_2 fun t2_2 =>
  CPow2k A t0_3 8 fun t0_4 =>
  CMul A t0_4 t17_2 fun t0_5 =>
  CPow2k A t0_5 9 fun t0_6 =>
  CMul A t0_6 t16_2 fun t0_7 =>
  CPow2k A t0_7 9 fun t0_8 =>
  CMul A t0_8 t15_2 fun t0_9 =>
  CPow2k A t0_9 9 fun t0_10 =>
  CMul A t0_10 t15_2 fun t0_11 =>
  CPow2k A t0_11 7 fun t0_12 =>
  CMul A t0_12 t14 fun t0_13 =>
  CPow2k A t0_13 7 fun t0_14 =>
  CMul A t0_14 t13 fun t0_15 =>
  CPow2k A t0_15 10 fun t0_16 =>
  CMul A t0_16 t12_2 fun t0_17 =>
  CPow2k A t0_17 9 fun t0_18 =>
  CMul A t0_18 t11 fun t0_19 =>
  CPow2k A t0_19 8 fun t0_20 =>
  CMul A t0_20 t8 fun t0_21 =>
  CPow2k A t0_21 8 fun t0_22 =>
  CMul A t0_22 arg fun t0_23 =>
  CPow2k A t0_23 14 fun t0_24 =>
  CMul A t0_24 t9 fun t0_25 =>
  CPow2k A t0_25 10 fun t0_26 =>
  CMul A t0_26 t8 fun t0_27 =>
  CPow2k A t0_27 15 fun t0_28 =>
  CMul A t0_28 t7_2 fun t0_29 =>
  CPow2k A t0_29 10 fun t0_30 =>
  CMul A t0_30 t6_2 fun t0_31 =>
  CPow2k A t0_31 8 fun t0_32 =>
  CMul A t0_32 t5_2 fun t0_33 =>
  CPow2k A t0_33 16 fun t0_34 =>
  CMul A t0_34 t3_2 fun t0_35 =>
  CPow2k A t0_35 8 fun t0_36 =>
  CMul A t0_36 t2_2 fun t0_37 =>
  CPow2k A t0_37 7 fun t0_38 =>
  CMul A t0_38 t4 fun t0_39 =>
  CPow2k A t0_39 9 fun t0_40 =>
  CMul A t0_40 t2_2 fun t0_41 =>
  CPow2k A t0_41 8 fun t0_42 =>
  CMul A t0_42 t3_2 fun t0_43 =>
  CPow2k A t0_43 8 fun t0_44 =>
  CMul A t0_44 t2_2 fun t0_45 =>
  CPow2k A t0_45 8 fun t0_46 =>
  CMul A t0_46 t2_2 fun t0_47 =>
  CPow2k A t0_47 8 fun t0_48 =>
  CMul A t0_48 t2_2 fun t0_49 =>
  CPow2k A t0_49 8 fun t0_50 =>
  CMul A t0_50 t3_2 fun t0_51 =>
  CPow2k A t0_51 8 fun t0_52 =>
  CMul A t0_52 t2_2 fun t0_53 =>
  CPow2k A t0_53 8 fun t0_54 =>
  CMul A t0_54 t2_2 fun t0_55 =>
  CPow2k A t0_55 5 fun t0_56 =>
  CMul A t0_56 t1_2 fun t0_57 =>
  CPow2k A t0_57 5 fun t0_58 =>
  CMul A t0_58 t1_2 fun t0_59 =>
  t0_59

theorem fqChain_spec {A : Arith} {P : Params} {p : Nat} (L : Lawful A P p)
    (hp : p = 52435875175126190479447740508185965837690552500527637822603658699938581184513)
    {arg : L4} {x : ZMod p} (h : Rep p arg x) : Rep p (fqChain A arg) (x ^ (p - 2)) := by
  suffices H : ∀ Q : L4 → Prop, (∀ r (n : Nat), n = p - 2 → Rep p r (x ^ n) → Q r) → Q (fqChain A arg) from
    H _ (fun r n hn hr => hn ▸ hr)
  intro Q hQ
  have h_arg : Rep p arg (x ^ 1) := by rw [pow_one]; exact h
  unfold fqChain
  refine wp_csq L h_arg Q _ fun t0 h_t0 => ?_
  refine wp_cmul L h_t0 h_arg Q _ fun t1 h_t1 => ?_
  refine wp_csq L h_t0 Q _ fun t16 h_t16 => ?_
  refine wp_csq L h_t16 Q _ fun t6 h_t6 => ?_
  refine wp_cmul L h_t6 h_t0 Q _ fun t5 h_t5 => ?_
  refine wp_cmul L h_t6 h_t16 Q _ fun t0_2 h_t0_2 => ?_
  refine wp_cmul L h_t5 h_t16 Q _ fun t12 h_t12 => ?_
  refine wp_csq L h_t6 Q _ fun t2 h_t2 => ?_
  refine wp_cmul L h_t5 h_t6 Q _ fun t7 h_t7 => ?_
  refine wp_cmul L h_t0_2 h_t5 Q _ fun t15 h_t15 => ?_
  refine wp_csq L h_t12 Q _ fun t17 h_t17 => ?_
  refine wp_cmul L h_t1 h_t17 Q _ fun t1_2 h_t1_2 => ?_
  refine wp_cmul L h_t7 h_t2 Q _ fun t3 h_t3 => ?_
  refine wp_cmul L h_t1_2 h_t17 Q _ fun t8 h_t8 => ?_
  refine wp_cmul L h_t8 h_t2 Q _ fun t4 h_t4 => ?_
  refine wp_cmul L h_t8 h_t7 Q _ fun t9 h_t9 => ?_
  refine wp_cmul L h_t4 h_t5 Q _ fun t7_2 h_t7_2 => ?_
  refine wp_cmul L h_t4 h_t17 Q _ fun t11 h_t11 => ?_
  refine wp_cmul L h_t9 h_t17 Q _ fun t5_2 h_t5_2 => ?_
  refine wp_cmul L h_t7_2 h_t15 Q _ fun t14 h_t14 => ?_
  refine wp_cmul L h_t11 h_t12 Q _ fun t13 h_t13 => ?_
  refine wp_cmul L h_t11 h_t17 Q _ fun t12_2 h_t12_2 => ?_
  refine wp_cmul L h_t15 h_t12_2 Q _ fun t15_2 h_t15_2 => ?_
  refine wp_cmul L h_t16 h_t15_2 Q _ fun t16_2 h_t16_2 => ?_
  refine wp_cmul L h_t3 h_t16_2 Q _ fun t3_2 h_t3_2 => ?_
  refine wp_cmul L h_t17 h_t3_2 Q _ fun t17_2 h_t17_2 => ?_
  refine wp_cmul L h_t0_2 h_t17_2 Q _ fun t0_3 h_t0_3 => ?_
  refine wp_cmul L h_t6 h_t0_3 Q _ fun t6_2 h_t6_2 => ?_
  refine wp_cmul L h_t2 h_t6_2 Q _ fun t2_2 h_t2_2 => ?_
  refine wp_cpow2k L h_t0_3 8 Q _ fun t0_4 h_t0_4 => ?_
  refine wp_cmul L h_t0_4 h_t17_2 Q _ fun t0_5 h_t0_5 => ?_
  refine wp_cpow2k L h_t0_5 9 Q _ fun t0_6 h_t0_6 => ?_
  refine wp_cmul L h_t0_6 h_t16_2 Q _ fun t0_7 h_t0_7 => ?_
  refine wp_cpow2k L h_t0_7 9 Q _ fun t0_8 h_t0_8 => ?_
  refine wp_cmul L h_t0_8 h_t15_2 Q _ fun t0_9 h_t0_9 => ?_
  refine wp_cpow2k L h_t0_9 9 Q _ fun t0_10 h_t0_10 => ?_
  refine wp_cmul L h_t0_10 h_t15_2 Q _ fun t0_11 h_t0_11 => ?_
  refine wp_cpow2k L h_t0_11 7 Q _ fun t0_12 h_t0_12 => ?_
  refine wp_cmul L h_t0_12 h_t14 Q _ fun t0_13 h_t0_13 => ?_
  refine wp_cpow2k L h_t0_13 7 Q _ fun t0_14 h_t0_14 => ?_
  refine wp_cmul L h_t0_14 h_t13 Q _ fun t0_15 h_t0_15 => ?_
  refine wp_cpow2k L h_t0_15 10 Q _ fun t0_16 h_t0_16 => ?_
  refine wp_cmul L h_t0_16 h_t12_2 Q _ fun t0_17 h_t0_17 => ?_
  refine wp_cpow2k L h_t0_17 9 Q _ fun t0_18 h_t0_18 => ?_
  refine wp_cmul L h_t0_18 h_t11 Q _ fun t0_19 h_t0_19 => ?_
  refine wp_cpow2k L h_t0_19 8 Q _ fun t0_20 h_t0_20 => ?_
  refine wp_cmul L h_t0_20 h_t8 Q _ fun t0_21 h_t0_21 => ?_
  refine wp_cpow2k L h_t0_21 8 Q _ fun t0_22 h_t0_22 => ?_
  refine wp_cmul L h_t0_22 h_arg Q _ fun t0_23 h_t0_23 => ?_
  refine wp_cpow2k L h_t0_23 14 Q _ fun t0_24 h_t0_24 => ?_
  refine wp_cmul L h_t0_24 h_t9 Q _ fun t0_25 h_t0_25 => ?_
  refine wp_cpow2k L h_t0_25 10 Q _ fun t0_26 h_t0_26 => ?_
  refine wp_cmul L h_t0_26 h_t8 Q _ fun t0_27 h_t0_27 => ?_
  refine wp_cpow2k L h_t0_27 15 Q _ fun t0_28 h_t0_28 => ?_
  refine wp_cmul L h_t0_28 h_t7_2 Q _ fun t0_29 h_t0_29 => ?_
  refine wp_cpow2k L h_t0_29 10 Q _ fun t0_30 h_t0_30 => ?_
  refine wp_cmul L h_t0_30 h_t6_2 Q _ fun t0_31 h_t0_31 => ?_
  refine wp_cpow2k L h_t0_31 8 Q _ fun t0_32 h_t0_32 => ?_
  refine wp_cmul L h_t0_32 h_t5_2 Q _ fun t0_33 h_t0_33 => ?_
  refine wp_cpow2k L h_t0_33 16 Q _ fun t0_34 h_t0_34 => ?_
  refine wp_cmul L h_t0_34 h_t3_2 Q _ fun t0_35 h_t0_35 => ?_
  refine wp_cpow2k L h_t0_35 8 Q _ fun t0_36 h_t0_36 => ?_
  refine wp_cmul L h_t0_36 h_t2_2 Q _ fun t0_37 h_t0_37 => ?_
  refine wp_cpow2k L h_t0_37 7 Q _ fun t0_38 h_t0_38 => ?_
  refine wp_cmul L h_t0_38 h_t4 Q _ fun t0_39 h_t0_39 => ?_
  refine wp_cpow2k L h_t0_39 9 Q _ fun t0_40 h_t0_40 => ?_
  refine wp_cmul L h_t0_40 h_t2_2 Q _ fun t0_41 h_t0_41 => ?_
  refine wp_cpow2k L h_t0_41 8 Q _ fun t0_42 h_t0_42 => ?_
  refine wp_cmul L h_t0_42 h_t3_2 Q _ fun t0_43 h_t0_43 => ?_
  refine wp_cpow2k L h_t0_43 8 Q _ fun t0_44 h_t0_44 => ?_
  refine wp_cmul L h_t0_44 h_t2_2 Q _ fun t0_45 h_t0_45 => ?_
  refine wp_cpow2k L h_t0_45 8 Q _ fun t0_46 h_t0_46 => ?_
  refine wp_cmul L h_t0_46 h_t2_2 Q _ fun t0_47 h_t0_47 => ?_
  refine wp_cpow2k L h_t0_47 8 Q _ fun t0_48 h_t0_48 => ?_
  refine wp_cmul L h_t0_48 h_t2_2 Q _ fun t0_49 h_t0_49 => ?_
  refine wp_cpow2k L h_t0_49 8 Q _ fun t0_50 h_t0_50 => ?_
  refine wp_cmul L h_t0_50 h_t3_2 Q _ fun t0_51 h_t0_51 => ?_
  refine wp_cpow2k L h_t0_51 8 Q _ fun t0_52 h_t0_52 => ?_
  refine wp_cmul L h_t0_52 h_t2_2 Q _ fun t0_53 h_t0_53 => ?_
  refine wp_cpow2k L h_t0_53 8 Q _ fun t0_54 h_t0_54 => ?_
  refine wp_cmul L h_t0_54 h_t2_2 Q _ fun t0_55 h_t0_55 => ?_
  refine wp_cpow2k L h_t0_55 5 Q _ fun t0_56 h_t0_56 => ?_
  refine wp_cmul L h_t0_56 h_t1_2 Q _ fun t0_57 h_t0_57 => ?_
  refine wp_cpow2k L h_t0_57 5 Q _ fun t0_58 h_t0_58 => ?_
  refine wp_cmul L h_t0_58 h_t1_2 Q _ fun t0_59 h_t0_59 => ?_
  exact hQ _ _ (by rw [hp]; norm_num) h_t0_59

end Verif.Bls381
