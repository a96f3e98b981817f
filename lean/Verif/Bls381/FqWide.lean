import Verif.Bls381.Limbs

/-!
# Products and Montgomery reduction of `crypto/core/curves/native/bls12381/fq.go` (generated by `tools/gobls.py`)

Translated statement by statement; the products end where the Go code calls `montReduce`.
-/

set_option linter.unusedVariables false
set_option maxRecDepth 100000
set_option maxHeartbeats 4000000

namespace Verif.Bls381.Fq
open Verif.Native

/-- `fqModulus` (crypto/core/curves/native/bls12381/fq.go:28). -/
def modulus : L4 := ⟨0xffffffff00000001, 0x53bda402fffe5bfe, 0x3339d80809a1d805, 0x73eda753299d7d48⟩

/-- `qInv` (crypto/core/curves/native/bls12381/fq.go:22). -/
def inv : UInt64 := 0xfffffffeffffffff

/-- The double-width result of `Mul` (crypto/core/curves/native/bls12381/fq.go:128-152). -/
def mulWide (a b : L4) : L8 :=
  Mac 0 a.l0 b.l0 0 fun r0 carry =>
  Mac 0 a.l0 b.l1 carry fun r1 carry_2 =>
  Mac 0 a.l0 b.l2 carry_2 fun r2 carry_3 =>
  Mac 0 a.l0 b.l3 carry_3 fun r3 r4 =>
  Mac r1 a.l1 b.l0 0 fun r1_2 carry_4 =>
  Mac r2 a.l1 b.l1 carry_4 fun r2_2 carry_5 =>
  Mac r3 a.l1 b.l2 carry_5 fun r3_2 carry_6 =>
  Mac r4 a.l1 b.l3 carry_6 fun r4_2 r5 =>
  Mac r2_2 a.l2 b.l0 0 fun r2_3 carry_7 =>
  Mac r3_2 a.l2 b.l1 carry_7 fun r3_3 carry_8 =>
  Mac r4_2 a.l2 b.l2 carry_8 fun r4_3 carry_9 =>
  Mac r5 a.l2 b.l3 carry_9 fun r5_2 r6 =>
  Mac r3_3 a.l3 b.l0 0 fun r3_4 carry_10 =>
  Mac r4_3 a.l3 b.l1 carry_10 fun r4_4 carry_11 =>
  Mac r5_2 a.l3 b.l2 carry_11 fun r5_3 carry_12 =>
  Mac r6 a.l3 b.l3 carry_12 fun r6_2 r7 =>
  L8.mk r0 r1_2 r2_3 r3_4 r4_4 r5_3 r6_2 r7

theorem mulWide_spec (a b : L4) : (mulWide a b).zval = a.zval * b.zval := by
  suffices H : ∀ P : L8 → Prop, (∀ r : L8, r.zval = a.zval * b.zval → P r) → P (mulWide a b) from H _ (fun _ h => h)
  intro P hP
  have z0 : z 0 = 0 := rfl
  unfold mulWide
  refine wp_mac P _ _ _ _ _ fun r0 carry h_r0 => ?_
  refine wp_mac P _ _ _ _ _ fun r1 carry_2 h_r1 => ?_
  refine wp_mac P _ _ _ _ _ fun r2 carry_3 h_r2 => ?_
  refine wp_mac P _ _ _ _ _ fun r3 r4 h_r3 => ?_
  refine wp_mac P _ _ _ _ _ fun r1_2 carry_4 h_r1_2 => ?_
  refine wp_mac P _ _ _ _ _ fun r2_2 carry_5 h_r2_2 => ?_
  refine wp_mac P _ _ _ _ _ fun r3_2 carry_6 h_r3_2 => ?_
  refine wp_mac P _ _ _ _ _ fun r4_2 r5 h_r4_2 => ?_
  refine wp_mac P _ _ _ _ _ fun r2_3 carry_7 h_r2_3 => ?_
  refine wp_mac P _ _ _ _ _ fun r3_3 carry_8 h_r3_3 => ?_
  refine wp_mac P _ _ _ _ _ fun r4_3 carry_9 h_r4_3 => ?_
  refine wp_mac P _ _ _ _ _ fun r5_2 r6 h_r5_2 => ?_
  refine wp_mac P _ _ _ _ _ fun r3_4 carry_10 h_r3_4 => ?_
  refine wp_mac P _ _ _ _ _ fun r4_4 carry_11 h_r4_4 => ?_
  refine wp_mac P _ _ _ _ _ fun r5_3 carry_12 h_r5_3 => ?_
  refine wp_mac P _ _ _ _ _ fun r6_2 r7 h_r6_2 => ?_
  refine hP _ ?_
  unfold L8.zval L4.zval
  dsimp only
  linear_combination 1 * 18446744073709551616 ^ 0 * h_r0 + 2 * (18446744073709551616 ^ 0) * z0 + 1 * 18446744073709551616 ^ 1 * h_r1 + 1 * (18446744073709551616 ^ 1) * z0 + 1 * 18446744073709551616 ^ 2 * h_r2 + 1 * (18446744073709551616 ^ 2) * z0 + 1 * 18446744073709551616 ^ 3 * h_r3 + 1 * (18446744073709551616 ^ 3) * z0 + 1 * 18446744073709551616 ^ 1 * h_r1_2 + 1 * (18446744073709551616 ^ 1) * z0 + 1 * 18446744073709551616 ^ 2 * h_r2_2 + 1 * 18446744073709551616 ^ 3 * h_r3_2 + 1 * 18446744073709551616 ^ 4 * h_r4_2 + 1 * 18446744073709551616 ^ 2 * h_r2_3 + 1 * (18446744073709551616 ^ 2) * z0 + 1 * 18446744073709551616 ^ 3 * h_r3_3 + 1 * 18446744073709551616 ^ 4 * h_r4_3 + 1 * 18446744073709551616 ^ 5 * h_r5_2 + 1 * 18446744073709551616 ^ 3 * h_r3_4 + 1 * (18446744073709551616 ^ 3) * z0 + 1 * 18446744073709551616 ^ 4 * h_r4_4 + 1 * 18446744073709551616 ^ 5 * h_r5_3 + 1 * 18446744073709551616 ^ 6 * h_r6_2

/-- The double-width result of `Square` (crypto/core/curves/native/bls12381/fq.go:94-123). -/
def squareWide (a : L4) : L8 :=
  Mac 0 a.l0 a.l1 0 fun r1 carry =>
  Mac 0 a.l0 a.l2 carry fun r2 carry_2 =>
  Mac 0 a.l0 a.l3 carry_2 fun r3 r4 =>
  Mac r3 a.l1 a.l2 0 fun r3_2 carry_3 =>
  Mac r4 a.l1 a.l3 carry_3 fun r4_2 r5 =>
  Mac r5 a.l2 a.l3 0 fun r5_2 r6 =>
  Shr63 r6 fun r7 =>
  Shl1 r6 r5_2 fun r6_2 =>
  Shl1 r5_2 r4_2 fun r5_3 =>
  Shl1 r4_2 r3_2 fun r4_3 =>
  Shl1 r3_2 r2 fun r3_3 =>
  Shl1 r2 r1 fun r2_2 =>
  Shl1' r1 fun r1_2 =>
  Mac 0 a.l0 a.l0 0 fun r0 carry_4 =>
  Adc 0 r1_2 carry_4 fun r1_3 carry_5 =>
  Mac r2_2 a.l1 a.l1 carry_5 fun r2_3 carry_6 =>
  Adc 0 r3_3 carry_6 fun r3_4 carry_7 =>
  Mac r4_3 a.l2 a.l2 carry_7 fun r4_4 carry_8 =>
  Adc 0 r5_3 carry_8 fun r5_4 carry_9 =>
  Mac r6_2 a.l3 a.l3 carry_9 fun r6_3 carry_10 =>
  Adc 0 r7 carry_10 fun r7_2 drop =>
  L8.mk r0 r1_3 r2_3 r3_4 r4_4 r5_4 r6_3 r7_2

theorem squareWide_spec (a : L4) : (squareWide a).zval = a.zval * a.zval := by
  suffices H : ∀ P : L8 → Prop, (∀ r : L8, r.zval = a.zval * a.zval → P r) → P (squareWide a) from H _ (fun _ h => h)
  intro P hP
  have z0 : z 0 = 0 := rfl
  unfold squareWide
  refine wp_mac P _ _ _ _ _ fun r1 carry h_r1 => ?_
  refine wp_mac P _ _ _ _ _ fun r2 carry_2 h_r2 => ?_
  refine wp_mac P _ _ _ _ _ fun r3 r4 h_r3 => ?_
  refine wp_mac P _ _ _ _ _ fun r3_2 carry_3 h_r3_2 => ?_
  refine wp_mac P _ _ _ _ _ fun r4_2 r5 h_r4_2 => ?_
  refine wp_mac P _ _ _ _ _ fun r5_2 r6 h_r5_2 => ?_
  refine wp_shr63 P _ _ fun r7 h_r7 c_r7 => ?_
  refine wp_shl1 P _ _ _ fun r6_2 h_r6_2 => ?_
  refine wp_shl1 P _ _ _ fun r5_3 h_r5_3 => ?_
  refine wp_shl1 P _ _ _ fun r4_3 h_r4_3 => ?_
  refine wp_shl1 P _ _ _ fun r3_3 h_r3_3 => ?_
  refine wp_shl1 P _ _ _ fun r2_2 h_r2_2 => ?_
  refine wp_shl1' P _ _ fun r1_2 h_r1_2 => ?_
  refine wp_mac P _ _ _ _ _ fun r0 carry_4 h_r0 => ?_
  refine wp_adc P _ _ _ _ (.inl (by rw [z0]; norm_num)) fun r1_3 carry_5 h_r1_3 c_carry_5 => ?_
  refine wp_mac P _ _ _ _ _ fun r2_3 carry_6 h_r2_3 => ?_
  refine wp_adc P _ _ _ _ (.inl (by rw [z0]; norm_num)) fun r3_4 carry_7 h_r3_4 c_carry_7 => ?_
  refine wp_mac P _ _ _ _ _ fun r4_4 carry_8 h_r4_4 => ?_
  refine wp_adc P _ _ _ _ (.inl (by rw [z0]; norm_num)) fun r5_4 carry_9 h_r5_4 c_carry_9 => ?_
  refine wp_mac P _ _ _ _ _ fun r6_3 carry_10 h_r6_3 => ?_
  refine wp_adc P _ _ _ _ (.inl (by rw [z0]; norm_num)) fun r7_2 drop h_r7_2 c_drop => ?_
  refine hP _ ?_
  have e_r7 : z r7 = z (r6 >>> 63) := by rw [h_r7]
  have hI : z r0 + 18446744073709551616 ^ 1 * z r1_3 + 18446744073709551616 ^ 2 * z r2_3 + 18446744073709551616 ^ 3 * z r3_4 + 18446744073709551616 ^ 4 * z r4_4 + 18446744073709551616 ^ 5 * z r5_4 + 18446744073709551616 ^ 6 * z r6_3 + 18446744073709551616 ^ 7 * z r7_2 + 18446744073709551616 ^ 8 * z drop = a.zval * a.zval := by
    unfold L4.zval
    linear_combination 2 * 18446744073709551616 ^ 1 * h_r1 + 4 * (18446744073709551616 ^ 1) * z0 + 2 * 18446744073709551616 ^ 2 * h_r2 + 2 * (18446744073709551616 ^ 2) * z0 + 2 * 18446744073709551616 ^ 3 * h_r3 + 2 * (18446744073709551616 ^ 3) * z0 + 2 * 18446744073709551616 ^ 3 * h_r3_2 + 2 * (18446744073709551616 ^ 3) * z0 + 2 * 18446744073709551616 ^ 4 * h_r4_2 + 2 * 18446744073709551616 ^ 5 * h_r5_2 + 2 * (18446744073709551616 ^ 5) * z0 + 18446744073709551616 ^ 7 * e_r7 + 1 * 18446744073709551616 ^ 6 * h_r6_2 + 1 * 18446744073709551616 ^ 5 * h_r5_3 + 1 * 18446744073709551616 ^ 4 * h_r4_3 + 1 * 18446744073709551616 ^ 3 * h_r3_3 + 1 * 18446744073709551616 ^ 2 * h_r2_2 + 1 * 18446744073709551616 ^ 1 * h_r1_2 + 1 * 18446744073709551616 ^ 0 * h_r0 + 2 * (18446744073709551616 ^ 0) * z0 + 1 * 18446744073709551616 ^ 1 * h_r1_3 + 1 * (18446744073709551616 ^ 1) * z0 + 1 * 18446744073709551616 ^ 2 * h_r2_3 + 1 * 18446744073709551616 ^ 3 * h_r3_4 + 1 * (18446744073709551616 ^ 3) * z0 + 1 * 18446744073709551616 ^ 4 * h_r4_4 + 1 * 18446744073709551616 ^ 5 * h_r5_4 + 1 * (18446744073709551616 ^ 5) * z0 + 1 * 18446744073709551616 ^ 6 * h_r6_3 + 1 * 18446744073709551616 ^ 7 * h_r7_2 + 1 * (18446744073709551616 ^ 7) * z0
  have hlt : a.zval * a.zval < 18446744073709551616 ^ 8 := by
    have h1 := L4.zval_lt a
    have h0 := L4.zval_nonneg a
    calc a.zval * a.zval < 18446744073709551616 ^ 4 * 18446744073709551616 ^ 4 := mul_lt_mul'' h1 h1 h0 h0
      _ = 18446744073709551616 ^ 8 := by norm_num
  have n_r0 := z_nonneg r0
  have n_r1_3 := z_nonneg r1_3
  have n_r2_3 := z_nonneg r2_3
  have n_r3_4 := z_nonneg r3_4
  have n_r4_4 := z_nonneg r4_4
  have n_r5_4 := z_nonneg r5_4
  have n_r6_3 := z_nonneg r6_3
  have n_r7_2 := z_nonneg r7_2
  have hc0 := z_nonneg drop
  have hc : z drop = 0 := by
    rw [← hI] at hlt
    omega
  rw [hc] at hI
  unfold L8.zval
  dsimp only
  linear_combination hI

/-- `montReduce` up to the final `Sub` (crypto/core/curves/native/bls12381/fq.go:382-415). -/
def montWords (r : L8) : L4 :=
  MulLo r.l0 inv fun k =>
  Mac r.l0 k modulus.l0 0 fun drop carry =>
  Mac r.l1 k modulus.l1 carry fun r1 carry_2 =>
  Mac r.l2 k modulus.l2 carry_2 fun r2 carry_3 =>
  Mac r.l3 k modulus.l3 carry_3 fun r3 carry_4 =>
  Adc r.l4 0 carry_4 fun r4 carry2 =>
  MulLo r1 inv fun k_2 =>
  Mac r1 k_2 modulus.l0 0 fun drop_2 carry_5 =>
  Mac r2 k_2 modulus.l1 carry_5 fun r2_2 carry_6 =>
  Mac r3 k_2 modulus.l2 carry_6 fun r3_2 carry_7 =>
  Mac r4 k_2 modulus.l3 carry_7 fun r4_2 carry_8 =>
  Adc r.l5 carry2 carry_8 fun r5 carry2_2 =>
  MulLo r2_2 inv fun k_3 =>
  Mac r2_2 k_3 modulus.l0 0 fun drop_3 carry_9 =>
  Mac r3_2 k_3 modulus.l1 carry_9 fun r3_3 carry_10 =>
  Mac r4_2 k_3 modulus.l2 carry_10 fun r4_3 carry_11 =>
  Mac r5 k_3 modulus.l3 carry_11 fun r5_2 carry_12 =>
  Adc r.l6 carry2_2 carry_12 fun r6 carry2_3 =>
  MulLo r3_3 inv fun k_4 =>
  Mac r3_3 k_4 modulus.l0 0 fun drop_4 carry_13 =>
  Mac r4_3 k_4 modulus.l1 carry_13 fun rr0 carry_14 =>
  Mac r5_2 k_4 modulus.l2 carry_14 fun rr1 carry_15 =>
  Mac r6 k_4 modulus.l3 carry_15 fun rr2 carry_16 =>
  Adc r.l7 carry2_3 carry_16 fun rr3 drop_5 =>
  L4.mk rr0 rr1 rr2 rr3

/-- The words before the final subtraction: `t·2^256 = r + u·m`, below `2m`. -/
theorem montWords_spec (r : L8) (h : r.zval < 18446744073709551616 ^ 4 * 52435875175126190479447740508185965837690552500527637822603658699938581184513) :
    (montWords r).zval < 2 * 52435875175126190479447740508185965837690552500527637822603658699938581184513 ∧ ∃ U : Int, (montWords r).zval * 18446744073709551616 ^ 4 = r.zval + U * 52435875175126190479447740508185965837690552500527637822603658699938581184513 := by
  suffices H : ∀ P : L4 → Prop, (∀ t : L4, (t.zval < 2 * 52435875175126190479447740508185965837690552500527637822603658699938581184513 ∧ ∃ U : Int, t.zval * 18446744073709551616 ^ 4 = r.zval + U * 52435875175126190479447740508185965837690552500527637822603658699938581184513) → P t) →
      P (montWords r) from H _ (fun _ h => h)
  intro P hP
  have z0 : z 0 = 0 := rfl
  have m0 : z modulus.l0 = 18446744069414584321 := rfl
  have m1 : z modulus.l1 = 6034159408538082302 := rfl
  have m2 : z modulus.l2 = 3691218898639771653 := rfl
  have m3 : z modulus.l3 = 8353516859464449352 := rfl
  have hinv : (18446744073709551616 : Int) ∣ 1 + z inv * z modulus.l0 := by
    have e : z inv = 18446744069414584319 := rfl
    rw [e, m0]; norm_num
  unfold montWords
  refine wp_mulLo P _ _ _ fun k ov_k h_k => ?_
  refine wp_mac P _ _ _ _ _ fun drop carry h_drop => ?_
  refine wp_mac P _ _ _ _ _ fun r1 carry_2 h_r1 => ?_
  refine wp_mac P _ _ _ _ _ fun r2 carry_3 h_r2 => ?_
  refine wp_mac P _ _ _ _ _ fun r3 carry_4 h_r3 => ?_
  refine wp_adc P _ _ _ _ (.inr (.inl (by rw [z0]; norm_num))) fun r4 carry2 h_r4 c_carry2 => ?_
  refine wp_mulLo P _ _ _ fun k_2 ov_k_2 h_k_2 => ?_
  refine wp_mac P _ _ _ _ _ fun drop_2 carry_5 h_drop_2 => ?_
  refine wp_mac P _ _ _ _ _ fun r2_2 carry_6 h_r2_2 => ?_
  refine wp_mac P _ _ _ _ _ fun r3_2 carry_7 h_r3_2 => ?_
  refine wp_mac P _ _ _ _ _ fun r4_2 carry_8 h_r4_2 => ?_
  refine wp_adc P _ _ _ _ (.inr (.inl c_carry2)) fun r5 carry2_2 h_r5 c_carry2_2 => ?_
  refine wp_mulLo P _ _ _ fun k_3 ov_k_3 h_k_3 => ?_
  refine wp_mac P _ _ _ _ _ fun drop_3 carry_9 h_drop_3 => ?_
  refine wp_mac P _ _ _ _ _ fun r3_3 carry_10 h_r3_3 => ?_
  refine wp_mac P _ _ _ _ _ fun r4_3 carry_11 h_r4_3 => ?_
  refine wp_mac P _ _ _ _ _ fun r5_2 carry_12 h_r5_2 => ?_
  refine wp_adc P _ _ _ _ (.inr (.inl c_carry2_2)) fun r6 carry2_3 h_r6 c_carry2_3 => ?_
  refine wp_mulLo P _ _ _ fun k_4 ov_k_4 h_k_4 => ?_
  refine wp_mac P _ _ _ _ _ fun drop_4 carry_13 h_drop_4 => ?_
  refine wp_mac P _ _ _ _ _ fun rr0 carry_14 h_rr0 => ?_
  refine wp_mac P _ _ _ _ _ fun rr1 carry_15 h_rr1 => ?_
  refine wp_mac P _ _ _ _ _ fun rr2 carry_16 h_rr2 => ?_
  refine wp_adc P _ _ _ _ (.inr (.inl c_carry2_3)) fun rr3 drop_5 h_rr3 c_drop_5 => ?_
  have e_drop : z drop = 0 := drop_zero hinv h_k z0 h_drop
  have e_drop_2 : z drop_2 = 0 := drop_zero hinv h_k_2 z0 h_drop_2
  have e_drop_3 : z drop_3 = 0 := drop_zero hinv h_k_3 z0 h_drop_3
  have e_drop_4 : z drop_4 = 0 := drop_zero hinv h_k_4 z0 h_drop_4
  refine hP _ ?_
  have hI : (z rr0 + 18446744073709551616 ^ 1 * z rr1 + 18446744073709551616 ^ 2 * z rr2 + 18446744073709551616 ^ 3 * z rr3 + 18446744073709551616 ^ 4 * z drop_5) * 18446744073709551616 ^ 4 = r.zval + (z k + 18446744073709551616 ^ 1 * z k_2 + 18446744073709551616 ^ 2 * z k_3 + 18446744073709551616 ^ 3 * z k_4) * 52435875175126190479447740508185965837690552500527637822603658699938581184513 := by
    unfold L8.zval
    linear_combination 18446744073709551616 ^ 0 * h_drop + 1 * (18446744073709551616 ^ 0) * z0 + 18446744073709551616 ^ 0 * z k * m0 + -(18446744073709551616 ^ 0) * e_drop + 18446744073709551616 ^ 1 * h_r1 + 18446744073709551616 ^ 1 * z k * m1 + 18446744073709551616 ^ 2 * h_r2 + 18446744073709551616 ^ 2 * z k * m2 + 18446744073709551616 ^ 3 * h_r3 + 18446744073709551616 ^ 3 * z k * m3 + 18446744073709551616 ^ 4 * h_r4 + 1 * (18446744073709551616 ^ 4) * z0 + 18446744073709551616 ^ 1 * h_drop_2 + 1 * (18446744073709551616 ^ 1) * z0 + 18446744073709551616 ^ 1 * z k_2 * m0 + -(18446744073709551616 ^ 1) * e_drop_2 + 18446744073709551616 ^ 2 * h_r2_2 + 18446744073709551616 ^ 2 * z k_2 * m1 + 18446744073709551616 ^ 3 * h_r3_2 + 18446744073709551616 ^ 3 * z k_2 * m2 + 18446744073709551616 ^ 4 * h_r4_2 + 18446744073709551616 ^ 4 * z k_2 * m3 + 18446744073709551616 ^ 5 * h_r5 + 18446744073709551616 ^ 2 * h_drop_3 + 1 * (18446744073709551616 ^ 2) * z0 + 18446744073709551616 ^ 2 * z k_3 * m0 + -(18446744073709551616 ^ 2) * e_drop_3 + 18446744073709551616 ^ 3 * h_r3_3 + 18446744073709551616 ^ 3 * z k_3 * m1 + 18446744073709551616 ^ 4 * h_r4_3 + 18446744073709551616 ^ 4 * z k_3 * m2 + 18446744073709551616 ^ 5 * h_r5_2 + 18446744073709551616 ^ 5 * z k_3 * m3 + 18446744073709551616 ^ 6 * h_r6 + 18446744073709551616 ^ 3 * h_drop_4 + 1 * (18446744073709551616 ^ 3) * z0 + 18446744073709551616 ^ 3 * z k_4 * m0 + -(18446744073709551616 ^ 3) * e_drop_4 + 18446744073709551616 ^ 4 * h_rr0 + 18446744073709551616 ^ 4 * z k_4 * m1 + 18446744073709551616 ^ 5 * h_rr1 + 18446744073709551616 ^ 5 * z k_4 * m2 + 18446744073709551616 ^ 6 * h_rr2 + 18446744073709551616 ^ 6 * z k_4 * m3 + 18446744073709551616 ^ 7 * h_rr3
  have hU : z k + 18446744073709551616 ^ 1 * z k_2 + 18446744073709551616 ^ 2 * z k_3 + 18446744073709551616 ^ 3 * z k_4 ≤ 18446744073709551616 ^ 4 - 1 := by
    have b_k := z_le k
    have b_k_2 := z_le k_2
    have b_k_3 := z_le k_3
    have b_k_4 := z_le k_4
    linarith only [b_k, b_k_2, b_k_3, b_k_4]
  have hT : z rr0 + 18446744073709551616 ^ 1 * z rr1 + 18446744073709551616 ^ 2 * z rr2 + 18446744073709551616 ^ 3 * z rr3 + 18446744073709551616 ^ 4 * z drop_5 < 2 * 52435875175126190479447740508185965837690552500527637822603658699938581184513 := by
    linarith only [hI, h, hU]
  have hd : z drop_5 = 0 := by
    have n_d := z_nonneg drop_5
    have n_rr0 := z_nonneg rr0
    have n_rr1 := z_nonneg rr1
    have n_rr2 := z_nonneg rr2
    have n_rr3 := z_nonneg rr3
    omega
  rw [hd] at hI hT
  refine ⟨?_, z k + 18446744073709551616 ^ 1 * z k_2 + 18446744073709551616 ^ 2 * z k_3 + 18446744073709551616 ^ 3 * z k_4, ?_⟩
  · unfold L4.zval; dsimp only; linarith only [hT]
  · rw [← hI]; unfold L4.zval; dsimp only; ring

end Verif.Bls381.Fq
