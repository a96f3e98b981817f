import Verif.Bls381.Limbs

/-!
# Products and Montgomery reduction of `crypto/core/curves/native/bls12381/fp.go` (generated by `tools/gobls.py`)

Translated statement by statement; the products end where the Go code calls `montReduce`.
-/

set_option linter.unusedVariables false
set_option maxRecDepth 100000
set_option maxHeartbeats 4000000

namespace Verif.Bls381.Fp
open Verif.Native

/-- `modulus` (crypto/core/curves/native/bls12381/fp.go:17-24). -/
def modulus : L6 := ⟨0xb9feffffffffaaab, 0x1eabfffeb153ffff, 0x6730d2a0f6b0f624, 0x64774b84f38512bf, 0x4b1ba7b6434bacd7, 0x1a0111ea397fe69a⟩

/-- `inv` (crypto/core/curves/native/bls12381/fp.go:65). -/
def inv : UInt64 := 0x89f3fffcfffcfffd

/-- The double-width result of `Mul` (crypto/core/curves/native/bls12381/fp.go:314-360). -/
def mulWide (a b : L6) : L12 :=
  Mac 0 a.l0 b.l0 0 fun r0 carry =>
  Mac 0 a.l0 b.l1 carry fun r1 carry_2 =>
  Mac 0 a.l0 b.l2 carry_2 fun r2 carry_3 =>
  Mac 0 a.l0 b.l3 carry_3 fun r3 carry_4 =>
  Mac 0 a.l0 b.l4 carry_4 fun r4 carry_5 =>
  Mac 0 a.l0 b.l5 carry_5 fun r5 r6 =>
  Mac r1 a.l1 b.l0 0 fun r1_2 carry_6 =>
  Mac r2 a.l1 b.l1 carry_6 fun r2_2 carry_7 =>
  Mac r3 a.l1 b.l2 carry_7 fun r3_2 carry_8 =>
  Mac r4 a.l1 b.l3 carry_8 fun r4_2 carry_9 =>
  Mac r5 a.l1 b.l4 carry_9 fun r5_2 carry_10 =>
  Mac r6 a.l1 b.l5 carry_10 fun r6_2 r7 =>
  Mac r2_2 a.l2 b.l0 0 fun r2_3 carry_11 =>
  Mac r3_2 a.l2 b.l1 carry_11 fun r3_3 carry_12 =>
  Mac r4_2 a.l2 b.l2 carry_12 fun r4_3 carry_13 =>
  Mac r5_2 a.l2 b.l3 carry_13 fun r5_3 carry_14 =>
  Mac r6_2 a.l2 b.l4 carry_14 fun r6_3 carry_15 =>
  Mac r7 a.l2 b.l5 carry_15 fun r7_2 r8 =>
  Mac r3_3 a.l3 b.l0 0 fun r3_4 carry_16 =>
  Mac r4_3 a.l3 b.l1 carry_16 fun r4_4 carry_17 =>
  Mac r5_3 a.l3 b.l2 carry_17 fun r5_4 carry_18 =>
  Mac r6_3 a.l3 b.l3 carry_18 fun r6_4 carry_19 =>
  Mac r7_2 a.l3 b.l4 carry_19 fun r7_3 carry_20 =>
  Mac r8 a.l3 b.l5 carry_20 fun r8_2 r9 =>
  Mac r4_4 a.l4 b.l0 0 fun r4_5 carry_21 =>
  Mac r5_4 a.l4 b.l1 carry_21 fun r5_5 carry_22 =>
  Mac r6_4 a.l4 b.l2 carry_22 fun r6_5 carry_23 =>
  Mac r7_3 a.l4 b.l3 carry_23 fun r7_4 carry_24 =>
  Mac r8_2 a.l4 b.l4 carry_24 fun r8_3 carry_25 =>
  Mac r9 a.l4 b.l5 carry_25 fun r9_2 r10 =>
  Mac r5_5 a.l5 b.l0 0 fun r5_6 carry_26 =>
  Mac r6_5 a.l5 b.l1 carry_26 fun r6_6 carry_27 =>
  Mac r7_4 a.l5 b.l2 carry_27 fun r7_5 carry_28 =>
  Mac r8_3 a.l5 b.l3 carry_28 fun r8_4 carry_29 =>
  Mac r9_2 a.l5 b.l4 carry_29 fun r9_3 carry_30 =>
  Mac r10 a.l5 b.l5 carry_30 fun r10_2 r11 =>
  L12.mk r0 r1_2 r2_3 r3_4 r4_5 r5_6 r6_6 r7_5 r8_4 r9_3 r10_2 r11

theorem mulWide_spec (a b : L6) : (mulWide a b).zval = a.zval * b.zval := by
  suffices H : ∀ P : L12 → Prop, (∀ r : L12, r.zval = a.zval * b.zval → P r) → P (mulWide a b) from H _ (fun _ h => h)
  intro P hP
  have z0 : z 0 = 0 := rfl
  unfold mulWide
  refine wp_mac P _ _ _ _ _ fun r0 carry h_r0 => ?_
  refine wp_mac P _ _ _ _ _ fun r1 carry_2 h_r1 => ?_
  refine wp_mac P _ _ _ _ _ fun r2 carry_3 h_r2 => ?_
  refine wp_mac P _ _ _ _ _ fun r3 carry_4 h_r3 => ?_
  refine wp_mac P _ _ _ _ _ fun r4 carry_5 h_r4 => ?_
  refine wp_mac P _ _ _ _ _ fun r5 r6 h_r5 => ?_
  refine wp_mac P _ _ _ _ _ fun r1_2 carry_6 h_r1_2 => ?_
  refine wp_mac P _ _ _ _ _ fun r2_2 carry_7 h_r2_2 => ?_
  refine wp_mac P _ _ _ _ _ fun r3_2 carry_8 h_r3_2 => ?_
  refine wp_mac P _ _ _ _ _ fun r4_2 carry_9 h_r4_2 => ?_
  refine wp_mac P _ _ _ _ _ fun r5_2 carry_10 h_r5_2 => ?_
  refine wp_mac P _ _ _ _ _ fun r6_2 r7 h_r6_2 => ?_
  refine wp_mac P _ _ _ _ _ fun r2_3 carry_11 h_r2_3 => ?_
  refine wp_mac P _ _ _ _ _ fun r3_3 carry_12 h_r3_3 => ?_
  refine wp_mac P _ _ _ _ _ fun r4_3 carry_13 h_r4_3 => ?_
  refine wp_mac P _ _ _ _ _ fun r5_3 carry_14 h_r5_3 => ?_
  refine wp_mac P _ _ _ _ _ fun r6_3 carry_15 h_r6_3 => ?_
  refine wp_mac P _ _ _ _ _ fun r7_2 r8 h_r7_2 => ?_
  refine wp_mac P _ _ _ _ _ fun r3_4 carry_16 h_r3_4 => ?_
  refine wp_mac P _ _ _ _ _ fun r4_4 carry_17 h_r4_4 => ?_
  refine wp_mac P _ _ _ _ _ fun r5_4 carry_18 h_r5_4 => ?_
  refine wp_mac P _ _ _ _ _ fun r6_4 carry_19 h_r6_4 => ?_
  refine wp_mac P _ _ _ _ _ fun r7_3 carry_20 h_r7_3 => ?_
  refine wp_mac P _ _ _ _ _ fun r8_2 r9 h_r8_2 => ?_
  refine wp_mac P _ _ _ _ _ fun r4_5 carry_21 h_r4_5 => ?_
  refine wp_mac P _ _ _ _ _ fun r5_5 carry_22 h_r5_5 => ?_
  refine wp_mac P _ _ _ _ _ fun r6_5 carry_23 h_r6_5 => ?_
  refine wp_mac P _ _ _ _ _ fun r7_4 carry_24 h_r7_4 => ?_
  refine wp_mac P _ _ _ _ _ fun r8_3 carry_25 h_r8_3 => ?_
  refine wp_mac P _ _ _ _ _ fun r9_2 r10 h_r9_2 => ?_
  refine wp_mac P _ _ _ _ _ fun r5_6 carry_26 h_r5_6 => ?_
  refine wp_mac P _ _ _ _ _ fun r6_6 carry_27 h_r6_6 => ?_
  refine wp_mac P _ _ _ _ _ fun r7_5 carry_28 h_r7_5 => ?_
  refine wp_mac P _ _ _ _ _ fun r8_4 carry_29 h_r8_4 => ?_
  refine wp_mac P _ _ _ _ _ fun r9_3 carry_30 h_r9_3 => ?_
  refine wp_mac P _ _ _ _ _ fun r10_2 r11 h_r10_2 => ?_
  refine hP _ ?_
  unfold L12.zval L6.zval
  dsimp only
  linear_combination 1 * 18446744073709551616 ^ 0 * h_r0 + 2 * (18446744073709551616 ^ 0) * z0 + 1 * 18446744073709551616 ^ 1 * h_r1 + 1 * (18446744073709551616 ^ 1) * z0 + 1 * 18446744073709551616 ^ 2 * h_r2 + 1 * (18446744073709551616 ^ 2) * z0 + 1 * 18446744073709551616 ^ 3 * h_r3 + 1 * (18446744073709551616 ^ 3) * z0 + 1 * 18446744073709551616 ^ 4 * h_r4 + 1 * (18446744073709551616 ^ 4) * z0 + 1 * 18446744073709551616 ^ 5 * h_r5 + 1 * (18446744073709551616 ^ 5) * z0 + 1 * 18446744073709551616 ^ 1 * h_r1_2 + 1 * (18446744073709551616 ^ 1) * z0 + 1 * 18446744073709551616 ^ 2 * h_r2_2 + 1 * 18446744073709551616 ^ 3 * h_r3_2 + 1 * 18446744073709551616 ^ 4 * h_r4_2 + 1 * 18446744073709551616 ^ 5 * h_r5_2 + 1 * 18446744073709551616 ^ 6 * h_r6_2 + 1 * 18446744073709551616 ^ 2 * h_r2_3 + 1 * (18446744073709551616 ^ 2) * z0 + 1 * 18446744073709551616 ^ 3 * h_r3_3 + 1 * 18446744073709551616 ^ 4 * h_r4_3 + 1 * 18446744073709551616 ^ 5 * h_r5_3 + 1 * 18446744073709551616 ^ 6 * h_r6_3 + 1 * 18446744073709551616 ^ 7 * h_r7_2 + 1 * 18446744073709551616 ^ 3 * h_r3_4 + 1 * (18446744073709551616 ^ 3) * z0 + 1 * 18446744073709551616 ^ 4 * h_r4_4 + 1 * 18446744073709551616 ^ 5 * h_r5_4 + 1 * 18446744073709551616 ^ 6 * h_r6_4 + 1 * 18446744073709551616 ^ 7 * h_r7_3 + 1 * 18446744073709551616 ^ 8 * h_r8_2 + 1 * 18446744073709551616 ^ 4 * h_r4_5 + 1 * (18446744073709551616 ^ 4) * z0 + 1 * 18446744073709551616 ^ 5 * h_r5_5 + 1 * 18446744073709551616 ^ 6 * h_r6_5 + 1 * 18446744073709551616 ^ 7 * h_r7_4 + 1 * 18446744073709551616 ^ 8 * h_r8_3 + 1 * 18446744073709551616 ^ 9 * h_r9_2 + 1 * 18446744073709551616 ^ 5 * h_r5_6 + 1 * (18446744073709551616 ^ 5) * z0 + 1 * 18446744073709551616 ^ 6 * h_r6_6 + 1 * 18446744073709551616 ^ 7 * h_r7_5 + 1 * 18446744073709551616 ^ 8 * h_r8_4 + 1 * 18446744073709551616 ^ 9 * h_r9_3 + 1 * 18446744073709551616 ^ 10 * h_r10_2

/-- The double-width result of `Square` (crypto/core/curves/native/bls12381/fp.go:256-304). -/
def squareWide (a : L6) : L12 :=
  Mac 0 a.l0 a.l1 0 fun r1 carry =>
  Mac 0 a.l0 a.l2 carry fun r2 carry_2 =>
  Mac 0 a.l0 a.l3 carry_2 fun r3 carry_3 =>
  Mac 0 a.l0 a.l4 carry_3 fun r4 carry_4 =>
  Mac 0 a.l0 a.l5 carry_4 fun r5 r6 =>
  Mac r3 a.l1 a.l2 0 fun r3_2 carry_5 =>
  Mac r4 a.l1 a.l3 carry_5 fun r4_2 carry_6 =>
  Mac r5 a.l1 a.l4 carry_6 fun r5_2 carry_7 =>
  Mac r6 a.l1 a.l5 carry_7 fun r6_2 r7 =>
  Mac r5_2 a.l2 a.l3 0 fun r5_3 carry_8 =>
  Mac r6_2 a.l2 a.l4 carry_8 fun r6_3 carry_9 =>
  Mac r7 a.l2 a.l5 carry_9 fun r7_2 r8 =>
  Mac r7_2 a.l3 a.l4 0 fun r7_3 carry_10 =>
  Mac r8 a.l3 a.l5 carry_10 fun r8_2 r9 =>
  Mac r9 a.l4 a.l5 0 fun r9_2 r10 =>
  Shr63 r10 fun r11 =>
  Shl1 r10 r9_2 fun r10_2 =>
  Shl1 r9_2 r8_2 fun r9_3 =>
  Shl1 r8_2 r7_3 fun r8_3 =>
  Shl1 r7_3 r6_3 fun r7_4 =>
  Shl1 r6_3 r5_3 fun r6_4 =>
  Shl1 r5_3 r4_2 fun r5_4 =>
  Shl1 r4_2 r3_2 fun r4_3 =>
  Shl1 r3_2 r2 fun r3_3 =>
  Shl1 r2 r1 fun r2_2 =>
  Shl1' r1 fun r1_2 =>
  Mac 0 a.l0 a.l0 0 fun r0 carry_11 =>
  Adc 0 r1_2 carry_11 fun r1_3 carry_12 =>
  Mac r2_2 a.l1 a.l1 carry_12 fun r2_3 carry_13 =>
  Adc 0 r3_3 carry_13 fun r3_4 carry_14 =>
  Mac r4_3 a.l2 a.l2 carry_14 fun r4_4 carry_15 =>
  Adc 0 r5_4 carry_15 fun r5_5 carry_16 =>
  Mac r6_4 a.l3 a.l3 carry_16 fun r6_5 carry_17 =>
  Adc 0 r7_4 carry_17 fun r7_5 carry_18 =>
  Mac r8_3 a.l4 a.l4 carry_18 fun r8_4 carry_19 =>
  Adc 0 r9_3 carry_19 fun r9_4 carry_20 =>
  Mac r10_2 a.l5 a.l5 carry_20 fun r10_3 carry_21 =>
  Adc 0 r11 carry_21 fun r11_2 drop =>
  L12.mk r0 r1_3 r2_3 r3_4 r4_4 r5_5 r6_5 r7_5 r8_4 r9_4 r10_3 r11_2

theorem squareWide_spec (a : L6) : (squareWide a).zval = a.zval * a.zval := by
  suffices H : ∀ P : L12 → Prop, (∀ r : L12, r.zval = a.zval * a.zval → P r) → P (squareWide a) from H _ (fun _ h => h)
  intro P hP
  have z0 : z 0 = 0 := rfl
  unfold squareWide
  refine wp_mac P _ _ _ _ _ fun r1 carry h_r1 => ?_
  refine wp_mac P _ _ _ _ _ fun r2 carry_2 h_r2 => ?_
  refine wp_mac P _ _ _ _ _ fun r3 carry_3 h_r3 => ?_
  refine wp_mac P _ _ _ _ _ fun r4 carry_4 h_r4 => ?_
  refine wp_mac P _ _ _ _ _ fun r5 r6 h_r5 => ?_
  refine wp_mac P _ _ _ _ _ fun r3_2 carry_5 h_r3_2 => ?_
  refine wp_mac P _ _ _ _ _ fun r4_2 carry_6 h_r4_2 => ?_
  refine wp_mac P _ _ _ _ _ fun r5_2 carry_7 h_r5_2 => ?_
  refine wp_mac P _ _ _ _ _ fun r6_2 r7 h_r6_2 => ?_
  refine wp_mac P _ _ _ _ _ fun r5_3 carry_8 h_r5_3 => ?_
  refine wp_mac P _ _ _ _ _ fun r6_3 carry_9 h_r6_3 => ?_
  refine wp_mac P _ _ _ _ _ fun r7_2 r8 h_r7_2 => ?_
  refine wp_mac P _ _ _ _ _ fun r7_3 carry_10 h_r7_3 => ?_
  refine wp_mac P _ _ _ _ _ fun r8_2 r9 h_r8_2 => ?_
  refine wp_mac P _ _ _ _ _ fun r9_2 r10 h_r9_2 => ?_
  refine wp_shr63 P _ _ fun r11 h_r11 c_r11 => ?_
  refine wp_shl1 P _ _ _ fun r10_2 h_r10_2 => ?_
  refine wp_shl1 P _ _ _ fun r9_3 h_r9_3 => ?_
  refine wp_shl1 P _ _ _ fun r8_3 h_r8_3 => ?_
  refine wp_shl1 P _ _ _ fun r7_4 h_r7_4 => ?_
  refine wp_shl1 P _ _ _ fun r6_4 h_r6_4 => ?_
  refine wp_shl1 P _ _ _ fun r5_4 h_r5_4 => ?_
  refine wp_shl1 P _ _ _ fun r4_3 h_r4_3 => ?_
  refine wp_shl1 P _ _ _ fun r3_3 h_r3_3 => ?_
  refine wp_shl1 P _ _ _ fun r2_2 h_r2_2 => ?_
  refine wp_shl1' P _ _ fun r1_2 h_r1_2 => ?_
  refine wp_mac P _ _ _ _ _ fun r0 carry_11 h_r0 => ?_
  refine wp_adc P _ _ _ _ (.inl (by rw [z0]; norm_num)) fun r1_3 carry_12 h_r1_3 c_carry_12 => ?_
  refine wp_mac P _ _ _ _ _ fun r2_3 carry_13 h_r2_3 => ?_
  refine wp_adc P _ _ _ _ (.inl (by rw [z0]; norm_num)) fun r3_4 carry_14 h_r3_4 c_carry_14 => ?_
  refine wp_mac P _ _ _ _ _ fun r4_4 carry_15 h_r4_4 => ?_
  refine wp_adc P _ _ _ _ (.inl (by rw [z0]; norm_num)) fun r5_5 carry_16 h_r5_5 c_carry_16 => ?_
  refine wp_mac P _ _ _ _ _ fun r6_5 carry_17 h_r6_5 => ?_
  refine wp_adc P _ _ _ _ (.inl (by rw [z0]; norm_num)) fun r7_5 carry_18 h_r7_5 c_carry_18 => ?_
  refine wp_mac P _ _ _ _ _ fun r8_4 carry_19 h_r8_4 => ?_
  refine wp_adc P _ _ _ _ (.inl (by rw [z0]; norm_num)) fun r9_4 carry_20 h_r9_4 c_carry_20 => ?_
  refine wp_mac P _ _ _ _ _ fun r10_3 carry_21 h_r10_3 => ?_
  refine wp_adc P _ _ _ _ (.inl (by rw [z0]; norm_num)) fun r11_2 drop h_r11_2 c_drop => ?_
  refine hP _ ?_
  have e_r11 : z r11 = z (r10 >>> 63) := by rw [h_r11]
  have hI : z r0 + 18446744073709551616 ^ 1 * z r1_3 + 18446744073709551616 ^ 2 * z r2_3 + 18446744073709551616 ^ 3 * z r3_4 + 18446744073709551616 ^ 4 * z r4_4 + 18446744073709551616 ^ 5 * z r5_5 + 18446744073709551616 ^ 6 * z r6_5 + 18446744073709551616 ^ 7 * z r7_5 + 18446744073709551616 ^ 8 * z r8_4 + 18446744073709551616 ^ 9 * z r9_4 + 18446744073709551616 ^ 10 * z r10_3 + 18446744073709551616 ^ 11 * z r11_2 + 18446744073709551616 ^ 12 * z drop = a.zval * a.zval := by
    unfold L6.zval
    linear_combination 2 * 18446744073709551616 ^ 1 * h_r1 + 4 * (18446744073709551616 ^ 1) * z0 + 2 * 18446744073709551616 ^ 2 * h_r2 + 2 * (18446744073709551616 ^ 2) * z0 + 2 * 18446744073709551616 ^ 3 * h_r3 + 2 * (18446744073709551616 ^ 3) * z0 + 2 * 18446744073709551616 ^ 4 * h_r4 + 2 * (18446744073709551616 ^ 4) * z0 + 2 * 18446744073709551616 ^ 5 * h_r5 + 2 * (18446744073709551616 ^ 5) * z0 + 2 * 18446744073709551616 ^ 3 * h_r3_2 + 2 * (18446744073709551616 ^ 3) * z0 + 2 * 18446744073709551616 ^ 4 * h_r4_2 + 2 * 18446744073709551616 ^ 5 * h_r5_2 + 2 * 18446744073709551616 ^ 6 * h_r6_2 + 2 * 18446744073709551616 ^ 5 * h_r5_3 + 2 * (18446744073709551616 ^ 5) * z0 + 2 * 18446744073709551616 ^ 6 * h_r6_3 + 2 * 18446744073709551616 ^ 7 * h_r7_2 + 2 * 18446744073709551616 ^ 7 * h_r7_3 + 2 * (18446744073709551616 ^ 7) * z0 + 2 * 18446744073709551616 ^ 8 * h_r8_2 + 2 * 18446744073709551616 ^ 9 * h_r9_2 + 2 * (18446744073709551616 ^ 9) * z0 + 18446744073709551616 ^ 11 * e_r11 + 1 * 18446744073709551616 ^ 10 * h_r10_2 + 1 * 18446744073709551616 ^ 9 * h_r9_3 + 1 * 18446744073709551616 ^ 8 * h_r8_3 + 1 * 18446744073709551616 ^ 7 * h_r7_4 + 1 * 18446744073709551616 ^ 6 * h_r6_4 + 1 * 18446744073709551616 ^ 5 * h_r5_4 + 1 * 18446744073709551616 ^ 4 * h_r4_3 + 1 * 18446744073709551616 ^ 3 * h_r3_3 + 1 * 18446744073709551616 ^ 2 * h_r2_2 + 1 * 18446744073709551616 ^ 1 * h_r1_2 + 1 * 18446744073709551616 ^ 0 * h_r0 + 2 * (18446744073709551616 ^ 0) * z0 + 1 * 18446744073709551616 ^ 1 * h_r1_3 + 1 * (18446744073709551616 ^ 1) * z0 + 1 * 18446744073709551616 ^ 2 * h_r2_3 + 1 * 18446744073709551616 ^ 3 * h_r3_4 + 1 * (18446744073709551616 ^ 3) * z0 + 1 * 18446744073709551616 ^ 4 * h_r4_4 + 1 * 18446744073709551616 ^ 5 * h_r5_5 + 1 * (18446744073709551616 ^ 5) * z0 + 1 * 18446744073709551616 ^ 6 * h_r6_5 + 1 * 18446744073709551616 ^ 7 * h_r7_5 + 1 * (18446744073709551616 ^ 7) * z0 + 1 * 18446744073709551616 ^ 8 * h_r8_4 + 1 * 18446744073709551616 ^ 9 * h_r9_4 + 1 * (18446744073709551616 ^ 9) * z0 + 1 * 18446744073709551616 ^ 10 * h_r10_3 + 1 * 18446744073709551616 ^ 11 * h_r11_2 + 1 * (18446744073709551616 ^ 11) * z0
  have hlt : a.zval * a.zval < 18446744073709551616 ^ 12 := by
    have h1 := L6.zval_lt a
    have h0 := L6.zval_nonneg a
    calc a.zval * a.zval < 18446744073709551616 ^ 6 * 18446744073709551616 ^ 6 := mul_lt_mul'' h1 h1 h0 h0
      _ = 18446744073709551616 ^ 12 := by norm_num
  have n_r0 := z_nonneg r0
  have n_r1_3 := z_nonneg r1_3
  have n_r2_3 := z_nonneg r2_3
  have n_r3_4 := z_nonneg r3_4
  have n_r4_4 := z_nonneg r4_4
  have n_r5_5 := z_nonneg r5_5
  have n_r6_5 := z_nonneg r6_5
  have n_r7_5 := z_nonneg r7_5
  have n_r8_4 := z_nonneg r8_4
  have n_r9_4 := z_nonneg r9_4
  have n_r10_3 := z_nonneg r10_3
  have n_r11_2 := z_nonneg r11_2
  have hc0 := z_nonneg drop
  have hc : z drop = 0 := by
    rw [← hI] at hlt
    omega
  rw [hc] at hI
  unfold L12.zval
  dsimp only
  linear_combination hI

/-- `montReduce` up to the final `Sub` (crypto/core/curves/native/bls12381/fp.go:637-696). -/
def montWords (r : L12) : L6 :=
  MulLo r.l0 inv fun k =>
  Mac r.l0 k modulus.l0 0 fun drop carry =>
  Mac r.l1 k modulus.l1 carry fun r1 carry_2 =>
  Mac r.l2 k modulus.l2 carry_2 fun r2 carry_3 =>
  Mac r.l3 k modulus.l3 carry_3 fun r3 carry_4 =>
  Mac r.l4 k modulus.l4 carry_4 fun r4 carry_5 =>
  Mac r.l5 k modulus.l5 carry_5 fun r5 carry_6 =>
  Adc r.l6 0 carry_6 fun r6 r7 =>
  MulLo r1 inv fun k_2 =>
  Mac r1 k_2 modulus.l0 0 fun drop_2 carry_7 =>
  Mac r2 k_2 modulus.l1 carry_7 fun r2_2 carry_8 =>
  Mac r3 k_2 modulus.l2 carry_8 fun r3_2 carry_9 =>
  Mac r4 k_2 modulus.l3 carry_9 fun r4_2 carry_10 =>
  Mac r5 k_2 modulus.l4 carry_10 fun r5_2 carry_11 =>
  Mac r6 k_2 modulus.l5 carry_11 fun r6_2 carry_12 =>
  Adc r7 r.l7 carry_12 fun r7_2 r8 =>
  MulLo r2_2 inv fun k_3 =>
  Mac r2_2 k_3 modulus.l0 0 fun drop_3 carry_13 =>
  Mac r3_2 k_3 modulus.l1 carry_13 fun r3_3 carry_14 =>
  Mac r4_2 k_3 modulus.l2 carry_14 fun r4_3 carry_15 =>
  Mac r5_2 k_3 modulus.l3 carry_15 fun r5_3 carry_16 =>
  Mac r6_2 k_3 modulus.l4 carry_16 fun r6_3 carry_17 =>
  Mac r7_2 k_3 modulus.l5 carry_17 fun r7_3 carry_18 =>
  Adc r8 r.l8 carry_18 fun r8_2 r9 =>
  MulLo r3_3 inv fun k_4 =>
  Mac r3_3 k_4 modulus.l0 0 fun drop_4 carry_19 =>
  Mac r4_3 k_4 modulus.l1 carry_19 fun r4_4 carry_20 =>
  Mac r5_3 k_4 modulus.l2 carry_20 fun r5_4 carry_21 =>
  Mac r6_3 k_4 modulus.l3 carry_21 fun r6_4 carry_22 =>
  Mac r7_3 k_4 modulus.l4 carry_22 fun r7_4 carry_23 =>
  Mac r8_2 k_4 modulus.l5 carry_23 fun r8_3 carry_24 =>
  Adc r9 r.l9 carry_24 fun r9_2 r10 =>
  MulLo r4_4 inv fun k_5 =>
  Mac r4_4 k_5 modulus.l0 0 fun drop_5 carry_25 =>
  Mac r5_4 k_5 modulus.l1 carry_25 fun r5_5 carry_26 =>
  Mac r6_4 k_5 modulus.l2 carry_26 fun r6_5 carry_27 =>
  Mac r7_4 k_5 modulus.l3 carry_27 fun r7_5 carry_28 =>
  Mac r8_3 k_5 modulus.l4 carry_28 fun r8_4 carry_29 =>
  Mac r9_2 k_5 modulus.l5 carry_29 fun r9_3 carry_30 =>
  Adc r10 r.l10 carry_30 fun r10_2 r11 =>
  MulLo r5_5 inv fun k_6 =>
  Mac r5_5 k_6 modulus.l0 0 fun drop_6 carry_31 =>
  Mac r6_5 k_6 modulus.l1 carry_31 fun rr0 carry_32 =>
  Mac r7_5 k_6 modulus.l2 carry_32 fun rr1 carry_33 =>
  Mac r8_4 k_6 modulus.l3 carry_33 fun rr2 carry_34 =>
  Mac r9_3 k_6 modulus.l4 carry_34 fun rr3 carry_35 =>
  Mac r10_2 k_6 modulus.l5 carry_35 fun rr4 carry_36 =>
  Adc r11 r.l11 carry_36 fun rr5 drop_7 =>
  L6.mk rr0 rr1 rr2 rr3 rr4 rr5

/-- The words before the final subtraction: `t·2^384 = r + u·m`, below `2m`. -/
theorem montWords_spec (r : L12) (h : r.zval < 18446744073709551616 ^ 6 * 4002409555221667393417789825735904156556882819939007885332058136124031650490837864442687629129015664037894272559787) :
    (montWords r).zval < 2 * 4002409555221667393417789825735904156556882819939007885332058136124031650490837864442687629129015664037894272559787 ∧ ∃ U : Int, (montWords r).zval * 18446744073709551616 ^ 6 = r.zval + U * 4002409555221667393417789825735904156556882819939007885332058136124031650490837864442687629129015664037894272559787 := by
  suffices H : ∀ P : L6 → Prop, (∀ t : L6, (t.zval < 2 * 4002409555221667393417789825735904156556882819939007885332058136124031650490837864442687629129015664037894272559787 ∧ ∃ U : Int, t.zval * 18446744073709551616 ^ 6 = r.zval + U * 4002409555221667393417789825735904156556882819939007885332058136124031650490837864442687629129015664037894272559787) → P t) →
      P (montWords r) from H _ (fun _ h => h)
  intro P hP
  have z0 : z 0 = 0 := rfl
  have m0 : z modulus.l0 = 13402431016077863595 := rfl
  have m1 : z modulus.l1 = 2210141511517208575 := rfl
  have m2 : z modulus.l2 = 7435674573564081700 := rfl
  have m3 : z modulus.l3 = 7239337960414712511 := rfl
  have m4 : z modulus.l4 = 5412103778470702295 := rfl
  have m5 : z modulus.l5 = 1873798617647539866 := rfl
  have hinv : (18446744073709551616 : Int) ∣ 1 + z inv * z modulus.l0 := by
    have e : z inv = 9940570264628428797 := rfl
    rw [e, m0]; norm_num
  unfold montWords
  refine wp_mulLo P _ _ _ fun k ov_k h_k => ?_
  refine wp_mac P _ _ _ _ _ fun drop carry h_drop => ?_
  refine wp_mac P _ _ _ _ _ fun r1 carry_2 h_r1 => ?_
  refine wp_mac P _ _ _ _ _ fun r2 carry_3 h_r2 => ?_
  refine wp_mac P _ _ _ _ _ fun r3 carry_4 h_r3 => ?_
  refine wp_mac P _ _ _ _ _ fun r4 carry_5 h_r4 => ?_
  refine wp_mac P _ _ _ _ _ fun r5 carry_6 h_r5 => ?_
  refine wp_adc P _ _ _ _ (.inr (.inl (by rw [z0]; norm_num))) fun r6 r7 h_r6 c_r7 => ?_
  refine wp_mulLo P _ _ _ fun k_2 ov_k_2 h_k_2 => ?_
  refine wp_mac P _ _ _ _ _ fun drop_2 carry_7 h_drop_2 => ?_
  refine wp_mac P _ _ _ _ _ fun r2_2 carry_8 h_r2_2 => ?_
  refine wp_mac P _ _ _ _ _ fun r3_2 carry_9 h_r3_2 => ?_
  refine wp_mac P _ _ _ _ _ fun r4_2 carry_10 h_r4_2 => ?_
  refine wp_mac P _ _ _ _ _ fun r5_2 carry_11 h_r5_2 => ?_
  refine wp_mac P _ _ _ _ _ fun r6_2 carry_12 h_r6_2 => ?_
  refine wp_adc P _ _ _ _ (.inl c_r7) fun r7_2 r8 h_r7_2 c_r8 => ?_
  refine wp_mulLo P _ _ _ fun k_3 ov_k_3 h_k_3 => ?_
  refine wp_mac P _ _ _ _ _ fun drop_3 carry_13 h_drop_3 => ?_
  refine wp_mac P _ _ _ _ _ fun r3_3 carry_14 h_r3_3 => ?_
  refine wp_mac P _ _ _ _ _ fun r4_3 carry_15 h_r4_3 => ?_
  refine wp_mac P _ _ _ _ _ fun r5_3 carry_16 h_r5_3 => ?_
  refine wp_mac P _ _ _ _ _ fun r6_3 carry_17 h_r6_3 => ?_
  refine wp_mac P _ _ _ _ _ fun r7_3 carry_18 h_r7_3 => ?_
  refine wp_adc P _ _ _ _ (.inl c_r8) fun r8_2 r9 h_r8_2 c_r9 => ?_
  refine wp_mulLo P _ _ _ fun k_4 ov_k_4 h_k_4 => ?_
  refine wp_mac P _ _ _ _ _ fun drop_4 carry_19 h_drop_4 => ?_
  refine wp_mac P _ _ _ _ _ fun r4_4 carry_20 h_r4_4 => ?_
  refine wp_mac P _ _ _ _ _ fun r5_4 carry_21 h_r5_4 => ?_
  refine wp_mac P _ _ _ _ _ fun r6_4 carry_22 h_r6_4 => ?_
  refine wp_mac P _ _ _ _ _ fun r7_4 carry_23 h_r7_4 => ?_
  refine wp_mac P _ _ _ _ _ fun r8_3 carry_24 h_r8_3 => ?_
  refine wp_adc P _ _ _ _ (.inl c_r9) fun r9_2 r10 h_r9_2 c_r10 => ?_
  refine wp_mulLo P _ _ _ fun k_5 ov_k_5 h_k_5 => ?_
  refine wp_mac P _ _ _ _ _ fun drop_5 carry_25 h_drop_5 => ?_
  refine wp_mac P _ _ _ _ _ fun r5_5 carry_26 h_r5_5 => ?_
  refine wp_mac P _ _ _ _ _ fun r6_5 carry_27 h_r6_5 => ?_
  refine wp_mac P _ _ _ _ _ fun r7_5 carry_28 h_r7_5 => ?_
  refine wp_mac P _ _ _ _ _ fun r8_4 carry_29 h_r8_4 => ?_
  refine wp_mac P _ _ _ _ _ fun r9_3 carry_30 h_r9_3 => ?_
  refine wp_adc P _ _ _ _ (.inl c_r10) fun r10_2 r11 h_r10_2 c_r11 => ?_
  refine wp_mulLo P _ _ _ fun k_6 ov_k_6 h_k_6 => ?_
  refine wp_mac P _ _ _ _ _ fun drop_6 carry_31 h_drop_6 => ?_
  refine wp_mac P _ _ _ _ _ fun rr0 carry_32 h_rr0 => ?_
  refine wp_mac P _ _ _ _ _ fun rr1 carry_33 h_rr1 => ?_
  refine wp_mac P _ _ _ _ _ fun rr2 carry_34 h_rr2 => ?_
  refine wp_mac P _ _ _ _ _ fun rr3 carry_35 h_rr3 => ?_
  refine wp_mac P _ _ _ _ _ fun rr4 carry_36 h_rr4 => ?_
  refine wp_adc P _ _ _ _ (.inl c_r11) fun rr5 drop_7 h_rr5 c_drop_7 => ?_
  have e_drop : z drop = 0 := drop_zero hinv h_k z0 h_drop
  have e_drop_2 : z drop_2 = 0 := drop_zero hinv h_k_2 z0 h_drop_2
  have e_drop_3 : z drop_3 = 0 := drop_zero hinv h_k_3 z0 h_drop_3
  have e_drop_4 : z drop_4 = 0 := drop_zero hinv h_k_4 z0 h_drop_4
  have e_drop_5 : z drop_5 = 0 := drop_zero hinv h_k_5 z0 h_drop_5
  have e_drop_6 : z drop_6 = 0 := drop_zero hinv h_k_6 z0 h_drop_6
  refine hP _ ?_
  have hI : (z rr0 + 18446744073709551616 ^ 1 * z rr1 + 18446744073709551616 ^ 2 * z rr2 + 18446744073709551616 ^ 3 * z rr3 + 18446744073709551616 ^ 4 * z rr4 + 18446744073709551616 ^ 5 * z rr5 + 18446744073709551616 ^ 6 * z drop_7) * 18446744073709551616 ^ 6 = r.zval + (z k + 18446744073709551616 ^ 1 * z k_2 + 18446744073709551616 ^ 2 * z k_3 + 18446744073709551616 ^ 3 * z k_4 + 18446744073709551616 ^ 4 * z k_5 + 18446744073709551616 ^ 5 * z k_6) * 4002409555221667393417789825735904156556882819939007885332058136124031650490837864442687629129015664037894272559787 := by
    unfold L12.zval
    linear_combination 18446744073709551616 ^ 0 * h_drop + 1 * (18446744073709551616 ^ 0) * z0 + 18446744073709551616 ^ 0 * z k * m0 + -(18446744073709551616 ^ 0) * e_drop + 18446744073709551616 ^ 1 * h_r1 + 18446744073709551616 ^ 1 * z k * m1 + 18446744073709551616 ^ 2 * h_r2 + 18446744073709551616 ^ 2 * z k * m2 + 18446744073709551616 ^ 3 * h_r3 + 18446744073709551616 ^ 3 * z k * m3 + 18446744073709551616 ^ 4 * h_r4 + 18446744073709551616 ^ 4 * z k * m4 + 18446744073709551616 ^ 5 * h_r5 + 18446744073709551616 ^ 5 * z k * m5 + 18446744073709551616 ^ 6 * h_r6 + 1 * (18446744073709551616 ^ 6) * z0 + 18446744073709551616 ^ 1 * h_drop_2 + 1 * (18446744073709551616 ^ 1) * z0 + 18446744073709551616 ^ 1 * z k_2 * m0 + -(18446744073709551616 ^ 1) * e_drop_2 + 18446744073709551616 ^ 2 * h_r2_2 + 18446744073709551616 ^ 2 * z k_2 * m1 + 18446744073709551616 ^ 3 * h_r3_2 + 18446744073709551616 ^ 3 * z k_2 * m2 + 18446744073709551616 ^ 4 * h_r4_2 + 18446744073709551616 ^ 4 * z k_2 * m3 + 18446744073709551616 ^ 5 * h_r5_2 + 18446744073709551616 ^ 5 * z k_2 * m4 + 18446744073709551616 ^ 6 * h_r6_2 + 18446744073709551616 ^ 6 * z k_2 * m5 + 18446744073709551616 ^ 7 * h_r7_2 + 18446744073709551616 ^ 2 * h_drop_3 + 1 * (18446744073709551616 ^ 2) * z0 + 18446744073709551616 ^ 2 * z k_3 * m0 + -(18446744073709551616 ^ 2) * e_drop_3 + 18446744073709551616 ^ 3 * h_r3_3 + 18446744073709551616 ^ 3 * z k_3 * m1 + 18446744073709551616 ^ 4 * h_r4_3 + 18446744073709551616 ^ 4 * z k_3 * m2 + 18446744073709551616 ^ 5 * h_r5_3 + 18446744073709551616 ^ 5 * z k_3 * m3 + 18446744073709551616 ^ 6 * h_r6_3 + 18446744073709551616 ^ 6 * z k_3 * m4 + 18446744073709551616 ^ 7 * h_r7_3 + 18446744073709551616 ^ 7 * z k_3 * m5 + 18446744073709551616 ^ 8 * h_r8_2 + 18446744073709551616 ^ 3 * h_drop_4 + 1 * (18446744073709551616 ^ 3) * z0 + 18446744073709551616 ^ 3 * z k_4 * m0 + -(18446744073709551616 ^ 3) * e_drop_4 + 18446744073709551616 ^ 4 * h_r4_4 + 18446744073709551616 ^ 4 * z k_4 * m1 + 18446744073709551616 ^ 5 * h_r5_4 + 18446744073709551616 ^ 5 * z k_4 * m2 + 18446744073709551616 ^ 6 * h_r6_4 + 18446744073709551616 ^ 6 * z k_4 * m3 + 18446744073709551616 ^ 7 * h_r7_4 + 18446744073709551616 ^ 7 * z k_4 * m4 + 18446744073709551616 ^ 8 * h_r8_3 + 18446744073709551616 ^ 8 * z k_4 * m5 + 18446744073709551616 ^ 9 * h_r9_2 + 18446744073709551616 ^ 4 * h_drop_5 + 1 * (18446744073709551616 ^ 4) * z0 + 18446744073709551616 ^ 4 * z k_5 * m0 + -(18446744073709551616 ^ 4) * e_drop_5 + 18446744073709551616 ^ 5 * h_r5_5 + 18446744073709551616 ^ 5 * z k_5 * m1 + 18446744073709551616 ^ 6 * h_r6_5 + 18446744073709551616 ^ 6 * z k_5 * m2 + 18446744073709551616 ^ 7 * h_r7_5 + 18446744073709551616 ^ 7 * z k_5 * m3 + 18446744073709551616 ^ 8 * h_r8_4 + 18446744073709551616 ^ 8 * z k_5 * m4 + 18446744073709551616 ^ 9 * h_r9_3 + 18446744073709551616 ^ 9 * z k_5 * m5 + 18446744073709551616 ^ 10 * h_r10_2 + 18446744073709551616 ^ 5 * h_drop_6 + 1 * (18446744073709551616 ^ 5) * z0 + 18446744073709551616 ^ 5 * z k_6 * m0 + -(18446744073709551616 ^ 5) * e_drop_6 + 18446744073709551616 ^ 6 * h_rr0 + 18446744073709551616 ^ 6 * z k_6 * m1 + 18446744073709551616 ^ 7 * h_rr1 + 18446744073709551616 ^ 7 * z k_6 * m2 + 18446744073709551616 ^ 8 * h_rr2 + 18446744073709551616 ^ 8 * z k_6 * m3 + 18446744073709551616 ^ 9 * h_rr3 + 18446744073709551616 ^ 9 * z k_6 * m4 + 18446744073709551616 ^ 10 * h_rr4 + 18446744073709551616 ^ 10 * z k_6 * m5 + 18446744073709551616 ^ 11 * h_rr5
  have hU : z k + 18446744073709551616 ^ 1 * z k_2 + 18446744073709551616 ^ 2 * z k_3 + 18446744073709551616 ^ 3 * z k_4 + 18446744073709551616 ^ 4 * z k_5 + 18446744073709551616 ^ 5 * z k_6 ≤ 18446744073709551616 ^ 6 - 1 := by
    have b_k := z_le k
    have b_k_2 := z_le k_2
    have b_k_3 := z_le k_3
    have b_k_4 := z_le k_4
    have b_k_5 := z_le k_5
    have b_k_6 := z_le k_6
    linarith only [b_k, b_k_2, b_k_3, b_k_4, b_k_5, b_k_6]
  have hT : z rr0 + 18446744073709551616 ^ 1 * z rr1 + 18446744073709551616 ^ 2 * z rr2 + 18446744073709551616 ^ 3 * z rr3 + 18446744073709551616 ^ 4 * z rr4 + 18446744073709551616 ^ 5 * z rr5 + 18446744073709551616 ^ 6 * z drop_7 < 2 * 4002409555221667393417789825735904156556882819939007885332058136124031650490837864442687629129015664037894272559787 := by
    linarith only [hI, h, hU]
  have hd : z drop_7 = 0 := by
    have n_d := z_nonneg drop_7
    have n_rr0 := z_nonneg rr0
    have n_rr1 := z_nonneg rr1
    have n_rr2 := z_nonneg rr2
    have n_rr3 := z_nonneg rr3
    have n_rr4 := z_nonneg rr4
    have n_rr5 := z_nonneg rr5
    omega
  rw [hd] at hI hT
  refine ⟨?_, z k + 18446744073709551616 ^ 1 * z k_2 + 18446744073709551616 ^ 2 * z k_3 + 18446744073709551616 ^ 3 * z k_4 + 18446744073709551616 ^ 4 * z k_5 + 18446744073709551616 ^ 5 * z k_6, ?_⟩
  · unfold L6.zval; dsimp only; linarith only [hT]
  · rw [← hI]; unfold L6.zval; dsimp only; ring

end Verif.Bls381.Fp
