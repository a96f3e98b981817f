import Verif.Bls381.Fp
import Verif.Bls381.FqWide
import Verif.Bls381.FqChain
import Verif.Native.Scalars

/-!
# The scalar field of BLS12-381 (`crypto/core/curves/native/bls12381/fq.go`)

The backend `bls12381FqArithmetic` of the generic native field.  It differs from the generated backends of the other curves in that
it is written by hand, selects with a mask, and has a `Neg` that computes its zero mask from the difference instead of from the
argument.
-/

set_option linter.unusedSectionVars false
set_option exponentiation.threshold 1000
set_option maxRecDepth 20000

namespace Verif.Bls381.Fq
open Verif.Native Verif.Bytes

/-! ## Methods -/

/-- `bls12381FqParams` (crypto/core/curves/native/bls12381/fq.go:38-48). -/
def params : Params where
  R := ⟨0x00000001fffffffe, 0x5884b7fa00034802, 0x998c4fefecbc4ff5, 0x1824b159acc5056f⟩
  R2 := ⟨0xc999e990f3f29c6d, 0x2b6cedcb87925c23, 0x05d314967254398f, 0x0748d9d99f59ff11⟩
  R3 := ⟨0xc62c1807439b73af, 0x1b3e0d188cf06990, 0x73d13c71c7b5f418, 0x6e2a5bb9c8db33e9⟩
  modulus := ⟨0xffffffff00000001, 0x53bda402fffe5bfe, 0x3339d80809a1d805, 0x73eda753299d7d48⟩
  biModulus := beToNat [0x73, 0xed, 0xa7, 0x53, 0x29, 0x9d, 0x7d, 0x48, 0x33, 0x39, 0xd8, 0x08, 0x09, 0xa1, 0xd8, 0x05, 0x53, 0xbd,
    0xa4, 0x02, 0xff, 0xfe, 0x5b, 0xfe, 0xff, 0xff, 0xff, 0xff, 0x00, 0x00, 0x00, 0x01]

/-- `Sub` (crypto/core/curves/native/bls12381/fq.go:172-190). -/
def sub (a b : L4) : L4 :=
  Sbb a.l0 b.l0 0 fun d0 borrow =>
  Sbb a.l1 b.l1 borrow fun d1 borrow =>
  Sbb a.l2 b.l2 borrow fun d2 borrow =>
  Sbb a.l3 b.l3 borrow fun d3 borrow =>
  let borrow := 0 - borrow
  Adc d0 (modulus.l0 &&& borrow) 0 fun d0 carry =>
  Adc d1 (modulus.l1 &&& borrow) carry fun d1 carry =>
  Adc d2 (modulus.l2 &&& borrow) carry fun d2 carry =>
  Adc d3 (modulus.l3 &&& borrow) carry fun d3 _ =>
  ⟨d0, d1, d2, d3⟩

/-- `Add` (crypto/core/curves/native/bls12381/fq.go:157-169). -/
def add (a b : L4) : L4 :=
  Adc a.l0 b.l0 0 fun t0 carry =>
  Adc a.l1 b.l1 carry fun t1 carry =>
  Adc a.l2 b.l2 carry fun t2 carry =>
  Adc a.l3 b.l3 carry fun t3 _ =>
  sub ⟨t0, t1, t2, t3⟩ modulus

/-- `Neg` (crypto/core/curves/native/bls12381/fq.go:73-91): the mask is computed from the difference `t`. -/
def neg (a : L4) : L4 :=
  Sbb modulus.l0 a.l0 0 fun t0 borrow =>
  Sbb modulus.l1 a.l1 borrow fun t1 borrow =>
  Sbb modulus.l2 a.l2 borrow fun t2 borrow =>
  Sbb modulus.l3 a.l3 borrow fun t3 _ =>
  let mask := t0 ||| t1 ||| t2 ||| t3
  let mask : UInt64 := (0 : UInt64) - ((mask ||| (0 - mask)) >>> 63)
  ⟨t0 &&& mask, t1 &&& mask, t2 &&& mask, t3 &&& mask⟩

/-- `montReduce` (crypto/core/curves/native/bls12381/fq.go:382-416): the words, then the final subtraction. -/
def montReduce (w : L8) : L4 := sub (montWords w) modulus

/-- `Mul` (crypto/core/curves/native/bls12381/fq.go:128-154). -/
def mul (a b : L4) : L4 := montReduce (mulWide a b)

/-- `Square` (crypto/core/curves/native/bls12381/fq.go:94-125). -/
def square (a : L4) : L4 := montReduce (squareWide a)

/-- `ToMontgomery` (crypto/core/curves/native/bls12381/fq.go:60-63). -/
def toMont (a : L4) : L4 := mul a params.R2

/-- `FromMontgomery` (crypto/core/curves/native/bls12381/fq.go:66-70). -/
def fromMont (a : L4) : L4 := montReduce ⟨a.l0, a.l1, a.l2, a.l3, 0, 0, 0, 0⟩

/-- `bls12381FqArithmetic` (crypto/core/curves/native/bls12381/fq.go:55-57). -/
def arith : Arith where
  toMont := toMont
  fromMont := fromMont
  neg := neg
  square := square
  mul := mul
  add := add
  sub := sub

/-- `Selectznz` (crypto/core/curves/native/bls12381/fq.go:374-380); `choice` is the bit pattern of the Go `int`. -/
def select (a b : L4) (choice : UInt64) : L4 :=
  let m := 0 - choice
  ⟨a.l0 ^^^ ((a.l0 ^^^ b.l0) &&& m), a.l1 ^^^ ((a.l1 ^^^ b.l1) &&& m), a.l2 ^^^ ((a.l2 ^^^ b.l2) &&& m),
    a.l3 ^^^ ((a.l3 ^^^ b.l3) &&& m)⟩

/-- `FromBytes` (crypto/core/curves/native/bls12381/fq.go:357-362). -/
def fromBytes (b : List UInt8) : L4 := leLimbs b 0

/-- `ToBytes` (crypto/core/curves/native/bls12381/fq.go:365-370); `PutUint64` writes the limb in eight bytes, little-endian. -/
def toBytes (a : L4) : List UInt8 :=
  Fp.putUint64 a.l0 ++ Fp.putUint64 a.l1 ++ Fp.putUint64 a.l2 ++ Fp.putUint64 a.l3

/-- One iteration of `native.Pow` with this backend (crypto/core/curves/native/field.go:359-365). -/
def powStep (base res : L4) (bit : UInt64) : L4 :=
  let res := square res
  let tmp := mul res base
  select res tmp bit

/-- `native.Pow` with this backend (crypto/core/curves/native/field.go:355-370). -/
def pow (base exp : L4) : L4 :=
  [exp.l3, exp.l2, exp.l1, exp.l0].foldl
    (fun res w => ((List.range 64).reverse.map (expBit w)).foldl (powStep base) res) params.R

/-- `fqGenerator` (crypto/core/curves/native/bls12381/fq.go:25). -/
def generator : L4 := ⟨0x0000000efffffff1, 0x17e363d300189c0f, 0xff9c57876f8457b0, 0x351332208fc5a8c4⟩

/-- `c2` (crypto/core/curves/native/bls12381/fq.go:198-203). -/
def c2 : L4 := ⟨0xfffe5bfeffffffff, 0x09a1d80553bda402, 0x299d7d483339d808, 0x0000000073eda753⟩

/-- `c3` (crypto/core/curves/native/bls12381/fq.go:205-210). -/
def c3 : L4 := ⟨0x7fff2dff7fffffff, 0x04d0ec02a9ded201, 0x94cebea4199cec04, 0x0000000039f6d3a9⟩

/-- One iteration of the loop of `Sqrt` for the index `i` (crypto/core/curves/native/bls12381/fq.go:225-241). -/
def tsIter (i : Nat) (st : TS) : TS :=
  let b := pow2k arith st.b (i - 2)
  let flag := Int.neg (Field.isOne params b) + 1
  let tv := mul st.z st.c
  let z := select st.z tv (uint1 flag)
  let c := square st.c
  let tv := mul st.t c
  let t := select st.t tv (uint1 flag)
  ⟨z, t, t, c⟩

/-- `Sqrt` (crypto/core/curves/native/bls12381/fq.go:193-253): `i` runs from `fqS = 32` down to 2. -/
def sqrt (out arg : L4) : Int × L4 :=
  let c5 := pow generator c2
  let z := pow arg c3
  let t := square z
  let t := mul t arg
  let z := mul z arg
  let st := ((List.range (32 - 1)).reverse.map (· + 2)).foldl (fun st i => tsIter i st) ⟨z, t, t, c5⟩
  let c := square st.z
  let wasSquare := Field.equal c arg
  (wasSquare, select out st.z (uint1 wasSquare))

/-- `Invert` (crypto/core/curves/native/bls12381/fq.go:256-354). -/
def invert (out arg : L4) : Int × L4 :=
  let t0 := fqChain arith arg
  let wasInverted := isNonZero arg
  (wasInverted, select out t0 (uint1 wasInverted))

/-- The field of `ScalarBls12381` (crypto/core/curves/native/bls12381/fq.go:30-36). -/
def impl : Impl where
  A := arith
  P := params
  invert := invert
  sqrt := sqrt

/-- `Cube` (crypto/core/curves/bls12381_curve.go:151-158). -/
def scalarCube (s : L4) : L4 :=
  let value := square s
  mul value s

/-! ## Values -/

/-- The group order (specification only). -/
abbrev q : Nat := 52435875175126190479447740508185965837690552500527637822603658699938581184513

instance fact_q : Fact q.Prime :=
  ⟨Primes.prime_52435875175126190479447740508185965837690552500527637822603658699938581184513⟩

theorem modulus_zval : modulus.zval = (q : Int) := by decide +kernel

theorem sub_zval (a b : L4) (h : -(q : Int) ≤ a.zval - b.zval) :
    (sub a b).zval = if a.zval - b.zval < 0 then a.zval - b.zval + q else a.zval - b.zval := by
  suffices H : ∀ P : L4 → Prop, (∀ t : L4, (t.zval = if a.zval - b.zval < 0 then a.zval - b.zval + q else a.zval - b.zval) → P t) →
      P (sub a b) from H _ (fun _ h => h)
  intro P hP
  have z0 : z 0 = 0 := rfl
  have z1 : z 1 = 1 := rfl
  unfold sub
  refine wp_sbb P _ _ _ _ (by rw [z0]; norm_num) fun d0 b0 h0 c0 => ?_
  refine wp_sbb P _ _ _ _ c0 fun d1 b1 h1 c1 => ?_
  refine wp_sbb P _ _ _ _ c1 fun d2 b2 h2 c2 => ?_
  refine wp_sbb P _ _ _ _ c2 fun d3 b3 h3 c3 => ?_
  dsimp only
  refine wp_adc P _ _ _ _ (.inr (.inr (by rw [z0]; norm_num))) fun e0 k0 g0 f0 => ?_
  refine wp_adc P _ _ _ _ (.inr (.inr f0)) fun e1 k1 g1 f1 => ?_
  refine wp_adc P _ _ _ _ (.inr (.inr f1)) fun e2 k2 g2 f2 => ?_
  refine wp_adc P _ _ _ _ (.inr (.inr f2)) fun e3 k3 g3 f3 => ?_
  refine hP _ ?_
  have hd := (L4.mk d0 d1 d2 d3).zval_nonneg
  have hl := (L4.mk d0 d1 d2 d3).zval_lt
  have he := (L4.mk e0 e1 e2 e3).zval_nonneg
  have hk := (L4.mk e0 e1 e2 e3).zval_lt
  have ed : (L4.mk d0 d1 d2 d3).zval - 18446744073709551616 ^ 4 * z b3 = a.zval - b.zval := by
    unfold L4.zval; dsimp only
    rw [z0] at h0
    linear_combination h0 + 18446744073709551616 ^ 1 * h1 + 18446744073709551616 ^ 2 * h2 + 18446744073709551616 ^ 3 * h3
  have hp : (q : Int) < 18446744073709551616 ^ 4 := by decide +kernel
  rcases Fp.bit_cases b3 c3 with rfl | rfl
  · simp only [Fp.mask_zero] at g0 g1 g2 g3
    have ee : (L4.mk e0 e1 e2 e3).zval + 18446744073709551616 ^ 4 * z k3 = (L4.mk d0 d1 d2 d3).zval := by
      unfold L4.zval; dsimp only
      rw [z0] at *
      linear_combination g0 + 18446744073709551616 ^ 1 * g1 + 18446744073709551616 ^ 2 * g2 + 18446744073709551616 ^ 3 * g3
    rw [z0] at ed
    generalize (L4.mk e0 e1 e2 e3).zval = E at *
    generalize (L4.mk d0 d1 d2 d3).zval = D at *
    have : z k3 = 0 := by
      have := z_nonneg k3
      by_contra hc
      have : z k3 = 1 := by omega
      rw [this] at ee
      omega
    rw [this] at ee
    rw [if_neg (by omega)]
    omega
  · simp only [Fp.mask_one] at g0 g1 g2 g3
    have ee : (L4.mk e0 e1 e2 e3).zval + 18446744073709551616 ^ 4 * z k3 = (L4.mk d0 d1 d2 d3).zval + modulus.zval := by
      unfold L4.zval; dsimp only
      rw [z0] at g0
      linear_combination g0 + 18446744073709551616 ^ 1 * g1 + 18446744073709551616 ^ 2 * g2 + 18446744073709551616 ^ 3 * g3
    rw [modulus_zval] at ee
    rw [z1] at ed
    generalize (L4.mk e0 e1 e2 e3).zval = E at *
    generalize (L4.mk d0 d1 d2 d3).zval = D at *
    have hneg : a.zval - b.zval < 0 := by omega
    rw [if_pos hneg]
    have : z k3 = 1 := by
      have := z_nonneg k3
      by_contra hc
      have : z k3 = 0 := by omega
      rw [this] at ee
      omega
    rw [this] at ee
    omega

theorem add_val (a b : L4) (ha : a.val < q) (hb : b.val < q) : (add a b).val = (a.val + b.val) % q := by
  suffices H : ∀ P : L4 → Prop, (∀ t : L4, t.val = (a.val + b.val) % q → P t) → P (add a b) from H _ (fun _ h => h)
  intro P hP
  have z0 : z 0 = 0 := rfl
  unfold add
  refine wp_adc P _ _ _ _ (.inr (.inr (by rw [z0]; norm_num))) fun e0 k0 g0 f0 => ?_
  refine wp_adc P _ _ _ _ (.inr (.inr f0)) fun e1 k1 g1 f1 => ?_
  refine wp_adc P _ _ _ _ (.inr (.inr f1)) fun e2 k2 g2 f2 => ?_
  refine wp_adc P _ _ _ _ (.inr (.inr f2)) fun e3 k3 g3 f3 => ?_
  refine hP _ ?_
  have he := (L4.mk e0 e1 e2 e3).zval_nonneg
  have ee : (L4.mk e0 e1 e2 e3).zval + 18446744073709551616 ^ 4 * z k3 = a.zval + b.zval := by
    unfold L4.zval; dsimp only
    rw [z0] at *
    linear_combination g0 + 18446744073709551616 ^ 1 * g1 + 18446744073709551616 ^ 2 * g2 + 18446744073709551616 ^ 3 * g3
  have hk := z_nonneg k3
  have hp : 2 * (q : Int) < 18446744073709551616 ^ 4 := by decide +kernel
  rw [L4.zval_eq a, L4.zval_eq b] at ee
  have k0 : z k3 = 0 := by
    by_contra hc
    have : z k3 = 1 := by omega
    rw [this] at ee
    omega
  rw [k0] at ee
  have hs := sub_zval (L4.mk e0 e1 e2 e3) modulus (by rw [modulus_zval]; omega)
  rw [modulus_zval, L4.zval_eq (sub _ _)] at hs
  generalize (L4.mk e0 e1 e2 e3).zval = E at *
  by_cases hlt : a.val + b.val < q
  · rw [Nat.mod_eq_of_lt hlt]
    rw [if_pos (by omega)] at hs
    omega
  · rw [Nat.mod_eq_sub_mod (by omega), Nat.mod_eq_of_lt (by omega)]
    rw [if_neg (by omega)] at hs
    omega

theorem sub_val (a b : L4) (ha : a.val < q) (hb : b.val < q) : (sub a b).val = (a.val + (q - b.val)) % q := by
  have hs := sub_zval a b (by rw [L4.zval_eq, L4.zval_eq]; omega)
  rw [L4.zval_eq, L4.zval_eq, L4.zval_eq] at hs
  by_cases hlt : a.val < b.val
  · rw [if_pos (by omega)] at hs
    rw [Nat.mod_eq_of_lt (by omega)]
    omega
  · rw [if_neg (by omega)] at hs
    rw [Nat.mod_eq_sub_mod (by omega), Nat.mod_eq_of_lt (by omega)]
    omega

/-- `Neg` subtracts from the modulus, and does not reduce: zero becomes the modulus. -/
theorem neg_val (a : L4) (ha : a.val < q) : (neg a).val = q - a.val := by
  suffices H : ∀ P : L4 → Prop, (∀ t : L4, t.val = q - a.val → P t) → P (neg a) from H _ (fun _ h => h)
  intro P hP
  have z0 : z 0 = 0 := rfl
  unfold neg
  refine wp_sbb P _ _ _ _ (by rw [z0]; norm_num) fun d0 b0 h0 c0 => ?_
  refine wp_sbb P _ _ _ _ c0 fun d1 b1 h1 c1 => ?_
  refine wp_sbb P _ _ _ _ c1 fun d2 b2 h2 c2 => ?_
  refine wp_sbb P _ _ _ _ c2 fun d3 b3 h3 c3 => ?_
  refine hP _ ?_
  dsimp only
  rw [Fp.negmask]
  have hd := (L4.mk d0 d1 d2 d3).zval_nonneg
  have hl := (L4.mk d0 d1 d2 d3).zval_lt
  have ed : (L4.mk d0 d1 d2 d3).zval - 18446744073709551616 ^ 4 * z b3 = modulus.zval - a.zval := by
    unfold L4.zval; dsimp only
    rw [z0] at h0
    linear_combination h0 + 18446744073709551616 ^ 1 * h1 + 18446744073709551616 ^ 2 * h2 + 18446744073709551616 ^ 3 * h3
  rw [modulus_zval, L4.zval_eq a] at ed
  have hval := L4.zval_eq (L4.mk d0 d1 d2 d3)
  have hv : (L4.mk d0 d1 d2 d3).val = q - a.val := by
    generalize (L4.mk d0 d1 d2 d3).zval = D at *
    rcases Fp.bit_cases b3 c3 with rfl | rfl
    · rw [z0] at ed; omega
    · rw [show z 1 = 1 from rfl] at ed; omega
  have hne : ¬ (d0 ||| d1 ||| d2 ||| d3 = 0) := by
    intro h
    have := (limbs_zero (L4.mk d0 d1 d2 d3)).1 h
    omega
  rw [if_neg hne]
  simp only [Fp.mask_one]
  exact hv

/-- Reduction: below `q` and congruent to `w / 2^256`. -/
theorem montReduce_spec (w : L8) (n : Nat) (hn : w.zval = (n : Int)) (h : n < 2 ^ 256 * q) : Redc q n (montReduce w) := by
  obtain ⟨hlt, U, hU⟩ := montWords_spec w (by rw [hn]; exact_mod_cast h)
  have h0 := (montWords w).zval_nonneg
  have hs := sub_zval (montWords w) modulus (by rw [modulus_zval]; omega)
  unfold montReduce
  rw [modulus_zval, L4.zval_eq (sub _ _)] at hs
  generalize (sub (montWords w) modulus) = v at *
  generalize (montWords w).zval = T at *
  have : ∃ k : Int, (v.val : Int) = T - k * q ∧ v.val < q := by
    by_cases hc : T - (q : Int) < 0
    · rw [if_pos hc] at hs
      exact ⟨0, by omega, by omega⟩
    · rw [if_neg hc] at hs
      have hpe : (q : Int) = 52435875175126190479447740508185965837690552500527637822603658699938581184513 := rfl
      exact ⟨1, by omega, by omega⟩
  obtain ⟨k, hv, hvl⟩ := this
  refine ⟨hvl, ?_⟩
  have e : ((v.val * 2 ^ 256 : Nat) : Int) = (n : Int) + (U - k * 2 ^ 256) * (q : Int) := by
    push_cast
    rw [hv]
    have e2 : (18446744073709551616 : Int) ^ 4 = 2 ^ 256 := by norm_num
    rw [e2] at hU
    rw [hn] at hU
    linear_combination hU
  have := congrArg (· % (q : Int)) e
  simp only [Int.add_mul_emod_self_right] at this
  exact_mod_cast this

theorem redc_mul (a b : L4) (h : a.val * b.val < 2 ^ 256 * q) : Redc q (a.val * b.val) (mul a b) := by
  refine montReduce_spec _ _ ?_ h
  rw [mulWide_spec, L4.zval_eq, L4.zval_eq, Nat.cast_mul]

theorem redc_square (a : L4) (h : a.val * a.val < 2 ^ 256 * q) : Redc q (a.val * a.val) (square a) := by
  refine montReduce_spec _ _ ?_ h
  rw [squareWide_spec, L4.zval_eq, Nat.cast_mul]

theorem redc_fromMont (a : L4) : Redc q a.val (fromMont a) := by
  refine montReduce_spec _ _ ?_ ?_
  · rw [← L4.zval_eq]
    unfold L8.zval L4.zval
    rw [show z 0 = 0 from rfl]
    dsimp only
    ring
  · have := a.val_lt
    calc a.val < 2 ^ 256 := this
      _ ≤ 2 ^ 256 * q := by decide +kernel

theorem redc_toMont (a : L4) : Redc q (a.val * (2 ^ 512 % q)) (toMont a) := by
  have e : params.R2.val = 2 ^ 512 % q := by decide +kernel
  rw [← e]
  refine redc_mul _ _ ?_
  have h1 := a.val_lt
  have h2 : params.R2.val < q := by decide +kernel
  exact Nat.mul_lt_mul'' h1 h2

/-! ## The repaired backend (specification only)

`Lawful` includes negation, which this backend gets wrong on zero.  The theorems about everything else go through the backend
with a correct negation, which agrees with the real one except on zero. -/

/-- Negation that maps zero to zero. -/
def negFix (a : L4) : L4 := if a.val = 0 then a else neg a

def arithFix : Arith := { arith with neg := negFix }

def implFix : Impl := { impl with A := arithFix }

theorem lawful : Lawful arithFix params q where
  one_lt := by decide +kernel
  lt := by decide +kernel
  odd := by decide +kernel
  R := by decide +kernel
  R2 := by decide +kernel
  R3 := by decide +kernel
  modulus := by decide +kernel
  bi := by decide +kernel
  mul := redc_mul
  square := redc_square
  add := add_val
  sub := sub_val
  neg := fun a ha => by
    show (negFix a).val = _
    unfold negFix
    by_cases h : a.val = 0
    · rw [if_pos h, h, Nat.sub_zero, Nat.mod_self]
    · rw [if_neg h, neg_val a ha, Nat.mod_eq_of_lt (by omega)]
  fromMont := redc_fromMont
  toMont := redc_toMont

theorem select_zero (a b : L4) : select a b 0 = a := by
  unfold select
  have e : (0 : UInt64) - 0 = 0 := rfl
  simp only [e, UInt64.and_zero, UInt64.xor_zero]

theorem xx (x y : UInt64) : x ^^^ (x ^^^ y) = y := by
  rw [← UInt64.xor_assoc, UInt64.xor_self, UInt64.zero_xor]

theorem select_one (a b : L4) : select a b 1 = b := by
  unfold select
  simp only [Fp.mask_one, xx]

theorem powStep_eq (base res : L4) (w : UInt64) (j : Nat) (hj : j < 64) :
    powStep base res (expBit w j) = Native.powStep arithFix base res (expBit w j) := by
  unfold powStep Native.powStep
  rw [expBit_eq w j hj]
  split
  · rw [select_one, selectznz_one]; rfl
  · rw [select_zero, selectznz_zero]; rfl

theorem foldl_congr {α β : Type} (f g : α → β → α) : ∀ (l : List β) (a : α), (∀ a, ∀ b ∈ l, f a b = g a b) →
    l.foldl f a = l.foldl g a := by
  intro l
  induction l with
  | nil => intro _ _; rfl
  | cons b l ih =>
    intro a h
    rw [List.foldl_cons, List.foldl_cons, h a b (List.mem_cons_self ..)]
    exact ih _ fun a c hc => h a c (List.mem_cons_of_mem _ hc)

theorem powLimb_eq (base : L4) (w : UInt64) (res : L4) :
    ((List.range 64).reverse.map (expBit w)).foldl (powStep base) res =
      ((List.range 64).reverse.map (expBit w)).foldl (Native.powStep arithFix base) res := by
  refine foldl_congr _ _ _ _ fun a b hb => ?_
  obtain ⟨j, hj, rfl⟩ := List.mem_map.1 hb
  exact powStep_eq base a w j (List.mem_range.1 (List.mem_reverse.1 hj))

theorem pow_eq (base e : L4) : pow base e = Native.pow arithFix params base e := by
  have h : (fun (res : L4) (w : UInt64) => ((List.range 64).reverse.map (expBit w)).foldl (powStep base) res) =
      (fun (res : L4) (w : UInt64) => ((List.range 64).reverse.map (expBit w)).foldl (Native.powStep arithFix base) res) :=
    funext fun res => funext fun w => powLimb_eq base w res
  unfold pow Native.pow
  rw [h]

theorem pow2k_eq (a : L4) (k : Nat) : pow2k arith a k = pow2k arithFix a k := by
  have h : arith.square = arithFix.square := rfl
  induction k with
  | zero => rw [pow2k, pow2k]
  | succ k ih => rw [pow2k, pow2k, ih, h]

theorem isOne_cases (a : L4) : Field.isOne params a = 1 ∨ Field.isOne params a = 0 := by
  unfold Field.isOne
  rw [C50_equal_iff]
  split
  · exact .inl rfl
  · exact .inr rfl

theorem tsIter_eq (i : Nat) (st : TS) : tsIter i st = Native.tsIter arithFix params i st := by
  unfold tsIter Native.tsIter
  rw [pow2k_eq]
  dsimp only
  rcases isOne_cases (pow2k arithFix st.b (i - 2)) with h | h
  · rw [h, flag_one, select_zero, selectznz_zero, select_zero, selectznz_zero]; rfl
  · rw [h, flag_zero, select_one, selectznz_one, select_one, selectznz_one]; rfl

theorem equal_cases (a b : L4) : Field.equal a b = 1 ∨ Field.equal a b = 0 := by
  unfold Field.equal
  rw [C50_equal_iff]
  split
  · exact .inl rfl
  · exact .inr rfl

theorem sqrt_eq (out arg : L4) : sqrt out arg = sqrtTS arithFix params 32 c3 (Native.pow arithFix params generator c2) out arg := by
  have hs : square = arithFix.square := rfl
  have hm : mul = arithFix.mul := rfl
  have fin : ∀ y : L4, ((Field.equal (arithFix.square y) arg, select out y (uint1 (Field.equal (arithFix.square y) arg))) : Int × L4) =
      (Field.equal (arithFix.square y) arg, selectznz (uint1 (Field.equal (arithFix.square y) arg)) out y) := by
    intro y
    rcases equal_cases (arithFix.square y) arg with h | h
    · rw [h, uint1_one, select_one, selectznz_one]
    · rw [h, uint1_zero, select_zero, selectznz_zero]
  have hf : (fun st i => tsIter i st) = (fun st i => Native.tsIter arithFix params i st) :=
    funext fun st => funext fun i => tsIter_eq i st
  unfold sqrt sqrtTS tonelliShanks tsLoop
  rw [pow_eq, pow_eq, hf, hs, hm]
  exact fin _

theorem generator_rep : Rep q generator ((7 : Nat) : ZMod q) :=
  rep_of_powMod lawful (by decide +kernel) (by decide +kernel)

theorem seven_nonresidue : ((7 : Nat) : ZMod q) ^ ((q - 1) / 2) = -1 := by
  have e := Primes.pw_spec q 300 7 ((q - 1) / 2) 1 (by decide +kernel)
  rw [Nat.cast_one, one_mul] at e
  rw [← e, ← ZMod.natCast_mod, show Primes.pw q 300 7 ((q - 1) / 2) 1 % q = q - 1 by decide +kernel, Nat.cast_sub (by decide +kernel),
    ZMod.natCast_self, Nat.cast_one, zero_sub]

theorem cmul_eq {β : Type} : @CMul β arith = @CMul β arithFix := by
  have h : arith.mul = arithFix.mul := rfl
  funext a b k
  unfold CMul
  rw [h]

theorem csq_eq {β : Type} : @CSq β arith = @CSq β arithFix := by
  have h : arith.square = arithFix.square := rfl
  funext a k
  unfold CSq
  rw [h]

theorem cpow2k_eq {β : Type} : @CPow2k β arith = @CPow2k β arithFix := by
  funext a n k
  unfold CPow2k
  rw [pow2k_eq]

theorem fqChain_eq (arg : L4) : fqChain arith arg = fqChain arithFix arg := by
  unfold fqChain
  rw [cmul_eq, csq_eq, cpow2k_eq]

theorem good : Good implFix q where
  prime := Fact.out
  lawful := lawful
  invert := by
    intro out arg x ha
    have h := invertEnd_spec (out := out) lawful ha (fqChain_spec lawful rfl ha)
    have e : implFix.invert out arg = invertEnd out arg (fqChain arithFix arg) := by
      show invert out arg = _
      unfold invert invertEnd
      rw [fqChain_eq]
      dsimp only
      have := (C50_zero_tests arg).2
      rw [this]
      split
      · rw [uint1_zero, select_zero, selectznz_zero]
      · rw [uint1_one, select_one, selectznz_one]
    rw [e]
    exact h
  sqrt := by
    have h5 := C50_pow lawful generator_rep c2
    have hs : SqrtSpec q (sqrtTS arithFix params 32 c3 (Native.pow arithFix params generator c2)) := by
      refine sqrtTS_spec lawful (by decide) (by decide +kernel) h5 ?_
      rw [← pow_mul, show c2.val * 2 ^ (32 - 1) = (q - 1) / 2 by decide +kernel]
      exact seven_nonresidue
    intro out arg x ha
    have e : implFix.sqrt out arg = sqrt out arg := rfl
    rw [e, sqrt_eq]
    exact hs out arg x ha

end Verif.Bls381.Fq
