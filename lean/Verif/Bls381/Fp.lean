import Verif.Bls381.FpWide
import Verif.Bls381.Prime
import Verif.Native.Roots

/-!
# The base field of BLS12-381 (`crypto/core/curves/native/bls12381/fp.go`)

An element is six limbs in Montgomery form.  Go's `int` flags are modelled by their 64-bit pattern.  Methods that write a receiver
and may leave it as it was take the receiver's value first (`out`).  A limb vector *represents* `x : ZMod p` when it is below `p`
and congruent to `x·2^384`.
-/

set_option linter.unusedSectionVars false
set_option exponentiation.threshold 1000

namespace Verif.Bls381.Fp
open Verif.Native Verif.Bytes

/-! ## Methods -/

/-- `halfModulus` (crypto/core/curves/native/bls12381/fp.go:25-32). -/
def halfModulus : L6 := ⟨0xdcff7fffffffd556, 0x0f55ffff58a9ffff, 0xb39869507b587b12, 0xb23ba5c279c2895f, 0x258dd3db21a5d66b,
  0x0d0088f51cbff34d⟩

/-- `r` (crypto/core/curves/native/bls12381/fp.go:34-41). -/
def r : L6 := ⟨0x760900000002fffd, 0xebf4000bc40c0002, 0x5f48985753c758ba, 0x77ce585370525745, 0x5c071a97a256ec6d,
  0x15f65ec3fa80e493⟩

/-- `r2` (crypto/core/curves/native/bls12381/fp.go:43-50). -/
def r2 : L6 := ⟨0xf4df1f341c341746, 0x0a76e6a609d104f1, 0x8de5476c4c95b6d5, 0x67eb88a9939d83c0, 0x9a793e85b519952d,
  0x11988fe592cae3aa⟩

/-- `r3` (crypto/core/curves/native/bls12381/fp.go:52-59). -/
def r3 : L6 := ⟨0xed48ac6bd94ca1e0, 0x315f831e03a7adf8, 0x9a53352a615e29dd, 0x34c04e5e921e1761, 0x2512d43565724728,
  0x0aa6346091755d4d⟩

/-- `biModulus` (crypto/core/curves/native/bls12381/fp.go:60-63). -/
def biModulus : Int := beToNat [
  0x1a, 0x01, 0x11, 0xea, 0x39, 0x7f, 0xe6, 0x9a, 0x4b, 0x1b, 0xa7, 0xb6, 0x43, 0x4b, 0xac, 0xd7, 0x64, 0x77, 0x4b, 0x84, 0xf3, 0x85,
  0x12, 0xbf, 0x67, 0x30, 0xd2, 0xa0, 0xf6, 0xb0, 0xf6, 0x24, 0x1e, 0xab, 0xff, 0xfe, 0xb1, 0x53, 0xff, 0xff, 0xb9, 0xfe, 0xff, 0xff,
  0xff, 0xff, 0xaa, 0xab]

/-- `Sub` (crypto/core/curves/native/bls12381/fp.go:392-418). -/
def sub (a b : L6) : L6 :=
  Sbb a.l0 b.l0 0 fun d0 borrow =>
  Sbb a.l1 b.l1 borrow fun d1 borrow =>
  Sbb a.l2 b.l2 borrow fun d2 borrow =>
  Sbb a.l3 b.l3 borrow fun d3 borrow =>
  Sbb a.l4 b.l4 borrow fun d4 borrow =>
  Sbb a.l5 b.l5 borrow fun d5 borrow =>
  let borrow := 0 - borrow
  Adc d0 (modulus.l0 &&& borrow) 0 fun d0 carry =>
  Adc d1 (modulus.l1 &&& borrow) carry fun d1 carry =>
  Adc d2 (modulus.l2 &&& borrow) carry fun d2 carry =>
  Adc d3 (modulus.l3 &&& borrow) carry fun d3 carry =>
  Adc d4 (modulus.l4 &&& borrow) carry fun d4 carry =>
  Adc d5 (modulus.l5 &&& borrow) carry fun d5 _ =>
  ⟨d0, d1, d2, d3, d4, d5⟩

/-- `Add` (crypto/core/curves/native/bls12381/fp.go:373-389). -/
def add (a b : L6) : L6 :=
  Adc a.l0 b.l0 0 fun t0 carry =>
  Adc a.l1 b.l1 carry fun t1 carry =>
  Adc a.l2 b.l2 carry fun t2 carry =>
  Adc a.l3 b.l3 carry fun t3 carry =>
  Adc a.l4 b.l4 carry fun t4 carry =>
  Adc a.l5 b.l5 carry fun t5 _ =>
  sub ⟨t0, t1, t2, t3, t4, t5⟩ modulus

/-- `Neg` (crypto/core/curves/native/bls12381/fp.go:230-254). -/
def neg (a : L6) : L6 :=
  Sbb modulus.l0 a.l0 0 fun t0 borrow =>
  Sbb modulus.l1 a.l1 borrow fun t1 borrow =>
  Sbb modulus.l2 a.l2 borrow fun t2 borrow =>
  Sbb modulus.l3 a.l3 borrow fun t3 borrow =>
  Sbb modulus.l4 a.l4 borrow fun t4 borrow =>
  Sbb modulus.l5 a.l5 borrow fun t5 _ =>
  let mask := a.l0 ||| a.l1 ||| a.l2 ||| a.l3 ||| a.l4 ||| a.l5
  let mask : UInt64 := (0 : UInt64) - ((mask ||| (0 - mask)) >>> 63)
  ⟨t0 &&& mask, t1 &&& mask, t2 &&& mask, t3 &&& mask, t4 &&& mask, t5 &&& mask⟩

/-- `montReduce` (crypto/core/curves/native/bls12381/fp.go:638-697): the words, then the final subtraction. -/
def montReduce (w : L12) : L6 := sub (montWords w) modulus

/-- `Mul` (crypto/core/curves/native/bls12381/fp.go:314-360). -/
def mul (a b : L6) : L6 := montReduce (mulWide a b)

/-- `Square` (crypto/core/curves/native/bls12381/fp.go:257-306). -/
def square (a : L6) : L6 := montReduce (squareWide a)

/-- `Double` (crypto/core/curves/native/bls12381/fp.go:309-311). -/
def double (a : L6) : L6 := add a a

/-- `MulBy3b` (crypto/core/curves/native/bls12381/fp.go:363-370). -/
def mulBy3b (arg : L6) : L6 :=
  let a := double arg
  let t := double a
  let a := double t
  add a t

/-- `toMontgomery` (crypto/core/curves/native/bls12381/fp.go:217-220). -/
def toMont (a : L6) : L6 := mul a r2

/-- `fromMontgomery` (crypto/core/curves/native/bls12381/fp.go:223-227). -/
def fromMont (a : L6) : L6 := montReduce ⟨a.l0, a.l1, a.l2, a.l3, a.l4, a.l5, 0, 0, 0, 0, 0, 0⟩

/-- `IsZero` (crypto/core/curves/native/bls12381/fp.go:73-81). -/
def isZero (f : L6) : UInt64 :=
  let t := f.l0
  let t := t ||| f.l1
  let t := t ||| f.l2
  let t := t ||| f.l3
  let t := t ||| f.l4
  let t := t ||| f.l5
  uint1 (isZeroWord t)

/-- `IsNonZero` (crypto/core/curves/native/bls12381/fp.go:84-92). -/
def isNonZero (f : L6) : UInt64 :=
  let t := f.l0
  let t := t ||| f.l1
  let t := t ||| f.l2
  let t := t ||| f.l3
  let t := t ||| f.l4
  let t := t ||| f.l5
  uint1 (Int.neg (sar63 (t ||| (0 - t))))

/-- `Cmp` (crypto/core/curves/native/bls12381/fp.go:102-128); the loop body is that of the native fields. -/
def cmp (f rhs : L6) : Int :=
  let s := cmpStep (0, 0) f.l5 rhs.l5
  let s := cmpStep s f.l4 rhs.l4
  let s := cmpStep s f.l3 rhs.l3
  let s := cmpStep s f.l2 rhs.l2
  let s := cmpStep s f.l1 rhs.l1
  let s := cmpStep s f.l0 rhs.l0
  (s.1.toNat : Int) - (s.2.toNat : Int)

/-- `Equal` (crypto/core/curves/native/bls12381/fp.go:131-139). -/
def equal (f rhs : L6) : UInt64 :=
  let t := f.l0 ^^^ rhs.l0
  let t := t ||| (f.l1 ^^^ rhs.l1)
  let t := t ||| (f.l2 ^^^ rhs.l2)
  let t := t ||| (f.l3 ^^^ rhs.l3)
  let t := t ||| (f.l4 ^^^ rhs.l4)
  let t := t ||| (f.l5 ^^^ rhs.l5)
  uint1 (isZeroWord t)

/-- `IsOne` (crypto/core/curves/native/bls12381/fp.go:95-97). -/
def isOne (f : L6) : UInt64 := equal f r

/-- The borrow of `f - g`, as computed in `LexicographicallyLargest` and `SetBytes`
(crypto/core/curves/native/bls12381/fp.go:148-153, 471-476). -/
def borrowOf (f g : L6) : UInt64 :=
  Sbb f.l0 g.l0 0 fun _ borrow =>
  Sbb f.l1 g.l1 borrow fun _ borrow =>
  Sbb f.l2 g.l2 borrow fun _ borrow =>
  Sbb f.l3 g.l3 borrow fun _ borrow =>
  Sbb f.l4 g.l4 borrow fun _ borrow =>
  Sbb f.l5 g.l5 borrow fun _ borrow => borrow

/-- `LexicographicallyLargest` (crypto/core/curves/native/bls12381/fp.go:144-156). -/
def lexLargest (f : L6) : UInt64 := (borrowOf (fromMont f) halfModulus - 1) &&& 1

/-- `Sgn0` (crypto/core/curves/native/bls12381/fp.go:159-162). -/
def sgn0 (f : L6) : UInt64 := (fromMont f).l0 &&& 1

/-- `SetOne` (crypto/core/curves/native/bls12381/fp.go:165-173). -/
def one : L6 := r

/-- `SetZero` (crypto/core/curves/native/bls12381/fp.go:176-184). -/
def zero : L6 := ⟨0, 0, 0, 0, 0, 0⟩

/-- `SetUint64` (crypto/core/curves/native/bls12381/fp.go:187-195). -/
def setUint64 (v : UInt64) : L6 := toMont ⟨v, 0, 0, 0, 0, 0⟩

/-- `CMove` (crypto/core/curves/native/bls12381/fp.go:590-599). -/
def cmove (a b : L6) (choice : UInt64) : L6 :=
  let mask := 0 - choice
  ⟨a.l0 ^^^ ((a.l0 ^^^ b.l0) &&& mask), a.l1 ^^^ ((a.l1 ^^^ b.l1) &&& mask), a.l2 ^^^ ((a.l2 ^^^ b.l2) &&& mask),
    a.l3 ^^^ ((a.l3 ^^^ b.l3) &&& mask), a.l4 ^^^ ((a.l4 ^^^ b.l4) &&& mask), a.l5 ^^^ ((a.l5 ^^^ b.l5) &&& mask)⟩

/-- `CNeg` (crypto/core/curves/native/bls12381/fp.go:602-606): without the choice the receiver keeps its value. -/
def cneg (out a : L6) (choice : UInt64) : L6 := cmove out (neg a) choice

/-- One iteration of the loop in `pow` (crypto/core/curves/native/bls12381/fp.go:620-624). -/
def powStep (base res : L6) (bit : UInt64) : L6 :=
  let res := square res
  let tmp := mul res base
  cmove res tmp bit

/-- `pow` (crypto/core/curves/native/bls12381/fp.go:614-635): limbs from 5 down to 0, bits from 63 down to 0. -/
def pow (base e : L6) : L6 :=
  [e.l5, e.l4, e.l3, e.l2, e.l1, e.l0].foldl
    (fun res w => ((List.range 64).reverse.map (expBit w)).foldl (powStep base) res) r

/-- `Exp` (crypto/core/curves/native/bls12381/fp.go:609-612). -/
def exp (base e : L6) : L6 := pow base (fromMont e)

/-- `Sqrt` (crypto/core/curves/native/bls12381/fp.go:420-439): the receiver's new value and the flag. -/
def sqrt (out a : L6) : L6 × UInt64 :=
  let z := pow a ⟨0xee7fbfffffffeaab, 0x07aaffffac54ffff, 0xd9cc34a83dac3d89, 0xd91dd2e13ce144af, 0x92c6e9ed90d2eb35,
    0x0680447a8e5ff9a6⟩
  let c := square z
  let wasSquare := equal c a
  (cmove out z wasSquare, wasSquare)

/-- `Invert` (crypto/core/curves/native/bls12381/fp.go:442-456). -/
def invert (a : L6) : L6 × UInt64 :=
  let t := pow a ⟨0xb9feffffffffaaa9, 0x1eabfffeb153ffff, 0x6730d2a0f6b0f624, 0x64774b84f38512bf, 0x4b1ba7b6434bacd7,
    0x1a0111ea397fe69a⟩
  let wasInverted := isNonZero a
  (cmove a t wasInverted, wasInverted)

/-- Six consecutive little-endian words starting at byte `o` (crypto/core/curves/native/bls12381/fp.go:464-469, 500-515). -/
def leLimbs6 (b : List UInt8) (o : Nat) : L6 :=
  ⟨leUint64 ((b.drop o).take 8), leUint64 ((b.drop (o + 8)).take 8), leUint64 ((b.drop (o + 16)).take 8),
    leUint64 ((b.drop (o + 24)).take 8), leUint64 ((b.drop (o + 32)).take 8), leUint64 ((b.drop (o + 40)).take 8)⟩

/-- `SetBytes` of 48 bytes (crypto/core/curves/native/bls12381/fp.go:460-483): the receiver's new value and the flag. -/
def setBytes (out : L6) (arg : List UInt8) : L6 × UInt64 :=
  let t := leLimbs6 arg 0
  let mask := borrowOf t modulus
  (cmove out (toMont t) mask, mask)

/-- `SetBytesWide` of 96 bytes (crypto/core/curves/native/bls12381/fp.go:499-520). -/
def setBytesWide (a : List UInt8) : L6 :=
  let d0 := leLimbs6 a 0
  let d1 := leLimbs6 a 48
  let d0 := mul d0 r2
  let d1 := mul d1 r3
  add d0 d1

/-- `SetBigInt` (crypto/core/curves/native/bls12381/fp.go:524-532); the flag of `SetBytes` is ignored.  `FillBytes` panics when the
value does not fit. -/
def setBigInt (out : L6) (bi : Int) : Res L6 :=
  let t := bi % biModulus
  match fillBytes 48 t.natAbs with
  | none => .panic
  | some buffer => .ok (setBytes out buffer.reverse).1

/-- `SetLimbs` (crypto/core/curves/native/bls12381/fp.go:547-549). -/
def setLimbs (a : L6) : L6 := toMont a

/-- `binary.LittleEndian.PutUint64` (package encoding/binary). -/
def putUint64 (w : UInt64) : List UInt8 := natToLE 8 w.toNat

/-- `Bytes` (crypto/core/curves/native/bls12381/fp.go:564-574). -/
def bytes (f : L6) : List UInt8 :=
  let t := fromMont f
  putUint64 t.l0 ++ putUint64 t.l1 ++ putUint64 t.l2 ++ putUint64 t.l3 ++ putUint64 t.l4 ++ putUint64 t.l5

/-- `BigInt` (crypto/core/curves/native/bls12381/fp.go:577-580). -/
def bigInt (f : L6) : Int := (beToNat (bytes f).reverse : Int)

/-- `Raw` (crypto/core/curves/native/bls12381/fp.go:583-586). -/
def raw (f : L6) : L6 := fromMont f

/-! ## Meaning -/

/-- The order of the base field. -/
abbrev p : Nat :=
  4002409555221667393417789825735904156556882819939007885332058136124031650490837864442687629129015664037894272559787

/-- The limbs `a` represent `x` (Montgomery form, fully reduced). -/
def Rep (a : L6) (x : ZMod p) : Prop := a.val < p ∧ (a.val : ZMod p) = x * 2 ^ 384

instance fact_p : Fact (Nat.Prime p) := ⟨Verif.Native.Primes.prime_4002409555221667393417789825735904156556882819939007885332058136124031650490837864442687629129015664037894272559787⟩

/-! ## Words -/

theorem modulus_val : modulus.val = p := by decide +kernel
theorem modulus_zval : modulus.zval = (p : Int) := by rw [L6.zval_eq, modulus_val]
theorem p_lt : p < 2 ^ 381 := by decide +kernel
theorem r_val : r.val = 2 ^ 384 % p := by decide +kernel
theorem r2_val : r2.val = 2 ^ 768 % p := by decide +kernel
theorem r3_val : r3.val = 2 ^ 1152 % p := by
  set_option exponentiation.threshold 2000 in decide +kernel
theorem half_val : halfModulus.val = (p + 1) / 2 := by decide +kernel
theorem bi_val : biModulus = (p : Int) := by decide +kernel

theorem mask_zero (x : UInt64) : x &&& (0 - 0) = 0 := by
  rw [show (0 : UInt64) - 0 = 0 from rfl, UInt64.and_zero]
theorem mask_one (x : UInt64) : x &&& (0 - 1) = x := by
  rw [show (0 : UInt64) - 1 = -1 from rfl, UInt64.and_neg_one]

theorem bit_cases (b : UInt64) (h : z b ≤ 1) : b = 0 ∨ b = 1 := by
  have : b.toNat = 0 ∨ b.toNat = 1 := by unfold z at h; omega
  rcases this with h | h
  · left; exact UInt64.toNat.inj h
  · right; exact UInt64.toNat.inj h

theorem cmove_zero (a b : L6) : cmove a b 0 = a := by
  unfold cmove
  simp only [mask_zero, UInt64.xor_zero]

theorem xx (x y : UInt64) : x ^^^ (x ^^^ y) = y := by rw [← UInt64.xor_assoc, UInt64.xor_self, UInt64.zero_xor]

theorem cmove_one (a b : L6) : cmove a b 1 = b := by
  unfold cmove
  simp only [mask_one, xx]

/-- The borrow chain, on integers. -/
theorem borrowOf_spec (f g : L6) : borrowOf f g = if f.val < g.val then 1 else 0 := by
  suffices H : ∀ P : UInt64 → Prop, (∀ b, (b = if f.val < g.val then 1 else 0) → P b) → P (borrowOf f g) from
    H _ (fun _ h => h)
  intro P hP
  have z0 : z 0 = 0 := rfl
  unfold borrowOf
  refine wp_sbb P _ _ _ _ (by rw [z0]; norm_num) fun d0 b0 h0 c0 => ?_
  refine wp_sbb P _ _ _ _ c0 fun d1 b1 h1 c1 => ?_
  refine wp_sbb P _ _ _ _ c1 fun d2 b2 h2 c2 => ?_
  refine wp_sbb P _ _ _ _ c2 fun d3 b3 h3 c3 => ?_
  refine wp_sbb P _ _ _ _ c3 fun d4 b4 h4 c4 => ?_
  refine wp_sbb P _ _ _ _ c4 fun d5 b5 h5 c5 => ?_
  refine hP _ ?_
  have hd := (L6.mk d0 d1 d2 d3 d4 d5).zval_nonneg
  have hl := (L6.mk d0 d1 d2 d3 d4 d5).zval_lt
  have e : (L6.mk d0 d1 d2 d3 d4 d5).zval - 18446744073709551616 ^ 6 * z b5 = f.zval - g.zval := by
    unfold L6.zval; dsimp only
    rw [z0] at h0
    linear_combination h0 + 18446744073709551616 ^ 1 * h1 + 18446744073709551616 ^ 2 * h2 + 18446744073709551616 ^ 3 * h3 +
      18446744073709551616 ^ 4 * h4 + 18446744073709551616 ^ 5 * h5
  rw [L6.zval_eq f, L6.zval_eq g] at e
  rcases bit_cases b5 c5 with rfl | rfl
  · rw [z0] at e
    rw [if_neg (by omega)]
  · rw [show z 1 = 1 from rfl] at e
    rw [if_pos (by omega)]

/-- `Sub` on integers. -/
theorem sub_zval (a b : L6) (h : -(p : Int) ≤ a.zval - b.zval) :
    (sub a b).zval = if a.zval - b.zval < 0 then a.zval - b.zval + p else a.zval - b.zval := by
  suffices H : ∀ P : L6 → Prop, (∀ t : L6, (t.zval = if a.zval - b.zval < 0 then a.zval - b.zval + p else a.zval - b.zval) → P t) →
      P (sub a b) from H _ (fun _ h => h)
  intro P hP
  have z0 : z 0 = 0 := rfl
  have z1 : z 1 = 1 := rfl
  unfold sub
  refine wp_sbb P _ _ _ _ (by rw [z0]; norm_num) fun d0 b0 h0 c0 => ?_
  refine wp_sbb P _ _ _ _ c0 fun d1 b1 h1 c1 => ?_
  refine wp_sbb P _ _ _ _ c1 fun d2 b2 h2 c2 => ?_
  refine wp_sbb P _ _ _ _ c2 fun d3 b3 h3 c3 => ?_
  refine wp_sbb P _ _ _ _ c3 fun d4 b4 h4 c4 => ?_
  refine wp_sbb P _ _ _ _ c4 fun d5 b5 h5 c5 => ?_
  dsimp only
  refine wp_adc P _ _ _ _ (.inr (.inr (by rw [z0]; norm_num))) fun e0 k0 g0 f0 => ?_
  refine wp_adc P _ _ _ _ (.inr (.inr f0)) fun e1 k1 g1 f1 => ?_
  refine wp_adc P _ _ _ _ (.inr (.inr f1)) fun e2 k2 g2 f2 => ?_
  refine wp_adc P _ _ _ _ (.inr (.inr f2)) fun e3 k3 g3 f3 => ?_
  refine wp_adc P _ _ _ _ (.inr (.inr f3)) fun e4 k4 g4 f4 => ?_
  refine wp_adc P _ _ _ _ (.inr (.inr f4)) fun e5 k5 g5 f5 => ?_
  refine hP _ ?_
  have hd := (L6.mk d0 d1 d2 d3 d4 d5).zval_nonneg
  have hl := (L6.mk d0 d1 d2 d3 d4 d5).zval_lt
  have he := (L6.mk e0 e1 e2 e3 e4 e5).zval_nonneg
  have hk := (L6.mk e0 e1 e2 e3 e4 e5).zval_lt
  have ed : (L6.mk d0 d1 d2 d3 d4 d5).zval - 18446744073709551616 ^ 6 * z b5 = a.zval - b.zval := by
    unfold L6.zval; dsimp only
    rw [z0] at h0
    linear_combination h0 + 18446744073709551616 ^ 1 * h1 + 18446744073709551616 ^ 2 * h2 + 18446744073709551616 ^ 3 * h3 +
      18446744073709551616 ^ 4 * h4 + 18446744073709551616 ^ 5 * h5
  have hp : (p : Int) < 18446744073709551616 ^ 6 := by decide +kernel
  rcases bit_cases b5 c5 with rfl | rfl
  · simp only [mask_zero] at g0 g1 g2 g3 g4 g5
    have ee : (L6.mk e0 e1 e2 e3 e4 e5).zval + 18446744073709551616 ^ 6 * z k5 = (L6.mk d0 d1 d2 d3 d4 d5).zval := by
      unfold L6.zval; dsimp only
      rw [z0] at *
      linear_combination g0 + 18446744073709551616 ^ 1 * g1 + 18446744073709551616 ^ 2 * g2 + 18446744073709551616 ^ 3 * g3 +
        18446744073709551616 ^ 4 * g4 + 18446744073709551616 ^ 5 * g5
    rw [z0] at ed
    generalize (L6.mk e0 e1 e2 e3 e4 e5).zval = E at *
    generalize (L6.mk d0 d1 d2 d3 d4 d5).zval = D at *
    have : z k5 = 0 := by
      have := z_nonneg k5
      by_contra hc
      have : z k5 = 1 := by omega
      rw [this] at ee
      omega
    rw [this] at ee
    rw [if_neg (by omega)]
    omega
  · simp only [mask_one] at g0 g1 g2 g3 g4 g5
    have ee : (L6.mk e0 e1 e2 e3 e4 e5).zval + 18446744073709551616 ^ 6 * z k5 = (L6.mk d0 d1 d2 d3 d4 d5).zval + modulus.zval := by
      unfold L6.zval; dsimp only
      rw [z0] at g0
      linear_combination g0 + 18446744073709551616 ^ 1 * g1 + 18446744073709551616 ^ 2 * g2 + 18446744073709551616 ^ 3 * g3 +
        18446744073709551616 ^ 4 * g4 + 18446744073709551616 ^ 5 * g5
    rw [modulus_zval] at ee
    rw [z1] at ed
    generalize (L6.mk e0 e1 e2 e3 e4 e5).zval = E at *
    generalize (L6.mk d0 d1 d2 d3 d4 d5).zval = D at *
    have hneg : a.zval - b.zval < 0 := by omega
    rw [if_pos hneg]
    have : z k5 = 1 := by
      have := z_nonneg k5
      by_contra hc
      have : z k5 = 0 := by omega
      rw [this] at ee
      omega
    rw [this] at ee
    omega

theorem add_val (a b : L6) (ha : a.val < p) (hb : b.val < p) : (add a b).val = (a.val + b.val) % p := by
  suffices H : ∀ P : L6 → Prop, (∀ t : L6, t.val = (a.val + b.val) % p → P t) → P (add a b) from H _ (fun _ h => h)
  intro P hP
  have z0 : z 0 = 0 := rfl
  unfold add
  refine wp_adc P _ _ _ _ (.inr (.inr (by rw [z0]; norm_num))) fun e0 k0 g0 f0 => ?_
  refine wp_adc P _ _ _ _ (.inr (.inr f0)) fun e1 k1 g1 f1 => ?_
  refine wp_adc P _ _ _ _ (.inr (.inr f1)) fun e2 k2 g2 f2 => ?_
  refine wp_adc P _ _ _ _ (.inr (.inr f2)) fun e3 k3 g3 f3 => ?_
  refine wp_adc P _ _ _ _ (.inr (.inr f3)) fun e4 k4 g4 f4 => ?_
  refine wp_adc P _ _ _ _ (.inr (.inr f4)) fun e5 k5 g5 f5 => ?_
  refine hP _ ?_
  have he := (L6.mk e0 e1 e2 e3 e4 e5).zval_nonneg
  have ee : (L6.mk e0 e1 e2 e3 e4 e5).zval + 18446744073709551616 ^ 6 * z k5 = a.zval + b.zval := by
    unfold L6.zval; dsimp only
    rw [z0] at *
    linear_combination g0 + 18446744073709551616 ^ 1 * g1 + 18446744073709551616 ^ 2 * g2 + 18446744073709551616 ^ 3 * g3 +
      18446744073709551616 ^ 4 * g4 + 18446744073709551616 ^ 5 * g5
  have hk := z_nonneg k5
  have hp : 2 * (p : Int) < 18446744073709551616 ^ 6 := by decide +kernel
  rw [L6.zval_eq a, L6.zval_eq b] at ee
  have k0 : z k5 = 0 := by
    by_contra hc
    have : z k5 = 1 := by omega
    rw [this] at ee
    omega
  rw [k0] at ee
  have hs := sub_zval (L6.mk e0 e1 e2 e3 e4 e5) modulus (by rw [modulus_zval]; omega)
  rw [modulus_zval, L6.zval_eq (sub _ _)] at hs
  generalize (L6.mk e0 e1 e2 e3 e4 e5).zval = E at *
  by_cases hlt : a.val + b.val < p
  · rw [Nat.mod_eq_of_lt hlt]
    rw [if_pos (by omega)] at hs
    omega
  · rw [Nat.mod_eq_sub_mod (by omega), Nat.mod_eq_of_lt (by omega)]
    rw [if_neg (by omega)] at hs
    omega

theorem sub_val (a b : L6) (ha : a.val < p) (hb : b.val < p) : (sub a b).val = (a.val + (p - b.val)) % p := by
  have hs := sub_zval a b (by rw [L6.zval_eq, L6.zval_eq]; omega)
  rw [L6.zval_eq, L6.zval_eq, L6.zval_eq] at hs
  by_cases hlt : a.val < b.val
  · rw [if_pos (by omega)] at hs
    rw [Nat.mod_eq_of_lt (by omega)]
    omega
  · rw [if_neg (by omega)] at hs
    rw [Nat.mod_eq_sub_mod (by omega), Nat.mod_eq_of_lt (by omega)]
    omega

theorem limbs6_zero (a : L6) : a.l0 ||| a.l1 ||| a.l2 ||| a.l3 ||| a.l4 ||| a.l5 = 0 ↔ a.val = 0 := by
  rw [or_eq_zero, or_eq_zero, or_eq_zero, or_eq_zero, or_eq_zero, ← UInt64.toNat_inj, ← UInt64.toNat_inj, ← UInt64.toNat_inj,
    ← UInt64.toNat_inj, ← UInt64.toNat_inj, ← UInt64.toNat_inj]
  unfold L6.val
  simp only [UInt64.toNat_zero]
  omega

theorem negmask (t : UInt64) : (0 : UInt64) - ((t ||| (0 - t)) >>> 63) = if t = 0 then 0 else 0 - 1 := by
  rw [shr63_top]
  by_cases h : t = 0
  · subst h; rfl
  · rw [if_neg h, if_pos ((top_iff _).2 ((neg_or_top t).2 h))]

theorem neg_val (a : L6) (ha : a.val < p) : (neg a).val = (p - a.val) % p := by
  suffices H : ∀ P : L6 → Prop, (∀ t : L6, t.val = (p - a.val) % p → P t) → P (neg a) from H _ (fun _ h => h)
  intro P hP
  have z0 : z 0 = 0 := rfl
  unfold neg
  refine wp_sbb P _ _ _ _ (by rw [z0]; norm_num) fun d0 b0 h0 c0 => ?_
  refine wp_sbb P _ _ _ _ c0 fun d1 b1 h1 c1 => ?_
  refine wp_sbb P _ _ _ _ c1 fun d2 b2 h2 c2 => ?_
  refine wp_sbb P _ _ _ _ c2 fun d3 b3 h3 c3 => ?_
  refine wp_sbb P _ _ _ _ c3 fun d4 b4 h4 c4 => ?_
  refine wp_sbb P _ _ _ _ c4 fun d5 b5 h5 c5 => ?_
  refine hP _ ?_
  dsimp only
  rw [negmask]
  by_cases hz : a.val = 0
  · rw [if_pos ((limbs6_zero a).2 hz)]
    simp only [UInt64.and_zero]
    rw [hz, Nat.sub_zero, Nat.mod_self]
    rfl
  · rw [if_neg (fun h => hz ((limbs6_zero a).1 h))]
    simp only [mask_one]
    have hd := (L6.mk d0 d1 d2 d3 d4 d5).zval_nonneg
    have hl := (L6.mk d0 d1 d2 d3 d4 d5).zval_lt
    have ed : (L6.mk d0 d1 d2 d3 d4 d5).zval - 18446744073709551616 ^ 6 * z b5 = modulus.zval - a.zval := by
      unfold L6.zval; dsimp only
      rw [z0] at h0
      linear_combination h0 + 18446744073709551616 ^ 1 * h1 + 18446744073709551616 ^ 2 * h2 + 18446744073709551616 ^ 3 * h3 +
        18446744073709551616 ^ 4 * h4 + 18446744073709551616 ^ 5 * h5
    rw [modulus_zval, L6.zval_eq a] at ed
    rw [Nat.mod_eq_of_lt (by omega)]
    have hval := L6.zval_eq (L6.mk d0 d1 d2 d3 d4 d5)
    generalize (L6.mk d0 d1 d2 d3 d4 d5).zval = D at *
    rcases bit_cases b5 c5 with rfl | rfl
    · rw [z0] at ed; omega
    · rw [show z 1 = 1 from rfl] at ed; omega

/-- Reduction: below `p` and congruent to `w / 2^384`. -/
theorem montReduce_spec (w : L12) (n : Nat) (hn : w.zval = (n : Int)) (h : n < 2 ^ 384 * p) :
    (montReduce w).val < p ∧ (((montReduce w).val * 2 ^ 384 : Nat) : ZMod p) = (n : ZMod p) := by
  obtain ⟨hlt, U, hU⟩ := montWords_spec w (by rw [hn]; exact_mod_cast h)
  have h0 := (montWords w).zval_nonneg
  have hs := sub_zval (montWords w) modulus (by rw [modulus_zval]; omega)
  unfold montReduce
  rw [modulus_zval, L6.zval_eq (sub _ _)] at hs
  generalize (sub (montWords w) modulus).val = v at *
  generalize (montWords w).zval = T at *
  have : ∃ q : Int, (v : Int) = T - q * p ∧ v < p := by
    by_cases hc : T - (p : Int) < 0
    · rw [if_pos hc] at hs
      exact ⟨0, by omega, by omega⟩
    · rw [if_neg hc] at hs
      have hpe : (p : Int) = 4002409555221667393417789825735904156556882819939007885332058136124031650490837864442687629129015664037894272559787 := rfl
      exact ⟨1, by omega, by omega⟩
  obtain ⟨q, hv, hvl⟩ := this
  refine ⟨hvl, ?_⟩
  have e : ((v * 2 ^ 384 : Nat) : Int) = (n : Int) + (U - q * 2 ^ 384) * (p : Int) := by
    push_cast
    rw [hv]
    have e2 : (18446744073709551616 : Int) ^ 6 = 2 ^ 384 := by norm_num
    rw [e2] at hU
    rw [hn] at hU
    linear_combination hU
  have e3 : (((v * 2 ^ 384 : Nat) : Int) : ZMod p) = (((n : Int) + (U - q * 2 ^ 384) * (p : Int) : Int) : ZMod p) := by rw [e]
  rw [Int.cast_natCast, Int.cast_add, Int.cast_mul, Int.cast_natCast, Int.cast_natCast, ZMod.natCast_self, mul_zero,
    add_zero] at e3
  exact e3

/-! ## Field operations -/

theorem two384 : ((2 ^ 384 : Nat) : ZMod p) = 2 ^ 384 := by rw [Nat.cast_pow, Nat.cast_ofNat]

theorem unit384 : (2 : ZMod p) ^ 384 ≠ 0 := by
  apply pow_ne_zero
  have : ((2 : Nat) : ZMod p) ≠ 0 := by
    rw [Ne, ZMod.natCast_eq_zero_iff]
    exact fun h => absurd (Nat.le_of_dvd (by norm_num) h) (by decide +kernel)
  exact_mod_cast this

theorem redc {w : L12} {n : Nat} {x : ZMod p} (hn : w.zval = (n : Int)) (h : n < 2 ^ 384 * p)
    (hx : (n : ZMod p) = x * 2 ^ 384 * 2 ^ 384) : Rep (montReduce w) x := by
  obtain ⟨h1, h2⟩ := montReduce_spec w n hn h
  refine ⟨h1, ?_⟩
  rw [Nat.cast_mul, two384, hx] at h2
  exact mul_right_cancel₀ unit384 h2

theorem rep_unique {a b : L6} {x : ZMod p} (ha : Rep a x) (hb : Rep b x) : a = b := by
  have e : (a.val : ZMod p) = (b.val : ZMod p) := ha.2.trans hb.2.symm
  have := (ZMod.natCast_eq_natCast_iff _ _ _).1 e
  unfold Nat.ModEq at this
  rw [Nat.mod_eq_of_lt ha.1, Nat.mod_eq_of_lt hb.1] at this
  exact L6.val_inj this

theorem rep_value {a : L6} {x y : ZMod p} (hx : Rep a x) (hy : Rep a y) : x = y :=
  mul_right_cancel₀ unit384 (hx.2.symm.trans hy.2)

theorem rep_exists (a : L6) (h : a.val < p) : ∃ x : ZMod p, Rep a x :=
  ⟨(a.val : ZMod p) * (2 ^ 384)⁻¹, h, by rw [mul_assoc, inv_mul_cancel₀ unit384, mul_one]⟩

theorem mul_redc {a b : L6} {x : ZMod p} (hb : b.val < p) (hx : ((a.val * b.val : Nat) : ZMod p) = x * 2 ^ 384 * 2 ^ 384) :
    Rep (mul a b) x :=
  redc (by rw [mulWide_spec, L6.zval_eq, L6.zval_eq, Nat.cast_mul]) (Nat.mul_lt_mul'' a.val_lt hb) hx

theorem mul_spec {a b : L6} {x y : ZMod p} (ha : Rep a x) (hb : Rep b y) : Rep (mul a b) (x * y) := by
  refine mul_redc hb.1 ?_
  rw [Nat.cast_mul, ha.2, hb.2]
  generalize (2 : ZMod p) ^ 384 = w
  ring

theorem square_spec {a : L6} {x : ZMod p} (ha : Rep a x) : Rep (square a) (x * x) := by
  refine redc (n := a.val * a.val) (by rw [squareWide_spec, L6.zval_eq, Nat.cast_mul]) (Nat.mul_lt_mul'' a.val_lt ha.1) ?_
  rw [Nat.cast_mul, ha.2]
  generalize (2 : ZMod p) ^ 384 = w
  ring

theorem add_spec {a b : L6} {x y : ZMod p} (ha : Rep a x) (hb : Rep b y) : Rep (add a b) (x + y) := by
  have h := add_val a b ha.1 hb.1
  refine ⟨by rw [h]; exact Nat.mod_lt _ (by norm_num), ?_⟩
  rw [h, ZMod.natCast_mod, Nat.cast_add, ha.2, hb.2]
  generalize (2 : ZMod p) ^ 384 = w
  ring

theorem sub_spec {a b : L6} {x y : ZMod p} (ha : Rep a x) (hb : Rep b y) : Rep (sub a b) (x - y) := by
  have h := sub_val a b ha.1 hb.1
  refine ⟨by rw [h]; exact Nat.mod_lt _ (by norm_num), ?_⟩
  rw [h, ZMod.natCast_mod, Nat.cast_add, Nat.cast_sub hb.1.le, ha.2, hb.2, ZMod.natCast_self]
  generalize (2 : ZMod p) ^ 384 = w
  ring

theorem neg_spec {a : L6} {x : ZMod p} (ha : Rep a x) : Rep (neg a) (-x) := by
  have h := neg_val a ha.1
  refine ⟨by rw [h]; exact Nat.mod_lt _ (by norm_num), ?_⟩
  rw [h, ZMod.natCast_mod, Nat.cast_sub ha.1.le, ha.2, ZMod.natCast_self]
  generalize (2 : ZMod p) ^ 384 = w
  ring

theorem double_spec {a : L6} {x : ZMod p} (ha : Rep a x) : Rep (double a) (x + x) := add_spec ha ha

theorem mulBy3b_spec {a : L6} {x : ZMod p} (ha : Rep a x) : Rep (mulBy3b a) (12 * x) := by
  have h := add_spec (double_spec (double_spec (double_spec ha))) (double_spec (double_spec ha))
  have e : x + x + (x + x) + (x + x + (x + x)) + (x + x + (x + x)) = 12 * x := by ring
  rw [e] at h
  exact h

theorem one_spec : Rep one 1 := by
  refine ⟨by unfold one; rw [r_val]; exact Nat.mod_lt _ (by norm_num), ?_⟩
  unfold one
  rw [r_val, ZMod.natCast_mod, two384, one_mul]

theorem zero_spec : Rep zero 0 := by
  refine ⟨by decide +kernel, ?_⟩
  rw [show zero.val = 0 from rfl, Nat.cast_zero, zero_mul]

theorem two768 : ((2 ^ 768 : Nat) : ZMod p) = 2 ^ 384 * 2 ^ 384 := by
  rw [show (2 : Nat) ^ 768 = 2 ^ (384 + 384) from rfl, pow_add, Nat.cast_mul, two384]

theorem two1152 : ((2 ^ 1152 : Nat) : ZMod p) = 2 ^ 384 * 2 ^ 384 * 2 ^ 384 := by
  have e : (2 : Nat) ^ 1152 = 2 ^ 384 * 2 ^ 384 * 2 ^ 384 := by rw [← pow_add, ← pow_add]
  rw [e, Nat.cast_mul, Nat.cast_mul, two384]

theorem toMont_spec (d : L6) : Rep (toMont d) (d.val : ZMod p) := by
  refine mul_redc (by rw [r2_val]; exact Nat.mod_lt _ (by norm_num)) ?_
  rw [Nat.cast_mul, r2_val, ZMod.natCast_mod, two768, mul_assoc]

theorem fromMont_val {a : L6} {x : ZMod p} (ha : Rep a x) : (fromMont a).val = x.val := by
  have hz : (L12.mk a.l0 a.l1 a.l2 a.l3 a.l4 a.l5 0 0 0 0 0 0).zval = ((a.val : Nat) : Int) := by
    rw [← L6.zval_eq]
    unfold L12.zval L6.zval
    dsimp only
    rw [show z 0 = 0 from rfl]
    ring
  obtain ⟨h1, h2⟩ := montReduce_spec _ a.val hz (lt_of_lt_of_le a.val_lt (Nat.le_mul_of_pos_right _ (by norm_num)))
  rw [Nat.cast_mul, two384, ha.2] at h2
  have := mul_right_cancel₀ unit384 h2
  unfold fromMont
  rw [← this, ZMod.val_natCast, Nat.mod_eq_of_lt h1]

theorem isZero_spec {a : L6} {x : ZMod p} (ha : Rep a x) :
    isZero a = (if x = 0 then 1 else 0) ∧ isNonZero a = (if x = 0 then 0 else 1) := by
  have k0 : a.val = 0 ↔ x = 0 := by
    constructor
    · intro h
      have e := ha.2
      rw [h, Nat.cast_zero] at e
      exact (mul_eq_zero.1 e.symm).resolve_right unit384
    · rintro rfl
      rw [rep_unique ha zero_spec]; rfl
  unfold isZero isNonZero
  dsimp only
  rw [isZeroWord_spec, sar63_eq]
  by_cases h : x = 0
  · have := (limbs6_zero a).2 (k0.2 h)
    rw [if_pos this, if_pos h, if_pos h, if_neg (fun h' => (neg_or_top _).1 h' this)]
    exact ⟨rfl, rfl⟩
  · have : ¬ _ := fun h' => h (k0.1 ((limbs6_zero a).1 h'))
    rw [if_neg this, if_neg h, if_neg h, if_pos ((neg_or_top _).2 this)]
    exact ⟨rfl, rfl⟩

theorem equal_iff (a b : L6) : equal a b = if a = b then 1 else 0 := by
  unfold equal
  dsimp only
  rw [isZeroWord_spec]
  have : (a.l0 ^^^ b.l0 ||| (a.l1 ^^^ b.l1) ||| (a.l2 ^^^ b.l2) ||| (a.l3 ^^^ b.l3) ||| (a.l4 ^^^ b.l4) ||| (a.l5 ^^^ b.l5) = 0) ↔
      a = b := by
    rw [or_eq_zero, or_eq_zero, or_eq_zero, or_eq_zero, or_eq_zero, xor_eq_zero, xor_eq_zero, xor_eq_zero, xor_eq_zero, xor_eq_zero,
      xor_eq_zero]
    constructor
    · rintro ⟨⟨⟨⟨⟨h0, h1⟩, h2⟩, h3⟩, h4⟩, h5⟩
      cases a; cases b
      simp_all
    · rintro rfl
      simp
  by_cases h : a = b
  · rw [if_pos (this.2 h), if_pos h]; rfl
  · rw [if_neg (fun h' => h (this.1 h')), if_neg h]; rfl

theorem equal_spec {a b : L6} {x y : ZMod p} (ha : Rep a x) (hb : Rep b y) : equal a b = if x = y then 1 else 0 := by
  rw [equal_iff]
  by_cases h : x = y
  · subst h
    rw [if_pos rfl, if_pos (rep_unique ha hb)]
  · rw [if_neg h, if_neg]
    rintro rfl
    exact h (rep_value ha hb)

theorem isOne_spec {a : L6} {x : ZMod p} (ha : Rep a x) : isOne a = if x = 1 then 1 else 0 := equal_spec ha one_spec

theorem cmp_spec (f g : L6) : cmp f g = cmp3 f.val g.val := by
  have h0 := f.l0.toNat_lt
  have h1 := f.l1.toNat_lt
  have h2 := f.l2.toNat_lt
  have h3 := f.l3.toNat_lt
  have h4 := f.l4.toNat_lt
  have h5 := f.l5.toNat_lt
  have g0 := g.l0.toNat_lt
  have g1 := g.l1.toNat_lt
  have g2 := g.l2.toNat_lt
  have g3 := g.l3.toNat_lt
  have g4 := g.l4.toNat_lt
  have g5 := g.l5.toNat_lt
  unfold cmp cmp3
  dsimp only
  have gtv : f.val = f.l0.toNat + 2 ^ 64 * f.l1.toNat + 2 ^ 128 * f.l2.toNat + 2 ^ 192 * f.l3.toNat + 2 ^ 256 * f.l4.toNat
    + 2 ^ 320 * f.l5.toNat := rfl
  have ltv : g.val = g.l0.toNat + 2 ^ 64 * g.l1.toNat + 2 ^ 128 * g.l2.toNat + 2 ^ 192 * g.l3.toNat + 2 ^ 256 * g.l4.toNat
    + 2 ^ 320 * g.l5.toNat := rfl
  rcases cmpStep_cases f.l5 g.l5 with ⟨c, e⟩ | ⟨c, e⟩ | ⟨c5, e⟩
  · rw [e, cmpStep_gt, cmpStep_gt, cmpStep_gt, cmpStep_gt, cmpStep_gt, if_neg (by omega), if_neg (by omega)]; rfl
  · rw [e, cmpStep_lt, cmpStep_lt, cmpStep_lt, cmpStep_lt, cmpStep_lt, if_pos (by omega)]; rfl
  rw [e]
  rcases cmpStep_cases f.l4 g.l4 with ⟨c, e⟩ | ⟨c, e⟩ | ⟨c4, e⟩
  · rw [e, cmpStep_gt, cmpStep_gt, cmpStep_gt, cmpStep_gt, if_neg (by omega), if_neg (by omega)]; rfl
  · rw [e, cmpStep_lt, cmpStep_lt, cmpStep_lt, cmpStep_lt, if_pos (by omega)]; rfl
  rw [e]
  rcases cmpStep_cases f.l3 g.l3 with ⟨c, e⟩ | ⟨c, e⟩ | ⟨c3, e⟩
  · rw [e, cmpStep_gt, cmpStep_gt, cmpStep_gt, if_neg (by omega), if_neg (by omega)]; rfl
  · rw [e, cmpStep_lt, cmpStep_lt, cmpStep_lt, if_pos (by omega)]; rfl
  rw [e]
  rcases cmpStep_cases f.l2 g.l2 with ⟨c, e⟩ | ⟨c, e⟩ | ⟨c2, e⟩
  · rw [e, cmpStep_gt, cmpStep_gt, if_neg (by omega), if_neg (by omega)]; rfl
  · rw [e, cmpStep_lt, cmpStep_lt, if_pos (by omega)]; rfl
  rw [e]
  rcases cmpStep_cases f.l1 g.l1 with ⟨c, e⟩ | ⟨c, e⟩ | ⟨c1, e⟩
  · rw [e, cmpStep_gt, if_neg (by omega), if_neg (by omega)]; rfl
  · rw [e, cmpStep_lt, if_pos (by omega)]; rfl
  rw [e]
  rcases cmpStep_cases f.l0 g.l0 with ⟨c, e⟩ | ⟨c, e⟩ | ⟨c0, e⟩
  · rw [e, if_neg (by omega), if_neg (by omega)]; rfl
  · rw [e, if_pos (by omega)]; rfl
  · rw [e, if_neg (by omega), if_pos (by omega)]; rfl

/-- The flag is set exactly for the larger of `x` and `-x`. -/
theorem lexLargest_spec {a : L6} {x : ZMod p} (ha : Rep a x) : lexLargest a = if (-x).val < x.val then 1 else 0 := by
  have hx := ZMod.val_lt x
  unfold lexLargest
  rw [borrowOf_spec, fromMont_val ha, half_val]
  have hn : (-x).val = if x = 0 then 0 else p - x.val := by
    rw [ZMod.neg_val]
  have hodd : p % 2 = 1 := by decide +kernel
  rw [hn]
  by_cases h0 : x = 0
  · subst h0
    rw [if_pos rfl, ZMod.val_zero]
    decide +kernel
  · have : x.val ≠ 0 := fun h => h0 ((ZMod.val_eq_zero x).1 h)
    by_cases hlt : x.val < (p + 1) / 2
    · rw [if_pos hlt, if_neg h0, if_neg (by omega)]; rfl
    · rw [if_neg hlt, if_neg h0, if_pos (by omega)]; rfl

theorem l0_mod2 (a : L6) : a.val % 2 = a.l0.toNat % 2 := by unfold L6.val; omega

theorem sgn0_spec {a : L6} {x : ZMod p} (ha : Rep a x) : sgn0 a = UInt64.ofNat (x.val % 2) := by
  apply UInt64.toNat.inj
  unfold sgn0
  rw [and1, ← l0_mod2, fromMont_val ha, UInt64.toNat_ofNat']
  have := Nat.mod_lt x.val (show 0 < 2 by norm_num)
  exact (Nat.mod_eq_of_lt (by omega)).symm

theorem setUint64_spec (v : UInt64) : Rep (setUint64 v) (v.toNat : ZMod p) := by
  have e : (L6.mk v 0 0 0 0 0).val = v.toNat := by
    show v.toNat + 2 ^ 64 * 0 + 2 ^ 128 * 0 + 2 ^ 192 * 0 + 2 ^ 256 * 0 + 2 ^ 320 * 0 = _
    omega
  have := toMont_spec ⟨v, 0, 0, 0, 0, 0⟩
  rwa [e] at this

theorem powStep_spec {base res : L6} {x : ZMod p} {m : Nat} (hb : Rep base x) (hr : Rep res (x ^ m)) (w : UInt64)
    (j : Nat) (hj : j < 64) : Rep (powStep base res (expBit w j)) (x ^ (2 * m + w.toNat / 2 ^ j % 2)) := by
  have hs := square_spec hr
  have hm := mul_spec hs hb
  unfold powStep
  dsimp only
  rw [expBit_eq w j hj]
  by_cases h : w.toNat / 2 ^ j % 2 = 1
  · rw [if_pos h, h, cmove_one]
    have : x ^ (2 * m + 1) = x ^ m * x ^ m * x := by ring
    rw [this]; exact hm
  · have h0 : w.toNat / 2 ^ j % 2 = 0 := by omega
    rw [if_neg h, h0, cmove_zero]
    have : x ^ (2 * m + 0) = x ^ m * x ^ m := by ring
    rw [this]; exact hs

theorem powLimb_spec {base : L6} {x : ZMod p} (hb : Rep base x) (w : UInt64) :
    ∀ (k : Nat), k ≤ 64 → ∀ (res : L6) (m : Nat), Rep res (x ^ m) →
      Rep (((List.range k).reverse.map (expBit w)).foldl (powStep base) res) (x ^ (m * 2 ^ k + w.toNat % 2 ^ k)) := by
  intro k
  induction k with
  | zero =>
    intro _ res m hr
    simpa [Nat.mod_one] using hr
  | succ k ih =>
    intro hk res m hr
    rw [List.range_succ, List.reverse_append, List.reverse_singleton, List.singleton_append, List.map_cons, List.foldl_cons]
    have h1 := powStep_spec hb hr w k (by omega)
    have h2 := ih (by omega) _ _ h1
    have e : (2 * m + w.toNat / 2 ^ k % 2) * 2 ^ k + w.toNat % 2 ^ k = m * 2 ^ (k + 1) + w.toNat % 2 ^ (k + 1) := by
      rw [pow_succ, Nat.mod_mul]
      ring
    rw [e] at h2
    exact h2

theorem digits6 (e : L6) :
    ((((((0 * 2 ^ 64 + e.l5.toNat % 2 ^ 64) * 2 ^ 64 + e.l4.toNat % 2 ^ 64) * 2 ^ 64 + e.l3.toNat % 2 ^ 64) * 2 ^ 64
      + e.l2.toNat % 2 ^ 64) * 2 ^ 64 + e.l1.toNat % 2 ^ 64) * 2 ^ 64 + e.l0.toNat % 2 ^ 64) = e.val := by
  have h0 := e.l0.toNat_lt
  have h1 := e.l1.toNat_lt
  have h2 := e.l2.toNat_lt
  have h3 := e.l3.toNat_lt
  have h4 := e.l4.toNat_lt
  have h5 := e.l5.toNat_lt
  unfold L6.val
  omega

theorem pow_spec {base : L6} {x : ZMod p} (hb : Rep base x) (e : L6) : Rep (pow base e) (x ^ e.val) := by
  have h1 : Rep r (x ^ 0) := by rw [pow_zero]; exact one_spec
  have s5 := powLimb_spec hb e.l5 64 (le_refl _) _ _ h1
  have s4 := powLimb_spec hb e.l4 64 (le_refl _) _ _ s5
  have s3 := powLimb_spec hb e.l3 64 (le_refl _) _ _ s4
  have s2 := powLimb_spec hb e.l2 64 (le_refl _) _ _ s3
  have s1 := powLimb_spec hb e.l1 64 (le_refl _) _ _ s2
  have s0 := powLimb_spec hb e.l0 64 (le_refl _) _ _ s1
  have done : ∀ m, Rep (pow base e) (x ^ m) → m = e.val → Rep (pow base e) (x ^ e.val) := fun m h hm => hm ▸ h
  refine done _ ?_ (digits6 e)
  unfold pow
  simp only [List.foldl_cons, List.foldl_nil]
  exact s0

theorem exp_spec {base e : L6} {x y : ZMod p} (hb : Rep base x) (he : Rep e y) : Rep (exp base e) (x ^ y.val) := by
  have := pow_spec hb (fromMont e)
  rw [fromMont_val he] at this
  exact this

/-- `Invert`: the inverse for a non-zero element; zero is returned for zero, with the flag cleared. -/
theorem invert_spec {a : L6} {x : ZMod p} (ha : Rep a x) :
    Rep (invert a).1 x⁻¹ ∧ (invert a).2 = if x = 0 then 0 else 1 := by
  unfold invert
  dsimp only
  rw [(isZero_spec ha).2]
  refine ⟨?_, rfl⟩
  by_cases h : x = 0
  · rw [if_pos h, cmove_zero, h, inv_zero]
    exact h ▸ ha
  · rw [if_neg h, cmove_one]
    have := pow_spec ha ⟨0xb9feffffffffaaa9, 0x1eabfffeb153ffff, 0x6730d2a0f6b0f624, 0x64774b84f38512bf, 0x4b1ba7b6434bacd7,
      0x1a0111ea397fe69a⟩
    have e : (L6.mk 0xb9feffffffffaaa9 0x1eabfffeb153ffff 0x6730d2a0f6b0f624 0x64774b84f38512bf 0x4b1ba7b6434bacd7
      0x1a0111ea397fe69a).val = p - 2 := by decide +kernel
    rw [e] at this
    have e2 : x ^ (p - 2) = x⁻¹ := by
      refine eq_inv_of_mul_eq_one_left ?_
      rw [← pow_succ]
      exact ZMod.pow_card_sub_one_eq_one h
    rw [e2] at this
    exact this

/-- `Sqrt`: the flag tells whether the element is a square; then a root is written, otherwise the receiver keeps its value. -/
theorem sqrt_spec {a : L6} {x : ZMod p} (out : L6) (ha : Rep a x) :
    (IsSquare x → ∃ y, y * y = x ∧ Rep (sqrt out a).1 y ∧ (sqrt out a).2 = 1) ∧
    (¬ IsSquare x → sqrt out a = (out, 0)) := by
  have hz := pow_spec ha ⟨0xee7fbfffffffeaab, 0x07aaffffac54ffff, 0xd9cc34a83dac3d89, 0xd91dd2e13ce144af, 0x92c6e9ed90d2eb35,
    0x0680447a8e5ff9a6⟩
  have e : (L6.mk 0xee7fbfffffffeaab 0x07aaffffac54ffff 0xd9cc34a83dac3d89 0xd91dd2e13ce144af 0x92c6e9ed90d2eb35
    0x0680447a8e5ff9a6).val = (p + 1) / 4 := by decide +kernel
  rw [e] at hz
  have hc := equal_spec (square_spec hz) ha
  unfold sqrt
  dsimp only
  rw [hc]
  constructor
  · rintro ⟨s, rfl⟩
    have key : (s * s) ^ ((p + 1) / 4) * (s * s) ^ ((p + 1) / 4) = s * s := by
      by_cases hs : s = 0
      · subst hs
        rw [zero_mul, zero_pow (by norm_num), zero_mul]
      · rw [← mul_pow, ← pow_two, ← pow_two, ← pow_mul, ← pow_mul]
        have : 2 * (2 * ((p + 1) / 4)) = (p - 1) + 2 := by norm_num
        rw [this, pow_add, ZMod.pow_card_sub_one_eq_one hs, one_mul]
    rw [if_pos key]
    exact ⟨_, key, by rw [cmove_one]; exact hz, rfl⟩
  · intro hns
    rw [if_neg (fun h => hns ⟨_, h.symm⟩), cmove_zero]

/-! ## Bytes -/

theorem leLimbs6_val (b : List UInt8) (o : Nat) (h : o + 48 ≤ b.length) :
    leToNat (b.drop o) = (leLimbs6 b o).val + 2 ^ 384 * leToNat (b.drop (o + 48)) := by
  have hl : ∀ k, k + 8 ≤ b.length → ((b.drop k).take 8).length = 8 := fun k hk => by
    rw [List.length_take, List.length_drop]; omega
  rw [leToNat_take8 b o (by omega), leToNat_take8 b (o + 8) (by omega), leToNat_take8 b (o + 8 + 8) (by omega),
    leToNat_take8 b (o + 8 + 8 + 8) (by omega), leToNat_take8 b (o + 8 + 8 + 8 + 8) (by omega),
    leToNat_take8 b (o + 8 + 8 + 8 + 8 + 8) (by omega)]
  unfold leLimbs6 L6.val
  dsimp only
  rw [leUint64_val _ (hl _ (by omega)), leUint64_val _ (hl _ (by omega)), leUint64_val _ (hl _ (by omega)),
    leUint64_val _ (hl _ (by omega)), leUint64_val _ (hl _ (by omega)), leUint64_val _ (hl _ (by omega))]
  simp only [Nat.add_assoc]
  ring

theorem leLimbs6_all (b : List UInt8) (h : b.length = 48) : (leLimbs6 b 0).val = leToNat b := by
  have := leLimbs6_val b 0 (by omega)
  rw [List.drop_zero, List.drop_eq_nil_of_le (by omega)] at this
  rw [this]
  simp [leToNat]

/-- `SetBytes` accepts exactly the 48-byte little-endian integers below `p`. -/
theorem setBytes_spec (out : L6) (b : List UInt8) (h : b.length = 48) :
    (leToNat b < p → Rep (setBytes out b).1 (leToNat b : ZMod p) ∧ (setBytes out b).2 = 1) ∧
    (p ≤ leToNat b → setBytes out b = (out, 0)) := by
  unfold setBytes
  dsimp only
  rw [borrowOf_spec, modulus_val, leLimbs6_all b h]
  constructor
  · intro hlt
    rw [if_pos hlt, cmove_one]
    refine ⟨?_, rfl⟩
    have := toMont_spec (leLimbs6 b 0)
    rwa [leLimbs6_all b h] at this
  · intro hge
    rw [if_neg (by omega), cmove_zero]

/-- `SetBytesWide` reduces the whole 768-bit little-endian number. -/
theorem setBytesWide_spec (b : List UInt8) (h : b.length = 96) : Rep (setBytesWide b) (leToNat b : ZMod p) := by
  have lt2 : r2.val < p := by rw [r2_val]; exact Nat.mod_lt _ (by norm_num)
  have lt3 : r3.val < p := by rw [r3_val]; exact Nat.mod_lt _ (by norm_num)
  have e : leToNat b = (leLimbs6 b 0).val + 2 ^ 384 * (leLimbs6 b 48).val := by
    have h0 := leLimbs6_val b 0 (by omega)
    have h1 := leLimbs6_val b 48 (by omega)
    rw [List.drop_zero] at h0
    rw [h0, Nat.zero_add, h1, List.drop_eq_nil_of_le (by omega : b.length ≤ 48 + 48)]
    simp [leToNat]
  have m0 : Rep (mul (leLimbs6 b 0) r2) ((leLimbs6 b 0).val : ZMod p) := toMont_spec _
  have m1 : Rep (mul (leLimbs6 b 48) r3) (((leLimbs6 b 48).val : ZMod p) * 2 ^ 384) := by
    refine mul_redc lt3 ?_
    rw [Nat.cast_mul, r3_val, ZMod.natCast_mod, two1152]
    simp only [mul_assoc]
  have := add_spec m0 m1
  rw [e, Nat.cast_add, Nat.cast_mul, two384, mul_comm ((2 : ZMod p) ^ 384)]
  exact this

theorem natToLE_add (m n v : Nat) : natToLE (m + n) v = natToLE m v ++ natToLE n (v / 256 ^ m) := by
  induction m generalizing v with
  | zero => simp [natToLE]
  | succ m ih =>
    rw [show m + 1 + n = (m + n) + 1 by omega, natToLE, natToLE, ih, List.cons_append, Nat.div_div_eq_div_mul, pow_succ,
      Nat.mul_comm 256]

theorem natToLE_mod (m v : Nat) : natToLE m (v % 256 ^ m) = natToLE m v := by
  induction m generalizing v with
  | zero => rfl
  | succ m ih =>
    rw [natToLE, natToLE]
    congr 1
    · have : v % 256 ^ (m + 1) % 256 = v % 256 := Nat.mod_mod_of_dvd _ (dvd_pow_self _ (by omega))
      apply UInt8.toNat.inj
      rw [UInt8.toNat_ofNat', UInt8.toNat_ofNat']
      exact this
    · rw [← ih (v / 256)]
      congr 1
      rw [pow_succ, Nat.mul_comm, Nat.mod_mul_right_div_self]

theorem putLimbs (t : L6) : putUint64 t.l0 ++ putUint64 t.l1 ++ putUint64 t.l2 ++ putUint64 t.l3 ++ putUint64 t.l4 ++ putUint64 t.l5 =
    natToLE 48 t.val := by
  have h0 := t.l0.toNat_lt
  have h1 := t.l1.toNat_lt
  have h2 := t.l2.toNat_lt
  have h3 := t.l3.toNat_lt
  have h4 := t.l4.toNat_lt
  have h5 := t.l5.toNat_lt
  unfold putUint64
  rw [show (48 : Nat) = 40 + 8 from rfl, natToLE_add, show (40 : Nat) = 32 + 8 from rfl, natToLE_add, show (32 : Nat) = 24 + 8 from rfl,
    natToLE_add, show (24 : Nat) = 16 + 8 from rfl, natToLE_add, show (16 : Nat) = 8 + 8 from rfl, natToLE_add]
  have key : ∀ (w : UInt64) (v : Nat), w.toNat = v % 2 ^ 64 → natToLE 8 w.toNat = natToLE 8 v := by
    intro w v h
    have := natToLE_mod 8 v
    rw [show (256 : Nat) ^ 8 = 2 ^ 64 by norm_num] at this
    rw [h, this]
  have p8 : (256 : Nat) ^ 8 = 2 ^ 64 := by norm_num
  have p16 : (256 : Nat) ^ (8 + 8) = 2 ^ 128 := by norm_num
  have p24 : (256 : Nat) ^ (8 + 8 + 8) = 2 ^ 192 := by norm_num
  have p32 : (256 : Nat) ^ (8 + 8 + 8 + 8) = 2 ^ 256 := by norm_num
  have p40 : (256 : Nat) ^ (8 + 8 + 8 + 8 + 8) = 2 ^ 320 := by norm_num
  rw [p8, p16, p24, p32, p40]
  rw [← key t.l0 t.val (by unfold L6.val; omega), ← key t.l1 (t.val / 2 ^ 64) (by unfold L6.val; omega),
    ← key t.l2 (t.val / 2 ^ 128) (by unfold L6.val; omega), ← key t.l3 (t.val / 2 ^ 192) (by unfold L6.val; omega),
    ← key t.l4 (t.val / 2 ^ 256) (by unfold L6.val; omega), ← key t.l5 (t.val / 2 ^ 320) (by unfold L6.val; omega)]

/-- `Bytes` is the canonical 48-byte little-endian encoding. -/
theorem bytes_spec {a : L6} {x : ZMod p} (ha : Rep a x) : bytes a = natToLE 48 x.val := by
  unfold bytes
  dsimp only
  rw [putLimbs, fromMont_val ha]

theorem pow48 : (256 : Nat) ^ 48 = 2 ^ 384 := by norm_num

theorem val_lt48 (x : ZMod p) : x.val < 256 ^ 48 := by
  have := ZMod.val_lt x
  have := p_lt
  rw [pow48]
  omega

theorem bigInt_spec {a : L6} {x : ZMod p} (ha : Rep a x) : bigInt a = (x.val : Int) := by
  unfold bigInt
  rw [bytes_spec ha, beToNat_reverse, leToNat_natToLE, Nat.mod_eq_of_lt (val_lt48 x)]

/-- `SetBytes` undoes `Bytes`. -/
theorem bytes_roundtrip {a : L6} {x : ZMod p} (ha : Rep a x) (out : L6) : setBytes out (bytes a) = (a, 1) := by
  have hl : (bytes a).length = 48 := by rw [bytes_spec ha, length_natToLE]
  have hv : leToNat (bytes a) = x.val := by rw [bytes_spec ha, leToNat_natToLE, Nat.mod_eq_of_lt (val_lt48 x)]
  obtain ⟨h1, h2⟩ := (setBytes_spec out _ hl).1 (by rw [hv]; exact ZMod.val_lt x)
  rw [hv, ZMod.natCast_zmod_val] at h1
  exact Prod.ext (rep_unique h1 ha) h2

/-- `SetBigInt` never fails and yields the residue of every integer, negative ones included. -/
theorem setBigInt_spec (out : L6) (bi : Int) : ∃ a, setBigInt out bi = .ok a ∧ Rep a (bi : ZMod p) := by
  have hb := bi_val
  have hne : biModulus ≠ 0 := by rw [hb]; norm_num
  have hr0 : 0 ≤ bi % biModulus := Int.emod_nonneg _ hne
  have hr1 : bi % biModulus < (p : Int) := by rw [hb]; exact Int.emod_lt_of_pos _ (by norm_num)
  have hna : (bi % biModulus).natAbs < p := by omega
  have hp := p_lt
  obtain ⟨e, hlen, hval⟩ : ∃ e, fillBytes 48 (bi % biModulus).natAbs = some e ∧ e.length = 48 ∧
      beToNat e = (bi % biModulus).natAbs := fillBytes_spec 48 _ (by rw [pow48]; omega)
  obtain ⟨hl, hv⟩ := hval
  have hv' : leToNat e.reverse = (bi % biModulus).natAbs := by rw [leToNat_reverse, hv]
  obtain ⟨hr, -⟩ := (setBytes_spec out e.reverse (by rw [List.length_reverse, hl])).1 (by rw [hv']; exact hna)
  unfold setBigInt
  dsimp only
  rw [hlen]
  refine ⟨_, rfl, ?_⟩
  have : ((leToNat e.reverse : Nat) : ZMod p) = (bi : ZMod p) := by
    rw [hv']
    have h1 : (((bi % biModulus).natAbs : Int) : ZMod p) = ((bi % biModulus : Int) : ZMod p) := by
      rw [Int.natAbs_of_nonneg hr0]
    rw [← Int.cast_natCast, h1, hb, ZMod.intCast_mod]
  rwa [this] at hr

end Verif.Bls381.Fp
