import Verif.Native.Codec
import Verif.Base.GoRes
import Mathlib.Data.ZMod.Basic
import Mathlib.Algebra.Field.ZMod
import Mathlib.FieldTheory.Finite.Basic

/-!
# The generic native field (`crypto/core/curves/native/field.go`)

`Field` wraps four limbs in Montgomery form, a parameter block and an arithmetic backend.  The model takes the backend
as a record of functions; `Lawful` says what the backend must do on integers, and `Verif.Native.Instances` proves it for
the six generated backends.  A field element *represents* `x : ZMod p` when its limbs are below `p` and congruent to
`x·2^256`; the theorems say which element each method returns in these terms.
-/

set_option linter.unusedSectionVars false

namespace Verif.Native
open Verif.Bytes

/-- `FieldParams` (crypto/core/curves/native/field.go:32-43). -/
structure Params where
  R : L4
  R2 : L4
  R3 : L4
  modulus : L4
  biModulus : Int

/-- The generated part of `FieldArithmetic` (crypto/core/curves/native/field.go:46-72); `FromBytes`, `ToBytes` and `Selectznz`
are the common functions of `Verif.Native.Codec`, `Sqrt` and `Invert` are modelled per field. -/
structure Arith where
  toMont : L4 → L4
  fromMont : L4 → L4
  neg : L4 → L4
  square : L4 → L4
  mul : L4 → L4 → L4
  add : L4 → L4 → L4
  sub : L4 → L4 → L4

/-! ## Methods -/

variable (A : Arith) (P : Params)

/-- `(*Field).Cmp` (crypto/core/curves/native/field.go:77-79). -/
def Field.cmp (a b : L4) : Int := cmpHelper a b

/-- `(*Field).Equal` (crypto/core/curves/native/field.go:111-113). -/
def Field.equal (a b : L4) : Int := equalHelper a b

/-- `(*Field).IsOne` (crypto/core/curves/native/field.go:142-144). -/
def Field.isOne (a : L4) : Int := equalHelper a P.R

/-- `(*Field).SetUint64` (crypto/core/curves/native/field.go:158-162). -/
def Field.setUint64 (v : UInt64) : L4 := A.toMont ⟨v, 0, 0, 0⟩

/-- `(*Field).SetOne` (crypto/core/curves/native/field.go:165-171). -/
def Field.one : L4 := P.R

/-- `(*Field).SetZero` (crypto/core/curves/native/field.go:174-180). -/
def Field.zero : L4 := ⟨0, 0, 0, 0⟩

/-- `binary.LittleEndian.Uint64` of an 8-byte slice (package encoding/binary; used in
crypto/core/curves/native/field.go:198-209). -/
def leUint64 (b : List UInt8) : UInt64 := UInt64.ofNat (leToNat b)

/-- `input[8i : 8i+8]` for four consecutive limbs starting at byte `o`. -/
def leLimbs (b : List UInt8) (o : Nat) : L4 :=
  ⟨leUint64 ((b.drop o).take 8), leUint64 ((b.drop (o + 8)).take 8), leUint64 ((b.drop (o + 16)).take 8),
    leUint64 ((b.drop (o + 24)).take 8)⟩

/-- `(*Field).SetBytesWide` (crypto/core/curves/native/field.go:197-221). -/
def Field.setBytesWide (input : List UInt8) : L4 :=
  let d0 := leLimbs input 0
  let d1 := leLimbs input 32
  let tv1 := A.mul d0 P.R2
  let tv2 := A.mul d1 P.R3
  A.add tv1 tv2

/-- `(*Field).SetLimbs` (crypto/core/curves/native/field.go:259-262). -/
def Field.setLimbs (d : L4) : L4 := A.toMont d

/-- `(*Field).SetBytes` (crypto/core/curves/native/field.go:225-233). -/
def Field.setBytes (input : List UInt8) : Res L4 :=
  let d0 := fromBytes input
  if cmpHelper d0 P.modulus ≠ -1 then .err else .ok (Field.setLimbs A d0)

/-- `(*Field).SetBigInt` (crypto/core/curves/native/field.go:237-245): the error of `SetBytes` is ignored, in which case the receiver
`cur` keeps its value.  `big.Int.Mod` is the Euclidean remainder and panics on a zero modulus; `FillBytes` panics when the
value does not fit. -/
def Field.setBigInt (cur : L4) (bi : Int) : Res L4 :=
  if P.biModulus = 0 then .panic
  else
    let t := bi % P.biModulus
    match fillBytes 32 t.natAbs with
    | none => .panic
    | some buffer =>
      match Field.setBytes A P buffer.reverse with
      | .ok v => .ok v
      | .err => .ok cur
      | .panic => .panic

/-- `(*Field).Bytes` (crypto/core/curves/native/field.go:266-272). -/
def Field.bytes (a : L4) : List UInt8 := toBytes (A.fromMont a)

/-- `(*Field).BigInt` (crypto/core/curves/native/field.go:275-278). -/
def Field.bigInt (a : L4) : Int := (beToNat (Field.bytes A a).reverse : Int)

/-- `(*Field).Raw` (crypto/core/curves/native/field.go:281-285). -/
def Field.raw (a : L4) : L4 := A.fromMont a

/-- `(*Field).Double` (crypto/core/curves/native/field.go:288-291). -/
def Field.double (a : L4) : L4 := A.add a a

/-- The bit `int(exp[i]>>j) & 1` as the choice word. -/
def expBit (w : UInt64) (j : Nat) : UInt64 := (w >>> UInt64.ofNat j) &&& 1

/-- One iteration of the loop in `Pow` (crypto/core/curves/native/field.go:359-365). -/
def powStep (base res : L4) (bit : UInt64) : L4 :=
  let res := A.square res
  let tmp := A.mul res base
  selectznz bit res tmp

/-- `Pow` (crypto/core/curves/native/field.go:355-370): limbs from 3 down to 0, bits from 63 down to 0. -/
def pow (base exp : L4) : L4 :=
  [exp.l3, exp.l2, exp.l1, exp.l0].foldl
    (fun res w => ((List.range 64).reverse.map (expBit w)).foldl (powStep A base) res) P.R

/-- `Pow2k` (crypto/core/curves/native/field.go:374-388). -/
def pow2k (arg : L4) : Nat → L4
  | 0 => arg
  | k + 1 => A.square (pow2k arg k)

/-- `(*Field).Exp` (crypto/core/curves/native/field.go:340-345). -/
def Field.exp (base e : L4) : L4 := pow A P base (A.fromMont e)

/-- `(*Field).CMove` (crypto/core/curves/native/field.go:348-351). -/
def Field.cmove (a b : L4) (choice : UInt64) : L4 := selectznz choice a b

/-! ## Specification -/

/-- What a backend for the prime field of `p` elements must do. -/
structure Lawful (p : Nat) : Prop where
  one_lt : 1 < p
  lt : p < 2 ^ 256
  odd : p % 2 = 1
  R : P.R.val = 2 ^ 256 % p
  R2 : P.R2.val = 2 ^ 512 % p
  R3 : P.R3.val = 2 ^ 768 % p
  modulus : P.modulus.val = p
  bi : P.biModulus = (p : Int)
  mul : ∀ a b : L4, a.val * b.val < 2 ^ 256 * p → Redc p (a.val * b.val) (A.mul a b)
  square : ∀ a : L4, a.val * a.val < 2 ^ 256 * p → Redc p (a.val * a.val) (A.square a)
  add : ∀ a b : L4, a.val < p → b.val < p → Reduced p (a.val + b.val) (A.add a b)
  sub : ∀ a b : L4, a.val < p → b.val < p → Reduced p (a.val + (p - b.val)) (A.sub a b)
  neg : ∀ a : L4, a.val < p → Reduced p (p - a.val) (A.neg a)
  fromMont : ∀ a : L4, Redc p a.val (A.fromMont a)
  toMont : ∀ a : L4, Redc p (a.val * (2 ^ 512 % p)) (A.toMont a)

/-- The limbs `a` represent `x` (Montgomery form, fully reduced). -/
def Rep (p : Nat) (a : L4) (x : ZMod p) : Prop := a.val < p ∧ (a.val : ZMod p) = x * 2 ^ 256

variable {A P} {p : Nat} (L : Lawful A P p)
include L

theorem Lawful.unit : IsUnit ((2 : ZMod p) ^ 256) := by
  apply IsUnit.pow
  have : Nat.Coprime 2 p := by
    rw [Nat.coprime_two_left]
    exact Nat.odd_iff.2 L.odd
  exact_mod_cast (ZMod.isUnit_iff_coprime 2 p).2 this

theorem Lawful.cancel {x y : ZMod p} (h : x * 2 ^ 256 = y * 2 ^ 256) : x = y := L.unit.mul_right_cancel h

omit L in
theorem two256 : ((2 ^ 256 : Nat) : ZMod p) = 2 ^ 256 := by rw [Nat.cast_pow, Nat.cast_ofNat]

omit L in
theorem two512 : ((2 ^ 512 : Nat) : ZMod p) = 2 ^ 256 * 2 ^ 256 := by
  rw [show (2 : Nat) ^ 512 = 2 ^ (256 + 256) from rfl, pow_add, Nat.cast_mul, two256]

omit L in
theorem two768 : ((2 ^ 768 : Nat) : ZMod p) = 2 ^ 256 * 2 ^ 256 * 2 ^ 256 := by
  rw [show (2 : Nat) ^ 768 = 2 ^ (256 + 256 + 256) from rfl, pow_add, pow_add, Nat.cast_mul, Nat.cast_mul, two256]

theorem Lawful.redc {n : Nat} {r : L4} {x : ZMod p} (h : Redc p n r) (hx : (n : ZMod p) = x * 2 ^ 256 * 2 ^ 256) :
    Rep p r x := by
  refine ⟨h.1, ?_⟩
  have e : ((r.val * 2 ^ 256 : Nat) : ZMod p) = (n : ZMod p) :=
    (ZMod.natCast_eq_natCast_iff _ _ _).2 h.2
  rw [Nat.cast_mul, two256] at e
  rw [hx] at e
  exact L.cancel e

theorem rep_unique {a b : L4} {x : ZMod p} (ha : Rep p a x) (hb : Rep p b x) : a = b := by
  have e : (a.val : ZMod p) = (b.val : ZMod p) := ha.2.trans hb.2.symm
  have := (ZMod.natCast_eq_natCast_iff _ _ _).1 e
  unfold Nat.ModEq at this
  rw [Nat.mod_eq_of_lt ha.1, Nat.mod_eq_of_lt hb.1] at this
  exact L4.val_inj this

theorem rep_value {a : L4} {x y : ZMod p} (hx : Rep p a x) (hy : Rep p a y) : x = y :=
  L.cancel (hx.2.symm.trans hy.2)

/-- Every reduced limb vector represents exactly one element. -/
theorem rep_exists (a : L4) (h : a.val < p) : ∃ x : ZMod p, Rep p a x := by
  obtain ⟨u, hu⟩ := L.unit
  refine ⟨(a.val : ZMod p) * ↑u⁻¹, h, ?_⟩
  rw [← hu, mul_assoc, Units.inv_mul, mul_one]

theorem Lawful.prod_lt {a b : L4} (hb : b.val < p) : a.val * b.val < 2 ^ 256 * p := by
  have := a.val_lt
  have hp := L.one_lt
  exact Nat.mul_lt_mul'' this hb

/-- **C50.** Multiplication of represented elements. -/
theorem C50_mul {a b : L4} {x y : ZMod p} (ha : Rep p a x) (hb : Rep p b y) : Rep p (A.mul a b) (x * y) := by
  refine L.redc (L.mul a b (L.prod_lt hb.1)) ?_
  rw [Nat.cast_mul, ha.2, hb.2]
  generalize (2 : ZMod p) ^ 256 = w
  ring

/-- **C50.** Squaring. -/
theorem C50_square {a : L4} {x : ZMod p} (ha : Rep p a x) : Rep p (A.square a) (x * x) := by
  refine L.redc (L.square a (L.prod_lt ha.1)) ?_
  rw [Nat.cast_mul, ha.2]
  generalize (2 : ZMod p) ^ 256 = w
  ring

/-- **C50.** Addition. -/
theorem C50_add {a b : L4} {x y : ZMod p} (ha : Rep p a x) (hb : Rep p b y) : Rep p (A.add a b) (x + y) := by
  have h := L.add a b ha.1 hb.1
  unfold Reduced at h
  refine ⟨by rw [h]; exact Nat.mod_lt _ (by have := L.one_lt; omega), ?_⟩
  rw [h, ZMod.natCast_mod]
  push_cast
  rw [ha.2, hb.2]
  ring

/-- **C50.** Subtraction. -/
theorem C50_sub {a b : L4} {x y : ZMod p} (ha : Rep p a x) (hb : Rep p b y) : Rep p (A.sub a b) (x - y) := by
  have h := L.sub a b ha.1 hb.1
  unfold Reduced at h
  refine ⟨by rw [h]; exact Nat.mod_lt _ (by have := L.one_lt; omega), ?_⟩
  rw [h, ZMod.natCast_mod, Nat.cast_add, Nat.cast_sub hb.1.le, ha.2, hb.2, ZMod.natCast_self]
  ring

/-- **C50.** Negation. -/
theorem C50_neg {a : L4} {x : ZMod p} (ha : Rep p a x) : Rep p (A.neg a) (-x) := by
  have h := L.neg a ha.1
  unfold Reduced at h
  refine ⟨by rw [h]; exact Nat.mod_lt _ (by have := L.one_lt; omega), ?_⟩
  rw [h, ZMod.natCast_mod, Nat.cast_sub ha.1.le, ha.2, ZMod.natCast_self]
  ring

/-- **C50.** Doubling. -/
theorem C50_double {a : L4} {x : ZMod p} (ha : Rep p a x) : Rep p (Field.double A a) (2 * x) := by
  rw [two_mul]
  exact C50_add L ha ha

/-- **C50.** `SetOne` and `SetZero`. -/
theorem C50_constants : Rep p (Field.one P) 1 ∧ Rep p Field.zero (0 : ZMod p) := by
  have hp := L.one_lt
  refine ⟨⟨?_, ?_⟩, ?_, ?_⟩
  · unfold Field.one; rw [L.R]; exact Nat.mod_lt _ (by omega)
  · unfold Field.one; rw [L.R, ZMod.natCast_mod, two256, one_mul]
  · show 0 < p
    omega
  · show ((0 : Nat) : ZMod p) = _
    rw [Nat.cast_zero, zero_mul]

/-- **C50.** Any 256-bit integer, also one above the modulus, becomes its residue (`SetLimbs`, `SetRaw` of pasta). -/
theorem C50_setLimbs (d : L4) : Rep p (Field.setLimbs A d) (d.val : ZMod p) := by
  refine L.redc (L.toMont d) ?_
  rw [Nat.cast_mul, ZMod.natCast_mod, two512, mul_assoc]

/-- **C50.** `SetUint64`. -/
theorem C50_setUint64 (v : UInt64) : Rep p (Field.setUint64 A v) (v.toNat : ZMod p) := by
  have e : (L4.mk v 0 0 0).val = v.toNat := by
    show v.toNat + 2 ^ 64 * 0 + 2 ^ 128 * 0 + 2 ^ 192 * 0 = _
    omega
  have := C50_setLimbs L ⟨v, 0, 0, 0⟩
  rwa [e] at this

omit L in
theorem leUint64_val (b : List UInt8) (h : b.length = 8) : (leUint64 b).toNat = leToNat b := by
  unfold leUint64
  rw [UInt64.toNat_ofNat', Nat.mod_eq_of_lt]
  have := leToNat_lt b
  rw [h] at this
  exact this

omit L in
theorem leToNat_take8 (b : List UInt8) (o : Nat) (h : o + 8 ≤ b.length) :
    leToNat (b.drop o) = leToNat ((b.drop o).take 8) + 2 ^ 64 * leToNat (b.drop (o + 8)) := by
  conv_lhs => rw [← List.take_append_drop 8 (b.drop o)]
  rw [leToNat_append, List.drop_drop, List.length_take, List.length_drop, min_eq_left (by omega)]
  rfl

omit L in
theorem leLimbs_val (b : List UInt8) (o : Nat) (h : o + 32 ≤ b.length) :
    leToNat (b.drop o) = (leLimbs b o).val + 2 ^ 256 * leToNat (b.drop (o + 32)) := by
  have hl : ∀ k, k + 8 ≤ b.length → ((b.drop k).take 8).length = 8 := fun k hk => by
    rw [List.length_take, List.length_drop]; omega
  rw [leToNat_take8 b o (by omega), leToNat_take8 b (o + 8) (by omega), leToNat_take8 b (o + 8 + 8) (by omega),
    leToNat_take8 b (o + 8 + 8 + 8) (by omega)]
  unfold leLimbs L4.val
  dsimp only
  rw [leUint64_val _ (hl _ (by omega)), leUint64_val _ (hl _ (by omega)), leUint64_val _ (hl _ (by omega)),
    leUint64_val _ (hl _ (by omega))]
  simp only [Nat.add_assoc]
  ring

/-- **C50.** `SetBytesWide` reduces the whole 512-bit little-endian number, for every 64-byte input. -/
theorem C50_setBytesWide (input : List UInt8) (h : input.length = 64) :
    Rep p (Field.setBytesWide A P input) (leToNat input : ZMod p) := by
  have hp := L.one_lt
  have r2 : P.R2.val < p := by rw [L.R2]; exact Nat.mod_lt _ (by omega)
  have r3 : P.R3.val < p := by rw [L.R3]; exact Nat.mod_lt _ (by omega)
  have e : leToNat input = (leLimbs input 0).val + 2 ^ 256 * (leLimbs input 32).val := by
    have h0 := leLimbs_val input 0 (by omega)
    have h1 := leLimbs_val input 32 (by omega)
    rw [List.drop_zero] at h0
    rw [h0, Nat.zero_add, h1, List.drop_eq_nil_of_le (by omega : input.length ≤ 32 + 32)]
    simp [leToNat]
  have m0 : Rep p (A.mul (leLimbs input 0) P.R2) ((leLimbs input 0).val : ZMod p) := by
    refine L.redc (L.mul _ _ (L.prod_lt r2)) ?_
    rw [Nat.cast_mul, L.R2, ZMod.natCast_mod, two512, mul_assoc]
  have m1 : Rep p (A.mul (leLimbs input 32) P.R3) (((leLimbs input 32).val : ZMod p) * 2 ^ 256) := by
    refine L.redc (L.mul _ _ (L.prod_lt r3)) ?_
    rw [Nat.cast_mul, L.R3, ZMod.natCast_mod, two768]
    simp only [mul_assoc]
  have := C50_add L m0 m1
  rw [e, Nat.cast_add, Nat.cast_mul, two256, mul_comm ((2 : ZMod p) ^ 256)]
  exact this

/-- **C50.** `SetBytes` accepts exactly the canonical encodings: 32 bytes whose little-endian value is below the
modulus, and then returns that value; everything else is an error. -/
theorem C50_setBytes (input : List UInt8) (h : input.length = 32) :
    (leToNat input < p → ∃ a, Field.setBytes A P input = .ok a ∧ Rep p a (leToNat input : ZMod p)) ∧
    (p ≤ leToNat input → Field.setBytes A P input = .err) := by
  unfold Field.setBytes
  dsimp only
  rw [C50_cmp_is_integer_order, C50_fromBytes_value input h, L.modulus]
  constructor
  · intro hlt
    refine ⟨_, if_neg ?_, ?_⟩
    · unfold cmp3
      rw [if_pos hlt]
      exact fun h => h rfl
    · have := C50_setLimbs L (fromBytes input)
      rwa [C50_fromBytes_value input h] at this
  · intro hge
    refine if_pos ?_
    unfold cmp3
    rw [if_neg (by omega)]
    split <;> decide

/-- **C50.** `Bytes` of a represented element is the canonical 32-byte little-endian encoding. -/
theorem C50_bytes [NeZero p] {a : L4} {x : ZMod p} (ha : Rep p a x) : Field.bytes A a = natToLE 32 x.val := by
  have h := L.fromMont a
  have e : ((A.fromMont a).val : ZMod p) = x := by
    have e1 : (((A.fromMont a).val * 2 ^ 256 : Nat) : ZMod p) = (a.val : ZMod p) :=
      (ZMod.natCast_eq_natCast_iff _ _ _).2 h.2
    rw [Nat.cast_mul, two256, ha.2] at e1
    exact L.cancel e1
  unfold Field.bytes
  rw [C50_toBytes_value]
  congr 1
  rw [← e, ZMod.val_natCast, Nat.mod_eq_of_lt h.1]

/-- **C50.** `Raw` is the value in plain limbs. -/
theorem C50_raw [NeZero p] {a : L4} {x : ZMod p} (ha : Rep p a x) : (Field.raw A a).val = x.val := by
  have h := L.fromMont a
  have e : ((A.fromMont a).val : ZMod p) = x := by
    have e1 : (((A.fromMont a).val * 2 ^ 256 : Nat) : ZMod p) = (a.val : ZMod p) :=
      (ZMod.natCast_eq_natCast_iff _ _ _).2 h.2
    rw [Nat.cast_mul, two256, ha.2] at e1
    exact L.cancel e1
  unfold Field.raw
  rw [← e, ZMod.val_natCast, Nat.mod_eq_of_lt h.1]

omit L in
theorem pow256 : (256 : Nat) ^ 32 = 2 ^ 256 := by norm_num

/-- **C50.** `BigInt` of a represented element is its residue in `[0, p)`. -/
theorem C50_bigInt [NeZero p] {a : L4} {x : ZMod p} (ha : Rep p a x) : Field.bigInt A a = (x.val : Int) := by
  unfold Field.bigInt
  rw [C50_bytes L ha, beToNat_reverse, leToNat_natToLE, Nat.mod_eq_of_lt]
  have := ZMod.val_lt x
  have h := L.lt
  rw [pow256]
  omega

/-- **C50.** `SetBytes` undoes `Bytes` on every element. -/
theorem C50_bytes_roundtrip [NeZero p] {a : L4} {x : ZMod p} (ha : Rep p a x) :
    Field.setBytes A P (Field.bytes A a) = .ok a := by
  have hx := ZMod.val_lt x
  have hp := L.lt
  have hl : (Field.bytes A a).length = 32 := rfl
  have hv : leToNat (Field.bytes A a) = x.val := by
    rw [C50_bytes L ha, leToNat_natToLE, pow256, Nat.mod_eq_of_lt (by omega)]
  obtain ⟨b, hb, hr⟩ := (C50_setBytes L _ hl).1 (by rw [hv]; exact hx)
  rw [hv, ZMod.natCast_zmod_val] at hr
  rw [hb, rep_unique L hr ha]

/-- **C50.** `SetBigInt` never fails and yields the residue of every integer, negative ones included. -/
theorem C50_setBigInt [NeZero p] (cur : L4) (bi : Int) :
    ∃ a, Field.setBigInt A P cur bi = .ok a ∧ Rep p a (bi : ZMod p) := by
  have hp := L.one_lt
  have hlt := L.lt
  have hb := L.bi
  have hne : P.biModulus ≠ 0 := by rw [hb]; omega
  have hr0 : 0 ≤ bi % P.biModulus := Int.emod_nonneg _ hne
  have hr1 : bi % P.biModulus < (p : Int) := by rw [hb]; exact Int.emod_lt_of_pos _ (by omega)
  have hna : (bi % P.biModulus).natAbs < p := by omega
  obtain ⟨e, hlen, hval⟩ : ∃ e, fillBytes 32 (bi % P.biModulus).natAbs = some e ∧ e.length = 32 ∧
      beToNat e = (bi % P.biModulus).natAbs := fillBytes_spec 32 _ (by rw [pow256]; omega)
  unfold Field.setBigInt
  rw [if_neg hne]
  dsimp only
  rw [hlen]
  obtain ⟨hl, hv⟩ := hval
  have hv' : leToNat e.reverse = (bi % P.biModulus).natAbs := by rw [leToNat_reverse, hv]
  obtain ⟨a, ha, hr⟩ := (C50_setBytes L e.reverse (by rw [List.length_reverse, hl])).1 (by rw [hv']; exact hna)
  dsimp only
  rw [ha]
  refine ⟨a, rfl, ?_⟩
  have : ((leToNat e.reverse : Nat) : ZMod p) = (bi : ZMod p) := by
    rw [hv']
    have h1 : (((bi % P.biModulus).natAbs : Int) : ZMod p) = ((bi % P.biModulus : Int) : ZMod p) := by
      rw [Int.natAbs_of_nonneg hr0]
    rw [← Int.cast_natCast, h1, hb, ZMod.intCast_mod]
  rwa [this] at hr

/-- **C50.** `Equal`, `IsOne` and the zero tests decide equality of the represented elements. -/
theorem C50_equal {a b : L4} {x y : ZMod p} (ha : Rep p a x) (hb : Rep p b y) :
    Field.equal a b = (if x = y then 1 else 0) ∧ Field.isOne P a = (if x = 1 then 1 else 0) ∧
      isZero a = (if x = 0 then 1 else 0) ∧ isNonZero a = (if x = 0 then 0 else 1) := by
  have key : ∀ {c : L4} {w : ZMod p}, Rep p c w → (a.val = c.val ↔ x = w) := by
    intro c w hc
    constructor
    · intro h
      have := L4.val_inj h
      subst this
      exact rep_value L ha hc
    · rintro rfl
      rw [rep_unique L ha hc]
  have k0 : a.val = 0 ↔ x = 0 := key (C50_constants L).2
  have k1 : a.val = P.R.val ↔ x = 1 := key (C50_constants L).1
  have k := key hb
  unfold Field.equal Field.isOne
  rw [C50_equal_iff, C50_equal_iff, (C50_zero_tests a).1, (C50_zero_tests a).2]
  refine ⟨?_, ?_, ?_, ?_⟩
  · by_cases h : x = y
    · rw [if_pos (k.2 h), if_pos h]
    · rw [if_neg (fun h' => h (k.1 h')), if_neg h]
  · by_cases h : x = 1
    · rw [if_pos (k1.2 h), if_pos h]
    · rw [if_neg (fun h' => h (k1.1 h')), if_neg h]
  · by_cases h : x = 0
    · rw [if_pos (k0.2 h), if_pos h]
    · rw [if_neg (fun h' => h (k0.1 h')), if_neg h]
  · by_cases h : x = 0
    · rw [if_pos (k0.2 h), if_pos h]
    · rw [if_neg (fun h' => h (k0.1 h')), if_neg h]

omit L in
theorem expBit_eq (w : UInt64) (j : Nat) (hj : j < 64) :
    expBit w j = if w.toNat / 2 ^ j % 2 = 1 then 1 else 0 := by
  apply UInt64.toNat.inj
  unfold expBit
  rw [and1, UInt64.toNat_shiftRight, UInt64.toNat_ofNat', Nat.mod_eq_of_lt (by omega : j < 2 ^ 64),
    Nat.mod_eq_of_lt hj, Nat.shiftRight_eq_div_pow]
  split
  · next h => rw [h]; rfl
  · next h =>
    have : w.toNat / 2 ^ j % 2 = 0 := by omega
    rw [this]; rfl

theorem powStep_spec {base res : L4} {x : ZMod p} {m : Nat} (hb : Rep p base x) (hr : Rep p res (x ^ m)) (w : UInt64)
    (j : Nat) (hj : j < 64) : Rep p (powStep A base res (expBit w j)) (x ^ (2 * m + w.toNat / 2 ^ j % 2)) := by
  have hs := C50_square L hr
  have hm := C50_mul L hs hb
  unfold powStep
  dsimp only
  rw [expBit_eq w j hj]
  by_cases h : w.toNat / 2 ^ j % 2 = 1
  · rw [if_pos h, h, selectznz_one]
    have : x ^ (2 * m + 1) = x ^ m * x ^ m * x := by ring
    rw [this]; exact hm
  · have h0 : w.toNat / 2 ^ j % 2 = 0 := by omega
    rw [if_neg h, h0, selectznz_zero]
    have : x ^ (2 * m + 0) = x ^ m * x ^ m := by ring
    rw [this]; exact hs

theorem powLimb_spec {base : L4} {x : ZMod p} (hb : Rep p base x) (w : UInt64) :
    ∀ (k : Nat), k ≤ 64 → ∀ (res : L4) (m : Nat), Rep p res (x ^ m) →
      Rep p (((List.range k).reverse.map (expBit w)).foldl (powStep A base) res)
        (x ^ (m * 2 ^ k + w.toNat % 2 ^ k)) := by
  intro k
  induction k with
  | zero =>
    intro _ res m hr
    simpa [Nat.mod_one] using hr
  | succ k ih =>
    intro hk res m hr
    rw [List.range_succ, List.reverse_append, List.reverse_singleton, List.singleton_append, List.map_cons, List.foldl_cons]
    have h1 := powStep_spec L hb hr w k (by omega)
    have h2 := ih (by omega) _ _ h1
    have e : (2 * m + w.toNat / 2 ^ k % 2) * 2 ^ k + w.toNat % 2 ^ k = m * 2 ^ (k + 1) + w.toNat % 2 ^ (k + 1) := by
      rw [pow_succ, Nat.mod_mul]
      ring
    rw [e] at h2
    exact h2

/-- **C50.** `Pow` raises to every 256-bit exponent. -/
theorem C50_pow {base : L4} {x : ZMod p} (hb : Rep p base x) (e : L4) : Rep p (pow A P base e) (x ^ e.val) := by
  have h1 : Rep p P.R (x ^ 0) := by rw [pow_zero]; exact (C50_constants L).1
  have s3 := powLimb_spec L hb e.l3 64 (le_refl _) _ _ h1
  have s2 := powLimb_spec L hb e.l2 64 (le_refl _) _ _ s3
  have s1 := powLimb_spec L hb e.l1 64 (le_refl _) _ _ s2
  have s0 := powLimb_spec L hb e.l0 64 (le_refl _) _ _ s1
  have hv : ((((0 * 2 ^ 64 + e.l3.toNat % 2 ^ 64) * 2 ^ 64 + e.l2.toNat % 2 ^ 64) * 2 ^ 64 + e.l1.toNat % 2 ^ 64) * 2 ^ 64
      + e.l0.toNat % 2 ^ 64) = e.val := by
    have h0 := e.l0.toNat_lt
    have h1 := e.l1.toNat_lt
    have h2 := e.l2.toNat_lt
    have h3 := e.l3.toNat_lt
    unfold L4.val
    omega
  have done : ∀ m, Rep p (pow A P base e) (x ^ m) → m = e.val → Rep p (pow A P base e) (x ^ e.val) :=
    fun m h hm => hm ▸ h
  refine done _ ?_ hv
  unfold pow
  simp only [List.foldl_cons, List.foldl_nil]
  exact s0

/-- **C50.** `Exp` raises to the value of the exponent element. -/
theorem C50_exp [NeZero p] {base e : L4} {x y : ZMod p} (hb : Rep p base x) (he : Rep p e y) :
    Rep p (Field.exp A P base e) (x ^ y.val) := by
  have := C50_pow L hb (A.fromMont e)
  have hv := C50_raw L he
  unfold Field.raw at hv
  rw [hv] at this
  exact this

/-- **C50.** `Pow2k` squares `k` times. -/
theorem C50_pow2k {a : L4} {x : ZMod p} (ha : Rep p a x) (k : Nat) : Rep p (pow2k A a k) (x ^ 2 ^ k) := by
  induction k with
  | zero => simpa [pow2k] using ha
  | succ k ih =>
    have h := C50_square L ih
    have e : x ^ 2 ^ (k + 1) = x ^ 2 ^ k * x ^ 2 ^ k := by
      rw [pow_succ, pow_mul, pow_two]
    rw [e]
    exact h

end Verif.Native
