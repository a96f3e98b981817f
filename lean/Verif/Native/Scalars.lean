import Verif.Native.Instances

/-!
# `ScalarK256` and `ScalarP256` on top of the native fields

`crypto/core/curves/k256_curve.go` and `p256_curve.go` have the same scalar type up to names; the model takes the field
implementation as a record.  A scalar is its four stored limbs; `Rep q s x` reads them as an element of `ZMod q`.
-/

set_option maxRecDepth 20000
set_option linter.unusedSectionVars false

namespace Verif.Native
open Verif.Bytes

/-- A native field with its inversion and square root (the `FieldArithmetic` interface,
crypto/core/curves/native/field.go:46-72). -/
structure Impl where
  A : Arith
  P : Params
  invert : L4 → L4 → Int × L4
  sqrt : L4 → L4 → Int × L4

/-- `k256/fp` (crypto/core/curves/native/k256/fp/fp.go:86-92: the exponent). -/
def K256Fp.impl : Impl where
  A := K256Fp.arith
  P := K256Fp.params
  invert := k256FpInvert K256Fp.arith
  sqrt := sqrt34 K256Fp.arith K256Fp.params ⟨0xffffffffbfffff0c, 0xffffffffffffffff, 0xffffffffffffffff, 0x3fffffffffffffff⟩

/-- `k256/fq` (crypto/core/curves/native/k256/fq/fq.go:96-107: `c3` and `c5`, and `s` in line 292). -/
def K256Fq.impl : Impl where
  A := K256Fq.arith
  P := K256Fq.params
  invert := k256FqInvert K256Fq.arith
  sqrt := sqrtTS K256Fq.arith K256Fq.params 6
    ⟨0x777fa4bd19a06c82, 0xfd755db9cd5e9140, 0xffffffffffffffff, 0x01ffffffffffffff⟩
    ⟨0x944cf2a220910e04, 0x815c829c780589f4, 0x55980b07bc222113, 0xc702b0d248825b36⟩

/-- `p256/fp` (crypto/core/curves/native/p256/fp/fp.go:88-93: the exponent). -/
def P256Fp.impl : Impl where
  A := P256Fp.arith
  P := P256Fp.params
  invert := p256FpInvert P256Fp.arith
  sqrt := sqrt34 P256Fp.arith P256Fp.params ⟨0x0000000000000000, 0x0000000040000000, 0x4000000000000000, 0x3fffffffc0000000⟩

/-- `p256/fq` (crypto/core/curves/native/p256/fq/fq.go:96-105: `c3` and `c5`, and `s` in line 309). -/
def P256Fq.impl : Impl where
  A := P256Fq.arith
  P := P256Fq.params
  invert := p256FqInvert P256Fq.arith
  sqrt := sqrtTS P256Fq.arith P256Fq.params 4
    ⟨0x279dce5617e3192a, 0xfde737d56d38bcf4, 0x07ffffffffffffff, 0x07fffffff8000000⟩
    ⟨0x1015708f7e368fe1, 0x31c6c5456ecc4511, 0x5281fe8998a19ea1, 0x0279089e10c63fe8⟩

/-! ## Scalar methods -/

namespace Scalar
variable (F : Impl)

/-- `Hash` after `ExpandMsgXmd` returned the 48 bytes `xmd` (crypto/core/curves/k256_curve.go:122-131). -/
def ofXmd (xmd : List UInt8) : L4 := Field.setBytesWide F.A F.P (xmd.reverse ++ List.replicate (64 - xmd.length) 0)

/-- `Zero` (crypto/core/curves/k256_curve.go:133-137). -/
def zero : L4 := Field.zero

/-- `One` (crypto/core/curves/k256_curve.go:139-143). -/
def one : L4 := Field.one F.P

/-- `IsZero` (crypto/core/curves/k256_curve.go:145-147). -/
def isZero (s : L4) : Bool := Native.isZero s == 1

/-- `IsOne` (crypto/core/curves/k256_curve.go:149-151). -/
def isOne (s : L4) : Bool := Field.isOne F.P s == 1

/-- `IsOdd` (crypto/core/curves/k256_curve.go:153-155). -/
def isOdd (s : L4) : Bool := (Field.bytes F.A s).headD 0 &&& 1 == 1

/-- `IsEven` (crypto/core/curves/k256_curve.go:157-159). -/
def isEven (s : L4) : Bool := (Field.bytes F.A s).headD 0 &&& 1 == 0

/-- `New` (crypto/core/curves/k256_curve.go:161-170). -/
def new (value : Int) : Res L4 :=
  if value < 0 ∧ F.P.biModulus = 0 then .panic
  else
    let v := if value < 0 then value % F.P.biModulus else value
    Field.setBigInt F.A F.P Field.zero v

/-- `Cmp` of two scalars of the same curve (crypto/core/curves/k256_curve.go:172-179). -/
def cmp (s r : L4) : Int := Field.cmp s r

/-- `Square` (crypto/core/curves/k256_curve.go:181-185). -/
def square (s : L4) : L4 := F.A.square s

/-- `Double` (crypto/core/curves/k256_curve.go:187-191). -/
def double (s : L4) : L4 := Field.double F.A s

/-- `Invert` (crypto/core/curves/k256_curve.go:193-201). -/
def invert (s : L4) : Res L4 :=
  let r := F.invert Field.zero s
  if r.1 = 1 then .ok r.2 else .err

/-- `Sqrt` (crypto/core/curves/k256_curve.go:203-211). -/
def sqrt (s : L4) : Res L4 :=
  let r := F.sqrt Field.zero s
  if r.1 = 1 then .ok r.2 else .err

/-- `Cube` (crypto/core/curves/k256_curve.go:213-219). -/
def cube (s : L4) : L4 :=
  let value := F.A.mul s s
  F.A.mul value s

/-- `Add` (crypto/core/curves/k256_curve.go:221-230). -/
def add (s r : L4) : L4 := F.A.add s r

/-- `Sub` (crypto/core/curves/k256_curve.go:232-241). -/
def sub (s r : L4) : L4 := F.A.sub s r

/-- `Mul` (crypto/core/curves/k256_curve.go:243-252). -/
def mul (s r : L4) : L4 := F.A.mul s r

/-- `MulAdd` (crypto/core/curves/k256_curve.go:254-256). -/
def mulAdd (s y z : L4) : L4 := add F (mul F s y) z

/-- `Div`: `nil` (here `none`) for a zero divisor (crypto/core/curves/k256_curve.go:258-270). -/
def div (s r : L4) : Option L4 :=
  let v := F.invert Field.zero r
  if v.1 = 1 then some (F.A.mul v.2 s) else none

/-- `Neg` (crypto/core/curves/k256_curve.go:272-276). -/
def neg (s : L4) : L4 := F.A.neg s

/-- `SetBigInt`; `none` is the nil pointer (crypto/core/curves/k256_curve.go:278-286). -/
def setBigInt (v : Option Int) : Res L4 :=
  match v with
  | none => .err
  | some v => Field.setBigInt F.A F.P Field.zero v

/-- `BigInt` (crypto/core/curves/k256_curve.go:288-290). -/
def bigInt (s : L4) : Int := Field.bigInt F.A s

/-- `Bytes`, big-endian (crypto/core/curves/k256_curve.go:292-295). -/
def bytes (s : L4) : List UInt8 := (Field.bytes F.A s).reverse

/-- `SetBytes`, big-endian (crypto/core/curves/k256_curve.go:297-310). -/
def setBytes (b : List UInt8) : Res L4 :=
  if b.length ≠ 32 then .err else Field.setBytes F.A F.P b.reverse

/-- `SetBytesWide`, little-endian (crypto/core/curves/k256_curve.go:312-321). -/
def setBytesWide (b : List UInt8) : Res L4 :=
  if b.length ≠ 64 then .err else .ok (Field.setBytesWide F.A F.P b)

end Scalar

/-! ## Specification -/

/-- The implementation computes in the field of `p` elements. -/
structure Good (F : Impl) (p : Nat) : Prop where
  prime : p.Prime
  lawful : Lawful F.A F.P p
  invert : InvertSpec p F.invert
  sqrt : SqrtSpec p F.sqrt

section
variable {p : Nat}

theorem rep_of_powMod {A : Arith} {P : Params} (L : Lawful A P p) {c : L4} {g : Nat}
    (h1 : c.val < p) (h2 : c.val = g * 2 ^ 256 % p) : Rep p c (g : ZMod p) := by
  have := L.one_lt
  refine ⟨h1, ?_⟩
  rw [h2, ZMod.natCast_mod, Nat.cast_mul, two256]

end

theorem neg_one_of_pw {p g k : Nat} (hp : 1 < p) (h : Primes.pw p 300 g (2 ^ k) 1 % p = p - 1) (hk : 2 ^ k < 2 ^ 300) :
    (g : ZMod p) ^ 2 ^ k = -1 := by
  have e := Primes.pw_spec p 300 g (2 ^ k) 1 hk
  rw [Nat.cast_one, one_mul] at e
  rw [← e, ← ZMod.natCast_mod, h, Nat.cast_sub (by omega), ZMod.natCast_self, Nat.cast_one, zero_sub]

/-- **C50.** The secp256k1 base field: all arithmetic, inversion and square roots, on the constants and the generated
code of the repository. -/
theorem C50_k256Fp : Good K256Fp.impl K256Fp.prime where
  prime := Fact.out
  lawful := K256Fp.lawful
  invert := k256FpInvert_spec K256Fp.lawful rfl
  sqrt := sqrt34_spec K256Fp.lawful _ (by decide +kernel)

/-- **C50.** The P-256 base field. -/
theorem C50_p256Fp : Good P256Fp.impl P256Fp.prime where
  prime := Fact.out
  lawful := P256Fp.lawful
  invert := p256FpInvert_spec P256Fp.lawful rfl
  sqrt := sqrt34_spec P256Fp.lawful _ (by decide +kernel)

/-- **C50.** The secp256k1 scalar field. -/
theorem C50_k256Fq : Good K256Fq.impl K256Fq.prime where
  prime := Fact.out
  lawful := K256Fq.lawful
  invert := k256FqInvert_spec K256Fq.lawful rfl
  sqrt := sqrtTS_spec K256Fq.lawful (by decide) (by decide +kernel)
    (rep_of_powMod K256Fq.lawful (g := 5480320495727936603795231718619559942670027629901634955707709633242980176626) (by decide +kernel) (by decide +kernel))
    (neg_one_of_pw (k := 5) (by decide +kernel) (by decide +kernel) (by decide +kernel))

/-- **C50.** The P-256 scalar field. -/
theorem C50_p256Fq : Good P256Fq.impl P256Fq.prime where
  prime := Fact.out
  lawful := P256Fq.lawful
  invert := p256FqInvert_spec P256Fq.lawful rfl
  sqrt := sqrtTS_spec P256Fq.lawful (by decide) (by decide +kernel)
    (rep_of_powMod P256Fq.lawful (g := 115695789336771192084080718687965001507772259361175921799893286721837170845186) (by decide +kernel) (by decide +kernel))
    (neg_one_of_pw (k := 3) (by decide +kernel) (by decide +kernel) (by decide +kernel))

/-! ## The scalar API -/

section
variable {F : Impl} {q : Nat} (G : Good F q)
include G

/-- **C66.** The ring operations of the scalar type are those of `ZMod q`, for all scalars. -/
theorem C66_scalar_ring {s r t : L4} {x y w : ZMod q} (hs : Rep q s x) (hr : Rep q r y) (ht : Rep q t w) :
    Rep q Scalar.zero (0 : ZMod q) ∧ Rep q (Scalar.one F) 1 ∧
    Rep q (Scalar.add F s r) (x + y) ∧ Rep q (Scalar.sub F s r) (x - y) ∧ Rep q (Scalar.mul F s r) (x * y) ∧
    Rep q (Scalar.neg F s) (-x) ∧ Rep q (Scalar.square F s) (x ^ 2) ∧ Rep q (Scalar.cube F s) (x ^ 3) ∧
    Rep q (Scalar.double F s) (2 * x) ∧ Rep q (Scalar.mulAdd F s r t) (x * y + w) := by
  have L := G.lawful
  refine ⟨(C50_constants L).2, (C50_constants L).1, C50_add L hs hr, C50_sub L hs hr, C50_mul L hs hr, C50_neg L hs, ?_, ?_,
    C50_double L hs, C50_add L (C50_mul L hs hr) ht⟩
  · rw [pow_two]; exact C50_square L hs
  · rw [pow_succ, pow_two]; exact C50_mul L (C50_mul L hs hs) hs

/-- **C66.** `Invert` and `Div` succeed exactly on non-zero divisors and return the quotient. -/
theorem C66_scalar_division {s r : L4} {x y : ZMod q} (hs : Rep q s x) (hr : Rep q r y) :
    (y ≠ 0 → ∃ i, Scalar.invert F r = .ok i ∧ Rep q i y⁻¹) ∧ (y = 0 → Scalar.invert F r = .err) ∧
    (y ≠ 0 → ∃ d, Scalar.div F s r = some d ∧ Rep q d (x * y⁻¹)) ∧ (y = 0 → Scalar.div F s r = none) := by
  obtain ⟨h1, h0⟩ := G.invert Field.zero r y hr
  refine ⟨fun h => ?_, fun h => ?_, fun h => ?_, fun h => ?_⟩
  · obtain ⟨i, hi, hri⟩ := h1 h
    exact ⟨i, by simp [Scalar.invert, hi], hri⟩
  · simp [Scalar.invert, h0 h]
  · obtain ⟨i, hi, hri⟩ := h1 h
    refine ⟨F.A.mul i s, by simp only [Scalar.div, hi, if_pos], ?_⟩
    rw [mul_comm]
    exact C50_mul G.lawful hri hs
  · simp [Scalar.div, h0 h]

/-- **C66.** `Sqrt` succeeds exactly on squares and returns a root. -/
theorem C66_scalar_sqrt {s : L4} {x : ZMod q} (hs : Rep q s x) :
    (IsSquare x → ∃ r y, Scalar.sqrt F s = .ok r ∧ Rep q r y ∧ y * y = x) ∧ (¬ IsSquare x → Scalar.sqrt F s = .err) := by
  obtain ⟨h1, h0⟩ := G.sqrt Field.zero s x hs
  refine ⟨fun h => ?_, fun h => ?_⟩
  · obtain ⟨r, y, hr, hy, hyy⟩ := h1 h
    exact ⟨r, y, by simp [Scalar.sqrt, hr], hy, hyy⟩
  · simp [Scalar.sqrt, h0 h]

/-- **C66.** `New` and `SetBigInt` give the residue of every integer; `BigInt` reads it back. -/
theorem C66_scalar_integers (v : Int) :
    (∃ s, Scalar.new F v = .ok s ∧ Rep q s (v : ZMod q) ∧ Scalar.bigInt F s = v % (q : Int)) ∧
    (∃ s, Scalar.setBigInt F (some v) = .ok s ∧ Rep q s (v : ZMod q) ∧ Scalar.bigInt F s = v % (q : Int)) ∧
    Scalar.setBigInt F none = .err := by
  have L := G.lawful
  have : NeZero q := ⟨by have := L.one_lt; omega⟩
  have hq : F.P.biModulus ≠ 0 := by rw [L.bi]; have := L.one_lt; omega
  have key : ∀ s : L4, Rep q s (v : ZMod q) → Scalar.bigInt F s = v % (q : Int) := by
    intro s hs
    show Field.bigInt F.A s = _
    rw [C50_bigInt L hs, ZMod.val_intCast]
  refine ⟨?_, ?_, rfl⟩
  · unfold Scalar.new
    rw [if_neg (fun h => hq h.2)]
    dsimp only
    by_cases hv : v < 0
    · rw [if_pos hv]
      obtain ⟨s, hs, hr⟩ := C50_setBigInt L Field.zero (v % F.P.biModulus)
      have hr' : Rep q s (v : ZMod q) := by
        rw [L.bi, ZMod.intCast_mod] at hr
        exact hr
      exact ⟨s, hs, hr', key s hr'⟩
    · rw [if_neg hv]
      obtain ⟨s, hs, hr⟩ := C50_setBigInt L Field.zero v
      exact ⟨s, hs, hr, key s hr⟩
  · obtain ⟨s, hs, hr⟩ := C50_setBigInt L Field.zero v
    exact ⟨s, hs, hr, key s hr⟩

/-- **C66.** `SetBytes` accepts exactly the 32-byte big-endian encodings of values below `q`, and `Bytes` is its inverse. -/
theorem C66_scalar_bytes (b : List UInt8) (s : L4) (x : ZMod q) (hs : Rep q s x) :
    (b.length = 32 → beToNat b < q → ∃ r, Scalar.setBytes F b = .ok r ∧ Rep q r (beToNat b : ZMod q) ∧ Scalar.bytes F r = b) ∧
    (b.length ≠ 32 ∨ q ≤ beToNat b → Scalar.setBytes F b = .err) ∧
    (Scalar.bytes F s).length = 32 ∧ beToNat (Scalar.bytes F s) = x.val ∧
    Scalar.setBytes F (Scalar.bytes F s) = .ok s := by
  have L := G.lawful
  have : NeZero q := ⟨by have := L.one_lt; omega⟩
  have hq := L.lt
  have hlen : ∀ s, (Scalar.bytes F s).length = 32 := fun s => by
    unfold Scalar.bytes; rw [List.length_reverse]; rfl
  have hval : ∀ s x, Rep q s x → beToNat (Scalar.bytes F s) = x.val := by
    intro s x h
    have hx := ZMod.val_lt x
    unfold Scalar.bytes
    rw [beToNat_reverse, C50_bytes L h, leToNat_natToLE, pow256, Nat.mod_eq_of_lt (by omega)]
  have rt : ∀ s x, Rep q s x → Scalar.setBytes F (Scalar.bytes F s) = .ok s := by
    intro s x h
    unfold Scalar.setBytes
    rw [if_neg (fun hc => hc (hlen s))]
    unfold Scalar.bytes
    rw [List.reverse_reverse]
    exact C50_bytes_roundtrip L h
  refine ⟨fun hl hv => ?_, fun h => ?_, hlen s, hval s x hs, rt s x hs⟩
  · have hv' : leToNat b.reverse < q := by rw [leToNat_reverse]; exact hv
    obtain ⟨r, hr, hrep⟩ := (C50_setBytes L b.reverse (by rw [List.length_reverse, hl])).1 hv'
    rw [leToNat_reverse] at hrep
    refine ⟨r, by unfold Scalar.setBytes; rw [if_neg (fun hc => hc hl)]; exact hr, hrep, ?_⟩
    have hbv := hval r _ hrep
    rw [ZMod.val_natCast, Nat.mod_eq_of_lt hv] at hbv
    have e1 : natToLE (Scalar.bytes F r).reverse.length (leToNat (Scalar.bytes F r).reverse) = (Scalar.bytes F r).reverse :=
      natToLE_leToNat _
    have e2 : natToLE b.reverse.length (leToNat b.reverse) = b.reverse := natToLE_leToNat _
    rw [leToNat_reverse, List.length_reverse, hlen] at e1
    rw [leToNat_reverse, List.length_reverse, hl, ← hbv, e1] at e2
    exact List.reverse_injective e2
  · unfold Scalar.setBytes
    by_cases hl : b.length = 32
    · rw [if_neg (fun hc => hc hl)]
      refine (C50_setBytes L b.reverse (by rw [List.length_reverse, hl])).2 ?_
      rw [leToNat_reverse]
      rcases h with h | h
      · exact absurd hl h
      · exact h
    · rw [if_pos hl]

/-- **C66.** `SetBytesWide` (little-endian, unlike `SetBytes`) and the hash-to-scalar reduction (big-endian) reduce the whole
input. -/
theorem C66_scalar_wide (b : List UInt8) :
    (b.length = 64 → ∃ r, Scalar.setBytesWide F b = .ok r ∧ Rep q r (leToNat b : ZMod q)) ∧
    (b.length ≠ 64 → Scalar.setBytesWide F b = .err) ∧
    (b.length ≤ 64 → Rep q (Scalar.ofXmd F b) (beToNat b : ZMod q)) := by
  have L := G.lawful
  refine ⟨fun h => ?_, fun h => ?_, fun h => ?_⟩
  · exact ⟨_, by unfold Scalar.setBytesWide; rw [if_neg (fun hc => hc h)], C50_setBytesWide L b h⟩
  · unfold Scalar.setBytesWide
    rw [if_pos h]
  · have := C50_setBytesWide L (b.reverse ++ List.replicate (64 - b.length) 0) (by
      rw [List.length_append, List.length_reverse, List.length_replicate]; omega)
    have z0 : ∀ n, leToNat (List.replicate n (0 : UInt8)) = 0 := by
      intro n
      induction n with
      | zero => rfl
      | succ n ih => rw [List.replicate_succ, leToNat, ih]; rfl
    rw [leToNat_append, z0, Nat.mul_zero, Nat.add_zero, leToNat_reverse] at this
    exact this

/-- **C66.** The predicates read the value, not the stored form. -/
theorem C66_scalar_tests {s : L4} {x : ZMod q} (hs : Rep q s x) :
    (Scalar.isZero s = true ↔ x = 0) ∧ (Scalar.isOne F s = true ↔ x = 1) ∧
    (Scalar.isOdd F s = true ↔ x.val % 2 = 1) ∧ (Scalar.isEven F s = true ↔ x.val % 2 = 0) := by
  have L := G.lawful
  have : NeZero q := ⟨by have := L.one_lt; omega⟩
  obtain ⟨_, h1, h0, _⟩ := C50_equal L hs hs
  have hb : ((Field.bytes F.A s).headD 0 &&& 1).toNat = x.val % 2 := by
    rw [C50_bytes L hs]
    show (UInt8.ofNat x.val &&& 1).toNat = _
    rw [UInt8.toNat_and, UInt8.toNat_ofNat']
    show (x.val % 256) &&& 1 = _
    rw [Nat.and_one_is_mod]
    omega
  have hodd : ((Field.bytes F.A s).headD 0 &&& 1 = 1) ↔ x.val % 2 = 1 := by
    rw [← UInt8.toNat_inj, hb]; rfl
  have heven : ((Field.bytes F.A s).headD 0 &&& 1 = 0) ↔ x.val % 2 = 0 := by
    rw [← UInt8.toNat_inj, hb]; rfl
  refine ⟨?_, ?_, ?_, ?_⟩
  · unfold Scalar.isZero
    rw [h0, beq_iff_eq]
    split <;> simp_all
  · unfold Scalar.isOne
    rw [h1, beq_iff_eq]
    split <;> simp_all
  · unfold Scalar.isOdd
    rw [beq_iff_eq]
    exact hodd
  · unfold Scalar.isEven
    rw [beq_iff_eq]
    exact heven

end

/-! ## Non-vacuity: the scalars 7 and 9 -/

theorem rep_seven : Rep K256Fq.prime ⟨0xc13f6a264e843739, 0xe537f5b135039e5d, 0x0000000000000008, 0x0000000000000000⟩ ((7 : Nat) : ZMod K256Fq.prime) :=
  rep_of_powMod K256Fq.lawful (by decide +kernel) (by decide +kernel)

theorem rep_nine : Rep K256Fq.prime ⟨0x419aad0cae17b4b7, 0x6fda3be3d6725de6, 0x000000000000000b, 0x0000000000000000⟩ ((9 : Nat) : ZMod K256Fq.prime) :=
  rep_of_powMod K256Fq.lawful (by decide +kernel) (by decide +kernel)

example : Rep K256Fq.prime (Scalar.mul K256Fq.impl ⟨0xc13f6a264e843739, 0xe537f5b135039e5d, 0x0000000000000008, 0x0000000000000000⟩ ⟨0x419aad0cae17b4b7, 0x6fda3be3d6725de6, 0x000000000000000b, 0x0000000000000000⟩) (((7 : Nat) : ZMod K256Fq.prime) * ((9 : Nat) : ZMod K256Fq.prime)) :=
  (C66_scalar_ring C50_k256Fq rep_seven rep_nine rep_nine).2.2.2.2.1

/-- The limbs computed by the code for `7 · 9`, checked against the Montgomery form of 63. -/
example : Scalar.mul K256Fq.impl ⟨0xc13f6a264e843739, 0xe537f5b135039e5d, 0x0000000000000008, 0x0000000000000000⟩ ⟨0x419aad0cae17b4b7, 0x6fda3be3d6725de6, 0x000000000000000b, 0x0000000000000000⟩ = ⟨0xcb3abb58c2a5f101, 0x0ef7a33add20914b, 0x0000000000000050, 0x0000000000000000⟩ := by decide +kernel

example : ∃ r y, Scalar.sqrt K256Fq.impl ⟨0x419aad0cae17b4b7, 0x6fda3be3d6725de6, 0x000000000000000b, 0x0000000000000000⟩ = .ok r ∧ Rep K256Fq.prime r y ∧
    y * y = ((9 : Nat) : ZMod K256Fq.prime) :=
  (C66_scalar_sqrt C50_k256Fq rep_nine).1 ⟨((3 : Nat) : ZMod K256Fq.prime), by rw [← Nat.cast_mul]⟩

end Verif.Native
