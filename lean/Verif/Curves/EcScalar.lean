import Verif.Bls381.FqApi
import Verif.Core.Mod
import Verif.Native.HashCurve
import Verif.Curves.EcPoint

/-!
# `EcScalar`: arithmetic on `*big.Int` modulo the order of a curve

`crypto/core/curves/ec_scalar.go`.  `K256Scalar` and `P256Scalar` contain the same text and are modelled once, over the order.
The arguments are non-nil integers; `edwards25519.Scalar` and `ristretto.Scalar` are libraries, given as what they document.
-/

set_option linter.unusedSectionVars false

namespace Verif.Ec
open Verif.Bytes Verif.Native

/-! ## secp256k1 and P-256 -/

namespace Sc
variable (N : Int)

/-- `Add` (crypto/core/curves/ec_scalar.go:49-53, 115-119). -/
def add (x y : Int) : Res Int := Big.mod (x + y) N
/-- `Sub` (crypto/core/curves/ec_scalar.go:55-59, 121-125). -/
def sub (x y : Int) : Res Int := Big.mod (x - y) N
/-- `Neg` (crypto/core/curves/ec_scalar.go:61-65, 127-131). -/
def neg (x : Int) : Res Int := Big.mod (N - x) N
/-- `Mul` (crypto/core/curves/ec_scalar.go:67-71, 133-137); `big.Int.Mul` dereferences a nil factor. -/
def mul (x : Int) : Option Int → Res Int
  | some y => Big.mod (x * y) N
  | none => .panic
/-- `Div` (crypto/core/curves/ec_scalar.go:73-76, 139-142): the result of `ModInverse` is used without a test. -/
def div (x y : Int) : Res Int := mul N x (Big.modInverse y N)
/-- `IsValid` (crypto/core/curves/ec_scalar.go:96-98, 162-164). -/
def isValid (x : Int) : Bool := CoreMod.inZm (some x) (some N)
/-- `Bytes` (crypto/core/curves/ec_scalar.go:100-104, 166-170). -/
def bytes (x : Int) : Res (List UInt8) := fill 32 (some x)

/-- One `Read` of the operating system's generator into a fresh buffer of `size` bytes: its content afterwards, the number of
bytes reported, and whether an error was reported. -/
structure Rand (size : Nat) where
  buf : List UInt8
  hbuf : buf.length = size
  n : Nat
  failed : Bool

/-- `Random` (crypto/core/curves/ec_scalar.go:82-94, 148-160). -/
def random (r : Rand 48) : Res Int :=
  if r.failed then .err
  else if r.n ≠ 48 then .err
  else Big.mod (Big.setBytes r.buf) N

end Sc

/-! ## BLS12-381 -/

namespace BlsSc
open Verif.Bls381

/-- `Bls12381FqNew().SetBigInt(x)` (crypto/core/curves/native/field.go:237-245). -/
def set (x : Int) : Res L4 := Field.setBigInt Fq.impl.A Fq.impl.P Field.zero x
/-- `Add` (crypto/core/curves/ec_scalar.go:181-185). -/
def add (x y : Int) : Res Int := do
  let a ← set x
  let b ← set y
  .ok (Scalar.bigInt Fq.impl (Scalar.add Fq.impl a b))
/-- `Sub` (crypto/core/curves/ec_scalar.go:187-191). -/
def sub (x y : Int) : Res Int := do
  let a ← set x
  let b ← set y
  .ok (Scalar.bigInt Fq.impl (Scalar.sub Fq.impl a b))
/-- `Neg` (crypto/core/curves/ec_scalar.go:193-196). -/
def neg (x : Int) : Res Int := do
  let a ← set x
  .ok (Scalar.bigInt Fq.impl (Scalar.neg Fq.impl a))
/-- `Mul` (crypto/core/curves/ec_scalar.go:198-202). -/
def mul (x y : Int) : Res Int := do
  let a ← set x
  let b ← set y
  .ok (Scalar.bigInt Fq.impl (Scalar.mul Fq.impl a b))
/-- `Div` (crypto/core/curves/ec_scalar.go:204-212): without an inverse the dividend is returned. -/
def div (x y : Int) : Res Int := do
  let a ← set x
  let b ← set y
  let i := Fq.impl.invert Field.zero b
  let c := Fq.impl.A.mul a i.2
  .ok (Scalar.bigInt Fq.impl (Fq.select a c (if i.1 = 1 then 1 else 0)))
/-- `Bytes` (crypto/core/curves/ec_scalar.go:226-230). -/
def bytes (x : Int) : Res (List UInt8) := fill 32 (some x)
/-- `IsValid` (crypto/core/curves/ec_scalar.go:232-235). -/
def isValid (x : Int) : Res Bool := do
  let a ← set x
  .ok (Scalar.bigInt Fq.impl a == x)

end BlsSc

/-! ## Ed25519 -/

namespace EdSc

/-- The order of the prime subgroup (crypto/core/curves/ec_scalar.go:238). -/
abbrev ell : Nat := 0x1000000000000000000000000000000014DEF9DEA2F79CD65812631A5CF5D3ED

/-- `BigInt2Ed25519Scalar` (crypto/internal/point.go:38-44): the bytes of the absolute value, least significant first, the first
32 of them copied into a zero array; `SetCanonicalBytes` of `edwards25519.Scalar` accepts exactly the little-endian values below
the order.  The scalar is represented by its value. -/
def scalar (x : Int) : Res Nat :=
  let k := (Big.bytes x).reverse
  let arr := k.take 32 ++ List.replicate (32 - k.length) 0
  if leToNat arr < ell then .ok (leToNat arr) else .err

/-- `if err != nil { panic(err) }` around it (crypto/core/curves/ec_scalar.go:250-253). -/
def must (x : Int) : Res Nat :=
  match scalar x with
  | .ok v => .ok v
  | _ => .panic

/-- `new(big.Int).SetBytes(internal.ReverseScalarBytes(a.Bytes()))`: the value (crypto/core/curves/ec_scalar.go:259). -/
def out (v : Nat) : Int := Big.setBytes (natToLE 32 v).reverse

/-- `Add` (crypto/core/curves/ec_scalar.go:249-260). -/
def add (x y : Int) : Res Int := do
  let a ← must x
  let b ← must y
  .ok (out ((a + b) % ell))
/-- `Sub` (crypto/core/curves/ec_scalar.go:262-273). -/
def sub (x y : Int) : Res Int := do
  let a ← must x
  let b ← must y
  .ok (out ((a + (ell - b)) % ell))
/-- `Neg` (crypto/core/curves/ec_scalar.go:275-282). -/
def neg (x : Int) : Res Int := do
  let a ← must x
  .ok (out ((ell - a) % ell))
/-- `Mul` (crypto/core/curves/ec_scalar.go:284-295). -/
def mul (x y : Int) : Res Int := do
  let a ← must x
  let b ← must y
  .ok (out (a * b % ell))
/-- `Div` (crypto/core/curves/ec_scalar.go:297-309); `Invert` of `edwards25519.Scalar` is the inverse in the field, and zero for
zero. -/
noncomputable def div (x y : Int) : Res Int := do
  let b ← must y
  let b := ((b : ZMod ell)⁻¹).val
  let a ← must x
  .ok (out (a * b % ell))
/-- `Bytes` (crypto/core/curves/ec_scalar.go:318-324). -/
def bytes (x : Int) : Res (List UInt8) := do
  let a ← must x
  .ok (natToLE 32 a).reverse
/-- `IsValid` (crypto/core/curves/ec_scalar.go:349-351). -/
def isValid (x : Int) : Bool := decide (x < (ell : Int))

/-- The clamping of RFC 8032, 5.1.5 (`SetBytesWithClamping` of `edwards25519.Scalar`, which reduces the result). -/
def clamp (b : List UInt8) : List UInt8 :=
  match b with
  | [] => []
  | f :: r => (f &&& 248) :: (r.dropLast ++ [(r.getLastD 0 &&& 63) ||| 64])

/-- `RandomWithReader` (crypto/core/curves/ec_scalar.go:330-347), given what the reader did and SHA-512. -/
def random (sha512 : List UInt8 → List UInt8) (r : Sc.Rand 64) : Res Int :=
  if r.failed then .err
  else if r.n ≠ 64 then .err
  else .ok (out (leToNat (clamp ((sha512 r.buf).take 32)) % ell))

end EdSc

end Verif.Ec
