import Verif.Curves.EdReal

/-!
# `EdScalar`: scalars of Ed25519 and their action on points

`crypto/core/curves/ed25519_curve.go`.  A scalar of the library (`filippo.io/edwards25519` v1.0.0) is kept reduced and is represented by its
residue; a point by a point of the curve (`EdReal`).
-/

set_option linter.unusedSectionVars false

namespace Verif.Ed25519
open Verif.Bytes

/-- The order of the prime subgroup (crypto/core/curves/ed25519_curve.go:142). -/
def L : Nat := 0x1000000000000000000000000000000014DEF9DEA2F79CD65812631A5CF5D3ED

theorem L_eq : L = Verif.Ec.EdSc.ell := rfl

instance fact_L : Fact L.Prime := Verif.Ec.EdSc.fact_ell

/-- `edwards25519.Scalar` -/
abbrev Sc := ZMod L

/-- An argument of the interface type `Scalar`: one of this curve, one of another curve (given by what its `Bytes` returns), or `nil`. -/
inductive AnySc where
  | ed (s : Sc)
  | other (bytes : List UInt8)
  | nil

/-- An argument of the interface type `Point`. -/
inductive AnyPt where
  | ed (P : E)
  | other
  | nil

namespace Scalar

/-- `Bytes` (crypto/core/curves/ed25519_curve.go:241-243). -/
def bytes (s : Sc) : List UInt8 := natToLE 32 s.val

/-- `SetCanonicalBytes` (library): 32 bytes of a value below the order, least significant first. -/
def setCanonicalBytes (b : List UInt8) : Res Sc :=
  if b.length ≠ 32 then .err else if leToNat b < L then .ok (leToNat b : Sc) else .err

/-- `SetUniformBytes` (library): 64 bytes, reduced. -/
def setUniformBytes (b : List UInt8) : Res Sc := if b.length ≠ 64 then .err else .ok (leToNat b : Sc)

/-- `SetBytesWithClamping` (library): clamped as in RFC 8032, then reduced. -/
def setBytesWithClamping (b : List UInt8) : Res Sc := if b.length ≠ 32 then .err else .ok (leToNat (Verif.Ec.EdSc.clamp b) : Sc)

/-- `Hash` (crypto/core/curves/ed25519_curve.go:44-53): `Derive` of the ristretto library reduces SHA-512. -/
def hash (sha512 : List UInt8 → List UInt8) (b : List UInt8) : Option Sc :=
  match setCanonicalBytes (natToLE 32 (leToNat (sha512 b) % L)) with
  | .ok s => some s
  | _ => none

/-- `Random` (crypto/core/curves/ed25519_curve.go:35-42): `none` is a `nil` reader; `some seed` is what the reader left in the 64 bytes, its
error ignored. -/
def random (sha512 : List UInt8 → List UInt8) (reader : Option (List UInt8)) : Option Sc :=
  match reader with
  | none => none
  | some seed => hash sha512 seed

/-- `Zero` (crypto/core/curves/ed25519_curve.go:55-59). -/
def zero : Sc := 0
/-- `One` (crypto/core/curves/ed25519_curve.go:61-65). -/
def one : Sc := 1

/-- `IsZero` (crypto/core/curves/ed25519_curve.go:67-73). -/
def isZero (s : Sc) : Bool := (bytes s).foldl (fun i b => i ||| b) 0 == 0

/-- `IsOne` (crypto/core/curves/ed25519_curve.go:75-82). -/
def isOne (s : Sc) : Bool := ((bytes s).drop 1).foldl (fun i b => i ||| b) 0 == 0 && (bytes s).headD 0 == 1

/-- `IsOdd` (crypto/core/curves/ed25519_curve.go:84-86). -/
def isOdd (s : Sc) : Bool := (bytes s).headD 0 &&& 1 == 1

/-- `IsEven` (crypto/core/curves/ed25519_curve.go:88-90). -/
def isEven (s : Sc) : Bool := (bytes s).headD 0 &&& 1 == 0

/-- `New` (crypto/core/curves/ed25519_curve.go:92-113): four bytes of the absolute value (`-input` of the least `int` is itself, whose low
bytes are those of the absolute value). -/
def new (input : Int) : Option Sc :=
  match setUniformBytes (natToLE 4 input.natAbs ++ List.replicate 60 0) with
  | .ok v => if input < 0 then some (-v) else some v
  | _ => none

/-- `Add` (crypto/core/curves/ed25519_curve.go:154-163). -/
def add (s : Sc) (rhs : AnySc) : Option Sc :=
  match rhs with
  | .ed r => some (s + r)
  | _ => none

/-- `Sub` (crypto/core/curves/ed25519_curve.go:165-174). -/
def sub (s : Sc) (rhs : AnySc) : Option Sc :=
  match rhs with
  | .ed r => some (s - r)
  | _ => none

/-- `Mul` (crypto/core/curves/ed25519_curve.go:176-185). -/
def mul (s : Sc) (rhs : AnySc) : Option Sc :=
  match rhs with
  | .ed r => some (s * r)
  | _ => none

/-- `MulAdd` (crypto/core/curves/ed25519_curve.go:187-197). -/
def mulAdd (s : Sc) (y z : AnySc) : Option Sc :=
  match y with
  | .ed yy =>
    match z with
    | .ed zz => some (s * yy + zz)
    | _ => none
  | _ => none

/-- `Div` (crypto/core/curves/ed25519_curve.go:199-208); `Invert` of the library raises to the power `ℓ - 2`. -/
def div (s : Sc) (rhs : AnySc) : Option Sc :=
  match rhs with
  | .ed r => some (r ^ (L - 2) * s)
  | _ => none

/-- `Neg` (crypto/core/curves/ed25519_curve.go:210-214). -/
def neg (s : Sc) : Sc := -s
/-- `Square` (crypto/core/curves/ed25519_curve.go:124-127). -/
def square (s : Sc) : Sc := s * s
/-- `Double` (crypto/core/curves/ed25519_curve.go:129-133). -/
def double (s : Sc) : Sc := s + s
/-- `Cube` (crypto/core/curves/ed25519_curve.go:148-152). -/
def cube (s : Sc) : Sc := s * s * s

/-- `Invert` (crypto/core/curves/ed25519_curve.go:135-139). -/
def invert (s : Sc) : Res Sc := .ok (s ^ (L - 2))

/-- `Cmp` (crypto/core/curves/ed25519_curve.go:115-122). -/
def cmp (s : Sc) (rhs : AnySc) : Int :=
  match sub s rhs with
  | some r => if isZero r then 0 else -2
  | none => -2

/-- `SetBigInt` (crypto/core/curves/ed25519_curve.go:216-233): `none` is a `nil` integer. -/
def setBigInt (x : Option Int) : Res Sc :=
  match x with
  | none => .err
  | some x =>
    let buf := Big.bytes (x % (L : Int))
    setCanonicalBytes (buf.reverse.take 32 ++ List.replicate (32 - buf.length) 0)

/-- `BigInt` (crypto/core/curves/ed25519_curve.go:235-239). -/
def bigInt (s : Sc) : Int := Big.setBytes (bytes s).reverse

open Classical in
/-- `ModSqrt` of `math/big` into its argument, for a prime that is five modulo eight: `none` (and an unchanged receiver) when the Jacobi symbol is
`-1`, zero when it is zero, else the formula of `modSqrt5Mod8Prime`. -/
noncomputable def modSqrt (x : Sc) : Option Sc :=
  if x = 0 then some 0
  else if ¬ IsSquare x then none
  else
    let e := L / 8
    let tx := 2 * x
    let alpha := tx ^ e
    let beta := alpha * alpha * tx
    some ((beta - 1) * x * alpha)

/-- `Sqrt` (crypto/core/curves/ed25519_curve.go:141-146): the result of `ModSqrt` is not looked at. -/
noncomputable def sqrt (s : Sc) : Res Sc :=
  let x := bigInt s
  let x := match modSqrt (x : Sc) with
    | some r => (r.val : Int)
    | none => x
  setBigInt (some x)

/-- `SetBytes`, `SetBytesCanonical` (crypto/core/curves/ed25519_curve.go:247-256). -/
def setBytes (b : List UInt8) : Res Sc := if b.length ≠ 32 then .err else setCanonicalBytes b
/-- `SetBytesWide` (crypto/core/curves/ed25519_curve.go:261-267). -/
def setBytesWide (b : List UInt8) : Res Sc := setUniformBytes b
/-- `SetBytesClamping` (crypto/core/curves/ed25519_curve.go:273-279). -/
def setBytesClamping (b : List UInt8) : Res Sc := setBytesWithClamping b

end Scalar

namespace Point

/-- `Identity` (crypto/core/curves/ed25519_curve.go:380-384). -/
def identity : E := 0
/-- `Generator` (crypto/core/curves/ed25519_curve.go:386-390). -/
def generator : E := base

/-- `Double` (crypto/core/curves/ed25519_curve.go:406-408). -/
def double (P : E) : E := P + P
/-- `Neg` (crypto/core/curves/ed25519_curve.go:414-416). -/
def neg (P : E) : E := -P

/-- `Add` (crypto/core/curves/ed25519_curve.go:418-428). -/
def add (P : E) (rhs : AnyPt) : Option E :=
  match rhs with
  | .ed R => some (P + R)
  | _ => none

/-- `Sub` (crypto/core/curves/ed25519_curve.go:430-441). -/
def sub (P : E) (rhs : AnyPt) : Option E :=
  match rhs with
  | .ed R => some (P + -R)
  | _ => none

/-- `ScalarMult` (library): the multiple by the reduced value. -/
def smul (s : Sc) (P : E) : E := s.val • P

/-- `Mul` (crypto/core/curves/ed25519_curve.go:443-454). -/
def mul (P : E) (rhs : AnySc) : Option E :=
  match rhs with
  | .ed r => some (smul r P)
  | _ => none

/-- `MangleScalarBitsAndMulByBasepointToProducePublicKey` (crypto/core/curves/ed25519_curve.go:460-468). -/
def mangle (s : Sc) : Option E :=
  match Scalar.setBytesWithClamping (Scalar.bytes s) with
  | .ok s => some (smul s base)
  | _ => none

open Classical in
/-- `Equal` (crypto/core/curves/ed25519_curve.go:470-488). -/
noncomputable def equal (P : E) (rhs : AnyPt) : Bool :=
  match rhs with
  | .ed R => decide (P = R)
  | _ => false

/-- `IsIdentity` (crypto/core/curves/ed25519_curve.go:392-394). -/
noncomputable def isIdentity (P : E) : Bool := equal P (.ed identity)

/-- The scalars of `SumOfProducts`: `Bytes` of whatever is given, read as a canonical scalar; `none` is the early `return nil`. -/
def scalars : List AnySc → Res (Option (List Sc))
  | [] => .ok (some [])
  | .nil :: _ => .panic
  | .ed s :: l =>
    match Scalar.setCanonicalBytes (Scalar.bytes s) with
    | .ok v => (scalars l).bind fun r => .ok (r.map (v :: ·))
    | _ => .ok none
  | .other b :: l =>
    match Scalar.setCanonicalBytes b with
    | .ok v => (scalars l).bind fun r => .ok (r.map (v :: ·))
    | _ => .ok none

/-- The points of `SumOfProducts`. -/
def points : List AnyPt → Option (List E)
  | [] => some []
  | .ed P :: l => (points l).map (P :: ·)
  | _ :: _ => none

/-- `MultiScalarMult` (library): it panics on inputs of different lengths. -/
def multiScalarMult (ss : List Sc) (ps : List E) : Res E :=
  if ss.length ≠ ps.length then .panic else .ok ((List.zipWith smul ss ps).sum)

/-- `SumOfProducts` (crypto/core/curves/ed25519_curve.go:612-631): `none` is the `nil` point. -/
def sumOfProducts (ps : List AnyPt) (ss : List AnySc) : Res (Option E) :=
  (scalars ss).bind fun n =>
    match n with
    | none => .ok none
    | some n =>
      match points ps with
      | none => .ok none
      | some q => (multiScalarMult n q).bind fun r => .ok (some r)

/-- `VarTimeDoubleScalarBaseMult` (crypto/core/curves/ed25519_curve.go:633-648): `a A + b B` with the base point `B` (library). -/
def varTimeDoubleScalarBaseMult (a : AnySc) (A : AnyPt) (b : AnySc) : Option E :=
  match A with
  | .ed AA =>
    match a with
    | .ed aa =>
      match b with
      | .ed bb => some (smul aa AA + smul bb base)
      | _ => none
    | _ => none
  | _ => none

end Point

end Verif.Ed25519
