import Verif.Curves.EdField
import Verif.Curves.EcScalar

/-!
# `EdHash`: points of Ed25519 by their coordinates, and the hash to the curve

`crypto/core/curves/ed25519_curve.go`.  A point of the library (`filippo.io/edwards25519` v1.0.0) is represented by its affine coordinates.
-/

set_option linter.unusedSectionVars false

namespace Verif.Ed25519
open Verif.Bytes

/-- The constant of the curve, `-121665/121666` (library). -/
def edD : K := -121665 / 121666

/-- The affine coordinates of a point. -/
abbrev Pnt := K × K

/-- `NewIdentityPoint()` -/
def identity : Pnt := (0, 1)

/-- The curve equation. -/
def OnCurve (P : Pnt) : Prop := -P.1 ^ 2 + P.2 ^ 2 = 1 + edD * P.1 ^ 2 * P.2 ^ 2

instance (P : Pnt) : Decidable (OnCurve P) := inferInstanceAs (Decidable (_ = _))

/-- `Add` (library): the complete addition formulas. -/
def add (P Q : Pnt) : Pnt :=
  ((P.1 * Q.2 + Q.1 * P.2) / (1 + edD * P.1 * Q.1 * P.2 * Q.2), (P.2 * Q.2 + P.1 * Q.1) / (1 - edD * P.1 * Q.1 * P.2 * Q.2))

/-- `Negate` (library). -/
def neg (P : Pnt) : Pnt := (-P.1, P.2)

/-- `MultByCofactor` (library): three doublings. -/
def mulByCofactor (P : Pnt) : Pnt :=
  let P2 := add P P
  let P4 := add P2 P2
  add P4 P4

/-- `Bytes` of a field element (library): the reduced value in 32 bytes, least significant first. -/
def feBytes (x : K) : List UInt8 := natToLE 32 x.val

/-- `SetBytes` of a field element from 32 bytes (library): the top bit is ignored and the value need not be reduced. -/
def feOfBytes (b : List UInt8) : K := ((leToNat b % 2 ^ 255 : Nat) : K)

/-- `ToAffineCompressed`: the second coordinate with the parity of the first in the top bit (crypto/core/curves/ed25519_curve.go:561-563,
library `Bytes`). -/
def toAffineCompressed (P : Pnt) : List UInt8 := natToLE 32 (P.2.val + 2 ^ 255 * (P.1.val % 2))

/-- `FromAffineCompressed` (crypto/core/curves/ed25519_curve.go:576-582, library `SetBytes`): the root of `(y^2 - 1)/(d y^2 + 1)` with the
sign of the top bit. -/
def fromAffineCompressed (b : List UInt8) : Res Pnt :=
  if b.length ≠ 32 then .err
  else
    let y := feOfBytes b
    let s := sqrtRatio (y ^ 2 - 1) (edD * y ^ 2 + 1)
    if s.2 then .ok (if leToNat b / 2 ^ 255 = 1 then -s.1 else s.1, y) else .err

/-- `ToAffineUncompressed` (crypto/core/curves/ed25519_curve.go:565-574). -/
def toAffineUncompressed (P : Pnt) : List UInt8 := feBytes P.1 ++ feBytes P.2

/-- `FromAffineUncompressed` (crypto/core/curves/ed25519_curve.go:584-606): `SetExtendedCoordinates` checks the equation. -/
def fromAffineUncompressed (b : List UInt8) : Res Pnt :=
  if b.length ≠ 64 then .err
  else if b = List.replicate 64 0 then .ok identity
  else
    let x := feOfBytes (b.take 32)
    let y := feOfBytes (b.drop 32)
    if OnCurve (x, y) then .ok (x, y) else .err

/-- `Set` (crypto/core/curves/ed25519_curve.go:490-507); `SetBigInt` of a field element reduces (library). -/
def set (x y : Int) : Res Pnt :=
  let xx := if Big.bytes x = [] then 1 else 0
  let yy := if Big.bytes y = [] then 1 else 0
  if (xx ||| yy : Nat) = 1 then .ok identity
  else fromAffineUncompressed (feBytes (x : K) ++ feBytes (y : K))

/-- `err == nil` -/
def noError {α : Type} : Res α → Bool
  | .ok _ => true
  | _ => false

theorem noError_of {α : Type} {r : Res α} {a : α} (h : r = .ok a) : noError r = true := by subst h; rfl

/-- `IsOnCurve` (crypto/core/curves/ed25519_curve.go:401-404). -/
def isOnCurve (P : Pnt) : Bool := noError (fromAffineCompressed (toAffineCompressed P))

/-- `toEdwards` (crypto/core/curves/ed25519_curve.go:713-746): `none` is the `nil` point. -/
def toEdwards (u : K) (sign : Nat) : Option Pnt :=
  if u = -1 then none
  else
    let yLhs := u - 1
    let yRhs := u + 1
    let y := yLhs * yRhs⁻¹
    match fromAffineCompressed (natToLE 32 (y.val + 2 ^ 255 * sign)) with
    | .ok P => some (mulByCofactor P)
    | _ => none

/-- `Hash` (crypto/core/curves/ed25519_curve.go:365-378). -/
def hash (sha512 : List UInt8 → List UInt8) (b : List UInt8) : Option Pnt :=
  let res := (sha512 b).take 32
  let signBit := leToNat res / 2 ^ 255
  toEdwards (elligatorEncode (feOfBytes res)) signBit

/-- `Random`: whatever the reader left in the 64 bytes, its error ignored (crypto/core/curves/ed25519_curve.go:359-363). -/
def random (sha512 : List UInt8 → List UInt8) (seed : List UInt8) : Option Pnt := hash sha512 seed

end Verif.Ed25519
