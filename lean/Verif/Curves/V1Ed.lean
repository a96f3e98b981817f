import Verif.Curves.EdLib
import Verif.Curves.EcPoint

/-!
# `V1Ed`: Ed25519 behind Go's `elliptic.Curve`

`crypto/sharing/v1/ed25519curve.go` and the conversions of `crypto/internal/point.go`, over the library contract `EdLib`.  A point is a pair of
integers of which the first is ignored and the second is the encoding read most significant byte first.
-/

set_option linter.unusedSectionVars false

namespace Verif.V1Ed
open Verif.Bytes Verif.Ed
open Verif.Ec.EdSc (ell)

variable {A : Type} [AddCommGroup A]

/-- `BigInt2Ed25519Point` (crypto/internal/point.go:31-36): the bytes of the absolute value at the end of a zero array; the slice expression
panics for more than 32 bytes. -/
def point (L : EdLib A) (y : Int) : Res A :=
  let b := Big.bytes y
  if 32 < b.length then .panic
  else
    match L.dec (List.replicate (32 - b.length) 0 ++ b) with
    | some P => .ok P
    | none => .err

/-- `new(big.Int).SetBytes(p.Bytes())` (crypto/sharing/v1/ed25519curve.go:77). -/
def out (L : EdLib A) (P : A) : Int × Int := (0, Big.setBytes (L.enc P))

/-- `IsOnCurve` (crypto/sharing/v1/ed25519curve.go:49-54). -/
def isOnCurve (L : EdLib A) (_x y : Int) : Res Bool :=
  match point L y with
  | .ok _ => .ok true
  | .err => .ok false
  | .panic => .panic

/-- `if err != nil { panic(err) }` (crypto/sharing/v1/ed25519curve.go:64-66). -/
def must : Res A → Res A
  | .ok P => .ok P
  | _ => .panic

/-- An operand of `Add` and `Neg`: zero is taken for the neutral element (crypto/sharing/v1/ed25519curve.go:59-66, 67-75, 128-135). -/
def operand (L : EdLib A) (y : Int) : Res A := if y = 0 then .ok 0 else must (point L y)

/-- `Add` (crypto/sharing/v1/ed25519curve.go:56-78). -/
def add (L : EdLib A) (_x1 y1 _x2 y2 : Int) : Res (Int × Int) := do
  let p1 ← operand L y1
  let p2 ← operand L y2
  .ok (out L (p1 + p2))

/-- `Double` (crypto/sharing/v1/ed25519curve.go:80-88). -/
def double (L : EdLib A) (_x1 y1 : Int) : Res (Int × Int) := do
  let p ← must (point L y1)
  .ok (out L (p + p))

/-- The scalar of the two multiplications: `BigInt2Ed25519Scalar` and, if that is an error, `SetUniformBytes` of 64 bytes, which reduces
(crypto/sharing/v1/ed25519curve.go:95-103, 109-117). -/
def scalar (k : List UInt8) : Nat :=
  match Ec.EdSc.scalar (Big.setBytes k) with
  | .ok v => v
  | _ =>
    let r := k.reverse
    leToNat (r.take 64 ++ List.replicate (64 - r.length) 0) % ell

/-- `ScalarMult` (crypto/sharing/v1/ed25519curve.go:90-106). -/
def scalarMult (L : EdLib A) (_Bx By : Int) (k : List UInt8) : Res (Int × Int) := do
  let p ← must (point L By)
  .ok (out L (scalar k • p))

/-- `ScalarBaseMult` (crypto/sharing/v1/ed25519curve.go:108-120). -/
def scalarBaseMult (L : EdLib A) (k : List UInt8) : Res (Int × Int) := .ok (out L (scalar k • L.base))

/-- `Neg` (crypto/sharing/v1/ed25519curve.go:122-136). -/
def neg (L : EdLib A) (_Bx By : Int) : Res (Int × Int) := do
  let p ← operand L By
  .ok (out L (-p))

/-- The end of `Hash`, given the point the message is hashed to: here the encoding is read the other way round
(crypto/sharing/v1/ed25519curve.go:138-145). -/
def hashOut (L : EdLib A) (P : A) : Int × Int := (0, Big.setBytes (L.enc P).reverse)

/-- `Ed25519()` as an `elliptic.Curve`, with the parameters at the addresses `a` (crypto/sharing/v1/ed25519curve.go:28-42); `B` is not set.
A panic of `IsOnCurve` is not represented: it needs a coordinate of more than 256 bits (see `isOnCurve`). -/
def curve (L : EdLib A) (a : Nat) : Ec.Curve where
  P := ⟨a, 0x7FFFFFFFFFFFFFFFFFFFFFFFFFFFFFFFFFFFFFFFFFFFFFFFFFFFFFFFFFFFFFED⟩
  N := ⟨a + 1, ell⟩
  B := ⟨0, 0⟩
  Gx := ⟨a + 3, 0⟩
  Gy := ⟨a + 4, Big.setBytes (L.enc L.base)⟩
  bitSize := 255
  name := "ed25519"
  isOnCurve := fun x y => match isOnCurve L x y with
    | .ok b => b
    | _ => false
  add := add L
  scalarMult := scalarMult L
  scalarBaseMult := scalarBaseMult L

end Verif.V1Ed
