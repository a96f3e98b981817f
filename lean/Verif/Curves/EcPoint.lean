import Verif.Native.PointApi
import Verif.Core.Mod

/-!
# `EcPoint`: points held as a pair of integers over an `elliptic.Curve`

`crypto/core/curves/ec_point.go`, the point type of the Gennaro DKG, of the first generation of secret sharing, of the Paillier
square-freeness proof and of the DID public keys.  The curve itself is a value of Go's interface `elliptic.Curve` (the standard
library, or btcec for secp256k1): a record of functions here, with the contract `Ec.Is` below.
-/

set_option linter.unusedSectionVars false

namespace Verif.Ec
open Verif.Bytes

/-- A `*big.Int` held by the parameters of a curve: `sameCurve` compares the pointers, so the address is part of the value. -/
structure Ref where
  addr : Nat
  val : Int
deriving DecidableEq

/-- The interface `elliptic.Curve` of Go's standard library, with the fields of `Params()` used by the package.  `none` among
the arguments is a nil `*big.Int`. -/
structure Curve where
  P : Ref
  N : Ref
  B : Ref
  Gx : Ref
  Gy : Ref
  bitSize : Nat
  name : String
  isOnCurve : Int → Int → Bool
  add : Int → Int → Int → Int → Res (Int × Int)
  scalarMult : Int → Int → List UInt8 → Res (Int × Int)
  scalarBaseMult : List UInt8 → Res (Int × Int)

/-- `EcPoint` (crypto/core/curves/ec_point.go:45-48); `none` is a nil coordinate. -/
structure Point where
  curve : Curve
  X : Option Int
  Y : Option Int

/-- `big.Int.FillBytes(buf)` of Go's standard library, `n = len(buf)`: the absolute value in `n` big-endian bytes, a panic when
it does not fit; a nil receiver is dereferenced. -/
def fill (n : Nat) : Option Int → Res (List UInt8)
  | none => .panic
  | some x => match fillBytes n x.natAbs with
    | some b => .ok b
    | none => .panic

namespace Point

/-- `IsOnCurve` (crypto/core/curves/ec_point.go:118-120); the curve dereferences its arguments. -/
def isOnCurve (a : Point) : Res Bool :=
  match a.X, a.Y with
  | some x, some y => .ok (a.curve.isOnCurve x y)
  | _, _ => .panic

/-- `IsIdentity` (crypto/core/curves/ec_point.go:123-127). -/
def isIdentity (a : Point) : Bool :=
  let x := CoreMod.constantTimeEqByte a.X (some 0)
  let y := CoreMod.constantTimeEqByte a.Y (some 0)
  (x &&& y) == 1

/-- `IsValid` (crypto/core/curves/ec_point.go:114-116). -/
def isValid (a : Point) : Res Bool := do
  let c ← isOnCurve a
  .ok (c || isIdentity a)

/-- `sameCurve` on two distinct pointers (crypto/core/curves/ec_point.go:234-256); equal pointers give the same answer. -/
def sameCurve (a b : Point) : Bool :=
  let x := a.curve
  let y := b.curve
  x.P.addr == y.P.addr && x.N.addr == y.N.addr && x.B.addr == y.B.addr && x.bitSize == y.bitSize &&
    x.Gx.addr == y.Gx.addr && x.Gy.addr == y.Gy.addr && x.name == y.name

/-- `Equals` (crypto/core/curves/ec_point.go:130-138); the receiver is a value, so a nil argument is not equal to it. -/
def equals (a : Point) : Option Point → Bool
  | none => false
  | some b =>
    if !sameCurve a b then false
    else
      let x := CoreMod.constantTimeEqByte a.X b.X
      let y := CoreMod.constantTimeEqByte a.Y b.Y
      (x &&& y) == 1

/-- `IsBasePoint` (crypto/core/curves/ec_point.go:141-146). -/
def isBasePoint (a : Point) : Bool :=
  let x := CoreMod.constantTimeEqByte a.X (some a.curve.Gx.val)
  let y := CoreMod.constantTimeEqByte a.Y (some a.curve.Gy.val)
  (x &&& y) == 1

/-- The check that ends the operations: `if !p.IsValid() { return nil, err }; return p, nil`
(crypto/core/curves/ec_point.go:165-168, 179-182, 194-197, 209-212). -/
def checked (p : Point) : Res Point := do
  let v ← isValid p
  if !v then .err else .ok p

/-- `Add` (crypto/core/curves/ec_point.go:154-169). -/
def add : Option Point → Option Point → Res Point
  | some a, some b =>
    if !sameCurve a b then .err
    else
      match a.X, a.Y, b.X, b.Y with
      | some x1, some y1, some x2, some y2 => do
        let r ← a.curve.add x1 y1 x2 y2
        checked ⟨a.curve, some r.1, some r.2⟩
      | _, _, _, _ => .panic
  | _, _ => .err

/-- `Neg` (crypto/core/curves/ec_point.go:172-183). -/
def neg : Option Point → Res Point
  | none => .err
  | some a =>
    match a.Y with
    | none => .panic
    | some y => checked ⟨a.curve, a.X, some (a.curve.P.val - y)⟩

end Point

/-- `reduceModN` (crypto/core/curves/ec_point.go:149-151). -/
def reduceModN (C : Curve) (k : Int) : Res Int := Big.mod k C.N.val

namespace Point

/-- `ScalarMult` (crypto/core/curves/ec_point.go:186-198). -/
def scalarMult : Option Point → Option Int → Res Point
  | some a, some k => do
    let n ← reduceModN a.curve k
    match a.X, a.Y with
    | some x, some y => do
      let r ← a.curve.scalarMult x y (Big.bytes n)
      checked ⟨a.curve, some r.1, some r.2⟩
    | _, _ => .panic
  | _, _ => .err

/-- `NewScalarBaseMult` (crypto/core/curves/ec_point.go:201-213). -/
def newScalarBaseMult : Option Curve → Option Int → Res Point
  | some C, some k => do
    let n ← reduceModN C k
    let r ← C.scalarBaseMult (Big.bytes n)
    checked ⟨C, some r.1, some r.2⟩
  | _, _ => .err

/-- `CalcFieldSize` (crypto/internal/point.go:16-19). -/
def fieldSize (C : Curve) : Nat := (C.bitSize + 7) / 8

/-- `Bytes` (crypto/core/curves/ec_point.go:216-223). -/
def bytes (a : Point) : Res (List UInt8) := do
  let x ← fill (fieldSize a.curve) a.X
  let y ← fill (fieldSize a.curve) a.Y
  .ok (x ++ y)

/-- `PointFromBytesUncompressed` (crypto/core/curves/ec_point.go:227-241). -/
def fromBytes (C : Curve) (b : List UInt8) : Res Point :=
  let n := fieldSize C
  if b.length ≠ n * 2 then .err
  else checked ⟨C, some (Big.setBytes (b.take n)), some (Big.setBytes (b.drop n))⟩

end Point

/-- The curves the decoders know (`curveNameToId`, `curveIdToName`, `curveMapper`, crypto/core/curves/ec_point.go:20-42). -/
structure Lib where
  s256 : Curve
  p224 : Curve
  p256 : Curve
  p384 : Curve
  p521 : Curve

/-- `curveNameToId` (crypto/core/curves/ec_point.go:20-26). -/
def nameToId (n : String) : Option UInt8 :=
  if n = "secp256k1" then some 0
  else if n = "P-224" then some 1
  else if n = "P-256" then some 2
  else if n = "P-384" then some 3
  else if n = "P-521" then some 4
  else none

/-- `curveIdToName` (crypto/core/curves/ec_point.go:28-34). -/
def Lib.ofId (L : Lib) (c : UInt8) : Option Curve :=
  if c = 0 then some L.s256
  else if c = 1 then some L.p224
  else if c = 2 then some L.p256
  else if c = 3 then some L.p384
  else if c = 4 then some L.p521
  else none

/-- `curveMapper` (crypto/core/curves/ec_point.go:36-42). -/
def Lib.ofName (L : Lib) (n : String) : Option Curve :=
  if n = "secp256k1" then some L.s256
  else if n = "P-224" then some L.p224
  else if n = "P-256" then some L.p256
  else if n = "P-384" then some L.p384
  else if n = "P-521" then some L.p521
  else none

/-- `EcPointJson` (crypto/core/curves/ec_point.go:53-56): what `encoding/json` is given and gives back; a missing or `null`
coordinate is `none`.  The text itself is the standard library's. -/
structure Json where
  curveName : String
  X : Option Int
  Y : Option Int

namespace Point

/-- `MarshalJSON` up to the text (crypto/core/curves/ec_point.go:59-65). -/
def toJson (a : Point) : Json := ⟨a.curve.name, a.X, a.Y⟩

/-- `UnmarshalJSON` after parsing; `none` is text that `encoding/json` rejects (crypto/core/curves/ec_point.go:67-80). -/
def ofJson (L : Lib) : Option Json → Res Point
  | none => .err
  | some d =>
    match L.ofName d.curveName with
    | some C => .ok ⟨C, d.X, d.Y⟩
    | none => .err

/-- `MarshalBinary` (crypto/core/curves/ec_point.go:82-91). -/
def marshalBinary (a : Point) : Res (List UInt8) :=
  match nameToId a.curve.name with
  | some code => do
    let x ← fill 32 a.X
    let y ← fill 32 a.Y
    .ok (code :: (x ++ y))
  | none => .err

/-- `UnmarshalBinary` (crypto/core/curves/ec_point.go:93-101).  The slice expressions are checked against the capacity of
`data`, taken to be its length. -/
def unmarshalBinary (L : Lib) (data : List UInt8) : Res Point :=
  match data with
  | [] => .panic
  | c :: rest =>
    match L.ofId c with
    | some C =>
      if rest.length < 64 then .panic
      else .ok ⟨C, some (Big.setBytes (rest.take 32)), some (Big.setBytes ((rest.drop 32).take 32))⟩
    | none => .err

end Point

/-! ## What an `elliptic.Curve` is: the specification the theorems are relative to -/

section
open Verif.Native Verif.Native.Weier
variable {p : Nat} [Fact p.Prime] {a b : ZMod p}

/-- `C` implements the curve `y² = x³ + a x + b` over the integers modulo `p`, of odd order `n`, with base point `G`: the
documented behaviour of `elliptic.Curve`, with `coords` (the coordinates in `[0, p)`, `(0, 0)` for the neutral element).  Membership is only prescribed for coordinates in range, because btcec also answers
for others; `(0, 0)` is not on the curve. -/
structure Is (C : Curve) (n : Nat) (G : Pt a b) : Prop where
  fieldP : C.P.val = p
  order : C.N.val = n
  odd : n % 2 = 1
  kills : ∀ Q : Pt a b, n • Q = 0
  base : (C.Gx.val, C.Gy.val) = coords G
  base_ne : G ≠ 0
  size : p < 2 ^ C.bitSize
  sound : ∀ x y : Int, 0 ≤ x → x < p → 0 ≤ y → y ≤ p → C.isOnCurve x y = true →
    (curve a b).Nonsingular (x : ZMod p) (y : ZMod p)
  complete : ∀ Q : Pt a b, Q ≠ 0 → C.isOnCurve (coords Q).1 (coords Q).2 = true
  origin : C.isOnCurve 0 0 = false
  add : ∀ Q R : Pt a b, C.add (coords Q).1 (coords Q).2 (coords R).1 (coords R).2 = .ok (coords (Q + R))
  mult : ∀ (Q : Pt a b) (k : List UInt8), beToNat k < n →
    C.scalarMult (coords Q).1 (coords Q).2 k = .ok (coords (beToNat k • Q))
  multBase : ∀ k : List UInt8, beToNat k < n → C.scalarBaseMult k = .ok (coords (beToNat k • G))

/-- A curve that accepts no coordinates out of range (the standard library's NIST curves). -/
def Strict (C : Curve) : Prop := ∀ x y : Int, C.isOnCurve x y = true → 0 ≤ x ∧ x < C.P.val ∧ 0 ≤ y ∧ y < C.P.val

/-- The point object for a group element. -/
def Point.of (C : Curve) (Q : Pt a b) : Point := ⟨C, some (coords Q).1, some (coords Q).2⟩

end

end Verif.Ec
