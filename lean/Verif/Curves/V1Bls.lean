import Verif.Bls381.G1Api
import Verif.Bls381.HashG1
import Verif.Bls381.G2Api
import Verif.Curves.EcPoint

/-!
# `V1Bls`: BLS12-381 G1 behind Go's `elliptic.Curve`, and Feldman's verification on `EcPoint`

`crypto/sharing/v1/bls12381g1curve.go`, the accessor of `crypto/sharing/v1/bls12381g2curve.go`, and
`crypto/sharing/v1/feldman.go:67-107` on the point objects it is written for.  In `Res (Option _)` the inner `none` is the result
`(nil, nil)`.
-/

set_option linter.unusedSectionVars false

namespace Verif.V1Bls
open Verif.Bytes Verif.Native Verif.Bls381

/-- `var bb [32]byte; copy(bb[:], k)` (crypto/sharing/v1/bls12381g1curve.go:79-80). -/
def copy32 (k : List UInt8) : List UInt8 := k.take 32 ++ List.replicate (32 - k.length) 0

/-- `Bls12381FqNew().SetBytes(&bb)` of 32 bytes, least significant first (crypto/sharing/v1/bls12381g1curve.go:81). -/
def fqBytes (bb : List UInt8) : Res L4 := Field.setBytes Fq.impl.A Fq.impl.P bb

/-- `IsOnCurve` (crypto/sharing/v1/bls12381g1curve.go:50-53). -/
def isOnCurve (x y : Int) : Bool :=
  match G1.setBigInt x y with
  | .ok (some _) => true
  | _ => false

/-- `Add` (crypto/sharing/v1/bls12381g1curve.go:55-63). -/
def add (x1 y1 x2 y2 : Int) : Res (Option (Int × Int)) := do
  let p1 ← G1.setBigInt x1 y1
  let p2 ← G1.setBigInt x2 y2
  match p1, p2 with
  | some p1, some p2 => .ok (some (G1.bigInt (P3.add G1.F p1 p2)))
  | _, _ => .ok none

/-- `Double` (crypto/sharing/v1/bls12381g1curve.go:65-71). -/
def double (x1 y1 : Int) : Res (Option (Int × Int)) := do
  let p ← G1.setBigInt x1 y1
  match p with
  | some p => .ok (some (G1.bigInt (P3.double G1.F p)))
  | none => .ok none

/-- The end of the two multiplications: an error of `SetBytes` gives `(nil, nil)`
(crypto/sharing/v1/bls12381g1curve.go:81-85, 92-96). -/
def mulBytes (p : G1.Point) (bb : List UInt8) : Res (Option (Int × Int)) :=
  match fqBytes bb with
  | .ok s => .ok (some (G1.bigInt (G1.mul p s)))
  | .err => .ok none
  | .panic => .panic

/-- `ScalarMult` (crypto/sharing/v1/bls12381g1curve.go:73-86): the bytes are copied as they are. -/
def scalarMult (Bx By : Int) (k : List UInt8) : Res (Option (Int × Int)) := do
  let p ← G1.setBigInt Bx By
  match p with
  | some p => mulBytes p (copy32 k)
  | none => .ok none

/-- `ScalarBaseMult` (crypto/sharing/v1/bls12381g1curve.go:88-97): the bytes are reversed. -/
def scalarBaseMult (k : List UInt8) : Res (Option (Int × Int)) := mulBytes G1.generator (copy32 k.reverse)

/-- `CompressedBytesFromBigInts` (crypto/sharing/v1/bls12381g1curve.go:105-112). -/
def compressedBytesFromBigInts (x y : Int) : Res (List UInt8) := do
  let p ← G1.setBigInt x y
  match p with
  | some p => .ok (P3.toCompressed G1.codec p)
  | none => .err

/-! ## The parameters and the accessors -/

/-- What `bls12381g1InitAll` writes into `CurveParams` (crypto/sharing/v1/bls12381g1curve.go:28-37). -/
structure Params where
  P : Nat
  N : Nat
  B : Nat
  Gx : Nat
  Gy : Nat
  bitSize : Nat
  name : String
deriving DecidableEq

/-- `bls12381g1InitAll` (crypto/sharing/v1/bls12381g1curve.go:28-37), `bls12381g2InitAll`
(crypto/sharing/v1/bls12381g2curve.go:27-36): the same statements. -/
def initAll : Params where
  P := 0x1a0111ea397fe69a4b1ba7b6434bacd764774b84f38512bf6730d2a0f6b0f6241eabfffeb153ffffb9feffffffffaaab
  N := 0x73eda753299d7d483339d80809a1d80553bda402fffe5bfeffffffff00000001
  B := 0x0bbc3efc5008a26a0e1c8c3fad0059c051ac582950405194dd595f13570725ce8c22631a7918fd8ebaac93d50ce72271
  Gx := 0x120177419e0bfb75edce6ecc21dbf440f0ae6acdf3d0e747154f95c7143ba1c17817fc679976fff55cb38790fd530c16
  Gy := 0x0bbc3efc5008a26a0e1c8c3fad0059c051ac582950405194dd595f13570725ce8c22631a7918fd8ebaac93d50ce72271
  bitSize := 381
  name := "Bls12381G1"

/-- The two package variables; `none` is the nil `CurveParams` before initialisation
(crypto/sharing/v1/bls12381g1curve.go:18-21, crypto/sharing/v1/bls12381g2curve.go:18-21). -/
structure Globals where
  g1 : Option Params
  g2 : Option Params

/-- Which package variable a returned pointer points to. -/
inductive Ptr | g1 | g2
deriving DecidableEq

/-- `Bls12381G1()` (crypto/sharing/v1/bls12381g1curve.go:39-42). -/
def bls12381G1 (s : Globals) : Globals × Ptr := (match s.g1 with | none => { s with g1 := some initAll } | some _ => s, .g1)

/-- `Bls12381G2()` (crypto/sharing/v1/bls12381g2curve.go:38-41): initialises its own variable and returns the other one. -/
def bls12381G2 (s : Globals) : Globals × Ptr := (match s.g2 with | none => { s with g2 := some initAll } | some _ => s, .g1)

/-- `Params()` of what a pointer points to (crypto/sharing/v1/bls12381g1curve.go:44-46). -/
def params (s : Globals) : Ptr → Option Params
  | .g1 => s.g1
  | .g2 => s.g2

/-! ## As the curve of a point object -/

/-- `(nil, nil)` is what `IsValid` is then asked about, which dereferences the coordinates
(crypto/core/curves/ec_point.go:118-120, crypto/core/curves/native/bls12381/fp.go:524-534). -/
def orPanic : Res (Option (Int × Int)) → Res (Int × Int)
  | .ok (some r) => .ok r
  | .ok none => .panic
  | .err => .err
  | .panic => .panic

/-- `Bls12381G1()` as an `elliptic.Curve`, with the parameters at the addresses `a` (crypto/sharing/v1/bls12381g1curve.go:28-97). -/
def curve (a : Nat) : Ec.Curve where
  P := ⟨a, initAll.P⟩
  N := ⟨a + 1, initAll.N⟩
  B := ⟨a + 2, initAll.B⟩
  Gx := ⟨a + 3, initAll.Gx⟩
  Gy := ⟨a + 4, initAll.Gy⟩
  bitSize := initAll.bitSize
  name := initAll.name
  isOnCurve := isOnCurve
  add := fun x1 y1 x2 y2 => orPanic (add x1 y1 x2 y2)
  scalarMult := fun x y k => orPanic (scalarMult x y k)
  scalarBaseMult := fun k => orPanic (scalarBaseMult k)

/-! ## Feldman's verification on point objects -/

/-- The loop over the verifiers (crypto/sharing/v1/feldman.go:83-97); elements of the field are integers modulo the order. -/
def feldmanLoop (n x : Int) : Int → Ec.Point → List Ec.Point → Res Ec.Point
  | _, rhs, [] => .ok rhs
  | i, rhs, v :: vs => do
    let i ← Big.mod (i * x) n
    let c ← Ec.Point.scalarMult (some v) (some i)
    let rhs ← Ec.Point.add (some rhs) (some c)
    feldmanLoop n x i rhs vs

/-- `Feldman.Verify` (crypto/sharing/v1/feldman.go:67-107) for a threshold `t` and a share with its value modulo the order of the
curve; `ElementFromBytes` panics for an identifier that is not below the order. -/
def feldmanVerify (C : Ec.Curve) (t : Nat) (id : Nat) (value : Int) (verifiers : List Ec.Point) : Res Bool :=
  if verifiers.length < t then .err
  else if C.N.val ≤ (id : Int) then .panic
  else
    match verifiers with
    | [] => .panic
    | v0 :: vs => do
      let rhs ← feldmanLoop C.N.val (id : Int) 1 v0 vs
      let lhs ← Ec.Point.newScalarBaseMult (some C) (some value)
      .ok (lhs.equals (some rhs))

end Verif.V1Bls
