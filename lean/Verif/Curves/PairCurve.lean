import Verif.Bls381.PairApi
import Verif.Native.HashCurve

/-! C105: the points and scalars of BLS12-381 behind the interfaces `Point`, `PairingPoint` and `Scalar`
(crypto/core/curves/bls12381_curve.go, crypto/core/curves/curve.go). -/

set_option linter.unusedSectionVars false
set_option maxRecDepth 20000

namespace Verif.Curves.PairCurve
open Verif Verif.Bytes Verif.Native Verif.Bls381
open Verif.Bls381.Fp12 (K12 E12 Rep12)
open Verif.Bls381.Gt (InGt)

/-- A value of the interface `Point` or `PairingPoint`, by its dynamic type; `other` is nil or a point of another curve. -/
inductive IPoint where
  | g1 (p : G1.Point)
  | g2 (p : G2.Point)
  | other

/-- A value of the interface `Scalar`; `other` is nil or a scalar of another type. -/
inductive IScalar where
  | bls (s : L4)
  | other

/-- `PointBls12381G1.Add`, `PointBls12381G2.Add` (crypto/core/curves/bls12381_curve.go:397-407, crypto/core/curves/bls12381_curve.go:645-655). -/
def add : IPoint → IPoint → Option IPoint
  | .g1 p, .g1 r => some (.g1 (P3.add G1.F p r))
  | .g2 p, .g2 r => some (.g2 (P3.add G2.F p r))
  | _, _ => none

/-- `Sub` (crypto/core/curves/bls12381_curve.go:409-419, crypto/core/curves/bls12381_curve.go:657-667). -/
def sub : IPoint → IPoint → Option IPoint
  | .g1 p, .g1 r => some (.g1 (P3.sub G1.F p r))
  | .g2 p, .g2 r => some (.g2 (P3.sub G2.F p r))
  | _, _ => none

/-- `Mul` (crypto/core/curves/bls12381_curve.go:421-431, crypto/core/curves/bls12381_curve.go:669-679). -/
def mul : IPoint → IScalar → Option IPoint
  | .g1 p, .bls s => some (.g1 (G1.mul p s))
  | .g2 p, .bls s => some (.g2 (G2.mul p s))
  | _, _ => none

/-- `Equal` (crypto/core/curves/bls12381_curve.go:433-440, crypto/core/curves/bls12381_curve.go:681-688). -/
def equal : IPoint → IPoint → Bool
  | .g1 p, .g1 r => P3.equal G1.F p r = 1
  | .g2 p, .g2 r => P3.equal G2.F p r = 1
  | _, _ => false

/-- `IsNegative` (crypto/core/curves/bls12381_curve.go:372-376, crypto/core/curves/bls12381_curve.go:620-624). -/
def isNegative : IPoint → Bool
  | .g1 p => ((P3.toCompressed G1.codec p).headD 0 >>> 5) &&& 1 = 1
  | .g2 p => ((P3.toCompressed G2.codec p).headD 0 >>> 5) &&& 1 = 1
  | .other => false

/-- The type assertion to `*PointBls12381G1`. -/
def IPoint.asG1 : IPoint → Option G1.Point
  | .g1 p => some p
  | _ => none

/-- The type assertion to `*PointBls12381G2`. -/
def IPoint.asG2 : IPoint → Option G2.Point
  | .g2 p => some p
  | _ => none

/-- The type assertion to `*ScalarBls12381`. -/
def IScalar.asBls : IScalar → Option L4
  | .bls s => some s
  | .other => none

/-- The loops of `SumOfProducts` that collect the values and stop at the first value of another type
(crypto/core/curves/bls12381_curve.go:487-500, crypto/core/curves/bls12381_curve.go:735-748). -/
def collect {A B : Type} (f : A → Option B) : List A → Option (List B)
  | [] => some []
  | a :: l =>
    match f a with
    | none => none
    | some b =>
      match collect f l with
      | none => none
      | some r => some (b :: r)

/-- `PointBls12381G1.SumOfProducts` (crypto/core/curves/bls12381_curve.go:484-506). -/
def sumOfProducts1 (points : List IPoint) (scalars : List IScalar) : Option IPoint :=
  match collect IPoint.asG1 points with
  | none => none
  | some ps =>
    match collect IScalar.asBls scalars with
    | none => none
    | some ss =>
      match P3.sumOfProducts G1.F ps (ss.map fun s => Field.bytes Fq.impl.A s) with
      | none => none
      | some r => some (.g1 r)

/-- `PointBls12381G2.SumOfProducts` (crypto/core/curves/bls12381_curve.go:732-754). -/
def sumOfProducts2 (points : List IPoint) (scalars : List IScalar) : Option IPoint :=
  match collect IPoint.asG2 points with
  | none => none
  | some ps =>
    match collect IScalar.asBls scalars with
    | none => none
    | some ss =>
      match P3.sumOfProducts G2.F ps (ss.map fun s => Field.bytes Fq.impl.A s) with
      | none => none
      | some r => some (.g2 r)

/-- `Pairing` of the two point types (crypto/core/curves/bls12381_curve.go:512-523, crypto/core/curves/bls12381_curve.go:760-771); the
result is the element of the target group in the returned `ScalarBls12381Gt`. -/
def pairing : IPoint → IPoint → Option E12
  | .g1 p, rhs =>
    match rhs.asG2 with
    | none => none
    | some pt => some (Pair.result (Pair.addPair [] p pt))
  | .g2 p, rhs =>
    match rhs.asG1 with
    | none => none
    | some pt => some (Pair.result (Pair.addPair [] pt p))
  | .other, _ => none

/-- The loop of `multiPairing` (crypto/core/curves/bls12381_curve.go:848-856): the flag `valid` and the engine. -/
def mpLoop (valid : Bool) (eng : Pair.Engine) : List IPoint → Bool × Pair.Engine
  | a :: b :: r =>
    let valid := valid && a.asG1.isSome
    let valid := valid && b.asG2.isSome
    let eng := if valid then
        match a.asG1, b.asG2 with
        | some p, some q => Pair.addPair eng p q
        | _, _ => eng
      else eng
    mpLoop valid eng r
  | _ => (valid, eng)

/-- `multiPairing`, the method `MultiPairing` of both point types (crypto/core/curves/bls12381_curve.go:842-863,
crypto/core/curves/bls12381_curve.go:525-527, crypto/core/curves/bls12381_curve.go:773-775). -/
def multiPairing (points : List IPoint) : Option E12 :=
  if points.length % 2 ≠ 0 then none
  else
    let r := mpLoop true [] points
    if !r.1 then none else some (Pair.result r.2)

/-- `PairingCurve.ScalarG1BaseMult` (crypto/core/curves/curve.go:430-432): the assertion on a nil interface panics. -/
def scalarG1BaseMult (sc : IScalar) : Res IPoint :=
  match mul (.g1 G1.generator) sc with
  | some p => .ok p
  | none => .panic

/-- `PairingCurve.ScalarG2BaseMult` (crypto/core/curves/curve.go:434-436). -/
def scalarG2BaseMult (sc : IScalar) : Res IPoint :=
  match mul (.g2 G2.generator) sc with
  | some p => .ok p
  | none => .panic

/-- `ScalarBls12381.Hash` (crypto/core/curves/bls12381_curve.go:49-59). -/
def scalarHash (H : Hash.HashFn) (bytes : List UInt8) : Res L4 := do
  let xmd ← Hash.expandNative H bytes (strBytes "BLS12381_XMD:SHA-256_SSWU_RO_") 48
  .ok (Scalar.ofXmd Fq.impl xmd)

/-- `ScalarBls12381.Random` with a reader (crypto/core/curves/bls12381_curve.go:40-47): the outcome of the read is ignored. -/
def scalarRandom (H : Hash.HashFn) (r : Read) : Res L4 := scalarHash H r.buf

/-! ## Specification -/

/-- The stored point is a form of a point of one of the groups of order `q`. -/
inductive Is1 : IPoint → G1.PP → Prop
  | mk {p : G1.Point} {P : G1.PP} (h : G1.Rep p P) (hq : Fq.q • P = 0) : Is1 (.g1 p) P

/-- The same for the second group. -/
inductive Is2 : IPoint → G2.PP → Prop
  | mk {p : G2.Point} {P : G2.PP} (h : G2.Rep p P) (hq : Fq.q • P = 0) : Is2 (.g2 p) P

/-- A pairing of the two groups of order `q` into the target group: bilinear and non-degenerate. -/
structure IsPairing (e : G1.PP → G2.PP → K12) : Prop where
  inGt : ∀ P Q, Fq.q • Q = 0 → InGt (e P Q)
  add_left : ∀ P P' Q, Fq.q • Q = 0 → e (P + P') Q = e P Q * e P' Q
  add_right : ∀ P Q Q', Fq.q • Q = 0 → Fq.q • Q' = 0 → e P (Q + Q') = e P Q * e P Q'
  nondegenerate : ∀ P Q, Fq.q • P = 0 → Fq.q • Q = 0 → (e P Q = 1 ↔ P = 0 ∨ Q = 0)
  gens : Rep12 Gt.generator (e G1.G G2.G)

end Verif.Curves.PairCurve
