import Verif.Base.GoRes
import Verif.Base.Bytes
import Verif.Base.Tactics

/-! Encodings of points and scalars that carry the name of their curve (crypto/core/curves/curve.go): the registry of curves, the binary, text and
JSON forms, and the `Unmarshal…` methods of the point and scalar types. The encodings proper (`Bytes`, `SetBytes`, `ToAffineCompressed`,
`FromAffineCompressed` of each type) are the parameter `Ops`. -/

set_option linter.unusedSectionVars false

namespace Verif.Curves
open Verif

/-- The registered curves: `K256`, `P256`, `ED25519`, `PALLAS`, `BLS12381G1`, `BLS12381G2`, `BLS12377G1`, `BLS12377G2`
(crypto/core/curves/curve.go:500-637). -/
inductive Kind where
  | k256 | p256 | ed | pallas | b1 | b2 | z1 | z2
deriving DecidableEq, Repr

/-- The Go types of scalars; the two groups of a pairing curve share one. -/
inductive STy where
  | k256 | p256 | ed | pallas | b | z
deriving DecidableEq, Repr

/-- The type of `Curve.Scalar` (crypto/core/curves/curve.go:500-637). -/
def Kind.sty : Kind → STy
  | .k256 => .k256 | .p256 => .p256 | .ed => .ed | .pallas => .pallas
  | .b1 => .b | .b2 => .b | .z1 => .z | .z2 => .z

/-- ASCII bytes of a string. -/
def ascii (s : String) : List UInt8 := s.toList.map fun c => UInt8.ofNat c.toNat

/-- `CurveName` of the point types (crypto/core/curves/k256_curve.go:580-582, crypto/core/curves/p256_curve.go:578-580,
crypto/core/curves/ed25519_curve.go:608-610, crypto/core/curves/pallas_curve.go:620-622, crypto/core/curves/bls12381_curve.go:480-482,
crypto/core/curves/bls12381_curve.go:728-730, crypto/core/curves/bls12377_curve.go:510-512, crypto/core/curves/bls12377_curve.go:783-785);
`elliptic.P256().Params().Name` is `"P-256"` in the Go standard library. -/
def Kind.name : Kind → List UInt8
  | .k256 => ascii "secp256k1"
  | .p256 => ascii "P-256"
  | .ed => ascii "ed25519"
  | .pallas => ascii "pallas"
  | .b1 => ascii "BLS12381G1"
  | .b2 => ascii "BLS12381G2"
  | .z1 => ascii "BLS12377G1"
  | .z2 => ascii "BLS12377G2"

/-- `GetCurveByName` (crypto/core/curves/curve.go:459-484). -/
def getCurveByName (n : List UInt8) : Option Kind :=
  if n = ascii "secp256k1" then some .k256
  else if n = ascii "BLS12381G1" then some .b1
  else if n = ascii "BLS12381G2" then some .b2
  else if n = ascii "BLS12831" then some .b1
  else if n = ascii "P-256" then some .p256
  else if n = ascii "ed25519" then some .ed
  else if n = ascii "pallas" then some .pallas
  else if n = ascii "BLS12377G1" then some .z1
  else if n = ascii "BLS12377G2" then some .z2
  else if n = ascii "BLS12377" then some .z1
  else none

/-- The value types and their own encodings. -/
structure Ops where
  S : STy → Type
  P : Kind → Type
  sBytes : ∀ t, S t → List UInt8
  sSet : ∀ t, List UInt8 → Res (S t)
  pEnc : ∀ k, P k → List UInt8
  pDec : ∀ k, List UInt8 → Res (P k)

/-- A value of the interface `Scalar`: the value and the curve given by its `Point()` (the `point` field for the pairing curves). -/
structure Sc (O : Ops) where
  kind : Kind
  val : O.S kind.sty

/-- A value of the interface `Point`. -/
structure Pt (O : Ops) where
  kind : Kind
  val : O.P kind

/-- `byte(':')`. -/
def sep : UInt8 := 58

/-- The bytes after `copy(out[:n], b)` into a zeroed array. -/
def fit (n : Nat) (b : List UInt8) : List UInt8 := b.take n ++ List.replicate (n - b.length) 0

/-- Hexadecimal digits of Go's `encoding/hex`. -/
def digit (d : UInt8) : UInt8 := if d < 10 then d + 48 else d + 87

/-- `hex.Encode`. -/
def hexEnc : List UInt8 → List UInt8
  | [] => []
  | b :: l => digit (b >>> 4) :: digit (b &&& 15) :: hexEnc l

/-- The table `reverseHexTable` of Go's `encoding/hex`. -/
def undigit (c : UInt8) : Option UInt8 :=
  if 48 ≤ c ∧ c ≤ 57 then some (c - 48)
  else if 97 ≤ c ∧ c ≤ 102 then some (c - 87)
  else if 65 ≤ c ∧ c ≤ 70 then some (c - 55)
  else none

/-- `hex.Decode` into a buffer of `cap` bytes: two digits are read, then one byte is stored. -/
def hexDec : Nat → List UInt8 → Res (List UInt8)
  | _, [] => .ok []
  | _, [_] => .err
  | cap, p :: q :: r =>
    match undigit p, undigit q with
    | some a, some b =>
      match cap with
      | 0 => .panic
      | cap + 1 => do
        let l ← hexDec cap r
        .ok (((a <<< 4) ||| b) :: l)
    | _, _ => .err

section
variable (O : Ops)

/-- The loop over the input up to the separator, and the lookup (crypto/core/curves/curve.go:135-149, the same loop in 286-298 and 319-331). -/
def splitName (input : List UInt8) : Res (Kind × List UInt8) :=
  let i := (input.takeWhile (· ≠ sep)).length
  match getCurveByName (input.take i) with
  | none => .err
  | some k => if i + 1 ≤ input.length then .ok (k, input.drop (i + 1)) else .panic

/-- `scalarMarshalBinary` (crypto/core/curves/curve.go:151-162), for any scalar with bytes `b` whose point has the curve `k`. -/
def scalarMarshalBinary (k : Kind) (b : List UInt8) : List UInt8 := k.name ++ sep :: fit 32 b

/-- `scalarUnmarshalBinary` (crypto/core/curves/curve.go:164-176). -/
def scalarUnmarshalBinary (input : List UInt8) : Res (Sc O) :=
  if input.length < 32 + 1 + (ascii "P-256").length then .err
  else do
    let r ← splitName input
    let v ← O.sSet r.1.sty r.2
    .ok ⟨r.1, v⟩

/-- `scalarMarshalText` (crypto/core/curves/curve.go:178-189). -/
def scalarMarshalText (k : Kind) (b : List UInt8) : Res (List UInt8) :=
  if 32 < b.length then .panic else .ok (k.name ++ sep :: (hexEnc b ++ List.replicate (2 * (32 - b.length)) 0))

/-- `scalarUnmarshalText` (crypto/core/curves/curve.go:191-205). -/
def scalarUnmarshalText (input : List UInt8) : Res (Sc O) :=
  if input.length < 32 * 2 + (ascii "P-256").length + 1 then .err
  else do
    let r ← splitName input
    let l ← hexDec 32 r.2
    let v ← O.sSet r.1.sty (fit 32 l)
    .ok ⟨r.1, v⟩

/-- The standard library's JSON for a map with the string entries `type` and `value`; a missing entry reads as the empty string. -/
structure Json where
  marshal : List UInt8 → List UInt8 → List UInt8
  unmarshal : List UInt8 → Option (List UInt8 × List UInt8)

/-- `scalarMarshalJson` (crypto/core/curves/curve.go:207-212). -/
def scalarMarshalJson (J : Json) (k : Kind) (b : List UInt8) : List UInt8 := J.marshal k.name (hexEnc b)

/-- `scalarUnmarshalJson` (crypto/core/curves/curve.go:214-234). -/
def scalarUnmarshalJson (J : Json) (input : List UInt8) : Res (Sc O) :=
  match J.unmarshal input with
  | none => .err
  | some m =>
    match getCurveByName m.1 with
    | none => .err
    | some k => do
      let s ← hexDec m.2.length m.2
      let v ← O.sSet k.sty s
      .ok ⟨k, v⟩

/-- `pointMarshalBinary` (crypto/core/curves/curve.go:268-280). -/
def pointMarshalBinary (p : Pt O) : List UInt8 := p.kind.name ++ sep :: O.pEnc p.kind p.val

/-- `pointUnmarshalBinary` (crypto/core/curves/curve.go:282-299). -/
def pointUnmarshalBinary (input : List UInt8) : Res (Pt O) :=
  if input.length < 32 + 1 + (ascii "P-256").length then .err
  else do
    let r ← splitName input
    let v ← O.pDec r.1 r.2
    .ok ⟨r.1, v⟩

/-- `pointMarshalText` (crypto/core/curves/curve.go:301-313). -/
def pointMarshalText (p : Pt O) : List UInt8 := p.kind.name ++ sep :: hexEnc (O.pEnc p.kind p.val)

/-- `pointUnmarshalText` (crypto/core/curves/curve.go:315-337): the buffer has half the length of the separator and the digits, and the whole
buffer is decoded. -/
def pointUnmarshalText (input : List UInt8) : Res (Pt O) :=
  if input.length < 32 * 2 + 1 + (ascii "P-256").length then .err
  else do
    let r ← splitName input
    let cap := (r.2.length + 1) / 2
    let l ← hexDec cap r.2
    let v ← O.pDec r.1 (fit cap l)
    .ok ⟨r.1, v⟩

/-- `pointMarshalJson` (crypto/core/curves/curve.go:339-344). -/
def pointMarshalJson (J : Json) (p : Pt O) : List UInt8 := J.marshal p.kind.name (hexEnc (O.pEnc p.kind p.val))

/-- `pointUnmarshalJson` (crypto/core/curves/curve.go:346-366). -/
def pointUnmarshalJson (J : Json) (input : List UInt8) : Res (Pt O) :=
  match J.unmarshal input with
  | none => .err
  | some m =>
    match getCurveByName m.1 with
    | none => .err
    | some k => do
      let s ← hexDec m.2.length m.2
      let v ← O.pDec k s
      .ok ⟨k, v⟩

/-! The methods. A scalar receiver is its value and its `point`, which is nil in a fresh `ScalarBls12381` or `ScalarBls12377`; the types with one
curve have no such field. -/

/-- The type assertion and assignment of `UnmarshalBinary`, `UnmarshalText` of the scalar types (crypto/core/curves/k256_curve.go:337-348,
crypto/core/curves/bls12381_curve.go:295-308, crypto/core/curves/bls12377_curve.go:297-310 and the same code in the other types). -/
def assignScalar (t : STy) (r : Res (Sc O)) : Res (Sc O) := do
  let s ← r
  if s.kind.sty = t then .ok s else .err

/-- The same in the point types (crypto/core/curves/k256_curve.go:625-636, crypto/core/curves/bls12381_curve.go:545-556 and the other types). -/
def assignPoint (k : Kind) (r : Res (Pt O)) : Res (Pt O) := do
  let p ← r
  if p.kind = k then .ok p else .err

/-- A receiver of a scalar type with a `point` field. -/
structure Recv (t : STy) where
  point : Option Kind
  val : Option (O.S t)

/-- `ScalarBls12381.UnmarshalJSON`, `ScalarBls12377.UnmarshalJSON` (crypto/core/curves/bls12381_curve.go:331-342,
crypto/core/curves/bls12377_curve.go:333-344): only the value is assigned. -/
def unmarshalJsonKeep (J : Json) (t : STy) (s : Recv O t) (input : List UInt8) : Res (Recv O t) := do
  let r ← scalarUnmarshalJson O J input
  if h : r.kind.sty = t then .ok { s with val := some (h ▸ r.val) } else .err

/-- `Point()` of those types: the method `Identity` of a nil interface (crypto/core/curves/bls12381_curve.go:269-271,
crypto/core/curves/bls12377_curve.go:271-273). -/
def Recv.pointOf {t : STy} (s : Recv O t) : Res Kind :=
  match s.point with
  | some k => .ok k
  | none => .panic

end

end Verif.Curves
