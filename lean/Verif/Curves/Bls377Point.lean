import Verif.Curves.Bls377Scalar
import Verif.Native.GroupAlg
import Verif.Base.Tactics

/-!
# The points and the pairing of BLS12-377

`PointBls12377G1`, `PointBls12377G2` and `ScalarBls12377Gt` of `crypto/core/curves/bls12377_curve.go`, which wrap
`gnark-crypto`.  The library is a contract: a group killed by the order, with a compressed and an uncompressed encoding (`GLib`), the field
with twelve coordinates (`TLib`), and a pairing.  The two point types contain the same text up to sizes and are modelled once.
-/

set_option linter.unusedSectionVars false

namespace Verif.B377

open Verif.Bytes Verif.Native
open Verif.Ec (fill)

/-- `(b[0]>>5)&1 == 1` (crypto/core/curves/bls12377_curve.go:384, 657). -/
def bit5 (b : List UInt8) : Bool := (b.headD 0 >>> (5 : UInt8)) &&& (1 : UInt8) == 1

/-- What the library documents of one of its groups: all values the wrapper makes are in the subgroup of order `r`, since `SetBytes` tests it.
`size` is that of the compressed form (48 or 96).  The upper bits of the first byte tell the forms apart; `SetBytes` reads a prefix of what it is
given. -/
structure GLib (A : Type) [AddCommGroup A] where
  size : Nat
  size_pos : 0 < size
  gen : A
  order : ∀ P : A, r • P = 0
  gen_ne : gen ≠ 0
  enc : A → List UInt8
  raw : A → List UInt8
  set : List UInt8 → Option A
  len_enc : ∀ P, (enc P).length = size
  len_raw : ∀ P, (raw P).length = 2 * size
  enc_zero : enc 0 = 0xC0 :: List.replicate (size - 1) 0
  raw_zero : raw 0 = 0x40 :: List.replicate (2 * size - 1) 0
  /-- the sign of the ordinate is bit 5, and the negative has the other one -/
  sign : ∀ P, P ≠ 0 → bit5 (enc (-P)) ≠ bit5 (enc P)
  /-- an affine point has coordinates other than two zeros -/
  raw_ne : ∀ P, raw P ≠ List.replicate (2 * size) 0
  set_iff : ∀ b P, set b = some P ↔
    (size ≤ b.length ∧ b.take size = enc P) ∨ (2 * size ≤ b.length ∧ b.take (2 * size) = raw P) ∨
      (P = 0 ∧ 2 * size ≤ b.length ∧ b.take (2 * size) = List.replicate (2 * size) 0)

section Points
variable {A : Type} [AddCommGroup A] (L : GLib A)

namespace GLib

open Classical in
/-- `IsIdentity` (crypto/core/curves/bls12377_curve.go:376-378, 650-652). -/
noncomputable def isIdentity (_ : GLib A) (P : A) : Bool := decide (P = 0)
/-- `IsNegative` (crypto/core/curves/bls12377_curve.go:380-385, 654-658). -/
def isNegative (P : A) : Bool := bit5 (L.enc P)
/-- `Double` (crypto/core/curves/bls12377_curve.go:391-397, 664-670). -/
def double (_ : GLib A) (P : A) : A := P + P
/-- `Neg` (crypto/core/curves/bls12377_curve.go:406-410, 679-683). -/
def neg (_ : GLib A) (P : A) : A := -P
/-- `Add` (crypto/core/curves/bls12377_curve.go:412-423, 685-696); the argument `none` is nil or of another type, the result `none` is nil. -/
def add (_ : GLib A) (P : A) (rhs : Option A) : Option A := rhs.map (P + ·)
/-- `Sub` (crypto/core/curves/bls12377_curve.go:425-436, 698-709). -/
def sub (_ : GLib A) (P : A) (rhs : Option A) : Option A := rhs.map (P - ·)
/-- `Mul` (crypto/core/curves/bls12377_curve.go:438-449, 711-722); `ScalarMultiplication` reads the integer. -/
def mul (_ : GLib A) (P : A) : Arg → Res (Option A)
  | none => .ok none
  | some s => do
    let k ← deref s
    .ok (some (k • P))
open Classical in
/-- `Equal` (crypto/core/curves/bls12377_curve.go:451-458, 724-731). -/
noncomputable def equal (_ : GLib A) (P : A) : Option A → Bool
  | none => false
  | some Q => decide (P = Q)
/-- `Set` (crypto/core/curves/bls12377_curve.go:460-474, 733-747); `FillBytes` writes the absolute value and panics when it does not fit. -/
def setXY (x y : Int) : Res A :=
  if x = 0 ∧ y = 0 then .ok 0
  else do
    let a ← fill L.size (some x)
    let b ← fill L.size (some y)
    match L.set (a ++ b) with
    | none => .err
    | some P => .ok P
/-- `ToAffineCompressed` (crypto/core/curves/bls12377_curve.go:476-479, 749-752). -/
def toAffineCompressed (P : A) : List UInt8 := L.enc P
/-- `ToAffineUncompressed` (crypto/core/curves/bls12377_curve.go:481-484, 754-757). -/
def toAffineUncompressed (P : A) : List UInt8 := L.raw P
/-- `FromAffineCompressed` (crypto/core/curves/bls12377_curve.go:486-496, 759-769). -/
def fromAffineCompressed (b : List UInt8) : Res A :=
  if b.length ≠ L.size then .err
  else match L.set b with
    | none => .err
    | some P => .ok P
/-- `FromAffineUncompressed` (crypto/core/curves/bls12377_curve.go:498-508, 771-781). -/
def fromAffineUncompressed (b : List UInt8) : Res A :=
  if b.length ≠ 2 * L.size then .err
  else match L.set b with
    | none => .err
    | some P => .ok P
/-- `X` (crypto/core/curves/bls12377_curve.go:555-558, 828-831). -/
def X (P : A) : Nat := beToNat ((L.raw P).take L.size)
/-- `Y` (crypto/core/curves/bls12377_curve.go:560-563, 833-836). -/
def Y (P : A) : Nat := beToNat ((L.raw P).drop L.size)

end GLib
end Points

/-! ## Sums of products -/

/-- A `Point` of one of the two groups (the other curves answer `Add` with nil in the same way). -/
abbrev AnyPt (A B : Type) : Type := A ⊕ B

section Sums
variable {A B : Type} [AddCommGroup A] [AddCommGroup B]

/-- `Identity` of the group of the point (crypto/core/curves/bls12377_curve.go:361-366, 635-640). -/
def AnyPt.identity : AnyPt A B → AnyPt A B
  | .inl _ => .inl 0
  | .inr _ => .inr 0
/-- `Double` (crypto/core/curves/bls12377_curve.go:391-397, 664-670). -/
def AnyPt.double : AnyPt A B → AnyPt A B
  | .inl P => .inl (P + P)
  | .inr P => .inr (P + P)
/-- `Add` of two points (crypto/core/curves/bls12377_curve.go:412-423, 685-696); `none` is nil. -/
def AnyPt.add : AnyPt A B → AnyPt A B → Option (AnyPt A B)
  | .inl P, .inl Q => some (.inl (P + Q))
  | .inr P, .inr Q => some (.inr (P + Q))
  | _, _ => none

/-- A value of type `Point` in the course of the loops: `none` once a method of a nil interface has been called, `some none` nil. -/
abbrev St (A B : Type) : Type := Option (Option (AnyPt A B))

/-- `p.Add(q)` where either may be nil (crypto/core/curves/bls12377_curve.go:412-415, 685-688). -/
def St.add : St A B → St A B → St A B
  | some (some p), some (some q) => some (p.add q)
  | some (some _), some none => some none
  | _, _ => none
/-- `p.Double()` where `p` may be nil. -/
def St.double : St A B → St A B
  | some (some p) => some (some p.double)
  | _ => none

/-- The operations of the loops, with the identity of `points[0]`. -/
def stOps (z : AnyPt A B) : GOps (St A B) := ⟨some (some z.identity), St.add, St.double⟩

/-- The bucket index (crypto/core/curves/curve.go:843): `Rsh` rounds down, `Int64` keeps the low 64 bits of the absolute value with the sign, and
the mask takes six bits of two's complement. -/
def index (s : Int) (j : Nat) : Nat := ((s / 2 ^ (6 * j)) % 64).toNat

/-- The buckets of window `j` (crypto/core/curves/curve.go:837-847). -/
def buckets (z : AnyPt A B) (l : List (St A B × Int)) (j : Nat) : List (St A B) :=
  l.foldl (fun bs t => if index t.2 j ≠ 0 then (stOps z).put bs (index t.2 j - 1) t.1 else bs) (List.replicate 63 (stOps z).zero)

/-- `sumOfProductsPippenger` (crypto/core/curves/curve.go:820-863) on points that are not nil. -/
def pippenger (points : List (AnyPt A B)) (scalars : List Int) : St A B :=
  if points.length ≠ scalars.length then some none
  else
    match points with
    | [] => none
    | z :: _ =>
      let windows := (List.range' 0 (255 / 6 + 1)).map fun j =>
        ((stOps z).runSum (buckets z ((points.map fun p => some (some p)).zip scalars) j)).2
      (stOps z).combine 6 windows

/-- Reading the scalars (crypto/core/curves/bls12377_curve.go:515-522, 788-795); `none` is a nil pointer, on which `Rsh` panics. -/
def pointers : List Arg → Option (List Sc)
  | [] => some []
  | none :: _ => none
  | some s :: l => (pointers l).map (s :: ·)

/-- `SumOfProducts` (crypto/core/curves/bls12377_curve.go:514-524, 787-797).  The receiver is not used.  The scalars of a call that reaches the
buckets are read in every window, so a nil pointer among them panics. -/
def sumOfProducts (points : List (AnyPt A B)) (scalars : List Arg) : St A B :=
  match pointers scalars with
  | none => some none
  | some l =>
    if points.length ≠ l.length then some none
    else match l.mapM id with
      | none => none
      | some ks => pippenger points ks

end Sums

/-! ## The pairing -/

/-- The target field of the library: `576` bytes, twelve coordinates of 48 bytes, the last one first. -/
structure TLib (F : Type) [Field F] where
  p : Nat
  hp : 2 ^ 376 < p ∧ p < 2 ^ 377
  coord : F → Fin 12 → Nat
  coord_lt : ∀ x i, coord x i < p
  coord_inj : ∀ x y, coord x = coord y → x = y
  /-- `Bytes` -/
  enc : F → List UInt8
  enc_eq : ∀ x, enc x = ((List.finRange 12).map fun i => natToBEfix 48 (coord x i.rev)).flatten
  set : List UInt8 → Option F
  set_enc : ∀ x, set (enc x) = some x
  set_len : ∀ b, b.length ≠ 576 → set b = none
  /-- every canonical string is the encoding of an element -/
  surj : ∀ c : Fin 12 → Nat, (∀ i, c i < p) → ∃ x, coord x = c
  coord_zero : ∀ i, coord 0 i = 0
  coord_one : ∀ i, coord 1 i = if i = 0 then 1 else 0

/-- The pairing of the library on points of the subgroups: bilinear, with values that are not zero; `Pair` of lists is the product. -/
structure PLib (A B F : Type) [AddCommGroup A] [AddCommGroup B] [Field F] where
  e : A → B → F
  ne : ∀ P Q, e P Q ≠ 0
  add_left : ∀ P P' Q, e (P + P') Q = e P Q * e P' Q
  add_right : ∀ P Q Q', e P (Q + Q') = e P Q * e P Q'

section Pairings
variable {A B F : Type} [AddCommGroup A] [AddCommGroup B] [Field F] (E : PLib A B F)

/-- `bls12377.Pair` (library): an error without points, the product of the pairings otherwise. -/
def PLib.pair (l : List (A × B)) : Option F := if l = [] then none else some ((l.map fun t => E.e t.1 t.2).prod)

open Classical in
/-- The body of the two `Pairing` methods (crypto/core/curves/bls12377_curve.go:535-548, 808-821): `bls12377.GT{}` is the zero of the field. -/
noncomputable def PLib.pairing (P : A) (Q : B) : Option F :=
  if P = 0 ∨ Q = 0 then some 0 else E.pair [(P, Q)]

/-- `Pairing` of a point of the first group (crypto/core/curves/bls12377_curve.go:530-549): the argument must be of the second. -/
noncomputable def PLib.pairing1 (P : A) : Option (AnyPt A B) → Option F
  | some (.inr Q) => E.pairing P Q
  | _ => none
/-- `Pairing` of a point of the second group (crypto/core/curves/bls12377_curve.go:803-822). -/
noncomputable def PLib.pairing2 (Q : B) : Option (AnyPt A B) → Option F
  | some (.inl P) => E.pairing P Q
  | _ => none

/-- The pairs of `multiPairingBls12377` (crypto/core/curves/bls12377_curve.go:893-914): `none` once an argument has the wrong type or the number is
odd. -/
def pairs : List (AnyPt A B) → Option (List (A × B))
  | [] => some []
  | .inl P :: .inr Q :: l => (pairs l).map ((P, Q) :: ·)
  | _ => none

/-- `multiPairingBls12377` (crypto/core/curves/bls12377_curve.go:893-924). -/
def PLib.multiPairing (points : List (AnyPt A B)) : Option F :=
  match pairs points with
  | none => none
  | some l => E.pair l

end Pairings

/-! ## The target group as a scalar -/

section Gt
variable {F : Type} [Field F] (T : TLib F)

namespace TLib

/-- `New` (crypto/core/curves/bls12377_curve.go:1048-1061): four bytes of the argument, the least significant first, at the front. -/
def new (v : Int) : Option F :=
  T.set ((List.range 4).map (fun i => UInt8.ofNat ((v / 256 ^ i) % 256).toNat) ++ List.replicate 572 0)
/-- `Zero` (crypto/core/curves/bls12377_curve.go:958-966). -/
def zero : Option F := T.set (List.replicate 576 0)
/-- `One` (crypto/core/curves/bls12377_curve.go:968-971). -/
def one (_ : TLib F) : F := 1
/-- `IsZero` (crypto/core/curves/bls12377_curve.go:973-980). -/
def isZero (x : F) : Bool := (T.enc x).foldl (fun r b => r ||| b) 0 == 0
open Classical in
/-- `IsOne` (crypto/core/curves/bls12377_curve.go:982-985). -/
noncomputable def isOne (_ : TLib F) (x : F) : Bool := decide (x = 1)
/-- `IsOdd` (crypto/core/curves/bls12377_curve.go:1038-1041). -/
def isOdd (x : F) : Bool := (T.enc x).getLastD 0 &&& 1 == 1
/-- `IsEven` (crypto/core/curves/bls12377_curve.go:1043-1046). -/
def isEven (x : F) : Bool := (T.enc x).getLastD 0 &&& 1 == 0
open Classical in
/-- `Cmp` (crypto/core/curves/bls12377_curve.go:1063-1070). -/
noncomputable def cmp (_ : TLib F) (x : F) : Option F → Int
  | some y => if x = y then 0 else -2
  | none => -2
/-- `Square` (crypto/core/curves/bls12377_curve.go:1072-1077). -/
def square (_ : TLib F) (x : F) : F := x * x
/-- `Double` (crypto/core/curves/bls12377_curve.go:1079-1084). -/
def double (_ : TLib F) (x : F) : F := x + x
/-- `Invert` (crypto/core/curves/bls12377_curve.go:1086-1091): the library's inverse of zero is zero, the error is always nil. -/
def invert (_ : TLib F) (x : F) : F := x⁻¹
/-- `Cube` (crypto/core/curves/bls12377_curve.go:1098-1105). -/
def cube (_ : TLib F) (x : F) : F := x * x * x
/-- `Add` (crypto/core/curves/bls12377_curve.go:1107-1117). -/
def add (_ : TLib F) (x : F) (rhs : Option F) : Option F := rhs.map (x + ·)
/-- `Sub` (crypto/core/curves/bls12377_curve.go:1119-1129). -/
def sub (_ : TLib F) (x : F) (rhs : Option F) : Option F := rhs.map (x - ·)
/-- `Mul` (crypto/core/curves/bls12377_curve.go:1131-1141). -/
def mul (_ : TLib F) (x : F) (rhs : Option F) : Option F := rhs.map (x * ·)
/-- `MulAdd` (crypto/core/curves/bls12377_curve.go:1143-1145). -/
def mulAdd (x : F) (y z : Option F) : Res (Option F) :=
  match T.mul x y with
  | none => .panic
  | some t => .ok (T.add t z)
/-- `Div` (crypto/core/curves/bls12377_curve.go:1147-1159). -/
def div (_ : TLib F) (x : F) (rhs : Option F) : Option F := rhs.map (fun y => y⁻¹ * x)
/-- `Neg` (crypto/core/curves/bls12377_curve.go:1161-1170). -/
def neg (_ : TLib F) (x : F) : F := (1 - 1) - x
/-- `SetBytes` (crypto/core/curves/bls12377_curve.go:1193-1200). -/
def setBytes (b : List UInt8) : Res F :=
  match T.set b with
  | none => .err
  | some x => .ok x
/-- `SetBigInt` (crypto/core/curves/bls12377_curve.go:1172-1176). -/
def setBigInt (v : Int) : Res F := do
  let b ← fill 576 (some v)
  T.setBytes b
/-- `BigInt` (crypto/core/curves/bls12377_curve.go:1178-1181). -/
def bigInt (x : F) : Nat := beToNat (T.enc x)
/-- `SetBytesWide` (crypto/core/curves/bls12377_curve.go:1202-1219). -/
def setBytesWide (b : List UInt8) : Res F :=
  if b.length ≠ 1152 then .err
  else do
    let x ← T.setBytes (b.take (b.length / 2))
    let y ← T.setBytes (b.drop (b.length / 2))
    .ok (x + y)
/-- `Random` (crypto/core/curves/bls12377_curve.go:926-944), given the twelve numbers `rand.Int` drew below the order of the scalars. -/
def random (draws : List Nat) : Option F := T.set ((draws.map fun v => natToBEfix 48 v).flatten)

end TLib
end Gt
end Verif.B377
