import Verif.Native.Curves

/-!
# Coordinates and encodings of `PointK256` and `PointP256`

`crypto/core/curves/k256_curve.go` and `crypto/core/curves/p256_curve.go` contain the same text for these methods, so they are
modelled once, over the record of the curve.  The `elliptic.Curve` wrappers `Koblitz256` and `NistP256` are at the end.
-/

set_option maxRecDepth 20000
set_option linter.unusedSectionVars false

namespace Verif.Native
open Verif.Bytes Weier

namespace Curve
variable (C : Curve)

/-- `IsNegative`: the parity of the lowest stored (Montgomery) limb of the affine ordinate
(crypto/core/curves/k256_curve.go:416-418, crypto/core/curves/p256_curve.go:414-416). -/
def isNegative (p : EP) : Bool := (C.getY p).l0 &&& 1 == 1

/-- `ToAffineCompressed` (crypto/core/curves/k256_curve.go:494-505, crypto/core/curves/p256_curve.go:492-503). -/
def toCompressed (p : EP) : List UInt8 :=
  let t := C.toAffine p
  ((2 : UInt8) ||| ((Field.bytes C.F.A t.Y).headD 0 &&& 1)) :: (Field.bytes C.F.A t.X).reverse

/-- `ToAffineUncompressed` (crypto/core/curves/k256_curve.go:507-516, crypto/core/curves/p256_curve.go:505-514). -/
def toUncompressed (p : EP) : List UInt8 :=
  let t := C.toAffine p
  4 :: ((Field.bytes C.F.A t.X).reverse ++ (Field.bytes C.F.A t.Y).reverse)

/-- `FromAffineCompressed` (crypto/core/curves/k256_curve.go:518-552, crypto/core/curves/p256_curve.go:516-550).  The receiver
is assumed to have a value: on the zero `PointK256` the call dereferences a nil pointer. -/
def fromCompressed (bytes : List UInt8) : Res EP :=
  if bytes.length ≠ 33 then .err
  else
    let sign := bytes.headD 0
    if sign ≠ 2 ∧ sign ≠ 3 then .err
    else do
      let sign := sign &&& 1
      let x ← Field.setBytes C.F.A C.F.P (bytes.drop 1).reverse
      let rhs := C.rhsEq x
      let y := C.F.sqrt Field.zero rhs
      if y.1 = 1 then
        let sigY := (Field.bytes C.F.A y.2).headD 0 &&& 1
        .ok ⟨x, if sigY ≠ sign then C.F.A.neg y.2 else y.2, Field.one C.F.P⟩
      else .ok identity

/-- `FromAffineUncompressed` (crypto/core/curves/k256_curve.go:554-579, crypto/core/curves/p256_curve.go:552-577). -/
def fromUncompressed (bytes : List UInt8) : Res EP :=
  if bytes.length ≠ 65 then .err
  else if bytes.headD 0 ≠ 4 then .err
  else do
    let x ← Field.setBytes C.F.A C.F.P ((bytes.take 33).drop 1).reverse
    let y ← Field.setBytes C.F.A C.F.P (bytes.drop 33).reverse
    .ok ⟨x, y, Field.one C.F.P⟩

/-! ### The `elliptic.Curve` wrappers; `none` is the pair `(nil, nil)` -/

/-- `Koblitz256.IsOnCurve`, `NistP256.IsOnCurve` (crypto/core/curves/k256_curve.go:54-57, crypto/core/curves/p256_curve.go:53-56). -/
def ellIsOnCurve (x y : Int) : Bool :=
  match C.setBigInt x y with
  | .ok _ => true
  | _ => false

/-- `Add` (crypto/core/curves/k256_curve.go:59-69, crypto/core/curves/p256_curve.go:58-68). -/
def ellAdd (x1 y1 x2 y2 : Int) : Option (Int × Int) :=
  match C.setBigInt x1 y1 with
  | .ok p1 =>
    match C.setBigInt x2 y2 with
    | .ok p2 => some (C.bigInt (C.add p1 p2))
    | _ => none
  | _ => none

/-- `Double` (crypto/core/curves/k256_curve.go:71-77, crypto/core/curves/p256_curve.go:70-76). -/
def ellDouble (x1 y1 : Int) : Option (Int × Int) :=
  match C.setBigInt x1 y1 with
  | .ok p1 => some (C.bigInt (C.double p1))
  | _ => none

/-- The scalar of `ScalarMult` and `ScalarBaseMult`: `copy` into 32 bytes keeps the first 32 bytes of the reversed argument
and leaves zeros behind a shorter one (crypto/core/curves/k256_curve.go:84-86, crypto/core/curves/p256_curve.go:83-85). -/
def ellScalar (S : Impl) (k : List UInt8) : Res L4 :=
  Field.setBytes S.A S.P (k.reverse.take 32 ++ List.replicate (32 - k.length) 0)

/-- `ScalarMult` of `Koblitz256`, `ScalarMul` of `NistP256` (crypto/core/curves/k256_curve.go:79-91,
crypto/core/curves/p256_curve.go:78-90). -/
def ellScalarMult (S : Impl) (bx by' : Int) (k : List UInt8) : Option (Int × Int) :=
  match C.setBigInt bx by' with
  | .ok p1 =>
    match ellScalar S k with
    | .ok s => some (C.bigInt (C.mul S p1 s))
    | _ => none
  | _ => none

/-- `ScalarBaseMult` (crypto/core/curves/k256_curve.go:93-102, crypto/core/curves/p256_curve.go:92-101). -/
def ellScalarBaseMult (S : Impl) (k : List UInt8) : Option (Int × Int) :=
  match ellScalar S k with
  | .ok s => some (C.bigInt (C.mul S C.generator s))
  | _ => none

end Curve

/-! ## Specification: the SEC 1 encodings -/

/-- The compressed SEC 1 encoding of the affine point `(x, y)`: the parity of `y`, then `x` in 32 big-endian bytes. -/
def sec1c {p : Nat} (x y : ZMod p) : List UInt8 := UInt8.ofNat (2 + y.val % 2) :: natToBEfix 32 x.val

/-- The uncompressed SEC 1 encoding. -/
def sec1u {p : Nat} (x y : ZMod p) : List UInt8 := 4 :: (natToBEfix 32 x.val ++ natToBEfix 32 y.val)

section
variable {p : Nat} [Fact p.Prime]

/-- Negation of a non-zero residue changes its parity (the modulus is odd). -/
theorem neg_parity (hp : p % 2 = 1) {y : ZMod p} (hy : y ≠ 0) : (-y).val % 2 ≠ y.val % 2 := by
  have := Fact.out (p := p.Prime)
  have : NeZero p := ⟨this.ne_zero⟩
  have h1 := ZMod.val_lt y
  have : NeZero y := ⟨hy⟩
  have h2 := ZMod.val_neg_of_ne_zero y
  omega

/-- Two roots of the same square with the same parity are equal. -/
theorem root_unique (hp : p % 2 = 1) {y w : ZMod p} (h : y ^ 2 = w ^ 2) (hpar : y.val % 2 = w.val % 2) : y = w := by
  have : (y - w) * (y + w) = 0 := by linear_combination h
  rcases mul_eq_zero.1 this with h | h
  · exact sub_eq_zero.1 h
  · have hy : y = -w := eq_neg_of_add_eq_zero_left h
    by_cases hw : w = 0
    · rw [hy, hw, neg_zero]
    · rw [hy] at hpar
      exact absurd hpar (neg_parity hp hw)

theorem parity_byte (v : Nat) : (UInt8.ofNat v &&& 1).toNat = v % 2 := by
  rw [UInt8.toNat_and]
  show (v % 256) &&& 1 = _
  rw [Nat.and_one_is_mod]
  omega

variable {C : Curve} {a b : ZMod p} {G : Pt a b} (K : CurveOK C a b G)
include K

theorem CurveOK.two : (2 : ZMod p) ≠ 0 := two_ne (by have := K.odd; omega)

/-- The affine form of any reduced projective coordinates. -/
theorem toAffine_spec {e : EP} {X Y Z : ZMod p} (hX : Rep p e.X X) (hY : Rep p e.Y Y) (hZ : Rep p e.Z Z) :
    (Z ≠ 0 → Rep p (C.toAffine e).X (X / Z) ∧ Rep p (C.toAffine e).Y (Y / Z) ∧ (C.toAffine e).Z = Field.one C.F.P) ∧
    (Z = 0 → C.toAffine e = Curve.identity) := by
  have L := K.good.lawful
  obtain ⟨h1, h0⟩ := K.good.invert ⟨0, 0, 0, 0⟩ e.Z Z hZ
  refine ⟨fun z => ?_, fun z => ?_⟩
  · obtain ⟨r, hr, hrep⟩ := h1 z
    unfold Curve.toAffine
    dsimp only
    rw [hr]
    dsimp only
    rw [uint1_one, selectznz_one, selectznz_one, selectznz_one]
    exact ⟨by rw [div_eq_mul_inv]; exact C50_mul L hX hrep, by rw [div_eq_mul_inv]; exact C50_mul L hY hrep, rfl⟩
  · unfold Curve.toAffine
    dsimp only
    rw [h0 z]
    dsimp only
    rw [uint1_zero, selectznz_zero, selectznz_zero, selectznz_zero]
    rfl

/-- **C70.** `ToAffine`, `X`/`Y` and `BigInt`: the affine coordinates in `[0, p)` for every projective representation of a
point, `(0, 0)` for the neutral element. -/
theorem C70_affine {e : EP} :
    (∀ {x y : ZMod p} {h}, ERep a b e (.some x y h) →
      Rep p (C.getX e) x ∧ Rep p (C.getY e) y ∧ ERep a b (C.toAffine e) (.some x y h) ∧
      C.bigInt e = ((x.val : Int), (y.val : Int))) ∧
    (ERep a b e 0 → C.toAffine e = Curve.identity ∧ C.bigInt e = (0, 0)) := by
  have L := K.good.lawful
  have : NeZero p := ⟨K.good.prime.ne_zero⟩
  refine ⟨fun {x y h} he => ?_, fun he => ?_⟩
  · obtain ⟨X, Y, Z, hX, hY, hZ, hP⟩ := he
    have z : Z ≠ 0 := fun z => WeierstrassCurve.Affine.Point.some_ne_zero _ ((prep_isZero hP).1 z)
    obtain ⟨hx, hy, hz⟩ := (toAffine_spec K hX hY hZ).1 z
    rcases hP with ⟨z0, _⟩ | ⟨-, x', y', h', e, rfl, rfl⟩
    · exact absurd z0 z
    injection e with e1 e2
    subst e1 e2
    rw [mul_div_cancel_right₀ _ z] at hx hy
    refine ⟨hx, hy, ⟨x, y, 1, hx, hy, ?_, Or.inr ⟨one_ne_zero, _, _, h, rfl, (mul_one _).symm, (mul_one _).symm⟩⟩, ?_⟩
    · rw [hz]; exact (C50_constants L).1
    · unfold Curve.bigInt
      dsimp only
      rw [C50_bigInt L hx, C50_bigInt L hy]
  · obtain ⟨X, Y, Z, hX, hY, hZ, hP⟩ := he
    have z : Z = 0 := (prep_isZero hP).2 rfl
    have h := (toAffine_spec K hX hY hZ).2 z
    refine ⟨h, ?_⟩
    unfold Curve.bigInt
    dsimp only
    rw [h]
    have h0 := C50_bigInt L (C50_constants L).2
    rw [ZMod.val_zero] at h0
    exact Prod.ext h0 h0

/-- **C70.** `IsOnCurve`, for any reduced coordinates whatever: true exactly when `Z ≠ 0` and the homogeneous equation holds.
So it is true of every point of the curve except the neutral element, of which it is false. -/
theorem C70_isOnCurve {e : EP} {X Y Z : ZMod p} (hX : Rep p e.X X) (hY : Rep p e.Y Y) (hZ : Rep p e.Z Z) :
    (C.isOnCurve e = true ↔ Z ≠ 0 ∧ Y ^ 2 * Z = X ^ 3 + a * X * Z ^ 2 + b * Z ^ 3) ∧
    (C.isOnCurve e = true ↔ ∃ P : Pt a b, P ≠ 0 ∧ ERep a b e P) ∧
    (∀ P : Pt a b, ERep a b e P → (C.isOnCurve e = true ↔ P ≠ 0)) := by
  have L := K.good.lawful
  have main : C.isOnCurve e = true ↔ Z ≠ 0 ∧ Y ^ 2 * Z = X ^ 3 + a * X * Z ^ 2 + b * Z ^ 3 := by
    unfold Curve.isOnCurve
    dsimp only
    rw [beq_iff_eq]
    by_cases z : Z = 0
    · rw [(toAffine_spec K hX hY hZ).2 z]
      have z0 := (C50_constants L).2
      have e1 : Curve.identity.X = Field.zero := rfl
      have e2 : Curve.identity.Y = Field.zero := rfl
      rw [e1, e2, (C50_equal L (C50_square L z0) (K.rhsEq z0)).1]
      have hb : b ≠ 0 := by
        have := K.noTwo 0
        simpa using this
      have : ¬ ((0 : ZMod p) * 0 = 0 ^ 3 + a * 0 + b) := by
        intro h
        apply hb
        linear_combination -h
      rw [if_neg this]
      simp [z]
    · obtain ⟨hx, hy, -⟩ := (toAffine_spec K hX hY hZ).1 z
      rw [(C50_equal L (C50_square L hy) (K.rhsEq hx)).1]
      have : (Y / Z * (Y / Z) = (X / Z) ^ 3 + a * (X / Z) + b) ↔ Y ^ 2 * Z = X ^ 3 + a * X * Z ^ 2 + b * Z ^ 3 := by
        have h3 : Z ^ 3 ≠ 0 := pow_ne_zero _ z
        constructor
        · intro h
          field_simp at h
          linear_combination h
        · intro h
          field_simp
          linear_combination h
      by_cases hh : Y ^ 2 * Z = X ^ 3 + a * X * Z ^ 2 + b * Z ^ 3
      · rw [if_pos (this.2 hh)]
        exact ⟨fun _ => ⟨z, hh⟩, fun _ => rfl⟩
      · rw [if_neg (fun h => hh (this.1 h))]
        exact ⟨fun h => absurd h (by decide), fun h => absurd h.2 hh⟩
  refine ⟨main, ?_, ?_⟩
  · rw [main]
    constructor
    · rintro ⟨z, h⟩
      obtain ⟨P, hP⟩ := prep_of_eqn K.two K.noTwo z h
      exact ⟨P, fun h0 => z ((prep_isZero hP).2 h0), X, Y, Z, hX, hY, hZ, hP⟩
    · rintro ⟨P, hne, X', Y', Z', hX', hY', hZ', hP⟩
      rw [rep_value L hX hX', rep_value L hY hY', rep_value L hZ hZ']
      have z : Z' ≠ 0 := fun z => hne ((prep_isZero hP).1 z)
      exact ⟨z, prep_eqn hP z⟩
  · rintro P ⟨X', Y', Z', hX', hY', hZ', hP⟩
    rw [main, rep_value L hX hX', rep_value L hY hY', rep_value L hZ hZ']
    constructor
    · rintro ⟨z, _⟩ h0
      exact z ((prep_isZero hP).2 h0)
    · intro hne
      have z : Z' ≠ 0 := fun z => hne ((prep_isZero hP).1 z)
      exact ⟨z, prep_eqn hP z⟩

/-- **C70.** `Set`/`SetBigInt` for all pairs of integers, negative and unreduced ones included: both multiples of `p` give the
neutral element, coordinates of a point of the curve modulo `p` give that point, everything else is refused. -/
theorem C70_setBigInt (x y : Int) :
    ((x : ZMod p) = 0 ∧ (y : ZMod p) = 0 → C.setBigInt x y = .ok Curve.identity) ∧
    (∀ h : (curve a b).Nonsingular (x : ZMod p) (y : ZMod p),
      ∃ e, C.setBigInt x y = .ok e ∧ ERep a b e (.some _ _ h)) ∧
    (¬ ((x : ZMod p) = 0 ∧ (y : ZMod p) = 0) → (y : ZMod p) ^ 2 ≠ (x : ZMod p) ^ 3 + a * x + b → C.setBigInt x y = .err) := by
  have L := K.good.lawful
  have : NeZero p := ⟨K.good.prime.ne_zero⟩
  obtain ⟨xx, hx, rx⟩ := C50_setBigInt L Field.zero x
  obtain ⟨yy, hy, ry⟩ := C50_setBigInt L Field.zero y
  have zx := (C50_equal L rx rx).2.2.1
  have zy := (C50_equal L ry ry).2.2.1
  have unf : C.setBigInt x y = (if C.isOnCurve ⟨Field.cmove xx Field.zero (uint1 (isZero xx) &&& uint1 (isZero yy)),
      Field.cmove yy Field.zero (uint1 (isZero xx) &&& uint1 (isZero yy)),
      Field.cmove (Field.one C.F.P) Field.zero (uint1 (isZero xx) &&& uint1 (isZero yy))⟩ = false ∧
      uint1 (isZero xx) &&& uint1 (isZero yy) = 0 then .err
      else .ok ⟨Field.cmove xx Field.zero (uint1 (isZero xx) &&& uint1 (isZero yy)),
        Field.cmove yy Field.zero (uint1 (isZero xx) &&& uint1 (isZero yy)),
        Field.cmove (Field.one C.F.P) Field.zero (uint1 (isZero xx) &&& uint1 (isZero yy))⟩) := by
    unfold Curve.setBigInt
    rw [hx, Res.bind_ok, hy, Res.bind_ok]
  rw [unf, zx, zy]
  have flag : (x : ZMod p) = 0 ∧ (y : ZMod p) = 0 →
      uint1 (if (x : ZMod p) = 0 then 1 else 0) &&& uint1 (if (y : ZMod p) = 0 then 1 else 0) = 1 := by
    rintro ⟨h1, h2⟩
    rw [if_pos h1, if_pos h2]
    decide
  have flag' : ¬ ((x : ZMod p) = 0 ∧ (y : ZMod p) = 0) →
      uint1 (if (x : ZMod p) = 0 then 1 else 0) &&& uint1 (if (y : ZMod p) = 0 then 1 else 0) = 0 := by
    intro h
    by_cases h1 : (x : ZMod p) = 0
    · have h2 : ¬ (y : ZMod p) = 0 := fun h2 => h ⟨h1, h2⟩
      rw [if_pos h1, if_neg h2]
      decide
    · rw [if_neg h1]
      split <;> decide
  have one := (C50_constants L).1
  have onc := C70_isOnCurve K (e := ⟨xx, yy, Field.one C.F.P⟩) rx ry one
  refine ⟨fun h => ?_, fun h => ?_, fun h hne => ?_⟩
  · rw [flag h]
    rw [if_neg (fun hc => absurd hc.2 (by decide))]
    unfold Field.cmove
    rw [selectznz_one, selectznz_one, selectznz_one]
    rfl
  · have e := eqn_iff.1 h.1
    have hn : ¬ ((x : ZMod p) = 0 ∧ (y : ZMod p) = 0) := by
      rintro ⟨h1, h2⟩
      have := K.noTwo 0
      rw [h1, h2] at e
      apply this
      linear_combination -e
    rw [flag' hn]
    unfold Field.cmove
    rw [selectznz_zero, selectznz_zero, selectznz_zero]
    refine ⟨⟨xx, yy, Field.one C.F.P⟩, if_neg ?_, _, _, 1, rx, ry, one,
      Or.inr ⟨one_ne_zero, _, _, h, rfl, (mul_one _).symm, (mul_one _).symm⟩⟩
    rintro ⟨hf, -⟩
    rw [onc.1.2 ⟨one_ne_zero, by linear_combination e⟩] at hf
    exact absurd hf (by decide)
  · rw [flag' h]
    unfold Field.cmove
    rw [selectznz_zero, selectznz_zero, selectznz_zero, if_pos]
    refine ⟨?_, rfl⟩
    rw [← Bool.not_eq_true, onc.1]
    rintro ⟨-, hc⟩
    apply hne
    linear_combination hc

/-! ## Encodings -/

theorem bytes_rep {l : L4} {x : ZMod p} (h : Rep p l x) :
    (Field.bytes C.F.A l).reverse = natToBEfix 32 x.val ∧ ((Field.bytes C.F.A l).headD 0 &&& 1).toNat = x.val % 2 := by
  have L := K.good.lawful
  have : NeZero p := ⟨K.good.prime.ne_zero⟩
  rw [C50_bytes L h]
  exact ⟨rfl, parity_byte _⟩

omit K [Fact p.Prime] in
theorem sign_byte {w : UInt8} {v : Nat} (h : (w &&& 1).toNat = v % 2) : (2 : UInt8) ||| (w &&& 1) = UInt8.ofNat (2 + v % 2) := by
  have : w &&& 1 = UInt8.ofNat (v % 2) := by
    rw [← h, UInt8.ofNat_toNat]
  rw [this]
  rcases Nat.mod_two_eq_zero_or_one v with h | h <;> rw [h] <;> decide

/-- **C70.** `ToAffineCompressed` and `ToAffineUncompressed` write the SEC 1 encodings of the point, whatever its projective
representation; the neutral element is written as `02‖0³²` and `04‖0⁶⁴`. -/
theorem C70_encode {e : EP} :
    (∀ {x y : ZMod p} {h}, ERep a b e (.some x y h) → C.toCompressed e = sec1c x y ∧ C.toUncompressed e = sec1u x y) ∧
    (ERep a b e 0 → C.toCompressed e = 2 :: List.replicate 32 0 ∧ C.toUncompressed e = 4 :: List.replicate 64 0) := by
  have L := K.good.lawful
  refine ⟨fun {x y h} he => ?_, fun he => ?_⟩
  · obtain ⟨hx, hy, -, -⟩ := (C70_affine K).1 he
    obtain ⟨bx, -⟩ := bytes_rep K hx
    obtain ⟨by', py⟩ := bytes_rep K hy
    unfold Curve.getX at bx
    unfold Curve.getY at by' py
    unfold Curve.toCompressed Curve.toUncompressed sec1c sec1u
    dsimp only
    rw [bx, by', sign_byte py]
    exact ⟨rfl, rfl⟩
  · have h := ((C70_affine K).2 he).1
    obtain ⟨bx, px⟩ := bytes_rep K (C50_constants L).2
    have z : (0 : ZMod p).val = 0 := ZMod.val_zero
    rw [z] at bx px
    unfold Curve.toCompressed Curve.toUncompressed
    dsimp only
    rw [h]
    have e1 : (Curve.identity).X = Field.zero := rfl
    have e2 : (Curve.identity).Y = Field.zero := rfl
    rw [e1, e2, bx, sign_byte px]
    exact ⟨rfl, rfl⟩

omit K [Fact p.Prime] in
theorem sign_cases (w : UInt8) (h : w = 2 ∨ w = 3) : (w &&& 1).toNat = w.toNat - 2 ∧ UInt8.ofNat (2 + (w.toNat - 2)) = w := by
  rcases h with rfl | rfl <;> decide

/-- **C70.** `FromAffineCompressed` decided for every byte string.  Refused: a length other than 33, a first byte other than 2
and 3, an abscissa that is not below `p`.  If `x³ + ax + b` is not a square the result is the neutral element, without an
error.  Otherwise the result is the point with that abscissa whose ordinate has the parity of the first byte. -/
theorem C70_decompress (bs : List UInt8) :
    (bs.length ≠ 33 → C.fromCompressed bs = .err) ∧
    (bs.headD 0 ≠ 2 → bs.headD 0 ≠ 3 → C.fromCompressed bs = .err) ∧
    (p ≤ beToNat (bs.drop 1) → C.fromCompressed bs = .err) ∧
    (∀ x : ZMod p, bs.length = 33 → (bs.headD 0 = 2 ∨ bs.headD 0 = 3) → beToNat (bs.drop 1) = x.val →
      (¬ IsSquare (x ^ 3 + a * x + b) → C.fromCompressed bs = .ok Curve.identity) ∧
      (IsSquare (x ^ 3 + a * x + b) → ∃ y h e, C.fromCompressed bs = .ok e ∧ ERep a b e (.some x y h) ∧
        y.val % 2 = (bs.headD 0).toNat - 2)) := by
  have L := K.good.lawful
  have np : NeZero p := ⟨K.good.prime.ne_zero⟩
  refine ⟨fun h => ?_, fun h2 h3 => ?_, fun h => ?_, fun x hl hs hx => ?_⟩
  · unfold Curve.fromCompressed
    rw [if_pos h]
  · unfold Curve.fromCompressed
    split
    · rfl
    · dsimp only
      rw [if_pos ⟨h2, h3⟩]
  · unfold Curve.fromCompressed
    split
    · rfl
    · rename_i hl
      dsimp only
      split
      · rfl
      · rw [(C50_setBytes L _ (by rw [List.length_reverse, List.length_drop]; omega)).2 (by rw [leToNat_reverse]; exact h)]
        rfl
  · obtain ⟨xx, hxx, rx⟩ := (C50_setBytes L (bs.drop 1).reverse (by rw [List.length_reverse, List.length_drop]; omega)).1
      (by rw [leToNat_reverse, hx]; exact ZMod.val_lt x)
    rw [leToNat_reverse, hx, ZMod.natCast_zmod_val] at rx
    have unf : C.fromCompressed bs = (if (C.F.sqrt Field.zero (C.rhsEq xx)).1 = 1 then
        .ok ⟨xx, if ((Field.bytes C.F.A (C.F.sqrt Field.zero (C.rhsEq xx)).2).headD 0 &&& 1) ≠ bs.headD 0 &&& 1 then
          C.F.A.neg (C.F.sqrt Field.zero (C.rhsEq xx)).2 else (C.F.sqrt Field.zero (C.rhsEq xx)).2, Field.one C.F.P⟩
        else .ok Curve.identity) := by
      unfold Curve.fromCompressed
      rw [if_neg (fun hc => hc hl)]
      dsimp only
      have hne : ¬ (bs.headD 0 ≠ 2 ∧ bs.headD 0 ≠ 3) := fun hc => hs.elim hc.1 hc.2
      rw [if_neg hne, hxx, Res.bind_ok]
    obtain ⟨s1, s0⟩ := K.good.sqrt Field.zero (C.rhsEq xx) _ (K.rhsEq rx)
    refine ⟨fun h => ?_, fun h => ?_⟩
    · rw [unf, s0 h, if_neg (by decide)]
    · obtain ⟨r, y, hr, ry, hy⟩ := s1 h
      rw [unf, hr, if_pos rfl]
      have ey : y ^ 2 = x ^ 3 + a * x + b := by rw [pow_two]; exact hy
      have y0 := y_ne_zero K.noTwo ey
      have py := (bytes_rep K ry).2
      have sc := sign_cases _ hs
      have hcmp : ((Field.bytes C.F.A r).headD 0 &&& 1 ≠ bs.headD 0 &&& 1) ↔ y.val % 2 ≠ (bs.headD 0).toNat - 2 := by
        rw [← sc.1, ← py]
        exact not_congr UInt8.toNat_inj.symm
      by_cases hc : (Field.bytes C.F.A r).headD 0 &&& 1 ≠ bs.headD 0 &&& 1
      · have en : (-y) ^ 2 = x ^ 3 + a * x + b := by rw [neg_sq]; exact ey
        refine ⟨-y, nonsing K.two K.noTwo en, _, rfl, ⟨x, -y, 1, rx, ?_, (C50_constants L).1,
          Or.inr ⟨one_ne_zero, _, _, _, rfl, (mul_one _).symm, (mul_one _).symm⟩⟩, ?_⟩
        · dsimp only
          rw [if_pos hc]
          exact C50_neg L ry
        · have h1 := neg_parity K.odd y0
          have h2 := hcmp.1 hc
          rcases hs with hs | hs <;> rw [hs] at h2 ⊢ <;> [change _ = 0; change _ = 1] <;>
            [change _ ≠ 0 at h2; change _ ≠ 1 at h2] <;> omega
      · refine ⟨y, nonsing K.two K.noTwo ey, _, rfl, ⟨x, y, 1, rx, ?_, (C50_constants L).1,
          Or.inr ⟨one_ne_zero, _, _, _, rfl, (mul_one _).symm, (mul_one _).symm⟩⟩, ?_⟩
        · dsimp only
          rw [if_neg hc]
          exact ry
        · by_contra hh
          exact hc (hcmp.2 hh)

omit K in
theorem sec1c_spec (hlt : p < 2 ^ 256) (x y : ZMod p) : (sec1c x y).length = 33 ∧
    ((sec1c x y).headD 0 = 2 ∨ (sec1c x y).headD 0 = 3) ∧ ((sec1c x y).headD 0).toNat - 2 = y.val % 2 ∧
    beToNat ((sec1c x y).drop 1) = x.val := by
  have np : NeZero p := ⟨(Fact.out : p.Prime).ne_zero⟩
  unfold sec1c
  rw [List.length_cons, length_natToBEfix, List.headD_cons, List.drop_one, List.tail_cons, beToNat_natToBEfix, pow256,
    Nat.mod_eq_of_lt (lt_trans (ZMod.val_lt x) hlt)]
  rcases Nat.mod_two_eq_zero_or_one y.val with h | h <;> rw [h] <;> exact ⟨rfl, by decide, by decide, rfl⟩

/-- **C70.** Compressed round trip: decoding the compressed encoding of a point other than the neutral element gives that
point, and a string that decodes to a point other than the neutral element is the encoding of that point. -/
theorem C70_compressed_roundtrip {e : EP} {P : Pt a b} (he : ERep a b e P) (hP : P ≠ 0) :
    (∃ e', C.fromCompressed (C.toCompressed e) = .ok e' ∧ ERep a b e' P) ∧
    (∀ bs, C.fromCompressed bs = .ok e → C.toCompressed e = bs) := by
  have L := K.good.lawful
  have np : NeZero p := ⟨K.good.prime.ne_zero⟩
  rcases P with _ | ⟨x, y, h⟩
  · exact absurd rfl hP
  have ey := eqn_iff.1 h.1
  rw [((C70_encode K).1 he).1]
  refine ⟨?_, fun bs hbs => ?_⟩
  · obtain ⟨l, s, par, vx⟩ := sec1c_spec L.lt x y
    obtain ⟨w, h', e', hd, hr, hpar⟩ := ((C70_decompress K (sec1c x y)).2.2.2 x l s vx).2 ⟨y, by rw [← ey, pow_two]⟩
    have : w = y := root_unique K.odd (by rw [ey, eqn_iff.1 h'.1]) (by rw [hpar, par])
    subst this
    exact ⟨e', hd, hr⟩
  · obtain ⟨d1, d2, d3, d4⟩ := C70_decompress K bs
    have hl : bs.length = 33 := by
      by_contra hc
      rw [d1 hc] at hbs
      exact absurd hbs nofun
    have hs : bs.headD 0 = 2 ∨ bs.headD 0 = 3 := by
      by_contra hc
      rw [d2 (fun h => hc (Or.inl h)) (fun h => hc (Or.inr h))] at hbs
      exact absurd hbs nofun
    have hlt : beToNat (bs.drop 1) < p := by
      by_contra hc
      rw [d3 (by omega)] at hbs
      exact absurd hbs nofun
    have hv : beToNat (bs.drop 1) = ((beToNat (bs.drop 1) : ZMod p)).val := by
      rw [ZMod.val_natCast, Nat.mod_eq_of_lt hlt]
    obtain ⟨n0, n1⟩ := d4 _ hl hs hv
    by_cases hsq : IsSquare ((beToNat (bs.drop 1) : ZMod p) ^ 3 + a * (beToNat (bs.drop 1) : ZMod p) + b)
    · obtain ⟨w, h', e', hd, hr, hpar⟩ := n1 hsq
      rw [hd] at hbs
      injection hbs with hbs
      subst hbs
      have := erep_unique K hr he
      injection this with e1 e2
      have hb : bs = bs.headD 0 :: bs.drop 1 := by
        cases bs with
        | nil => exact absurd hl (by decide)
        | cons c t => rfl
      unfold sec1c
      rw [← e1, ← e2, hpar, ← hv, (sign_cases _ hs).2]
      conv_rhs => rw [hb]
      congr 1
      have h32 : (bs.drop 1).length = 32 := by rw [List.length_drop]; omega
      have := natToBEfix_beToNat (bs.drop 1)
      rw [h32] at this
      exact this
    · rw [n0 hsq] at hbs
      injection hbs with hbs
      subst hbs
      exact absurd (erep_unique K he (erep_identity K)) hP

/-- **C70.** `FromAffineUncompressed` decided for every byte string: it accepts every pair of reduced coordinates and makes
them the affine coordinates of the result, on the curve or not. -/
theorem C70_uncompressed (bs : List UInt8) :
    (bs.length ≠ 65 ∨ bs.headD 0 ≠ 4 ∨ p ≤ beToNat ((bs.take 33).drop 1) ∨ p ≤ beToNat (bs.drop 33) →
      C.fromUncompressed bs = .err) ∧
    (∀ x y : ZMod p, bs.length = 65 → bs.headD 0 = 4 → beToNat ((bs.take 33).drop 1) = x.val → beToNat (bs.drop 33) = y.val →
      ∃ e, C.fromUncompressed bs = .ok e ∧ Rep p e.X x ∧ Rep p e.Y y ∧ Rep p e.Z 1) := by
  have L := K.good.lawful
  have np : NeZero p := ⟨K.good.prime.ne_zero⟩
  refine ⟨fun h => ?_, fun x y hl hs hx hy => ?_⟩
  · unfold Curve.fromUncompressed
    by_cases hl : bs.length ≠ 65
    · rw [if_pos hl]
    rw [if_neg hl]
    by_cases hs : bs.headD 0 ≠ 4
    · rw [if_pos hs]
    rw [if_neg hs]
    have l1 : ((bs.take 33).drop 1).reverse.length = 32 := by
      rw [List.length_reverse, List.length_drop, List.length_take]; omega
    have l2 : (bs.drop 33).reverse.length = 32 := by
      rw [List.length_reverse, List.length_drop]; omega
    obtain ⟨a1, a2⟩ := C50_setBytes L _ l1
    obtain ⟨b1, b2⟩ := C50_setBytes L _ l2
    rw [leToNat_reverse] at a1 a2 b1 b2
    by_cases h1 : p ≤ beToNat ((bs.take 33).drop 1)
    · rw [a2 h1]
      rfl
    · obtain ⟨xx, hxx, -⟩ := a1 (by omega)
      have h2 : p ≤ beToNat (bs.drop 33) := by
        rcases h with h | h | h | h
        · exact absurd h hl
        · exact absurd h hs
        · exact absurd h h1
        · exact h
      rw [hxx, Res.bind_ok, b2 h2]
      rfl
  · have l1 : ((bs.take 33).drop 1).reverse.length = 32 := by
      rw [List.length_reverse, List.length_drop, List.length_take]; omega
    have l2 : (bs.drop 33).reverse.length = 32 := by
      rw [List.length_reverse, List.length_drop]; omega
    obtain ⟨xx, hxx, rx⟩ := (C50_setBytes L _ l1).1 (by rw [leToNat_reverse, hx]; exact ZMod.val_lt x)
    obtain ⟨yy, hyy, ry⟩ := (C50_setBytes L _ l2).1 (by rw [leToNat_reverse, hy]; exact ZMod.val_lt y)
    rw [leToNat_reverse, hx, ZMod.natCast_zmod_val] at rx
    rw [leToNat_reverse, hy, ZMod.natCast_zmod_val] at ry
    refine ⟨⟨xx, yy, Field.one C.F.P⟩, ?_, rx, ry, (C50_constants L).1⟩
    unfold Curve.fromUncompressed
    rw [if_neg (fun hc => hc hl), if_neg (fun hc => hc hs), hxx, Res.bind_ok, hyy, Res.bind_ok]

/-- **C70.** Uncompressed round trip for every point other than the neutral element. -/
theorem C70_uncompressed_roundtrip {e : EP} {P : Pt a b} (he : ERep a b e P) (hP : P ≠ 0) :
    ∃ e', C.fromUncompressed (C.toUncompressed e) = .ok e' ∧ ERep a b e' P := by
  have L := K.good.lawful
  have np : NeZero p := ⟨K.good.prime.ne_zero⟩
  rcases P with _ | ⟨x, y, h⟩
  · exact absurd rfl hP
  rw [((C70_encode K).1 he).2]
  have hlt := L.lt
  have v : ∀ x : ZMod p, beToNat (natToBEfix 32 x.val) = x.val := fun x => by
    rw [beToNat_natToBEfix, pow256, Nat.mod_eq_of_lt (lt_trans (ZMod.val_lt x) hlt)]
  have l : ∀ x : ZMod p, (natToBEfix 32 x.val).length = 32 := fun x => length_natToBEfix _ _
  obtain ⟨e', hd, rx, ry, rz⟩ := (C70_uncompressed K (sec1u x y)).2 x y
    (by unfold sec1u; rw [List.length_cons, List.length_append, l, l]) rfl
    (by unfold sec1u
        rw [List.take_succ_cons, List.drop_one, List.tail_cons, List.take_left' (l x), v])
    (by unfold sec1u
        rw [List.drop_succ_cons, List.drop_left' (l x), v])
  exact ⟨e', hd, x, y, 1, rx, ry, rz, Or.inr ⟨one_ne_zero, _, _, h, rfl, (mul_one _).symm, (mul_one _).symm⟩⟩

/-- **C70.** Of a point other than the neutral element and its opposite, exactly one is reported by `IsNegative`. -/
theorem C70_isNegative {e f : EP} {P : Pt a b} (he : ERep a b e P) (hf : ERep a b f (-P)) (hP : P ≠ 0) :
    C.isNegative f = !C.isNegative e := by
  have L := K.good.lawful
  have np : NeZero p := ⟨K.good.prime.ne_zero⟩
  rcases P with _ | ⟨x, y, h⟩
  · exact absurd rfl hP
  have ey := eqn_iff.1 h.1
  have y0 := y_ne_zero K.noTwo ey
  obtain ⟨-, r1, -, -⟩ := (C70_affine K).1 he
  have h' := (WeierstrassCurve.Affine.nonsingular_neg (W' := curve a b) x y).2 h
  rw [WeierstrassCurve.Affine.Point.neg_some] at hf
  obtain ⟨-, r2, -, -⟩ := (C70_affine K).1 hf
  rw [negY_eq] at r2
  have r3 := rep_unique L r2 (C50_neg L r1)
  have hn := L.neg (C.getY e) r1.1
  have hv : (C.getY e).val ≠ 0 := by
    intro h0
    apply y0
    have := (C50_equal L r1 r1).2.2.1
    have e0 : C.getY e = Field.zero := L4.val_inj h0
    rw [e0] at r1
    exact rep_value L r1 (C50_constants L).2
  have hsum : (C.getY f).val = p - (C.getY e).val := by
    have h1 := r1.1
    unfold Reduced at hn
    rw [r3, hn, Nat.mod_eq_of_lt (by omega)]
  have hlow : ∀ l : L4, l.l0.toNat % 2 = l.val % 2 := by
    intro l
    unfold L4.val
    omega
  have hpar : ∀ l : L4, (l.l0 &&& 1 == 1) = decide (l.val % 2 = 1) := by
    intro l
    rw [← hlow, Bool.eq_iff_iff, beq_iff_eq, decide_eq_true_eq, ← UInt64.toNat_inj, UInt64.toNat_and]
    show l.l0.toNat &&& 1 = 1 ↔ _
    rw [Nat.and_one_is_mod]
  unfold Curve.isNegative
  rw [hpar, hpar, hsum]
  have h1 := r1.1
  have hodd := K.odd
  rcases Nat.mod_two_eq_zero_or_one (C.getY e).val with h2 | h2
  · rw [h2, show (p - (C.getY e).val) % 2 = 1 by omega]; rfl
  · rw [h2, show (p - (C.getY e).val) % 2 = 0 by omega]; rfl

/-! ## The `elliptic.Curve` wrappers -/

/-- The pair of integers names the point `P` in the convention of `crypto/elliptic`: `(0, 0)` is the neutral element, and
coordinates count modulo `p`. -/
def Names (a b : ZMod p) (x y : Int) (P : Pt a b) : Prop :=
  ((x : ZMod p) = 0 ∧ (y : ZMod p) = 0 ∧ P = 0) ∨
    ∃ h : (curve a b).Nonsingular (x : ZMod p) (y : ZMod p), P = .some _ _ h

/-- The pair of integers `crypto/elliptic` uses for a point: coordinates in `[0, p)`, `(0, 0)` for the neutral element. -/
def coords {a b : ZMod p} : Pt a b → Int × Int
  | 0 => (0, 0)
  | .some x y _ => ((x.val : Int), (y.val : Int))

omit K in
theorem coords_names {a b : ZMod p} (P : Pt a b) : Names a b (coords P).1 (coords P).2 P := by
  have np : NeZero p := ⟨(Fact.out : p.Prime).ne_zero⟩
  rcases P with _ | ⟨x, y, h⟩
  · exact Or.inl ⟨Int.cast_zero, Int.cast_zero, rfl⟩
  · have e : ∀ x : ZMod p, (((x.val : Nat) : Int) : ZMod p) = x := fun x => by
      rw [Int.cast_natCast, ZMod.natCast_zmod_val]
    right
    show ∃ h : (curve a b).Nonsingular (((x.val : Nat) : Int) : ZMod p) (((y.val : Nat) : Int) : ZMod p), _
    have h' : (curve a b).Nonsingular (((x.val : Nat) : Int) : ZMod p) (((y.val : Nat) : Int) : ZMod p) := by
      rw [e, e]; exact h
    refine ⟨h', ?_⟩
    congr 1
    · exact (e x).symm
    · exact (e y).symm

theorem bigInt_coords {e : EP} {P : Pt a b} (he : ERep a b e P) : C.bigInt e = coords P := by
  rcases P with _ | ⟨x, y, h⟩
  · exact ((C70_affine K).2 he).2
  · exact ((C70_affine K).1 he).2.2.2

theorem setBigInt_names (x y : Int) :
    (∀ P : Pt a b, Names a b x y P → ∃ e, C.setBigInt x y = .ok e ∧ ERep a b e P) ∧
    ((∀ P : Pt a b, ¬ Names a b x y P) → C.setBigInt x y = .err) := by
  obtain ⟨h0, h1, h2⟩ := C70_setBigInt K x y
  refine ⟨fun P hP => ?_, fun h => ?_⟩
  · rcases hP with ⟨hx, hy, rfl⟩ | ⟨h, rfl⟩
    · exact ⟨_, h0 ⟨hx, hy⟩, erep_identity K⟩
    · exact h1 h
  · refine h2 (fun hz => h 0 (Or.inl ⟨hz.1, hz.2, rfl⟩)) (fun he => ?_)
    exact h (.some _ _ (nonsing K.two K.noTwo he)) (Or.inr ⟨_, rfl⟩)

/-- **C71.** `IsOnCurve(x, y)`: true exactly when the pair names a point, `(0, 0)` and unreduced coordinates included. -/
theorem C71_isOnCurve (x y : Int) : C.ellIsOnCurve x y = true ↔ ∃ P : Pt a b, Names a b x y P := by
  obtain ⟨h1, h2⟩ := setBigInt_names K x y
  unfold Curve.ellIsOnCurve
  by_cases h : ∃ P : Pt a b, Names a b x y P
  · obtain ⟨P, hP⟩ := h
    obtain ⟨e, he, -⟩ := h1 P hP
    rw [he]
    exact ⟨fun _ => ⟨P, hP⟩, fun _ => rfl⟩
  · rw [h2 (fun P hP => h ⟨P, hP⟩)]
    exact ⟨fun h => absurd h (by decide), fun hh => absurd hh h⟩

/-- **C71.** `Add` and `Double`: the coordinates of the sum, for all pairs of named points; `(nil, nil)` if an argument names
no point. -/
theorem C71_add_double (x1 y1 x2 y2 : Int) :
    (∀ P Q : Pt a b, Names a b x1 y1 P → Names a b x2 y2 Q → C.ellAdd x1 y1 x2 y2 = some (coords (P + Q))) ∧
    (∀ P : Pt a b, Names a b x1 y1 P → C.ellDouble x1 y1 = some (coords (2 • P))) ∧
    ((∀ P : Pt a b, ¬ Names a b x1 y1 P) → C.ellAdd x1 y1 x2 y2 = none ∧ C.ellDouble x1 y1 = none) ∧
    ((∀ P : Pt a b, ¬ Names a b x2 y2 P) → C.ellAdd x1 y1 x2 y2 = none) := by
  obtain ⟨h1, n1⟩ := setBigInt_names K x1 y1
  obtain ⟨h2, n2⟩ := setBigInt_names K x2 y2
  refine ⟨fun P Q hP hQ => ?_, fun P hP => ?_, fun h => ?_, fun h => ?_⟩
  · obtain ⟨e, he, re⟩ := h1 P hP
    obtain ⟨f, hf, rf⟩ := h2 Q hQ
    unfold Curve.ellAdd
    rw [he, hf]
    dsimp only
    rw [bigInt_coords K (K.add re rf)]
  · obtain ⟨e, he, re⟩ := h1 P hP
    unfold Curve.ellDouble
    rw [he, two_nsmul]
    dsimp only
    rw [bigInt_coords K (K.double re)]
  · unfold Curve.ellAdd Curve.ellDouble
    rw [n1 h]
    exact ⟨rfl, rfl⟩
  · unfold Curve.ellAdd
    rw [n2 h]
    cases C.setBigInt x1 y1 <;> rfl

theorem ellScalar_spec {S : Impl} {q : Nat} (GS : Good S q) (k : List UInt8) :
    (beToNat (k.drop (k.length - 32)) < q →
      ∃ s, Curve.ellScalar S k = .ok s ∧ Rep q s (beToNat (k.drop (k.length - 32)) : ZMod q)) ∧
    (q ≤ beToNat (k.drop (k.length - 32)) → Curve.ellScalar S k = .err) := by
  have hl : (k.reverse.take 32 ++ List.replicate (32 - k.length) (0 : UInt8)).length = 32 := by
    rw [List.length_append, List.length_take, List.length_reverse, List.length_replicate]
    omega
  have hz : ∀ n, leToNat (List.replicate n (0 : UInt8)) = 0 := by
    intro n
    induction n with
    | zero => rfl
    | succ n ih =>
      rw [List.replicate_succ, leToNat, ih]
      rfl
  have hv : leToNat (k.reverse.take 32 ++ List.replicate (32 - k.length) (0 : UInt8)) = beToNat (k.drop (k.length - 32)) := by
    rw [← beToNat_reverse, List.reverse_append, beToNat_append, beToNat_reverse, hz, List.reverse_take, List.reverse_reverse,
      List.length_reverse]
    omega
  have := C50_setBytes GS.lawful _ hl
  rw [hv] at this
  exact this

/-- **C71.** `ScalarMult` and `ScalarBaseMult` for every byte string `k`: with `v` the big-endian value of the last 32 bytes
of `k`, the coordinates of `v • P` when `v` is below the group order, `(nil, nil)` otherwise. -/
theorem C71_scalarMult {S : Impl} {q : Nat} (GS : Good S q) (bx by' : Int) (k : List UInt8) :
    (∀ P : Pt a b, Names a b bx by' P → beToNat (k.drop (k.length - 32)) < q →
      C.ellScalarMult S bx by' k = some (coords (beToNat (k.drop (k.length - 32)) • P))) ∧
    (beToNat (k.drop (k.length - 32)) < q → C.ellScalarBaseMult S k = some (coords (beToNat (k.drop (k.length - 32)) • G))) ∧
    (q ≤ beToNat (k.drop (k.length - 32)) → C.ellScalarMult S bx by' k = none ∧ C.ellScalarBaseMult S k = none) ∧
    ((∀ P : Pt a b, ¬ Names a b bx by' P) → C.ellScalarMult S bx by' k = none) := by
  obtain ⟨h1, n1⟩ := setBigInt_names K bx by'
  obtain ⟨k1, k0⟩ := ellScalar_spec K GS k
  have nq : NeZero q := ⟨by have := GS.lawful.one_lt; omega⟩
  refine ⟨fun P hP hk => ?_, fun hk => ?_, fun hk => ?_, fun h => ?_⟩
  · obtain ⟨e, he, re⟩ := h1 P hP
    obtain ⟨s, hs, rs⟩ := k1 hk
    unfold Curve.ellScalarMult
    rw [he, hs]
    dsimp only
    rw [bigInt_coords K (C68_mul K GS re rs), ZMod.val_natCast, Nat.mod_eq_of_lt hk]
  · obtain ⟨s, hs, rs⟩ := k1 hk
    unfold Curve.ellScalarBaseMult
    rw [hs]
    dsimp only
    rw [bigInt_coords K (C68_mul K GS K.gen rs), ZMod.val_natCast, Nat.mod_eq_of_lt hk]
  · unfold Curve.ellScalarMult Curve.ellScalarBaseMult
    rw [k0 hk]
    refine ⟨?_, rfl⟩
    cases C.setBigInt bx by' <;> rfl
  · unfold Curve.ellScalarMult
    rw [n1 h]

end

end Verif.Native
