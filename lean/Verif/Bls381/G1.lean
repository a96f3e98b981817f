import Verif.Bls381.GroupSpec
import Verif.Bls381.Fp
import Verif.Bls381.FpApi
import Verif.Bls381.FqApi
import Verif.Bls381.Fp6

/-!
# G1 (crypto/core/curves/native/bls12381/g1.go): the group law
-/

set_option maxRecDepth 20000
set_option linter.unusedSectionVars false

namespace Verif.Bls381.G1
open Verif.Bytes Verif.Native Verif.Native.Weier P3

/-- `curveG1B` (crypto/core/curves/native/bls12381/g1.go:31-38). -/
def curveG1B : L6 := ⟨0xaa270000000cfff3, 0x53cc0032fc34000a, 0x478fe97a6b0a807f, 0xb1d37ebee6ba24d7, 0x8ec9733bbf78ab2f, 0x09d645513d83de7e⟩

/-- `g1x` (crypto/core/curves/native/bls12381/g1.go:15-22). -/
def g1x : L6 := ⟨0x5cb38790fd530c16, 0x7817fc679976fff5, 0x154f95c7143ba1c1, 0xf0ae6acdf3d0e747, 0xedce6ecc21dbf440, 0x120177419e0bfb75⟩

/-- `g1y` (crypto/core/curves/native/bls12381/g1.go:23-30). -/
def g1y : L6 := ⟨0xbaac93d50ce72271, 0x8c22631a7918fd8e, 0xdd595f13570725ce, 0x51ac582950405194, 0x0e1c8c3fad0059c0, 0x0bbc3efc5008a26a⟩

/-- The operations of the base field the point functions call. -/
def F : FOps L6 where
  zero := Fp.zero
  one := Fp.one
  add := Fp.add
  sub := Fp.sub
  mul := Fp.mul
  square := Fp.square
  double := Fp.double
  neg := Fp.neg
  mulBy3b := Fp.mulBy3b
  isZero := Fp.isZero
  equal := Fp.equal
  cmove := Fp.cmove
  invert := Fp.invert
  sqrt := fun a => Fp.sqrt a a
  lexLargest := Fp.lexLargest
  b := curveG1B

/-- A point of G1 as stored. -/
abbrev Point := P3 L6

/-- The curve `y² = x³ + 4` over the field of `p` elements. -/
abbrev PP := Pt (0 : ZMod Fp.p) ((4 : Nat) : ZMod Fp.p)

/-- The stored coordinates represent the point. -/
abbrev Rep (e : Point) (P : PP) : Prop := HRep Fp.Rep ((4 : Nat) : ZMod Fp.p) e P

theorem noTwo : NoTwo (0 : ZMod Fp.p) ((4 : Nat) : ZMod Fp.p) :=
  noTwo_of_cube (by decide +kernel) (by decide +kernel) (by decide +kernel) (by decide +kernel)

theorem odd : Fp.p % 2 = 1 := by decide +kernel

theorem rep_b : Fp.Rep curveG1B ((4 : Nat) : ZMod Fp.p) := Fp6.rep_check curveG1B 4 (by decide +kernel)

theorem FOk : FOK F Fp.Rep ((4 : Nat) : ZMod Fp.p) where
  unique := Fp.rep_unique
  value := Fp.rep_value
  zero := Fp.zero_spec
  one := Fp.one_spec
  coeff := rep_b
  add := Fp.add_spec
  sub := Fp.sub_spec
  mul := Fp.mul_spec
  square := Fp.square_spec
  double := Fp.double_spec
  neg := Fp.neg_spec
  mulBy3b := fun {a x} h => by
    have := Fp.mulBy3b_spec h
    have e : (12 : ZMod Fp.p) * x = 3 * ((4 : Nat) : ZMod Fp.p) * x := by push_cast; ring
    rw [e] at this
    exact this
  isZero := fun h => (Fp.isZero_spec h).1
  equal := Fp.equal_spec
  cmove0 := Fp.cmove_zero
  cmove1 := Fp.cmove_one
  invert := fun {a x} h => by
    have := Fp.C89_invert h
    exact ⟨this.1, fun h0 => congrArg Prod.snd (this.2 h0)⟩
  two := two_ne (by decide +kernel)
  noTwo := noTwo

end Verif.Bls381.G1
