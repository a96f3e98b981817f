import Verif.Native.Point
import Verif.Native.Order

/-!
# secp256k1 and P-256

The two curves of the native layer, with the constants of the repository.  For both the generated code computes the group
law, and the group is cyclic of the prime order of the scalar field.
-/

set_option maxRecDepth 20000
set_option linter.unusedSectionVars false

namespace Verif.Native
open Verif.Bytes Weier

/-! ## The formulas of the code are the complete formulas -/

section
variable {A : Arith} {P : Params} {p : Nat} [Fact p.Prime] (L : Lawful A P p)
include L

theorem K256.double_spec (two : (2 : ZMod p) ≠ 0) {b : L4} {vb : ZMod p} (hb : Rep p b vb) (n2 : NoTwo 0 vb) {e : EP}
    {Q : Pt 0 vb} (he : ERep 0 vb e Q) : ERep 0 vb (K256.double A b e) (Q + Q) := by
  obtain ⟨X, Y, Z, hX, hY, hZ, h⟩ := he
  obtain ⟨cx, cy, cz⟩ := K256.double_code L hb hX hY hZ
  refine ⟨_, _, _, cx, cy, cz, ?_⟩
  by_cases z : Z = 0
  · rw [(prep_isZero h).1 z, z, add_zero]
    exact Or.inl ⟨by ring, rfl⟩
  · have e := prep_eqn h z
    have := add_spec two n2 h h z z
    convert this using 1
    · unfold addX; ring
    · unfold addY; linear_combination (18 * vb * Z) * e
    · unfold addZ; linear_combination (6 * Y) * e

theorem K256.add_spec (two : (2 : ZMod p) ≠ 0) {b : L4} {vb : ZMod p} (hb : Rep p b vb) (n2 : NoTwo 0 vb) {e f : EP}
    {Q R : Pt 0 vb} (he : ERep 0 vb e Q) (hf : ERep 0 vb f R) : ERep 0 vb (K256.add A b e f) (Q + R) := by
  obtain ⟨X, Y, Z, hX, hY, hZ, h⟩ := id he
  obtain ⟨X', Y', Z', hX', hY', hZ', h'⟩ := id hf
  by_cases z' : Z' = 0
  · rw [(prep_isZero h').1 z', add_zero, K256.add_right L hZ' z']
    exact he
  by_cases z : Z = 0
  · rw [(prep_isZero h).1 z, zero_add, K256.add_left L hZ hZ' z z']
    exact hf
  obtain ⟨cx, cy, cz⟩ := K256.add_code L hb hX hY hZ hX' hY' hZ' z z'
  refine ⟨_, _, _, cx, cy, cz, ?_⟩
  have := Weier.add_spec two n2 h h' z z'
  convert this using 1
  · unfold addX; ring
  · unfold addY; ring
  · unfold addZ; ring

theorem P256.double_spec (two : (2 : ZMod p) ≠ 0) {b : L4} {vb : ZMod p} (hb : Rep p b vb) (n2 : NoTwo (-3) vb) {e : EP}
    {Q : Pt (-3) vb} (he : ERep (-3) vb e Q) : ERep (-3) vb (P256.double A b e) (Q + Q) := by
  obtain ⟨X, Y, Z, hX, hY, hZ, h⟩ := he
  obtain ⟨cx, cy, cz⟩ := P256.double_code L hb hX hY hZ
  refine ⟨_, _, _, cx, cy, cz, ?_⟩
  by_cases z : Z = 0
  · rw [(prep_isZero h).1 z, z, add_zero]
    exact Or.inl ⟨by ring, rfl⟩
  · have e := prep_eqn h z
    have := add_spec two n2 h h z z
    convert this using 1
    · unfold addX; ring
    · unfold addY; ring
    · unfold addZ; linear_combination (6 * Y) * e

theorem P256.add_spec (two : (2 : ZMod p) ≠ 0) {b : L4} {vb : ZMod p} (hb : Rep p b vb) (n2 : NoTwo (-3) vb) {e f : EP}
    {Q R : Pt (-3) vb} (he : ERep (-3) vb e Q) (hf : ERep (-3) vb f R) : ERep (-3) vb (P256.add A b e f) (Q + R) := by
  obtain ⟨X, Y, Z, hX, hY, hZ, h⟩ := id he
  obtain ⟨X', Y', Z', hX', hY', hZ', h'⟩ := id hf
  by_cases z' : Z' = 0
  · rw [(prep_isZero h').1 z', add_zero, P256.add_right L hZ' z']
    exact he
  by_cases z : Z = 0
  · rw [(prep_isZero h).1 z, zero_add, P256.add_left L hZ hZ' z z']
    exact hf
  obtain ⟨cx, cy, cz⟩ := P256.add_code L hb hX hY hZ hX' hY' hZ' z z'
  refine ⟨_, _, _, cx, cy, cz, ?_⟩
  have := Weier.add_spec two n2 h h' z z'
  convert this using 1
  · unfold addX; ring
  · unfold addY; ring
  · unfold addZ; ring

end

/-! ## secp256k1 -/

/-- The parameters (crypto/core/curves/native/k256/point.go:30-50) and `RhsEq`
(crypto/core/curves/native/k256/point.go:441-446). -/
def K256.curve : Curve where
  F := K256Fp.impl
  A := Field.zero
  B := Field.setUint64 K256Fp.arith 7
  Gx := Field.setLimbs K256Fp.arith ⟨0x59f2815b16f81798, 0x029bfcdb2dce28d9, 0x55a06295ce870b07, 0x79be667ef9dcbbac⟩
  Gy := Field.setLimbs K256Fp.arith ⟨0x9c47d08ffb10d4b8, 0xfd17b448a6855419, 0x5da4fbfc0e1108a8, 0x483ada7726a3c465⟩
  double := K256.double K256Fp.arith (Field.setUint64 K256Fp.arith 7)
  add := K256.add K256Fp.arith (Field.setUint64 K256Fp.arith 7)
  rhsEq x := K256Fp.arith.add (K256Fp.arith.mul (K256Fp.arith.square x) x) (Field.setUint64 K256Fp.arith 7)

/-- Abscissa of the base point (SEC 2, 2.4.1). -/
def K256.gx : Nat := 0x79be667ef9dcbbac55a06295ce870b07029bfcdb2dce28d959f2815b16f81798
/-- Ordinate of the base point (SEC 2, 2.4.1). -/
def K256.gy : Nat := 0x483ada7726a3c4655da4fbfc0e1108a8fd17b448a68554199c47d08ffb10d4b8

theorem K256.noTwo : NoTwo (0 : ZMod K256Fp.prime) ((7 : Nat) : ZMod K256Fp.prime) :=
  noTwo_of_cube (by decide +kernel) (by decide +kernel) (by decide +kernel) (by decide +kernel)

theorem K256.odd : K256Fp.prime % 2 = 1 := by decide +kernel

theorem K256.two : (2 : ZMod K256Fp.prime) ≠ 0 := two_ne (by decide +kernel)

theorem K256.on_curve : ((K256.gy : Nat) : ZMod K256Fp.prime) ^ 2 =
    ((K256.gx : Nat) : ZMod K256Fp.prime) ^ 3 + 0 * ((K256.gx : Nat) : ZMod K256Fp.prime) + ((7 : Nat) : ZMod K256Fp.prime) := by
  have h : (K256.gy ^ 2) % K256Fp.prime = (K256.gx ^ 3 + 7) % K256Fp.prime := by decide +kernel
  have := (ZMod.natCast_eq_natCast_iff _ _ _).2 h
  rw [Nat.cast_pow, Nat.cast_add, Nat.cast_pow] at this
  rw [zero_mul, add_zero]
  exact this

/-- The base point of secp256k1. -/
def K256.G : Pt (0 : ZMod K256Fp.prime) ((7 : Nat) : ZMod K256Fp.prime) :=
  .some _ _ (nonsing K256.two K256.noTwo K256.on_curve)

theorem rep_setLimbs {A : Arith} {P : Params} {p : Nat} (L : Lawful A P p) (d : L4) (n : Nat) (h : d.val = n) :
    Rep p (Field.setLimbs A d) (n : ZMod p) := by
  have := C50_setLimbs L d
  rwa [h] at this

theorem K256.repB : Rep K256Fp.prime (Field.setUint64 K256Fp.arith 7) ((7 : Nat) : ZMod K256Fp.prime) :=
  C50_setUint64 K256Fp.lawful 7

/-- **C68.** The secp256k1 implementation: the generated field code, the formulas of `point.go` and the constants compute the
group of `y² = x³ + 7`. -/
theorem C68_k256 : CurveOK K256.curve (0 : ZMod K256Fp.prime) ((7 : Nat) : ZMod K256Fp.prime) K256.G where
  good := C50_k256Fp
  odd := K256.odd
  noTwo := K256.noTwo
  paramA := (C50_constants K256Fp.lawful).2
  paramB := K256.repB
  gen := ⟨_, _, 1, rep_setLimbs K256Fp.lawful _ K256.gx (by decide +kernel), rep_setLimbs K256Fp.lawful _ K256.gy (by decide +kernel),
    (C50_constants K256Fp.lawful).1, Or.inr ⟨one_ne_zero, _, _, _, rfl, (mul_one _).symm, (mul_one _).symm⟩⟩
  double h := K256.double_spec K256Fp.lawful K256.two K256.repB K256.noTwo h
  add h h' := K256.add_spec K256Fp.lawful K256.two K256.repB K256.noTwo h h'
  rhsEq {x v} h := by
    have := C50_add K256Fp.lawful (C50_mul K256Fp.lawful (C50_square K256Fp.lawful h) h) K256.repB
    have e : v * v * v + ((7 : Nat) : ZMod K256Fp.prime) = v ^ 3 + 0 * v + ((7 : Nat) : ZMod K256Fp.prime) := by ring
    rw [e] at this
    exact this

theorem K256.order_G : K256Fq.prime • K256.G = 0 :=
  order_of_eval' 0 7 Nat.cast_zero rfl K256.odd K256.noTwo (by decide +kernel) (by decide +kernel)

/-- **C69.** secp256k1 has exactly `n` points, `n` the (prime) modulus of the scalar field: every point is a multiple of the
base point and is annihilated by `n`; there is no cofactor and there are no small subgroups. -/
theorem C69_k256_order :
    Nat.card (Pt (0 : ZMod K256Fp.prime) ((7 : Nat) : ZMod K256Fp.prime)) = K256Fq.prime ∧
    (∀ P : Pt (0 : ZMod K256Fp.prime) ((7 : Nat) : ZMod K256Fp.prime), K256Fq.prime • P = 0) ∧
    (∀ P : Pt (0 : ZMod K256Fp.prime) ((7 : Nat) : ZMod K256Fp.prime), ∃ k : Nat, k < K256Fq.prime ∧ P = k • K256.G) ∧
    (∀ (P : Pt (0 : ZMod K256Fp.prime) ((7 : Nat) : ZMod K256Fp.prime)) (i j : Nat), P ≠ 0 →
      (i • P = j • P ↔ i % K256Fq.prime = j % K256Fq.prime)) :=
  ⟨card_eq K256.odd K256.noTwo Fact.out (by decide +kernel) K256.order_G (WeierstrassCurve.Affine.Point.some_ne_zero _),
    prime_order K256.odd K256.noTwo Fact.out (by decide +kernel) K256.order_G (WeierstrassCurve.Affine.Point.some_ne_zero _)⟩

/-! ## P-256 -/

/-- The parameters (crypto/core/curves/native/p256/point.go:28-47) and `RhsEq`
(crypto/core/curves/native/p256/point.go:311-317). -/
def P256.curve : Curve where
  F := P256Fp.impl
  A := ⟨0xfffffffffffffffc, 0x00000003ffffffff, 0x0000000000000000, 0xfffffffc00000004⟩
  B := ⟨0xd89cdf6229c4bddf, 0xacf005cd78843090, 0xe5a220abf7212ed6, 0xdc30061d04874834⟩
  Gx := ⟨0x79e730d418a9143c, 0x75ba95fc5fedb601, 0x79fb732b77622510, 0x18905f76a53755c6⟩
  Gy := ⟨0xddf25357ce95560a, 0x8b4ab8e4ba19e45c, 0xd2e88688dd21f325, 0x8571ff1825885d85⟩
  double := P256.double P256Fp.arith ⟨0xd89cdf6229c4bddf, 0xacf005cd78843090, 0xe5a220abf7212ed6, 0xdc30061d04874834⟩
  add := P256.add P256Fp.arith ⟨0xd89cdf6229c4bddf, 0xacf005cd78843090, 0xe5a220abf7212ed6, 0xdc30061d04874834⟩
  rhsEq x := P256Fp.arith.add
    (P256Fp.arith.add (P256Fp.arith.mul (P256Fp.arith.square x) x)
      ⟨0xd89cdf6229c4bddf, 0xacf005cd78843090, 0xe5a220abf7212ed6, 0xdc30061d04874834⟩)
    (P256Fp.arith.mul ⟨0xfffffffffffffffc, 0x00000003ffffffff, 0x0000000000000000, 0xfffffffc00000004⟩ x)

/-- The coefficient `b` of P-256 (SP 800-186). -/
def P256.b : Nat := 0x5ac635d8aa3a93e7b3ebbd55769886bc651d06b0cc53b0f63bce3c3e27d2604b
/-- Abscissa of the base point (SP 800-186). -/
def P256.gx : Nat := 0x6b17d1f2e12c4247f8bce6e563a440f277037d812deb33a0f4a13945d898c296
/-- Ordinate of the base point (SP 800-186). -/
def P256.gy : Nat := 0x4fe342e2fe1a7f9b8ee7eb4a7c0f9e162bce33576b315ececbb6406837bf51f5

theorem P256.neg3 : ((P256Fp.prime - 3 : Nat) : ZMod P256Fp.prime) = -3 := by
  rw [Nat.cast_sub (by decide +kernel), ZMod.natCast_self, zero_sub]
  rfl

theorem P256.noTwo : NoTwo (-3 : ZMod P256Fp.prime) (P256.b : ZMod P256Fp.prime) := by
  rw [← P256.neg3]
  exact noTwo_of_bezout (by decide +kernel)
    ⟨66434390973925144466073271287821796038003695194169110494110089305650096453661,
      12402202686218762177567235911775779164004716598278868847786114277539554646092,
      24678849118215552148312087830792888746041224110560601850711771001608500700145⟩
    ⟨76626890310466861426869089647039036757962535851890885406097439786770458211455,
      74462945259064871768191128030512052509059297803194871526163573358218695456204,
      34768139465301476436978405170953382516735956999154666452188405812258086013549⟩
    107286402702237026811154678719514266289498743974321057492273529440068429825344
    6389611969556882025875921584714237703390037729321797349080302270353162149340
    (by decide +kernel) (by decide +kernel) (by decide +kernel) (by decide +kernel) (by decide +kernel) (by decide +kernel)

theorem P256.odd : P256Fp.prime % 2 = 1 := by decide +kernel

theorem P256.two : (2 : ZMod P256Fp.prime) ≠ 0 := two_ne (by decide +kernel)

theorem P256.on_curve : ((P256.gy : Nat) : ZMod P256Fp.prime) ^ 2 =
    ((P256.gx : Nat) : ZMod P256Fp.prime) ^ 3 + -3 * ((P256.gx : Nat) : ZMod P256Fp.prime) + (P256.b : ZMod P256Fp.prime) := by
  have h : (P256.gy ^ 2) % P256Fp.prime = (P256.gx ^ 3 + (P256Fp.prime - 3) * P256.gx + P256.b) % P256Fp.prime := by decide +kernel
  have := (ZMod.natCast_eq_natCast_iff _ _ _).2 h
  rw [Nat.cast_pow, Nat.cast_add, Nat.cast_add, Nat.cast_mul, P256.neg3, Nat.cast_pow] at this
  exact this

/-- The base point of P-256. -/
def P256.G : Pt (-3 : ZMod P256Fp.prime) (P256.b : ZMod P256Fp.prime) :=
  .some _ _ (nonsing P256.two P256.noTwo P256.on_curve)

theorem P256.repB : Rep P256Fp.prime ⟨0xd89cdf6229c4bddf, 0xacf005cd78843090, 0xe5a220abf7212ed6, 0xdc30061d04874834⟩
    (P256.b : ZMod P256Fp.prime) := rep_of_powMod P256Fp.lawful (by decide +kernel) (by decide +kernel)

theorem P256.repA : Rep P256Fp.prime ⟨0xfffffffffffffffc, 0x00000003ffffffff, 0x0000000000000000, 0xfffffffc00000004⟩
    (-3 : ZMod P256Fp.prime) := by
  rw [← P256.neg3]
  exact rep_of_powMod P256Fp.lawful (by decide +kernel) (by decide +kernel)

/-- **C68.** The P-256 implementation. -/
theorem C68_p256 : CurveOK P256.curve (-3 : ZMod P256Fp.prime) (P256.b : ZMod P256Fp.prime) P256.G where
  good := C50_p256Fp
  odd := P256.odd
  noTwo := P256.noTwo
  paramA := P256.repA
  paramB := P256.repB
  gen := ⟨_, _, 1, rep_of_powMod P256Fp.lawful (g := P256.gx) (by decide +kernel) (by decide +kernel),
    rep_of_powMod P256Fp.lawful (g := P256.gy) (by decide +kernel) (by decide +kernel),
    (C50_constants P256Fp.lawful).1, Or.inr ⟨one_ne_zero, _, _, _, rfl, (mul_one _).symm, (mul_one _).symm⟩⟩
  double h := P256.double_spec P256Fp.lawful P256.two P256.repB P256.noTwo h
  add h h' := P256.add_spec P256Fp.lawful P256.two P256.repB P256.noTwo h h'
  rhsEq {x v} h := by
    have := C50_add P256Fp.lawful (C50_add P256Fp.lawful (C50_mul P256Fp.lawful (C50_square P256Fp.lawful h) h) P256.repB)
      (C50_mul P256Fp.lawful P256.repA h)
    have e : v * v * v + (P256.b : ZMod P256Fp.prime) + -3 * v = v ^ 3 + -3 * v + (P256.b : ZMod P256Fp.prime) := by ring
    rw [e] at this
    exact this

theorem P256.order_G : P256Fq.prime • P256.G = 0 :=
  order_of_eval' (P256Fp.prime - 3) P256.b P256.neg3 rfl P256.odd P256.noTwo (by decide +kernel) (by decide +kernel)

/-- **C69.** P-256 has exactly `n` points, `n` the (prime) modulus of the scalar field. -/
theorem C69_p256_order :
    Nat.card (Pt (-3 : ZMod P256Fp.prime) (P256.b : ZMod P256Fp.prime)) = P256Fq.prime ∧
    (∀ P : Pt (-3 : ZMod P256Fp.prime) (P256.b : ZMod P256Fp.prime), P256Fq.prime • P = 0) ∧
    (∀ P : Pt (-3 : ZMod P256Fp.prime) (P256.b : ZMod P256Fp.prime), ∃ k : Nat, k < P256Fq.prime ∧ P = k • P256.G) ∧
    (∀ (P : Pt (-3 : ZMod P256Fp.prime) (P256.b : ZMod P256Fp.prime)) (i j : Nat), P ≠ 0 →
      (i • P = j • P ↔ i % P256Fq.prime = j % P256Fq.prime)) :=
  ⟨card_eq P256.odd P256.noTwo Fact.out (by decide +kernel) P256.order_G (WeierstrassCurve.Affine.Point.some_ne_zero _),
    prime_order P256.odd P256.noTwo Fact.out (by decide +kernel) P256.order_G (WeierstrassCurve.Affine.Point.some_ne_zero _)⟩

end Verif.Native
