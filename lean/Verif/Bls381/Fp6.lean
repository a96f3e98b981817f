import Verif.Bls381.Fp2
import Verif.Bls381.Cubic
import Verif.Native.Primes

/-!
The cubic extension of BLS12-381 (crypto/core/curves/native/bls12381/fp6.go).
-/
set_option linter.unusedSectionVars false
set_option exponentiation.threshold 1000
namespace Verif.Bls381.Fp6

open Verif.Native Verif.Bls381.Fp2

/-- `fp6` (crypto/core/curves/native/bls12381/fp6.go:7-9): `A + B·v + C·v^2`. -/
structure E6 where
  A : E2
  B : E2
  C : E2
deriving DecidableEq

/-- `SetFp` (crypto/core/curves/native/bls12381/fp6.go:20-25). -/
def setFp (a : L6) : E6 := ⟨Fp2.setFp a, Fp2.zero, Fp2.zero⟩

/-- `SetFp2` (crypto/core/curves/native/bls12381/fp6.go:28-33). -/
def setFp2 (a : E2) : E6 := ⟨a, Fp2.zero, Fp2.zero⟩

/-- `SetZero` (crypto/core/curves/native/bls12381/fp6.go:36-41). -/
def zero : E6 := ⟨Fp2.zero, Fp2.zero, Fp2.zero⟩

/-- `SetOne` (crypto/core/curves/native/bls12381/fp6.go:44-49). -/
def one : E6 := ⟨Fp2.one, Fp2.zero, Fp2.zero⟩

/-- `Add` (crypto/core/curves/native/bls12381/fp6.go:72-77). -/
def add (arg1 arg2 : E6) : E6 := ⟨Fp2.add arg1.A arg2.A, Fp2.add arg1.B arg2.B, Fp2.add arg1.C arg2.C⟩

/-- `Double` (crypto/core/curves/native/bls12381/fp6.go:80-82). -/
def double (arg : E6) : E6 := add arg arg

/-- `Sub` (crypto/core/curves/native/bls12381/fp6.go:85-90). -/
def sub (arg1 arg2 : E6) : E6 := ⟨Fp2.sub arg1.A arg2.A, Fp2.sub arg1.B arg2.B, Fp2.sub arg1.C arg2.C⟩

/-- `Mul` (crypto/core/curves/native/bls12381/fp6.go:93-128). -/
def mul (arg1 arg2 : E6) : E6 :=
  let aa := Fp2.mul arg1.A arg2.A
  let bb := Fp2.mul arg1.B arg2.B
  let cc := Fp2.mul arg1.C arg2.C
  let t1 := Fp2.add arg2.B arg2.C
  let s := Fp2.add arg1.B arg1.C
  let t1 := Fp2.mul t1 s
  let t1 := Fp2.sub t1 bb
  let t1 := Fp2.sub t1 cc
  let t1 := Fp2.mulByNonResidue t1
  let t1 := Fp2.add t1 aa
  let t3 := Fp2.add arg2.A arg2.C
  let s := Fp2.add arg1.A arg1.C
  let t3 := Fp2.mul t3 s
  let t3 := Fp2.sub t3 aa
  let t3 := Fp2.add t3 bb
  let t3 := Fp2.sub t3 cc
  let t2 := Fp2.add arg2.A arg2.B
  let s := Fp2.add arg1.A arg1.B
  let t2 := Fp2.mul t2 s
  let t2 := Fp2.sub t2 aa
  let t2 := Fp2.sub t2 bb
  let cc := Fp2.mulByNonResidue cc
  let t2 := Fp2.add t2 cc
  ⟨t1, t2, t3⟩

/-- `MulByB` (crypto/core/curves/native/bls12381/fp6.go:131-148). -/
def mulByB (arg : E6) (b : E2) : E6 :=
  let bB := Fp2.mul arg.B b
  let t1 := Fp2.add arg.B arg.C
  let t1 := Fp2.mul t1 b
  let t1 := Fp2.sub t1 bB
  let t1 := Fp2.mulByNonResidue t1
  let t2 := Fp2.add arg.A arg.B
  let t2 := Fp2.mul t2 b
  let t2 := Fp2.sub t2 bB
  ⟨t1, t2, bB⟩

/-- `MulByAB` (crypto/core/curves/native/bls12381/fp6.go:151-179). -/
def mulByAB (arg : E6) (a b : E2) : E6 :=
  let aA := Fp2.mul arg.A a
  let bB := Fp2.mul arg.B b
  let t1 := Fp2.add arg.B arg.C
  let t1 := Fp2.mul t1 b
  let t1 := Fp2.sub t1 bB
  let t1 := Fp2.mulByNonResidue t1
  let t1 := Fp2.add t1 aA
  let t2 := Fp2.add a b
  let t3 := Fp2.add arg.A arg.B
  let t2 := Fp2.mul t2 t3
  let t2 := Fp2.sub t2 aA
  let t2 := Fp2.sub t2 bB
  let t3 := Fp2.add arg.A arg.C
  let t3 := Fp2.mul t3 a
  let t3 := Fp2.sub t3 aA
  let t3 := Fp2.add t3 bB
  ⟨t1, t2, t3⟩

/-- `MulByNonResidue` (crypto/core/curves/native/bls12381/fp6.go:182-195). -/
def mulByNonResidue (arg : E6) : E6 :=
  let a := Fp2.mulByNonResidue arg.C
  let b := arg.A
  let c := arg.B
  ⟨a, b, c⟩

/-- `pm1Div3` (crypto/core/curves/native/bls12381/fp6.go:200-210). -/
def pm1Div3 : E2 :=
  ⟨⟨0, 0, 0, 0, 0, 0⟩,
   ⟨0xcd03c9e48671f071, 0x5dab22461fcda5d2, 0x587042afd3851b95, 0x8eb60ebe01bacb9e, 0x03f97d6e83d050d2, 0x18f0206554638741⟩⟩

/-- `p2m2Div3` (crypto/core/curves/native/bls12381/fp6.go:211-221). -/
def p2m2Div3 : E2 :=
  ⟨⟨0x890dc9e4867545c3, 0x2af322533285a5d5, 0x50880866309b7e2c, 0xa20d1b8c7e881024, 0x14e4f04fe2db9068, 0x14e56d3f1564853a⟩,
   ⟨0, 0, 0, 0, 0, 0⟩⟩

/-- `FrobeniusMap` (crypto/core/curves/native/bls12381/fp6.go:198-236). -/
def frobeniusMap (arg : E6) : E6 :=
  let a := Fp2.frobeniusMap arg.A
  let b := Fp2.frobeniusMap arg.B
  let c := Fp2.frobeniusMap arg.C
  let b := Fp2.mul b pm1Div3
  let c := Fp2.mul c p2m2Div3
  ⟨a, b, c⟩

/-- `Square` (crypto/core/curves/native/bls12381/fp6.go:239-265). -/
def square (arg : E6) : E6 :=
  let s0 := Fp2.square arg.A
  let ab := Fp2.mul arg.A arg.B
  let s1 := Fp2.double ab
  let s2 := Fp2.sub arg.A arg.B
  let s2 := Fp2.add s2 arg.C
  let s2 := Fp2.square s2
  let bc := Fp2.mul arg.B arg.C
  let s3 := Fp2.double bc
  let s4 := Fp2.square arg.C
  let fA := Fp2.mulByNonResidue s3
  let fA := Fp2.add fA s0
  let fB := Fp2.mulByNonResidue s4
  let fB := Fp2.add fB s1
  let fC := Fp2.add s1 s2
  let fC := Fp2.add fC s3
  let fC := Fp2.sub fC s0
  let fC := Fp2.sub fC s4
  ⟨fA, fB, fC⟩

/-- `CMove` (crypto/core/curves/native/bls12381/fp6.go:335-340). -/
def cmove (arg1 arg2 : E6) (choice : UInt64) : E6 :=
  ⟨Fp2.cmove arg1.A arg2.A choice, Fp2.cmove arg1.B arg2.B choice, Fp2.cmove arg1.C arg2.C choice⟩

/-- `Invert` (crypto/core/curves/native/bls12381/fp6.go:268-310): the receiver's new value and the flag.  The inverse is computed into
`t`, which holds `a·a'` before; it keeps that value when there is no inverse. -/
def invert (out arg : E6) : E6 × UInt64 :=
  let a := Fp2.mul arg.B arg.C
  let a := Fp2.mulByNonResidue a
  let t := Fp2.square arg.A
  let a := Fp2.sub t a
  let b := Fp2.square arg.C
  let b := Fp2.mulByNonResidue b
  let t := Fp2.mul arg.A arg.B
  let b := Fp2.sub b t
  let c := Fp2.square arg.B
  let t := Fp2.mul arg.A arg.C
  let c := Fp2.sub c t
  let s := Fp2.mul arg.B c
  let t := Fp2.mul arg.C b
  let s := Fp2.add s t
  let s := Fp2.mulByNonResidue s
  let t := Fp2.mul arg.A a
  let s := Fp2.add s t
  let ti := Fp2.invert t s
  let t := ti.1
  let wasInverted := ti.2
  (⟨Fp2.cmove out.A (Fp2.mul a t) wasInverted, Fp2.cmove out.B (Fp2.mul b t) wasInverted,
    Fp2.cmove out.C (Fp2.mul c t) wasInverted⟩, wasInverted)

/-- `Neg` (crypto/core/curves/native/bls12381/fp6.go:313-318). -/
def neg (arg : E6) : E6 := ⟨Fp2.neg arg.A, Fp2.neg arg.B, Fp2.neg arg.C⟩

/-- `IsZero` (crypto/core/curves/native/bls12381/fp6.go:321-323). -/
def isZero (f : E6) : UInt64 := Fp2.isZero f.A &&& Fp2.isZero f.B &&& Fp2.isZero f.C

/-- `IsOne` (crypto/core/curves/native/bls12381/fp6.go:326-328): the second coordinate is tested twice, the third not at all. -/
def isOne (f : E6) : UInt64 := Fp2.isOne f.A &&& Fp2.isZero f.B &&& Fp2.isZero f.B

/-- `Equal` (crypto/core/curves/native/bls12381/fp6.go:331-333). -/
def equal (f rhs : E6) : UInt64 := Fp2.equal f.A rhs.A &&& Fp2.equal f.B rhs.B &&& Fp2.equal f.C rhs.C

/-! ## Meaning -/

/-- `1 + u`. -/
def ξ : K2 := ⟨1, 1⟩

theorem nr (x : K2) {a : E2} (ha : Rep2 a x) : Rep2 (Fp2.mulByNonResidue a) (x * ξ) := mulByNonResidue_spec ha

/-- The field of `p^6` elements: triples `c0 + c1·v + c2·v^2` with `v^3 = 1 + u`. -/
abbrev K6 := Cubic K2 ξ

/-- One third of `p - 1`. -/
def k3 : Nat := (Fp.p - 1) / 3

theorem k3_eq : Fp.p = 3 * k3 + 1 := by decide +kernel

theorem cube_power {F : Type*} [Field F] [Fintype F] {k : Nat} (hk : Fintype.card F = 3 * k + 1) {a : F} (ha : a ≠ 0)
    (h : a ^ k ≠ 1) (t : F) : t ^ 3 ≠ a := by
  intro e
  apply h
  have ht : t ≠ 0 := by
    intro h0; apply ha; rw [← e, h0]; ring
  rw [← e, ← pow_mul]
  have := FiniteField.pow_card_sub_one_eq_one t ht
  rwa [hk, Nat.add_sub_cancel] at this

theorem two_pow_k3 : (2 : ZMod Fp.p) ^ k3 ≠ 1 := by
  intro h
  have h2 := Primes.pw_spec Fp.p 400 2 k3 1 (by decide +kernel)
  rw [Nat.cast_one, one_mul, Nat.cast_ofNat, h, ← Nat.cast_one] at h2
  exact absurd ((ZMod.natCast_eq_natCast_iff' _ _ _).1 h2) (by decide +kernel)

theorem two_ne : (2 : ZMod Fp.p) ≠ 0 := by
  rw [← Nat.cast_ofNat]
  intro h
  exact absurd ((ZMod.natCast_eq_zero_iff 2 Fp.p).1 h) (by decide +kernel)

theorem norm_pow {R : Type*} [CommRing R] (t : QuadraticAlgebra R (-1) 0) (n : Nat) :
    QuadraticAlgebra.norm (t ^ n) = (QuadraticAlgebra.norm t) ^ n := map_pow _ _ _

theorem norm_one_one {R : Type*} [CommRing R] : QuadraticAlgebra.norm (⟨1, 1⟩ : QuadraticAlgebra R (-1) 0) = 2 := by
  rw [QuadraticAlgebra.norm_def]
  norm_num

theorem norm_xi : QuadraticAlgebra.norm ξ = 2 := norm_one_one

theorem xi_noncube (t : K2) : t ^ 3 ≠ ξ := by
  intro e
  have h := congrArg QuadraticAlgebra.norm e
  rw [norm_pow, norm_xi] at h
  exact cube_power (by rw [ZMod.card]; exact k3_eq) two_ne two_pow_k3 _ h

instance fact6 : Fact (∀ t : K2, t ^ 3 ≠ ξ) := ⟨xi_noncube⟩

/-- The components represent the coordinates. -/
def Rep6 (a : E6) (x : K6) : Prop := Rep2 a.A x.c0 ∧ Rep2 a.B x.c1 ∧ Rep2 a.C x.c2

attribute [local irreducible] Fp2.add Fp2.sub Fp2.mul Fp2.neg Fp2.square Fp2.double Fp2.invert Fp2.cmove Rep2 Fp2.mulByNonResidue
  Fp2.frobeniusMap

theorem mk6 {A B C : E2} {x : K6} {a b c : K2} (hA : Rep2 A a) (hB : Rep2 B b) (hC : Rep2 C c) (h0 : x.c0 = a) (h1 : x.c1 = b)
    (h2 : x.c2 = c) : Rep6 ⟨A, B, C⟩ x := ⟨h0 ▸ hA, h1 ▸ hB, h2 ▸ hC⟩

theorem rep6_unique {a b : E6} {x : K6} (ha : Rep6 a x) (hb : Rep6 b x) : a = b := by
  cases a; cases b
  rw [E6.mk.injEq]
  exact ⟨rep2_unique ha.1 hb.1, rep2_unique ha.2.1 hb.2.1, rep2_unique ha.2.2 hb.2.2⟩

theorem rep6_value {a : E6} {x y : K6} (hx : Rep6 a x) (hy : Rep6 a y) : x = y :=
  Cubic.ext (rep2_value hx.1 hy.1) (rep2_value hx.2.1 hy.2.1) (rep2_value hx.2.2 hy.2.2)

theorem zero_spec : Rep6 zero 0 := mk6 Fp2.zero_spec Fp2.zero_spec Fp2.zero_spec rfl rfl rfl
theorem one_spec : Rep6 one 1 := mk6 Fp2.one_spec Fp2.zero_spec Fp2.zero_spec rfl rfl rfl
theorem setFp2_spec {a : E2} {x : K2} (ha : Rep2 a x) : Rep6 (setFp2 a) (Cubic.emb x) :=
  mk6 ha Fp2.zero_spec Fp2.zero_spec rfl rfl rfl
theorem setFp_spec {a : L6} {x : ZMod Fp.p} (ha : Fp.Rep a x) : Rep6 (setFp a) (Cubic.emb ⟨x, 0⟩) :=
  mk6 (Fp2.setFp_spec ha) Fp2.zero_spec Fp2.zero_spec rfl rfl rfl

theorem mul_form {K : Type*} [CommRing K] {ξ : K} (x y : Cubic K ξ) :
    (x * y).c0 = ((y.c1 + y.c2) * (x.c1 + x.c2) - x.c1 * y.c1 - x.c2 * y.c2) * ξ + x.c0 * y.c0 ∧
    (x * y).c1 = (y.c0 + y.c1) * (x.c0 + x.c1) - x.c0 * y.c0 - x.c1 * y.c1 + x.c2 * y.c2 * ξ ∧
    (x * y).c2 = (y.c0 + y.c2) * (x.c0 + x.c2) - x.c0 * y.c0 + x.c1 * y.c1 - x.c2 * y.c2 := by
  rw [Cubic.c0_mul, Cubic.c1_mul, Cubic.c2_mul]
  exact ⟨by ring, by ring, by ring⟩

theorem mulByB_form {K : Type*} [CommRing K] {ξ : K} (x : Cubic K ξ) (b : K) :
    (x * ⟨0, b, 0⟩).c0 = ((x.c1 + x.c2) * b - x.c1 * b) * ξ ∧ (x * ⟨0, b, 0⟩).c1 = (x.c0 + x.c1) * b - x.c1 * b ∧
    (x * ⟨0, b, 0⟩).c2 = x.c1 * b := by
  rw [Cubic.c0_mul, Cubic.c1_mul, Cubic.c2_mul]
  exact ⟨by ring, by ring, by ring⟩

theorem mulByAB_form {K : Type*} [CommRing K] {ξ : K} (x : Cubic K ξ) (a b : K) :
    (x * ⟨a, b, 0⟩).c0 = ((x.c1 + x.c2) * b - x.c1 * b) * ξ + x.c0 * a ∧
    (x * ⟨a, b, 0⟩).c1 = (a + b) * (x.c0 + x.c1) - x.c0 * a - x.c1 * b ∧
    (x * ⟨a, b, 0⟩).c2 = (x.c0 + x.c2) * a - x.c0 * a + x.c1 * b := by
  rw [Cubic.c0_mul, Cubic.c1_mul, Cubic.c2_mul]
  exact ⟨by ring, by ring, by ring⟩

theorem mulV_form {K : Type*} [CommRing K] {ξ : K} (x : Cubic K ξ) :
    (x * Cubic.v).c0 = x.c2 * ξ ∧ (x * Cubic.v).c1 = x.c0 ∧ (x * Cubic.v).c2 = x.c1 := by
  rw [Cubic.c0_mul, Cubic.c1_mul, Cubic.c2_mul]
  unfold Cubic.v
  exact ⟨by ring, by ring, by ring⟩

theorem square_form {K : Type*} [CommRing K] {ξ : K} (x : Cubic K ξ) :
    (x * x).c0 = (x.c1 * x.c2 + x.c1 * x.c2) * ξ + x.c0 * x.c0 ∧
    (x * x).c1 = x.c2 * x.c2 * ξ + (x.c0 * x.c1 + x.c0 * x.c1) ∧
    (x * x).c2 = x.c0 * x.c1 + x.c0 * x.c1 + (x.c0 - x.c1 + x.c2) * (x.c0 - x.c1 + x.c2) + (x.c1 * x.c2 + x.c1 * x.c2)
      - x.c0 * x.c0 - x.c2 * x.c2 := by
  rw [Cubic.c0_mul, Cubic.c1_mul, Cubic.c2_mul]
  exact ⟨by ring, by ring, by ring⟩

theorem inv_form {K : Type*} [Field K] {ξ : K} (x : Cubic K ξ) :
    (x.c1 * (x.c1 * x.c1 - x.c0 * x.c2) + x.c2 * (x.c2 * x.c2 * ξ - x.c0 * x.c1)) * ξ + x.c0 * (x.c0 * x.c0 - x.c1 * x.c2 * ξ) =
      Cubic.norm x := by
  unfold Cubic.norm
  ring

theorem inv_coords {K : Type*} [Field K] {ξ : K} (x : Cubic K ξ) :
    (x⁻¹).c0 = (x.c0 * x.c0 - x.c1 * x.c2 * ξ) * (Cubic.norm x)⁻¹ ∧ (x⁻¹).c1 = (x.c2 * x.c2 * ξ - x.c0 * x.c1) * (Cubic.norm x)⁻¹ ∧
    (x⁻¹).c2 = (x.c1 * x.c1 - x.c0 * x.c2) * (Cubic.norm x)⁻¹ := by
  rw [Cubic.inv_def, Cubic.c0_mul, Cubic.c1_mul, Cubic.c2_mul, Cubic.c0_emb, Cubic.c1_emb, Cubic.c2_emb]
  unfold Cubic.adj
  exact ⟨by ring, by ring, by ring⟩

theorem ext_iff6 (x y : K6) : x = y ↔ (x.c0 = y.c0 ∧ x.c1 = y.c1) ∧ x.c2 = y.c2 :=
  ⟨fun h => h ▸ ⟨⟨rfl, rfl⟩, rfl⟩, fun h => Cubic.ext h.1.1 h.1.2 h.2⟩

section
variable {a b : E6} {x y : K6} (ha : Rep6 a x) (hb : Rep6 b y)
include ha

theorem isZero_spec : isZero a = if x = 0 then 1 else 0 := by
  unfold isZero
  rw [Fp2.isZero_spec ha.1, Fp2.isZero_spec ha.2.1, Fp2.isZero_spec ha.2.2, and_flags, and_flags]
  exact if_congr (ext_iff6 x 0).symm rfl rfl

/-- what `IsOne` tests -/
theorem isOne_spec : isOne a = if x.c0 = 1 ∧ x.c1 = 0 then 1 else 0 := by
  unfold isOne
  rw [Fp2.isOne_spec ha.1, Fp2.isZero_spec ha.2.1, and_flags, and_flags]
  exact if_congr ⟨fun h => h.1, fun h => ⟨h, h.2⟩⟩ rfl rfl

include hb in
theorem equal_spec : equal a b = if x = y then 1 else 0 := by
  unfold equal
  rw [Fp2.equal_spec ha.1 hb.1, Fp2.equal_spec ha.2.1 hb.2.1, Fp2.equal_spec ha.2.2 hb.2.2, and_flags, and_flags]
  exact if_congr (ext_iff6 x y).symm rfl rfl

theorem neg_spec : Rep6 (neg a) (-x) :=
  mk6 (Fp2.neg_spec ha.1) (Fp2.neg_spec ha.2.1) (Fp2.neg_spec ha.2.2) (Cubic.c0_neg x) (Cubic.c1_neg x) (Cubic.c2_neg x)

include hb in
theorem add_spec : Rep6 (add a b) (x + y) :=
  mk6 (Fp2.add_spec ha.1 hb.1) (Fp2.add_spec ha.2.1 hb.2.1) (Fp2.add_spec ha.2.2 hb.2.2) (Cubic.c0_add x y) (Cubic.c1_add x y)
    (Cubic.c2_add x y)

include hb in
theorem sub_spec : Rep6 (sub a b) (x - y) :=
  mk6 (Fp2.sub_spec ha.1 hb.1) (Fp2.sub_spec ha.2.1 hb.2.1) (Fp2.sub_spec ha.2.2 hb.2.2) (Cubic.c0_sub x y) (Cubic.c1_sub x y)
    (Cubic.c2_sub x y)

theorem double_spec : Rep6 (double a) (x + x) := add_spec ha ha

include hb in
theorem mul_spec : Rep6 (mul a b) (x * y) := by
  have haa := Fp2.mul_spec ha.1 hb.1
  have hbb := Fp2.mul_spec ha.2.1 hb.2.1
  have hcc := Fp2.mul_spec ha.2.2 hb.2.2
  have h1 := Fp2.add_spec (nr _ (Fp2.sub_spec (Fp2.sub_spec (Fp2.mul_spec (Fp2.add_spec hb.2.1 hb.2.2) (Fp2.add_spec ha.2.1 ha.2.2)) hbb)
    hcc)) haa
  have h3 := Fp2.sub_spec (Fp2.add_spec (Fp2.sub_spec (Fp2.mul_spec (Fp2.add_spec hb.1 hb.2.2) (Fp2.add_spec ha.1 ha.2.2)) haa) hbb) hcc
  have h2 := Fp2.add_spec (Fp2.sub_spec (Fp2.sub_spec (Fp2.mul_spec (Fp2.add_spec hb.1 hb.2.1) (Fp2.add_spec ha.1 ha.2.1)) haa) hbb)
    (nr _ hcc)
  exact mk6 h1 h2 h3 (mul_form x y).1 (mul_form x y).2.1 (mul_form x y).2.2

theorem mulByB_spec {e : E2} {w : K2} (he : Rep2 e w) : Rep6 (mulByB a e) (x * ⟨0, w, 0⟩) := by
  have hbB := Fp2.mul_spec ha.2.1 he
  have h1 := nr _ (Fp2.sub_spec (Fp2.mul_spec (Fp2.add_spec ha.2.1 ha.2.2) he) hbB)
  have h2 := Fp2.sub_spec (Fp2.mul_spec (Fp2.add_spec ha.1 ha.2.1) he) hbB
  exact mk6 h1 h2 hbB (mulByB_form x w).1 (mulByB_form x w).2.1 (mulByB_form x w).2.2

theorem mulByAB_spec {c e : E2} {z w : K2} (hc : Rep2 c z) (he : Rep2 e w) : Rep6 (mulByAB a c e) (x * ⟨z, w, 0⟩) := by
  have haA := Fp2.mul_spec ha.1 hc
  have hbB := Fp2.mul_spec ha.2.1 he
  have h1 := Fp2.add_spec (nr _ (Fp2.sub_spec (Fp2.mul_spec (Fp2.add_spec ha.2.1 ha.2.2) he) hbB)) haA
  have h2 := Fp2.sub_spec (Fp2.sub_spec (Fp2.mul_spec (Fp2.add_spec hc he) (Fp2.add_spec ha.1 ha.2.1)) haA) hbB
  have h3 := Fp2.add_spec (Fp2.sub_spec (Fp2.mul_spec (Fp2.add_spec ha.1 ha.2.2) hc) haA) hbB
  exact mk6 h1 h2 h3 (mulByAB_form x z w).1 (mulByAB_form x z w).2.1 (mulByAB_form x z w).2.2

theorem mulByNonResidue_spec : Rep6 (mulByNonResidue a) (x * Cubic.v) :=
  mk6 (nr _ ha.2.2) ha.1 ha.2.1 (mulV_form x).1 (mulV_form x).2.1 (mulV_form x).2.2

theorem square_spec : Rep6 (square a) (x * x) := by
  have h0 := Fp2.square_spec ha.1
  have h1 := Fp2.double_spec (Fp2.mul_spec ha.1 ha.2.1)
  have h2 := Fp2.square_spec (Fp2.add_spec (Fp2.sub_spec ha.1 ha.2.1) ha.2.2)
  have h3 := Fp2.double_spec (Fp2.mul_spec ha.2.1 ha.2.2)
  have h4 := Fp2.square_spec ha.2.2
  exact mk6 (Fp2.add_spec (nr _ h3) h0) (Fp2.add_spec (nr _ h4) h1)
    (Fp2.sub_spec (Fp2.sub_spec (Fp2.add_spec (Fp2.add_spec h1 h2) h3) h0) h4) (square_form x).1 (square_form x).2.1 (square_form x).2.2

theorem invert_spec (out : E6) :
    (x ≠ 0 → Rep6 (invert out a).1 x⁻¹ ∧ (invert out a).2 = 1) ∧ (x = 0 → invert out a = (out, 0)) := by
  have h1 := Fp2.sub_spec (Fp2.square_spec ha.1) (nr _ (Fp2.mul_spec ha.2.1 ha.2.2))
  have h2 := Fp2.sub_spec (nr _ (Fp2.square_spec ha.2.2)) (Fp2.mul_spec ha.1 ha.2.1)
  have h3 := Fp2.sub_spec (Fp2.square_spec ha.2.1) (Fp2.mul_spec ha.1 ha.2.2)
  have ht := Fp2.mul_spec ha.1 h1
  have hs := Fp2.add_spec (nr _ (Fp2.add_spec (Fp2.mul_spec ha.2.1 h3) (Fp2.mul_spec ha.2.2 h2))) ht
  rw [inv_form x] at hs
  unfold invert
  dsimp only
  constructor
  · intro hx
    have hn : Cubic.norm x ≠ 0 := fun e => hx ((Cubic.norm_eq_zero xi_noncube x).1 e)
    have hi := (Fp2.invert_spec (Fp2.mul a.A (Fp2.sub (Fp2.square a.A) (Fp2.mulByNonResidue (Fp2.mul a.B a.C)))) hs).1 hn
    rw [hi.2, Fp2.cmove_one, Fp2.cmove_one, Fp2.cmove_one]
    exact ⟨mk6 (Fp2.mul_spec h1 hi.1) (Fp2.mul_spec h2 hi.1) (Fp2.mul_spec h3 hi.1) (inv_coords x).1 (inv_coords x).2.1
      (inv_coords x).2.2, rfl⟩
  · intro hx
    have hn : Cubic.norm x = 0 := (Cubic.norm_eq_zero xi_noncube x).2 hx
    have hi := (Fp2.invert_spec (Fp2.mul a.A (Fp2.sub (Fp2.square a.A) (Fp2.mulByNonResidue (Fp2.mul a.B a.C)))) hs).2 hn
    rw [hi, Fp2.cmove_zero, Fp2.cmove_zero, Fp2.cmove_zero]

end

theorem cmove_zero (a b : E6) : cmove a b 0 = a := by
  unfold cmove
  rw [Fp2.cmove_zero, Fp2.cmove_zero, Fp2.cmove_zero]

theorem cmove_one (a b : E6) : cmove a b 1 = b := by
  unfold cmove
  rw [Fp2.cmove_one, Fp2.cmove_one, Fp2.cmove_one]

/-! ## The Frobenius constants -/

/-- Powers in the quadratic extension, on pairs of naturals (square and multiply, low bit first). -/
def pw2 (m : Nat) : Nat → Nat × Nat → Nat → Nat × Nat → Nat × Nat
  | 0, _, _, acc => acc
  | f + 1, b, e, acc =>
    pw2 m f ((b.1 * b.1 + (m - 1) * (b.2 * b.2)) % m, (b.1 * b.2 + b.2 * b.1) % m) (e / 2)
      (if e % 2 = 1 then ((acc.1 * b.1 + (m - 1) * (acc.2 * b.2)) % m, (acc.1 * b.2 + acc.2 * b.1) % m) else acc)

/-- The element denoted by a pair. -/
def el (m : Nat) (b : Nat × Nat) : QuadraticAlgebra (ZMod m) (-1) 0 := ⟨(b.1 : ZMod m), (b.2 : ZMod m)⟩

theorem el_mul (m : Nat) (hm : 0 < m) (a b : Nat × Nat) :
    el m ((a.1 * b.1 + (m - 1) * (a.2 * b.2)) % m, (a.1 * b.2 + a.2 * b.1) % m) = el m a * el m b := by
  have h : ((m - 1 : Nat) : ZMod m) = -1 := by
    rw [Nat.cast_sub hm, ZMod.natCast_self, zero_sub, Nat.cast_one]
  unfold el
  ext
  · simp only [ZMod.natCast_mod, Nat.cast_add, Nat.cast_mul, h, QuadraticAlgebra.re_mul]
    ring
  · simp only [ZMod.natCast_mod, Nat.cast_add, Nat.cast_mul, QuadraticAlgebra.im_mul]
    ring

theorem pw2_spec (m : Nat) (hm : 0 < m) (f : Nat) : ∀ b e acc, e < 2 ^ f → el m (pw2 m f b e acc) = el m acc * el m b ^ e := by
  induction f with
  | zero =>
    intro b e acc he
    have : e = 0 := by simpa using he
    rw [this, pw2, pow_zero, mul_one]
  | succ f ih =>
    intro b e acc he
    rw [pw2, ih _ _ _ (by rw [pow_succ] at he; omega), el_mul m hm]
    by_cases h : e % 2 = 1
    · rw [if_pos h, el_mul m hm]
      conv_rhs => rw [show e = 2 * (e / 2) + 1 by omega, pow_succ, pow_mul, pow_two]
      ring
    · rw [if_neg h]
      conv_rhs => rw [show e = 2 * (e / 2) by omega, pow_mul, pow_two]

theorem rep_check (a : L6) (n : Nat) (h : a.val = n * 2 ^ 384 % Fp.p) : Fp.Rep a (n : ZMod Fp.p) := by
  constructor
  · rw [h]; exact Nat.mod_lt _ (by decide +kernel)
  · rw [h, ZMod.natCast_mod, Nat.cast_mul, Fp.two384]

theorem rep2_check (a : E2) (b : Nat × Nat) (h : a.A.val = b.1 * 2 ^ 384 % Fp.p ∧ a.B.val = b.2 * 2 ^ 384 % Fp.p) : Rep2 a (el Fp.p b) := by
  cases a
  exact mk2 (rep_check _ _ h.1) (rep_check _ _ h.2) rfl rfl

theorem xi_el : ξ = el Fp.p (1, 1) := by
  unfold ξ el
  rw [Nat.cast_one]

theorem xi_pow (k : Nat) (hk : k < 2 ^ 400) : ξ ^ k = el Fp.p (pw2 Fp.p 400 (1, 1) k (1, 0)) := by
  rw [pw2_spec Fp.p (by decide +kernel) 400 _ _ _ hk, ← xi_el]
  have : el Fp.p (1, 0) = 1 := by
    unfold el
    rw [Nat.cast_one, Nat.cast_zero]
    rfl
  rw [this, one_mul]

theorem pm1Div3_rep : Rep2 pm1Div3 (ξ ^ k3) := by
  rw [xi_pow k3 (by decide +kernel)]
  exact rep2_check _ _ (by decide +kernel)

theorem p2m2Div3_rep : Rep2 p2m2Div3 (ξ ^ k3 * ξ ^ k3) := by
  have h := Fp2.mul_spec pm1Div3_rep pm1Div3_rep
  have e : Fp2.mul pm1Div3 pm1Div3 = p2m2Div3 := by decide +kernel
  rwa [e] at h

theorem frobenius_spec {a : E6} {x : K6} (ha : Rep6 a x) : Rep6 (frobeniusMap a) (x ^ Fp.p) := by
  have h := Cubic.frob (K := K2) (ξ := ξ) (p := Fp.p) (k := k3) k3_eq x
  have e : Rep6 (frobeniusMap a) (⟨x.c0 ^ Fp.p, x.c1 ^ Fp.p * ξ ^ k3, x.c2 ^ Fp.p * (ξ ^ k3 * ξ ^ k3)⟩ : K6) :=
    mk6 (Fp2.frobenius_spec ha.1) (Fp2.mul_spec (Fp2.frobenius_spec ha.2.1) pm1Div3_rep)
      (Fp2.mul_spec (Fp2.frobenius_spec ha.2.2) p2m2Div3_rep) rfl rfl rfl
  rw [← h] at e
  exact e

end Verif.Bls381.Fp6
