import Verif.Bls381.Fp6
import Mathlib.NumberTheory.LegendreSymbol.QuadraticReciprocity

/-!
The target field of BLS12-381 (crypto/core/curves/native/bls12381/fp12.go).
-/
set_option linter.unusedSectionVars false
set_option exponentiation.threshold 1000
namespace Verif.Bls381.Fp12

open Verif.Native Verif.Bls381.Fp2 Verif.Bls381.Fp6

/-- `fp12` (crypto/core/curves/native/bls12381/fp12.go:6-8): `A + B·w`. -/
structure E12 where
  A : E6
  B : E6
deriving DecidableEq

/-- `SetFp` (crypto/core/curves/native/bls12381/fp12.go:11-15). -/
def setFp (a : L6) : E12 := ⟨Fp6.setFp a, Fp6.zero⟩

/-- `SetFp2` (crypto/core/curves/native/bls12381/fp12.go:18-22). -/
def setFp2 (a : E2) : E12 := ⟨Fp6.setFp2 a, Fp6.zero⟩

/-- `SetFp6` (crypto/core/curves/native/bls12381/fp12.go:25-29). -/
def setFp6 (a : E6) : E12 := ⟨a, Fp6.zero⟩

/-- `SetZero` (crypto/core/curves/native/bls12381/fp12.go:39-43). -/
def zero : E12 := ⟨Fp6.zero, Fp6.zero⟩

/-- `SetOne` (crypto/core/curves/native/bls12381/fp12.go:46-50). -/
def one : E12 := ⟨Fp6.one, Fp6.zero⟩

/-- `Square` (crypto/core/curves/native/bls12381/fp12.go:68-87). -/
def square (arg : E12) : E12 :=
  let ab := Fp6.mul arg.A arg.B
  let apb := Fp6.add arg.A arg.B
  let aTick := Fp6.mulByNonResidue arg.B
  let aTick := Fp6.add aTick arg.A
  let aTick := Fp6.mul aTick apb
  let aTick := Fp6.sub aTick ab
  let t := Fp6.mulByNonResidue ab
  let aTick := Fp6.sub aTick t
  let bTick := Fp6.double ab
  ⟨aTick, bTick⟩

/-- `Invert` (crypto/core/curves/native/bls12381/fp12.go:90-104): the receiver's new value and the flag; `var t fp6` is zero. -/
def invert (out arg : E12) : E12 × UInt64 :=
  let a := Fp6.square arg.A
  let b := Fp6.square arg.B
  let b := Fp6.mulByNonResidue b
  let a := Fp6.sub a b
  let ti := Fp6.invert Fp6.zero a
  let t := ti.1
  let wasInverted := ti.2
  let a := Fp6.mul arg.A t
  let t := Fp6.neg t
  let b := Fp6.mul arg.B t
  (⟨Fp6.cmove out.A a wasInverted, Fp6.cmove out.B b wasInverted⟩, wasInverted)

/-- `Add` (crypto/core/curves/native/bls12381/fp12.go:107-111). -/
def add (arg1 arg2 : E12) : E12 := ⟨Fp6.add arg1.A arg2.A, Fp6.add arg1.B arg2.B⟩

/-- `Sub` (crypto/core/curves/native/bls12381/fp12.go:114-118). -/
def sub (arg1 arg2 : E12) : E12 := ⟨Fp6.sub arg1.A arg2.A, Fp6.sub arg1.B arg2.B⟩

/-- `Mul` (crypto/core/curves/native/bls12381/fp12.go:121-137). -/
def mul (arg1 arg2 : E12) : E12 :=
  let aa := Fp6.mul arg1.A arg2.A
  let bb := Fp6.mul arg1.B arg2.B
  let a2b2 := Fp6.add arg2.A arg2.B
  let b := Fp6.add arg1.A arg1.B
  let b := Fp6.mul b a2b2
  let b := Fp6.sub b aa
  let b := Fp6.sub b bb
  let a := Fp6.mulByNonResidue bb
  let a := Fp6.add a aa
  ⟨a, b⟩

/-- `Neg` (crypto/core/curves/native/bls12381/fp12.go:140-144). -/
def neg (arg : E12) : E12 := ⟨Fp6.neg arg.A, Fp6.neg arg.B⟩

/-- `MulByABD` (crypto/core/curves/native/bls12381/fp12.go:147-168). -/
def mulByABD (arg : E12) (a b d : E2) : E12 :=
  let aa := Fp6.mulByAB arg.A a b
  let bb := Fp6.mulByB arg.B d
  let bd := Fp2.add b d
  let bTick := Fp6.add arg.A arg.B
  let bTick := Fp6.mulByAB bTick a bd
  let bTick := Fp6.sub bTick aa
  let bTick := Fp6.sub bTick bb
  let aTick := Fp6.mulByNonResidue bb
  let aTick := Fp6.add aTick aa
  ⟨aTick, bTick⟩

/-- `Conjugate` (crypto/core/curves/native/bls12381/fp12.go:171-175). -/
def conjugate (arg : E12) : E12 := ⟨arg.A, Fp6.neg arg.B⟩

/-- `up1epm1div6` (crypto/core/curves/native/bls12381/fp12.go:182-199): the other coordinates are zero. -/
def up1epm1div6 : E6 :=
  ⟨⟨⟨0x07089552b319d465, 0xc6695f92b50a8313, 0x97e83cccd117228f, 0xa35baecab2dc29ee, 0x1ce393ea5daace4d, 0x08f2220fb0fb66eb⟩,
    ⟨0xb2f66aad4ce5d646, 0x5842a06bfc497cec, 0xcf4895d42599d394, 0xc11b9cba40a8e8d0, 0x2e3813cbe5a0de89, 0x110eefda88847faf⟩⟩,
   ⟨⟨0, 0, 0, 0, 0, 0⟩, ⟨0, 0, 0, 0, 0, 0⟩⟩, ⟨⟨0, 0, 0, 0, 0, 0⟩, ⟨0, 0, 0, 0, 0, 0⟩⟩⟩

/-- `FrobeniusMap` (crypto/core/curves/native/bls12381/fp12.go:178-210). -/
def frobeniusMap (arg : E12) : E12 :=
  let a := Fp6.frobeniusMap arg.A
  let b := Fp6.frobeniusMap arg.B
  let b := Fp6.mul b up1epm1div6
  ⟨a, b⟩

/-- `Equal` (crypto/core/curves/native/bls12381/fp12.go:213-215). -/
def equal (f rhs : E12) : UInt64 := Fp6.equal f.A rhs.A &&& Fp6.equal f.B rhs.B

/-- `IsZero` (crypto/core/curves/native/bls12381/fp12.go:218-220). -/
def isZero (f : E12) : UInt64 := Fp6.isZero f.A &&& Fp6.isZero f.B

/-- `IsOne` (crypto/core/curves/native/bls12381/fp12.go:223-225). -/
def isOne (f : E12) : UInt64 := Fp6.isOne f.A &&& Fp6.isZero f.B

/-- `CMove` (crypto/core/curves/native/bls12381/fp12.go:229-233). -/
def cmove (arg1 arg2 : E12) (choice : UInt64) : E12 := ⟨Fp6.cmove arg1.A arg2.A choice, Fp6.cmove arg1.B arg2.B choice⟩

/-! ## Meaning -/

/-- The cube root of `1 + u` in the sextic field. -/
def vv : K6 := Cubic.v

/-- The field of `p^12` elements: pairs `re + im·w` with `w^2 = v`. -/
abbrev K12 := QuadraticAlgebra K6 vv 0

theorem norm6_pow {K : Type*} [CommRing K] {ξ : K} (x : Cubic K ξ) : Cubic.norm (x ^ 2) = Cubic.norm x ^ 2 := by
  rw [pow_two, Cubic.norm_mul, pow_two]

theorem norm_v {K : Type*} [CommRing K] {ξ : K} : Cubic.norm (Cubic.v : Cubic K ξ) = ξ := by
  unfold Cubic.norm Cubic.v
  ring

theorem v_nonsquare (r : K6) : r ^ 2 ≠ vv := by
  intro e
  have h := congrArg Cubic.norm e
  unfold vv at h
  rw [norm6_pow, norm_v] at h
  have h2 := congrArg QuadraticAlgebra.norm h
  rw [Fp6.norm_pow, norm_xi] at h2
  have h3 : IsSquare (2 : ZMod Fp.p) := ⟨_, by rw [← pow_two]; exact h2.symm⟩
  have h4 := (ZMod.exists_sq_eq_two_iff (p := Fp.p) (by decide +kernel)).1 h3
  exact absurd h4 (by decide +kernel)

instance fact12 : Fact (∀ r : K6, r ^ 2 ≠ vv + 0 * r) := ⟨fun r => by rw [zero_mul, add_zero]; exact v_nonsquare r⟩

/-- The components represent the coordinates. -/
def Rep12 (a : E12) (x : K12) : Prop := Rep6 a.A x.re ∧ Rep6 a.B x.im

attribute [local irreducible] Fp6.add Fp6.sub Fp6.mul Fp6.neg Fp6.square Fp6.double Fp6.invert Fp6.cmove Rep6 Fp6.mulByNonResidue
  Fp6.frobeniusMap Fp6.mulByAB Fp6.mulByB Fp2.add Rep2

theorem mk12 {A B : E6} {x : K12} {a b : K6} (hA : Rep6 A a) (hB : Rep6 B b) (h0 : x.re = a) (h1 : x.im = b) : Rep12 ⟨A, B⟩ x :=
  ⟨h0 ▸ hA, h1 ▸ hB⟩

theorem rep12_unique {a b : E12} {x : K12} (ha : Rep12 a x) (hb : Rep12 b x) : a = b := by
  cases a; cases b
  exact congrArg₂ E12.mk (rep6_unique ha.1 hb.1) (rep6_unique ha.2 hb.2)

theorem rep12_value {a : E12} {x y : K12} (hx : Rep12 a x) (hy : Rep12 a y) : x = y :=
  QuadraticAlgebra.ext (rep6_value hx.1 hy.1) (rep6_value hx.2 hy.2)

theorem zero_spec : Rep12 zero 0 := mk12 Fp6.zero_spec Fp6.zero_spec QuadraticAlgebra.re_zero QuadraticAlgebra.im_zero
theorem one_spec : Rep12 one 1 := mk12 Fp6.one_spec Fp6.zero_spec QuadraticAlgebra.re_one QuadraticAlgebra.im_one

theorem nr6 (x : K6) {a : E6} (ha : Rep6 a x) : Rep6 (Fp6.mulByNonResidue a) (x * vv) := Fp6.mulByNonResidue_spec ha

section forms
variable {R : Type*} [CommRing R] {t : R}

theorem sq_form (x : QuadraticAlgebra R t 0) :
    (x * x).re = (x.im * t + x.re) * (x.re + x.im) - x.re * x.im - x.re * x.im * t ∧ (x * x).im = x.re * x.im + x.re * x.im := by
  rw [QuadraticAlgebra.re_mul, QuadraticAlgebra.im_mul]
  exact ⟨by ring, by ring⟩

theorem mul_form (x y : QuadraticAlgebra R t 0) :
    (x * y).re = x.im * y.im * t + x.re * y.re ∧
      (x * y).im = (x.re + x.im) * (y.re + y.im) - x.re * y.re - x.im * y.im := by
  rw [QuadraticAlgebra.re_mul, QuadraticAlgebra.im_mul]
  exact ⟨by ring, by ring⟩

theorem inv_form {K : Type*} [Field K] {t : K} [Fact (∀ r : K, r ^ 2 ≠ t + 0 * r)] (x : QuadraticAlgebra K t 0) :
    (x⁻¹).re = x.re * (x.re * x.re - x.im * x.im * t)⁻¹ ∧ (x⁻¹).im = x.im * -(x.re * x.re - x.im * x.im * t)⁻¹ := by
  have h : QuadraticAlgebra.norm x = x.re * x.re - x.im * x.im * t := by rw [QuadraticAlgebra.norm_def]; ring
  rw [QuadraticAlgebra.inv_def, h]
  constructor
  · simp; ring
  · simp; ring

theorem norm_zero_iff {K : Type*} [Field K] {t : K} [Fact (∀ r : K, r ^ 2 ≠ t + 0 * r)] (x : QuadraticAlgebra K t 0) :
    x.re * x.re - x.im * x.im * t = 0 ↔ x = 0 := by
  rw [← QuadraticAlgebra.norm_eq_zero_iff_eq_zero, QuadraticAlgebra.norm_def]
  have : x.re * x.re + 0 * x.re * x.im - t * x.im * x.im = x.re * x.re - x.im * x.im * t := by ring
  rw [this]

theorem add_cub {K : Type*} [CommRing K] {ξ : K} (a b d : K) : (⟨a, b, 0⟩ + ⟨0, d, 0⟩ : Cubic K ξ) = ⟨a, b + d, 0⟩ := by
  ext <;> simp

theorem abd_form {K : Type*} [CommRing K] {ξ : K} {t : Cubic K ξ} (x : QuadraticAlgebra (Cubic K ξ) t 0) (a b d : K) :
    (x * ⟨⟨a, b, 0⟩, ⟨0, d, 0⟩⟩).re = x.im * ⟨0, d, 0⟩ * t + x.re * ⟨a, b, 0⟩ ∧
    (x * ⟨⟨a, b, 0⟩, ⟨0, d, 0⟩⟩).im = (x.re + x.im) * ⟨a, b + d, 0⟩ - x.re * ⟨a, b, 0⟩ - x.im * ⟨0, d, 0⟩ := by
  rw [QuadraticAlgebra.re_mul, QuadraticAlgebra.im_mul, ← add_cub]
  exact ⟨by ring, by ring⟩

theorem w_pow (p k : Nat) (hk : p = 2 * k + 1) : (⟨0, 1⟩ : QuadraticAlgebra R t 0) ^ p = ⟨0, t ^ k⟩ := by
  have h2 : (⟨0, 1⟩ : QuadraticAlgebra R t 0) ^ 2 = algebraMap R _ t := by
    rw [pow_two]; ext <;> simp
  rw [hk, pow_succ, pow_mul, h2, ← map_pow]
  ext <;> simp [-map_pow]

/-- the `p`-th power, for `p = 2k + 1` -/
theorem frob12 {p k : Nat} [Fact p.Prime] [CharP R p] (hk : p = 2 * k + 1) (x : QuadraticAlgebra R t 0) :
    (x ^ p).re = x.re ^ p ∧ (x ^ p).im = x.im ^ p * t ^ k := by
  have : CharP (QuadraticAlgebra R t 0) p :=
    charP_of_injective_algebraMap (QuadraticAlgebra.algebraMap_injective (R := R) (a := t) (b := 0)) p
  have hs : x = algebraMap R (QuadraticAlgebra R t 0) x.re + algebraMap R (QuadraticAlgebra R t 0) x.im * ⟨0, 1⟩ := by
    ext <;> simp
  have h : x ^ p = algebraMap R (QuadraticAlgebra R t 0) (x.re ^ p) + algebraMap R (QuadraticAlgebra R t 0) (x.im ^ p) * ⟨0, t ^ k⟩ := by
    conv_lhs => rw [hs]
    rw [add_pow_char, mul_pow, ← map_pow, ← map_pow, w_pow p k hk]
  rw [h]
  constructor <;> simp [-map_pow]

end forms

theorem ext_iff12 (x y : K12) : x = y ↔ x.re = y.re ∧ x.im = y.im :=
  ⟨fun h => h ▸ ⟨rfl, rfl⟩, fun h => QuadraticAlgebra.ext h.1 h.2⟩

section
variable {a b : E12} {x y : K12} (ha : Rep12 a x) (hb : Rep12 b y)
include ha

theorem isZero_spec : isZero a = if x = 0 then 1 else 0 := by
  unfold isZero
  rw [Fp6.isZero_spec ha.1, Fp6.isZero_spec ha.2, and_flags]
  exact if_congr (ext_iff12 x 0).symm rfl rfl

/-- what `IsOne` tests -/
theorem isOne_spec : isOne a = if (x.re.c0 = 1 ∧ x.re.c1 = 0) ∧ x.im = 0 then 1 else 0 := by
  unfold isOne
  rw [Fp6.isOne_spec ha.1, Fp6.isZero_spec ha.2, and_flags]

include hb in
theorem equal_spec : equal a b = if x = y then 1 else 0 := by
  unfold equal
  rw [Fp6.equal_spec ha.1 hb.1, Fp6.equal_spec ha.2 hb.2, and_flags]
  exact if_congr (ext_iff12 x y).symm rfl rfl

theorem neg_spec : Rep12 (neg a) (-x) := mk12 (Fp6.neg_spec ha.1) (Fp6.neg_spec ha.2) (QuadraticAlgebra.re_neg x) (QuadraticAlgebra.im_neg x)

include hb in
theorem add_spec : Rep12 (add a b) (x + y) :=
  mk12 (Fp6.add_spec ha.1 hb.1) (Fp6.add_spec ha.2 hb.2) (QuadraticAlgebra.re_add x y) (QuadraticAlgebra.im_add x y)

include hb in
theorem sub_spec : Rep12 (sub a b) (x - y) :=
  mk12 (Fp6.sub_spec ha.1 hb.1) (Fp6.sub_spec ha.2 hb.2) (QuadraticAlgebra.re_sub x y) (QuadraticAlgebra.im_sub x y)

include hb in
theorem mul_spec : Rep12 (mul a b) (x * y) := by
  have haa := Fp6.mul_spec ha.1 hb.1
  have hbb := Fp6.mul_spec ha.2 hb.2
  exact mk12 (Fp6.add_spec (nr6 _ hbb) haa)
    (Fp6.sub_spec (Fp6.sub_spec (Fp6.mul_spec (Fp6.add_spec ha.1 ha.2) (Fp6.add_spec hb.1 hb.2)) haa) hbb) (mul_form x y).1 (mul_form x y).2

theorem square_spec : Rep12 (square a) (x * x) := by
  have hab := Fp6.mul_spec ha.1 ha.2
  exact mk12 (Fp6.sub_spec (Fp6.sub_spec (Fp6.mul_spec (Fp6.add_spec (nr6 _ ha.2) ha.1) (Fp6.add_spec ha.1 ha.2)) hab) (nr6 _ hab))
    (Fp6.double_spec hab) (sq_form x).1 (sq_form x).2

theorem mulByABD_spec {c e d : E2} {z s r : K2} (hc : Rep2 c z) (he : Rep2 e s) (hd : Rep2 d r) :
    Rep12 (mulByABD a c e d) (x * ⟨⟨z, s, 0⟩, ⟨0, r, 0⟩⟩) := by
  have haa := Fp6.mulByAB_spec ha.1 hc he
  have hbb := Fp6.mulByB_spec ha.2 hd
  exact mk12 (Fp6.add_spec (nr6 _ hbb) haa)
    (Fp6.sub_spec (Fp6.sub_spec (Fp6.mulByAB_spec (Fp6.add_spec ha.1 ha.2) hc (Fp2.add_spec he hd)) haa) hbb)
    (abd_form x z s r).1 (abd_form x z s r).2

theorem conjugate_spec : Rep12 (conjugate a) ⟨x.re, -x.im⟩ := mk12 ha.1 (Fp6.neg_spec ha.2) rfl rfl

theorem invert_spec (out : E12) :
    (x ≠ 0 → Rep12 (invert out a).1 x⁻¹ ∧ (invert out a).2 = 1) ∧ (x = 0 → invert out a = (out, 0)) := by
  have h1 := Fp6.sub_spec (Fp6.square_spec ha.1) (nr6 _ (Fp6.square_spec ha.2))
  unfold invert
  dsimp only
  constructor
  · intro hx
    have hn := fun e => hx ((norm_zero_iff x).1 e)
    have hi := (Fp6.invert_spec h1 Fp6.zero).1 hn
    rw [hi.2, Fp6.cmove_one, Fp6.cmove_one]
    have hA := Fp6.mul_spec ha.1 hi.1
    have hB := Fp6.mul_spec ha.2 (Fp6.neg_spec hi.1)
    refine ⟨mk12 hA hB ?_ ?_, rfl⟩
    · rw [(inv_form x).1]
    · rw [(inv_form x).2]
  · intro hx
    have hi := (Fp6.invert_spec h1 Fp6.zero).2 ((norm_zero_iff x).2 hx)
    rw [hi, Fp6.cmove_zero, Fp6.cmove_zero]

end

theorem cmove_zero (a b : E12) : cmove a b 0 = a := by
  unfold cmove
  rw [Fp6.cmove_zero, Fp6.cmove_zero]

theorem cmove_one (a b : E12) : cmove a b 1 = b := by
  unfold cmove
  rw [Fp6.cmove_one, Fp6.cmove_one]

/-- One sixth of `p - 1`. -/
def k6 : Nat := (Fp.p - 1) / 6

theorem k6_eq : Fp.p = 2 * (3 * k6) + 1 := by decide +kernel

theorem vpow {K : Type*} [CommRing K] {ξ : K} (k : Nat) : (Cubic.v : Cubic K ξ) ^ (3 * k) = Cubic.emb (ξ ^ k) := by
  rw [pow_mul, Cubic.v_cubed, map_pow]

theorem up1_rep : Rep6 up1epm1div6 (vv ^ (3 * k6)) := by
  have h : Rep2 up1epm1div6.A (ξ ^ k6) := by
    rw [xi_pow k6 (by decide +kernel)]
    exact rep2_check _ _ (by decide +kernel)
  have e : vv ^ (3 * k6) = Cubic.emb (ξ ^ k6) := vpow k6
  rw [e]
  exact mk6 h Fp2.zero_spec Fp2.zero_spec rfl rfl rfl

theorem frobenius_spec {a : E12} {x : K12} (ha : Rep12 a x) : Rep12 (frobeniusMap a) (x ^ Fp.p) := by
  have h := frob12 (R := K6) (t := vv) (p := Fp.p) (k := 3 * k6) k6_eq x
  have hA := Fp6.frobenius_spec ha.1
  have hB := Fp6.mul_spec (Fp6.frobenius_spec ha.2) up1_rep
  refine mk12 hA hB ?_ ?_
  · rw [h.1]
  · rw [h.2]

end Verif.Bls381.Fp12
