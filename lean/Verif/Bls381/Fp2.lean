import Verif.Bls381.Fp
import Verif.Bls381.Quad

/-!
The quadratic extension of BLS12-381 (crypto/core/curves/native/bls12381/fp2.go).  Methods write the receiver; where the old value of
the receiver matters it is the first argument (`out`).  `Set` and `Random` are not separate definitions here.
-/
set_option linter.unusedSectionVars false
set_option exponentiation.threshold 1000
namespace Verif.Bls381.Fp2

open Verif.Native Verif.Bytes

/-- `fp2` (crypto/core/curves/native/bls12381/fp2.go:8-10): `A + B·u`. -/
structure E2 where
  A : L6
  B : L6
deriving DecidableEq

/-- `SetZero` (crypto/core/curves/native/bls12381/fp2.go:20-24). -/
def zero : E2 := ⟨Fp.zero, Fp.zero⟩

/-- `SetOne` (crypto/core/curves/native/bls12381/fp2.go:27-31). -/
def one : E2 := ⟨Fp.one, Fp.zero⟩

/-- `SetFp` (crypto/core/curves/native/bls12381/fp2.go:34-38). -/
def setFp (a : L6) : E2 := ⟨a, Fp.zero⟩

/-- `IsZero` (crypto/core/curves/native/bls12381/fp2.go:56-58). -/
def isZero (f : E2) : UInt64 := Fp.isZero f.A &&& Fp.isZero f.B

/-- `IsOne` (crypto/core/curves/native/bls12381/fp2.go:61-63). -/
def isOne (f : E2) : UInt64 := Fp.isOne f.A &&& Fp.isZero f.B

/-- `Equal` (crypto/core/curves/native/bls12381/fp2.go:66-68). -/
def equal (f rhs : E2) : UInt64 := Fp.equal f.A rhs.A &&& Fp.equal f.B rhs.B

/-- `LexicographicallyLargest` (crypto/core/curves/native/bls12381/fp2.go:73-82). -/
def lexLargest (f : E2) : UInt64 := Fp.lexLargest f.B ||| (Fp.isZero f.B &&& Fp.lexLargest f.A)

/-- `Sgn0` (crypto/core/curves/native/bls12381/fp2.go:85-92). -/
def sgn0 (f : E2) : UInt64 :=
  let a := Fp.isZero f.A
  let t := Fp.sgn0 f.B &&& a
  let a := (0 - a) + 1
  t ||| (Fp.sgn0 f.A &&& a)

/-- `Conjugate` (crypto/core/curves/native/bls12381/fp2.go:102-106). -/
def conjugate (a : E2) : E2 := ⟨a.A, Fp.neg a.B⟩

/-- `FrobeniusMap` (crypto/core/curves/native/bls12381/fp2.go:95-99). -/
def frobeniusMap (a : E2) : E2 := conjugate a

/-- `MulByNonResidue` (crypto/core/curves/native/bls12381/fp2.go:113-120). -/
def mulByNonResidue (a : E2) : E2 :=
  let aa := Fp.sub a.A a.B
  let bb := Fp.add a.A a.B
  ⟨aa, bb⟩

/-- `Square` (crypto/core/curves/native/bls12381/fp2.go:123-144). -/
def square (arg : E2) : E2 :=
  let a := Fp.add arg.A arg.B
  let b := Fp.sub arg.A arg.B
  let c := Fp.add arg.A arg.A
  ⟨Fp.mul a b, Fp.mul c arg.B⟩

/-- `Add` (crypto/core/curves/native/bls12381/fp2.go:147-151). -/
def add (arg1 arg2 : E2) : E2 := ⟨Fp.add arg1.A arg2.A, Fp.add arg1.B arg2.B⟩

/-- `Double` (crypto/core/curves/native/bls12381/fp2.go:154-158). -/
def double (a : E2) : E2 := ⟨Fp.double a.A, Fp.double a.B⟩

/-- `Sub` (crypto/core/curves/native/bls12381/fp2.go:161-165). -/
def sub (arg1 arg2 : E2) : E2 := ⟨Fp.sub arg1.A arg2.A, Fp.sub arg1.B arg2.B⟩

/-- `Mul` (crypto/core/curves/native/bls12381/fp2.go:168-198). -/
def mul (arg1 arg2 : E2) : E2 :=
  let v0 := Fp.mul arg1.A arg2.A
  let v1 := Fp.mul (Fp.neg arg1.B) arg2.B
  let a := Fp.add v0 v1
  let b := Fp.add arg1.A arg1.B
  let t := Fp.add arg2.A arg2.B
  let b := Fp.mul b t
  let b := Fp.sub b v0
  let b := Fp.add b v1
  ⟨a, b⟩

/-- `Mul0` (crypto/core/curves/native/bls12381/fp2.go:200-204). -/
def mul0 (arg1 : E2) (arg2 : L6) : E2 := ⟨Fp.mul arg1.A arg2, Fp.mul arg1.B arg2⟩

/-- `curveG23B` (crypto/core/curves/native/bls12381/g2.go:69-86). -/
def curveG23B : E2 :=
  ⟨⟨0x447600000027552e, 0xdcb8009a43480020, 0x6f7ee9ce4a6e8b59, 0xb10330b7c0a95bc6, 0x6140b1fcfb1e54b7, 0x0381be097f0bb4e1⟩,
   ⟨0x447600000027552e, 0xdcb8009a43480020, 0x6f7ee9ce4a6e8b59, 0xb10330b7c0a95bc6, 0x6140b1fcfb1e54b7, 0x0381be097f0bb4e1⟩⟩

/-- `MulBy3b` (crypto/core/curves/native/bls12381/fp2.go:207-209). -/
def mulBy3b (arg : E2) : E2 := mul arg curveG23B

/-- `Neg` (crypto/core/curves/native/bls12381/fp2.go:212-216). -/
def neg (a : E2) : E2 := ⟨Fp.neg a.A, Fp.neg a.B⟩

/-- `CMove` (crypto/core/curves/native/bls12381/fp2.go:319-323). -/
def cmove (arg1 arg2 : E2) (choice : UInt64) : E2 := ⟨Fp.cmove arg1.A arg2.A choice, Fp.cmove arg1.B arg2.B choice⟩

/-- `CNeg` (crypto/core/curves/native/bls12381/fp2.go:326-330): without the choice the receiver keeps its value. -/
def cneg (out a : E2) (choice : UInt64) : E2 := cmove out (neg a) choice

/-- One iteration of the loop in `pow` (crypto/core/curves/native/bls12381/fp2.go:338-340). -/
def powStep (base res : E2) (bit : UInt64) : E2 :=
  let res := square res
  let tmp := mul res base
  cmove res tmp bit

/-- `pow` (crypto/core/curves/native/bls12381/fp2.go:332-344): limbs from 5 down to 0, bits from 63 down to 0. -/
def pow (base : E2) (e : L6) : E2 :=
  [e.l5, e.l4, e.l3, e.l2, e.l1, e.l0].foldl
    (fun res w => ((List.range 64).reverse.map (expBit w)).foldl (powStep base) res) one

/-- The element compared with in `Sqrt` (crypto/core/curves/native/bls12381/fp2.go:248-258). -/
def minusOne : E2 :=
  ⟨⟨0x43f5fffffffcaaae, 0x32b7fff2ed47fffd, 0x07e83a49a2e99d69, 0xeca8f3318332bb7a, 0xef148d1ea0f4c069, 0x040ab3263eff0206⟩,
    ⟨0, 0, 0, 0, 0, 0⟩⟩

/-- `Sqrt` (crypto/core/curves/native/bls12381/fp2.go:219-283): the receiver's new value and the flag; `var res fp2` is zero. -/
def sqrt (out a : E2) : E2 × UInt64 :=
  let e1 := isZero a
  let a1 := pow a ⟨0xee7fbfffffffeaaa, 0x07aaffffac54ffff, 0xd9cc34a83dac3d89, 0xd91dd2e13ce144af, 0x92c6e9ed90d2eb35,
    0x0680447a8e5ff9a6⟩
  let alpha := square a1
  let alpha := mul alpha a
  let x0 := mul a1 a
  let res2 : E2 := ⟨Fp.neg x0.B, x0.A⟩
  let e2 := equal alpha minusOne
  let t := one
  let t := add t alpha
  let t := pow t ⟨0xdcff7fffffffd555, 0x0f55ffff58a9ffff, 0xb39869507b587b12, 0xb23ba5c279c2895f, 0x258dd3db21a5d66b,
    0x0d0088f51cbff34d⟩
  let t := mul t x0
  let res : E2 := ⟨⟨0, 0, 0, 0, 0, 0⟩, ⟨0, 0, 0, 0, 0, 0⟩⟩
  let res := cmove res2 res e1
  let res := cmove t res e2
  let t := square res
  let e3 := equal t a
  (cmove out res e3, e3)

/-- `Invert` (crypto/core/curves/native/bls12381/fp2.go:288-315): the receiver's new value and the flag. -/
def invert (out arg : E2) : E2 × UInt64 :=
  let a := Fp.square arg.A
  let b := Fp.square arg.B
  let a := Fp.add a b
  let ti := Fp.invert a
  let t := ti.1
  let wasInverted := ti.2
  let a := Fp.mul arg.A t
  let b := Fp.neg t
  let b := Fp.mul b arg.B
  (⟨Fp.cmove out.A a wasInverted, Fp.cmove out.B b wasInverted⟩, wasInverted)

/-! ## Meaning -/

/-- The field of `p^2` elements: pairs `re + im·u` with `u^2 = -1`. -/
abbrev K2 := Quad.F2 Fp.p

theorem p_mod4 : Fp.p % 4 = 3 := by decide +kernel

instance fact2 : Fact (∀ r : ZMod Fp.p, r ^ 2 ≠ -1 + 0 * r) := ⟨Quad.irr p_mod4⟩

attribute [local irreducible] Fp.add Fp.sub Fp.mul Fp.neg Fp.square Fp.double Fp.invert Fp.cmove Fp.Rep

/-- The two components represent the two coordinates. -/
def Rep2 (a : E2) (x : K2) : Prop := Fp.Rep a.A x.re ∧ Fp.Rep a.B x.im

theorem mk2 {A B : L6} {x : K2} {r i : ZMod Fp.p} (hA : Fp.Rep A r) (hB : Fp.Rep B i) (hr : x.re = r) (hi : x.im = i) : Rep2 ⟨A, B⟩ x :=
  ⟨hr ▸ hA, hi ▸ hB⟩

theorem rep2_unique {a b : E2} {x : K2} (ha : Rep2 a x) (hb : Rep2 b x) : a = b := by
  cases a; cases b
  exact congrArg₂ E2.mk (Fp.rep_unique ha.1 hb.1) (Fp.rep_unique ha.2 hb.2)

theorem rep2_value {a : E2} {x y : K2} (hx : Rep2 a x) (hy : Rep2 a y) : x = y :=
  QuadraticAlgebra.ext (Fp.rep_value hx.1 hy.1) (Fp.rep_value hx.2 hy.2)

theorem zero_spec : Rep2 zero 0 := mk2 Fp.zero_spec Fp.zero_spec QuadraticAlgebra.re_zero QuadraticAlgebra.im_zero
theorem one_spec : Rep2 one 1 := mk2 Fp.one_spec Fp.zero_spec QuadraticAlgebra.re_one QuadraticAlgebra.im_one
theorem setFp_spec {a : L6} {x : ZMod Fp.p} (ha : Fp.Rep a x) : Rep2 (setFp a) ⟨x, 0⟩ := mk2 ha Fp.zero_spec rfl rfl

theorem and_flags (P Q : Prop) [Decidable P] [Decidable Q] :
    ((if P then 1 else 0) &&& (if Q then 1 else 0) : UInt64) = if P ∧ Q then 1 else 0 := by
  by_cases hP : P <;> by_cases hQ : Q <;> simp [hP, hQ]

theorem or_flags (P Q : Prop) [Decidable P] [Decidable Q] :
    ((if P then 1 else 0) ||| (if Q then 1 else 0) : UInt64) = if P ∨ Q then 1 else 0 := by
  by_cases hP : P <;> by_cases hQ : Q <;> simp [hP, hQ]

theorem ext_iff2 (x y : K2) : x = y ↔ x.re = y.re ∧ x.im = y.im :=
  ⟨fun h => h ▸ ⟨rfl, rfl⟩, fun h => QuadraticAlgebra.ext h.1 h.2⟩

section
variable {a b : E2} {x y : K2} (ha : Rep2 a x) (hb : Rep2 b y)
include ha

theorem isZero_spec : isZero a = if x = 0 then 1 else 0 := by
  unfold isZero
  rw [(Fp.isZero_spec ha.1).1, (Fp.isZero_spec ha.2).1, and_flags]
  exact if_congr (ext_iff2 x 0).symm rfl rfl

theorem isOne_spec : isOne a = if x = 1 then 1 else 0 := by
  unfold isOne
  rw [Fp.isOne_spec ha.1, (Fp.isZero_spec ha.2).1, and_flags]
  exact if_congr (ext_iff2 x 1).symm rfl rfl

include hb in
theorem equal_spec : equal a b = if x = y then 1 else 0 := by
  unfold equal
  rw [Fp.equal_spec ha.1 hb.1, Fp.equal_spec ha.2 hb.2, and_flags]
  exact if_congr (ext_iff2 x y).symm rfl rfl

theorem lexLargest_spec :
    lexLargest a = if (-x.im).val < x.im.val ∨ (x.im = 0 ∧ (-x.re).val < x.re.val) then 1 else 0 := by
  unfold lexLargest
  rw [Fp.lexLargest_spec ha.1, Fp.lexLargest_spec ha.2, (Fp.isZero_spec ha.2).1, and_flags, or_flags]

theorem sgn0_spec : sgn0 a = UInt64.ofNat (if x.re = 0 then x.im.val % 2 else x.re.val % 2) := by
  unfold sgn0
  dsimp only
  rw [(Fp.isZero_spec ha.1).1, Fp.sgn0_spec ha.1, Fp.sgn0_spec ha.2]
  have h : ∀ n : Nat, UInt64.ofNat (n % 2) &&& 1 = UInt64.ofNat (n % 2) := by
    intro n
    rcases Nat.mod_two_eq_zero_or_one n with e | e <;> rw [e] <;> rfl
  by_cases hx : x.re = 0
  · rw [if_pos hx, if_pos hx, h]
    rw [show ((0 : UInt64) - 1 + 1) = 0 by decide, UInt64.and_zero, UInt64.or_zero]
  · rw [if_neg hx, if_neg hx, UInt64.and_zero, UInt64.zero_or, show ((0 : UInt64) - 0 + 1) = 1 by decide, h]

theorem conjugate_spec : Rep2 (conjugate a) ⟨x.re, -x.im⟩ := mk2 ha.1 (Fp.neg_spec ha.2) rfl rfl

theorem frobenius_spec : Rep2 (frobeniusMap a) (x ^ Fp.p) := by
  have h := Quad.frobF p_mod4 _ rfl x
  rw [h]
  exact conjugate_spec ha

theorem neg_spec : Rep2 (neg a) (-x) := mk2 (Fp.neg_spec ha.1) (Fp.neg_spec ha.2) (QuadraticAlgebra.re_neg x) (QuadraticAlgebra.im_neg x)

include hb in
theorem add_spec : Rep2 (add a b) (x + y) := mk2 (Fp.add_spec ha.1 hb.1) (Fp.add_spec ha.2 hb.2) (QuadraticAlgebra.re_add x y) (QuadraticAlgebra.im_add x y)

include hb in
theorem sub_spec : Rep2 (sub a b) (x - y) := mk2 (Fp.sub_spec ha.1 hb.1) (Fp.sub_spec ha.2 hb.2) (QuadraticAlgebra.re_sub x y) (QuadraticAlgebra.im_sub x y)

theorem double_spec : Rep2 (double a) (x + x) := mk2 (Fp.double_spec ha.1) (Fp.double_spec ha.2) (QuadraticAlgebra.re_add x x) (QuadraticAlgebra.im_add x x)

end

theorem re_nr {R : Type*} [CommRing R] (x : QuadraticAlgebra R (-1) 0) : (⟨x.re - x.im, x.re + x.im⟩ : QuadraticAlgebra R (-1) 0) =
    x * ⟨1, 1⟩ := by
  ext
  · simp; ring
  · simp

theorem sq_form {R : Type*} [CommRing R] (x : QuadraticAlgebra R (-1) 0) :
    (⟨(x.re + x.im) * (x.re - x.im), (x.re + x.re) * x.im⟩ : QuadraticAlgebra R (-1) 0) = x * x := by
  ext <;> simp
  all_goals ring

theorem mul_form {R : Type*} [CommRing R] (x y : QuadraticAlgebra R (-1) 0) :
    (⟨x.re * y.re + -x.im * y.im, (x.re + x.im) * (y.re + y.im) - x.re * y.re + -x.im * y.im⟩ : QuadraticAlgebra R (-1) 0) = x * y := by
  ext <;> simp <;> ring

theorem mul0_form {R : Type*} [CommRing R] (x : QuadraticAlgebra R (-1) 0) (y : R) :
    (⟨x.re * y, x.im * y⟩ : QuadraticAlgebra R (-1) 0) = x * ⟨y, 0⟩ := by
  ext <;> simp

theorem u_form {R : Type*} [CommRing R] (x : QuadraticAlgebra R (-1) 0) :
    (⟨-x.im, x.re⟩ : QuadraticAlgebra R (-1) 0) = ⟨0, 1⟩ * x := by
  ext <;> simp

section
variable {a b : E2} {x y : K2} (ha : Rep2 a x) (hb : Rep2 b y)
include ha

theorem mulByNonResidue_spec : Rep2 (mulByNonResidue a) (x * ⟨1, 1⟩) := by
  rw [← re_nr]
  exact mk2 (Fp.sub_spec ha.1 ha.2) (Fp.add_spec ha.1 ha.2) rfl rfl

theorem square_spec : Rep2 (square a) (x * x) := by
  rw [← sq_form]
  exact mk2 (Fp.mul_spec (Fp.add_spec ha.1 ha.2) (Fp.sub_spec ha.1 ha.2)) (Fp.mul_spec (Fp.add_spec ha.1 ha.1) ha.2) rfl rfl

include hb in
theorem mul_spec : Rep2 (mul a b) (x * y) := by
  rw [← mul_form]
  have h0 := Fp.mul_spec ha.1 hb.1
  have h1 := Fp.mul_spec (Fp.neg_spec ha.2) hb.2
  exact mk2 (Fp.add_spec h0 h1) (Fp.add_spec (Fp.sub_spec (Fp.mul_spec (Fp.add_spec ha.1 ha.2) (Fp.add_spec hb.1 hb.2)) h0) h1) rfl rfl

theorem mul0_spec {c : L6} {w : ZMod Fp.p} (hc : Fp.Rep c w) : Rep2 (mul0 a c) (x * ⟨w, 0⟩) := by
  rw [← mul0_form]
  exact mk2 (Fp.mul_spec ha.1 hc) (Fp.mul_spec ha.2 hc) rfl rfl

end

/-- Three times the constant of the curve `G2`. -/
def b3 : K2 := ⟨12, 12⟩

theorem curveG23B_rep : Rep2 curveG23B b3 := by
  have h : Fp.Rep curveG23B.A 12 := by
    have h2 : Fp.mulBy3b Fp.one = curveG23B.A := by decide +kernel
    have h3 := Fp.mulBy3b_spec Fp.one_spec
    rw [h2, mul_one] at h3
    exact h3
  exact mk2 h h rfl rfl

theorem mulBy3b_spec {a : E2} {x : K2} (ha : Rep2 a x) : Rep2 (mulBy3b a) (x * b3) := mul_spec ha curveG23B_rep

theorem cmove_zero (a b : E2) : cmove a b 0 = a := by
  unfold cmove
  rw [Fp.cmove_zero, Fp.cmove_zero]

theorem cmove_one (a b : E2) : cmove a b 1 = b := by
  unfold cmove
  rw [Fp.cmove_one, Fp.cmove_one]

theorem powStep_spec {base res : E2} {x : K2} {m : Nat} (hb : Rep2 base x) (hr : Rep2 res (x ^ m)) (w : UInt64)
    (j : Nat) (hj : j < 64) : Rep2 (powStep base res (expBit w j)) (x ^ (2 * m + w.toNat / 2 ^ j % 2)) := by
  have hs := square_spec hr
  have hm := mul_spec hs hb
  unfold powStep
  dsimp only
  rw [expBit_eq w j hj]
  by_cases h : w.toNat / 2 ^ j % 2 = 1
  · rw [if_pos h, h, cmove_one]
    have : x ^ (2 * m + 1) = x ^ m * x ^ m * x := by ring
    rw [this]; exact hm
  · have h0 : w.toNat / 2 ^ j % 2 = 0 := by omega
    rw [if_neg h, h0, cmove_zero]
    have : x ^ (2 * m + 0) = x ^ m * x ^ m := by ring
    rw [this]; exact hs

theorem powLimb_spec {base : E2} {x : K2} (hb : Rep2 base x) (w : UInt64) :
    ∀ (k : Nat), k ≤ 64 → ∀ (res : E2) (m : Nat), Rep2 res (x ^ m) →
      Rep2 (((List.range k).reverse.map (expBit w)).foldl (powStep base) res) (x ^ (m * 2 ^ k + w.toNat % 2 ^ k)) := by
  intro k
  induction k with
  | zero =>
    intro _ res m hr
    simpa [Nat.mod_one] using hr
  | succ k ih =>
    intro hk res m hr
    rw [List.range_succ, List.reverse_append, List.reverse_singleton, List.singleton_append, List.map_cons, List.foldl_cons]
    have h1 := powStep_spec hb hr w k (by omega)
    have h2 := ih (by omega) _ _ h1
    have e : (2 * m + w.toNat / 2 ^ k % 2) * 2 ^ k + w.toNat % 2 ^ k = m * 2 ^ (k + 1) + w.toNat % 2 ^ (k + 1) := by
      rw [pow_succ, Nat.mod_mul]
      ring
    rw [e] at h2
    exact h2

theorem pow_spec {base : E2} {x : K2} (hb : Rep2 base x) (e : L6) : Rep2 (pow base e) (x ^ e.val) := by
  have h1 : Rep2 one (x ^ 0) := by rw [pow_zero]; exact one_spec
  have s5 := powLimb_spec hb e.l5 64 (le_refl _) _ _ h1
  have s4 := powLimb_spec hb e.l4 64 (le_refl _) _ _ s5
  have s3 := powLimb_spec hb e.l3 64 (le_refl _) _ _ s4
  have s2 := powLimb_spec hb e.l2 64 (le_refl _) _ _ s3
  have s1 := powLimb_spec hb e.l1 64 (le_refl _) _ _ s2
  have s0 := powLimb_spec hb e.l0 64 (le_refl _) _ _ s1
  have done : ∀ m, Rep2 (pow base e) (x ^ m) → m = e.val → Rep2 (pow base e) (x ^ e.val) := fun m h hm => hm ▸ h
  refine done _ ?_ (Fp.digits6 e)
  unfold pow
  simp only [List.foldl_cons, List.foldl_nil]
  exact s0

theorem minusOne_rep : Rep2 minusOne (-1) := by
  have h : neg one = minusOne := by decide +kernel
  rw [← h]
  exact neg_spec one_spec

theorem inv_form {K : Type*} [Field K] [Fact (∀ r : K, r ^ 2 ≠ -1 + 0 * r)] (x : QuadraticAlgebra K (-1) 0) :
    (⟨x.re * (x.re * x.re + x.im * x.im)⁻¹, -(x.re * x.re + x.im * x.im)⁻¹ * x.im⟩ : QuadraticAlgebra K (-1) 0) = x⁻¹ := by
  ext <;> simp [QuadraticAlgebra.inv_def, QuadraticAlgebra.norm_def, sub_neg_eq_add]
  all_goals ring

theorem norm_ne_zero {K : Type*} [Field K] [Fact (∀ r : K, r ^ 2 ≠ -1 + 0 * r)] (x : QuadraticAlgebra K (-1) 0) :
    x.re * x.re + x.im * x.im = 0 ↔ x = 0 := by
  rw [← QuadraticAlgebra.norm_eq_zero_iff_eq_zero, QuadraticAlgebra.norm_def]
  simp [sub_neg_eq_add]

/-- `Invert`: the receiver keeps its value if the element is zero. -/
theorem invert_spec {a : E2} {x : K2} (out : E2) (ha : Rep2 a x) :
    (x ≠ 0 → Rep2 (invert out a).1 x⁻¹ ∧ (invert out a).2 = 1) ∧ (x = 0 → invert out a = (out, 0)) := by
  have h1 := Fp.invert_spec (Fp.add_spec (Fp.square_spec ha.1) (Fp.square_spec ha.2))
  unfold invert
  dsimp only
  rw [h1.2]
  constructor
  · intro hx
    rw [if_neg (fun e => hx ((norm_ne_zero x).1 e)), Fp.cmove_one, Fp.cmove_one, ← inv_form]
    exact ⟨mk2 (Fp.mul_spec ha.1 h1.1) (Fp.mul_spec (Fp.neg_spec h1.1) ha.2) rfl rfl, rfl⟩
  · intro hx
    rw [if_pos ((norm_ne_zero x).2 hx), Fp.cmove_zero, Fp.cmove_zero]

/-- `Sqrt`: the flag tells whether the element is a square; then a root is written, otherwise the receiver keeps its value. -/
theorem sqrt_spec {a : E2} {x : K2} (out : E2) (ha : Rep2 a x) :
    (IsSquare x → ∃ y, y * y = x ∧ Rep2 (sqrt out a).1 y ∧ (sqrt out a).2 = 1) ∧
    (¬ IsSquare x → sqrt out a = (out, 0)) := by
  have h1 := pow_spec ha ⟨0xee7fbfffffffeaaa, 0x07aaffffac54ffff, 0xd9cc34a83dac3d89, 0xd91dd2e13ce144af, 0x92c6e9ed90d2eb35,
    0x0680447a8e5ff9a6⟩
  have e : (L6.mk 0xee7fbfffffffeaaa 0x07aaffffac54ffff 0xd9cc34a83dac3d89 0xd91dd2e13ce144af 0x92c6e9ed90d2eb35
    0x0680447a8e5ff9a6).val = (Fp.p - 3) / 4 := by decide +kernel
  rw [e] at h1
  generalize hz1 : x ^ ((Fp.p - 3) / 4) = z1 at h1
  have hal := mul_spec (square_spec h1) ha
  have hx0 := mul_spec h1 ha
  have hres2 : Rep2 (⟨Fp.neg (mul (pow a ⟨0xee7fbfffffffeaaa, 0x07aaffffac54ffff, 0xd9cc34a83dac3d89, 0xd91dd2e13ce144af,
      0x92c6e9ed90d2eb35, 0x0680447a8e5ff9a6⟩) a).B, (mul (pow a ⟨0xee7fbfffffffeaaa, 0x07aaffffac54ffff, 0xd9cc34a83dac3d89,
      0xd91dd2e13ce144af, 0x92c6e9ed90d2eb35, 0x0680447a8e5ff9a6⟩) a).A⟩) (Quad.u * (z1 * x)) := by
    unfold Quad.u
    rw [← u_form]
    exact mk2 (Fp.neg_spec hx0.2) hx0.1 rfl rfl
  have ht := pow_spec (add_spec one_spec hal) ⟨0xdcff7fffffffd555, 0x0f55ffff58a9ffff, 0xb39869507b587b12, 0xb23ba5c279c2895f,
    0x258dd3db21a5d66b, 0x0d0088f51cbff34d⟩
  have e' : (L6.mk 0xdcff7fffffffd555 0x0f55ffff58a9ffff 0xb39869507b587b12 0xb23ba5c279c2895f 0x258dd3db21a5d66b
    0x0d0088f51cbff34d).val = (Fp.p - 1) / 2 := by decide +kernel
  rw [e'] at ht
  have ht2 := mul_spec ht hx0
  unfold sqrt
  dsimp only
  rw [isZero_spec ha, equal_spec hal minusOne_rep]
  -- the candidate
  have cand : ∃ y : K2, Rep2 (cmove (mul (pow (add one (mul (square (pow a ⟨0xee7fbfffffffeaaa, 0x07aaffffac54ffff, 0xd9cc34a83dac3d89,
      0xd91dd2e13ce144af, 0x92c6e9ed90d2eb35, 0x0680447a8e5ff9a6⟩)) a)) ⟨0xdcff7fffffffd555, 0x0f55ffff58a9ffff, 0xb39869507b587b12,
      0xb23ba5c279c2895f, 0x258dd3db21a5d66b, 0x0d0088f51cbff34d⟩) (mul (pow a ⟨0xee7fbfffffffeaaa, 0x07aaffffac54ffff,
      0xd9cc34a83dac3d89, 0xd91dd2e13ce144af, 0x92c6e9ed90d2eb35, 0x0680447a8e5ff9a6⟩) a)) (cmove (⟨Fp.neg (mul (pow a
      ⟨0xee7fbfffffffeaaa, 0x07aaffffac54ffff, 0xd9cc34a83dac3d89, 0xd91dd2e13ce144af, 0x92c6e9ed90d2eb35, 0x0680447a8e5ff9a6⟩) a).B,
      (mul (pow a ⟨0xee7fbfffffffeaaa, 0x07aaffffac54ffff, 0xd9cc34a83dac3d89, 0xd91dd2e13ce144af, 0x92c6e9ed90d2eb35,
      0x0680447a8e5ff9a6⟩) a).A⟩) ⟨⟨0, 0, 0, 0, 0, 0⟩, ⟨0, 0, 0, 0, 0, 0⟩⟩ (if x = 0 then 1 else 0)) (if z1 * z1 * x = -1 then 1 else 0)) y ∧
      (IsSquare x → y * y = x) := by
    by_cases hx : x = 0
    · have hm : ¬ (z1 * z1 * x = -1) := by
        rw [hx, mul_zero]
        intro h
        exact one_ne_zero (α := K2) (by rw [← neg_neg (1 : K2), ← h, neg_zero])
      rw [if_neg hm, cmove_zero]
      refine ⟨_, ht2, fun _ => ?_⟩
      simp only [hx, mul_zero]
    · rw [if_neg hx, cmove_zero]
      by_cases hm : z1 * z1 * x = -1
      · rw [if_pos hm, cmove_one]
        exact ⟨_, hres2, fun hs => (Quad.sqrt_alg p_mod4 hs hx hz1.symm).1 hm⟩
      · rw [if_neg hm, cmove_zero]
        exact ⟨_, ht2, fun hs => (Quad.sqrt_alg p_mod4 hs hx hz1.symm).2 hm⟩
  obtain ⟨y, hy, hys⟩ := cand
  generalize cmove _ _ _ = c at hy ⊢
  rw [equal_spec (square_spec hy) ha]
  constructor
  · intro hs
    rw [if_pos (hys hs), cmove_one]
    exact ⟨y, hys hs, hy, rfl⟩
  · intro hs
    rw [if_neg (fun h => hs ⟨y, h.symm⟩), cmove_zero]

theorem rep2_exists (a : E2) (hA : a.A.val < Fp.p) (hB : a.B.val < Fp.p) : ∃ x : K2, Rep2 a x := by
  obtain ⟨x, hx⟩ := Fp.rep_exists a.A hA
  obtain ⟨y, hy⟩ := Fp.rep_exists a.B hB
  exact ⟨⟨x, y⟩, hx, hy⟩

end Verif.Bls381.Fp2
