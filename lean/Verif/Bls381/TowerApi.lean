import Verif.Bls381.GtApi
import Verif.Bls381.FpApi

/-!
C91 and C92: the extension fields of BLS12-381 (crypto/core/curves/native/bls12381/fp2.go, fp6.go, fp12.go).  `Rep2`, `Rep6` and `Rep12`
relate the limbs of the code to an element of the field: every coordinate in Montgomery form, fully reduced.
-/
set_option linter.unusedSectionVars false
namespace Verif.Bls381

/-! ## C91: the quadratic extension -/

namespace Fp2

/-- **C91** every pair of fully reduced coordinates represents exactly one element, and every element has exactly one representation -/
theorem C91_representation :
    (∀ a : E2, a.A.val < Fp.p → a.B.val < Fp.p → ∃! x : K2, Rep2 a x) ∧ (∀ x : K2, ∃! a : E2, Rep2 a x) := by
  constructor
  · intro a hA hB
    obtain ⟨x, hx⟩ := rep2_exists a hA hB
    exact ⟨x, hx, fun y hy => rep2_value hy hx⟩
  · intro x
    obtain ⟨A, hA, _⟩ := Fp.C89_representation.2 x.re
    obtain ⟨B, hB, _⟩ := Fp.C89_representation.2 x.im
    exact ⟨⟨A, B⟩, mk2 hA hB rfl rfl, fun b hb => rep2_unique hb (mk2 hA hB rfl rfl)⟩

/-- **C91** the operations are those of the field of pairs `re + im u` with `u^2 = -1`; the Frobenius map is the `p`-th power -/
theorem C91_arithmetic {a b : E2} {x y : K2} (ha : Rep2 a x) (hb : Rep2 b y) (e : L6) {c : L6} {w : ZMod Fp.p} (hc : Fp.Rep c w) :
    Rep2 zero 0 ∧ Rep2 one 1 ∧ Rep2 (setFp c) ⟨w, 0⟩ ∧ Rep2 (add a b) (x + y) ∧ Rep2 (sub a b) (x - y) ∧ Rep2 (neg a) (-x) ∧
      Rep2 (double a) (x + x) ∧ Rep2 (mul a b) (x * y) ∧ Rep2 (square a) (x * x) ∧ Rep2 (mul0 a c) (x * ⟨w, 0⟩) ∧
      Rep2 (mulByNonResidue a) (x * ⟨1, 1⟩) ∧ Rep2 (mulBy3b a) (x * ⟨12, 12⟩) ∧ Rep2 (frobeniusMap a) (x ^ Fp.p) ∧
      Rep2 (pow a e) (x ^ e.val) :=
  ⟨zero_spec, one_spec, setFp_spec hc, add_spec ha hb, sub_spec ha hb, neg_spec ha, double_spec ha, mul_spec ha hb, square_spec ha,
    mul0_spec ha hc, mulByNonResidue_spec ha, mulBy3b_spec ha, frobenius_spec ha, pow_spec ha e⟩

/-- **C91** the imaginary unit squares to minus one -/
theorem C91_unit : (⟨0, 1⟩ : K2) * ⟨0, 1⟩ = -1 := Quad.u_sq

/-- **C91** inversion inverts every element but zero; on zero it reports failure and the receiver keeps its value -/
theorem C91_invert {a : E2} {x : K2} (out : E2) (ha : Rep2 a x) :
    (x ≠ 0 → ∃ y, x * y = 1 ∧ Rep2 (invert out a).1 y ∧ (invert out a).2 = 1) ∧ (x = 0 → invert out a = (out, 0)) := by
  have h := invert_spec out ha
  refine ⟨fun hx => ?_, h.2⟩
  have h1 := h.1 hx
  have e := mul_inv_cancel₀ hx
  generalize x⁻¹ = z at h1 e
  exact ⟨z, e, h1.1, h1.2⟩

/-- **C91** the square root is found exactly for the squares; otherwise the receiver keeps its value -/
theorem C91_sqrt {a : E2} {x : K2} (out : E2) (ha : Rep2 a x) :
    (IsSquare x → ∃ y, y * y = x ∧ Rep2 (sqrt out a).1 y ∧ (sqrt out a).2 = 1) ∧
    (¬ IsSquare x → sqrt out a = (out, 0)) := sqrt_spec out ha

/-- **C91** the tests: zero, one, equality, the lexicographic order (imaginary part first) and the sign of RFC 9380 -/
theorem C91_tests {a b : E2} {x y : K2} (ha : Rep2 a x) (hb : Rep2 b y) :
    (isZero a = if x = 0 then 1 else 0) ∧ (isOne a = if x = 1 then 1 else 0) ∧ (equal a b = if x = y then 1 else 0) ∧
      (lexLargest a = if (-x.im).val < x.im.val ∨ (x.im = 0 ∧ (-x.re).val < x.re.val) then 1 else 0) ∧
      sgn0 a = UInt64.ofNat (if x.re = 0 then x.im.val % 2 else x.re.val % 2) :=
  ⟨isZero_spec ha, isOne_spec ha, equal_spec ha hb, lexLargest_spec ha, sgn0_spec ha⟩

/-- **C91** a choice bit selects the second argument, its absence the first -/
theorem C91_choice (a b out : E2) :
    cmove a b 0 = a ∧ cmove a b 1 = b ∧ cneg out a 0 = out ∧ cneg out a 1 = neg a :=
  ⟨cmove_zero a b, cmove_one a b, cmove_zero _ _, cmove_one _ _⟩

/-- **C91** of an element and its negative exactly one is the larger, unless they are equal; so a root and a sign bit determine the point -/
theorem C91_sign {a : E2} {x : K2} (ha : Rep2 a x) (hx : x ≠ 0) : lexLargest a + lexLargest (neg a) = 1 := by
  have key : ∀ z : ZMod Fp.p, z ≠ 0 → ((-z).val < z.val ↔ ¬ (- -z).val < (-z).val) := by
    intro z hz
    have hne : z ≠ -z := by
      intro e
      have h2 : (2 : ZMod Fp.p) * z = 0 := by rw [two_mul]; nth_rewrite 2 [e]; exact add_neg_cancel z
      rcases mul_eq_zero.1 h2 with h | h
      · have h3 : ((2 : Nat) : ZMod Fp.p) = 0 := h
        rw [ZMod.natCast_eq_zero_iff] at h3
        exact absurd (Nat.le_of_dvd (by decide) h3) (by decide +kernel)
      · exact hz h
    have hv : z.val ≠ (-z).val := fun e => hne (ZMod.val_injective Fp.p e)
    rw [neg_neg]
    omega
  rw [lexLargest_spec ha, lexLargest_spec (neg_spec ha)]
  have e1 : (-x).im = -x.im := QuadraticAlgebra.im_neg x
  have e2 : (-x).re = -x.re := QuadraticAlgebra.re_neg x
  rw [e1, e2]
  by_cases him : x.im = 0
  · have hre : x.re ≠ 0 := fun h => hx (QuadraticAlgebra.ext h him)
    have h := key x.re hre
    have h0 : -x.im = 0 := by rw [him, neg_zero]
    have hn : (- (0 : ZMod Fp.p)) = 0 := neg_zero
    rw [h0, him, hn]
    by_cases hc : (-x.re).val < x.re.val
    · rw [if_pos (Or.inr ⟨rfl, hc⟩), if_neg (by rintro (h' | ⟨_, h'⟩); · exact absurd h' (lt_irrefl _)
                                                · exact h.1 hc h')]
      decide
    · rw [if_neg (by rintro (h' | ⟨_, h'⟩); · exact absurd h' (lt_irrefl _)
                     · exact hc h'), if_pos (Or.inr ⟨rfl, by by_contra h'; exact hc (h.2 h')⟩)]
      decide
  · have h := key x.im him
    by_cases hc : (-x.im).val < x.im.val
    · rw [if_pos (Or.inl hc), if_neg (by rintro (h' | ⟨h', _⟩); · exact h.1 hc h'
                                         · exact him (neg_eq_zero.1 h'))]
      decide
    · rw [if_neg (by rintro (h' | ⟨h', _⟩); · exact hc h'
                     · exact him h'), if_pos (Or.inl (by by_contra h'; exact hc (h.2 h')))]
      decide

/-- a case that meets the hypotheses: the element `1 + u`, whose limbs are twice the Montgomery form of one -/
example : Rep2 (add one ⟨Fp.zero, Fp.one⟩) (1 + ⟨0, 1⟩) ∧ (1 + ⟨0, 1⟩ : K2) ≠ 0 := by
  refine ⟨add_spec one_spec (mk2 Fp.zero_spec Fp.one_spec rfl rfl), fun h => ?_⟩
  have h1 := congrArg QuadraticAlgebra.re h
  rw [QuadraticAlgebra.re_add, QuadraticAlgebra.re_one, QuadraticAlgebra.re_zero] at h1
  exact absurd (show (1 : ZMod Fp.p) + 0 = 0 from h1) (by rw [add_zero]; exact one_ne_zero)

end Fp2

/-! ## C92: the tower -/

namespace Fp6

open Fp2

/-- **C92** the operations are those of the field of triples `c0 + c1 v + c2 v^2` with `v^3 = 1 + u`; the sparse products multiply by the
element with the missing coordinates zero; the Frobenius map is the `p`-th power -/
theorem C92_fp6_arithmetic {a b : E6} {x y : K6} (ha : Rep6 a x) (hb : Rep6 b y) {c e : E2} {z w : K2} (hc : Rep2 c z) (he : Rep2 e w) :
    Rep6 zero 0 ∧ Rep6 one 1 ∧ Rep6 (setFp2 c) ⟨z, 0, 0⟩ ∧ Rep6 (add a b) (x + y) ∧ Rep6 (sub a b) (x - y) ∧ Rep6 (neg a) (-x) ∧
      Rep6 (double a) (x + x) ∧ Rep6 (mul a b) (x * y) ∧ Rep6 (square a) (x * x) ∧ Rep6 (mulByB a e) (x * ⟨0, w, 0⟩) ∧
      Rep6 (mulByAB a c e) (x * ⟨z, w, 0⟩) ∧ Rep6 (mulByNonResidue a) (x * ⟨0, 1, 0⟩) ∧ Rep6 (frobeniusMap a) (x ^ Fp.p) :=
  ⟨zero_spec, one_spec, setFp2_spec hc, add_spec ha hb, sub_spec ha hb, neg_spec ha, double_spec ha, mul_spec ha hb, square_spec ha,
    mulByB_spec ha he, mulByAB_spec ha hc he, mulByNonResidue_spec ha, frobenius_spec ha⟩

/-- **C92** `v` is a cube root of `1 + u` -/
theorem C92_fp6_unit : (⟨0, 1, 0⟩ : K6) ^ 3 = ⟨⟨1, 1⟩, 0, 0⟩ := Cubic.v_cubed

/-- **C92** inversion inverts every element but zero, on which it reports failure and the receiver keeps its value -/
theorem C92_fp6_invert {a : E6} {x : K6} (out : E6) (ha : Rep6 a x) :
    (x ≠ 0 → ∃ y, x * y = 1 ∧ Rep6 (invert out a).1 y ∧ (invert out a).2 = 1) ∧ (x = 0 → invert out a = (out, 0)) := by
  have h := invert_spec ha out
  refine ⟨fun hx => ?_, h.2⟩
  have h1 := h.1 hx
  have e := mul_inv_cancel₀ hx
  generalize x⁻¹ = z at h1 e
  exact ⟨z, e, h1.1, h1.2⟩

/-- **C92** the tests for zero and for equality, and the choice -/
theorem C92_fp6_tests {a b : E6} {x y : K6} (ha : Rep6 a x) (hb : Rep6 b y) :
    (isZero a = if x = 0 then 1 else 0) ∧ (equal a b = if x = y then 1 else 0) ∧ cmove a b 0 = a ∧ cmove a b 1 = b :=
  ⟨isZero_spec ha, equal_spec ha hb, cmove_zero a b, cmove_one a b⟩

/-- **C92** the test for one ignores the last coordinate: it accepts `1 + c v^2` for every `c` -/
theorem C92_fp6_isOne_violated {a : E6} (c : K2) (ha : Rep6 a ⟨1, 0, c⟩) (hc : c ≠ 0) : isOne a = 1 ∧ (⟨1, 0, c⟩ : K6) ≠ 1 :=
  ⟨by rw [isOne_spec ha, if_pos ⟨rfl, rfl⟩], fun h => hc (congrArg Cubic.c2 h)⟩

/-- **C92** the test for one is right on the elements whose last coordinate is zero -/
theorem C92_fp6_isOne_partial {a : E6} {x : K6} (ha : Rep6 a x) : isOne a = 1 ↔ x.c0 = 1 ∧ x.c1 = 0 := by
  rw [isOne_spec ha]
  by_cases h : x.c0 = 1 ∧ x.c1 = 0
  · rw [if_pos h]; exact ⟨fun _ => h, fun _ => rfl⟩
  · rw [if_neg h]; exact ⟨fun e => absurd e (by decide), fun e => absurd e h⟩

end Fp6

namespace Fp12

open Fp2 Fp6

/-- **C92** every element of the field of `p^12` elements has exactly one representation -/
theorem C92_representation (x : K12) : ∃! a : E12, Rep12 a x := by
  have h2 := C91_representation.2
  obtain ⟨a0, h0, _⟩ := h2 x.re.c0
  obtain ⟨a1, h1, _⟩ := h2 x.re.c1
  obtain ⟨a2, h2', _⟩ := h2 x.re.c2
  obtain ⟨a3, h3, _⟩ := h2 x.im.c0
  obtain ⟨a4, h4, _⟩ := h2 x.im.c1
  obtain ⟨a5, h5, _⟩ := h2 x.im.c2
  have h : Rep12 ⟨⟨a0, a1, a2⟩, ⟨a3, a4, a5⟩⟩ x :=
    mk12 (mk6 h0 h1 h2' rfl rfl rfl) (mk6 h3 h4 h5 rfl rfl rfl) rfl rfl
  exact ⟨_, h, fun b hb => rep12_unique hb h⟩

/-- **C92** the operations are those of the field of pairs `re + im w` with `w^2 = v`; the sparse product multiplies by the element with the
missing coordinates zero; the Frobenius map is the `p`-th power -/
theorem C92_fp12_arithmetic {a b : E12} {x y : K12} (ha : Rep12 a x) (hb : Rep12 b y) {c e d : E2} {z s r : K2} (hc : Rep2 c z)
    (he : Rep2 e s) (hd : Rep2 d r) :
    Rep12 zero 0 ∧ Rep12 one 1 ∧ Rep12 (add a b) (x + y) ∧ Rep12 (sub a b) (x - y) ∧ Rep12 (neg a) (-x) ∧ Rep12 (mul a b) (x * y) ∧
      Rep12 (square a) (x * x) ∧ Rep12 (mulByABD a c e d) (x * ⟨⟨z, s, 0⟩, ⟨0, r, 0⟩⟩) ∧ Rep12 (conjugate a) ⟨x.re, -x.im⟩ ∧
      Rep12 (frobeniusMap a) (x ^ Fp.p) :=
  ⟨zero_spec, one_spec, add_spec ha hb, sub_spec ha hb, neg_spec ha, mul_spec ha hb, square_spec ha, mulByABD_spec ha hc he hd,
    conjugate_spec ha, frobenius_spec ha⟩

/-- **C92** inversion inverts every element but zero, on which it reports failure and the receiver keeps its value -/
theorem C92_fp12_invert {a : E12} {x : K12} (out : E12) (ha : Rep12 a x) :
    (x ≠ 0 → ∃ y, x * y = 1 ∧ Rep12 (invert out a).1 y ∧ (invert out a).2 = 1) ∧ (x = 0 → invert out a = (out, 0)) := by
  have h := invert_spec ha out
  refine ⟨fun hx => ?_, h.2⟩
  have h1 := h.1 hx
  have e := mul_inv_cancel₀ hx
  generalize x⁻¹ = z at h1 e
  exact ⟨z, e, h1.1, h1.2⟩

/-- **C92** the tests for zero and for equality, and the choice -/
theorem C92_fp12_tests {a b : E12} {x y : K12} (ha : Rep12 a x) (hb : Rep12 b y) :
    (isZero a = if x = 0 then 1 else 0) ∧ (equal a b = if x = y then 1 else 0) ∧ cmove a b 0 = a ∧ cmove a b 1 = b :=
  ⟨isZero_spec ha, equal_spec ha hb, cmove_zero a b, cmove_one a b⟩

/-- a case that meets the hypotheses: the generator of the target group, whose twelve coordinates are all different from zero -/
example : ∃ g : K12, Rep12 Gt.generator g ∧ g ≠ 1 := by
  obtain ⟨g, h1, _, h3⟩ := Gt.C93_generator
  exact ⟨g, h1, h3⟩

end Fp12

end Verif.Bls381
