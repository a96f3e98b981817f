import Mathlib.AlgebraicGeometry.EllipticCurve.Affine.Point
import Verif.Base.Tactics

/-!
# Complete projective formulas on a short Weierstrass curve

The mathematics behind the `Double` and `Add` of the native curves: the Renes–Costello–Batina formulas compute the group law
of `y² = x³ + a x + b` on every pair of points when the curve has no point of order two.  The group law is Mathlib's
(`WeierstrassCurve.Affine.Point`), nothing here is specific to the code.
-/

set_option linter.unusedSectionVars false

namespace Verif.Native.Weier

variable {F : Type} [Field F] [DecidableEq F]

/-- The curve `y² = x³ + a x + b`. -/
abbrev curve (a b : F) : WeierstrassCurve.Affine F := { a₁ := 0, a₂ := 0, a₃ := 0, a₄ := a, a₆ := b }

/-- Its group of points. -/
abbrev Pt (a b : F) := (curve a b).Point

theorem eqn_iff {a b x y : F} : (curve a b).Equation x y ↔ y ^ 2 = x ^ 3 + a * x + b := by
  rw [WeierstrassCurve.Affine.equation_iff]
  constructor <;> intro h <;> linear_combination h

theorem negY_eq {a b x y : F} : (curve a b).negY x y = -y := by
  simp [WeierstrassCurve.Affine.negY]

/-- Projective coordinates `(X : Y : Z)` of a point.  As in the code, every triple with `Z = 0` stands for the neutral
element. -/
def PRep (a b : F) (X Y Z : F) (P : Pt a b) : Prop :=
  (Z = 0 ∧ P = 0) ∨ (Z ≠ 0 ∧ ∃ x y h, P = .some x y h ∧ X = x * Z ∧ Y = y * Z)

section
variable {a b : F}

theorem prep_unique {X Y Z : F} {P Q : Pt a b} (hP : PRep a b X Y Z P) (hQ : PRep a b X Y Z Q) : P = Q := by
  rcases hP with ⟨z, rfl⟩ | ⟨z, x, y, h, rfl, hx, hy⟩ <;> rcases hQ with ⟨z', rfl⟩ | ⟨z', x', y', h', rfl, hx', hy'⟩
  · rfl
  · exact absurd z z'
  · exact absurd z' z
  · have e1 := mul_right_cancel₀ z (hx.symm.trans hx')
    have e2 := mul_right_cancel₀ z (hy.symm.trans hy')
    subst e1 e2
    rfl

/-- First coordinate of the complete sum. -/
def addX (a b X1 Y1 Z1 X2 Y2 Z2 : F) : F :=
  (X1 * Y2 + X2 * Y1) * (Y1 * Y2 - a * (X1 * Z2 + X2 * Z1) - 3 * b * (Z1 * Z2)) -
    (Y1 * Z2 + Y2 * Z1) * (a * (X1 * X2) + 3 * b * (X1 * Z2 + X2 * Z1) - a ^ 2 * (Z1 * Z2))

/-- Second coordinate. -/
def addY (a b X1 Y1 Z1 X2 Y2 Z2 : F) : F :=
  (Y1 * Y2 + a * (X1 * Z2 + X2 * Z1) + 3 * b * (Z1 * Z2)) * (Y1 * Y2 - a * (X1 * Z2 + X2 * Z1) - 3 * b * (Z1 * Z2)) +
    (3 * (X1 * X2) + a * (Z1 * Z2)) * (a * (X1 * X2) + 3 * b * (X1 * Z2 + X2 * Z1) - a ^ 2 * (Z1 * Z2))

/-- Third coordinate. -/
def addZ (a b X1 Y1 Z1 X2 Y2 Z2 : F) : F :=
  (Y1 * Z2 + Y2 * Z1) * (Y1 * Y2 + a * (X1 * Z2 + X2 * Z1) + 3 * b * (Z1 * Z2)) +
    (X1 * Y2 + X2 * Y1) * (3 * (X1 * X2) + a * (Z1 * Z2))

/-- No affine point of the curve has `y = 0`: no point of order two. -/
def NoTwo (a b : F) : Prop := ∀ x : F, x ^ 3 + a * x + b ≠ 0

theorem y_ne_zero (n2 : NoTwo a b) {x y : F} (h : y ^ 2 = x ^ 3 + a * x + b) : y ≠ 0 := by
  rintro rfl
  exact n2 x (by rw [← h]; ring)

theorem nonsing (two : (2 : F) ≠ 0) (n2 : NoTwo a b) {x y : F} (h : y ^ 2 = x ^ 3 + a * x + b) :
    (curve a b).Nonsingular x y := by
  rw [WeierstrassCurve.Affine.nonsingular_iff]
  refine ⟨eqn_iff.2 h, Or.inr ?_⟩
  have hy := y_ne_zero n2 h
  intro e
  have : (2 : F) * y = 0 := by linear_combination e
  rcases mul_eq_zero.1 this with h | h
  · exact two h
  · exact hy h

/-- The affine formulas agree with the group law, and the denominator does not vanish: distinct abscissae. -/
theorem add_generic (n2 : NoTwo a b) {x1 y1 x2 y2 : F} (h1 : (curve a b).Nonsingular x1 y1)
    (h2 : (curve a b).Nonsingular x2 y2) (hx : x1 ≠ x2) :
    PRep a b (addX a b x1 y1 1 x2 y2 1) (addY a b x1 y1 1 x2 y2 1) (addZ a b x1 y1 1 x2 y2 1)
      (.some x1 y1 h1 + .some x2 y2 h2) := by
  have e1 := eqn_iff.1 h1.1
  have e2 := eqn_iff.1 h2.1
  have hd : x1 - x2 ≠ 0 := sub_ne_zero.2 hx
  set d := x1 - x2 with hdd
  have hz : addZ a b x1 y1 1 x2 y2 1 = (y1 + y2) * ((y1 + y2) ^ 2 - (2 * x1 + x2) * (x1 - x2) ^ 2) + y1 * (x1 - x2) ^ 3 := by
    unfold addZ
    linear_combination (-1 * y1 + (-2) * y2) * e1 + (-2 * y1 + (-1) * y2) * e2
  have hz0 : addZ a b x1 y1 1 x2 y2 1 ≠ 0 := by
    rw [hz]
    have h2' : (curve a b).Nonsingular x2 (-y2) := by
      have := (WeierstrassCurve.Affine.nonsingular_neg (W' := curve a b) x2 y2).2 h2
      rwa [negY_eq] at this
    have hns := WeierstrassCurve.Affine.equation_add (W := curve a b) h1.1 h2'.1 (fun h => hx h.1)
    have hyy := y_ne_zero n2 (eqn_iff.1 hns)
    rw [WeierstrassCurve.Affine.slope_of_X_ne hx] at hyy
    intro hc
    apply hyy
    simp only [WeierstrassCurve.Affine.addY, WeierstrassCurve.Affine.negAddY, WeierstrassCurve.Affine.addX, negY_eq]
    rw [← hdd] at hc ⊢
    field_simp
    linear_combination -hc
  refine Or.inr ⟨hz0, ?_⟩
  rw [WeierstrassCurve.Affine.Point.add_of_X_ne hx]
  refine ⟨_, _, _, rfl, ?_, ?_⟩
  · rw [WeierstrassCurve.Affine.slope_of_X_ne hx]
    simp only [WeierstrassCurve.Affine.addX]
    rw [← hdd]
    field_simp
    unfold addX addZ
    rw [hdd]
    linear_combination ((-3)*x1^2*x2*y2 + (-3)*x1*y1*x2^2 + (-1)*x1*y1*a + (3)*x1*x2^2*y2 + (-1)*x1*y2*a + (-1)*y1^2*y2 + (-2)*y1*x2*a + (1)*y1*y2^2 + (-3)*y1*b + (2)*x2^3*y2 + (3)*x2*y2*a + (1)*y2^3 + (2)*y2*b) * e1 + ((3)*x1^3*y1 + (1)*x1^3*y2 + (3)*x1^2*y1*x2 + (-3)*x1^2*x2*y2 + (-3)*x1*y1*x2^2 + (4)*x1*y1*a + (-1)*x1*y2*a + (-1)*y1*x2*a + (-1)*y1*y2^2 + (3)*y1*b + (-1)*x2*y2*a + (-2)*y2*b) * e2
  · rw [WeierstrassCurve.Affine.slope_of_X_ne hx]
    simp only [WeierstrassCurve.Affine.addY, WeierstrassCurve.Affine.negAddY, WeierstrassCurve.Affine.addX, negY_eq]
    rw [← hdd]
    field_simp
    unfold addY addZ
    rw [hdd]
    linear_combination ((3)*x1^2*y1*x2*y2 + (9)*x1^2*x2^4 + (6)*x1^2*x2^2*a + (-15)*x1^2*x2*y2^2 + (1)*x1^2*a^2 + (3)*x1*y1^2*x2^2 + (1)*x1*y1^2*a + (-6)*x1*y1*x2^2*y2 + (-6)*x1*x2^5 + (4)*x1*x2^3*a + (15)*x1*x2^2*y2^2 + (12)*x1*x2^2*b + (2)*x1*x2*a^2 + (-5)*x1*y2^2*a + (4)*x1*a*b + (1)*y1^3*y2 + (2)*y1^2*x2*a + (-2)*y1^2*y2^2 + (3)*y1^2*b + (-2)*y1*x2^3*y2 + (-5)*y1*x2*y2*a + (-5)*y1*y2*b + (-4)*x2^4*a + (-2)*x2^3*y2^2 + (-6)*x2^3*b + (3)*x2*y2^2*a + (2)*x2*a*b + (2)*y2^4 + (-2)*y2^2*b + (3)*b^2) * e1 + ((-9)*x1^5*x2 + (6)*x1^4*x2^2 + (-1)*x1^4*a + (2)*x1^3*y1*y2 + (-14)*x1^3*x2*a + (2)*x1^3*y2^2 + (6)*x1^3*b + (6)*x1^2*y1*x2*y2 + (9)*x1^2*x2^2*a + (-3)*x1^2*x2*y2^2 + (-27)*x1^2*x2*b + (-5)*x1^2*a^2 + (-3)*x1*y1*x2^2*y2 + (5)*x1*y1*y2*a + (15)*x1*x2^2*b + (3)*x1*x2*a^2 + (-7)*x1*a*b + (-1)*y1*y2^3 + (5)*y1*y2*b + (-1)*x2^2*a^2 + (-1)*x2*y2^2*a + (1)*x2*a*b + (-1)*y2^2*b + (-3)*b^2) * e2

/-- The same for the tangent. -/
theorem add_double (two : (2 : F) ≠ 0) (n2 : NoTwo a b) {x y : F} (h : (curve a b).Nonsingular x y) :
    PRep a b (addX a b x y 1 x y 1) (addY a b x y 1 x y 1) (addZ a b x y 1 x y 1)
      (.some x y h + .some x y h) := by
  have e := eqn_iff.1 h.1
  have hy := y_ne_zero n2 e
  have hny : y ≠ (curve a b).negY x y := by
    rw [negY_eq]
    intro hc
    have : (2 : F) * y = 0 := by linear_combination hc
    rcases mul_eq_zero.1 this with h | h
    · exact two h
    · exact hy h
  have hz : addZ a b x y 1 x y 1 = 8 * y ^ 3 := by
    unfold addZ
    linear_combination (-6 * y) * e
  have h8 : (8 : F) * y ^ 3 ≠ 0 := by
    have : (8 : F) = 2 ^ 3 := by norm_num
    rw [this]
    exact mul_ne_zero (pow_ne_zero _ two) (pow_ne_zero _ hy)
  refine Or.inr ⟨by rw [hz]; exact h8, ?_⟩
  rw [WeierstrassCurve.Affine.Point.add_self_of_Y_ne hny]
  have hsl : (curve a b).slope x x y y = (3 * x ^ 2 + a) / (2 * y) := by
    rw [WeierstrassCurve.Affine.slope_of_Y_ne rfl hny, negY_eq]
    congr 1 <;> ring
  refine ⟨_, _, _, rfl, ?_, ?_⟩
  · rw [hz, hsl]
    simp only [WeierstrassCurve.Affine.addX]
    field_simp
    unfold addX
    linear_combination (72 * x * y) * e
  · rw [hz, hsl]
    simp only [WeierstrassCurve.Affine.addY, WeierstrassCurve.Affine.negAddY, WeierstrassCurve.Affine.addX, negY_eq]
    field_simp
    unfold addY
    linear_combination (72 * y ^ 2 - 24 * a * x - 216 * x ^ 3 + 72 * b) * e

/-- **Completeness.** On a curve without points of order two the formulas give the sum of any two points represented with
`Z ≠ 0`. -/
theorem add_spec (two : (2 : F) ≠ 0) (n2 : NoTwo a b) {X1 Y1 Z1 X2 Y2 Z2 : F} {P Q : Pt a b}
    (hP : PRep a b X1 Y1 Z1 P) (hQ : PRep a b X2 Y2 Z2 Q) (z1 : Z1 ≠ 0) (z2 : Z2 ≠ 0) :
    PRep a b (addX a b X1 Y1 Z1 X2 Y2 Z2) (addY a b X1 Y1 Z1 X2 Y2 Z2) (addZ a b X1 Y1 Z1 X2 Y2 Z2) (P + Q) := by
  rcases hP with ⟨z, _⟩ | ⟨-, x1, y1, h1, rfl, rfl, rfl⟩
  · exact absurd z z1
  rcases hQ with ⟨z, _⟩ | ⟨-, x2, y2, h2, rfl, rfl, rfl⟩
  · exact absurd z z2
  have hs : Z1 ^ 2 * Z2 ^ 2 ≠ 0 := mul_ne_zero (pow_ne_zero _ z1) (pow_ne_zero _ z2)
  have hX : addX a b (x1 * Z1) (y1 * Z1) Z1 (x2 * Z2) (y2 * Z2) Z2 = addX a b x1 y1 1 x2 y2 1 * (Z1 ^ 2 * Z2 ^ 2) := by
    unfold addX; ring
  have hY : addY a b (x1 * Z1) (y1 * Z1) Z1 (x2 * Z2) (y2 * Z2) Z2 = addY a b x1 y1 1 x2 y2 1 * (Z1 ^ 2 * Z2 ^ 2) := by
    unfold addY; ring
  have hZ : addZ a b (x1 * Z1) (y1 * Z1) Z1 (x2 * Z2) (y2 * Z2) Z2 = addZ a b x1 y1 1 x2 y2 1 * (Z1 ^ 2 * Z2 ^ 2) := by
    unfold addZ; ring
  rw [hX, hY, hZ]
  have scale : ∀ {X Y Z k : F} {R : Pt a b}, k ≠ 0 → PRep a b X Y Z R → PRep a b (X * k) (Y * k) (Z * k) R := by
    intro X Y Z k R hk h
    rcases h with ⟨z, r⟩ | ⟨z, x, y, h, r, hx, hy⟩
    · exact Or.inl ⟨by rw [z, zero_mul], r⟩
    · exact Or.inr ⟨mul_ne_zero z hk, x, y, h, r, by rw [hx, mul_assoc], by rw [hy, mul_assoc]⟩
  refine scale hs ?_
  by_cases hx : x1 = x2
  · subst hx
    have e1 := eqn_iff.1 h1.1
    have e2 := eqn_iff.1 h2.1
    have : (y1 - y2) * (y1 + y2) = 0 := by linear_combination e1 - e2
    rcases mul_eq_zero.1 this with h | h
    · have : y1 = y2 := sub_eq_zero.1 h
      subst this
      exact add_double two n2 h1
    · have hy : y1 = -y2 := eq_neg_of_add_eq_zero_left h
      subst hy
      refine Or.inl ⟨by unfold addZ; ring, ?_⟩
      exact WeierstrassCurve.Affine.Point.add_of_Y_eq rfl (by rw [negY_eq])
  · exact add_generic n2 h1 h2 hx

theorem neg_spec {X Y Z : F} {P : Pt a b} (hP : PRep a b X Y Z P) : PRep a b X (-Y) Z (-P) := by
  rcases hP with ⟨z, rfl⟩ | ⟨z, x, y, h, rfl, hx, hy⟩
  · exact Or.inl ⟨z, neg_zero⟩
  · refine Or.inr ⟨z, x, -y, ?_, ?_, hx, by rw [hy, neg_mul]⟩
    · have := (WeierstrassCurve.Affine.nonsingular_neg (W' := curve a b) x y).2 h
      rwa [negY_eq] at this
    · rw [WeierstrassCurve.Affine.Point.neg_some]
      congr 1
      exact negY_eq

/-- The coordinates of a point with `Z ≠ 0` satisfy the homogeneous equation. -/
theorem prep_eqn {X Y Z : F} {P : Pt a b} (hP : PRep a b X Y Z P) (z : Z ≠ 0) :
    Y ^ 2 * Z = X ^ 3 + a * X * Z ^ 2 + b * Z ^ 3 := by
  rcases hP with ⟨z0, _⟩ | ⟨-, x, y, h, rfl, rfl, rfl⟩
  · exact absurd z0 z
  · linear_combination Z ^ 3 * eqn_iff.1 h.1

/-- Every point has a representation, and every triple on the curve represents a point. -/
theorem prep_of_eqn (two : (2 : F) ≠ 0) (n2 : NoTwo a b) {X Y Z : F} (z : Z ≠ 0)
    (h : Y ^ 2 * Z = X ^ 3 + a * X * Z ^ 2 + b * Z ^ 3) : ∃ P : Pt a b, PRep a b X Y Z P := by
  have e : (Y / Z) ^ 2 = (X / Z) ^ 3 + a * (X / Z) + b := by
    field_simp
    linear_combination h
  exact ⟨.some _ _ (nonsing two n2 e), Or.inr ⟨z, _, _, _, rfl, (div_mul_cancel₀ _ z).symm, (div_mul_cancel₀ _ z).symm⟩⟩

theorem prep_zero (X Y : F) : PRep a b X Y 0 0 := Or.inl ⟨rfl, rfl⟩

theorem prep_isZero {X Y Z : F} {P : Pt a b} (hP : PRep a b X Y Z P) : Z = 0 ↔ P = 0 := by
  rcases hP with ⟨z, rfl⟩ | ⟨z, x, y, h, rfl, hx, hy⟩
  · simp [z]
  · simp [z, WeierstrassCurve.Affine.Point.some_ne_zero]

end

end Verif.Native.Weier
