import Verif.Native.Weier

/-!
# Jacobian coordinates on a short Weierstrass curve `y² = x³ + b`

The mathematics behind `Ep.Double` and `Ep.Add`.  Nothing here is specific to the code.
-/

set_option linter.unusedSectionVars false

namespace Verif.Native.Weier

variable {F : Type} [Field F] [DecidableEq F]

/-- Jacobian coordinates: `x = X / Z²`, `y = Y / Z³`; every triple with `Z = 0` stands for the neutral element. -/
def JRep (a b : F) (X Y Z : F) (P : Pt a b) : Prop :=
  (Z = 0 ∧ P = 0) ∨ (Z ≠ 0 ∧ ∃ x y h, P = .some x y h ∧ X = x * Z ^ 2 ∧ Y = y * Z ^ 3)

section
variable {a b : F}

theorem jrep_unique {X Y Z : F} {P Q : Pt a b} (hP : JRep a b X Y Z P) (hQ : JRep a b X Y Z Q) : P = Q := by
  rcases hP with ⟨z, rfl⟩ | ⟨z, x, y, h, rfl, hx, hy⟩ <;> rcases hQ with ⟨z', rfl⟩ | ⟨z', x', y', h', rfl, hx', hy'⟩
  · rfl
  · exact absurd z z'
  · exact absurd z' z
  · have e1 := mul_right_cancel₀ (pow_ne_zero 2 z) (hx.symm.trans hx')
    have e2 := mul_right_cancel₀ (pow_ne_zero 3 z) (hy.symm.trans hy')
    subst e1 e2
    rfl

theorem jrep_zero (X Y : F) : JRep a b X Y 0 0 := Or.inl ⟨rfl, rfl⟩

theorem jrep_isZero {X Y Z : F} {P : Pt a b} (hP : JRep a b X Y Z P) : Z = 0 ↔ P = 0 := by
  rcases hP with ⟨z, rfl⟩ | ⟨z, x, y, h, rfl, hx, hy⟩
  · simp [z]
  · simp [z, WeierstrassCurve.Affine.Point.some_ne_zero]

theorem jneg_spec {X Y Z : F} {P : Pt a b} (hP : JRep a b X Y Z P) : JRep a b X (-Y) Z (-P) := by
  rcases hP with ⟨z, rfl⟩ | ⟨z, x, y, h, rfl, hx, hy⟩
  · exact Or.inl ⟨z, neg_zero⟩
  · refine Or.inr ⟨z, x, -y, ?_, ?_, hx, by rw [hy, neg_mul]⟩
    · have := (WeierstrassCurve.Affine.nonsingular_neg (W' := curve a b) x y).2 h
      rwa [negY_eq] at this
    · rw [WeierstrassCurve.Affine.Point.neg_some]
      congr 1
      exact negY_eq

/-- The affine coordinates of a point determine its Jacobian representations. -/
theorem jrep_of_eqn (two : (2 : F) ≠ 0) (n2 : NoTwo a b) {X Y Z : F} (z : Z ≠ 0)
    (h : Y ^ 2 = X ^ 3 + a * X * Z ^ 4 + b * Z ^ 6) : ∃ P : Pt a b, JRep a b X Y Z P := by
  have e : (Y / Z ^ 3) ^ 2 = (X / Z ^ 2) ^ 3 + a * (X / Z ^ 2) + b := by
    field_simp
    linear_combination h
  exact ⟨.some _ _ (nonsing two n2 e), Or.inr ⟨z, _, _, _, rfl, (div_mul_cancel₀ _ (pow_ne_zero 2 z)).symm,
    (div_mul_cancel₀ _ (pow_ne_zero 3 z)).symm⟩⟩

theorem jrep_eqn {X Y Z : F} {P : Pt a b} (hP : JRep a b X Y Z P) (z : Z ≠ 0) :
    Y ^ 2 = X ^ 3 + a * X * Z ^ 4 + b * Z ^ 6 := by
  rcases hP with ⟨z0, _⟩ | ⟨-, x, y, h, rfl, rfl, rfl⟩
  · exact absurd z0 z
  · linear_combination Z ^ 6 * eqn_iff.1 h.1

end

section
variable {b : F}

/-- The tangent formulas for `a = 0`. -/
theorem jdouble_spec (two : (2 : F) ≠ 0) (n2 : NoTwo 0 b) {X Y Z X3 Y3 Z3 : F} {P : Pt 0 b} (hP : JRep 0 b X Y Z P)
    (z : Z ≠ 0) (hX : X3 = 9 * X ^ 4 - 8 * X * Y ^ 2) (hY : Y3 = 3 * X ^ 2 * (4 * X * Y ^ 2 - X3) - 8 * Y ^ 4)
    (hZ : Z3 = 2 * Y * Z) : JRep 0 b X3 Y3 Z3 (P + P) := by
  rcases hP with ⟨z0, _⟩ | ⟨-, x, y, h, rfl, rfl, rfl⟩
  · exact absurd z0 z
  have e := eqn_iff.1 h.1
  have hy := y_ne_zero n2 e
  have hny : y ≠ (curve 0 b).negY x y := by
    rw [negY_eq]
    intro hc
    have : (2 : F) * y = 0 := by linear_combination hc
    rcases mul_eq_zero.1 this with h | h
    · exact two h
    · exact hy h
  have hz : Z3 ≠ 0 := by
    rw [hZ]
    exact mul_ne_zero (mul_ne_zero two (mul_ne_zero hy (pow_ne_zero 3 z))) z
  refine Or.inr ⟨hz, ?_⟩
  rw [WeierstrassCurve.Affine.Point.add_self_of_Y_ne hny]
  have hsl : (curve 0 b).slope x x y y = (3 * x ^ 2) / (2 * y) := by
    rw [WeierstrassCurve.Affine.slope_of_Y_ne rfl hny, negY_eq]
    congr 1 <;> ring
  refine ⟨_, _, _, rfl, ?_, ?_⟩
  · rw [hsl, hX, hZ]
    simp only [WeierstrassCurve.Affine.addX]
    field_simp
    ring
  · rw [hsl, hY, hX, hZ]
    simp only [WeierstrassCurve.Affine.addY, WeierstrassCurve.Affine.negAddY, WeierstrassCurve.Affine.addX, negY_eq]
    field_simp
    ring

/-- The chord formulas. -/
theorem jadd_spec {a : F} {X1 Y1 Z1 X2 Y2 Z2 X3 Y3 Z3 : F} {P Q : Pt a b} (hP : JRep a b X1 Y1 Z1 P)
    (hQ : JRep a b X2 Y2 Z2 Q) (z1 : Z1 ≠ 0) (z2 : Z2 ≠ 0) (two : (2 : F) ≠ 0) (hne : X1 * Z2 ^ 2 ≠ X2 * Z1 ^ 2)
    {H r : F} (hH : H = X2 * Z1 ^ 2 - X1 * Z2 ^ 2) (hr : r = 2 * (Y2 * Z1 ^ 3 - Y1 * Z2 ^ 3))
    (hX : X3 = r ^ 2 - 4 * H ^ 3 - 8 * (X1 * Z2 ^ 2) * H ^ 2)
    (hY : Y3 = r * (4 * (X1 * Z2 ^ 2) * H ^ 2 - X3) - 8 * (Y1 * Z2 ^ 3) * H ^ 3)
    (hZ : Z3 = 2 * Z1 * Z2 * H) : JRep a b X3 Y3 Z3 (P + Q) := by
  rcases hP with ⟨z0, _⟩ | ⟨-, x1, y1, h1, rfl, rfl, rfl⟩
  · exact absurd z0 z1
  rcases hQ with ⟨z0, _⟩ | ⟨-, x2, y2, h2, rfl, rfl, rfl⟩
  · exact absurd z0 z2
  have hx : x1 ≠ x2 := by
    rintro rfl
    exact hne (by ring)
  have hd : x1 - x2 ≠ 0 := sub_ne_zero.2 hx
  have hH' : H = -((x1 - x2) * Z1 ^ 2 * Z2 ^ 2) := by rw [hH]; ring
  have hH0 : H ≠ 0 := by
    rw [hH']
    exact neg_ne_zero.2 (mul_ne_zero (mul_ne_zero hd (pow_ne_zero 2 z1)) (pow_ne_zero 2 z2))
  have hz : Z3 ≠ 0 := by
    rw [hZ]
    exact mul_ne_zero (mul_ne_zero (mul_ne_zero two z1) z2) hH0
  refine Or.inr ⟨hz, ?_⟩
  rw [WeierstrassCurve.Affine.Point.add_of_X_ne hx]
  refine ⟨_, _, _, rfl, ?_, ?_⟩
  · rw [WeierstrassCurve.Affine.slope_of_X_ne hx, hX, hZ, hr, hH']
    simp only [WeierstrassCurve.Affine.addX]
    set d := x1 - x2 with hdd
    have : x1 = d + x2 := by rw [hdd]; ring
    rw [this]
    field_simp
    ring
  · rw [WeierstrassCurve.Affine.slope_of_X_ne hx, hY, hX, hZ, hr, hH']
    simp only [WeierstrassCurve.Affine.addY, WeierstrassCurve.Affine.negAddY, WeierstrassCurve.Affine.addX, negY_eq]
    set d := x1 - x2 with hdd
    have : x1 = d + x2 := by rw [hdd]; ring
    rw [this]
    field_simp
    ring

end

end Verif.Native.Weier
