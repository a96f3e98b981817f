import Verif.Bls381.Ate
import Verif.Native.Weier

/-!
# Evaluating lines of `y² = x³ + b` at a point over a larger field

Mathematics behind `pairings.go`; no definition of the code is modelled here.
-/

set_option linter.unusedSectionVars false

namespace Verif.Bls381.Ate
open WeierstrassCurve WeierstrassCurve.Affine WeierstrassCurve.Affine.CoordinateRing Polynomial nonZeroDivisors
open Verif.Native.Weier

/-- Three points on the line `y = α x + β` and on the curve `y² = x³ + b`, with multiplicities. -/
structure Coll {F : Type} [Field F] (b x₁ y₁ x₂ y₂ x₃ y₃ α β : F) : Prop where
  l₁ : y₁ = α * x₁ + β
  l₂ : y₂ = α * x₂ + β
  l₃ : y₃ = α * x₃ + β
  e₁ : x₁ + x₂ + x₃ = α ^ 2
  e₂ : x₁ * x₂ + x₁ * x₃ + x₂ * x₃ = -2 * α * β
  e₃ : x₁ * x₂ * x₃ = β ^ 2 - b

theorem Coll.map {F L : Type} [Field F] [Field L] (ι : F →+* L) {b x₁ y₁ x₂ y₂ x₃ y₃ α β : F}
    (h : Coll b x₁ y₁ x₂ y₂ x₃ y₃ α β) : Coll (ι b) (ι x₁) (ι y₁) (ι x₂) (ι y₂) (ι x₃) (ι y₃) (ι α) (ι β) where
  l₁ := by rw [h.l₁, map_add, map_mul]
  l₂ := by rw [h.l₂, map_add, map_mul]
  l₃ := by rw [h.l₃, map_add, map_mul]
  e₁ := by have := congrArg ι h.e₁; simpa using this
  e₂ := by have := congrArg ι h.e₂; rw [map_add, map_add, map_mul, map_mul, map_mul, map_mul, map_mul, map_neg, map_ofNat] at this; exact this
  e₃ := by have := congrArg ι h.e₃; simpa using this

/-- The cubic of a line. -/
theorem Coll.cubic {F : Type} [Field F] {b x₁ y₁ x₂ y₂ x₃ y₃ α β : F} (h : Coll b x₁ y₁ x₂ y₂ x₃ y₃ α β) (z : F) :
    (z - x₁) * (z - x₂) * (z - x₃) = z ^ 3 + b - (α * z + β) ^ 2 := by
  linear_combination -z ^ 2 * h.e₁ + z * h.e₂ - h.e₃

/-- Weil reciprocity for two lines. -/
theorem Coll.recip {F : Type} [Field F] {b x₁ y₁ x₂ y₂ x₃ y₃ α β X₁ Y₁ X₂ Y₂ X₃ Y₃ μ ν : F}
    (h : Coll b x₁ y₁ x₂ y₂ x₃ y₃ α β) (k : Coll b X₁ Y₁ X₂ Y₂ X₃ Y₃ μ ν) :
    (Y₁ - (α * X₁ + β)) * (Y₂ - (α * X₂ + β)) * (Y₃ - (α * X₃ + β)) =
      -((y₁ - (μ * x₁ + ν)) * (y₂ - (μ * x₂ + ν)) * (y₃ - (μ * x₃ + ν))) := by
  rw [h.l₁, h.l₂, h.l₃, k.l₁, k.l₂, k.l₃]
  linear_combination ((μ - α) ^ 3) * k.e₃ + (μ - α) ^ 2 * (ν - β) * k.e₂ + (μ - α) * (ν - β) ^ 2 * k.e₁ +
    ((α - μ) ^ 3) * h.e₃ + (α - μ) ^ 2 * (β - ν) * h.e₂ + (α - μ) * (β - ν) ^ 2 * h.e₁

section
variable {k : Type} [Field k] [DecidableEq k] {b : k}

theorem coll_of_add {x₁ y₁ x₂ y₂ : k} (h₁ : (curve 0 b).Nonsingular x₁ y₁) (h₂ : (curve 0 b).Nonsingular x₂ y₂)
    (hxy : ¬ (x₁ = x₂ ∧ y₁ = (curve 0 b).negY x₂ y₂)) :
    ∃ x₃ y₃ h₃, (.some x₁ y₁ h₁ + .some x₂ y₂ h₂ : Pt 0 b) = .some x₃ y₃ h₃ ∧
      Coll b x₁ y₁ x₂ y₂ x₃ (-y₃) ((curve 0 b).slope x₁ x₂ y₁ y₂) (y₁ - (curve 0 b).slope x₁ x₂ y₁ y₂ * x₁) := by
  refine ⟨_, _, _, Point.add_some hxy, ?_⟩
  have hp := (curve 0 b).addPolynomial_slope h₁.1 h₂.1 hxy
  generalize hs : (curve 0 b).slope x₁ x₂ y₁ y₂ = l at *
  have hy2 : y₂ = l * x₂ + (y₁ - l * x₁) := by
    by_cases hx : x₁ = x₂
    · subst hx
      have := Y_eq_of_Y_ne h₁.1 h₂.1 rfl (fun h => hxy ⟨rfl, h⟩)
      rw [← this]; ring
    · rw [slope_of_X_ne hx] at hs
      have : x₁ - x₂ ≠ 0 := sub_ne_zero.2 hx
      rw [← hs]
      field_simp
      ring
  have hx3 : (curve 0 b).addX x₁ x₂ l = l ^ 2 - x₁ - x₂ := by simp [Affine.addX]
  have hy3 : (curve 0 b).addY x₁ x₂ y₁ l = -(l * (l ^ 2 - x₁ - x₂ - x₁) + y₁) := by simp [Affine.addY, negAddY, Affine.addX, negY]
  rw [hx3] at hp
  rw [hx3, hy3]
  rw [addPolynomial_eq] at hp
  have c1 := congrArg (fun f : k[X] => f.coeff 1) hp
  have c0 := congrArg (fun f : k[X] => f.coeff 0) hp
  have hq : (X - C x₁) * (X - C x₂) * (X - C (l ^ 2 - x₁ - x₂)) =
      (⟨1, -(x₁ + x₂ + (l ^ 2 - x₁ - x₂)), x₁ * x₂ + x₁ * (l ^ 2 - x₁ - x₂) + x₂ * (l ^ 2 - x₁ - x₂), -(x₁ * x₂ * (l ^ 2 - x₁ - x₂))⟩ : Cubic k).toPoly :=
    Cubic.prod_X_sub_C_eq
  rw [hq] at c1 c0
  simp only [coeff_neg, Cubic.coeff_eq_c, Cubic.coeff_eq_d] at c1 c0
  refine ⟨by ring, hy2, by ring, by ring, ?_, ?_⟩
  · linear_combination c1
  · linear_combination -c0

/-- A point over a larger field at which the lines of the curve are evaluated. -/
structure Pnt {L : Type} [Field L] (ι : k →+* L) (N : ℕ) (b : k) (X Y : L) : Prop where
  on : Y ^ 2 = X ^ 3 + ι b
  const : ∀ c : k, c ≠ 0 → ι c ^ N = 1
  vert0 : ∀ x y, (curve 0 b).Nonsingular x y → X - ι x ≠ 0
  vert : ∀ x y, (curve 0 b).Nonsingular x y → (X - ι x) ^ N = 1
  line : ∀ m c : k, Y - (ι m * X + ι c) ≠ 0

variable {L : Type} [Field L] {ι : k →+* L} {N : ℕ} {X Y : L}

theorem evAt_root (on : Y ^ 2 = X ^ 3 + ι b) : (curve 0 b).polynomial.eval₂ (eval₂RingHom ι X) Y = 0 := by
  rw [Affine.polynomial]
  simp only [eval₂_add, eval₂_sub, eval₂_mul, eval₂_pow, eval₂_X, eval₂_C, coe_eval₂RingHom, map_zero, zero_mul, add_zero, mul_zero]
  linear_combination on

/-- Evaluation at a point over the larger field. -/
noncomputable def evAt (on : Y ^ 2 = X ^ 3 + ι b) : (curve 0 b).CoordinateRing →+* L :=
  AdjoinRoot.lift (eval₂RingHom ι X) Y (evAt_root on)

theorem evAt_const (on : Y ^ 2 = X ^ 3 + ι b) (c : k) : evAt on (CoordinateRing.mk (curve 0 b) (C (C c))) = ι c := by
  rw [evAt, CoordinateRing.mk, AdjoinRoot.lift_mk, eval₂_C, coe_eval₂RingHom, eval₂_C]

theorem evAt_X (on : Y ^ 2 = X ^ 3 + ι b) (x : k) : evAt on (XClass (curve 0 b) x) = X - ι x := by
  rw [evAt, XClass, CoordinateRing.mk, AdjoinRoot.lift_mk, eval₂_C, coe_eval₂RingHom, eval₂_sub, eval₂_C, eval₂_X]

theorem evAt_Y (on : Y ^ 2 = X ^ 3 + ι b) (x y l : k) :
    evAt on (YClass (curve 0 b) (linePolynomial x y l)) = Y - (ι l * X + ι (y - l * x)) := by
  rw [evAt, YClass, CoordinateRing.mk, AdjoinRoot.lift_mk, linePolynomial]
  simp only [eval₂_sub, eval₂_X, eval₂_C, coe_eval₂RingHom, eval₂_add, eval₂_mul]
  rw [map_sub, map_mul]
  ring

theorem Pnt.ev (p : Pnt ι N b X Y) : Ev (curve 0 b) L (evAt p.on) N where
  const c hc := by rw [evAt_const]; exact p.const c hc
  vert0 x y h := by rw [evAt_X]; exact p.vert0 x y h
  vert x y h := by rw [evAt_X]; exact p.vert x y h
  line x y l := by rw [evAt_Y]; exact p.line _ _

theorem lv_generic (p : Pnt ι N b X Y) {x₁ y₁ x₂ y₂ : k} (h₁ : (curve 0 b).Nonsingular x₁ y₁) (h₂ : (curve 0 b).Nonsingular x₂ y₂)
    (hxy : ¬ (x₁ = x₂ ∧ y₁ = (curve 0 b).negY x₂ y₂)) : (lv p.ev (.some x₁ y₁ h₁) (.some x₂ y₂ h₂) : L) =
      (Y - (ι ((curve 0 b).slope x₁ x₂ y₁ y₂) * X + ι (y₁ - (curve 0 b).slope x₁ x₂ y₁ y₂ * x₁))) ^ N := by
  rw [lv, if_neg hxy, Units.val_pow_eq_pow_val, Units.val_mk0, evAt_Y]

theorem lv_opposite (p : Pnt ι N b X Y) {x₁ y₁ x₂ y₂ : k} (h₁ : (curve 0 b).Nonsingular x₁ y₁) (h₂ : (curve 0 b).Nonsingular x₂ y₂)
    (hxy : x₁ = x₂ ∧ y₁ = (curve 0 b).negY x₂ y₂) : lv p.ev (.some x₁ y₁ h₁) (.some x₂ y₂ h₂) = 1 := by
  rw [lv, if_pos hxy]

theorem lv_left (p : Pnt ι N b X Y) (B : Pt 0 b) : lv p.ev 0 B = 1 := by cases B <;> rfl
theorem lv_right (p : Pnt ι N b X Y) (B : Pt 0 b) : lv p.ev B 0 = 1 := by cases B <;> rfl

theorem Pnt.neg_one (p : Pnt ι N b X Y) : (-1 : L) ^ N = 1 := by
  have := p.const (-1) (neg_ne_zero.2 one_ne_zero)
  rwa [map_neg, map_one] at this

/-- Evaluating at the opposite point inverts. -/
theorem lv_neg_point (p : Pnt ι N b X Y) (p' : Pnt ι N b X (-Y)) (A B : Pt 0 b) : lv p'.ev A B = (lv p.ev A B)⁻¹ := by
  rcases A with _ | ⟨x₁, y₁, h₁⟩
  · rw [← Point.zero_def, lv_left p, lv_left p', inv_one]
  rcases B with _ | ⟨x₂, y₂, h₂⟩
  · rw [← Point.zero_def, lv_right p, lv_right p', inv_one]
  by_cases hxy : x₁ = x₂ ∧ y₁ = (curve 0 b).negY x₂ y₂
  · rw [lv_opposite p h₁ h₂ hxy, lv_opposite p' h₁ h₂ hxy, inv_one]
  · obtain ⟨x₃, y₃, h₃, -, hc⟩ := coll_of_add h₁ h₂ hxy
    refine eq_inv_of_mul_eq_one_left (Units.ext ?_)
    rw [Units.val_mul, lv_generic p h₁ h₂ hxy, lv_generic p' h₁ h₂ hxy, Units.val_one, ← mul_pow]
    have e : (-Y - (ι ((curve 0 b).slope x₁ x₂ y₁ y₂) * X + ι (y₁ - (curve 0 b).slope x₁ x₂ y₁ y₂ * x₁))) *
      (Y - (ι ((curve 0 b).slope x₁ x₂ y₁ y₂) * X + ι (y₁ - (curve 0 b).slope x₁ x₂ y₁ y₂ * x₁))) =
      -1 * ((X - ι x₁) * (X - ι x₂) * (X - ι x₃)) := by
      rw [(hc.map ι).cubic X]
      linear_combination -p.on
    rw [e, mul_pow, mul_pow, mul_pow, p.neg_one, p.vert _ _ h₁, p.vert _ _ h₂, p.vert _ _ h₃, mul_one, mul_one, mul_one]

theorem mf_neg_point (p : Pnt ι N b X Y) (p' : Pnt ι N b X (-Y)) (m : ℕ) (A : Pt 0 b) : mf p'.ev m A = (mf p.ev m A)⁻¹ := by
  induction m with
  | zero => rw [mf, mf, inv_one]
  | succ m ih => rw [mf, mf, ih, lv_neg_point p p', mul_inv]

section three
variable {X₁ Y₁ X₂ Y₂ X₃ Y₃ μ ν : L} (p₁ : Pnt ι N b X₁ Y₁) (p₂ : Pnt ι N b X₂ Y₂) (p₃ : Pnt ι N b X₃ Y₃)
  (c : Coll (ι b) X₁ Y₁ X₂ Y₂ X₃ Y₃ μ ν)
include p₁ p₂ p₃ c

theorem line_mul {x y : k} (h : (curve 0 b).Nonsingular x y) :
    (ι y - (μ * ι x + ν)) * (-ι y - (μ * ι x + ν)) = (X₁ - ι x) * (X₂ - ι x) * (X₃ - ι x) := by
  have e := c.cubic (ι x)
  have on := congrArg ι (eqn_iff.1 h.1)
  rw [map_pow, map_add, map_add, map_pow, map_mul, map_zero] at on
  linear_combination e - on

theorem line_ne {x y : k} (h : (curve 0 b).Nonsingular x y) : ι y - (μ * ι x + ν) ≠ 0 := by
  have e := line_mul p₁ p₂ p₃ c h
  refine left_ne_zero_of_mul (b := (-ι y - (μ * ι x + ν))) ?_
  rw [e]
  exact mul_ne_zero (mul_ne_zero (p₁.vert0 _ _ h) (p₂.vert0 _ _ h)) (p₃.vert0 _ _ h)

/-- The line through the three points, evaluated at a point over the small field. -/
noncomputable def dl : Pt 0 b → Lˣ
  | .zero => 1
  | .some _ _ h => Units.mk0 _ (line_ne p₁ p₂ p₃ c h)

theorem line_neg_pow {x y : k} (h : (curve 0 b).Nonsingular x y) : (ι y - (μ * ι x + ν)) ^ N * (-ι y - (μ * ι x + ν)) ^ N = 1 := by
  rw [← mul_pow, line_mul p₁ p₂ p₃ c h, mul_pow, mul_pow, p₁.vert _ _ h, p₂.vert _ _ h, p₃.vert _ _ h, mul_one, mul_one]

/-- The product of the values at three collinear points. -/
theorem lv_three (A B : Pt 0 b) : lv p₁.ev A B * lv p₂.ev A B * lv p₃.ev A B * dl p₁ p₂ p₃ c (A + B) ^ N =
    dl p₁ p₂ p₃ c A ^ N * dl p₁ p₂ p₃ c B ^ N := by
  rcases A with _ | ⟨x₁, y₁, h₁⟩
  · rw [← Point.zero_def, lv_left p₁, lv_left p₂, lv_left p₃, zero_add]
    simp [dl, Point.zero_def]
  rcases B with _ | ⟨x₂, y₂, h₂⟩
  · rw [← Point.zero_def, lv_right p₁, lv_right p₂, lv_right p₃, add_zero]
    simp [dl, Point.zero_def]
  by_cases hxy : x₁ = x₂ ∧ y₁ = (curve 0 b).negY x₂ y₂
  · rw [lv_opposite p₁ h₁ h₂ hxy, lv_opposite p₂ h₁ h₂ hxy, lv_opposite p₃ h₁ h₂ hxy, Point.add_of_Y_eq hxy.1 hxy.2]
    refine Units.ext ?_
    simp only [Point.zero_def, dl, one_mul, one_pow, mul_one, Units.val_mul, Units.val_pow_eq_pow_val, Units.val_one, Units.val_mk0]
    rw [negY_eq] at hxy
    rw [hxy.1, hxy.2, map_neg, mul_comm, line_neg_pow p₁ p₂ p₃ c h₂]
  · obtain ⟨x₃, y₃, h₃, hs, hc⟩ := coll_of_add h₁ h₂ hxy
    rw [hs]
    refine Units.ext ?_
    simp only [dl, Units.val_mul, Units.val_pow_eq_pow_val, Units.val_mk0, lv_generic p₁ h₁ h₂ hxy, lv_generic p₂ h₁ h₂ hxy, lv_generic p₃ h₁ h₂ hxy]
    rw [← mul_pow, ← mul_pow, (hc.map ι).recip c, map_neg, ← neg_one_mul, mul_pow, mul_pow, mul_pow, p₁.neg_one]
    have := line_neg_pow p₁ p₂ p₃ c h₃
    linear_combination (ι y₁ - (μ * ι x₁ + ν)) ^ N * (ι y₂ - (μ * ι x₂ + ν)) ^ N * this

theorem mf_three (m : ℕ) (A : Pt 0 b) : mf p₁.ev m A * mf p₂.ev m A * mf p₃.ev m A * dl p₁ p₂ p₃ c (m • A) ^ N =
    (dl p₁ p₂ p₃ c A ^ N) ^ m := by
  induction m with
  | zero => simp [mf, dl, Point.zero_def]
  | succ m ih =>
    have h := lv_three p₁ p₂ p₃ c (m • A) A
    rw [mf, mf, mf, succ_nsmul, pow_succ, ← ih]
    calc _ = (mf p₁.ev m A * mf p₂.ev m A * mf p₃.ev m A) * (lv p₁.ev (m • A) A * lv p₂.ev (m • A) A * lv p₃.ev (m • A) A *
          dl p₁ p₂ p₃ c (m • A + A) ^ N) := by ac_rfl
      _ = _ := by rw [h]; ac_rfl

end three

end

end Verif.Bls381.Ate
