import Verif.Bls381.GroupSpec
import Mathlib.GroupTheory.QuotientGroup.Finite
import Mathlib.GroupTheory.OrderOfElement
import Mathlib.Data.ZMod.Basic
import Mathlib.Data.ZMod.QuotientGroup

/-!
# Maps of the curve `y² = x³ + b` that multiply the coordinates, and counting points

No definition of the code is modelled here.
-/

set_option linter.unusedSectionVars false

namespace Verif.Bls381.Twist
open Verif.Native Verif.Native.Weier P3

section
variable {K : Type} [_root_.Field K] [DecidableEq K] {b : K}

theorem exists_H (P : Pt (0 : K) b) : ∃ X Y Z, H b X Y Z P := by
  cases P with
  | zero => exact ⟨0, 1, 0, Or.inl ⟨rfl, rfl⟩, fun _ => ⟨rfl, one_ne_zero⟩⟩
  | some x y h =>
    exact ⟨x, y, 1, Or.inr ⟨one_ne_zero, x, y, h, rfl, (mul_one _).symm, (mul_one _).symm⟩, fun h => absurd h one_ne_zero⟩

/-- What makes `(x, y) ↦ (cx σx, cy σy)` a map of the curve. -/
structure Ok (σ : K →+* K) (cx cy b : K) : Prop where
  two : (2 : K) ≠ 0
  noTwo : NoTwo (0 : K) b
  cy0 : cy ≠ 0
  sq : cy ^ 2 = cx ^ 3
  coeff : σ b * cx ^ 3 = b

variable {σ : K →+* K} {cx cy : K} (k : Ok σ cx cy b)
include k

theorem eqn {x y : K} (h : (curve (0 : K) b).Nonsingular x y) : (curve (0 : K) b).Nonsingular (cx * σ x) (cy * σ y) := by
  refine nonsing k.two k.noTwo ?_
  have e := congrArg σ (eqn_iff.1 h.1)
  rw [map_pow, map_add, map_add, map_pow, map_mul, map_zero] at e
  linear_combination cy ^ 2 * e + (σ x ^ 3 + σ b) * k.sq + k.coeff

/-- The map on points. -/
def fn : Pt (0 : K) b → Pt (0 : K) b
  | .zero => 0
  | .some x y h => .some (cx * σ x) (cy * σ y) (eqn k h)

theorem fn_H {X Y Z : K} {P : Pt (0 : K) b} (h : H b X Y Z P) : H b (cx * σ X) (cy * σ Y) (σ Z) (fn k P) := by
  obtain ⟨h1, h2⟩ := h
  refine ⟨?_, fun hz => ?_⟩
  · rcases h1 with ⟨z, rfl⟩ | ⟨z, x, y, h, rfl, hx, hy⟩
    · exact Or.inl ⟨by rw [z, map_zero], rfl⟩
    · refine Or.inr ⟨fun hc => z ((map_eq_zero σ).1 hc), cx * σ x, cy * σ y, eqn k h, rfl, ?_, ?_⟩
      · rw [hx, map_mul, mul_assoc]
      · rw [hy, map_mul, mul_assoc]
  · obtain ⟨e, f⟩ := h2 ((map_eq_zero σ).1 hz)
    refine ⟨by rw [e, map_zero, mul_zero], mul_ne_zero k.cy0 (fun hc => f ((map_eq_zero σ).1 hc))⟩

theorem fn_add (P Q : Pt (0 : K) b) : fn k (P + Q) = fn k P + fn k Q := by
  obtain ⟨X1, Y1, Z1, h1⟩ := exists_H P
  obtain ⟨X2, Y2, Z2, h2⟩ := exists_H Q
  have l := (fn_H k (h1.add k.two k.noTwo h2)).scale (pow_ne_zero 3 k.cy0)
  have r := (fn_H k h1).add k.two k.noTwo (fn_H k h2)
  have hb : σ b * cy ^ 2 = b := by rw [k.sq]; exact k.coeff
  refine prep_unique l.1 ?_
  convert r.1 using 1
  · unfold addX
    simp only [map_sub, map_add, map_mul, map_pow, map_zero, map_ofNat]
    linear_combination (-3 * cx * cy * ((σ X1 * σ Y2 + σ X2 * σ Y1) * (σ Z1 * σ Z2) +
      (σ Y1 * σ Z2 + σ Y2 * σ Z1) * (σ X1 * σ Z2 + σ X2 * σ Z1))) * hb
  · unfold addY
    simp only [map_sub, map_add, map_mul, map_pow, map_zero, map_ofNat]
    linear_combination (-9 * (σ Z1 * σ Z2) ^ 2 * (cy ^ 2 * σ b + b) +
      9 * (σ X1 * σ X2 * (σ X1 * σ Z2 + σ X2 * σ Z1)) * cy ^ 2) * hb +
      (9 * (σ X1 * σ X2 * (σ X1 * σ Z2 + σ X2 * σ Z1)) * b) * k.sq
  · unfold addZ
    simp only [map_add, map_mul, map_zero, map_ofNat]
    linear_combination (3 * cy * ((σ Y1 * σ Z2 + σ Y2 * σ Z1) * (σ Z1 * σ Z2))) * hb +
      (3 * cy * ((σ X1 * σ Y2 + σ X2 * σ Y1) * (σ X1 * σ X2))) * k.sq

/-- The map as a homomorphism. -/
def hom : Pt (0 : K) b →+ Pt (0 : K) b where
  toFun := fn k
  map_zero' := rfl
  map_add' := fn_add k

end

end Verif.Bls381.Twist
