import Verif.Bls381.Pairing
import Verif.Bls381.AtePoint
import Verif.Base.Tactics

/-!
# The line coefficients computed by the pairing steps (crypto/core/curves/native/bls12381/pairings.go:161-254)
-/

set_option linter.unusedSectionVars false

namespace Verif.Bls381.Pair
open Verif.Native Verif.Native.Weier WeierstrassCurve WeierstrassCurve.Affine

section
variable {K : Type} [Field K] [DecidableEq K] {b : K}

/-- Jacobian coordinates of a point other than the neutral element. -/
def J (X Y Z : K) (P : Pt 0 b) : Prop := ∃ x y h, P = .some x y h ∧ Z ≠ 0 ∧ X = x * Z ^ 2 ∧ Y = y * Z ^ 3

/-- `a Y + β X + c` is a multiple of the line through `A` and `B`. -/
def LineAt (a β c : K) (A B : Pt 0 b) : Prop := ∃ x₁ y₁ h₁ x₂ y₂ h₂, A = .some x₁ y₁ h₁ ∧ B = .some x₂ y₂ h₂ ∧
  ¬ (x₁ = x₂ ∧ y₁ = (curve 0 b).negY x₂ y₂) ∧ a ≠ 0 ∧ β = -(a * (curve 0 b).slope x₁ x₂ y₁ y₂) ∧
  c = -(a * (y₁ - (curve 0 b).slope x₁ x₂ y₁ y₂ * x₁))

variable {E : Type} {O : FOps E} {Rep : E → K → Prop} (F : FOK O Rep b)

/-- The stored Jacobian coordinates represent the point. -/
def JR (Rep : E → K → Prop) (e : P3 E) (P : Pt 0 b) : Prop := ∃ X Y Z, Rep e.x X ∧ Rep e.y Y ∧ Rep e.z Z ∧ J X Y Z P

/-- The stored coefficients are those of the line through the two points. -/
def Good (Rep : E → K → Prop) (co : Coeffs E) (A B : Pt 0 b) : Prop :=
  ∃ a β c, Rep co.a a ∧ Rep co.b β ∧ Rep co.c c ∧ LineAt a β c A B

theorem dbl_alg (h2 : (2 : K) ≠ 0) (n2 : NoTwo 0 b) {X Y Z : K} {P : Pt 0 b} (h : J X Y Z P) :
    LineAt (4 * Y * Z ^ 3) (-(6 * X ^ 2 * Z ^ 2)) (6 * X ^ 3 - 4 * Y ^ 2) P P ∧
    J (9 * X ^ 4 - 8 * X * Y ^ 2) ((4 * X * Y ^ 2 - (9 * X ^ 4 - 8 * X * Y ^ 2)) * (3 * X ^ 2) - 8 * Y ^ 4) (2 * Y * Z) (P + P) := by
  obtain ⟨x, y, h, rfl, hz, rfl, rfl⟩ := h
  have hy : y ≠ 0 := y_ne_zero n2 (eqn_iff.1 h.1)
  have hneg : y ≠ (curve 0 b).negY x y := by
    rw [negY_eq]
    intro e
    have : 2 * y = 0 := by linear_combination e
    exact (mul_ne_zero h2 hy) this
  have hxy : ¬ (x = x ∧ y = (curve 0 b).negY x y) := fun e => hneg e.2
  have hd : y - -y ≠ 0 := by
    intro e
    exact mul_ne_zero h2 hy (by linear_combination e)
  have hs : (curve 0 b).slope x x y y * (2 * y) = 3 * x ^ 2 := by
    rw [slope_of_Y_ne rfl hneg, negY_eq]
    have : (curve 0 b).a₁ = 0 := rfl
    have : (curve 0 b).a₂ = 0 := rfl
    have : (curve 0 b).a₄ = 0 := rfl
    simp only [*]
    rw [div_mul_eq_mul_div, div_eq_iff hd]
    ring
  obtain ⟨x₃, y₃, h₃, e, c⟩ := Ate.coll_of_add h h hxy
  generalize hl : (curve 0 b).slope x x y y = l at hs c
  refine ⟨⟨x, y, h, x, y, h, rfl, rfl, hxy, ?_, ?_, ?_⟩, x₃, y₃, h₃, e, ?_, ?_, ?_⟩
  · have h4 : (4 : K) ≠ 0 := by
      have : (4 : K) = 2 * 2 := by norm_num
      rw [this]; exact mul_ne_zero h2 h2
    exact mul_ne_zero (mul_ne_zero h4 (mul_ne_zero hy (pow_ne_zero _ hz))) (pow_ne_zero _ hz)
  · rw [hl]
    linear_combination (2 * Z ^ 6) * hs
  · rw [hl]
    linear_combination (-2 * x * Z ^ 6) * hs
  · exact mul_ne_zero (mul_ne_zero h2 (mul_ne_zero hy (pow_ne_zero _ hz))) hz
  · have e1 : x₃ = l ^ 2 - 2 * x := by linear_combination c.e₁
    rw [e1]
    linear_combination (-(Z ^ 8 * (l * (2 * y) + 3 * x ^ 2))) * hs
  · have e1 : x₃ = l ^ 2 - 2 * x := by linear_combination c.e₁
    have e3 : y₃ = -(l * x₃ + (y - l * x)) := by linear_combination -c.l₃
    rw [e3, e1]
    have k : ∀ t : K, l * (2 * y) = t → 3 * x ^ 2 = t →
        (4 * (x * Z ^ 2) * (y * Z ^ 3) ^ 2 - (t * t * Z ^ 8 - 8 * (x * Z ^ 2) * (y * Z ^ 3) ^ 2)) * (t * Z ^ 4) - 8 * (y * Z ^ 3) ^ 4 =
        -(l * (l ^ 2 - 2 * x) + (y - l * x)) * (2 * (y * Z ^ 3) * Z) ^ 3 := by
      intro t ht _
      subst ht
      ring
    have := k (3 * x ^ 2) hs rfl
    linear_combination this

theorem add_alg (h2 : (2 : K) ≠ 0) {X Y Z xq yq : K} {R : Pt 0 b} (h : J X Y Z R) (hq : (curve 0 b).Nonsingular xq yq)
    (hne : ∀ y' h', R ≠ .some xq y' h') :
    LineAt (4 * Z * (xq * Z ^ 2 - X)) (-(2 * (2 * yq * Z ^ 3 - 2 * Y)))
      (2 * (2 * yq * Z ^ 3 - 2 * Y) * xq - 2 * yq * (2 * Z * (xq * Z ^ 2 - X))) R (.some xq yq hq) ∧
    J ((2 * yq * Z ^ 3 - 2 * Y) ^ 2 - 4 * (xq * Z ^ 2 - X) ^ 3 - 8 * (xq * Z ^ 2 - X) ^ 2 * X)
      ((4 * (xq * Z ^ 2 - X) ^ 2 * X - ((2 * yq * Z ^ 3 - 2 * Y) ^ 2 - 4 * (xq * Z ^ 2 - X) ^ 3 - 8 * (xq * Z ^ 2 - X) ^ 2 * X)) *
        (2 * yq * Z ^ 3 - 2 * Y) - 8 * Y * (xq * Z ^ 2 - X) ^ 3) (2 * Z * (xq * Z ^ 2 - X)) (R + .some xq yq hq) := by
  obtain ⟨x, y, h, rfl, hz, rfl, rfl⟩ := h
  have hx : x ≠ xq := by
    rintro rfl
    exact hne y h rfl
  have hd : x - xq ≠ 0 := sub_ne_zero.2 hx
  have hd' : xq * Z ^ 2 - x * Z ^ 2 ≠ 0 := by
    rw [← sub_mul]
    exact mul_ne_zero (sub_ne_zero.2 (Ne.symm hx)) (pow_ne_zero _ hz)
  have hxy : ¬ (x = xq ∧ y = (curve 0 b).negY xq yq) := fun e => hx e.1
  have hs : (curve 0 b).slope x xq y yq * (x - xq) = y - yq := by
    rw [slope_of_X_ne hx, div_mul_cancel₀ _ hd]
  obtain ⟨x₃, y₃, h₃, e, c⟩ := Ate.coll_of_add h hq hxy
  generalize hl : (curve 0 b).slope x xq y yq = l at hs c
  have ey : y = yq + l * (x - xq) := by linear_combination -hs
  refine ⟨⟨x, y, h, xq, yq, hq, rfl, rfl, hxy, ?_, ?_, ?_⟩, x₃, y₃, h₃, e, ?_, ?_, ?_⟩
  · have h4 : (4 : K) ≠ 0 := by
      have : (4 : K) = 2 * 2 := by norm_num
      rw [this]; exact mul_ne_zero h2 h2
    exact mul_ne_zero (mul_ne_zero h4 hz) hd'
  · rw [hl, ey]; ring
  · rw [hl, ey]; ring
  · exact mul_ne_zero (mul_ne_zero h2 hz) hd'
  · have e1 : x₃ = l ^ 2 - x - xq := by linear_combination c.e₁
    rw [e1, ey]; ring
  · have e1 : x₃ = l ^ 2 - x - xq := by linear_combination c.e₁
    have e3 : y₃ = -(l * x₃ + (y - l * x)) := by linear_combination -c.l₃
    rw [e3, e1, ey]; ring

include F

theorem doublingStep_spec {e : P3 E} {P : Pt 0 b} (he : JR Rep e P) :
    Good Rep (doublingStep O e).1 P P ∧ JR Rep (doublingStep O e).2 (P + P) := by
  obtain ⟨X, Y, Z, hX, hY, hZ, h⟩ := he
  obtain ⟨hl, hj⟩ := dbl_alg F.two F.noTwo h
  have t0 := F.square hX
  have t1 := F.square hY
  have t2 := F.square t1
  have t3 := F.double (F.sub (F.sub (F.square (F.add t1 hX)) t0) t2)
  have t4 := F.add (F.double t0) t0
  have t6 := F.add hX t4
  have t5 := F.square t4
  have zs := F.square hZ
  have px := F.sub (F.sub t5 t3) t3
  have pz := F.sub (F.sub (F.square (F.add hZ hY)) t1) zs
  have py := F.sub (F.mul (F.sub t3 px) t4) (F.double (F.double (F.double t2)))
  have t3' := F.neg (F.double (F.mul t4 zs))
  have t6' := F.sub (F.sub (F.sub (F.square t6) t0) t5) (F.double (F.double t1))
  have t0' := F.double (F.mul pz zs)
  refine ⟨⟨_, _, _, t0', t3', t6', ?_⟩, ⟨_, _, _, px, py, pz, ?_⟩⟩
  · convert hl using 1 <;> ring
  · convert hj using 1 <;> ring

theorem additionStep_spec {r q : P3 E} {R : Pt 0 b} {xq yq : K} (hr : JR Rep r R) (hx : Rep q.x xq) (hy : Rep q.y yq)
    (hq : (curve 0 b).Nonsingular xq yq) (hne : ∀ y' h', R ≠ .some xq y' h') :
    Good Rep (additionStep O r q).1 R (.some xq yq hq) ∧ JR Rep (additionStep O r q).2 (R + .some xq yq hq) := by
  obtain ⟨X, Y, Z, hX, hY, hZ, h⟩ := hr
  obtain ⟨hl, hj⟩ := add_alg F.two h hq hne
  have zs := F.square hZ
  have ys := F.square hy
  have t0 := F.mul zs hx
  have t1 := F.mul (F.sub (F.sub (F.square (F.add hy hZ)) ys) zs) zs
  have t2 := F.sub t0 hX
  have t3 := F.square t2
  have t4 := F.double (F.double t3)
  have t5 := F.mul t4 t2
  have t6 := F.sub (F.sub t1 hY) hY
  have t9 := F.mul t6 hx
  have t7 := F.mul t4 hX
  have rx := F.sub (F.sub (F.sub (F.square t6) t5) t7) t7
  have rz := F.sub (F.sub (F.square (F.add hZ t2)) zs) t3
  have t8 := F.mul (F.sub t7 rx) t6
  have ry := F.sub t8 (F.double (F.mul hY t5))
  have t10 := F.sub (F.sub (F.square (F.add hy rz)) ys) (F.square rz)
  have t9' := F.sub (F.double t9) t10
  have t1' := F.double (F.neg t6)
  refine ⟨⟨_, _, _, F.double rz, t1', t9', ?_⟩, ⟨_, _, _, rx, ry, rz, ?_⟩⟩
  · convert hl using 1 <;> ring
  · convert hj using 1 <;> ring

end
end Verif.Bls381.Pair
