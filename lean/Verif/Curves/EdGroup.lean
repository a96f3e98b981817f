import Verif.Base.Tactics

/-!
# `EdGroup`: the group law of a twisted Edwards curve `-x² + y² = 1 + d x² y²`

Over any field in which `-1` is a square, `d` is not and two is not zero: the addition formulas are complete and make the points a commutative
group.  The cofactors of the polynomial identities were found by division with remainder; `ring` checks them.
-/

set_option linter.unusedSectionVars false

namespace Verif.Edwards

variable {F : Type} [Field F]

/-- The curve equation. -/
def On (d : F) (P : F × F) : Prop := -P.1 ^ 2 + P.2 ^ 2 = 1 + d * P.1 ^ 2 * P.2 ^ 2

/-- The addition formulas. -/
def add (d : F) (P Q : F × F) : F × F :=
  ((P.1 * Q.2 + Q.1 * P.2) / (1 + d * P.1 * Q.1 * P.2 * Q.2), (P.2 * Q.2 + P.1 * Q.1) / (1 - d * P.1 * Q.1 * P.2 * Q.2))

/-- What is asked of the field and the constant. -/
structure Good (d i : F) : Prop where
  root : i * i = -1
  nonsquare : ¬ IsSquare d
  two : (2 : F) ≠ 0

variable {d i : F}

/-- The denominators do not vanish. -/
theorem complete (g : Good d i) {P Q : F × F} (hP : On d P) (hQ : On d Q) :
    1 + d * P.1 * Q.1 * P.2 * Q.2 ≠ 0 ∧ 1 - d * P.1 * Q.1 * P.2 * Q.2 ≠ 0 := by
  obtain ⟨x1, y1⟩ := P
  obtain ⟨x2, y2⟩ := Q
  unfold On at hP hQ
  dsimp only at hP hQ ⊢
  have main : (d * x1 * x2 * y1 * y2) ^ 2 ≠ 1 := by
    intro hT
    have hne : d * x1 * x2 * y1 * y2 ≠ 0 := fun h => by rw [h] at hT; exact zero_ne_one (by linear_combination hT)
    have hx1 : x1 ≠ 0 := fun h => hne (by rw [h]; ring)
    have hy1 : y1 ≠ 0 := fun h => hne (by rw [h]; ring)
    have hy2 : y2 ≠ 0 := fun h => hne (by rw [h]; ring)
    have ha : (i * x1 + d * x1 * x2 * y1 * y2 * y1) ^ 2 = d * (x1 * y1 * (i * x2 + y2)) ^ 2 := by
      linear_combination (x1 ^ 2 - d * x1 ^ 2 * y1 ^ 2 * x2 ^ 2) * g.root + (y1 ^ 2 - 1) * hT + hP - d * x1 ^ 2 * y1 ^ 2 * hQ
    have hb : (i * x1 - d * x1 * x2 * y1 * y2 * y1) ^ 2 = d * (x1 * y1 * (i * x2 - y2)) ^ 2 := by
      linear_combination (x1 ^ 2 - d * x1 ^ 2 * y1 ^ 2 * x2 ^ 2) * g.root + (y1 ^ 2 - 1) * hT + hP - d * x1 ^ 2 * y1 ^ 2 * hQ
    have sq : ∀ a b : F, a ^ 2 = d * b ^ 2 → b = 0 := by
      intro a b h
      by_contra hb
      exact g.nonsquare ⟨a / b, by field_simp; linear_combination -h⟩
    have z1 := (mul_eq_zero.1 (sq _ _ ha)).resolve_left (mul_ne_zero hx1 hy1)
    have z2 := (mul_eq_zero.1 (sq _ _ hb)).resolve_left (mul_ne_zero hx1 hy1)
    have : 2 * y2 = 0 := by linear_combination z1 - z2
    exact (mul_ne_zero g.two hy2) this
  constructor
  · intro h
    exact main (by linear_combination (d * x1 * x2 * y1 * y2 - 1) * h)
  · intro h
    exact main (by linear_combination (-(d * x1 * x2 * y1 * y2) - 1) * h)

theorem clear {A B u v : F} (hu : u ≠ 0) (hv : v ≠ 0) (h : -(A ^ 2 * v ^ 2) + B ^ 2 * u ^ 2 = u ^ 2 * v ^ 2 + d * A ^ 2 * B ^ 2) :
    -(A / u) ^ 2 + (B / v) ^ 2 = 1 + d * (A / u) ^ 2 * (B / v) ^ 2 := by
  field_simp
  linear_combination h

/-- The sum is on the curve. -/
theorem on_add (g : Good d i) {P Q : F × F} (hP : On d P) (hQ : On d Q) : On d (add d P Q) := by
  obtain ⟨n1, n2⟩ := complete g hP hQ
  obtain ⟨x1, y1⟩ := P
  obtain ⟨x2, y2⟩ := Q
  unfold On at hP hQ
  dsimp only at hP hQ n1 n2
  unfold On add
  dsimp only
  refine clear n1 n2 ?_
  linear_combination ((1) * d ^ 3 * x1 ^ 2 * y1 ^ 2 * x2 ^ 4 * y2 ^ 4 + (-1) * d ^ 2 * x1 ^ 2 * x2 ^ 4 * y2 ^ 4 + (1) * d ^ 2 * y1 ^ 2 * x2 ^ 4 * y2 ^ 4
      + (-1) * d ^ 2 * x2 ^ 4 * y2 ^ 4 + (-1) * d * x1 ^ 2 * x2 ^ 4 * y2 ^ 2 + (1) * d * x1 ^ 2 * x2 ^ 2 * y2 ^ 4 + (1) * d * y1 ^ 2 *
      x2 ^ 4 * y2 ^ 2 + (-1) * d * y1 ^ 2 * x2 ^ 2 * y2 ^ 4 + (-2) * d * x2 ^ 4 * y2 ^ 4 + (-2) * d * x2 ^ 2 * y2 ^ 2 + (-2) * x2 ^ 4 *
      y2 ^ 2 + (1) * x2 ^ 4 + (2) * x2 ^ 2 * y2 ^ 4 + (-4) * x2 ^ 2 * y2 ^ 2 + (1) * y2 ^ 4) * hP + ((1) * d * x1 ^ 4 * x2 ^ 2 * y2 ^ 2 + (2) * d * x1 ^ 2 * x2 ^ 2 * y2 ^ 2 + (1) * d * y1 ^ 4 * x2 ^ 2 * y2 ^ 2 + (-2) * d * y1 ^ 2 *
      x2 ^ 2 * y2 ^ 2 + (1) * d * x2 ^ 2 * y2 ^ 2 + (2) * x1 ^ 2 * x2 ^ 2 * y2 ^ 2 + (-1) * x1 ^ 2 * x2 ^ 2 + (1) * x1 ^ 2 * y2 ^ 2 +
      (-2) * y1 ^ 2 * x2 ^ 2 * y2 ^ 2 + (1) * y1 ^ 2 * x2 ^ 2 + (-1) * y1 ^ 2 * y2 ^ 2 + (2) * x2 ^ 2 * y2 ^ 2 + (-1) * x2 ^ 2 + (1) *
      y2 ^ 2 + (1)) * hQ

theorem add_comm' (P Q : F × F) : add d P Q = add d Q P := by
  unfold add
  refine Prod.ext ?_ ?_ <;> dsimp only <;> congr 1 <;> ring

theorem on_zero : On d (0, 1) := by unfold On; ring

theorem zero_add' (P : F × F) : add d (0, 1) P = P := by
  unfold add
  refine Prod.ext ?_ ?_ <;> dsimp only <;> simp

theorem on_neg {P : F × F} (h : On d P) : On d (-P.1, P.2) := by
  unfold On at h ⊢
  dsimp only
  linear_combination h

theorem neg_add' (g : Good d i) {P : F × F} (h : On d P) : add d (-P.1, P.2) P = (0, 1) := by
  obtain ⟨n1, n2⟩ := complete g (on_neg h) h
  unfold On at h
  unfold add
  dsimp only at n1 n2 ⊢
  refine Prod.ext ?_ ?_
  · dsimp only
    rw [div_eq_zero_iff]
    exact Or.inl (by ring)
  · dsimp only
    rw [div_eq_one_iff_eq n2]
    linear_combination h

theorem assoc_x {x1 y1 x2 y2 x3 y3 : F} (h1 : -x1 ^ 2 + y1 ^ 2 = 1 + d * x1 ^ 2 * y1 ^ 2) (h2 : -x2 ^ 2 + y2 ^ 2 = 1 + d * x2 ^ 2 * y2 ^ 2)
    (h3 : -x3 ^ 2 + y3 ^ 2 = 1 + d * x3 ^ 2 * y3 ^ 2) :
    ((x1 * y2 + x2 * y1) * y3 * (1 - d * x1 * x2 * y1 * y2) + x3 * (y1 * y2 + x1 * x2) * (1 + d * x1 * x2 * y1 * y2)) *
      (1 - (d * x2 * x3 * y2 * y3) ^ 2 + d * x1 * (x2 * y3 + x3 * y2) * y1 * (y2 * y3 + x2 * x3)) =
    (x1 * (y2 * y3 + x2 * x3) * (1 + d * x2 * x3 * y2 * y3) + (x2 * y3 + x3 * y2) * y1 * (1 - d * x2 * x3 * y2 * y3)) *
      (1 - (d * x1 * x2 * y1 * y2) ^ 2 + d * (x1 * y2 + x2 * y1) * x3 * (y1 * y2 + x1 * x2) * y3) := by
  linear_combination (- d ^ 2 * x1 * x2 ^ 4 * y2 ^ 3 * x3 ^ 2 * y3 - d ^ 2 * x1 * x2 ^ 3 * y2 ^ 4 * x3 * y3 ^ 2 + d ^ 2 * y1 * x2 ^ 4 * y2 ^ 3 * x3 * y3
      ^ 2 + d ^ 2 * y1 * x2 ^ 3 * y2 ^ 4 * x3 ^ 2 * y3 - d * x1 * x2 ^ 4 * y2 * x3 ^ 2 * y3 - d * x1 * x2 ^ 3 * y2 ^ 2 * x3 ^ 3 - d * x1
      * x2 ^ 3 * y2 ^ 2 * x3 + d * x1 * x2 ^ 2 * y2 ^ 3 * y3 ^ 3 - d * x1 * x2 ^ 2 * y2 ^ 3 * y3 + d * x1 * x2 * y2 ^ 4 * x3 * y3 ^ 2 +
      d * y1 * x2 ^ 4 * y2 * x3 * y3 ^ 2 + d * y1 * x2 ^ 3 * y2 ^ 2 * y3 ^ 3 - d * y1 * x2 ^ 3 * y2 ^ 2 * y3 - d * y1 * x2 ^ 2 * y2 ^ 3
      * x3 ^ 3 - d * y1 * x2 ^ 2 * y2 ^ 3 * x3 - d * y1 * x2 * y2 ^ 4 * x3 ^ 2 * y3) * h1
    + (d ^ 2 * x1 ^ 2 * y1 * x2 ^ 2 * y2 * x3 ^ 3 * y3 ^ 2 - d ^ 2 * x1 ^ 2 * y1 * x2 * y2 ^ 2 * x3 ^ 2 * y3 ^ 3 - d ^ 2 * x1 * y1 ^ 2 *
      x2 ^ 2 * y2 * x3 ^ 2 * y3 ^ 3 + d ^ 2 * x1 * y1 ^ 2 * x2 * y2 ^ 2 * x3 ^ 3 * y3 ^ 2 + d * x1 ^ 3 * x2 ^ 2 * y2 * x3 ^ 2 * y3 + d *
      x1 ^ 3 * x2 * y2 ^ 2 * x3 * y3 ^ 2 + d * x1 ^ 3 * x2 * x3 ^ 3 * y3 ^ 2 + d * x1 ^ 3 * y2 * x3 ^ 2 * y3 ^ 3 - d * x1 ^ 2 * y1 * x2
      ^ 2 * y2 * x3 * y3 ^ 2 - d * x1 ^ 2 * y1 * x2 * y2 ^ 2 * x3 ^ 2 * y3 + d * x1 ^ 2 * y1 * x2 * x3 ^ 2 * y3 ^ 3 + d * x1 ^ 2 * y1 *
      y2 * x3 ^ 3 * y3 ^ 2 - d * x1 * y1 ^ 2 * x2 ^ 2 * y2 * x3 ^ 2 * y3 - d * x1 * y1 ^ 2 * x2 * y2 ^ 2 * x3 * y3 ^ 2 - d * x1 * y1 ^ 2
      * x2 * x3 ^ 3 * y3 ^ 2 - d * x1 * y1 ^ 2 * y2 * x3 ^ 2 * y3 ^ 3 + d * x1 * x2 ^ 2 * y2 * x3 ^ 2 * y3 + d * x1 * x2 * y2 ^ 2 * x3 *
      y3 ^ 2 + d * x1 * x2 * x3 ^ 3 * y3 ^ 2 + d * x1 * y2 * x3 ^ 2 * y3 ^ 3 + d * y1 ^ 3 * x2 ^ 2 * y2 * x3 * y3 ^ 2 + d * y1 ^ 3 * x2
      * y2 ^ 2 * x3 ^ 2 * y3 - d * y1 ^ 3 * x2 * x3 ^ 2 * y3 ^ 3 - d * y1 ^ 3 * y2 * x3 ^ 3 * y3 ^ 2 - d * y1 * x2 ^ 2 * y2 * x3 * y3 ^
      2 - d * y1 * x2 * y2 ^ 2 * x3 ^ 2 * y3 + d * y1 * x2 * x3 ^ 2 * y3 ^ 3 + d * y1 * y2 * x3 ^ 3 * y3 ^ 2 + x1 ^ 3 * x2 * x3 ^ 3 - x1
      ^ 3 * x2 * x3 * y3 ^ 2 + x1 ^ 3 * x2 * x3 + x1 ^ 3 * y2 * x3 ^ 2 * y3 - x1 ^ 3 * y2 * y3 ^ 3 + x1 ^ 3 * y2 * y3 + x1 ^ 2 * y1 * x2
      * x3 ^ 2 * y3 - x1 ^ 2 * y1 * x2 * y3 ^ 3 + x1 ^ 2 * y1 * x2 * y3 + x1 ^ 2 * y1 * y2 * x3 ^ 3 - x1 ^ 2 * y1 * y2 * x3 * y3 ^ 2 +
      x1 ^ 2 * y1 * y2 * x3 - x1 * y1 ^ 2 * x2 * x3 ^ 3 + x1 * y1 ^ 2 * x2 * x3 * y3 ^ 2 - x1 * y1 ^ 2 * x2 * x3 - x1 * y1 ^ 2 * y2 * x3
      ^ 2 * y3 + x1 * y1 ^ 2 * y2 * y3 ^ 3 - x1 * y1 ^ 2 * y2 * y3 + x1 * x2 * x3 ^ 3 - x1 * x2 * x3 * y3 ^ 2 + x1 * x2 * x3 + x1 * y2 *
      x3 ^ 2 * y3 - x1 * y2 * y3 ^ 3 + x1 * y2 * y3 - y1 ^ 3 * x2 * x3 ^ 2 * y3 + y1 ^ 3 * x2 * y3 ^ 3 - y1 ^ 3 * x2 * y3 - y1 ^ 3 * y2
      * x3 ^ 3 + y1 ^ 3 * y2 * x3 * y3 ^ 2 - y1 ^ 3 * y2 * x3 + y1 * x2 * x3 ^ 2 * y3 - y1 * x2 * y3 ^ 3 + y1 * x2 * y3 + y1 * y2 * x3 ^
      3 - y1 * y2 * x3 * y3 ^ 2 + y1 * y2 * x3) * h2
    + (- d * x1 ^ 2 * y1 * x2 ^ 2 * y2 * x3 + d * x1 ^ 2 * y1 * x2 * y2 ^ 2 * y3 + d * x1 * y1 ^ 2 * x2 ^ 2 * y2 * y3 - d * x1 * y1 ^ 2 *
      x2 * y2 ^ 2 * x3 - x1 ^ 3 * x2 ^ 3 * x3 - x1 ^ 3 * x2 ^ 2 * y2 * y3 + x1 ^ 3 * x2 * y2 ^ 2 * x3 - x1 ^ 3 * x2 * x3 + x1 ^ 3 * y2 ^
      3 * y3 - x1 ^ 3 * y2 * y3 - x1 ^ 2 * y1 * x2 ^ 3 * y3 - x1 ^ 2 * y1 * x2 ^ 2 * y2 * x3 + x1 ^ 2 * y1 * x2 * y2 ^ 2 * y3 - x1 ^ 2 *
      y1 * x2 * y3 + x1 ^ 2 * y1 * y2 ^ 3 * x3 - x1 ^ 2 * y1 * y2 * x3 + x1 * y1 ^ 2 * x2 ^ 3 * x3 + x1 * y1 ^ 2 * x2 ^ 2 * y2 * y3 - x1
      * y1 ^ 2 * x2 * y2 ^ 2 * x3 + x1 * y1 ^ 2 * x2 * x3 - x1 * y1 ^ 2 * y2 ^ 3 * y3 + x1 * y1 ^ 2 * y2 * y3 - x1 * x2 ^ 3 * x3 - x1 *
      x2 ^ 2 * y2 * y3 + x1 * x2 * y2 ^ 2 * x3 - x1 * x2 * x3 + x1 * y2 ^ 3 * y3 - x1 * y2 * y3 + y1 ^ 3 * x2 ^ 3 * y3 + y1 ^ 3 * x2 ^ 2
      * y2 * x3 - y1 ^ 3 * x2 * y2 ^ 2 * y3 + y1 ^ 3 * x2 * y3 - y1 ^ 3 * y2 ^ 3 * x3 + y1 ^ 3 * y2 * x3 - y1 * x2 ^ 3 * y3 - y1 * x2 ^
      2 * y2 * x3 + y1 * x2 * y2 ^ 2 * y3 - y1 * x2 * y3 + y1 * y2 ^ 3 * x3 - y1 * y2 * x3) * h3

theorem assoc_y {x1 y1 x2 y2 x3 y3 : F} (h1 : -x1 ^ 2 + y1 ^ 2 = 1 + d * x1 ^ 2 * y1 ^ 2) (h2 : -x2 ^ 2 + y2 ^ 2 = 1 + d * x2 ^ 2 * y2 ^ 2)
    (h3 : -x3 ^ 2 + y3 ^ 2 = 1 + d * x3 ^ 2 * y3 ^ 2) :
    ((y1 * y2 + x1 * x2) * y3 * (1 + d * x1 * x2 * y1 * y2) + (x1 * y2 + x2 * y1) * x3 * (1 - d * x1 * x2 * y1 * y2)) *
      (1 - (d * x2 * x3 * y2 * y3) ^ 2 - d * x1 * (x2 * y3 + x3 * y2) * y1 * (y2 * y3 + x2 * x3)) =
    (y1 * (y2 * y3 + x2 * x3) * (1 + d * x2 * x3 * y2 * y3) + x1 * (x2 * y3 + x3 * y2) * (1 - d * x2 * x3 * y2 * y3)) *
      (1 - (d * x1 * x2 * y1 * y2) ^ 2 - d * (x1 * y2 + x2 * y1) * x3 * (y1 * y2 + x1 * x2) * y3) := by
  linear_combination (d ^ 2 * x1 * x2 ^ 4 * y2 ^ 3 * x3 * y3 ^ 2 + d ^ 2 * x1 * x2 ^ 3 * y2 ^ 4 * x3 ^ 2 * y3 - d ^ 2 * y1 * x2 ^ 4 * y2 ^ 3 * x3 ^ 2 *
      y3 - d ^ 2 * y1 * x2 ^ 3 * y2 ^ 4 * x3 * y3 ^ 2 + d * x1 * x2 ^ 4 * y2 * x3 * y3 ^ 2 + d * x1 * x2 ^ 3 * y2 ^ 2 * y3 ^ 3 - d * x1
      * x2 ^ 3 * y2 ^ 2 * y3 - d * x1 * x2 ^ 2 * y2 ^ 3 * x3 ^ 3 - d * x1 * x2 ^ 2 * y2 ^ 3 * x3 - d * x1 * x2 * y2 ^ 4 * x3 ^ 2 * y3 -
      d * y1 * x2 ^ 4 * y2 * x3 ^ 2 * y3 - d * y1 * x2 ^ 3 * y2 ^ 2 * x3 ^ 3 - d * y1 * x2 ^ 3 * y2 ^ 2 * x3 + d * y1 * x2 ^ 2 * y2 ^ 3
      * y3 ^ 3 - d * y1 * x2 ^ 2 * y2 ^ 3 * y3 + d * y1 * x2 * y2 ^ 4 * x3 * y3 ^ 2) * h1
    + (d ^ 2 * x1 ^ 2 * y1 * x2 ^ 2 * y2 * x3 ^ 2 * y3 ^ 3 - d ^ 2 * x1 ^ 2 * y1 * x2 * y2 ^ 2 * x3 ^ 3 * y3 ^ 2 - d ^ 2 * x1 * y1 ^ 2 *
      x2 ^ 2 * y2 * x3 ^ 3 * y3 ^ 2 + d ^ 2 * x1 * y1 ^ 2 * x2 * y2 ^ 2 * x3 ^ 2 * y3 ^ 3 - d * x1 ^ 3 * x2 ^ 2 * y2 * x3 * y3 ^ 2 - d *
      x1 ^ 3 * x2 * y2 ^ 2 * x3 ^ 2 * y3 + d * x1 ^ 3 * x2 * x3 ^ 2 * y3 ^ 3 + d * x1 ^ 3 * y2 * x3 ^ 3 * y3 ^ 2 + d * x1 ^ 2 * y1 * x2
      ^ 2 * y2 * x3 ^ 2 * y3 + d * x1 ^ 2 * y1 * x2 * y2 ^ 2 * x3 * y3 ^ 2 + d * x1 ^ 2 * y1 * x2 * x3 ^ 3 * y3 ^ 2 + d * x1 ^ 2 * y1 *
      y2 * x3 ^ 2 * y3 ^ 3 + d * x1 * y1 ^ 2 * x2 ^ 2 * y2 * x3 * y3 ^ 2 + d * x1 * y1 ^ 2 * x2 * y2 ^ 2 * x3 ^ 2 * y3 - d * x1 * y1 ^ 2
      * x2 * x3 ^ 2 * y3 ^ 3 - d * x1 * y1 ^ 2 * y2 * x3 ^ 3 * y3 ^ 2 - d * x1 * x2 ^ 2 * y2 * x3 * y3 ^ 2 - d * x1 * x2 * y2 ^ 2 * x3 ^
      2 * y3 + d * x1 * x2 * x3 ^ 2 * y3 ^ 3 + d * x1 * y2 * x3 ^ 3 * y3 ^ 2 - d * y1 ^ 3 * x2 ^ 2 * y2 * x3 ^ 2 * y3 - d * y1 ^ 3 * x2
      * y2 ^ 2 * x3 * y3 ^ 2 - d * y1 ^ 3 * x2 * x3 ^ 3 * y3 ^ 2 - d * y1 ^ 3 * y2 * x3 ^ 2 * y3 ^ 3 + d * y1 * x2 ^ 2 * y2 * x3 ^ 2 *
      y3 + d * y1 * x2 * y2 ^ 2 * x3 * y3 ^ 2 + d * y1 * x2 * x3 ^ 3 * y3 ^ 2 + d * y1 * y2 * x3 ^ 2 * y3 ^ 3 + x1 ^ 3 * x2 * x3 ^ 2 *
      y3 - x1 ^ 3 * x2 * y3 ^ 3 + x1 ^ 3 * x2 * y3 + x1 ^ 3 * y2 * x3 ^ 3 - x1 ^ 3 * y2 * x3 * y3 ^ 2 + x1 ^ 3 * y2 * x3 + x1 ^ 2 * y1 *
      x2 * x3 ^ 3 - x1 ^ 2 * y1 * x2 * x3 * y3 ^ 2 + x1 ^ 2 * y1 * x2 * x3 + x1 ^ 2 * y1 * y2 * x3 ^ 2 * y3 - x1 ^ 2 * y1 * y2 * y3 ^ 3
      + x1 ^ 2 * y1 * y2 * y3 - x1 * y1 ^ 2 * x2 * x3 ^ 2 * y3 + x1 * y1 ^ 2 * x2 * y3 ^ 3 - x1 * y1 ^ 2 * x2 * y3 - x1 * y1 ^ 2 * y2 *
      x3 ^ 3 + x1 * y1 ^ 2 * y2 * x3 * y3 ^ 2 - x1 * y1 ^ 2 * y2 * x3 + x1 * x2 * x3 ^ 2 * y3 - x1 * x2 * y3 ^ 3 + x1 * x2 * y3 + x1 *
      y2 * x3 ^ 3 - x1 * y2 * x3 * y3 ^ 2 + x1 * y2 * x3 - y1 ^ 3 * x2 * x3 ^ 3 + y1 ^ 3 * x2 * x3 * y3 ^ 2 - y1 ^ 3 * x2 * x3 - y1 ^ 3
      * y2 * x3 ^ 2 * y3 + y1 ^ 3 * y2 * y3 ^ 3 - y1 ^ 3 * y2 * y3 + y1 * x2 * x3 ^ 3 - y1 * x2 * x3 * y3 ^ 2 + y1 * x2 * x3 + y1 * y2 *
      x3 ^ 2 * y3 - y1 * y2 * y3 ^ 3 + y1 * y2 * y3) * h2
    + (- d * x1 ^ 2 * y1 * x2 ^ 2 * y2 * y3 + d * x1 ^ 2 * y1 * x2 * y2 ^ 2 * x3 + d * x1 * y1 ^ 2 * x2 ^ 2 * y2 * x3 - d * x1 * y1 ^ 2 *
      x2 * y2 ^ 2 * y3 - x1 ^ 3 * x2 ^ 3 * y3 - x1 ^ 3 * x2 ^ 2 * y2 * x3 + x1 ^ 3 * x2 * y2 ^ 2 * y3 - x1 ^ 3 * x2 * y3 + x1 ^ 3 * y2 ^
      3 * x3 - x1 ^ 3 * y2 * x3 - x1 ^ 2 * y1 * x2 ^ 3 * x3 - x1 ^ 2 * y1 * x2 ^ 2 * y2 * y3 + x1 ^ 2 * y1 * x2 * y2 ^ 2 * x3 - x1 ^ 2 *
      y1 * x2 * x3 + x1 ^ 2 * y1 * y2 ^ 3 * y3 - x1 ^ 2 * y1 * y2 * y3 + x1 * y1 ^ 2 * x2 ^ 3 * y3 + x1 * y1 ^ 2 * x2 ^ 2 * y2 * x3 - x1
      * y1 ^ 2 * x2 * y2 ^ 2 * y3 + x1 * y1 ^ 2 * x2 * y3 - x1 * y1 ^ 2 * y2 ^ 3 * x3 + x1 * y1 ^ 2 * y2 * x3 - x1 * x2 ^ 3 * y3 - x1 *
      x2 ^ 2 * y2 * x3 + x1 * x2 * y2 ^ 2 * y3 - x1 * x2 * y3 + x1 * y2 ^ 3 * x3 - x1 * y2 * x3 + y1 ^ 3 * x2 ^ 3 * x3 + y1 ^ 3 * x2 ^ 2
      * y2 * y3 - y1 ^ 3 * x2 * y2 ^ 2 * x3 + y1 ^ 3 * x2 * x3 - y1 ^ 3 * y2 ^ 3 * y3 + y1 ^ 3 * y2 * y3 - y1 * x2 ^ 3 * x3 - y1 * x2 ^
      2 * y2 * y3 + y1 * x2 * y2 ^ 2 * x3 - y1 * x2 * x3 + y1 * y2 ^ 3 * y3 - y1 * y2 * y3) * h3

/-- Fractions within fractions. -/
theorem frac (A B u v a b c : F) (hu : u ≠ 0) (hv : v ≠ 0) (hd : 1 + c * (A / u) * (B / v) ≠ 0) :
    u * v + c * A * B ≠ 0 ∧ (A / u * a + b * (B / v)) / (1 + c * (A / u) * (B / v)) = (A * a * v + b * B * u) / (u * v + c * A * B) := by
  have e : u * v + c * A * B = u * v * (1 + c * (A / u) * (B / v)) := by field_simp
  have h : u * v + c * A * B ≠ 0 := by rw [e]; exact mul_ne_zero (mul_ne_zero hu hv) hd
  refine ⟨h, ?_⟩
  rw [div_eq_div_iff hd h, e]
  field_simp

theorem add_assoc' (g : Good d i) {P Q R : F × F} (hP : On d P) (hQ : On d Q) (hR : On d R) :
    add d (add d P Q) R = add d P (add d Q R) := by
  obtain ⟨a1, a2⟩ := complete g hP hQ
  obtain ⟨b1, b2⟩ := complete g hQ hR
  obtain ⟨c1, c2⟩ := complete g (on_add g hP hQ) hR
  obtain ⟨d1, d2⟩ := complete g hP (on_add g hQ hR)
  obtain ⟨x1, y1⟩ := P
  obtain ⟨x2, y2⟩ := Q
  obtain ⟨x3, y3⟩ := R
  unfold On at hP hQ hR
  unfold add at c1 c2 d1 d2 ⊢
  dsimp only at hP hQ hR a1 a2 b1 b2 c1 c2 d1 d2 ⊢
  refine Prod.ext ?_ ?_
  · dsimp only
    have fl := frac (x1 * y2 + x2 * y1) (y1 * y2 + x1 * x2) _ _ y3 x3 (d * x3 * y3) a1 a2
      (by rw [show 1 + d * x3 * y3 * ((x1 * y2 + x2 * y1) / (1 + d * x1 * x2 * y1 * y2)) * ((y1 * y2 + x1 * x2) / (1 - d * x1 * x2 * y1 * y2)) =
        1 + d * ((x1 * y2 + x2 * y1) / (1 + d * x1 * x2 * y1 * y2)) * x3 * ((y1 * y2 + x1 * x2) / (1 - d * x1 * x2 * y1 * y2)) * y3 by ring]
          exact c1)
    have fr := frac (x2 * y3 + x3 * y2) (y2 * y3 + x2 * x3) _ _ y1 x1 (d * x1 * y1) b1 b2
      (by rw [show 1 + d * x1 * y1 * ((x2 * y3 + x3 * y2) / (1 + d * x2 * x3 * y2 * y3)) * ((y2 * y3 + x2 * x3) / (1 - d * x2 * x3 * y2 * y3)) =
        1 + d * x1 * ((x2 * y3 + x3 * y2) / (1 + d * x2 * x3 * y2 * y3)) * y1 * ((y2 * y3 + x2 * x3) / (1 - d * x2 * x3 * y2 * y3)) by ring]
          exact d1)
    have ax := assoc_x hP hQ hR
    have el : ∀ A B : F, (A * y3 + x3 * B) / (1 + d * A * x3 * B * y3) = (A * y3 + x3 * B) / (1 + d * x3 * y3 * A * B) := fun A B => by
      congr 1; ring
    have er : ∀ A B : F, (x1 * B + A * y1) / (1 + d * x1 * A * y1 * B) = (A * y1 + x1 * B) / (1 + d * x1 * y1 * A * B) := fun A B => by
      congr 1 <;> ring
    refine (el _ _).trans (fl.2.trans (Eq.trans ?_ (fr.2.symm.trans (er _ _).symm)))
    rw [div_eq_div_iff fl.1 fr.1]
    linear_combination ax
  · dsimp only
    have fl := frac (y1 * y2 + x1 * x2) (x1 * y2 + x2 * y1) _ _ y3 x3 (-(d * x3 * y3)) a2 a1
      (by rw [show 1 + -(d * x3 * y3) * ((y1 * y2 + x1 * x2) / (1 - d * x1 * x2 * y1 * y2)) * ((x1 * y2 + x2 * y1) / (1 + d * x1 * x2 * y1 * y2)) =
        1 - d * ((x1 * y2 + x2 * y1) / (1 + d * x1 * x2 * y1 * y2)) * x3 * ((y1 * y2 + x1 * x2) / (1 - d * x1 * x2 * y1 * y2)) * y3 by ring]
          exact c2)
    have fr := frac (y2 * y3 + x2 * x3) (x2 * y3 + x3 * y2) _ _ y1 x1 (-(d * x1 * y1)) b2 b1
      (by rw [show 1 + -(d * x1 * y1) * ((y2 * y3 + x2 * x3) / (1 - d * x2 * x3 * y2 * y3)) * ((x2 * y3 + x3 * y2) / (1 + d * x2 * x3 * y2 * y3)) =
        1 - d * x1 * ((x2 * y3 + x3 * y2) / (1 + d * x2 * x3 * y2 * y3)) * y1 * ((y2 * y3 + x2 * x3) / (1 - d * x2 * x3 * y2 * y3)) by ring]
          exact d2)
    have ay := assoc_y hP hQ hR
    have el : ∀ A B : F, (B * y3 + A * x3) / (1 - d * A * x3 * B * y3) = (B * y3 + x3 * A) / (1 + -(d * x3 * y3) * B * A) := fun A B => by
      congr 1 <;> ring
    have er : ∀ A B : F, (y1 * B + x1 * A) / (1 - d * x1 * A * y1 * B) = (B * y1 + x1 * A) / (1 + -(d * x1 * y1) * B * A) := fun A B => by
      congr 1 <;> ring
    refine (el _ _).trans (fl.2.trans (Eq.trans ?_ (fr.2.symm.trans (er _ _).symm)))
    rw [div_eq_div_iff fl.1 fr.1]
    linear_combination ay

end Verif.Edwards

