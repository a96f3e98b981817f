import Mathlib.AlgebraicGeometry.EllipticCurve.Affine.Point
import Verif.Base.Tactics

/-!
# Functions on an elliptic curve, up to a final exponentiation

Mathematics behind `pairings.go`; no definition of the code is modelled here.  A point evaluation `ev` of the coordinate ring
together with an exponent `N` that sends constants and vertical lines to one turns every relation between lines on the curve
into a relation between `N`-th powers of their values.  The relations are those of Mathlib's ideals `⟨X - x, Y - y⟩`.
-/

set_option linter.unusedSectionVars false

namespace Verif.Bls381.Ate
open WeierstrassCurve WeierstrassCurve.Affine WeierstrassCurve.Affine.CoordinateRing Polynomial nonZeroDivisors
open scoped Polynomial.Bivariate

variable {k : Type} [Field k] [DecidableEq k] {W : WeierstrassCurve.Affine k}

theorem four {G : Type*} [CommGroup G] (a b c a' b' c' : G) :
    c * c'⁻¹ = a * a'⁻¹ * (b * b'⁻¹) * (a * b * c⁻¹)⁻¹ * (a' * b' * c'⁻¹) := by
  rw [mul_inv, mul_inv, inv_inv]
  calc _ = (a * a⁻¹) * (b * b⁻¹) * (a'⁻¹ * a') * (b'⁻¹ * b') * (c * c'⁻¹) := by
        rw [mul_inv_cancel, mul_inv_cancel, inv_mul_cancel, inv_mul_cancel, one_mul, one_mul, one_mul, one_mul]
    _ = _ := by ac_rfl

theorem three {G : Type*} [CommGroup G] (a b c : G) : a * c⁻¹ = a * b⁻¹ * (b * c⁻¹) := by
  rw [← mul_assoc, inv_mul_cancel_right]

/-- Fractional ideals of the coordinate ring. -/
abbrev Frac (W : WeierstrassCurve.Affine k) := FractionalIdeal W.CoordinateRing⁰ W.FunctionField

/-- The units of the coordinate ring are the constants. -/
theorem unit_const (u : W.CoordinateRing) (h : IsUnit u) : ∃ c : k, c ≠ 0 ∧ u = CoordinateRing.mk W (C (C c)) := by
  obtain ⟨a, b, rfl⟩ := exists_smul_basis_eq u
  have hn : IsUnit (Algebra.norm k[X] (a • (1 : W.CoordinateRing) + b • CoordinateRing.mk W Y)) := h.map _
  have hd := Polynomial.degree_eq_zero_of_isUnit hn
  rw [degree_norm_smul_basis] at hd
  have hb : b = 0 := by
    by_contra hb
    have : (2 • b.degree + 3 : WithBot ℕ) ≤ 0 := hd ▸ le_max_right _ _
    rw [Polynomial.degree_eq_natDegree hb] at this
    have h2 : ((2 * b.natDegree + 3 : ℕ) : WithBot ℕ) ≤ 0 := by
      convert this using 1
      push_cast
      rw [two_nsmul, two_mul]
    have h3 : 2 * b.natDegree + 3 ≤ 0 := by exact_mod_cast h2
    omega
  subst hb
  have ha : a.degree ≤ 0 := by
    have h1 : (2 • a.degree : WithBot ℕ) ≤ 0 := hd ▸ le_max_left _ _
    by_cases ha : a = 0
    · simp [ha]
    · rw [Polynomial.degree_eq_natDegree ha] at h1 ⊢
      have h2 : ((2 * a.natDegree : ℕ) : WithBot ℕ) ≤ 0 := by
        convert h1 using 1
        push_cast
        rw [two_nsmul, two_mul]
      have h3 : 2 * a.natDegree ≤ 0 := by exact_mod_cast h2
      have h4 : a.natDegree = 0 := by omega
      rw [h4]
      rfl
  rw [Polynomial.eq_C_of_degree_le_zero ha] at h ⊢
  refine ⟨a.coeff 0, fun hc => ?_, ?_⟩
  · rw [hc] at h
    simp at h
  · rw [zero_smul, add_zero, CoordinateRing.smul, mul_one]

/-- The ideal of a point; that of the neutral element is the whole ring. -/
noncomputable def dv : W.Point → (Frac W)ˣ
  | .zero => 1
  | .some _ _ h => XYIdeal' (W := W) h

theorem dv_zero : dv (0 : W.Point) = 1 := rfl

/-- An evaluation of the coordinate ring and an exponent for which constants and vertical lines through points of the curve
count for nothing and no other line vanishes. -/
structure Ev (W : WeierstrassCurve.Affine k) (L : Type) [Field L] (ev : W.CoordinateRing →+* L) (N : ℕ) : Prop where
  const : ∀ c : k, c ≠ 0 → ev (CoordinateRing.mk W (C (C c))) ^ N = 1
  vert0 : ∀ x y, W.Nonsingular x y → ev (XClass W x) ≠ 0
  vert : ∀ x y, W.Nonsingular x y → ev (XClass W x) ^ N = 1
  line : ∀ x y l, ev (YClass W (linePolynomial x y l)) ≠ 0

variable {L : Type} [Field L] {ev : W.CoordinateRing →+* L} {N : ℕ} (E : Ev W L ev N)

variable (ev N) in
/-- `t` is the value, after exponentiation, of a function whose ideal is `J`. -/
def Val (J : (Frac W)ˣ) (t : Lˣ) : Prop :=
  ∃ a b : W.CoordinateRing, ev a ≠ 0 ∧ ev b ≠ 0 ∧
    (J : Frac W) * ((Ideal.span {b} : Ideal W.CoordinateRing) : Frac W) = ((Ideal.span {a} : Ideal W.CoordinateRing) : Frac W) ∧
    ev a ^ N = t * ev b ^ N

variable (ev N) in
theorem val_one : Val ev N 1 1 := ⟨1, 1, by simp, by simp, by simp, by simp⟩

theorem Val.mul {J J' : (Frac W)ˣ} {t t' : Lˣ} (h : Val ev N J t) (h' : Val ev N J' t') : Val ev N (J * J') (t * t') := by
  obtain ⟨a, b, ha, hb, hJ, hv⟩ := h
  obtain ⟨a', b', ha', hb', hJ', hv'⟩ := h'
  refine ⟨a * a', b * b', by rw [map_mul]; exact mul_ne_zero ha ha', by rw [map_mul]; exact mul_ne_zero hb hb', ?_, ?_⟩
  · rw [← Ideal.span_singleton_mul_span_singleton, ← Ideal.span_singleton_mul_span_singleton, FractionalIdeal.coeIdeal_mul,
      FractionalIdeal.coeIdeal_mul, ← hJ, ← hJ', Units.val_mul]
    ac_rfl
  · rw [map_mul, map_mul, mul_pow, mul_pow, hv, hv', Units.val_mul]
    ring

theorem Val.inv {J : (Frac W)ˣ} {t : Lˣ} (h : Val ev N J t) : Val ev N J⁻¹ t⁻¹ := by
  obtain ⟨a, b, ha, hb, hJ, hv⟩ := h
  refine ⟨b, a, hb, ha, ?_, ?_⟩
  · rw [← hJ, ← mul_assoc, Units.inv_mul, one_mul]
  · rw [hv, ← mul_assoc, Units.inv_mul, one_mul]

theorem Val.pow {J : (Frac W)ˣ} {t : Lˣ} (h : Val ev N J t) (n : ℕ) : Val ev N (J ^ n) (t ^ n) := by
  induction n with
  | zero => simpa using val_one ev N
  | succ n ih => rw [pow_succ, pow_succ]; exact ih.mul h

theorem Val.unique {J : (Frac W)ˣ} {t t' : Lˣ} (E : Ev W L ev N) (h : Val ev N J t) (h' : Val ev N J t') : t = t' := by
  obtain ⟨a, b, ha, hb, hJ, hv⟩ := h
  obtain ⟨a', b', ha', hb', hJ', hv'⟩ := h'
  have e : ((Ideal.span {a * b'} : Ideal W.CoordinateRing) : Frac W) = ((Ideal.span {a' * b} : Ideal W.CoordinateRing) : Frac W) := by
    rw [← Ideal.span_singleton_mul_span_singleton, ← Ideal.span_singleton_mul_span_singleton, FractionalIdeal.coeIdeal_mul,
      FractionalIdeal.coeIdeal_mul, ← hJ, ← hJ']
    ac_rfl
  obtain ⟨u, hu⟩ := Ideal.span_singleton_eq_span_singleton.1 (FractionalIdeal.coeIdeal_inj.1 e)
  obtain ⟨c, hc, hcu⟩ := unit_const u.1 u.isUnit
  have e2 := congrArg (fun z => ev z ^ N) hu
  simp only [map_mul, mul_pow] at e2
  rw [hcu, E.const c hc, mul_one, hv, hv'] at e2
  have hb2 : ev b ^ N * ev b' ^ N ≠ 0 := mul_ne_zero (pow_ne_zero _ hb) (pow_ne_zero _ hb')
  exact Units.ext (mul_right_cancel₀ hb2 (by linear_combination e2))

include E in
theorem val_neg (A : W.Point) : Val ev N (dv A * dv (-A)) 1 := by
  cases A with
  | zero => rw [← WeierstrassCurve.Affine.Point.zero_def, neg_zero, dv_zero, one_mul]; exact val_one ev N
  | some x y h =>
    refine ⟨XClass W x, 1, E.vert0 x y h, by simp, ?_, ?_⟩
    · rw [Point.neg_some, dv, dv, Units.val_mul, XYIdeal'_eq, XYIdeal'_eq, ← FractionalIdeal.coeIdeal_mul, mul_comm, ← FractionalIdeal.coeIdeal_mul,
        mul_comm (XYIdeal W x (C y)), XYIdeal_neg_mul h, Ideal.span_singleton_one, Ideal.top_mul, XIdeal]
    · rw [E.vert x y h]; simp

/-- The value of the line through two points. -/
noncomputable def lv : W.Point → W.Point → Lˣ
  | .some x₁ y₁ _, .some x₂ y₂ _ =>
    if x₁ = x₂ ∧ y₁ = W.negY x₂ y₂ then 1
    else Units.mk0 (ev (YClass W (linePolynomial x₁ y₁ (W.slope x₁ x₂ y₁ y₂)))) (E.line _ _ _) ^ N
  | _, _ => 1

include E in
theorem val_line (A B : W.Point) : Val ev N (dv A * dv B * (dv (A + B))⁻¹) (lv E A B) := by
  cases A with
  | zero =>
    rw [← WeierstrassCurve.Affine.Point.zero_def, zero_add, dv_zero, one_mul, mul_inv_cancel]
    exact val_one ev N
  | some x₁ y₁ h₁ =>
    cases B with
    | zero =>
      rw [← WeierstrassCurve.Affine.Point.zero_def, add_zero, dv_zero, mul_one, mul_inv_cancel]
      exact val_one ev N
    | some x₂ y₂ h₂ =>
      by_cases hxy : x₁ = x₂ ∧ y₁ = W.negY x₂ y₂
      · rw [lv, if_pos hxy, Point.add_of_Y_eq hxy.1 hxy.2, dv_zero, inv_one, mul_one]
        have := val_neg E (.some x₂ y₂ h₂)
        rw [Point.neg_some, mul_comm] at this
        obtain ⟨rfl, rfl⟩ := hxy
        exact this
      · rw [lv, if_neg hxy, Point.add_some hxy]
        refine ⟨YClass W (linePolynomial x₁ y₁ (W.slope x₁ x₂ y₁ y₂)), XClass W (W.addX x₁ x₂ (W.slope x₁ x₂ y₁ y₂)),
          E.line _ _ _, E.vert0 _ _ (nonsingular_add h₁ h₂ hxy), ?_, ?_⟩
        · have e := congrArg (fun z : Ideal W.CoordinateRing => (z : Frac W)) (XYIdeal_mul_XYIdeal h₁.1 h₂.1 hxy)
          simp only [FractionalIdeal.coeIdeal_mul] at e
          rw [XIdeal, YIdeal] at e
          simp only [dv, Units.val_mul, XYIdeal'_eq]
          rw [mul_right_comm, mul_comm (_ * _ : Frac W) (((Ideal.span _ : Ideal W.CoordinateRing)) : Frac W)]
          rw [← XYIdeal'_eq (nonsingular_add h₁ h₂ hxy)] at e
          rw [e, mul_assoc, Units.mul_inv, mul_one]
        · rw [E.vert _ _ (nonsingular_add h₁ h₂ hxy), mul_one]
          rfl

include E

/-- The lines of a pair of points and of their opposites. -/
theorem lv_neg (A B : W.Point) : lv E (-A) (-B) = (lv E A B)⁻¹ := by
  have h1 := val_line E (-A) (-B)
  have h2 := (val_line E A B).inv
  have h3 := (((val_neg E A).mul (val_neg E B)).mul (val_neg E (A + B)).inv).mul h2
  refine h1.unique E ?_
  have e : dv (-A) * dv (-B) * (dv (-A + -B))⁻¹ =
      dv A * dv (-A) * (dv B * dv (-B)) * (dv (A + B) * dv (-(A + B)))⁻¹ * (dv A * dv B * (dv (A + B))⁻¹)⁻¹ := by
    rw [neg_add A B]
    generalize dv A = a
    generalize dv B = b
    generalize dv (A + B) = c
    generalize dv (-A + -B) = d
    rw [mul_inv, mul_inv, mul_inv, inv_inv]
    calc _ = (a * a⁻¹) * (b * b⁻¹) * (c⁻¹ * c) * (dv (-A) * dv (-B) * d⁻¹) := by
          rw [mul_inv_cancel, mul_inv_cancel, inv_mul_cancel, one_mul, one_mul, one_mul]
      _ = _ := by ac_rfl
  rw [e]
  simpa using h3

omit E in
/-- The value of the function with a zero of order `m` at the point, a pole at its `m`-fold and nothing else. -/
noncomputable def mf (E : Ev W L ev N) : ℕ → W.Point → Lˣ
  | 0, _ => 1
  | m + 1, A => mf E m A * lv E (m • A) A

theorem val_mf (m : ℕ) (A : W.Point) : Val ev N (dv A ^ m * (dv (m • A))⁻¹) (mf E m A) := by
  induction m with
  | zero => rw [pow_zero, zero_smul, dv_zero, inv_one, mul_one]; exact val_one ev N
  | succ m ih =>
    have h := ih.mul (val_line E (m • A) A)
    rw [mf]
    convert h using 1
    rw [succ_nsmul, pow_succ]
    generalize dv A = a
    generalize dv (m • A) = b
    generalize dv (m • A + A) = c
    calc _ = a ^ m * a * c⁻¹ * (b⁻¹ * b) := by rw [inv_mul_cancel, mul_one]
      _ = _ := by ac_rfl

theorem mf_zero (m : ℕ) : mf E m (0 : W.Point) = 1 := by
  refine (val_mf E m 0).unique E ?_
  rw [nsmul_zero, dv_zero, one_pow, inv_one, one_mul]
  exact val_one ev N

/-- The step that doubles the multiple. -/
theorem mf_double (m : ℕ) (A : W.Point) : mf E (2 * m) A = mf E m A ^ 2 * lv E (m • A) (m • A) := by
  refine (val_mf E (2 * m) A).unique E ?_
  have h := ((val_mf E m A).pow 2).mul (val_line E (m • A) (m • A))
  convert h using 1
  rw [two_mul, add_nsmul]
  generalize dv A = a
  generalize dv (m • A) = b
  generalize dv (m • A + m • A) = c
  rw [mul_pow, pow_add, sq, sq]
  calc _ = a ^ m * a ^ m * c⁻¹ * (b⁻¹ * b) * (b⁻¹ * b) := by rw [inv_mul_cancel, mul_one, mul_one]
    _ = _ := by ac_rfl

/-- Linear in the zero when the multiplication by `m` acts on lines as the `m`-th power. -/
theorem mf_add {m : ℕ} {A B : W.Point} (h : lv E (m • A) (m • B) = lv E A B ^ m) : mf E m (A + B) = mf E m A * mf E m B := by
  have h1 := (((val_mf E m A).mul (val_mf E m B)).mul ((val_line E A B).pow m).inv).mul (val_line E (m • A) (m • B))
  rw [h] at h1
  refine (val_mf E m (A + B)).unique E ?_
  convert h1 using 1
  · rw [nsmul_add]
    generalize dv A = a
    generalize dv B = b
    generalize dv (m • A) = a'
    generalize dv (m • B) = b'
    generalize dv (A + B) = c
    generalize dv (m • A + m • B) = c'
    rw [mul_pow, mul_pow, inv_pow]
    exact four _ _ _ _ _ _
  · rw [inv_mul_cancel_right]

variable {n q : ℕ} (hn : ∀ A B : W.Point, q • A = 0 → q • B = 0 → lv E (n • A) (n • B) = lv E A B ^ n)
include hn

theorem mf_nsmul {A : W.Point} (hA : q • A = 0) (j : ℕ) : mf E n (j • A) = mf E n A ^ j := by
  induction j with
  | zero => rw [zero_smul, mf_zero, pow_zero]
  | succ j ih =>
    rw [succ_nsmul, mf_add E (hn _ _ (by rw [← mul_nsmul', mul_comm, mul_nsmul', hA, nsmul_zero]) hA), ih, pow_succ]

/-- The function of the multiple `n ^ j`. -/
theorem mf_pow {A : W.Point} (hA : q • A = 0) (j : ℕ) : mf E (n ^ (j + 1)) A = mf E n A ^ ((j + 1) * n ^ j) := by
  induction j with
  | zero => rw [zero_add, pow_one, pow_zero, mul_one, pow_one]
  | succ j ih =>
    have h := ((val_mf E (n ^ (j + 1)) A).pow n).mul (val_mf E n (n ^ (j + 1) • A))
    rw [ih, mf_nsmul E hn hA] at h
    refine (val_mf E (n ^ (j + 1 + 1)) A).unique E ?_
    convert h using 1
    · rw [← mul_nsmul', mul_comm n (n ^ (j + 1)), pow_succ n (j + 1), pow_mul]
      generalize dv A = a
      generalize dv (n ^ (j + 1) • A) = b
      generalize dv ((n ^ (j + 1) * n) • A) = c
      rw [mul_pow, inv_pow]
      exact three _ _ _
    · rw [← pow_mul, ← pow_add]
      congr 1
      ring

/-- The function of the multiple `n` and that of the order of the point. -/
theorem mf_order {A : W.Point} (hA : q • A = 0) {j m : ℕ} (hj : n ^ (j + 1) = 1 + q * m) :
    mf E n A ^ ((j + 1) * n ^ j) = mf E q A ^ m := by
  rw [← mf_pow E hn hA]
  have h := (val_mf E q A).pow m
  refine (val_mf E (n ^ (j + 1)) A).unique E ?_
  convert h using 1
  rw [hj, hA, dv_zero, inv_one, mul_one, add_nsmul, one_nsmul, mul_comm q m, mul_nsmul', hA, nsmul_zero, add_zero, pow_add, pow_one,
    mul_comm m q, pow_mul, mul_right_comm, mul_inv_cancel, one_mul]

end Verif.Bls381.Ate
