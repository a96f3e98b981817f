import Verif.Bls381.AtePoint
import Verif.Bls381.Twist
import Mathlib.Data.Int.GCD

/-!
# The ate pairing is bilinear

Mathematics behind `pairings.go`; no definition of the code is modelled here.  `mf p.ev n A` is the value at the point `p`, after the
final exponentiation, of the function with a zero of order `n` at `A` and a pole at `n • A`.  It is multiplicative in `A` because the
twisted Frobenius map acts as `-n` on the points of order `q`, and multiplicative in the point of evaluation because it is a power of the
value of the function with a zero of order `q` at `A`, for which the reciprocity of lines applies.
-/

set_option linter.unusedSectionVars false

namespace Verif.Bls381.Ate
open WeierstrassCurve WeierstrassCurve.Affine
open Verif.Native.Weier

/-- The field, its extension, the Frobenius map and the exponents. -/
structure Setting {k L : Type} [Field k] [DecidableEq k] [Field L] (ι : k →+* L) (σ : k →+* k) (φ : L →+* L) (cx cy b : k)
    (N q n p : ℕ) : Prop where
  tw : Twist.Ok σ cx cy b
  comm : ∀ c, ι (σ c) = φ (ι c)
  pw : ∀ z, φ z = z ^ p
  kill : ∀ z : L, z ≠ 0 → (z ^ N) ^ q = 1
  psi : ∀ A : Pt 0 b, q • A = 0 → Twist.hom tw A + n • A = 0
  dvd : q ∣ n + p
  emb : ∃ m, n ^ (11 + 1) = 1 + q * m
  cop : Nat.Coprime ((11 + 1) * n ^ 11) q

variable {k L : Type} [Field k] [DecidableEq k] [Field L] {ι : k →+* L} {σ : k →+* k} {φ : L →+* L} {cx cy b : k} {N q n p : ℕ}
  (S : Setting ι σ φ cx cy b N q n p)

/-- The point of evaluation is fixed by the twisted Frobenius map. -/
structure Fixed (ι : k →+* L) (φ : L →+* L) (cx cy : k) (X Y : L) : Prop where
  x : ι cx * φ X = X
  y : ι cy * φ Y = Y

include S in
theorem cx_ne : cx ≠ 0 := fun h => S.tw.cy0 (by have := S.tw.sq; rw [h] at this; simpa using this)

include S in
theorem slope_twist {x₁ y₁ x₂ y₂ : k} (h₁ : (curve 0 b).Nonsingular x₁ y₁) (h₂ : (curve 0 b).Nonsingular x₂ y₂)
    (hxy : ¬ (x₁ = x₂ ∧ y₁ = (curve 0 b).negY x₂ y₂)) :
    (curve 0 b).slope (cx * σ x₁) (cx * σ x₂) (cy * σ y₁) (cy * σ y₂) * cx = cy * σ ((curve 0 b).slope x₁ x₂ y₁ y₂) := by
  have hcx := cx_ne S
  have hcy := S.tw.cy0
  by_cases hx : x₁ = x₂
  · subst hx
    have hy : y₁ ≠ (curve 0 b).negY x₁ y₂ := fun h => hxy ⟨rfl, h⟩
    have ey := Y_eq_of_Y_ne h₁.1 h₂.1 rfl hy
    subst ey
    have h2 : y₁ ≠ 0 := y_ne_zero S.tw.noTwo (eqn_iff.1 h₁.1)
    have hs : σ y₁ ≠ 0 := fun h => h2 ((map_eq_zero σ).1 h)
    have hne : cy * σ y₁ ≠ (curve 0 b).negY (cx * σ x₁) (cy * σ y₁) := by
      rw [negY_eq]
      intro h
      have : (2 : k) * (cy * σ y₁) = 0 := by linear_combination h
      rcases mul_eq_zero.1 this with h | h
      · exact S.tw.two h
      · exact mul_ne_zero hcy hs h
    rw [slope_of_Y_ne rfl hy, slope_of_Y_ne rfl hne, negY_eq, negY_eq]
    have e1 : σ ((3 * x₁ ^ 2 + 2 * 0 * x₁ + 0 - 0 * y₁) / (y₁ - -y₁)) = 3 * σ x₁ ^ 2 / (2 * σ y₁) := by
      rw [map_div₀]
      congr 1
      · have : (3 * x₁ ^ 2 + 2 * 0 * x₁ + 0 - 0 * y₁) = 3 * x₁ ^ 2 := by ring
        rw [this, map_mul, map_pow, map_ofNat]
      · rw [map_sub, map_neg]; ring
    rw [e1]
    have h22 := S.tw.two
    have hd : cy * σ y₁ - -(cy * σ y₁) ≠ 0 := by
      intro h
      have : (2 : k) * (cy * σ y₁) = 0 := by linear_combination h
      rcases mul_eq_zero.1 this with h | h
      · exact h22 h
      · exact mul_ne_zero hcy hs h
    rw [div_mul_eq_mul_div, mul_div_assoc', div_eq_div_iff hd (mul_ne_zero h22 hs)]
    have sq := S.tw.sq
    linear_combination (-6 * σ x₁ ^ 2 * σ y₁) * sq
  · have hx' : cx * σ x₁ ≠ cx * σ x₂ := fun h => hx (σ.injective (mul_left_cancel₀ hcx h))
    rw [slope_of_X_ne hx, slope_of_X_ne hx', map_div₀, map_sub, map_sub, ← mul_sub, ← mul_sub]
    have : σ x₁ - σ x₂ ≠ 0 := fun h => hx (σ.injective (sub_eq_zero.1 h))
    field_simp

variable {X Y : L} (pt : Pnt ι N b X Y) (fx : Fixed ι φ cx cy X Y)

include fx in
theorem lv_psi (A B : Pt 0 b) : lv pt.ev (Twist.hom S.tw A) (Twist.hom S.tw B) = lv pt.ev A B ^ p := by
  rcases A with _ | ⟨x₁, y₁, h₁⟩
  · rw [← Point.zero_def, map_zero, lv_left pt, lv_left pt, one_pow]
  rcases B with _ | ⟨x₂, y₂, h₂⟩
  · rw [← Point.zero_def, map_zero, lv_right pt, lv_right pt, one_pow]
  have e₁ : Twist.hom S.tw (.some x₁ y₁ h₁) = .some (cx * σ x₁) (cy * σ y₁) (Twist.eqn S.tw h₁) := rfl
  have e₂ : Twist.hom S.tw (.some x₂ y₂ h₂) = .some (cx * σ x₂) (cy * σ y₂) (Twist.eqn S.tw h₂) := rfl
  have hcx := cx_ne S
  rw [e₁, e₂]
  by_cases hxy : x₁ = x₂ ∧ y₁ = (curve 0 b).negY x₂ y₂
  · have hxy' : cx * σ x₁ = cx * σ x₂ ∧ cy * σ y₁ = (curve 0 b).negY (cx * σ x₂) (cy * σ y₂) := by
      rw [negY_eq] at hxy ⊢
      rw [hxy.1, hxy.2, map_neg, mul_neg]
      exact ⟨rfl, rfl⟩
    rw [lv_opposite pt h₁ h₂ hxy, lv_opposite pt _ _ hxy', one_pow]
  · have hxy' : ¬ (cx * σ x₁ = cx * σ x₂ ∧ cy * σ y₁ = (curve 0 b).negY (cx * σ x₂) (cy * σ y₂)) := by
      rw [negY_eq] at hxy ⊢
      rintro ⟨h, h'⟩
      refine hxy ⟨σ.injective (mul_left_cancel₀ hcx h), σ.injective (mul_left_cancel₀ S.tw.cy0 ?_)⟩
      rw [h', map_neg, mul_neg]
    refine Units.ext ?_
    rw [Units.val_pow_eq_pow_val, lv_generic pt _ _ hxy', lv_generic pt _ _ hxy, ← pow_mul, mul_comm N p, pow_mul, ← S.pw]
    have hs := slope_twist S h₁ h₂ hxy
    generalize (curve 0 b).slope (cx * σ x₁) (cx * σ x₂) (cy * σ y₁) (cy * σ y₂) = s' at hs ⊢
    generalize (curve 0 b).slope x₁ x₂ y₁ y₂ = s at hs ⊢
    have e : Y - (ι s' * X + ι (cy * σ y₁ - s' * (cx * σ x₁))) = ι cy * φ (Y - (ι s * X + ι (y₁ - s * x₁))) := by
      have hs' := congrArg ι hs
      rw [map_mul, map_mul, S.comm] at hs'
      simp only [map_sub, map_add, map_mul, S.comm]
      linear_combination -fx.y + ι s' * fx.x + φ (ι x₁) * hs' - φ X * hs'
    rw [e, mul_pow, pt.const _ S.tw.cy0, one_mul]

include S in
theorem lv_order (A B : Pt 0 b) : lv pt.ev A B ^ q = 1 := by
  rcases A with _ | ⟨x₁, y₁, h₁⟩
  · rw [← Point.zero_def, lv_left pt, one_pow]
  rcases B with _ | ⟨x₂, y₂, h₂⟩
  · rw [← Point.zero_def, lv_right pt, one_pow]
  by_cases hxy : x₁ = x₂ ∧ y₁ = (curve 0 b).negY x₂ y₂
  · rw [lv_opposite pt h₁ h₂ hxy, one_pow]
  · refine Units.ext ?_
    rw [Units.val_pow_eq_pow_val, lv_generic pt _ _ hxy, S.kill _ (pt.line _ _), Units.val_one]

include S in
theorem mf_ord (m : ℕ) (A : Pt 0 b) : mf pt.ev m A ^ q = 1 := by
  induction m with
  | zero => rw [mf, one_pow]
  | succ m ih => rw [mf, mul_pow, ih, lv_order S pt, one_mul]

include S fx in
theorem lv_mul (A B : Pt 0 b) (hA : q • A = 0) (hB : q • B = 0) : lv pt.ev (n • A) (n • B) = lv pt.ev A B ^ n := by
  have a := eq_neg_of_add_eq_zero_right (S.psi A hA)
  have b := eq_neg_of_add_eq_zero_right (S.psi B hB)
  rw [a, b, lv_neg, lv_psi S pt fx]
  obtain ⟨c, hc⟩ := S.dvd
  refine inv_eq_of_mul_eq_one_left ?_
  rw [← pow_add, hc, pow_mul, lv_order S pt, one_pow]

include S fx in
/-- Multiplicative in the point of order `q`. -/
theorem mf_add_left {A B : Pt 0 b} (hA : q • A = 0) (hB : q • B = 0) : mf pt.ev n (A + B) = mf pt.ev n A * mf pt.ev n B :=
  mf_add pt.ev (lv_mul S pt fx A B hA hB)

include S fx in
theorem mf_smul_left {A : Pt 0 b} (hA : q • A = 0) (j : ℕ) : mf pt.ev n (j • A) = mf pt.ev n A ^ j :=
  mf_nsmul pt.ev (fun A B hA hB => lv_mul S pt fx A B hA hB) hA j

include S in
theorem mf_neg_right (pt' : Pnt ι N b X (-Y)) (A : Pt 0 b) : mf pt'.ev n A = (mf pt.ev n A)⁻¹ := mf_neg_point pt pt' n A

theorem pow_cancel {M : Type*} [CommGroup M] {t : M} {c q : ℕ} (hc : Nat.Coprime c q) (h1 : t ^ c = 1) (h2 : t ^ q = 1) : t = 1 := by
  have := orderOf_dvd_of_pow_eq_one h1
  have h2 := orderOf_dvd_of_pow_eq_one h2
  have := Nat.dvd_gcd this h2
  rw [hc.gcd_eq_one, Nat.dvd_one, orderOf_eq_one_iff] at this
  exact this

include S in
/-- Multiplicative in the point of evaluation: the values at three collinear points have product one. -/
theorem mf_add_right {X₁ Y₁ X₂ Y₂ X₃ Y₃ μ ν : L} (p₁ : Pnt ι N b X₁ Y₁) (p₂ : Pnt ι N b X₂ Y₂) (p₃ : Pnt ι N b X₃ Y₃)
    (f₁ : Fixed ι φ cx cy X₁ Y₁) (f₂ : Fixed ι φ cx cy X₂ Y₂) (f₃ : Fixed ι φ cx cy X₃ Y₃)
    (c : Coll (ι b) X₁ Y₁ X₂ Y₂ X₃ Y₃ μ ν) {A : Pt 0 b} (hA : q • A = 0) :
    mf p₁.ev n A * mf p₂.ev n A * mf p₃.ev n A = 1 := by
  obtain ⟨m, hm⟩ := S.emb
  have o₁ := mf_order p₁.ev (fun A B hA hB => lv_mul S p₁ f₁ A B hA hB) hA hm
  have o₂ := mf_order p₂.ev (fun A B hA hB => lv_mul S p₂ f₂ A B hA hB) hA hm
  have o₃ := mf_order p₃.ev (fun A B hA hB => lv_mul S p₃ f₃ A B hA hB) hA hm
  refine pow_cancel S.cop ?_ ?_
  · rw [mul_pow, mul_pow, o₁, o₂, o₃, ← mul_pow, ← mul_pow]
    have h3 := mf_three p₁ p₂ p₃ c q A
    have hk : (dl p₁ p₂ p₃ c A ^ N) ^ q = 1 := Units.ext (by
      rw [Units.val_pow_eq_pow_val, Units.val_pow_eq_pow_val]; exact S.kill _ (Units.ne_zero _))
    have h0 : dl p₁ p₂ p₃ c 0 = 1 := rfl
    rw [hk, hA, h0, one_pow, mul_one] at h3
    rw [h3, one_pow]
  · rw [mul_pow, mul_pow, mf_ord S p₁, mf_ord S p₂, mf_ord S p₃, one_mul, one_mul]

/-! ## The units with one instance

The same statements for the units of a field under a name of their own, so that only one group structure is found on them. -/

/-- The units of a field. -/
def UG (L : Type) [Field L] : Type := Lˣ

instance (L : Type) [Field L] : CommGroup (UG L) := inferInstanceAs (CommGroup Lˣ)

/-- The underlying element. -/
def UG.val (u : UG L) : L := Units.val u

theorem UG.val_mul (u v : UG L) : (u * v).val = u.val * v.val := rfl
theorem UG.val_one : (1 : UG L).val = 1 := rfl
theorem UG.val_pow (u : UG L) (n : ℕ) : (u ^ n).val = u.val ^ n := Units.val_pow_eq_pow_val _ _
theorem UG.val_ne (u : UG L) : u.val ≠ 0 := Units.ne_zero _
theorem UG.ext {u v : UG L} (h : u.val = v.val) : u = v := Units.ext h

/-- A nonzero element. -/
def UG.mk (x : L) (h : x ≠ 0) : UG L := Units.mk0 x h
theorem UG.val_mk (x : L) (h : x ≠ 0) : (UG.mk x h).val = x := rfl

/-- `lv` -/
noncomputable def lvU (A B : Pt 0 b) : UG L := lv pt.ev A B
/-- `mf` -/
noncomputable def mfU (m : ℕ) (A : Pt 0 b) : UG L := mf pt.ev m A

theorem lvU_generic {x₁ y₁ x₂ y₂ : k} (h₁ : (curve 0 b).Nonsingular x₁ y₁) (h₂ : (curve 0 b).Nonsingular x₂ y₂)
    (hxy : ¬ (x₁ = x₂ ∧ y₁ = (curve 0 b).negY x₂ y₂)) : (lvU pt (.some x₁ y₁ h₁) (.some x₂ y₂ h₂)).val =
      (Y - (ι ((curve 0 b).slope x₁ x₂ y₁ y₂) * X + ι (y₁ - (curve 0 b).slope x₁ x₂ y₁ y₂ * x₁))) ^ N := lv_generic pt h₁ h₂ hxy

theorem mfU_point_zero (m : ℕ) : mfU pt m 0 = 1 := mf_zero pt.ev m
theorem mfU_zero (A : Pt 0 b) : mfU pt 0 A = 1 := by unfold mfU; rw [mf]; rfl
theorem mfU_succ (m : ℕ) (A : Pt 0 b) : mfU pt (m + 1) A = mfU pt m A * lvU pt (m • A) A := by unfold mfU; rw [mf]; rfl
theorem mfU_one (A : Pt 0 b) : mfU pt 1 A = 1 := by
  rw [mfU_succ, mfU_zero, zero_nsmul, one_mul]
  exact lv_left pt A
theorem mfU_double (m : ℕ) (A : Pt 0 b) : mfU pt (2 * m) A = mfU pt m A ^ 2 * lvU pt (m • A) (m • A) := mf_double pt.ev m A

include S in
theorem mfU_ord (m : ℕ) (A : Pt 0 b) : mfU pt m A ^ q = 1 := mf_ord S pt m A

include S fx in
theorem mfU_add_left {A B : Pt 0 b} (hA : q • A = 0) (hB : q • B = 0) : mfU pt n (A + B) = mfU pt n A * mfU pt n B :=
  mf_add_left S pt fx hA hB

include S in
theorem mfU_neg_right (pt' : Pnt ι N b X (-Y)) (A : Pt 0 b) : mfU pt' n A = (mfU pt n A)⁻¹ := mf_neg_point pt pt' n A

include S in
theorem mfU_add_right {X₁ Y₁ X₂ Y₂ X₃ Y₃ μ ν : L} (p₁ : Pnt ι N b X₁ Y₁) (p₂ : Pnt ι N b X₂ Y₂) (p₃ : Pnt ι N b X₃ Y₃)
    (f₁ : Fixed ι φ cx cy X₁ Y₁) (f₂ : Fixed ι φ cx cy X₂ Y₂) (f₃ : Fixed ι φ cx cy X₃ Y₃)
    (c : Coll (ι b) X₁ Y₁ X₂ Y₂ X₃ Y₃ μ ν) {A : Pt 0 b} (hA : q • A = 0) :
    mfU p₁ n A * mfU p₂ n A * mfU p₃ n A = 1 := mf_add_right S p₁ p₂ p₃ f₁ f₂ f₃ c hA

end Verif.Bls381.Ate
