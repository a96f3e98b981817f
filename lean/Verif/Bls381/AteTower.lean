import Verif.Bls381.AteFrob
import Verif.Bls381.Cyclo
import Verif.Base.Tactics

/-!
# Points of evaluation in the target field

Mathematics behind `pairings.go`; no definition of the code is modelled here.  `K` is the field of definition of the twist,
`L = K[v][w]` with `v³ = ξ` and `w² = v`.  A point `(x, y)` of `y² = x³ + b'` gives the point `(x v, y v w)` of `y² = x³ + b' ξ`.
-/

set_option linter.unusedSectionVars false

namespace Verif.Bls381.Ate

section ring
variable {K : Type} [CommRing K] {ξ : K} {t : Cubic K ξ}

/-- The small field in the large one. -/
def iota (t : Cubic K ξ) : K →+* QuadraticAlgebra (Cubic K ξ) t 0 := (algebraMap (Cubic K ξ) (QuadraticAlgebra (Cubic K ξ) t 0)).comp Cubic.emb

theorem iota_re (c : K) : (iota t c).re = Cubic.emb c := rfl
theorem iota_im (c : K) : (iota t c).im = 0 := rfl

/-- `x v` -/
def px (t : Cubic K ξ) (x : K) : QuadraticAlgebra (Cubic K ξ) t 0 := ⟨⟨0, x, 0⟩, 0⟩

/-- `y v w` -/
def py (t : Cubic K ξ) (y : K) : QuadraticAlgebra (Cubic K ξ) t 0 := ⟨0, ⟨0, y, 0⟩⟩

/-- `a w` -/
def pw (t : Cubic K ξ) (a : K) : QuadraticAlgebra (Cubic K ξ) t 0 := ⟨0, ⟨a, 0, 0⟩⟩

/-- The element `v` of the large field. -/
def gv (t : Cubic K ξ) : QuadraticAlgebra (Cubic K ξ) t 0 := ⟨Cubic.v, 0⟩

/-- The element `w` of the large field. -/
def gw (t : Cubic K ξ) : QuadraticAlgebra (Cubic K ξ) t 0 := ⟨0, 1⟩

theorem c_v (x : K) : (⟨0, x, 0⟩ : Cubic K ξ) = Cubic.emb x * Cubic.v := by
  ext <;> simp [Cubic.v]

theorem c_e (x : K) : (⟨x, 0, 0⟩ : Cubic K ξ) = Cubic.emb x := by
  ext <;> simp

theorem px_eq (x : K) : px t x = iota t x * gv t := by
  unfold px gv
  rw [c_v]
  ext1
  · rw [Cyclo.qre, iota_re, iota_im]; simp
  · rw [Cyclo.qim, iota_re, iota_im]; simp

theorem pw_eq (x : K) : pw t x = iota t x * gw t := by
  unfold pw gw
  rw [c_e]
  ext1
  · rw [Cyclo.qre, iota_re, iota_im]; simp
  · rw [Cyclo.qim, iota_re, iota_im]; simp

theorem py_eq (x : K) : py t x = iota t x * gv t * gw t := by
  unfold py gv gw
  rw [c_v]
  ext1
  · rw [Cyclo.qre, Cyclo.qre, Cyclo.qim, iota_re, iota_im]; simp
  · rw [Cyclo.qim, Cyclo.qre, Cyclo.qim, iota_re, iota_im]; simp

theorem gw_sq (ht : t = Cubic.v) : gw t ^ 2 = gv t := by
  unfold gw gv
  rw [pow_two]
  ext1
  · rw [Cyclo.qre, ht]; simp
  · rw [Cyclo.qim]; simp

theorem gv_cube : gv t ^ 3 = iota t ξ := by
  have : gv t = algebraMap (Cubic K ξ) (QuadraticAlgebra (Cubic K ξ) t 0) Cubic.v := rfl
  rw [this, ← map_pow, Cubic.v_cubed]
  rfl

theorem on_curve (ht : t = Cubic.v) {x y b : K} (h : y ^ 2 = x ^ 3 + b) : py t y ^ 2 = px t x ^ 3 + iota t (b * ξ) := by
  have e := congrArg (iota t) h
  rw [map_pow, map_add, map_pow] at e
  rw [py_eq, px_eq, map_mul, ← gv_cube, mul_pow, gw_sq ht]
  linear_combination gv t ^ 3 * e

theorem neg_py (y : K) : py t (-y) = -py t y := by
  rw [py_eq, py_eq, map_neg, neg_mul, neg_mul]

theorem frob_px {p k : ℕ} [Fact p.Prime] [CharP K p] (hk : p = 2 * (3 * k) + 1) (x : K) :
    px t x ^ p = px t (x ^ p * ξ ^ (2 * k)) := by
  have h3 : p = 3 * (2 * k) + 1 := by omega
  have hp : p ≠ 0 := by omega
  have h12 := Fp12.frob12 (p := p) (k := 3 * k) hk (px t x)
  ext1
  · rw [h12.1]
    unfold px
    dsimp only
    rw [Cubic.frob (p := p) (k := 2 * k) h3]
    ext <;> simp [hp]
  · rw [h12.2]
    unfold px
    dsimp only
    rw [zero_pow hp, zero_mul]

theorem frob_py {p k : ℕ} [Fact p.Prime] [CharP K p] (hk : p = 2 * (3 * k) + 1) (ht : t = Cubic.v) (y : K) :
    py t y ^ p = py t (y ^ p * ξ ^ (3 * k)) := by
  have h3 : p = 3 * (2 * k) + 1 := by omega
  have hp : p ≠ 0 := by omega
  have hv : t ^ (3 * k) = Cubic.emb (ξ ^ k) := by rw [ht]; exact Fp12.vpow k
  have h12 := Fp12.frob12 (p := p) (k := 3 * k) hk (py t y)
  ext1
  · rw [h12.1]
    unfold py
    dsimp only
    rw [zero_pow hp]
  · rw [h12.2, hv]
    unfold py
    dsimp only
    rw [Cubic.frob (p := p) (k := 2 * k) h3]
    have e : ξ ^ (3 * k) = ξ ^ (2 * k) * ξ ^ k := by rw [← pow_add]; congr 1; omega
    rw [e]
    generalize ξ ^ k = g
    ext
    · simp [hp]
    · simp [mul_assoc]
    · simp [hp]

end ring

section field
variable {K : Type} [Field K] {ξ : K} {t : Cubic K ξ} [Fact (∀ s : K, s ^ 3 ≠ ξ)] [Fact (∀ r : Cubic K ξ, r ^ 2 ≠ t + 0 * r)]

theorem coll_tower (ht : t = Cubic.v) {b x₁ y₁ x₂ y₂ x₃ y₃ α β : K} (h : Coll b x₁ y₁ x₂ y₂ x₃ y₃ α β) :
    Coll (iota t (b * ξ)) (px t x₁) (py t y₁) (px t x₂) (py t y₂) (px t x₃) (py t y₃) (pw t α) (py t β) := by
  have g := h.map (iota t)
  have e2 := gw_sq ht
  have e3 : iota t (b * ξ) = iota t b * gv t ^ 3 := by rw [gv_cube, map_mul]
  rw [e3]
  simp only [px_eq, py_eq, pw_eq]
  constructor
  · linear_combination gv t * gw t * g.l₁
  · linear_combination gv t * gw t * g.l₂
  · linear_combination gv t * gw t * g.l₃
  · linear_combination gv t * g.e₁ - iota t α ^ 2 * e2
  · linear_combination gv t ^ 2 * g.e₂ + 2 * iota t α * iota t β * gv t * e2
  · linear_combination gv t ^ 3 * g.e₃ - iota t β ^ 2 * gv t ^ 2 * e2

theorem line_ne_zero {x y : K} (hy : y ≠ 0) (m c : K) : py t y - (iota t m * px t x + iota t c) ≠ 0 := by
  intro h
  have h1 := congrArg (fun z => (QuadraticAlgebra.im z).c1) h
  rw [QuadraticAlgebra.im_sub, QuadraticAlgebra.im_add, Cyclo.qim, iota_re, iota_im, iota_im, QuadraticAlgebra.im_zero] at h1
  have e1 : (py t y).im = ⟨0, y, 0⟩ := rfl
  have e2 : (px t x).im = 0 := rfl
  rw [e1, e2, mul_zero, zero_mul, add_zero, add_zero, sub_zero] at h1
  exact hy h1

theorem vert_ne_zero {x c : K} (h : px t x - iota t c = 0) : x = 0 ∧ c = 0 := by
  have h0 := congrArg (fun z => (QuadraticAlgebra.re z).c0) h
  have h1 := congrArg (fun z => (QuadraticAlgebra.re z).c1) h
  rw [QuadraticAlgebra.re_sub, iota_re, QuadraticAlgebra.re_zero] at h0 h1
  have e1 : (px t x).re = ⟨0, x, 0⟩ := rfl
  rw [e1] at h0 h1
  simp at h0 h1
  exact ⟨h1, h0⟩

theorem vert_im (x c : K) : (px t x - iota t c).im = 0 := by
  rw [QuadraticAlgebra.im_sub, iota_im]
  show (0 : Cubic K ξ) - 0 = 0
  rw [sub_zero]

open Verif.Native.Weier in
/-- The point `(x v, y v w)` can be used for evaluation. -/
theorem pnt_tower [DecidableEq K] (ht : t = Cubic.v) {N : ℕ} {b x y : K} (h : y ^ 2 = x ^ 3 + b) (hy : y ≠ 0)
    (kill : ∀ z : QuadraticAlgebra (Cubic K ξ) t 0, z ≠ 0 → z.im = 0 → z ^ N = 1) (nsq : ∀ z : K, z ^ 2 ≠ b * ξ) :
    Pnt (iota t) N (b * ξ) (px t x) (py t y) := by
  have v0 : ∀ c d, (curve 0 (b * ξ)).Nonsingular c d → px t x - iota t c ≠ 0 := by
    intro c d hcd h0
    obtain ⟨-, hc⟩ := vert_ne_zero h0
    have := eqn_iff.1 hcd.1
    rw [hc] at this
    exact nsq d (by rw [this]; ring)
  have e := congrArg (iota t) h
  rw [map_pow, map_add, map_pow] at e
  have w2 := gw_sq ht
  have e3 : iota t (b * ξ) = iota t b * gv t ^ 3 := by rw [gv_cube, map_mul]
  have h2 : ∀ c : K, c ≠ 0 → iota t c ^ N = 1 := fun c hc => kill _ (fun h => hc ((map_eq_zero (iota t)).1 h)) rfl
  have h3 : ∀ c d, (curve 0 (b * ξ)).Nonsingular c d → (px t x - iota t c) ^ N = 1 := fun c d hcd => kill _ (v0 c d hcd) (vert_im _ _)
  have h4 : ∀ m c : K, py t y - (iota t m * px t x + iota t c) ≠ 0 := fun m c => line_ne_zero hy m c
  constructor
  · rw [py_eq, px_eq, e3]
    linear_combination gv t ^ 3 * e + iota t y ^ 2 * gv t ^ 2 * w2
  · exact h2
  · exact v0
  · exact h3
  · exact h4

theorem fixed_tower (ht : t = Cubic.v) {p k : ℕ} [Fact p.Prime] [CharP K p] (hk : p = 2 * (3 * k) + 1)
    {φ : QuadraticAlgebra (Cubic K ξ) t 0 →+* QuadraticAlgebra (Cubic K ξ) t 0} (hφ : ∀ z, φ z = z ^ p) {cx cy x y : K}
    (hcx : cx * ξ ^ (2 * k) = 1) (hcy : cy * ξ ^ (3 * k) = 1) (hx : x ^ p = x) (hy : y ^ p = y) :
    Fixed (iota t) φ cx cy (px t x) (py t y) where
  x := by
    rw [hφ, frob_px hk, hx, px_eq, px_eq, ← mul_assoc, ← map_mul, mul_left_comm, hcx, mul_one]
  y := by
    rw [hφ, frob_py hk ht, hy, py_eq, py_eq, ← mul_assoc, ← mul_assoc, ← map_mul, mul_left_comm, hcy, mul_one]

end field
end Verif.Bls381.Ate
