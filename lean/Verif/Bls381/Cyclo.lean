import Verif.Bls381.Fp12

/-!
Powers of the Frobenius map on the twelfth-degree tower, and the squaring formula of Granger and Scott for the elements of the
cyclotomic subgroup.  No definition of the code is modelled here.
-/
namespace Verif.Bls381.Cyclo

variable {K : Type*} [Field K] {ξ : K} {t : Cubic K ξ}

/-- Multiplies the coefficient of `w^i` by `ω^i`. -/
def sc (ω : K) (x : QuadraticAlgebra (Cubic K ξ) t 0) : QuadraticAlgebra (Cubic K ξ) t 0 :=
  ⟨⟨x.re.c0, ω ^ 2 * x.re.c1, ω ^ 4 * x.re.c2⟩, ⟨ω * x.im.c0, ω ^ 3 * x.im.c1, ω ^ 5 * x.im.c2⟩⟩

theorem sc_sc (a b : K) (x : QuadraticAlgebra (Cubic K ξ) t 0) : sc a (sc b x) = sc (a * b) x := by
  unfold sc
  ext <;> simp only <;> ring

theorem sc_one (x : QuadraticAlgebra (Cubic K ξ) t 0) : sc 1 x = x := by
  unfold sc
  ext <;> simp

theorem sc_neg_one (x : QuadraticAlgebra (Cubic K ξ) t 0) : sc (-1) x = ⟨x.re, -x.im⟩ := by
  unfold sc
  ext
  · rfl
  · show (-1) ^ 2 * x.re.c1 = x.re.c1
    ring
  · show (-1) ^ 4 * x.re.c2 = x.re.c2
    ring
  · show (-1) * x.im.c0 = -x.im.c0
    ring
  · show (-1) ^ 3 * x.im.c1 = -x.im.c1
    ring
  · show (-1) ^ 5 * x.im.c2 = -x.im.c2
    ring

/-- the square of the Frobenius map -/
theorem frobsq {p k : Nat} [Fact p.Prime] [CharP K p] (hk : p = 2 * (3 * k) + 1) (hK : ∀ z : K, (z ^ p) ^ p = z)
    (ht : t = Cubic.v) (x : QuadraticAlgebra (Cubic K ξ) t 0) : (x ^ p) ^ p = sc ((ξ ^ k) ^ p * ξ ^ k) x := by
  have hv : t ^ (3 * k) = Cubic.emb (ξ ^ k) := by rw [ht]; exact Fp12.vpow k
  have h3 : p = 3 * (2 * k) + 1 := by omega
  have e2 : ξ ^ (2 * k) = ξ ^ k * ξ ^ k := by rw [two_mul, pow_add]
  have h6 := fun z : Cubic K ξ => Cubic.frob (p := p) (k := 2 * k) h3 z
  have h12 := fun z : QuadraticAlgebra (Cubic K ξ) t 0 => Fp12.frob12 (p := p) (k := 3 * k) hk z
  generalize hγ : ξ ^ k = γ at *
  rw [e2] at h6
  ext
  · rw [(h12 _).1, (h12 _).1, h6, h6]
    exact hK _
  · rw [(h12 _).1, (h12 _).1, h6, h6]
    show (x.re.c1 ^ p * (γ * γ)) ^ p * (γ * γ) = (γ ^ p * γ) ^ 2 * x.re.c1
    rw [mul_pow, mul_pow, hK]; ring
  · rw [(h12 _).1, (h12 _).1, h6, h6]
    show (x.re.c2 ^ p * (γ * γ * (γ * γ))) ^ p * (γ * γ * (γ * γ)) = (γ ^ p * γ) ^ 4 * x.re.c2
    rw [mul_pow, mul_pow, mul_pow, hK]; ring
  · rw [(h12 _).2, (h12 _).2, mul_pow, h6, h6, hv, ← map_pow]
    show (((⟨_, _, _⟩ : Cubic K ξ) * Cubic.emb (γ ^ p)) * Cubic.emb γ).c0 = γ ^ p * γ * x.im.c0
    simp only [Cubic.c0_mul, Cubic.c1_mul, Cubic.c2_mul, Cubic.c0_emb, Cubic.c1_emb, Cubic.c2_emb, hK]
    ring
  · rw [(h12 _).2, (h12 _).2, mul_pow, h6, h6, hv, ← map_pow]
    show (((⟨_, _, _⟩ : Cubic K ξ) * Cubic.emb (γ ^ p)) * Cubic.emb γ).c1 = (γ ^ p * γ) ^ 3 * x.im.c1
    simp only [Cubic.c0_mul, Cubic.c1_mul, Cubic.c2_mul, Cubic.c0_emb, Cubic.c1_emb, Cubic.c2_emb, mul_pow, hK]
    ring
  · rw [(h12 _).2, (h12 _).2, mul_pow, h6, h6, hv, ← map_pow]
    show (((⟨_, _, _⟩ : Cubic K ξ) * Cubic.emb (γ ^ p)) * Cubic.emb γ).c2 = (γ ^ p * γ) ^ 5 * x.im.c2
    simp only [Cubic.c0_mul, Cubic.c1_mul, Cubic.c2_mul, Cubic.c0_emb, Cubic.c1_emb, Cubic.c2_emb, mul_pow, hK]
    ring

theorem qre {R : Type*} [CommRing R] {t : R} (x y : QuadraticAlgebra R t 0) : (x * y).re = x.re * y.re + t * (x.im * y.im) := by
  rw [QuadraticAlgebra.re_mul]; ring

theorem qim {R : Type*} [CommRing R] {t : R} (x y : QuadraticAlgebra R t 0) : (x * y).im = x.re * y.im + x.im * y.re := by
  rw [QuadraticAlgebra.im_mul]; ring

theorem vmul {K : Type*} [CommRing K] {ξ : K} (x : Cubic K ξ) : Cubic.v * x = ⟨ξ * x.c2, x.c0, x.c1⟩ := by
  unfold Cubic.v
  ext <;> simp

/-- the six coordinates of a product -/
theorem coords {K : Type*} [CommRing K] {ξ : K} {t : Cubic K ξ} (ht : t = Cubic.v) (x y : QuadraticAlgebra (Cubic K ξ) t 0) :
    (x * y).re.c0 = x.re.c0 * y.re.c0 + ξ * (x.re.c1 * y.re.c2 + x.re.c2 * y.re.c1) + ξ * (x.im.c0 * y.im.c2 + x.im.c1 * y.im.c1 + x.im.c2 * y.im.c0) ∧
    (x * y).re.c1 = x.re.c0 * y.re.c1 + x.re.c1 * y.re.c0 + ξ * (x.re.c2 * y.re.c2) + (x.im.c0 * y.im.c0 + ξ * (x.im.c1 * y.im.c2 + x.im.c2 * y.im.c1)) ∧
    (x * y).re.c2 = x.re.c0 * y.re.c2 + x.re.c1 * y.re.c1 + x.re.c2 * y.re.c0 + (x.im.c0 * y.im.c1 + x.im.c1 * y.im.c0 + ξ * (x.im.c2 * y.im.c2)) ∧
    (x * y).im.c0 = x.re.c0 * y.im.c0 + ξ * (x.re.c1 * y.im.c2 + x.re.c2 * y.im.c1) + (x.im.c0 * y.re.c0 + ξ * (x.im.c1 * y.re.c2 + x.im.c2 * y.re.c1)) ∧
    (x * y).im.c1 = x.re.c0 * y.im.c1 + x.re.c1 * y.im.c0 + ξ * (x.re.c2 * y.im.c2) + (x.im.c0 * y.re.c1 + x.im.c1 * y.re.c0 + ξ * (x.im.c2 * y.re.c2)) ∧
    (x * y).im.c2 = x.re.c0 * y.im.c2 + x.re.c1 * y.im.c1 + x.re.c2 * y.im.c0 + (x.im.c0 * y.re.c2 + x.im.c1 * y.re.c1 + x.im.c2 * y.re.c0) := by
  have e : t * (x.im * y.im) = ⟨ξ * (x.im * y.im).c2, (x.im * y.im).c0, (x.im * y.im).c1⟩ := by
    have e1 : t * (x.im * y.im) = Cubic.v * (x.im * y.im) := congrArg (· * (x.im * y.im)) ht
    rw [e1, vmul]
  rw [qre, qim, e]
  exact ⟨rfl, rfl, rfl, rfl, rfl, rfl⟩

theorem one_coords {K : Type*} [CommRing K] {ξ : K} {t : Cubic K ξ} :
    (1 : QuadraticAlgebra (Cubic K ξ) t 0) = ⟨⟨1, 0, 0⟩, ⟨0, 0, 0⟩⟩ := rfl

/-- the six relations between the coordinates of an element of the cyclotomic subgroup, and the squaring formula -/
theorem cyc_square {ω : K} (hω : ω * ω = ω - 1) (ht : t = Cubic.v) (x : QuadraticAlgebra (Cubic K ξ) t 0)
    (h : x * sc ω (sc ω x) = sc ω x) :
    (x * x).re.c0 = 3 * (x.re.c0 * x.re.c0 + x.im.c1 * x.im.c1 * ξ) - 2 * x.re.c0 ∧
    (x * x).im.c1 = 3 * (2 * (x.re.c0 * x.im.c1)) + 2 * x.im.c1 ∧
    (x * x).re.c1 = 3 * (x.im.c0 * x.im.c0 + x.re.c2 * x.re.c2 * ξ) - 2 * x.re.c1 ∧
    (x * x).im.c2 = 3 * (2 * (x.im.c0 * x.re.c2)) + 2 * x.im.c2 ∧
    (x * x).im.c0 = 3 * (2 * (x.re.c1 * x.im.c2) * ξ) + 2 * x.im.c0 ∧
    (x * x).re.c2 = 3 * (x.re.c1 * x.re.c1 + x.im.c2 * x.im.c2 * ξ) - 2 * x.re.c2 := by
  have w2 : ω ^ 2 = ω - 1 := by rw [pow_two]; exact hω
  have w3 : ω ^ 3 = -1 := by linear_combination (ω + 1) * hω
  have w4 : ω ^ 4 = -ω := by linear_combination ω * w3
  have w5 : ω ^ 5 = 1 - ω := by linear_combination ω * w4 - hω
  have v2 : (ω * ω) ^ 2 = -ω := by rw [← w4]; ring
  have v3 : (ω * ω) ^ 3 = 1 := by linear_combination (ω ^ 3 - 1) * w3
  have v4 : (ω * ω) ^ 4 = ω - 1 := by linear_combination (ω * ω) * v3 + hω
  have v5 : (ω * ω) ^ 5 = -ω := by linear_combination (ω * ω) ^ 2 * v3 + v2
  obtain ⟨c0, c1, c2, c3, c4, c5⟩ := coords ht x (sc ω (sc ω x))
  obtain ⟨d0, d1, d2, d3, d4, d5⟩ := coords ht x x
  rw [h] at c0 c1 c2 c3 c4 c5
  rw [sc_sc] at c0 c1 c2 c3 c4 c5
  simp only [sc, v2, v3, v4, v5] at c0 c1 c2 c3 c4 c5
  simp only [w2, w3, w4, w5, hω] at c0 c1 c2 c3 c4 c5
  rw [d0, d1, d2, d3, d4, d5]
  clear d0 d1 d2 d3 d4 d5 h
  generalize x.re.c0 = z0 at *
  generalize x.re.c1 = z4 at *
  generalize x.re.c2 = z3 at *
  generalize x.im.c0 = z2 at *
  generalize x.im.c1 = z1 at *
  generalize x.im.c2 = z5 at *
  refine ⟨?_, ?_, ?_, ?_, ?_, ?_⟩
  · linear_combination 2 * c0
  · linear_combination 2 * c4
  · linear_combination (-2) * ω * c1 + 2 * (z4 + z0 * z4 - ξ * z3 ^ 2 - z2 ^ 2 + ξ * z1 * z5) * hω
  · linear_combination (-2) * ω * c5 - 2 * (z5 - z0 * z5 - z1 * z4 + 2 * z2 * z3) * hω
  · linear_combination (-2) * (1 - ω) * c3 - 2 * (z2 - z0 * z2 + 2 * ξ * z4 * z5 - ξ * z1 * z3) * hω
  · linear_combination 2 * (ω - 1) * c2 + 2 * (z3 + z0 * z3 - z4 ^ 2 + z1 * z2 - ξ * z5 ^ 2) * hω

/-! ## Exponents -/

section exps
variable [Fact (∀ r : K, r ^ 3 ≠ ξ)] [Fact (∀ r : Cubic K ξ, r ^ 2 ≠ t + 0 * r)] {p : Nat} {ω : K}

/-- The cyclotomic subgroup: the elements whose `(p^4 - p^2 + 1)`-th power is one. -/
def Cyc (p : Nat) (x : QuadraticAlgebra (Cubic K ξ) t 0) : Prop := x ≠ 0 ∧ x * x ^ (p ^ 4) = x ^ (p ^ 2)

theorem pp2 (hF : ∀ x : QuadraticAlgebra (Cubic K ξ) t 0, (x ^ p) ^ p = sc ω x) (x : QuadraticAlgebra (Cubic K ξ) t 0) : x ^ (p ^ 2) = sc ω x := by
  rw [pow_two p, pow_mul, hF]

theorem pp4 (hF : ∀ x : QuadraticAlgebra (Cubic K ξ) t 0, (x ^ p) ^ p = sc ω x) (x : QuadraticAlgebra (Cubic K ξ) t 0) :
    x ^ (p ^ 4) = sc ω (sc ω x) := by
  rw [show p ^ 4 = p ^ 2 * p ^ 2 by ring, pow_mul, pp2 hF, pp2 hF]

theorem pp6 (hω : ω * ω = ω - 1) (hF : ∀ x : QuadraticAlgebra (Cubic K ξ) t 0, (x ^ p) ^ p = sc ω x) (x : QuadraticAlgebra (Cubic K ξ) t 0) :
    x ^ (p ^ 6) = ⟨x.re, -x.im⟩ := by
  rw [show p ^ 6 = p ^ 2 * p ^ 2 * p ^ 2 by ring, pow_mul, pow_mul, pp2 hF, pp2 hF, pp2 hF, sc_sc, sc_sc]
  have : ω * ω * ω = -1 := by rw [hω]; linear_combination hω
  rw [this, sc_neg_one]

theorem pp12 (hω : ω * ω = ω - 1) (hF : ∀ x : QuadraticAlgebra (Cubic K ξ) t 0, (x ^ p) ^ p = sc ω x) (x : QuadraticAlgebra (Cubic K ξ) t 0) :
    x ^ (p ^ 12) = x := by
  rw [show p ^ 12 = p ^ 6 * p ^ 6 by ring, pow_mul, pp6 hω hF, pp6 hω hF]
  ext <;> simp

theorem Cyc.zpow {x : QuadraticAlgebra (Cubic K ξ) t 0} (h : Cyc p x) (i : ℤ) : Cyc p (x ^ i) := by
  refine ⟨zpow_ne_zero i h.1, ?_⟩
  have e : ∀ n : Nat, (x ^ i) ^ n = (x ^ n) ^ i := fun n => by
    rw [← zpow_natCast (x ^ i), ← zpow_natCast x, ← zpow_mul, ← zpow_mul, mul_comm]
  rw [e, e, ← mul_zpow, h.2]

theorem Cyc.one : Cyc p (1 : QuadraticAlgebra (Cubic K ξ) t 0) := ⟨one_ne_zero, by rw [one_pow, one_pow, one_mul]⟩

theorem Cyc.mul6 {x : QuadraticAlgebra (Cubic K ξ) t 0} (h : Cyc p x) : x * x ^ (p ^ 6) = 1 := by
  have h2 : (x * x ^ (p ^ 4)) ^ (p ^ 2) = (x ^ (p ^ 2)) ^ (p ^ 2) := congrArg (· ^ (p ^ 2)) h.2
  rw [mul_pow, ← pow_mul, ← pow_mul, show p ^ 4 * p ^ 2 = p ^ 6 by ring, show p ^ 2 * p ^ 2 = p ^ 4 by ring] at h2
  have hne : x ^ (p ^ 4) ≠ 0 := pow_ne_zero _ h.1
  apply mul_left_cancel₀ hne
  linear_combination (x ^ (p ^ 6)) * h.2 + h2

theorem Cyc.conj_mul (hω : ω * ω = ω - 1) (hF : ∀ x : QuadraticAlgebra (Cubic K ξ) t 0, (x ^ p) ^ p = sc ω x)
    {x : QuadraticAlgebra (Cubic K ξ) t 0} (h : Cyc p x) : x * ⟨x.re, -x.im⟩ = 1 := by
  rw [← pp6 hω hF x, h.mul6]

theorem Cyc.of_order {x : QuadraticAlgebra (Cubic K ξ) t 0} (hx : x ≠ 0) {n c : Nat} (h : x ^ n = 1) (e : 1 + p ^ 4 = n * c + p ^ 2) : Cyc p x := by
  refine ⟨hx, ?_⟩
  have h1 : x ^ (1 + p ^ 4) = x ^ (n * c + p ^ 2) := congrArg (x ^ ·) e
  rw [pow_add, pow_add, pow_one, pow_mul, h, one_pow, one_mul] at h1
  exact h1

/-- an element of norm one whose coefficients vanish but for those of `1` and `w^4` is one -/
theorem unit_one {K : Type*} [Field K] {ξ : K} {t : Cubic K ξ} (ht : t = Cubic.v) (h2 : (2 : K) ≠ 0) {x : QuadraticAlgebra (Cubic K ξ) t 0}
    (h : x * ⟨x.re, -x.im⟩ = 1) (h0 : x.re.c0 = 1) (h1 : x.re.c1 = 0) (hi : x.im = 0) : x = 1 := by
  obtain ⟨_, _, c2, _⟩ := coords ht x ⟨x.re, -x.im⟩
  have e : x.re.c2 = 0 := by
    rw [h, one_coords] at c2
    have i0 : x.im.c0 = 0 := by rw [hi]; rfl
    have i1 : x.im.c1 = 0 := by rw [hi]; rfl
    have i2 : x.im.c2 = 0 := by rw [hi]; rfl
    simp only [h0, h1, i0, i1, i2] at c2
    have : 2 * x.re.c2 = 0 := by linear_combination -c2
    exact (mul_eq_zero.1 this).resolve_left h2
  rw [one_coords]
  exact QuadraticAlgebra.ext (Cubic.ext h0 h1 e) (by rw [hi]; rfl)

theorem order_inv {R : Type*} [CommMonoid R] {w z : R} {n : Nat} (h : w ^ n = 1) (hz : w * z = 1) : z ^ n = 1 := by
  have h3 : (w * z) ^ n = 1 := by rw [hz, one_pow]
  rw [mul_pow, h, one_mul] at h3
  exact h3

/-- the easy part of the final exponentiation lands in the cyclotomic subgroup -/
theorem easy (hω : ω * ω = ω - 1) (hF : ∀ x : QuadraticAlgebra (Cubic K ξ) t 0, (x ^ p) ^ p = sc ω x)
    {x : QuadraticAlgebra (Cubic K ξ) t 0} (hx : x ≠ 0) : Cyc p (x ^ (((p : ℤ) ^ 6 - 1) * ((p : ℤ) ^ 2 + 1))) := by
  have h12 : x ^ ((p : ℤ) ^ 12 - 1) = 1 := by
    rw [zpow_sub₀ hx, zpow_one, ← Nat.cast_pow, zpow_natCast, pp12 hω hF, div_self hx]
  refine ⟨zpow_ne_zero _ hx, ?_⟩
  rw [← zpow_natCast, ← zpow_natCast, ← zpow_mul, ← zpow_mul, ← zpow_add₀ hx]
  have e : ((p : ℤ) ^ 6 - 1) * ((p : ℤ) ^ 2 + 1) + ((p : ℤ) ^ 6 - 1) * ((p : ℤ) ^ 2 + 1) * ((p ^ 4 : Nat) : ℤ) =
      ((p : ℤ) ^ 6 - 1) * ((p : ℤ) ^ 2 + 1) * ((p ^ 2 : Nat) : ℤ) + ((p : ℤ) ^ 12 - 1) := by push_cast; ring
  rw [e, zpow_add₀ hx, h12, mul_one]

end exps

end Verif.Bls381.Cyclo
