import Verif.Base.Tactics
import Mathlib.Algebra.QuadraticAlgebra.Basic
import Mathlib.FieldTheory.Finite.Basic
import Mathlib.NumberTheory.LegendreSymbol.Basic
import Mathlib.Algebra.CharP.Lemmas

/-!
The extension `F[u]/(u^2 + 1)` of a prime field with `p ≡ 3 (mod 4)`: the Frobenius map is the conjugation, and the square-root
algorithm (Algorithm 9 of eprint 2012/685) finds a root of every square.  No definition of the code is modelled here.
-/
namespace Verif.Bls381.Quad

open QuadraticAlgebra

/-- The quadratic extension with `u^2 = -1`. -/
abbrev F2 (p : Nat) := QuadraticAlgebra (ZMod p) (-1) 0

variable {p : Nat} [hp : Fact p.Prime]

theorem irr (h : p % 4 = 3) (r : ZMod p) : r ^ 2 ≠ -1 + 0 * r := by
  rw [zero_mul, add_zero]
  intro e
  exact ZMod.mod_four_ne_three_of_sq_eq_neg_one e h

/-- The square root of minus one. -/
def u : F2 p := ⟨0, 1⟩

theorem u_sq : (u : F2 p) * u = -1 := by
  unfold u
  ext <;> simp

instance : CharP (F2 p) p :=
  charP_of_injective_algebraMap (algebraMap_injective (R := ZMod p) (a := -1) (b := 0)) p

theorem split (x : F2 p) : x = algebraMap (ZMod p) (F2 p) x.re + algebraMap (ZMod p) (F2 p) x.im * u := by
  unfold u
  ext <;> simp

/-- the Frobenius map is the conjugation -/
theorem frob (h : p % 4 = 3) (x : F2 p) : x ^ p = ⟨x.re, -x.im⟩ := by
  have e : (u : F2 p) ^ p = -u := by
    obtain ⟨k, hk⟩ : ∃ k, p = 4 * k + 3 := ⟨p / 4, by omega⟩
    have h4 : (u : F2 p) ^ 4 = 1 := by
      have : (u : F2 p) ^ 4 = (u * u) * (u * u) := by ring
      rw [this, u_sq]; ring
    have h3 : (u : F2 p) ^ 3 = -u := by
      have : (u : F2 p) ^ 3 = (u * u) * u := by ring
      rw [this, u_sq]; ring
    calc (u : F2 p) ^ p = u ^ (4 * k + 3) := congrArg (fun n => (u : F2 p) ^ n) hk
      _ = -u := by rw [pow_add, pow_mul, h4, h3, one_pow, one_mul]
  conv_lhs => rw [split x]
  rw [add_pow_char, mul_pow, ← map_pow, ← map_pow, ZMod.pow_card, ZMod.pow_card, e]
  unfold u
  ext <;> simp

theorem frob2 (h : p % 4 = 3) (x : F2 p) : x ^ (p * p) = x := by
  rw [pow_mul, frob h, frob h]
  ext <;> simp

section
variable (h : p % 4 = 3) [Fact (∀ r : ZMod p, r ^ 2 ≠ -1 + 0 * r)]
include h

theorem frobF (n : Nat) (hn : n = p) (x : F2 p) : x ^ n = ⟨x.re, -x.im⟩ := by
  rw [hn]; exact frob h x

theorem fermat (y : F2 p) (hy : y ≠ 0) : y ^ ((p - 1) * (p + 1)) = 1 := by
  have h2 := frob2 h y
  have e : p * p = (p - 1) * (p + 1) + 1 := by
    obtain ⟨k, hk⟩ : ∃ k, p = k + 1 := ⟨p - 1, by omega⟩
    rw [hk, Nat.add_sub_cancel]; ring
  rw [e, pow_succ] at h2
  exact mul_right_cancel₀ hy (by rw [h2, one_mul])

/-- the square-root algorithm: with `α = a^((p-1)/2)` and `x0 = a^((p+1)/4)`, one of `u·x0` and `(1+α)^((p-1)/2)·x0` is a root of
the square `a`, the first if `α = -1` -/
theorem sqrt_alg {a a1 : F2 p} (ha : IsSquare a) (h0 : a ≠ 0) (h1 : a1 = a ^ ((p - 3) / 4)) :
    (a1 * a1 * a = -1 → (u * (a1 * a)) * (u * (a1 * a)) = a) ∧
    (a1 * a1 * a ≠ -1 →
      ((1 + a1 * a1 * a) ^ ((p - 1) / 2) * (a1 * a)) * ((1 + a1 * a1 * a) ^ ((p - 1) / 2) * (a1 * a)) = a) := by
  constructor
  · intro e
    have : (u * (a1 * a)) * (u * (a1 * a)) = (u * u) * (a1 * a1 * a) * a := by ring
    rw [this, e, u_sq]; ring
  · intro hne
    obtain ⟨y, hy⟩ := ha
    have hy0 : y ≠ 0 := by
      intro hz; apply h0; rw [hy, hz, mul_zero]
    set α := a1 * a1 * a with hα
    have hα' : α = y ^ (p - 1) := by
      rw [hα, h1, ← pow_add, ← pow_succ, hy, ← pow_two, ← pow_mul]
      congr 1
      omega
    have hinv : α * α ^ p = 1 := by
      rw [← pow_succ', hα', ← pow_mul]
      exact fermat h y hy0
    have hk : 1 + α ≠ 0 := by
      intro e; exact hne (by linear_combination e)
    have hfrob : (1 + α) * (1 + α) ^ (p - 1) = 1 + α ^ p := by
      rw [← pow_succ', show p - 1 + 1 = p by omega, add_pow_char, one_pow]
    have key : (1 + α) ^ (p - 1) * α = 1 := by
      apply mul_left_cancel₀ hk
      calc (1 + α) * ((1 + α) ^ (p - 1) * α) = ((1 + α) * (1 + α) ^ (p - 1)) * α := by ring
        _ = α + α * α ^ p := by rw [hfrob]; ring
        _ = (1 + α) * 1 := by rw [hinv]; ring
    have e2 : (1 + α) ^ ((p - 1) / 2) * (1 + α) ^ ((p - 1) / 2) = (1 + α) ^ (p - 1) := by
      rw [← pow_add]; congr 1; omega
    calc ((1 + α) ^ ((p - 1) / 2) * (a1 * a)) * ((1 + α) ^ ((p - 1) / 2) * (a1 * a))
        = ((1 + α) ^ ((p - 1) / 2) * (1 + α) ^ ((p - 1) / 2)) * α * a := by rw [hα]; ring
      _ = a := by rw [e2, key, one_mul]

end

end Verif.Bls381.Quad
