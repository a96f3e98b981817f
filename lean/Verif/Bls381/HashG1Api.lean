import Verif.Bls381.HashG1
import Verif.Bls381.G2Nat

/-!
# C101: hashing to G1
(`crypto/core/curves/native/bls12381/g1.go`)
-/

set_option maxRecDepth 20000
set_option linter.unusedSectionVars false
set_option exponentiation.threshold 1000

namespace Verif.Bls381.G1
open Verif.Bytes Verif.Native Verif.Native.Weier Verif.Native.Sswu P3

/-! ## Specification -/

/-- Square roots of the eight squares of the exceptional elements. -/
def exc8 : List Nat := [0xa2605e5991fcf3e63728a7a1468d79bacaa5f23f3816aadcd38efdd330c6d4f5bbf450f92156e0e23e16e3252bcd042,
  0x1377c0192d99508a317127abf17c64205c7aad448380027efb47ae73ea231dbd6ecd3f2841b63d309c35bb8fd13e48f0,
  0x854a3cb180882d5b1efc1c3cc5b3fb33b27cb739f1389986ca46e1c5cb5010d8a06fd781c63074868f316d95b8f8405,
  0xa3bf00221e169b850c5268c3d1edd576732060760bc0c00ed0311dee8588b18130822d3027f8d142802d784ea194fca,
  0xec1d2551f80abe70136a7f42e52133ebddf9b619a88147ae422a98e57581f2b0961dc019c74599f12a1b5513649a2e8,
  0x146850b3bdc2495ed73bb803dfaa951a88abff0acb5c7aeac52b48f3c808e87ce3885b98ce916e17caef21a6cbc6b598,
  0xa92437e90bc473049ab549b4c4a145feb4fb5cd39f7ee85c11fa62a8f5317220b398be420ca5d8364d460f6ee1efd29,
  0x10683009c00edc5676a3d43b8b5ae8a68e75a32954f6a502e6acc1c11ed49bcaa7c843871e887ce9839920c2ff0f732f]

/-- SPEC: the sixteen exceptional elements: the listed ones and their negatives. -/
def excAll : Set (ZMod Fp.p) := {w | ∃ n ∈ exc8, w = (n : ZMod Fp.p) ∨ w = -(n : ZMod Fp.p)}

/-! ## The exceptional elements -/

theorem ker_roots {x : ZMod Fp.p} (h : ev dx x = 0) :
    x = ((0x10ef325dd1e98bdf0d97a4c6b7f968ed7f31f2fbff088acb39d5319cfc261ea18773405f325612742f0c5d90634bcf4 : Nat) : ZMod Fp.p) ∨ x = ((0xd7f2d0d03ae035321eed4c1479d13251abf0e9a96479623eb5380b575e319851fb5e5a8b43b9c1a46880f54bf2b2f7c : Nat) : ZMod Fp.p) ∨
    x = ((0x105249b4cac630ce5aa18e6c1189a18c82019b4e12e491fbac012c259ca3a67f638560b8bb416af02a4724385ed0fc8e : Nat) : ZMod Fp.p) ∨ x = ((0x140d41735b10ce710727cd9356905701a2b866b803baa468948b7f423ddcc560c9a8f1cd5f8ed4297c37464fb8bfe4a7 : Nat) : ZMod Fp.p) ∨
    x = ((0x1665a9c648e78314490a94f654d9b1039ab85847223bfaed9aa54f0f07736d122d1ceca1ac0e9123e753fde16e97c3d7 : Nat) : ZMod Fp.p) := by
  rw [ev_dx, pow_eq_zero_iff (by decide)] at h
  have e : ker = pmul Fp.p [Fp.p - 0x10ef325dd1e98bdf0d97a4c6b7f968ed7f31f2fbff088acb39d5319cfc261ea18773405f325612742f0c5d90634bcf4, 1]
    (pmul Fp.p [Fp.p - 0xd7f2d0d03ae035321eed4c1479d13251abf0e9a96479623eb5380b575e319851fb5e5a8b43b9c1a46880f54bf2b2f7c, 1] (pmul Fp.p [Fp.p - 0x105249b4cac630ce5aa18e6c1189a18c82019b4e12e491fbac012c259ca3a67f638560b8bb416af02a4724385ed0fc8e, 1]
      (pmul Fp.p [Fp.p - 0x140d41735b10ce710727cd9356905701a2b866b803baa468948b7f423ddcc560c9a8f1cd5f8ed4297c37464fb8bfe4a7, 1] [Fp.p - 0x1665a9c648e78314490a94f654d9b1039ab85847223bfaed9aa54f0f07736d122d1ceca1ac0e9123e753fde16e97c3d7, 1]))) := by decide +kernel
  have lin (r : Nat) (hr : r < Fp.p) : ev [Fp.p - r, 1] x = x - (r : ZMod Fp.p) := by
    rw [ev_cons, ev_cons, G2.cast_neg' r hr]
    have : ev [] x = 0 := rfl
    rw [this, Nat.cast_one]
    ring
  rw [e, ev_pmul, ev_pmul, ev_pmul, ev_pmul, lin _ (by decide +kernel), lin _ (by decide +kernel), lin _ (by decide +kernel),
    lin _ (by decide +kernel), lin _ (by decide +kernel)] at h
  simpa only [mul_eq_zero, sub_eq_zero] using h

theorem ev_root (r : Nat) (h : (ker.foldr (fun c acc => c + r * acc) 0) % Fp.p = 0) : ev dx (r : ZMod Fp.p) = 0 := by
  rw [ev_dx, pow_eq_zero_iff (by decide)]
  have g : ∀ l : List Nat, ev l (r : ZMod Fp.p) = ((l.foldr (fun c acc => c + r * acc) 0 : Nat) : ZMod Fp.p) := by
    intro l
    induction l with
    | nil => exact Nat.cast_zero.symm
    | cons c l ih => rw [ev_cons, ih, List.foldr_cons, Nat.cast_add, Nat.cast_mul]
  rw [g, ZMod.natCast_eq_zero_iff]
  exact Nat.dvd_of_mod_eq_zero h

/-- `r` is the abscissa of the simplified SWU image of `w`. -/
def Hit (w r : ZMod Fp.p) : Prop := ∃ y, Swu w r y

section
variable {K : Type} [_root_.Field K] [DecidableEq K]

theorem quad_alg {a b s r t : K} (ha : a ≠ 0) (hb : b ≠ 0) (hS : (a * r + b) * s + b = 0) (ht : t ^ 2 + t ≠ 0)
    (h : r = (-b / a) * (1 + 1 / (t ^ 2 + t))) : t ^ 2 + t = s := by
  have e : (a * r + b) * (t ^ 2 + t) = -b := by
    have h1 : t ≠ 0 := fun h => ht (by rw [h]; ring)
    have h2 : t + 1 ≠ 0 := fun h => ht (by linear_combination t * h)
    have e' : t ^ 2 + t = t * (t + 1) := by ring
    rw [h, e']
    field_simp
    ring
  have hne : a * r + b ≠ 0 := fun h0 => hb (by rw [h0, zero_mul] at e; exact (neg_eq_zero.1 e.symm))
  apply mul_left_cancel₀ hne
  linear_combination e - hS

theorem quad_alg' {a b s r t : K} (ha : a ≠ 0) (hb : b ≠ 0) (hS : (a * r + b) * s + b = 0) (ht : t ^ 2 + t ≠ 0)
    (h : r = t * ((-b / a) * (1 + 1 / (t ^ 2 + t)))) : t⁻¹ ^ 2 + t⁻¹ = s := by
  have h1 : t ≠ 0 := fun h => ht (by rw [h]; ring)
  have h2 : t + 1 ≠ 0 := fun h => ht (by linear_combination t * h)
  have e : t⁻¹ ^ 2 + t⁻¹ = (t + 1) / t ^ 2 := by field_simp; ring
  have e' : t ^ 2 + t = t * (t + 1) := by ring
  apply quad_alg ha hb hS
  · rw [e]
    exact div_ne_zero h2 (pow_ne_zero 2 h1)
  · rw [h, e, e']
    field_simp
    ring

theorem roots_alg {t t1 t2 s : K} (h1 : t1 + t2 + 1 = 0) (h2 : t1 * t2 + s = 0) (h : t ^ 2 + t = s) : t = t1 ∨ t = t2 := by
  have : (t - t1) * (t - t2) = 0 := by linear_combination h - t * h1 + h2
  rcases mul_eq_zero.1 this with e | e
  · exact Or.inl (sub_eq_zero.1 e)
  · exact Or.inr (sub_eq_zero.1 e)
end

theorem ib_ne : (ib : ZMod Fp.p) ≠ 0 := by
  rw [Ne, ZMod.natCast_eq_zero_iff]
  decide +kernel

theorem cast_zero {m : Nat} (h : m % Fp.p = 0) : (m : ZMod Fp.p) = 0 := by
  rw [ZMod.natCast_eq_zero_iff]
  exact Nat.dvd_of_mod_eq_zero h

theorem Hit.quad {w : ZMod Fp.p} {r s : Nat} (h : Hit w (r : ZMod Fp.p)) (hs : ((ia * r + ib) * s + ib) % Fp.p = 0)
    (hne : (r * (11 * ia)) % Fp.p ≠ ib % Fp.p) :
    w ≠ 0 ∧ ((((11 : Nat) : ZMod Fp.p) * w ^ 2) ^ 2 + ((11 : Nat) : ZMod Fp.p) * w ^ 2 = (s : ZMod Fp.p) ∨
    (((11 : Nat) : ZMod Fp.p) * w ^ 2)⁻¹ ^ 2 + (((11 : Nat) : ZMod Fp.p) * w ^ 2)⁻¹ = (s : ZMod Fp.p)) := by
  have hS : ((ia : ZMod Fp.p) * (r : ZMod Fp.p) + (ib : ZMod Fp.p)) * (s : ZMod Fp.p) + (ib : ZMod Fp.p) = 0 := by
    have := cast_zero hs
    rwa [Nat.cast_add, Nat.cast_mul, Nat.cast_add, Nat.cast_mul] at this
  have hr : (r : ZMod Fp.p) ≠ (ib : ZMod Fp.p) / (((11 : Nat) : ZMod Fp.p) * (ia : ZMod Fp.p)) := by
    intro e
    rw [eq_div_iff (mul_ne_zero eleven_ne ia_ne), ← Nat.cast_mul, ← Nat.cast_mul] at e
    exact hne ((ZMod.natCast_eq_natCast_iff _ _ _).1 e)
  obtain ⟨y, h1, -⟩ := h
  have ha := ia_ne
  have hb := ib_ne
  have hx := exc_sq
  have h11 := eleven_ne
  have h11' := eleven_ns
  generalize (ia : ZMod Fp.p) = a at *
  generalize (ib : ZMod Fp.p) = b at *
  generalize ((11 : Nat) : ZMod Fp.p) = z at *
  generalize (r : ZMod Fp.p) = r' at *
  generalize (s : ZMod Fp.p) = s' at *
  rcases h1 with ⟨-, e⟩ | ⟨hn, e⟩
  · have ht : (z * w ^ 2) ^ 2 + z * w ^ 2 ≠ 0 := by
      intro h0
      apply hr
      rw [e]
      unfold cand1
      exact if_pos h0
    have hw : w ≠ 0 := fun h => ht (by rw [h]; ring)
    refine ⟨hw, Or.inl (quad_alg ha hb hS ht ?_)⟩
    rw [e]
    unfold cand1
    exact if_neg ht
  · obtain ⟨-, -, ht⟩ := cand2_square ha h11' hx hn
    have hw : w ≠ 0 := fun h => ht (by rw [h]; ring)
    refine ⟨hw, Or.inr (quad_alg' ha hb hS ht ?_)⟩
    rw [e]
    unfold cand1
    dsimp only
    rw [if_neg ht]

theorem Hit.disc {w : ZMod Fp.p} {r s d : Nat} (h : Hit w (r : ZMod Fp.p)) (hs : ((ia * r + ib) * s + ib) % Fp.p = 0)
    (hne : (r * (11 * ia)) % Fp.p ≠ ib % Fp.p) (hd : (1 + 4 * s) % Fp.p = d % Fp.p) (_ : d < Fp.p) : IsSquare (d : ZMod Fp.p) := by
  have e : (d : ZMod Fp.p) = 1 + 4 * (s : ZMod Fp.p) := by
    rw [← cast_eq hd, Nat.cast_add, Nat.cast_mul, Nat.cast_one, Nat.cast_ofNat]
  rw [e]
  obtain ⟨-, h | h⟩ := h.quad hs hne
  · exact ⟨2 * (((11 : Nat) : ZMod Fp.p) * w ^ 2) + 1, by rw [← h]; ring⟩
  · exact ⟨2 * (((11 : Nat) : ZMod Fp.p) * w ^ 2)⁻¹ + 1, by rw [← h]; ring⟩

theorem Hit.sq {w : ZMod Fp.p} {r s t1 t2 q1 q2 q3 q4 : Nat} (h : Hit w (r : ZMod Fp.p)) (hs : ((ia * r + ib) * s + ib) % Fp.p = 0)
    (hne : (r * (11 * ia)) % Fp.p ≠ ib % Fp.p) (h1 : (t1 + t2 + 1) % Fp.p = 0) (h2 : (t1 * t2 + s) % Fp.p = 0)
    (e1 : (11 * q1) % Fp.p = t1 % Fp.p) (e2 : (11 * q2) % Fp.p = t2 % Fp.p)
    (e3 : (11 * q3 * t1) % Fp.p = 1 % Fp.p) (e4 : (11 * q4 * t2) % Fp.p = 1 % Fp.p) (_ : q1 < Fp.p) :
    w ^ 2 = (q1 : ZMod Fp.p) ∨ w ^ 2 = (q2 : ZMod Fp.p) ∨ w ^ 2 = (q3 : ZMod Fp.p) ∨ w ^ 2 = (q4 : ZMod Fp.p) := by
  have h1' := cast_zero h1
  have h2' := cast_zero h2
  have e1' := cast_eq e1
  have e2' := cast_eq e2
  have e3' := cast_eq e3
  have e4' := cast_eq e4
  rw [Nat.cast_add, Nat.cast_add, Nat.cast_one] at h1'
  rw [Nat.cast_add, Nat.cast_mul] at h2'
  rw [Nat.cast_mul] at e1' e2'
  rw [Nat.cast_mul, Nat.cast_mul, Nat.cast_one] at e3' e4'
  obtain ⟨hw, h⟩ := h.quad hs hne
  have h11 := eleven_ne
  generalize ((11 : Nat) : ZMod Fp.p) = z at *
  have hw2 : z * w ^ 2 ≠ 0 := mul_ne_zero h11 (pow_ne_zero 2 hw)
  rcases h with h | h
  · rcases roots_alg h1' h2' h with e | e
    · exact Or.inl (mul_left_cancel₀ h11 (e.trans e1'.symm))
    · exact Or.inr (Or.inl (mul_left_cancel₀ h11 (e.trans e2'.symm)))
  · have key {t q : ZMod Fp.p} (e : (z * w ^ 2)⁻¹ = t) (k : z * q * t = 1) : w ^ 2 = q := by
      rw [← e, ← div_eq_mul_inv, div_eq_one_iff_eq hw2] at k
      exact (mul_left_cancel₀ h11 k).symm
    rcases roots_alg h1' h2' h with e | e
    · exact Or.inr (Or.inr (Or.inl (key e e3')))
    · exact Or.inr (Or.inr (Or.inr (key e e4')))

theorem mem_pm {w : ZMod Fp.p} {q : Nat} (n : Nat) (hm : n ∈ exc8) (hq : n ^ 2 % Fp.p = q % Fp.p) (e : w ^ 2 = (q : ZMod Fp.p)) : w ∈ excAll := by
  refine ⟨n, hm, ?_⟩
  rw [← cast_eq hq, Nat.cast_pow] at e
  exact sq_eq_sq_iff_eq_or_eq_neg.1 e

theorem back1 {w : ZMod Fp.p} {r t y n : Nat} (h : w ^ 2 = (n : ZMod Fp.p) ^ 2) (ht : 11 * n ^ 2 % Fp.p = t % Fp.p)
    (hr : (ia * r * (t ^ 2 + t) + ib * (t ^ 2 + t + 1)) % Fp.p = 0) (h0 : (t ^ 2 + t) % Fp.p ≠ 0)
    (hy : y ^ 2 % Fp.p = (r ^ 3 + ia * r + ib) % Fp.p) (hk : (ker.foldr (fun c acc => c + r * acc) 0) % Fp.p = 0) : Exceptional w := by
  obtain ⟨u, hu⟩ := rep_val w
  obtain ⟨x, y', -, -, -, hs⟩ := osswu_spec hu
  refine ⟨x, y', hs, ?_⟩
  have hd := ev_root r hk
  have hsq := rhs_sq hy
  have et : ((11 : Nat) : ZMod Fp.p) * w ^ 2 = (t : ZMod Fp.p) := by
    rw [h, ← cast_eq ht, Nat.cast_mul, Nat.cast_pow]
  have h0' : (t : ZMod Fp.p) ^ 2 + (t : ZMod Fp.p) ≠ 0 := by
    intro e
    rw [← Nat.cast_pow, ← Nat.cast_add, ZMod.natCast_eq_zero_iff] at e
    exact h0 (Nat.mod_eq_zero_of_dvd e)
  have hr' := cast_zero hr
  rw [Nat.cast_add, Nat.cast_mul, Nat.cast_mul, Nat.cast_mul, Nat.cast_add, Nat.cast_add, Nat.cast_add, Nat.cast_pow, Nat.cast_one] at hr'
  obtain ⟨h1, -⟩ := hs
  have ha := ia_ne
  have hc : cand1 (ia : ZMod Fp.p) (ib : ZMod Fp.p) ((11 : Nat) : ZMod Fp.p) w = (r : ZMod Fp.p) := by
    unfold cand1
    dsimp only
    rw [et, if_neg h0']
    generalize (ia : ZMod Fp.p) = a at *
    generalize (ib : ZMod Fp.p) = b at *
    generalize (t : ZMod Fp.p) = T at *
    generalize (r : ZMod Fp.p) = R at *
    have h1 : T ≠ 0 := fun h => h0' (by rw [h]; ring)
    have h2 : T + 1 ≠ 0 := fun h => h0' (by linear_combination T * h)
    have e' : T ^ 2 + T = T * (T + 1) := by ring
    rw [e']
    field_simp
    linear_combination -hr'
  rw [hc] at h1
  rcases h1 with ⟨-, e⟩ | ⟨hn, -⟩
  · rw [e]
    exact hd
  · exact absurd ⟨_, by rw [← hsq]; exact pow_two _⟩ hn

theorem back2 {w : ZMod Fp.p} {r t y n : Nat} (h : w ^ 2 = (n : ZMod Fp.p) ^ 2) (ht : 11 * n ^ 2 % Fp.p = t % Fp.p)
    (hr : (ia * r * (t + 1) + ib * (t ^ 2 + t + 1)) % Fp.p = 0) (h0 : (t ^ 2 + t) % Fp.p ≠ 0 ∧ y % Fp.p ≠ 0)
    (hy : y ^ 2 % Fp.p = (r ^ 3 + ia * r + ib) % Fp.p) (hk : (ker.foldr (fun c acc => c + r * acc) 0) % Fp.p = 0) : Exceptional w := by
  obtain ⟨u, hu⟩ := rep_val w
  obtain ⟨x, y', -, -, -, hs⟩ := osswu_spec hu
  refine ⟨x, y', hs, ?_⟩
  have hd := ev_root r hk
  have hsq := rhs_sq hy
  have et : ((11 : Nat) : ZMod Fp.p) * w ^ 2 = (t : ZMod Fp.p) := by
    rw [h, ← cast_eq ht, Nat.cast_mul, Nat.cast_pow]
  have h0' : (t : ZMod Fp.p) ^ 2 + (t : ZMod Fp.p) ≠ 0 := by
    intro e
    rw [← Nat.cast_pow, ← Nat.cast_add, ZMod.natCast_eq_zero_iff] at e
    exact h0.1 (Nat.mod_eq_zero_of_dvd e)
  have hy0 : (y : ZMod Fp.p) ≠ 0 := by
    rw [Ne, ZMod.natCast_eq_zero_iff]
    exact fun e => h0.2 (Nat.mod_eq_zero_of_dvd e)
  have hr' := cast_zero hr
  rw [Nat.cast_add, Nat.cast_mul, Nat.cast_mul, Nat.cast_mul, Nat.cast_add, Nat.cast_add, Nat.cast_add, Nat.cast_pow, Nat.cast_one] at hr'
  obtain ⟨h1, -⟩ := hs
  have ha := ia_ne
  have hcv : cand1 (ia : ZMod Fp.p) (ib : ZMod Fp.p) ((11 : Nat) : ZMod Fp.p) w =
      (-(ib : ZMod Fp.p) / (ia : ZMod Fp.p)) * (1 + 1 / ((t : ZMod Fp.p) ^ 2 + (t : ZMod Fp.p))) := by
    unfold cand1
    dsimp only
    rw [et, if_neg h0']
  have hc2 := rhs_cand2 (b := (ib : ZMod Fp.p)) ha h0'
  have hm : (t : ZMod Fp.p) * ((-(ib : ZMod Fp.p) / (ia : ZMod Fp.p)) * (1 + 1 / ((t : ZMod Fp.p) ^ 2 + (t : ZMod Fp.p)))) = (r : ZMod Fp.p) := by
    generalize (ia : ZMod Fp.p) = a at *
    generalize (ib : ZMod Fp.p) = b at *
    generalize (t : ZMod Fp.p) = T at *
    generalize (r : ZMod Fp.p) = R at *
    have h1 : T ≠ 0 := fun h => h0' (by rw [h]; ring)
    have h2 : T + 1 ≠ 0 := fun h => h0' (by linear_combination T * h)
    have e' : T ^ 2 + T = T * (T + 1) := by ring
    rw [e']
    field_simp
    linear_combination -hr'
  have ht0 : (t : ZMod Fp.p) ≠ 0 := fun h => h0' (by rw [h]; ring)
  have htn : ¬ IsSquare (t : ZMod Fp.p) := by
    rw [← et]
    refine nonsq_mul eleven_ns ?_
    rintro rfl
    rw [← et] at ht0
    exact ht0 (by ring)
  rcases h1 with ⟨⟨s, hs⟩, -⟩ | ⟨-, e⟩
  · exfalso
    rw [hcv] at hs
    rw [hm, hs, ← hsq] at hc2
    generalize (t : ZMod Fp.p) = T at *
    generalize (y : ZMod Fp.p) = Y at *
    have hs0 : s ≠ 0 := by
      rintro rfl
      exact hy0 (pow_eq_zero_iff (by decide) |>.1 (hc2.trans (by ring)))
    refine htn ⟨Y / (T * s), ?_⟩
    field_simp
    linear_combination -hc2
  · rw [e, et, hcv, hm]
    exact hd

theorem fwd0 {w : ZMod Fp.p} (h : Hit w ((0x10ef325dd1e98bdf0d97a4c6b7f968ed7f31f2fbff088acb39d5319cfc261ea18773405f325612742f0c5d90634bcf4 : Nat) : ZMod Fp.p)) : w ∈ excAll := by
  rcases h.sq (s := 0xf25d0cf7cf8b220cab8a604d456d6e9b405c8666641e5878e7cb2cb47821acfd7455143367e237b04b8b82f72c427fc) (t1 := 0xc5ec6944c69ade60502eef2a85025308770bc88be0821b0b803143d1b48bf50946c287bfc8fc63d09a73c5c8005edb0) (t2 := 0xda24b55ed1638b44618b8c39afb87a6dd068efc357cf10eaf2dbe63db6836d38a3fd782b4c439c2b057c3a37ff9bcfa)
    (q1 := 0x11fe381d866b2b7d1e8fe732692ec1baf38cb523fd2319bb3a33062a563b44d24c403ae2e3b9da8753dbfab5174e710) (q2 := 0x13d4caab876623eef1985290e16ddc959e952d11c22a18cf8a7114ee566909ede05cdc6106eedfa6d1f4054ae8b112e) (q3 := 0x1094fcf01ea78e3de4daae03f97f8d8a29ef9722dd9ba0c1f6692240896992907d6394f49089c56ab7ce2964cdd0c4cb) (q4 := 0xd1e115f54940ddb8addd41e18c92ade393621e60ce7eb2261691204aeec9bcaf5f700aeaf8d9043520a3844b3535ee8)
    (by decide +kernel) (by decide +kernel) (by decide +kernel) (by decide +kernel) (by decide +kernel) (by decide +kernel) (by decide +kernel)
    (by decide +kernel) (by decide +kernel) with e | e | e | e
  · exact mem_pm 0xa2605e5991fcf3e63728a7a1468d79bacaa5f23f3816aadcd38efdd330c6d4f5bbf450f92156e0e23e16e3252bcd042 (by decide +kernel) (by decide +kernel) e
  · exact mem_pm 0x1377c0192d99508a317127abf17c64205c7aad448380027efb47ae73ea231dbd6ecd3f2841b63d309c35bb8fd13e48f0 (by decide +kernel) (by decide +kernel) e
  · exact mem_pm 0x854a3cb180882d5b1efc1c3cc5b3fb33b27cb739f1389986ca46e1c5cb5010d8a06fd781c63074868f316d95b8f8405 (by decide +kernel) (by decide +kernel) e
  · exact mem_pm 0xa3bf00221e169b850c5268c3d1edd576732060760bc0c00ed0311dee8588b18130822d3027f8d142802d784ea194fca (by decide +kernel) (by decide +kernel) e

theorem back0a {w : ZMod Fp.p} (h : w ^ 2 = ((0xa2605e5991fcf3e63728a7a1468d79bacaa5f23f3816aadcd38efdd330c6d4f5bbf450f92156e0e23e16e3252bcd042 : Nat) : ZMod Fp.p) ^ 2) : Exceptional w :=
  back1 (r := 0x10ef325dd1e98bdf0d97a4c6b7f968ed7f31f2fbff088acb39d5319cfc261ea18773405f325612742f0c5d90634bcf4) (t := 0xc5ec6944c69ade60502eef2a85025308770bc88be0821b0b803143d1b48bf50946c287bfc8fc63d09a73c5c8005edb0) (y := 0xeb3efc0a8592166adb221f4b9158d9ff0d160ce6a2cc1a280b3ec28c01870fa13ca7cddd7ba78f6cd54fe36375cd5fd) (n := 0xa2605e5991fcf3e63728a7a1468d79bacaa5f23f3816aadcd38efdd330c6d4f5bbf450f92156e0e23e16e3252bcd042) h (by decide +kernel) (by decide +kernel) (by decide +kernel) (by decide +kernel) (by decide +kernel)

theorem back0b {w : ZMod Fp.p} (h : w ^ 2 = ((0x1377c0192d99508a317127abf17c64205c7aad448380027efb47ae73ea231dbd6ecd3f2841b63d309c35bb8fd13e48f0 : Nat) : ZMod Fp.p) ^ 2) : Exceptional w :=
  back1 (r := 0x10ef325dd1e98bdf0d97a4c6b7f968ed7f31f2fbff088acb39d5319cfc261ea18773405f325612742f0c5d90634bcf4) (t := 0xda24b55ed1638b44618b8c39afb87a6dd068efc357cf10eaf2dbe63db6836d38a3fd782b4c439c2b057c3a37ff9bcfa) (y := 0xeb3efc0a8592166adb221f4b9158d9ff0d160ce6a2cc1a280b3ec28c01870fa13ca7cddd7ba78f6cd54fe36375cd5fd) (n := 0x1377c0192d99508a317127abf17c64205c7aad448380027efb47ae73ea231dbd6ecd3f2841b63d309c35bb8fd13e48f0) h (by decide +kernel) (by decide +kernel) (by decide +kernel) (by decide +kernel) (by decide +kernel)

theorem back0c {w : ZMod Fp.p} (h : w ^ 2 = ((0x854a3cb180882d5b1efc1c3cc5b3fb33b27cb739f1389986ca46e1c5cb5010d8a06fd781c63074868f316d95b8f8405 : Nat) : ZMod Fp.p) ^ 2) : Exceptional w :=
  back2 (r := 0x10ef325dd1e98bdf0d97a4c6b7f968ed7f31f2fbff088acb39d5319cfc261ea18773405f325612742f0c5d90634bcf4) (t := 0x5f60e9beb3ce70c7a3e42fe1695b0c0e086ddcdd0c6519c42eb65f28b291388c93668b5c9f7b97cfe2c754d7faca0c) (y := 0xeb3efc0a8592166adb221f4b9158d9ff0d160ce6a2cc1a280b3ec28c01870fa13ca7cddd7ba78f6cd54fe36375cd5fd) (n := 0x854a3cb180882d5b1efc1c3cc5b3fb33b27cb739f1389986ca46e1c5cb5010d8a06fd781c63074868f316d95b8f8405) h (by decide +kernel) (by decide +kernel) (by decide +kernel) (by decide +kernel) (by decide +kernel)

theorem back0d {w : ZMod Fp.p} (h : w ^ 2 = ((0xa3bf00221e169b850c5268c3d1edd576732060760bc0c00ed0311dee8588b18130822d3027f8d142802d784ea194fca : Nat) : ZMod Fp.p) ^ 2) : Exceptional w :=
  back2 (r := 0x10ef325dd1e98bdf0d97a4c6b7f968ed7f31f2fbff088acb39d5319cfc261ea18773405f325612742f0c5d90634bcf4) (t := 0xe45658582dd176b7ffdd6bbc02a77577efefb49cc5dbcbd2b8fa90eb2b5e303f8410788147132e5e4756af3b496bea1) (y := 0xeb3efc0a8592166adb221f4b9158d9ff0d160ce6a2cc1a280b3ec28c01870fa13ca7cddd7ba78f6cd54fe36375cd5fd) (n := 0xa3bf00221e169b850c5268c3d1edd576732060760bc0c00ed0311dee8588b18130822d3027f8d142802d784ea194fca) h (by decide +kernel) (by decide +kernel) (by decide +kernel) (by decide +kernel) (by decide +kernel)

theorem fwd1 {w : ZMod Fp.p} (h : Hit w ((0xd7f2d0d03ae035321eed4c1479d13251abf0e9a96479623eb5380b575e319851fb5e5a8b43b9c1a46880f54bf2b2f7c : Nat) : ZMod Fp.p)) : w ∈ excAll := by
  rcases h.sq (s := 0xefc4f876a44a9ab11c0d123d5d6476a3e58a3e989d738fbbff0e28e006060a45baadc26304fe03648a2a8d2a549bbec) (t1 := 0x13018f05bb8bacb21e7fa6d4ae24dcf3ade09f0a343d3fe2900f2d330c073f81fc7dff55b18b51ea11063a972f290b2) (t2 := 0x18d0f8f9ddc72bcf2933ad48f8695f082999419450413ec13e2fdfcdc5f0822bfee42009563b4ae118ee9c568d0d19f8)
    (q1 := 0x17bf86eac83f3fb6018b5223fe2ad2bf60af2e48ec3952dc61898fbccd6c8d37649742e6923756485aa37d6c7ecfee20) (q2 := 0x49ebb2c021dbbdb0a92d92e79caa3fd0cea3b5f6340930bb1f18495b40eadd8bcde8e8c5dc7355a41b88293812fb4c9) (q3 := 0x518f1b08fa6557009ed614f618766837810f4afadacfb6238bb939f3a5f1511e58224ea118060d1670ca4351c56bcdf) (q4 := 0x14d032f8b121bd7b3fbc4b196a5dfa12ca52e43d04c3486c8d421dfad5c4350507e7c6031c3cd158fd99de3436de7bc9)
    (by decide +kernel) (by decide +kernel) (by decide +kernel) (by decide +kernel) (by decide +kernel) (by decide +kernel) (by decide +kernel)
    (by decide +kernel) (by decide +kernel) with e | e | e | e
  · exact mem_pm 0xec1d2551f80abe70136a7f42e52133ebddf9b619a88147ae422a98e57581f2b0961dc019c74599f12a1b5513649a2e8 (by decide +kernel) (by decide +kernel) e
  · exact mem_pm 0x146850b3bdc2495ed73bb803dfaa951a88abff0acb5c7aeac52b48f3c808e87ce3885b98ce916e17caef21a6cbc6b598 (by decide +kernel) (by decide +kernel) e
  · exact mem_pm 0xa92437e90bc473049ab549b4c4a145feb4fb5cd39f7ee85c11fa62a8f5317220b398be420ca5d8364d460f6ee1efd29 (by decide +kernel) (by decide +kernel) e
  · exact mem_pm 0x10683009c00edc5676a3d43b8b5ae8a68e75a32954f6a502e6acc1c11ed49bcaa7c843871e887ce9839920c2ff0f732f (by decide +kernel) (by decide +kernel) e

theorem back1a {w : ZMod Fp.p} (h : w ^ 2 = ((0xec1d2551f80abe70136a7f42e52133ebddf9b619a88147ae422a98e57581f2b0961dc019c74599f12a1b5513649a2e8 : Nat) : ZMod Fp.p) ^ 2) : Exceptional w :=
  back1 (r := 0xd7f2d0d03ae035321eed4c1479d13251abf0e9a96479623eb5380b575e319851fb5e5a8b43b9c1a46880f54bf2b2f7c) (t := 0x13018f05bb8bacb21e7fa6d4ae24dcf3ade09f0a343d3fe2900f2d330c073f81fc7dff55b18b51ea11063a972f290b2) (y := 0x59e4a8d101f0c51d351b3877c5197f07d08511978f9492dacd907f783f756008f967f1556f49e19032b4ecc3f415b40) (n := 0xec1d2551f80abe70136a7f42e52133ebddf9b619a88147ae422a98e57581f2b0961dc019c74599f12a1b5513649a2e8) h (by decide +kernel) (by decide +kernel) (by decide +kernel) (by decide +kernel) (by decide +kernel)

theorem back1b {w : ZMod Fp.p} (h : w ^ 2 = ((0x146850b3bdc2495ed73bb803dfaa951a88abff0acb5c7aeac52b48f3c808e87ce3885b98ce916e17caef21a6cbc6b598 : Nat) : ZMod Fp.p) ^ 2) : Exceptional w :=
  back1 (r := 0xd7f2d0d03ae035321eed4c1479d13251abf0e9a96479623eb5380b575e319851fb5e5a8b43b9c1a46880f54bf2b2f7c) (t := 0x18d0f8f9ddc72bcf2933ad48f8695f082999419450413ec13e2fdfcdc5f0822bfee42009563b4ae118ee9c568d0d19f8) (y := 0x59e4a8d101f0c51d351b3877c5197f07d08511978f9492dacd907f783f756008f967f1556f49e19032b4ecc3f415b40) (n := 0x146850b3bdc2495ed73bb803dfaa951a88abff0acb5c7aeac52b48f3c808e87ce3885b98ce916e17caef21a6cbc6b598) h (by decide +kernel) (by decide +kernel) (by decide +kernel) (by decide +kernel) (by decide +kernel)

theorem back1c {w : ZMod Fp.p} (h : w ^ 2 = ((0xa92437e90bc473049ab549b4c4a145feb4fb5cd39f7ee85c11fa62a8f5317220b398be420ca5d8364d460f6ee1efd29 : Nat) : ZMod Fp.p) ^ 2) : Exceptional w :=
  back2 (r := 0xd7f2d0d03ae035321eed4c1479d13251abf0e9a96479623eb5380b575e319851fb5e5a8b43b9c1a46880f54bf2b2f7c) (t := 0x4103ec1b925de9bd6fbdefcaa3a0df75fcbec828f64a7b9a1adb29594b3fb7c9f3f96115ddc28fff98d0e4837bac83f) (y := 0x59e4a8d101f0c51d351b3877c5197f07d08511978f9492dacd907f783f756008f967f1556f49e19032b4ecc3f415b40) (n := 0xa92437e90bc473049ab549b4c4a145feb4fb5cd39f7ee85c11fa62a8f5317220b398be420ca5d8364d460f6ee1efd29) h (by decide +kernel) (by decide +kernel) (by decide +kernel) (by decide +kernel) (by decide +kernel)

theorem back1d {w : ZMod Fp.p} (h : w ^ 2 = ((0x10683009c00edc5676a3d43b8b5ae8a68e75a32954f6a502e6acc1c11ed49bcaa7c843871e887ce9839920c2ff0f732f : Nat) : ZMod Fp.p) ^ 2) : Exceptional w :=
  back2 (r := 0xd7f2d0d03ae035321eed4c1479d13251abf0e9a96479623eb5380b575e319851fb5e5a8b43b9c1a46880f54bf2b2f7c) (t := 0x14e9a15dd073ef796439fc6577ac58138dd57277983b86aed850b4bf79e696166195822cabfcfed515a48c3e5b91fc4b) (y := 0x59e4a8d101f0c51d351b3877c5197f07d08511978f9492dacd907f783f756008f967f1556f49e19032b4ecc3f415b40) (n := 0x10683009c00edc5676a3d43b8b5ae8a68e75a32954f6a502e6acc1c11ed49bcaa7c843871e887ce9839920c2ff0f732f) h (by decide +kernel) (by decide +kernel) (by decide +kernel) (by decide +kernel) (by decide +kernel)

theorem fwd2 {w : ZMod Fp.p} (h : Hit w ((0x105249b4cac630ce5aa18e6c1189a18c82019b4e12e491fbac012c259ca3a67f638560b8bb416af02a4724385ed0fc8e : Nat) : ZMod Fp.p)) : w ∈ excAll := by
  rcases h.sq (s := 0xfecc68933726c050be69bf47ac3ce14d77740107e5932e47acd852adb4fdea4211963b2de48950d96a3ed56d0f40eb3) (t1 := 0x41f64bef1df2c45f111ccc84eb0dd761eaf01c585d9c8322dc9aa5eb64248400fedb75f16b6bc20145e54c273376768) (t2 := 0x15e1ad2b47a0ba545a09daedf49acf6145c849bf6dab4a8d39672842406eade40ebe489f9a9d43dfa5a0ab3d8cc84342)
    (q1 := 0x777826882c2ce8d877d862ca524b7a2928d891ef17de8c4661fa605f6c1ec9b4fa19c4e1b2785773493f06ec4a7dadb) (q2 := 0x14e6bfae479a2d0384a0a525d2d0bf19db0be0895dfbfd23ad5b6e4c8ab94e74d1d43524d4d7062b67c80f913b57c80e) (q3 := 0x5e931af717ffc649ac604951c6c6c293f7be1f7fea5f8648c07282f56f9494b131db4048d049a1b1342eeeebaea06eb) (q4 := 0xa9e20c1353605eefade1ab5c9a51d50d83e661ba31cd8420f8fca15de930c6292724ccc073066aa64cedd9a32befcac)
    (by decide +kernel) (by decide +kernel) (by decide +kernel) (by decide +kernel) (by decide +kernel) (by decide +kernel) (by decide +kernel)
    (by decide +kernel) (by decide +kernel) with e | e | e | e
  · exact absurd ⟨w, by rw [← pow_two]; exact e.symm⟩ (fp_not_square (g := 0x777826882c2ce8d877d862ca524b7a2928d891ef17de8c4661fa605f6c1ec9b4fa19c4e1b2785773493f06ec4a7dadb) (by decide +kernel) (by decide +kernel))
  · exact absurd ⟨w, by rw [← pow_two]; exact e.symm⟩ (fp_not_square (g := 0x14e6bfae479a2d0384a0a525d2d0bf19db0be0895dfbfd23ad5b6e4c8ab94e74d1d43524d4d7062b67c80f913b57c80e) (by decide +kernel) (by decide +kernel))
  · exact absurd ⟨w, by rw [← pow_two]; exact e.symm⟩ (fp_not_square (g := 0x5e931af717ffc649ac604951c6c6c293f7be1f7fea5f8648c07282f56f9494b131db4048d049a1b1342eeeebaea06eb) (by decide +kernel) (by decide +kernel))
  · exact absurd ⟨w, by rw [← pow_two]; exact e.symm⟩ (fp_not_square (g := 0xa9e20c1353605eefade1ab5c9a51d50d83e661ba31cd8420f8fca15de930c6292724ccc073066aa64cedd9a32befcac) (by decide +kernel) (by decide +kernel))

theorem fwd3 {w : ZMod Fp.p} (h : Hit w ((0x140d41735b10ce710727cd9356905701a2b866b803baa468948b7f423ddcc560c9a8f1cd5f8ed4297c37464fb8bfe4a7 : Nat) : ZMod Fp.p)) : w ∈ excAll :=
  absurd (h.disc (s := 0xb7f5763268c3c5a7ad263fa1e004dce76c833d749885fd207954aac3c63d85655d22f06d6a175fb4ee2697cbf61bf96) (d := 0x13fc4ba260b10acfa02de83234b58a6276a983d8329c6c88b724580ffade6b35389cbc1ca931d7ed818aa5f2fd8753ae) (by decide +kernel) (by decide +kernel) (by decide +kernel) (by decide +kernel))
    (fp_not_square (by decide +kernel) (by decide +kernel))

theorem fwd4 {w : ZMod Fp.p} (h : Hit w ((0x1665a9c648e78314490a94f654d9b1039ab85847223bfaed9aa54f0f07736d122d1ceca1ac0e9123e753fde16e97c3d7 : Nat) : ZMod Fp.p)) : w ∈ excAll :=
  absurd (h.disc (s := 0x18b292dad6a15b3123ac30d3ad47f70e3dca6fcde22627b632f2139e4966da00e50c907c5e62e54fba9c549191223f34) (d := 0x14c715acae05b8f5ad5dcc2beb3cd5b2c9c3dca8ae09669a9635d69641888597382e41f5658f953fbc7452464489fcd0) (by decide +kernel) (by decide +kernel) (by decide +kernel) (by decide +kernel))
    (fp_not_square (by decide +kernel) (by decide +kernel))

theorem exc_iff (w : ZMod Fp.p) : Exceptional w ↔ w ∈ excAll := by
  constructor
  · rintro ⟨x, y, hs, hd⟩
    rcases ker_roots hd with rfl | rfl | rfl | rfl | rfl
    · exact fwd0 ⟨y, hs⟩
    · exact fwd1 ⟨y, hs⟩
    · exact fwd2 ⟨y, hs⟩
    · exact fwd3 ⟨y, hs⟩
    · exact fwd4 ⟨y, hs⟩
  · rintro ⟨n, hn, h'⟩
    have h : w ^ 2 = (n : ZMod Fp.p) ^ 2 := sq_eq_sq_iff_eq_or_eq_neg.2 h'
    clear h'
    unfold exc8 at hn
    simp only [List.mem_cons, List.not_mem_nil, or_false] at hn
    rcases hn with rfl | rfl | rfl | rfl | rfl | rfl | rfl | rfl
    · exact back0a h
    · exact back0b h
    · exact back0c h
    · exact back0d h
    · exact back1a h
    · exact back1b h
    · exact back1c h
    · exact back1d h

/-! ## The base field on naturals, for the kernel -/

/-- The reduced natural represents the element. -/
def RN1 (a : Nat) (x : ZMod Fp.p) : Prop := a < Fp.p ∧ (a : ZMod Fp.p) = x

open Classical in
/-- The base field on naturals; `invert` is never evaluated. -/
noncomputable def NF1 : FOps Nat where
  zero := 0
  one := 1
  add := fun a b => (a + b) % Fp.p
  sub := fun a b => (a + (Fp.p - b)) % Fp.p
  mul := fun a b => a * b % Fp.p
  square := fun a => a * a % Fp.p
  double := fun a => (a + a) % Fp.p
  neg := fun a => (Fp.p - a) % Fp.p
  mulBy3b := fun a => 12 * a % Fp.p
  isZero := fun a => if a = 0 then 1 else 0
  equal := fun a b => if a = b then 1 else 0
  cmove := fun a b c => if c = 1 then b else a
  invert := fun a => if h : ∃ c x y, RN1 a x ∧ RN1 c y ∧ x * y = 1 then (h.choose, 1) else (0, 0)
  sqrt := fun a => (a, 0)
  lexLargest := fun _ => 0
  b := 4

theorem rn1_unique {a c : Nat} {x : ZMod Fp.p} (ha : RN1 a x) (hc : RN1 c x) : a = c := by
  have h := (ZMod.natCast_eq_natCast_iff _ _ _).1 (ha.2.trans hc.2.symm)
  unfold Nat.ModEq at h
  rwa [Nat.mod_eq_of_lt ha.1, Nat.mod_eq_of_lt hc.1] at h

theorem NOk1 : FOK NF1 RN1 ((4 : Nat) : ZMod Fp.p) where
  unique := rn1_unique
  value := fun ha hb => ha.2.symm.trans hb.2
  zero := ⟨G2.pos, Nat.cast_zero⟩
  one := ⟨by decide +kernel, Nat.cast_one⟩
  coeff := ⟨by decide +kernel, rfl⟩
  add := fun {a c x y} ha hc => ⟨Nat.mod_lt _ G2.pos, by
    show ((( a + c) % Fp.p : Nat) : ZMod Fp.p) = _
    rw [ZMod.natCast_mod, Nat.cast_add, ha.2, hc.2]⟩
  sub := fun {a c x y} ha hc => ⟨Nat.mod_lt _ G2.pos, by
    show (((a + (Fp.p - c)) % Fp.p : Nat) : ZMod Fp.p) = _
    rw [ZMod.natCast_mod, Nat.cast_add, G2.cast_neg' _ hc.1, ha.2, hc.2, sub_eq_add_neg]⟩
  mul := fun {a c x y} ha hc => ⟨Nat.mod_lt _ G2.pos, by
    show ((a * c % Fp.p : Nat) : ZMod Fp.p) = _
    rw [ZMod.natCast_mod, Nat.cast_mul, ha.2, hc.2]⟩
  square := fun {a x} ha => ⟨Nat.mod_lt _ G2.pos, by
    show ((a * a % Fp.p : Nat) : ZMod Fp.p) = _
    rw [ZMod.natCast_mod, Nat.cast_mul, ha.2]⟩
  double := fun {a x} ha => ⟨Nat.mod_lt _ G2.pos, by
    show (((a + a) % Fp.p : Nat) : ZMod Fp.p) = _
    rw [ZMod.natCast_mod, Nat.cast_add, ha.2]⟩
  neg := fun {a x} ha => ⟨Nat.mod_lt _ G2.pos, by
    show (((Fp.p - a) % Fp.p : Nat) : ZMod Fp.p) = _
    rw [ZMod.natCast_mod, G2.cast_neg' _ ha.1, ha.2]⟩
  mulBy3b := fun {a x} ha => ⟨Nat.mod_lt _ G2.pos, by
    show ((12 * a % Fp.p : Nat) : ZMod Fp.p) = _
    rw [ZMod.natCast_mod, Nat.cast_mul, ha.2]
    congr 1⟩
  isZero := fun {a x} ha => by
    have : a = 0 ↔ x = 0 := ⟨fun h => by rw [← ha.2, h, Nat.cast_zero], fun h => rn1_unique ha (h ▸ ⟨G2.pos, Nat.cast_zero⟩)⟩
    change (if a = 0 then (1 : UInt64) else 0) = _
    simp only [this]
  equal := fun {a c x y} ha hc => by
    have : a = c ↔ x = y := ⟨fun h => by subst h; exact ha.2.symm.trans hc.2, fun h => by subst h; exact rn1_unique ha hc⟩
    change (if a = c then (1 : UInt64) else 0) = _
    simp only [this]
  cmove0 := fun a c => by
    change (if (0 : UInt64) = 1 then c else a) = a
    exact if_neg (by decide)
  cmove1 := fun a c => by
    change (if (1 : UInt64) = 1 then c else a) = c
    exact if_pos rfl
  invert := fun {a x} ha => by
    constructor
    · intro hx
      have h : ∃ c x y, RN1 a x ∧ RN1 c y ∧ x * y = 1 :=
        ⟨_, x, x⁻¹, ha, ⟨ZMod.val_lt x⁻¹, ZMod.natCast_zmod_val x⁻¹⟩, mul_inv_cancel₀ hx⟩
      have e : NF1.invert a = (h.choose, 1) := dif_pos h
      obtain ⟨x', y, h1, h2, h3⟩ := h.choose_spec
      rw [e]
      have : x' = x := h1.2.symm.trans ha.2
      subst this
      exact ⟨y, h3, h2, rfl⟩
    · intro hx
      have h : ¬ ∃ c x y, RN1 a x ∧ RN1 c y ∧ x * y = 1 := by
        rintro ⟨c, x', y, h1, -, h3⟩
        have : x' = x := h1.2.symm.trans ha.2
        rw [this, hx, zero_mul] at h3
        exact zero_ne_one h3
      have e : NF1.invert a = (0, 0) := dif_neg h
      rw [e]
  two := FOk.two
  noTwo := noTwo

/-! ## The theorems -/

theorem elems128 {h : Hasher} (msg dst : List UInt8) (hl : (uniformN 128 h msg dst).length = 128) :
    elem h msg dst 0 = (beToNat ((uniformN 128 h msg dst).take 64) : ZMod Fp.p) ∧
    elem h msg dst 1 = (beToNat ((uniformN 128 h msg dst).drop 64) : ZMod Fp.p) := by
  unfold elem piece64
  refine ⟨rfl, ?_⟩
  rw [List.take_of_length_le (l := List.drop (64 * 1) (uniformN 128 h msg dst)) (by rw [List.length_drop]; omega)]

/-- **C101.** The map is a function: every field element has exactly one image. -/
theorem C101_g1_map_unique (w : ZMod Fp.p) : ∃! P, IsMap w P := by
  obtain ⟨u, hu⟩ := rep_val w
  obtain ⟨x, y, -, -, -, hs⟩ := osswu_spec hu
  by_cases hd : ev dx x = 0
  · refine ⟨0, ⟨x, y, hs, Or.inl ⟨hd, rfl⟩⟩, ?_⟩
    rintro Q ⟨x', y', hs', h⟩
    obtain ⟨rfl, rfl⟩ := swu_fun hs hs'
    rcases h with ⟨-, e⟩ | ⟨h, -⟩
    · exact e
    · exact absurd hd h
  · have hn := nonsing FOk.two noTwo (image_eqn hs.2.1 hd)
    refine ⟨.some _ _ hn, ⟨x, y, hs, Or.inr ⟨hd, hn, rfl⟩⟩, ?_⟩
    rintro Q ⟨x', y', hs', h⟩
    obtain ⟨rfl, rfl⟩ := swu_fun hs hs'
    rcases h with ⟨h, -⟩ | ⟨-, hn', e⟩
    · exact absurd h hd
    · exact e

/-- **C101.** Hashing to G1: for every hash function, message and tag of at most 255 bytes, unless one of the two field elements of the
message is exceptional, the result is the point of RFC 9380: the sum of the images of the two elements times `1 - x`, a point of the
subgroup of order `q`. -/
theorem C101_g1_hash_partial {h : Hasher} (hw : h.WF) (msg dst : List UInt8) (hd : dst.length ≤ 255)
    (h0 : ¬ Exceptional (elem h msg dst 0)) (h1 : ¬ Exceptional (elem h msg dst 1)) :
    ∃ e P Q, hash h msg dst = .ok e ∧ IsMap (elem h msg dst 0) P ∧ IsMap (elem h msg dst 1) Q ∧
      Rep e (0xd201000000010001 • (P + Q)) ∧ Fq.q • (0xd201000000010001 • (P + Q)) = 0 ∧ inCorrectSubgroup F e = 1 := by
  obtain ⟨hx, hl⟩ := expand_uniformN hw 128 (by decide) msg dst hd
  obtain ⟨e0, e1⟩ := elems128 msg dst hl
  rw [e0] at h0 ⊢
  rw [e1] at h1 ⊢
  obtain ⟨P, r0, m0⟩ := map_spec (wide64 ((uniformN 128 h msg dst).take 64) (by rw [List.length_take]; omega)) h0
  obtain ⟨Q, r1, m1⟩ := map_spec (wide64 ((uniformN 128 h msg dst).drop 64) (by rw [List.length_drop]; omega)) h1
  unfold hash
  rw [hx, Res.bind_ok]
  dsimp only
  have c := C94_clear_cofactor (P3.add_spec FOk r0 r1)
  have hq := c.2.1
  rw [sub_spec' c.1] at hq
  refine ⟨_, P, Q, rfl, m0, m1, c.1, ?_, c.2.1⟩
  by_contra hne
  rw [if_neg hne] at hq
  exact absurd hq (by decide)

/-- **C101.** The exceptional elements are sixteen of the `p` elements of the field. -/
theorem C101_g1_exceptional (w : ZMod Fp.p) : Exceptional w ↔ ∃ n ∈ exc8, w = (n : ZMod Fp.p) ∨ w = -(n : ZMod Fp.p) := exc_iff w

theorem image_exc {u : L6} {w : ZMod Fp.p} (hu : Fp.Rep u w) (he : Exceptional w) :
    Fp.Rep (isogenyMap F isoTab (osswu3mod4 u)).x 0 ∧ Fp.Rep (isogenyMap F isoTab (osswu3mod4 u)).y 0 ∧
    Fp.Rep (isogenyMap F isoTab (osswu3mod4 u)).z 1 := by
  obtain ⟨x, y, hs, h1, h2, h3⟩ := map_coords hu
  obtain ⟨x', y', hs', hd⟩ := he
  obtain ⟨rfl, rfl⟩ := swu_fun hs hs'
  rw [hd, div_zero] at h1
  rw [(dy_iff x).2 hd, div_zero, mul_zero] at h2
  exact ⟨h1, h2, h3⟩

/-- **C101.** The image of an exceptional element is specified as the neutral element; the code computes coordinates that are not those of
a point of the curve. -/
theorem C101_g1_map_violated {u : L6} {w : ZMod Fp.p} (hu : Fp.Rep u w) (he : Exceptional w) :
    IsMap w 0 ∧ isOnCurve F (isogenyMap F isoTab (osswu3mod4 u)) = 0 := by
  constructor
  · obtain ⟨x, y, hs, hd⟩ := he
    exact ⟨x, y, hs, Or.inl ⟨hd, rfl⟩⟩
  · obtain ⟨h1, h2, h3⟩ := image_exc hu he
    have s : Same3 Fp.Rep RN1 (isogenyMap F isoTab (osswu3mod4 u)) ⟨0, 0, 1⟩ :=
      ⟨⟨_, h1, NOk1.zero⟩, ⟨_, h2, NOk1.zero⟩, ⟨_, h3, NOk1.one⟩⟩
    rw [s3_onCurve FOk NOk1 s]
    decide +kernel

/-- A hash function with extendable output whose first 64 bytes are an exceptional element and whose other bytes are zero. -/
def badHasher : Hasher := ⟨.shake128, .xof fun _ n => (natToBEfix 64 0xa2605e5991fcf3e63728a7a1468d79bacaa5f23f3816aadcd38efdd330c6d4f5bbf450f92156e0e23e16e3252bcd042 ++ List.replicate n 0).take n⟩

theorem bad_wf : badHasher.WF := by
  intro m n
  show List.length (List.take n _) = n
  rw [List.length_take, List.length_append, List.length_replicate]
  omega

theorem image_zero {u : L6} (hu : Fp.Rep u 0) : Fp.Rep (isogenyMap F isoTab (osswu3mod4 u)).x ((0x1956714e4244749bcdcef542ac99a287d43cb887988b8adabe76cc7d0153351193ea5769ba338d1ac61609ac3d3c8eaf : Nat) : ZMod Fp.p) ∧
    Fp.Rep (isogenyMap F isoTab (osswu3mod4 u)).y ((0xacadf436f71189445cf3148db5dd35b045e00de62e7e1b3c25164b5b097f5de804be566f90dbf69fc212c6d23d50639 : Nat) : ZMod Fp.p) ∧
    Fp.Rep (isogenyMap F isoTab (osswu3mod4 u)).z 1 := by
  obtain ⟨x, y, hs, h1, h2, h3⟩ := map_coords hu
  have hs' : Swu 0 ((0x123939a31626a32de772bc7a591ea140683bca0c62efb105310d5ce1d27d1aadf79a5d5cbe8e2c4ff7d4816af76d2814 : Nat) : ZMod Fp.p) ((0x5be3446f07e910e291153e84f1dabd3dfe5c2b1080d8b6a640425c3826f2a429373f9bab7e8308f6dd10ffa11124dbc : Nat) : ZMod Fp.p) := by
    have hc : cand1 (ia : ZMod Fp.p) (ib : ZMod Fp.p) ((11 : Nat) : ZMod Fp.p) 0 = ((0x123939a31626a32de772bc7a591ea140683bca0c62efb105310d5ce1d27d1aadf79a5d5cbe8e2c4ff7d4816af76d2814 : Nat) : ZMod Fp.p) := by
      rw [← exc_eq]
      unfold cand1
      exact if_pos (by ring)
    have hsq := rhs_sq (n := 0x123939a31626a32de772bc7a591ea140683bca0c62efb105310d5ce1d27d1aadf79a5d5cbe8e2c4ff7d4816af76d2814) (y := 0x5be3446f07e910e291153e84f1dabd3dfe5c2b1080d8b6a640425c3826f2a429373f9bab7e8308f6dd10ffa11124dbc) (by decide +kernel)
    refine ⟨Or.inl ⟨?_, hc.symm⟩, hsq, Or.inr ?_⟩
    · rw [hc, ← hsq]
      exact ⟨_, pow_two _⟩
    · unfold par
      rw [ZMod.val_cast_of_lt (by decide +kernel), ZMod.val_zero]
  obtain ⟨rfl, rfl⟩ := swu_fun hs hs'
  have g (l : List Nat) (m : Nat) (hl : (l.foldr (fun c acc => (c + 0x123939a31626a32de772bc7a591ea140683bca0c62efb105310d5ce1d27d1aadf79a5d5cbe8e2c4ff7d4816af76d2814 * acc) % Fp.p) 0) = m) : ev l ((0x123939a31626a32de772bc7a591ea140683bca0c62efb105310d5ce1d27d1aadf79a5d5cbe8e2c4ff7d4816af76d2814 : Nat) : ZMod Fp.p) = (m : ZMod Fp.p) := by
    rw [← hl]
    clear hl
    induction l with
    | nil => exact Nat.cast_zero.symm
    | cons c l ih => rw [ev_cons, ih, List.foldr_cons, ZMod.natCast_mod, Nat.cast_add, Nat.cast_mul]
  have gd (n d m : Nat) (h : m * d % Fp.p = n % Fp.p) (h0 : d % Fp.p ≠ 0) : (n : ZMod Fp.p) / (d : ZMod Fp.p) = (m : ZMod Fp.p) := by
    have hd : (d : ZMod Fp.p) ≠ 0 := by
      rw [Ne, ZMod.natCast_eq_zero_iff]
      exact fun e => h0 (Nat.mod_eq_zero_of_dvd e)
    rw [div_eq_iff hd, ← cast_eq h, Nat.cast_mul]
  rw [g nx _ rfl, g dx _ rfl, gd _ _ (0x1956714e4244749bcdcef542ac99a287d43cb887988b8adabe76cc7d0153351193ea5769ba338d1ac61609ac3d3c8eaf) (by decide +kernel) (by decide +kernel)] at h1
  rw [g ny _ rfl, g dy _ rfl, mul_div_assoc', ← Nat.cast_mul, gd _ _ (0xacadf436f71189445cf3148db5dd35b045e00de62e7e1b3c25164b5b097f5de804be566f90dbf69fc212c6d23d50639) (by decide +kernel) (by decide +kernel)] at h2
  exact ⟨h1, h2, h3⟩

/-- **C101.** The claim that the result is always a point is false: there is a hash function for which it is not on the curve. -/
theorem C101_g1_hash_violated : ∃ h : Hasher, h.WF ∧ ∃ e, hash h [] [] = .ok e ∧ isOnCurve F e = 0 := by
  refine ⟨badHasher, bad_wf, ?_⟩
  obtain ⟨hx, hl⟩ := expand_uniformN bad_wf 128 (by decide) [] [] (by decide)
  have hu : uniformN 128 badHasher [] [] = natToBEfix 64 0xa2605e5991fcf3e63728a7a1468d79bacaa5f23f3816aadcd38efdd330c6d4f5bbf450f92156e0e23e16e3252bcd042 ++ List.replicate 64 0 := by decide +kernel
  unfold hash
  rw [hx, Res.bind_ok]
  refine ⟨_, rfl, ?_⟩
  have w0 := wide64 ((uniformN 128 badHasher [] []).take 64) (by rw [List.length_take]; omega)
  have w1 := wide64 ((uniformN 128 badHasher [] []).drop 64) (by rw [List.length_drop]; omega)
  have v0 : beToNat ((uniformN 128 badHasher [] []).take 64) = 0xa2605e5991fcf3e63728a7a1468d79bacaa5f23f3816aadcd38efdd330c6d4f5bbf450f92156e0e23e16e3252bcd042 := by rw [hu]; decide +kernel
  have v1 : beToNat ((uniformN 128 badHasher [] []).drop 64) = 0 := by rw [hu]; decide +kernel
  rw [v0] at w0
  rw [v1, Nat.cast_zero] at w1
  obtain ⟨a1, a2, a3⟩ := image_exc w0 ((exc_iff _).2 ⟨0xa2605e5991fcf3e63728a7a1468d79bacaa5f23f3816aadcd38efdd330c6d4f5bbf450f92156e0e23e16e3252bcd042, by decide +kernel, Or.inl rfl⟩)
  obtain ⟨b1, b2, b3⟩ := image_zero w1
  generalize isogenyMap F isoTab (osswu3mod4 (Fp.setBytesWide (wideBuf64 ((uniformN 128 badHasher [] []).take 64)))) = q0 at *
  generalize isogenyMap F isoTab (osswu3mod4 (Fp.setBytesWide (wideBuf64 ((uniformN 128 badHasher [] []).drop 64)))) = q1 at *
  have s0 : Same3 Fp.Rep RN1 q0 ⟨0, 0, 1⟩ := ⟨⟨_, a1, NOk1.zero⟩, ⟨_, a2, NOk1.zero⟩, ⟨_, a3, NOk1.one⟩⟩
  have s1 : Same3 Fp.Rep RN1 q1 ⟨0x1956714e4244749bcdcef542ac99a287d43cb887988b8adabe76cc7d0153351193ea5769ba338d1ac61609ac3d3c8eaf, 0xacadf436f71189445cf3148db5dd35b045e00de62e7e1b3c25164b5b097f5de804be566f90dbf69fc212c6d23d50639, 1⟩ :=
    ⟨⟨_, b1, by decide +kernel, rfl⟩, ⟨_, b2, by decide +kernel, rfl⟩, ⟨_, b3, NOk1.one⟩⟩
  have s := s3_add FOk NOk1 s0 s1
  have s := s3_sub FOk NOk1 s (s3_mulByX FOk NOk1 s)
  unfold clearCofactor
  rw [s3_onCurve FOk NOk1 s]
  decide +kernel

/-- **C101.** The random point: an error of the reader or a read of other than 64 bytes is reported, and otherwise the result is the hash
of the bytes read under the tag of the suite. -/
theorem C101_g1_random (L : HashLib) (r : Read) :
    ((r.failed = true ∨ r.data.length ≠ 64) → random L r = .err) ∧
    (r.failed = false → r.data.length = 64 → random L r = hash (newHasher L .sha256) r.data (strBytes "BLS12381G1_XMD:SHA-256_SSWU_RO_")) := by
  unfold random
  constructor
  · rintro (h | h)
    · rw [h]; rfl
    · cases r.failed
      · exact if_pos h
      · rfl
  · intro h1 h2
    rw [h1, if_neg (by decide), if_neg (not_not.2 h2)]
    have : r.buf = r.data := by unfold Read.buf; rw [h2]; simp
    rw [this]

/-! ## The hypotheses are met -/

/-- A fixed output: both elements are zero, which is not exceptional. -/
def okHasher : Hasher := ⟨.shake128, .xof fun _ n => List.replicate n 0⟩

theorem zero_ok : ¬ Exceptional (0 : ZMod Fp.p) := by
  rw [exc_iff]
  rintro ⟨n, hn, h⟩
  have h : (n : ZMod Fp.p) = 0 := by
    rcases h with h | h
    · exact h.symm
    · exact (neg_eq_zero.1 h.symm)
  rw [ZMod.natCast_eq_zero_iff] at h
  have : ∀ n ∈ exc8, n % Fp.p ≠ 0 := by decide +kernel
  exact this n hn (Nat.mod_eq_zero_of_dvd h)

example : okHasher.WF ∧ ¬ Exceptional (elem okHasher [1, 2] [3] 0) ∧ ¬ Exceptional (elem okHasher [1, 2] [3] 1) := by
  refine ⟨fun m n => List.length_replicate, ?_, ?_⟩
  · have : elem okHasher [1, 2] [3] 0 = ((0 : Nat) : ZMod Fp.p) := by
      unfold elem piece64
      rw [show beToNat ((List.drop (64 * 0) (uniformN 128 okHasher [1, 2] [3])).take 64) = 0 by decide +kernel]
    rw [this, Nat.cast_zero]
    exact zero_ok
  · have : elem okHasher [1, 2] [3] 1 = ((0 : Nat) : ZMod Fp.p) := by
      unfold elem piece64
      rw [show beToNat ((List.drop (64 * 1) (uniformN 128 okHasher [1, 2] [3])).take 64) = 0 by decide +kernel]
    rw [this, Nat.cast_zero]
    exact zero_ok

example : ∃ w u, Fp.Rep u w ∧ Exceptional w := by
  obtain ⟨u, hu⟩ := rep_val ((0xa2605e5991fcf3e63728a7a1468d79bacaa5f23f3816aadcd38efdd330c6d4f5bbf450f92156e0e23e16e3252bcd042 : Nat) : ZMod Fp.p)
  exact ⟨_, u, hu, (exc_iff _).2 ⟨0xa2605e5991fcf3e63728a7a1468d79bacaa5f23f3816aadcd38efdd330c6d4f5bbf450f92156e0e23e16e3252bcd042, by decide +kernel, Or.inl rfl⟩⟩

end Verif.Bls381.G1
