import Verif.Native.Primes
import Verif.Native.Sswu
import Verif.Native.Limbs
import Verif.Base.Tactics

/-!
# `EdField`: the field of Curve25519 and the arithmetic of the hash to the curve

`crypto/core/curves/ed25519_curve.go`.  Field elements of the two libraries (`bwesterb/go-ristretto/edwards25519` and
`filippo.io/edwards25519/field`) are represented by their residues; the libraries themselves are not part of the repository.
-/

set_option linter.unusedSectionVars false

namespace Verif.Ed25519
open Verif.Native

/-- `2^255 - 19`, the modulus of the field elements of the libraries. -/
def p : Nat := 0x7FFFFFFFFFFFFFFFFFFFFFFFFFFFFFFFFFFFFFFFFFFFFFFFFFFFFFFFFFFFFFED

theorem p_val : p = 2 ^ 255 - 19 := by decide +kernel

instance fact_p : Fact p.Prime :=
  ⟨Primes.prime_57896044618658097711785492504343953926634992332820282019728792003956564819949⟩

abbrev K := ZMod p

/-- Five limbs of 51 bits. -/
def limbs (a b c d e : Nat) : K := ((a + b * 2 ^ 51 + c * 2 ^ 102 + d * 2 ^ 153 + e * 2 ^ 204 : Nat) : K)

/-- `sqrtM1` (crypto/core/curves/ed25519_curve.go:520-523). -/
def sqrtM1 : K := limbs 533094393274173 2016890930128738 18285341111199 134597186663265 1486323764102114

/-- `montgomeryA` (crypto/core/curves/ed25519_curve.go:752-754). -/
def montA : K := limbs 486662 0 0 0 0

/-- `montgomeryANeg` (crypto/core/curves/ed25519_curve.go:756-762). -/
def montANeg : K := limbs 2251799813198567 2251799813685247 2251799813685247 2251799813685247 2251799813685247

/-- `Abs`: the negative of an odd residue (library). -/
def absK (r : K) : K := if r.val % 2 = 1 then -r else r

/-- `sqrtRatio` (crypto/core/curves/ed25519_curve.go:514-542); `Exp22523` is the power `(p - 5) / 8`. -/
def sqrtRatio (u v : K) : K × Bool :=
  let v2 := v ^ 2
  let uv3 := u * (v * v2)
  let uv7 := uv3 * v2 ^ 2
  let r := uv3 * uv7 ^ ((p - 5) / 8)
  let check := v * r ^ 2
  let correctSignSqrt := decide (check = u)
  let flippedSignSqrt := decide (check = -u)
  let flippedSignSqrtI := decide (check = -u * sqrtM1)
  let rPrime := r * sqrtM1
  let r := if flippedSignSqrt || flippedSignSqrtI then rPrime else r
  (absK r, correctSignSqrt || flippedSignSqrt)

/-- `elligatorEncode` (crypto/core/curves/ed25519_curve.go:751-792); `Inverse` of zero is zero. -/
def elligatorEncode (r0 : K) : K :=
  let d1 := 1 + 2 * r0 ^ 2
  let d := montANeg * d1⁻¹
  let dsq := d ^ 2
  let au := montA * d
  let inner := dsq + au + 1
  let eps := d * inner
  let wasSquare := (sqrtRatio eps 1).2
  let aTemp := if wasSquare then 0 else montA
  let u := d + aTemp
  if wasSquare then u else -u

/-! ## Facts about the constants -/

theorem two_pow_bound : p < 2 ^ 300 ∧ 2 * ((p - 1) / 2) = p - 1 := by decide +kernel

theorem nonsquare {g : Nat} (hg : g % p ≠ 0) (h : Primes.pw p 300 g ((p - 1) / 2) 1 % p ≠ 1 % p) : ¬ IsSquare ((g : Nat) : K) :=
  Verif.Native.Sswu.not_square (p := p) two_pow_bound.1 two_pow_bound.2 hg h

theorem sqrtM1_sq : sqrtM1 * sqrtM1 = -1 := by
  have h : ((38214883241950591754978413199355411911188925816896391856984770930832735035197 *
      38214883241950591754978413199355411911188925816896391856984770930832735035197 + 1 : Nat) : K) = 0 :=
    (ZMod.natCast_eq_zero_iff _ _).2 (by decide +kernel)
  have e : sqrtM1 = ((38214883241950591754978413199355411911188925816896391856984770930832735035197 : Nat) : K) :=
    congrArg Nat.cast (by decide +kernel)
  rw [e]
  rw [Nat.cast_add, Nat.cast_mul, Nat.cast_one] at h
  exact eq_neg_of_add_eq_zero_left h

theorem montA_val : montA = 486662 := by
  have e : montA = ((486662 : Nat) : K) := congrArg Nat.cast (by decide +kernel)
  rw [e]; rfl

theorem montANeg_val : montANeg = -montA := by
  have h : ((2251799813198567 + 2251799813685247 * 2 ^ 51 + 2251799813685247 * 2 ^ 102 + 2251799813685247 * 2 ^ 153 +
      2251799813685247 * 2 ^ 204 + 486662 : Nat) : K) = 0 := (ZMod.natCast_eq_zero_iff _ _).2 (by decide +kernel)
  rw [Nat.cast_add] at h
  rw [montA_val]
  have := eq_neg_of_add_eq_zero_left h
  exact this

theorem ns_two : ¬ IsSquare (2 : K) := by
  have := nonsquare (g := 2) (by decide +kernel) (by decide +kernel)
  exact_mod_cast this

theorem ns_Am2 : ¬ IsSquare (montA - 2) := by
  have := nonsquare (g := 486660) (by decide +kernel) (by decide +kernel)
  have e : montA - 2 = ((486660 : Nat) : K) := by rw [montA_val]; push_cast; norm_num
  rwa [e]

theorem ns_disc : ¬ IsSquare (montA ^ 2 - 4) := by
  have := nonsquare (g := 486662 ^ 2 - 4) (by decide +kernel) (by decide +kernel)
  have e : montA ^ 2 - 4 = ((486662 ^ 2 - 4 : Nat) : K) := by
    rw [montA_val, Nat.cast_sub (by norm_num)]; push_cast; rfl
  rwa [e]

theorem sq_negA2 : IsSquare (-(montA + 2)) := by
  refine ⟨((51042569399160536130206135233146329284152202253034631822681833788666877215207 : Nat) : K), ?_⟩
  have h : ((51042569399160536130206135233146329284152202253034631822681833788666877215207 *
      51042569399160536130206135233146329284152202253034631822681833788666877215207 + 486664 : Nat) : K) = 0 :=
    (ZMod.natCast_eq_zero_iff _ _).2 (by decide +kernel)
  rw [Nat.cast_add, Nat.cast_mul] at h
  have e : montA + 2 = ((486664 : Nat) : K) := by rw [montA_val]; push_cast; norm_num
  rw [e]
  exact (eq_neg_of_add_eq_zero_left h).symm

theorem small_ne {n : Nat} (h : n % p ≠ 0) : ((n : Nat) : K) ≠ 0 := fun h0 =>
  h (Nat.mod_eq_zero_of_dvd ((ZMod.natCast_eq_zero_iff _ _).1 h0))

theorem two_ne : (2 : K) ≠ 0 := by
  have := small_ne (n := 2) (by decide +kernel)
  exact_mod_cast this

theorem sqrtM1_ne : sqrtM1 ≠ 0 := fun h => by
  have := sqrtM1_sq
  rw [h, mul_zero] at this
  exact one_ne_zero (neg_eq_zero.1 this.symm)

/-! ## `sqrtRatio` -/

theorem absK_sq (r : K) : absK r ^ 2 = r ^ 2 := by
  unfold absK
  split
  · rw [neg_sq]
  · rfl

theorem absK_even (r : K) : (absK r).val % 2 = 0 := by
  have hp2 : p % 2 = 1 := by decide +kernel
  unfold absK
  split
  · rename_i h
    have h0 : r ≠ 0 := fun h0 => by rw [h0, ZMod.val_zero] at h; cases h
    rw [ZMod.neg_val, if_neg h0]
    have := ZMod.val_lt r
    omega
  · omega

/-- The power of a residue: a fourth root of one, with square one exactly for squares. -/
theorem quarter {w : K} (hw : w ≠ 0) :
    (w ^ ((p - 5) / 8)) ^ 2 * w = 1 ∨ (w ^ ((p - 5) / 8)) ^ 2 * w = -1 ∨ (w ^ ((p - 5) / 8)) ^ 2 * w = sqrtM1 ∨
      (w ^ ((p - 5) / 8)) ^ 2 * w = -sqrtM1 := by
  have e : ((w ^ ((p - 5) / 8)) ^ 2 * w) ^ 4 = 1 := by
    rw [← pow_mul, ← pow_succ, ← pow_mul]
    have : ((p - 5) / 8 * 2 + 1) * 4 = p - 1 := by decide +kernel
    rw [this, ZMod.pow_card_sub_one_eq_one hw]
  generalize (w ^ ((p - 5) / 8)) ^ 2 * w = z at e ⊢
  have h : (z - 1) * ((z + 1) * ((z - sqrtM1) * (z + sqrtM1))) = 0 := by
    linear_combination e - (z ^ 2 - 1) * sqrtM1_sq
  rcases mul_eq_zero.1 h with h | h
  · exact Or.inl (sub_eq_zero.1 h)
  rcases mul_eq_zero.1 h with h | h
  · exact Or.inr (Or.inl (eq_neg_of_add_eq_zero_left h))
  rcases mul_eq_zero.1 h with h | h
  · exact Or.inr (Or.inr (Or.inl (sub_eq_zero.1 h)))
  · exact Or.inr (Or.inr (Or.inr (eq_neg_of_add_eq_zero_left h)))

theorem quarter_square {w : K} (hw : w ≠ 0) :
    IsSquare w ↔ (w ^ ((p - 5) / 8)) ^ 2 * w = 1 ∨ (w ^ ((p - 5) / 8)) ^ 2 * w = -1 := by
  have e : ((w ^ ((p - 5) / 8)) ^ 2 * w) ^ 2 = w ^ (p / 2) := by
    rw [← pow_mul, ← pow_succ, ← pow_mul]
    exact congrArg (w ^ ·) (by decide +kernel)
  rw [ZMod.euler_criterion p hw, ← e]
  generalize (w ^ ((p - 5) / 8)) ^ 2 * w = z
  rw [sq_eq_one_iff_of_ne_zero' z]
where
  sq_eq_one_iff_of_ne_zero' (z : K) : z ^ 2 = 1 ↔ z = 1 ∨ z = -1 := by
    constructor
    · intro h
      have h : (z - 1) * (z + 1) = 0 := by linear_combination h
      rcases mul_eq_zero.1 h with h | h
      · exact Or.inl (sub_eq_zero.1 h)
      · exact Or.inr (eq_neg_of_add_eq_zero_left h)
    · rintro (rfl | rfl) <;> ring

theorem i_ne : sqrtM1 ≠ 1 ∧ sqrtM1 ≠ -1 := by
  have h2 := two_ne
  have h := sqrtM1_sq
  constructor <;> intro h1 <;> rw [h1] at h <;> apply h2 <;> linear_combination h

/-- The choice `sqrtRatio` makes. -/
theorem sqrtRatio_spec (u v : K) (hv : v ≠ 0) :
    ((sqrtRatio u v).2 = true ↔ IsSquare (u / v)) ∧ (sqrtRatio u v).1.val % 2 = 0 ∧
    (IsSquare (u / v) → v * (sqrtRatio u v).1 ^ 2 = u) ∧ (¬ IsSquare (u / v) → v * (sqrtRatio u v).1 ^ 2 = u * sqrtM1) := by
  have hev : (sqrtRatio u v).1.val % 2 = 0 := by
    unfold sqrtRatio
    dsimp only
    exact absK_even _
  by_cases hu : u = 0
  · subst hu
    have hz : IsSquare ((0 : K) / v) := ⟨0, by rw [zero_div, zero_mul]⟩
    have e1 : (sqrtRatio 0 v).1 ^ 2 = 0 := by
      unfold sqrtRatio
      dsimp only
      rw [absK_sq]
      split <;> ring
    have e2 : (sqrtRatio 0 v).2 = true := by
      unfold sqrtRatio
      dsimp only
      simp
    exact ⟨iff_of_true e2 hz, hev, fun _ => by rw [e1, mul_zero], fun h => absurd hz h⟩
  set w := u * (v * v ^ 2) * (v ^ 2) ^ 2 with hw
  have hw0 : w ≠ 0 := mul_ne_zero (mul_ne_zero hu (mul_ne_zero hv (pow_ne_zero _ hv))) (pow_ne_zero _ (pow_ne_zero _ hv))
  set z := (w ^ ((p - 5) / 8)) ^ 2 * w with hz
  have hc : v * (u * (v * v ^ 2) * w ^ ((p - 5) / 8)) ^ 2 = u * z := by
    rw [hz]
    generalize w ^ ((p - 5) / 8) = y
    rw [hw]
    ring
  have hsq : IsSquare (u / v) ↔ IsSquare w := by
    have e : w = (u / v) * (v ^ 4) ^ 2 := by
      rw [hw]
      field_simp
    rw [e]
    constructor
    · rintro ⟨y, hy⟩
      exact ⟨y * v ^ 4, by rw [hy]; ring⟩
    · intro h
      by_contra hn
      exact Native.Sswu.nonsquare_mul hn (pow_ne_zero _ hv) h
  have hi := sqrtM1_sq
  have e1 : (sqrtRatio u v).1 ^ 2 = (if decide (u * z = -u) || decide (u * z = -u * sqrtM1) then
      u * (v * v ^ 2) * w ^ ((p - 5) / 8) * sqrtM1 else u * (v * v ^ 2) * w ^ ((p - 5) / 8)) ^ 2 := by
    unfold sqrtRatio
    dsimp only
    rw [absK_sq, ← hw, hc]
  have e2 : (sqrtRatio u v).2 = (decide (u * z = u) || decide (u * z = -u)) := by
    unfold sqrtRatio
    dsimp only
    rw [← hw, hc]
  have cancel : ∀ t : K, (u * z = u * t ↔ z = t) := fun t => mul_right_inj' hu
  have c1 : u * z = u ↔ z = 1 := by rw [← cancel 1, mul_one]
  have c2 : u * z = -u ↔ z = -1 := by rw [← cancel (-1)]; simp
  have c3 : u * z = -u * sqrtM1 ↔ z = -sqrtM1 := by rw [← cancel (-sqrtM1)]; simp
  have hsq2 := hsq.trans (quarter_square hw0)
  rw [← hz] at hsq2
  refine ⟨?_, hev, ?_, ?_⟩
  · rw [e2, Bool.or_eq_true, decide_eq_true_eq, decide_eq_true_eq, c1, c2]
    exact hsq2.symm
  · intro h
    rw [e1]
    rcases hsq2.1 h with h1 | h1
    · have n1 : ¬ u * z = -u := fun h' => by
        have := c2.1 h'
        rw [h1] at this
        exact two_ne (by linear_combination this)
      have n2 : ¬ u * z = -u * sqrtM1 := fun h' => by
        have := c3.1 h'
        rw [h1] at this
        exact i_ne.2 (by rw [← neg_neg sqrtM1, ← this])
      rw [decide_eq_false n1, decide_eq_false n2]
      simp only [Bool.or_self, Bool.false_eq_true, if_false]
      rw [hc, h1, mul_one]
    · rw [decide_eq_true (c2.2 h1)]
      simp only [Bool.true_or, if_true]
      have e3 : v * (u * (v * v ^ 2) * w ^ ((p - 5) / 8) * sqrtM1) ^ 2 =
          v * (u * (v * v ^ 2) * w ^ ((p - 5) / 8)) ^ 2 * (sqrtM1 * sqrtM1) := by ring
      rw [e3, hc, hi, h1]
      ring
  · intro h
    rw [e1]
    have hn : ¬ (z = 1 ∨ z = -1) := fun h' => h (hsq2.2 h')
    have n1 : ¬ u * z = -u := fun h' => hn (Or.inr (c2.1 h'))
    rw [decide_eq_false n1, Bool.false_or]
    rcases quarter hw0 with h1 | h1 | h1 | h1
    · exact absurd (Or.inl h1) hn
    · exact absurd (Or.inr h1) hn
    · have h1 : z = sqrtM1 := h1
      have n2 : ¬ u * z = -u * sqrtM1 := fun h' => by
        have := c3.1 h'
        rw [h1] at this
        have h2 : 2 * sqrtM1 = 0 := by linear_combination this
        rcases mul_eq_zero.1 h2 with h2 | h2
        · exact two_ne h2
        · exact sqrtM1_ne h2
      rw [decide_eq_false n2]
      simp only [Bool.false_eq_true, if_false]
      rw [hc, h1]
    · have h1 : z = -sqrtM1 := h1
      rw [decide_eq_true (c3.2 h1)]
      simp only [if_true]
      have e3 : v * (u * (v * v ^ 2) * w ^ ((p - 5) / 8) * sqrtM1) ^ 2 =
          v * (u * (v * v ^ 2) * w ^ ((p - 5) / 8)) ^ 2 * (sqrtM1 * sqrtM1) := by ring
      rw [e3, hc, hi, h1]
      ring

/-! ## The Elligator map -/

/-- The right-hand side of the Montgomery equation. -/
def mont (x : K) : K := x ^ 3 + montA * x ^ 2 + x

theorem den_ne (r : K) : 1 + 2 * r ^ 2 ≠ 0 := by
  intro h
  have hr : r ≠ 0 := by
    rintro rfl
    rw [zero_pow two_ne_zero, mul_zero, add_zero] at h
    exact one_ne_zero h
  refine ns_two ⟨sqrtM1 / r, ?_⟩
  field_simp
  linear_combination h - sqrtM1_sq

/-- The map of RFC 9380, 6.7.1, with `Z = 2`: of the two candidates the first if it is the abscissa of a point, else the second. -/
theorem elligator_spec (r : K) :
    (IsSquare (mont (-montA / (1 + 2 * r ^ 2))) → elligatorEncode r = -montA / (1 + 2 * r ^ 2)) ∧
    (¬ IsSquare (mont (-montA / (1 + 2 * r ^ 2))) → elligatorEncode r = -(-montA / (1 + 2 * r ^ 2)) - montA) := by
  have e : elligatorEncode r = (if (sqrtRatio (mont (-montA / (1 + 2 * r ^ 2))) 1).2 = true then -montA / (1 + 2 * r ^ 2)
      else -(-montA / (1 + 2 * r ^ 2)) - montA) := by
    unfold elligatorEncode
    dsimp only
    rw [montANeg_val, ← div_eq_mul_inv]
    have em : -montA / (1 + 2 * r ^ 2) * ((-montA / (1 + 2 * r ^ 2)) ^ 2 + montA * (-montA / (1 + 2 * r ^ 2)) + 1) =
        mont (-montA / (1 + 2 * r ^ 2)) := by unfold mont; ring
    rw [em]
    by_cases h : (sqrtRatio (mont (-montA / (1 + 2 * r ^ 2))) 1).2 = true
    · rw [if_pos h, if_pos h, if_pos h, add_zero]
    · rw [if_neg h, if_neg h, if_neg h]
      ring
  have hs := (sqrtRatio_spec (mont (-montA / (1 + 2 * r ^ 2))) 1 one_ne_zero).1
  rw [div_one] at hs
  rw [e]
  exact ⟨fun h => if_pos (hs.2 h), fun h => if_neg (fun h' => h (hs.1 h'))⟩

theorem elligator_square (r : K) : IsSquare (mont (elligatorEncode r)) := by
  by_cases h : IsSquare (mont (-montA / (1 + 2 * r ^ 2)))
  · rw [(elligator_spec r).1 h]
    exact h
  · rw [(elligator_spec r).2 h]
    have hd := den_ne r
    have e : mont (-(-montA / (1 + 2 * r ^ 2)) - montA) = (2 * mont (-montA / (1 + 2 * r ^ 2))) * r ^ 2 := by
      unfold mont
      field_simp
      ring
    rw [e]
    obtain ⟨y, hy⟩ := Native.Sswu.mul_nonsquares ns_two h
    exact ⟨y * r, by rw [hy]; ring⟩

theorem elligator_ne (r : K) : elligatorEncode r ≠ -1 := by
  intro h
  have hs := elligator_square r
  rw [h] at hs
  apply ns_Am2
  have e : mont (-1) = montA - 2 := by unfold mont; ring
  rwa [e] at hs

end Verif.Ed25519
