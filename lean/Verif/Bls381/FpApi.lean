import Verif.Bls381.Fp

/-!
C89: the base field of BLS12-381 (crypto/core/curves/native/bls12381/fp.go).  `Rep a x`: the six limbs `a` are the Montgomery form,
fully reduced, of the element `x` of the prime field.
-/
namespace Verif.Bls381.Fp

open Verif.Native Verif.Bytes

/-- **C89** every element has exactly one fully reduced representation, and every fully reduced value represents an element -/
theorem C89_representation :
    (∀ a : L6, a.val < p → ∃! x : ZMod p, Rep a x) ∧ (∀ x : ZMod p, ∃! a : L6, Rep a x) := by
  constructor
  · intro a h
    obtain ⟨x, hx⟩ := rep_exists a h
    exact ⟨x, hx, fun y hy => rep_value hy hx⟩
  · intro x
    obtain ⟨a, _, ha⟩ := setBigInt_spec zero (x.val : Int)
    rw [Int.cast_natCast, ZMod.natCast_zmod_val] at ha
    exact ⟨a, ha, fun b hb => rep_unique hb ha⟩

/-- **C89** the operations are the operations of the field of integers modulo the prime `p`, on every input -/
theorem C89_arithmetic {a b : L6} {x y : ZMod p} (ha : Rep a x) (hb : Rep b y) (e : L6) (v : UInt64) :
    Rep (add a b) (x + y) ∧ Rep (sub a b) (x - y) ∧ Rep (mul a b) (x * y) ∧ Rep (square a) (x * x) ∧ Rep (neg a) (-x) ∧
      Rep (double a) (2 * x) ∧ Rep (mulBy3b a) (12 * x) ∧ Rep zero 0 ∧ Rep one 1 ∧ Rep (setUint64 v) (v.toNat : ZMod p) ∧
      Rep (pow a e) (x ^ e.val) ∧ Rep (exp a b) (x ^ y.val) :=
  ⟨add_spec ha hb, sub_spec ha hb, mul_spec ha hb, square_spec ha, neg_spec ha, by rw [two_mul]; exact double_spec ha,
    mulBy3b_spec ha, zero_spec, one_spec, setUint64_spec v, pow_spec ha e, exp_spec ha hb⟩

/-- **C89** inversion inverts every element but zero, which it reports and leaves as it is -/
theorem C89_invert {a : L6} {x : ZMod p} (ha : Rep a x) :
    (x ≠ 0 → ∃ y, x * y = 1 ∧ Rep (invert a).1 y ∧ (invert a).2 = 1) ∧ (x = 0 → invert a = (a, 0)) := by
  have h := invert_spec ha
  constructor
  · intro hx
    exact ⟨x⁻¹, mul_inv_cancel₀ hx, h.1, by rw [h.2, if_neg hx]⟩
  · intro hx
    subst hx
    rw [inv_zero] at h
    exact Prod.ext (rep_unique h.1 ha) (by rw [h.2, if_pos rfl])

/-- **C89** the square root is found exactly for the squares; otherwise the receiver keeps its value -/
theorem C89_sqrt {a : L6} {x : ZMod p} (out : L6) (ha : Rep a x) :
    (IsSquare x → ∃ y, y * y = x ∧ Rep (sqrt out a).1 y ∧ (sqrt out a).2 = 1) ∧
    (¬ IsSquare x → sqrt out a = (out, 0)) := sqrt_spec out ha

/-- **C89** the tests: zero, one, equality, the larger of an element and its negative, parity, and the order of the limbs -/
theorem C89_tests {a b : L6} {x y : ZMod p} (ha : Rep a x) (hb : Rep b y) :
    (isZero a = if x = 0 then 1 else 0) ∧ (isNonZero a = if x = 0 then 0 else 1) ∧ (isOne a = if x = 1 then 1 else 0) ∧
      (equal a b = if x = y then 1 else 0) ∧ (lexLargest a = if (-x).val < x.val then 1 else 0) ∧
      sgn0 a = UInt64.ofNat (x.val % 2) ∧ cmp (raw a) (raw b) = cmp3 x.val y.val := by
  refine ⟨(isZero_spec ha).1, (isZero_spec ha).2, isOne_spec ha, equal_spec ha hb, lexLargest_spec ha, sgn0_spec ha, ?_⟩
  unfold raw
  rw [cmp_spec, fromMont_val ha, fromMont_val hb]

/-- **C89** a choice bit selects the second argument, its absence the first -/
theorem C89_choice (a b : L6) (out : L6) :
    cmove a b 0 = a ∧ cmove a b 1 = b ∧ cneg out a 0 = out ∧ cneg out a 1 = neg a :=
  ⟨cmove_zero a b, cmove_one a b, cmove_zero _ _, cmove_one _ _⟩

/-- **C89** the bytes are the little-endian integer below `p`; decoding accepts exactly those and inverts encoding; a refused input
leaves the receiver as it was -/
theorem C89_bytes {a : L6} {x : ZMod p} (ha : Rep a x) (out : L6) (b : List UInt8) (hb : b.length = 48) :
    (bytes a).length = 48 ∧ leToNat (bytes a) = x.val ∧ setBytes out (bytes a) = (a, 1) ∧
      (leToNat b < p → Rep (setBytes out b).1 (leToNat b : ZMod p) ∧ (setBytes out b).2 = 1 ∧ bytes (setBytes out b).1 = b) ∧
      (p ≤ leToNat b → setBytes out b = (out, 0)) := by
  refine ⟨by rw [bytes_spec ha, length_natToLE], ?_, bytes_roundtrip ha out, ?_, (setBytes_spec out b hb).2⟩
  · rw [bytes_spec ha, leToNat_natToLE, Nat.mod_eq_of_lt (val_lt48 x)]
  · intro h
    obtain ⟨h1, h2⟩ := (setBytes_spec out b hb).1 h
    refine ⟨h1, h2, ?_⟩
    rw [bytes_spec h1, ZMod.val_natCast, Nat.mod_eq_of_lt h, ← hb, natToLE_leToNat]

/-- **C89** integers of any sign and size are reduced, and read back as the representative in `[0, p)`; wide inputs are reduced -/
theorem C89_integers {a : L6} {x : ZMod p} (ha : Rep a x) (out : L6) (v : Int) (w : List UInt8) (hw : w.length = 96) :
    (∃ c, setBigInt out v = .ok c ∧ Rep c (v : ZMod p) ∧ bigInt c = v % p) ∧ bigInt a = (x.val : Int) ∧
      Rep (setBytesWide w) (leToNat w : ZMod p) := by
  refine ⟨?_, bigInt_spec ha, setBytesWide_spec w hw⟩
  obtain ⟨c, h1, h2⟩ := setBigInt_spec out v
  refine ⟨c, h1, h2, ?_⟩
  rw [bigInt_spec h2, ZMod.val_intCast]

/-- Seven, in Montgomery form. -/
example : Rep (setUint64 7) ((7 : UInt64).toNat : ZMod p) := setUint64_spec 7
example : (7 : UInt64).toNat = 7 := rfl
/-- `-1` is not a square: the square root of `-1` is refused and the receiver stays. -/
example : sqrt (setUint64 5) (neg one) = (setUint64 5, 0) := by
  refine (sqrt_spec (setUint64 5) (neg_spec one_spec)).2 ?_
  intro h
  have := ZMod.mod_four_ne_three_of_sq_eq_neg_one (p := p) (y := h.choose) (by rw [sq]; exact h.choose_spec.symm)
  exact this (by decide +kernel)
/-- `p` itself is refused, `p - 1` is accepted. -/
example : setBytes one (natToLE 48 p) = (one, 0) := by
  refine (setBytes_spec one _ (length_natToLE _ _)).2 ?_
  rw [leToNat_natToLE, Nat.mod_eq_of_lt (by decide +kernel)]
example : (setBytes one (natToLE 48 (p - 1))).2 = 1 := by
  refine ((setBytes_spec one _ (length_natToLE _ _)).1 ?_).2
  rw [leToNat_natToLE, Nat.mod_eq_of_lt (by decide +kernel)]
  decide +kernel

end Verif.Bls381.Fp
