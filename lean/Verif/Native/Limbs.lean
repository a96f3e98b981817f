import Verif.Base.Bytes

/-!
# Four-limb values: comparison and zero tests of the native fields

`crypto/core/curves/native/field.go` stores a field element as four 64-bit limbs, least significant
first, and compares them with branch-free bit tricks.  This file models these routines on machine
words (`UInt64`, wrapping) and proves what they compute on **all** 2^512 pairs of inputs.
-/

set_option linter.unusedSectionVars false

namespace Verif.Native

/-- `[FieldLimbs]uint64` (crypto/core/curves/native/field.go:11-12, 22-24). -/
structure L4 where
  l0 : UInt64
  l1 : UInt64
  l2 : UInt64
  l3 : UInt64
deriving DecidableEq, Repr

/-- The integer that four limbs denote (specification only). -/
def L4.val (a : L4) : Nat :=
  a.l0.toNat + 2 ^ 64 * a.l1.toNat + 2 ^ 128 * a.l2.toNat + 2 ^ 192 * a.l3.toNat

theorem L4.val_lt (a : L4) : a.val < 2 ^ 256 := by
  have h0 := a.l0.toNat_lt
  have h1 := a.l1.toNat_lt
  have h2 := a.l2.toNat_lt
  have h3 := a.l3.toNat_lt
  unfold L4.val
  omega

theorem L4.val_inj {a b : L4} (h : a.val = b.val) : a = b := by
  have h0 := a.l0.toNat_lt
  have h1 := a.l1.toNat_lt
  have h2 := a.l2.toNat_lt
  have h3 := a.l3.toNat_lt
  have g0 := b.l0.toNat_lt
  have g1 := b.l1.toNat_lt
  have g2 := b.l2.toNat_lt
  have g3 := b.l3.toNat_lt
  unfold L4.val at h
  cases a; cases b
  simp only [L4.mk.injEq] at *
  refine ⟨UInt64.toNat.inj ?_, UInt64.toNat.inj ?_, UInt64.toNat.inj ?_, UInt64.toNat.inj ?_⟩ <;> omega

/-- The limbs of an integer below 2^256 (used to state examples). -/
def L4.ofNat (n : Nat) : L4 :=
  ⟨UInt64.ofNat n, UInt64.ofNat (n / 2 ^ 64), UInt64.ofNat (n / 2 ^ 128), UInt64.ofNat (n / 2 ^ 192)⟩

theorem L4.val_ofNat (n : Nat) (h : n < 2 ^ 256) : (L4.ofNat n).val = n := by
  simp only [L4.ofNat, L4.val, UInt64.toNat_ofNat']
  omega

/-! ## Comparison -/

/-- One iteration of the loop in `cmpHelper`, on limb `l` of the left and `r` of the right operand
(crypto/core/curves/native/field.go:88-105).  Go's `>>`, `&` and `&^` have one precedence level and associate to
the left. -/
def cmpStep (s : UInt64 × UInt64) (l r : UInt64) : UInt64 × UInt64 :=
  let gt := s.1
  let lt := s.2
  let rhsH := r >>> 32
  let rhsL := r &&& 0xffffffff
  let lhsH := l >>> 32
  let lhsL := l &&& 0xffffffff
  let gt := gt ||| (((rhsH - lhsH) >>> 32 &&& 1) &&& ~~~lt)
  let lt := lt ||| (((lhsH - rhsH) >>> 32 &&& 1) &&& ~~~gt)
  let gt := gt ||| (((rhsL - lhsL) >>> 32 &&& 1) &&& ~~~lt)
  let lt := lt ||| (((lhsL - rhsL) >>> 32 &&& 1) &&& ~~~gt)
  (gt, lt)

/-- `cmpHelper` (crypto/core/curves/native/field.go:82-108). -/
def cmpHelper (l r : L4) : Int :=
  let s := cmpStep (0, 0) l.l3 r.l3
  let s := cmpStep s l.l2 r.l2
  let s := cmpStep s l.l1 r.l1
  let s := cmpStep s l.l0 r.l0
  (s.1.toNat : Int) - (s.2.toNat : Int)

theorem and1 (x : UInt64) : (x &&& 1).toNat = x.toNat % 2 := by
  rw [UInt64.toNat_and]
  exact Nat.and_one_is_mod _

theorem mask32 (x : UInt64) : (x &&& 0xffffffff).toNat = x.toNat % 2 ^ 32 := by
  rw [UInt64.toNat_and]
  exact Nat.and_two_pow_sub_one_eq_mod x.toNat 32

theorem shr32 (x : UInt64) : (x >>> 32).toNat = x.toNat / 2 ^ 32 := by
  rw [UInt64.toNat_shiftRight]
  exact Nat.shiftRight_eq_div_pow _ _

/-- The borrow bit of a difference of two 32-bit halves. -/
theorem half_borrow (x y : UInt64) (hx : x.toNat < 2 ^ 32) (hy : y.toNat < 2 ^ 32) :
    ((y - x) >>> 32 &&& 1) = if y.toNat < x.toNat then 1 else 0 := by
  apply UInt64.toNat.inj
  rw [and1, shr32, UInt64.toNat_sub]
  split
  · rw [UInt64.toNat_one]; omega
  · rw [UInt64.toNat_zero]; omega

theorem cmpStep_spec (l r : UInt64) :
    cmpStep (0, 0) l r = (if r.toNat < l.toNat then 1 else 0, if l.toNat < r.toNat then 1 else 0) := by
  have hl := l.toNat_lt
  have hr := r.toNat_lt
  have e1 : (r >>> 32).toNat < 2 ^ 32 := by rw [shr32]; omega
  have e2 : (l >>> 32).toNat < 2 ^ 32 := by rw [shr32]; omega
  have e3 : (r &&& 0xffffffff).toNat < 2 ^ 32 := by rw [mask32]; omega
  have e4 : (l &&& 0xffffffff).toNat < 2 ^ 32 := by rw [mask32]; omega
  unfold cmpStep
  dsimp only
  rw [half_borrow _ _ e2 e1, half_borrow _ _ e1 e2, half_borrow _ _ e4 e3, half_borrow _ _ e3 e4]
  rw [shr32, shr32, mask32, mask32]
  rcases Nat.lt_trichotomy (r.toNat / 2 ^ 32) (l.toNat / 2 ^ 32) with h | h | h
  · rw [if_pos h, if_neg (by omega : ¬ l.toNat / 2 ^ 32 < r.toNat / 2 ^ 32),
      if_pos (by omega : r.toNat < l.toNat), if_neg (by omega : ¬ l.toNat < r.toNat)]
    by_cases h1 : r.toNat % 2 ^ 32 < l.toNat % 2 ^ 32
    · rw [if_pos h1, if_neg (by omega)]; rfl
    · rw [if_neg h1]
      by_cases h2 : l.toNat % 2 ^ 32 < r.toNat % 2 ^ 32
      · rw [if_pos h2]; rfl
      · rw [if_neg h2]; rfl
  · rw [if_neg (by omega), if_neg (by omega : ¬ l.toNat / 2 ^ 32 < r.toNat / 2 ^ 32)]
    rcases Nat.lt_trichotomy (r.toNat % 2 ^ 32) (l.toNat % 2 ^ 32) with h1 | h1 | h1
    · rw [if_pos h1, if_neg (by omega), if_pos (by omega), if_neg (by omega)]; rfl
    · rw [if_neg (by omega), if_neg (by omega), if_neg (by omega), if_neg (by omega)]; rfl
    · rw [if_neg (by omega), if_pos h1, if_neg (by omega), if_pos (by omega)]; rfl
  · rw [if_neg (by omega), if_pos h, if_neg (by omega : ¬ r.toNat < l.toNat),
      if_pos (by omega : l.toNat < r.toNat)]
    by_cases h1 : r.toNat % 2 ^ 32 < l.toNat % 2 ^ 32
    · rw [if_pos h1, if_neg (by omega)]; rfl
    · rw [if_neg h1]
      by_cases h2 : l.toNat % 2 ^ 32 < r.toNat % 2 ^ 32
      · rw [if_pos h2]; rfl
      · rw [if_neg h2]; rfl

theorem half_borrow_cases (x y : UInt64) : ((y - x) >>> 32 &&& 1) = 0 ∨ ((y - x) >>> 32 &&& 1) = 1 := by
  have := and1 ((y - x) >>> 32)
  rcases Nat.mod_two_eq_zero_or_one ((y - x) >>> 32).toNat with h | h
  · left; apply UInt64.toNat.inj; rw [this, h]; rfl
  · right; apply UInt64.toNat.inj; rw [this, h]; rfl

/-- Once one side has won the remaining limbs do not matter. -/
theorem cmpStep_gt (l r : UInt64) : cmpStep (1, 0) l r = (1, 0) := by
  unfold cmpStep
  dsimp only
  rcases half_borrow_cases (l >>> 32) (r >>> 32) with h | h <;>
  rcases half_borrow_cases (r >>> 32) (l >>> 32) with h' | h' <;>
  rcases half_borrow_cases (l &&& 0xffffffff) (r &&& 0xffffffff) with g | g <;>
  rcases half_borrow_cases (r &&& 0xffffffff) (l &&& 0xffffffff) with g' | g' <;>
  rw [h, h', g, g'] <;> rfl

theorem cmpStep_lt (l r : UInt64) : cmpStep (0, 1) l r = (0, 1) := by
  unfold cmpStep
  dsimp only
  rcases half_borrow_cases (l >>> 32) (r >>> 32) with h | h <;>
  rcases half_borrow_cases (r >>> 32) (l >>> 32) with h' | h' <;>
  rcases half_borrow_cases (l &&& 0xffffffff) (r &&& 0xffffffff) with g | g <;>
  rcases half_borrow_cases (r &&& 0xffffffff) (l &&& 0xffffffff) with g' | g' <;>
  rw [h, h', g, g'] <;> rfl

/-- The three-way comparison of two integers (specification). -/
def cmp3 (x y : Nat) : Int := if x < y then -1 else if x = y then 0 else 1

theorem cmpStep_cases (l r : UInt64) :
    (r.toNat < l.toNat ∧ cmpStep (0, 0) l r = (1, 0)) ∨ (l.toNat < r.toNat ∧ cmpStep (0, 0) l r = (0, 1)) ∨
      (l.toNat = r.toNat ∧ cmpStep (0, 0) l r = (0, 0)) := by
  rw [cmpStep_spec]
  rcases Nat.lt_trichotomy r.toNat l.toNat with h | h | h
  · left; exact ⟨h, by rw [if_pos h, if_neg (by omega)]⟩
  · right; right; exact ⟨h.symm, by rw [if_neg (by omega), if_neg (by omega)]⟩
  · right; left; exact ⟨h, by rw [if_neg (by omega), if_pos h]⟩

/-- **C50.** `cmpHelper` is the three-way comparison of the two 256-bit integers, for all inputs. -/
theorem C50_cmp_is_integer_order (l r : L4) : cmpHelper l r = cmp3 l.val r.val := by
  have h0 := l.l0.toNat_lt
  have h1 := l.l1.toNat_lt
  have h2 := l.l2.toNat_lt
  have h3 := l.l3.toNat_lt
  have g0 := r.l0.toNat_lt
  have g1 := r.l1.toNat_lt
  have g2 := r.l2.toNat_lt
  have g3 := r.l3.toNat_lt
  unfold cmpHelper cmp3
  dsimp only
  have gtv : l.val = l.l0.toNat + 2 ^ 64 * l.l1.toNat + 2 ^ 128 * l.l2.toNat + 2 ^ 192 * l.l3.toNat := rfl
  have ltv : r.val = r.l0.toNat + 2 ^ 64 * r.l1.toNat + 2 ^ 128 * r.l2.toNat + 2 ^ 192 * r.l3.toNat := rfl
  rcases cmpStep_cases l.l3 r.l3 with ⟨c, e⟩ | ⟨c, e⟩ | ⟨c3, e⟩
  · rw [e, cmpStep_gt, cmpStep_gt, cmpStep_gt, if_neg (by omega), if_neg (by omega)]; rfl
  · rw [e, cmpStep_lt, cmpStep_lt, cmpStep_lt, if_pos (by omega)]; rfl
  rw [e]
  rcases cmpStep_cases l.l2 r.l2 with ⟨c, e⟩ | ⟨c, e⟩ | ⟨c2, e⟩
  · rw [e, cmpStep_gt, cmpStep_gt, if_neg (by omega), if_neg (by omega)]; rfl
  · rw [e, cmpStep_lt, cmpStep_lt, if_pos (by omega)]; rfl
  rw [e]
  rcases cmpStep_cases l.l1 r.l1 with ⟨c, e⟩ | ⟨c, e⟩ | ⟨c1, e⟩
  · rw [e, cmpStep_gt, if_neg (by omega), if_neg (by omega)]; rfl
  · rw [e, cmpStep_lt, if_pos (by omega)]; rfl
  rw [e]
  rcases cmpStep_cases l.l0 r.l0 with ⟨c, e⟩ | ⟨c, e⟩ | ⟨c0, e⟩
  · rw [e, if_neg (by omega), if_neg (by omega)]; rfl
  · rw [e, if_pos (by omega)]; rfl
  · rw [e, if_neg (by omega), if_pos (by omega)]; rfl

/-! ## Equality and zero tests -/

/-- `int64(x) >> 63`: an arithmetic shift, so -1 for a set top bit and 0 otherwise. -/
def sar63 (x : UInt64) : Int := (x.toBitVec.sshiftRight 63).toInt

/-- `int(((int64(t) | int64(-t)) >> 63) + 1)` (crypto/core/curves/native/field.go:115-121). -/
def isZeroWord (t : UInt64) : Int := sar63 (t ||| (0 - t)) + 1

/-- `equalHelper` (crypto/core/curves/native/field.go:115-121). -/
def equalHelper (l r : L4) : Int :=
  let t := l.l0 ^^^ r.l0
  let t := t ||| (l.l1 ^^^ r.l1)
  let t := t ||| (l.l2 ^^^ r.l2)
  let t := t ||| (l.l3 ^^^ r.l3)
  isZeroWord t

/-- `(*Field).IsZero` (crypto/core/curves/native/field.go:124-130). -/
def isZero (a : L4) : Int :=
  let t := a.l0
  let t := t ||| a.l1
  let t := t ||| a.l2
  let t := t ||| a.l3
  isZeroWord t

/-- `(*Field).IsNonZero` (crypto/core/curves/native/field.go:133-139). -/
def isNonZero (a : L4) : Int :=
  let t := a.l0
  let t := t ||| a.l1
  let t := t ||| a.l2
  let t := t ||| a.l3
  Int.neg (sar63 (t ||| (0 - t)))

theorem sar63_eq (x : UInt64) : sar63 x = if 2 ^ 63 ≤ x.toNat then -1 else 0 := by
  have hx := x.toNat_lt
  have e : x.toBitVec.toNat = x.toNat := rfl
  unfold sar63
  rw [BitVec.toInt_sshiftRight, BitVec.toInt_eq_toNat_cond, e, Int.shiftRight_eq_div_pow]
  split <;> split <;> omega

theorem neg_or_top (t : UInt64) : (2 ^ 63 ≤ (t ||| (0 - t)).toNat) ↔ t ≠ 0 := by
  have ht := t.toNat_lt
  have key : ∀ y : UInt64, 2 ^ 63 ≤ y.toNat ↔ y.toNat.testBit 63 = true := by
    intro y
    have hy := y.toNat_lt
    rw [Nat.testBit_eq_decide_div_mod_eq, decide_eq_true_iff]
    omega
  rw [key, UInt64.toNat_or, Nat.testBit_or, Bool.or_eq_true, ← key, ← key, UInt64.toNat_sub, UInt64.toNat_zero]
  constructor
  · rintro h rfl
    rw [UInt64.toNat_zero] at h
    omega
  · intro h
    have : t.toNat ≠ 0 := fun h' => h (UInt64.toNat.inj (by rw [h']; rfl))
    omega

theorem isZeroWord_spec (t : UInt64) : isZeroWord t = if t = 0 then 1 else 0 := by
  unfold isZeroWord
  rw [sar63_eq]
  by_cases h : t = 0
  · rw [if_neg (fun h' => (neg_or_top t).1 h' h), if_pos h]; rfl
  · rw [if_pos ((neg_or_top t).2 h), if_neg h]; rfl

theorem or_eq_zero (a b : UInt64) : a ||| b = 0 ↔ a = 0 ∧ b = 0 := by
  constructor
  · intro h
    have h' := congrArg UInt64.toNat h
    rw [UInt64.toNat_or, UInt64.toNat_zero, Nat.or_eq_zero_iff] at h'
    exact ⟨UInt64.toNat.inj h'.1, UInt64.toNat.inj h'.2⟩
  · rintro ⟨rfl, rfl⟩; rfl

theorem xor_eq_zero (a b : UInt64) : a ^^^ b = 0 ↔ a = b := by
  constructor
  · intro h
    have h' : (a ^^^ b) ^^^ b = 0 ^^^ b := by rw [h]
    rwa [UInt64.xor_assoc, UInt64.xor_self, UInt64.xor_zero, UInt64.zero_xor] at h'
  · rintro rfl; exact UInt64.xor_self

theorem limbs_zero (a : L4) : (a.l0 ||| a.l1 ||| a.l2 ||| a.l3 = 0) ↔ a.val = 0 := by
  rw [or_eq_zero, or_eq_zero, or_eq_zero, ← UInt64.toNat_inj, ← UInt64.toNat_inj, ← UInt64.toNat_inj,
    ← UInt64.toNat_inj]
  unfold L4.val
  simp only [UInt64.toNat_zero]
  omega

/-- **C50.** `equalHelper` answers 1 on equal limbs and 0 on all others. -/
theorem C50_equal_iff (l r : L4) : equalHelper l r = if l.val = r.val then 1 else 0 := by
  unfold equalHelper
  dsimp only
  rw [isZeroWord_spec]
  have : (l.l0 ^^^ r.l0 ||| (l.l1 ^^^ r.l1) ||| (l.l2 ^^^ r.l2) ||| (l.l3 ^^^ r.l3) = 0) ↔ l.val = r.val := by
    rw [or_eq_zero, or_eq_zero, or_eq_zero, xor_eq_zero, xor_eq_zero, xor_eq_zero, xor_eq_zero]
    constructor
    · rintro ⟨⟨⟨h0, h1⟩, h2⟩, h3⟩
      unfold L4.val
      rw [h0, h1, h2, h3]
    · intro h
      rw [L4.val_inj h]
      exact ⟨⟨⟨rfl, rfl⟩, rfl⟩, rfl⟩
  by_cases h : l.val = r.val
  · rw [if_pos (this.2 h), if_pos h]
  · rw [if_neg (fun h' => h (this.1 h')), if_neg h]

/-- **C50.** `IsZero` answers 1 exactly on the zero limbs, `IsNonZero` exactly on all others. -/
theorem C50_zero_tests (a : L4) :
    isZero a = (if a.val = 0 then 1 else 0) ∧ isNonZero a = (if a.val = 0 then 0 else 1) := by
  unfold isZero isNonZero
  dsimp only
  rw [isZeroWord_spec, sar63_eq]
  by_cases h : a.val = 0
  · have := (limbs_zero a).2 h
    rw [if_pos this, if_pos h, if_pos h, if_neg (fun h' => (neg_or_top _).1 h' this)]
    exact ⟨rfl, rfl⟩
  · have : ¬ (a.l0 ||| a.l1 ||| a.l2 ||| a.l3 = 0) := fun h' => h ((limbs_zero a).1 h')
    rw [if_neg this, if_neg h, if_neg h, if_pos ((neg_or_top _).2 this)]
    exact ⟨rfl, rfl⟩

/-- Non-vacuity: values that differ only in one 32-bit half, on either side. -/
example : cmpHelper ⟨5, 0, 0, 7⟩ ⟨6, 0, 0, 7⟩ = -1 ∧ cmpHelper ⟨0, 0, 0, 0x100000000⟩ ⟨9, 9, 9, 0xffffffff⟩ = 1 ∧
    cmpHelper ⟨1, 2, 3, 4⟩ ⟨1, 2, 3, 4⟩ = 0 ∧ equalHelper ⟨1, 2, 3, 4⟩ ⟨1, 2, 3, 4⟩ = 1 ∧
    equalHelper ⟨1, 2, 3, 4⟩ ⟨1, 2, 2, 4⟩ = 0 ∧ isNonZero ⟨0, 0, 1, 0⟩ = 1 := by
  decide +kernel

end Verif.Native
