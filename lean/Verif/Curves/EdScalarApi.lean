import Verif.Curves.EdScalar
import Verif.Curves.EdHashApi
import Verif.Curves.EcScalarApi
import Mathlib.NumberTheory.LegendreSymbol.QuadraticReciprocity

/-!
# `EdScalarApi`: what the Ed25519 scalars promise
-/

set_option linter.unusedSectionVars false

namespace Verif.Ed25519
open Verif.Bytes
open Verif.Ec.EdSc (clamp)

/-! ## Lemmas -/

theorem L_facts : L < 256 ^ 32 ∧ L ≠ 0 ∧ 2 ^ 252 < L ∧ L % 2 = 1 ∧ L % 8 = 5 := by decide +kernel

instance : NeZero L := ⟨L_facts.2.1⟩

theorem val_lt (s : Sc) : s.val < L := ZMod.val_lt s

theorem val_lt' (s : Sc) : s.val < 256 ^ 32 := (val_lt s).trans L_facts.1

theorem le_bytes (s : Sc) : leToNat (Scalar.bytes s) = s.val := by
  unfold Scalar.bytes
  rw [leToNat_natToLE, Nat.mod_eq_of_lt (val_lt' s)]

theorem length_bytes (s : Sc) : (Scalar.bytes s).length = 32 := length_natToLE _ _

theorem cast_val (s : Sc) : ((s.val : Nat) : Sc) = s := by rw [ZMod.natCast_val, ZMod.cast_id', id]

theorem val_cast (n : Nat) : ((n : Sc)).val = n % L := ZMod.val_natCast L n

theorem big_eq (s : Sc) : Scalar.bigInt s = (s.val : Int) := by
  unfold Scalar.bigInt Big.setBytes
  rw [beToNat_reverse, le_bytes]

theorem canonical_iff (b : List UInt8) (s : Sc) : Scalar.setCanonicalBytes b = .ok s ↔ b = Scalar.bytes s := by
  unfold Scalar.setCanonicalBytes
  constructor
  · intro h
    by_cases hl : b.length = 32
    · rw [if_neg (not_not.2 hl)] at h
      by_cases hv : leToNat b < L
      · rw [if_pos hv] at h
        have := Res.ok.inj h
        apply leToNat_inj (hl.trans (length_bytes s).symm)
        rw [le_bytes, ← this, val_cast, Nat.mod_eq_of_lt hv]
      · rw [if_neg hv] at h
        cases h
    · rw [if_pos hl] at h
      cases h
  · rintro rfl
    rw [if_neg (not_not.2 (length_bytes s)), le_bytes, if_pos (val_lt s), cast_val]

theorem canonical_err (b : List UInt8) : Scalar.setCanonicalBytes b = .err ↔ b.length ≠ 32 ∨ L ≤ leToNat b := by
  unfold Scalar.setCanonicalBytes
  by_cases hl : b.length = 32
  · rw [if_neg (not_not.2 hl)]
    by_cases hv : leToNat b < L
    · rw [if_pos hv]
      exact iff_of_false ok_ne_err (fun h => h.elim (fun h => h hl) (fun h => absurd hv (Nat.not_lt.2 h)))
    · rw [if_neg hv]
      exact iff_of_true rfl (Or.inr (Nat.not_lt.1 hv))
  · rw [if_pos hl]
    exact iff_of_true rfl (Or.inl hl)

theorem canonical_bytes (s : Sc) : Scalar.setCanonicalBytes (Scalar.bytes s) = .ok s := (canonical_iff _ _).2 rfl

theorem orFold : ∀ (l : List UInt8) (a : UInt8), (l.foldl (fun i b => i ||| b) a = 0) ↔ a = 0 ∧ ∀ b ∈ l, b = 0 := by
  have hor : ∀ a b : UInt8, (a ||| b = 0) ↔ a = 0 ∧ b = 0 := by
    intro a b
    rw [← UInt8.toNat_inj, ← UInt8.toNat_inj, ← UInt8.toNat_inj, UInt8.toNat_or]
    exact Nat.or_eq_zero_iff
  intro l
  induction l with
  | nil => intro a; simp
  | cons b l ih =>
    intro a
    rw [List.foldl_cons, ih, hor]
    simp only [List.mem_cons, forall_eq_or_imp]
    tauto

theorem le_zero (l : List UInt8) : leToNat l = 0 ↔ ∀ b ∈ l, b = 0 := by
  induction l with
  | nil => simp [leToNat]
  | cons b l ih =>
    have : leToNat (b :: l) = b.toNat + 256 * leToNat l := by simp [leToNat]
    rw [this]
    simp only [List.mem_cons, forall_eq_or_imp]
    rw [← ih, ← UInt8.toNat_inj]
    simp

theorem le_cons (b : UInt8) (l : List UInt8) : leToNat (b :: l) = b.toNat + 256 * leToNat l := by simp [leToNat]

theorem isZero_iff (s : Sc) : Scalar.isZero s = true ↔ s = 0 := by
  unfold Scalar.isZero
  rw [beq_iff_eq, orFold, ← le_zero, le_bytes, ZMod.val_eq_zero]
  simp

theorem isOne_iff (s : Sc) : Scalar.isOne s = true ↔ s = 1 := by
  have hl := length_bytes s
  have hv := le_bytes s
  unfold Scalar.isOne
  rw [Bool.and_eq_true, beq_iff_eq, beq_iff_eq, orFold, ← le_zero]
  revert hl hv
  generalize Scalar.bytes s = b
  intro hl hv
  have h1 : s = 1 ↔ s.val = 1 := by
    constructor
    · rintro rfl
      exact (ZMod.val_one_eq_one_mod L).trans (by decide +kernel)
    · intro h
      rw [← cast_val s, h, Nat.cast_one]
  rw [h1, ← hv]
  cases b with
  | nil => cases hl
  | cons f r =>
    rw [le_cons]
    simp only [List.drop_succ_cons, List.drop_zero, List.headD_cons, true_and]
    rw [← UInt8.toNat_inj]
    have hf := f.toNat_lt
    constructor
    · rintro ⟨h1, h2⟩
      rw [h1, h2]; rfl
    · intro h
      have e1 : (1 : UInt8).toNat = 1 := rfl
      rw [e1]
      omega

theorem odd_iff (s : Sc) : (Scalar.isOdd s = true ↔ s.val % 2 = 1) ∧ (Scalar.isEven s = true ↔ s.val % 2 = 0) := by
  have hl := length_bytes s
  have hv := le_bytes s
  unfold Scalar.isOdd Scalar.isEven
  rw [beq_iff_eq, beq_iff_eq, ← hv]
  revert hl
  generalize Scalar.bytes s = b
  intro hl
  cases b with
  | nil => cases hl
  | cons f r =>
    rw [le_cons, List.headD_cons]
    have hm : (f &&& 1).toNat = f.toNat % 2 := by
      rw [UInt8.toNat_and]
      exact Nat.and_one_is_mod _
    rw [← UInt8.toNat_inj, ← UInt8.toNat_inj, hm]
    have e1 : (1 : UInt8).toNat = 1 := rfl
    have e0 : (0 : UInt8).toNat = 0 := rfl
    rw [e1, e0]
    omega

theorem pow_inv (s : Sc) : s ^ (L - 2) = s⁻¹ := by
  by_cases h : s = 0
  · rw [h, inv_zero, zero_pow (by decide +kernel)]
  · rw [eq_comm, inv_eq_iff_eq_inv, eq_comm]
    apply inv_eq_of_mul_eq_one_left
    have := ZMod.pow_card_sub_one_eq_one h
    rw [← pow_succ', show L - 2 + 1 = L - 1 by decide +kernel]
    exact this

theorem setBig_eq (x : Int) : Scalar.setBigInt (some x) = .ok (x : Sc) := by
  have hL := L_facts
  have hp : (0 : Int) < (L : Int) := by exact_mod_cast Nat.pos_of_ne_zero hL.2.1
  have h0 : 0 ≤ x % (L : Int) := Int.emod_nonneg _ hp.ne'
  have hlt : x % (L : Int) < (L : Int) := Int.emod_lt_of_pos _ hp
  obtain ⟨n, hn⟩ := Int.eq_ofNat_of_zero_le h0
  have hnL : n < L := by rw [hn] at hlt; exact_mod_cast hlt
  have hx : (x : Sc) = (n : Sc) := by
    have : ((x % (L : Int) : Int) : Sc) = (x : Sc) := ZMod.intCast_mod x L
    rw [← this, hn, Int.cast_natCast]
  unfold Scalar.setBigInt
  dsimp only
  rw [hn, hx]
  have hb : Big.bytes (n : Int) = natToBE n := rfl
  rw [hb]
  have hlen : (natToBE n).length ≤ 32 := by
    rw [length_natToBE, byteLen_le_iff]
    exact hnL.trans hL.1
  have ht : (natToBE n).reverse.take 32 = (natToBE n).reverse := List.take_of_length_le (by rw [List.length_reverse]; exact hlen)
  rw [ht]
  have hle : leToNat ((natToBE n).reverse ++ List.replicate (32 - (natToBE n).length) 0) = n := by
    rw [Native.leToNat_append, leToNat_reverse, beToNat_natToBE]
    have : leToNat (List.replicate (32 - (natToBE n).length) 0) = 0 := (le_zero _).2 (fun b hb => List.eq_of_mem_replicate hb)
    rw [this]
    simp
  rw [canonical_iff]
  apply leToNat_inj
  · rw [List.length_append, List.length_reverse, List.length_replicate, length_bytes]
    omega
  · rw [hle, le_bytes, val_cast, Nat.mod_eq_of_lt hnL]

theorem big_op {s : Sc} {x : Int} (h : s = (x : Sc)) : Scalar.bigInt s = x % (L : Int) := by
  rw [big_eq, h]
  exact ZMod.val_intCast x

theorem cast_big (s : Sc) : ((Scalar.bigInt s : Int) : Sc) = s := by rw [big_eq, Int.cast_natCast, cast_val]

/-! ## The field -/

/-- On the integers that scalars stand for, the operations are those of integers modulo the order; arguments of another type give `nil`. -/
theorem C115_field (a b c : Sc) :
    (0 ≤ Scalar.bigInt a ∧ Scalar.bigInt a < L) ∧ (Scalar.bigInt a = Scalar.bigInt b → a = b) ∧
    Scalar.bigInt Scalar.zero = 0 ∧ Scalar.bigInt Scalar.one = 1 ∧
    (∃ r, Scalar.add a (.ed b) = some r ∧ Scalar.bigInt r = (Scalar.bigInt a + Scalar.bigInt b) % L) ∧
    (∃ r, Scalar.sub a (.ed b) = some r ∧ Scalar.bigInt r = (Scalar.bigInt a - Scalar.bigInt b) % L) ∧
    (∃ r, Scalar.mul a (.ed b) = some r ∧ Scalar.bigInt r = (Scalar.bigInt a * Scalar.bigInt b) % L) ∧
    (∃ r, Scalar.mulAdd a (.ed b) (.ed c) = some r ∧ Scalar.bigInt r = (Scalar.bigInt a * Scalar.bigInt b + Scalar.bigInt c) % L) ∧
    Scalar.bigInt (Scalar.neg a) = (-Scalar.bigInt a) % L ∧ Scalar.bigInt (Scalar.square a) = (Scalar.bigInt a ^ 2) % L ∧
    Scalar.bigInt (Scalar.double a) = (2 * Scalar.bigInt a) % L ∧ Scalar.bigInt (Scalar.cube a) = (Scalar.bigInt a ^ 3) % L := by
  refine ⟨?_, ?_, ?_, ?_, ⟨_, rfl, ?_⟩, ⟨_, rfl, ?_⟩, ⟨_, rfl, ?_⟩, ⟨_, rfl, ?_⟩, ?_, ?_, ?_, ?_⟩
  · rw [big_eq]
    exact ⟨Int.natCast_nonneg _, by exact_mod_cast val_lt a⟩
  · intro h
    rw [← cast_big a, h, cast_big]
  · rw [big_eq]
    show ((ZMod.val (0 : Sc) : Nat) : Int) = 0
    rw [ZMod.val_zero]; rfl
  · rw [big_eq]
    show ((ZMod.val (1 : Sc) : Nat) : Int) = 1
    rw [ZMod.val_one_eq_one_mod]
    decide +kernel
  all_goals
    apply big_op
    push_cast
    simp only [cast_big]
  · rfl
  · show a * a = a ^ 2
    rw [pow_two]
  · show a + a = 2 * a
    rw [two_mul]
  · show a * a * a = a ^ 3
    rw [pow_succ, pow_two]

/-- Division undoes multiplication and `Invert` gives the inverse, of everything but zero. -/
theorem C115_invert (a b : Sc) (hb : Scalar.bigInt b ≠ 0) :
    (∃ r, Scalar.invert b = .ok r ∧ (Scalar.bigInt r * Scalar.bigInt b) % L = 1) ∧
    (∃ q, Scalar.div a (.ed b) = some q ∧ (Scalar.bigInt q * Scalar.bigInt b) % L = Scalar.bigInt a) := by
  have hb' : b ≠ 0 := by
    rintro rfl
    apply hb
    rw [big_eq, ZMod.val_zero]; rfl
  have h1 : Scalar.bigInt (1 : Sc) = 1 := (C115_field 0 0 0).2.2.2.1
  refine ⟨⟨_, rfl, ?_⟩, ⟨_, rfl, ?_⟩⟩
  · rw [← h1]
    refine (big_op ?_).symm
    push_cast
    rw [cast_big, cast_big, pow_inv, inv_mul_cancel₀ hb']
  · refine (big_op ?_).symm
    push_cast
    rw [cast_big, cast_big, pow_inv, mul_right_comm, inv_mul_cancel₀ hb', one_mul]

/-- "The inverse of zero and division by zero are refused" is false: both give zero, without an error. -/
theorem C115_invert_violated : Scalar.invert 0 = .ok 0 ∧ ∀ a : Sc, Scalar.div a (.ed 0) = some 0 := by
  have h : (0 : Sc) ^ (L - 2) = 0 := by rw [pow_inv, inv_zero]
  refine ⟨congrArg Res.ok h, fun a => ?_⟩
  show some ((0 : Sc) ^ (L - 2) * a) = some 0
  rw [h, zero_mul]

/-- The predicates and the comparison say what the integers say. -/
theorem C115_predicates (a b : Sc) :
    (Scalar.isZero a = true ↔ Scalar.bigInt a = 0) ∧ (Scalar.isOne a = true ↔ Scalar.bigInt a = 1) ∧
    (Scalar.isOdd a = true ↔ Scalar.bigInt a % 2 = 1) ∧ (Scalar.isEven a = true ↔ Scalar.bigInt a % 2 = 0) ∧
    (Scalar.cmp a (.ed b) = 0 ↔ Scalar.bigInt a = Scalar.bigInt b) := by
  have f := C115_field a b 0
  have e0 : a = 0 ↔ Scalar.bigInt a = 0 := by
    constructor
    · rintro rfl; exact f.2.2.1
    · intro h; rw [← cast_big a, h, Int.cast_zero]
  have e1 : a = 1 ↔ Scalar.bigInt a = 1 := by
    constructor
    · rintro rfl; exact f.2.2.2.1
    · intro h; rw [← cast_big a, h, Int.cast_one]
  refine ⟨(isZero_iff a).trans e0, (isOne_iff a).trans e1, ?_, ?_, ?_⟩
  · rw [(odd_iff a).1, big_eq]; omega
  · rw [(odd_iff a).2, big_eq]; omega
  · have hab : Scalar.bigInt a = Scalar.bigInt b ↔ a - b = 0 := by
      rw [sub_eq_zero]
      exact ⟨f.2.1, fun h => by rw [h]⟩
    rw [hab, ← isZero_iff]
    unfold Scalar.cmp Scalar.sub
    dsimp only
    by_cases h : Scalar.isZero (a - b) = true
    · rw [if_pos h]
      exact iff_of_true rfl h
    · rw [if_neg h]
      exact iff_of_false (by decide) h

/-- "`Cmp` orders scalars" is false: it says `-2` for every pair of different scalars, in both orders. -/
theorem C115_cmp_violated (a b : Sc) (h : a ≠ b) : Scalar.cmp a (.ed b) = -2 ∧ Scalar.cmp b (.ed a) = -2 := by
  have key : ∀ x y : Sc, x ≠ y → Scalar.cmp x (.ed y) = -2 := by
    intro x y hxy
    have : ¬ Scalar.isZero (x - y) = true := fun hz => hxy (sub_eq_zero.1 ((isZero_iff _).1 hz))
    unfold Scalar.cmp Scalar.sub
    dsimp only
    rw [if_neg this]
  exact ⟨key a b h, key b a h.symm⟩

/-! ## Encodings -/

/-- A scalar has one encoding of 32 bytes, which `SetBytes` takes back and alone accepts; 64 bytes and integers are reduced. -/
theorem C115_encodings (s : Sc) (b : List UInt8) (x : Int) :
    (Scalar.bytes s).length = 32 ∧ leToNat (Scalar.bytes s) = Scalar.bigInt s ∧
    (Scalar.setBytes b = .ok s ↔ b = Scalar.bytes s) ∧ (Scalar.setBytes b = .err ↔ b.length ≠ 32 ∨ L ≤ leToNat b) ∧
    (b.length ≠ 64 → Scalar.setBytesWide b = .err) ∧
    (b.length = 64 → ∃ r, Scalar.setBytesWide b = .ok r ∧ Scalar.bigInt r = leToNat b % L) ∧
    (b.length ≠ 32 → Scalar.setBytesClamping b = .err) ∧
    (b.length = 32 → ∃ r, Scalar.setBytesClamping b = .ok r ∧ Scalar.bigInt r = leToNat (clamp b) % L ∧ r ≠ 0) ∧
    (∃ r, Scalar.setBigInt (some x) = .ok r ∧ Scalar.bigInt r = x % L) ∧ Scalar.setBigInt none = .err ∧
    Scalar.setBigInt (some (Scalar.bigInt s)) = .ok s := by
  have hs : Scalar.setBytes b = Scalar.setCanonicalBytes b := by
    unfold Scalar.setBytes
    by_cases hl : b.length = 32
    · rw [if_neg (not_not.2 hl)]
    · rw [if_pos hl]
      exact ((canonical_err b).2 (Or.inl hl)).symm
  have hc : ∀ n : Nat, Scalar.bigInt (n : Sc) = (n : Int) % L := fun n => big_op (by rw [Int.cast_natCast])
  refine ⟨length_bytes s, ?_, ?_, ?_, fun h => if_pos h, fun h => ⟨_, if_neg (not_not.2 h), hc _⟩, fun h => if_pos h,
    fun h => ⟨_, if_neg (not_not.2 h), hc _, ?_⟩, ⟨_, setBig_eq x, big_op rfl⟩, rfl, ?_⟩
  · rw [le_bytes, big_eq]
  · rw [hs, canonical_iff]
  · rw [hs, canonical_err]
  · obtain ⟨-, h8, hlo, hhi⟩ := Verif.Ec.C110_clamp b h
    intro h0
    rw [ZMod.natCast_eq_zero_iff] at h0
    have hcop : Nat.Coprime 8 L := by decide +kernel
    have hd := hcop.mul_dvd_of_dvd_of_dvd h8 h0
    have hle := Nat.le_of_dvd (lt_of_lt_of_le (by norm_num) hlo) hd
    have : 2 ^ 255 < 8 * L := by decide +kernel
    omega
  · rw [setBig_eq, cast_big]

/-- `New` takes integers below `2^32` in absolute value. -/
theorem C115_new (n : Int) (h : n.natAbs < 2 ^ 32) : ∃ r, Scalar.new n = some r ∧ Scalar.bigInt r = n % L := by
  have hlen : (natToLE 4 n.natAbs ++ List.replicate 60 0).length = 64 := by rw [List.length_append, length_natToLE, List.length_replicate]
  have hv : leToNat (natToLE 4 n.natAbs ++ List.replicate 60 0) = n.natAbs := by
    rw [Native.leToNat_append, leToNat_natToLE, (le_zero (List.replicate 60 0)).2 (fun b hb => List.eq_of_mem_replicate hb), Nat.mul_zero,
      Nat.add_zero, Nat.mod_eq_of_lt (by norm_num at h ⊢; exact h)]
  have hu : Scalar.setUniformBytes (natToLE 4 n.natAbs ++ List.replicate 60 0) = .ok (n.natAbs : Sc) := by
    unfold Scalar.setUniformBytes
    rw [if_neg (not_not.2 hlen), hv]
  have hz : ((n.natAbs : Nat) : Sc) = ((n.natAbs : Int) : Sc) := by rw [Int.cast_natCast]
  unfold Scalar.new
  rw [hu]
  dsimp only
  by_cases hn : n < 0
  · rw [if_pos hn]
    refine ⟨_, rfl, big_op ?_⟩
    rw [hz, ← Int.cast_neg, Int.ofNat_natAbs_of_nonpos hn.le, neg_neg]
  · rw [if_neg hn]
    refine ⟨_, rfl, big_op ?_⟩
    rw [hz, Int.natAbs_of_nonneg (not_lt.1 hn)]

/-- "`New(n)` is `n`" is false: only 32 bits are kept, so `New(2^32)` is zero. -/
theorem C115_new_violated : Scalar.new (2 ^ 32) = some 0 ∧ Scalar.bigInt (0 : Sc) ≠ 2 ^ 32 % L := by
  constructor
  · have hu : natToLE 4 ((2 ^ 32 : Int).natAbs) ++ List.replicate 60 0 = List.replicate 64 0 := by decide +kernel
    unfold Scalar.new Scalar.setUniformBytes
    rw [hu, if_neg (by simp), (le_zero (List.replicate 64 0)).2 (fun b hb => List.eq_of_mem_replicate hb), Nat.cast_zero]
    dsimp only
    rw [if_neg (by decide)]
  · have h0 : Scalar.bigInt (0 : Sc) = 0 := (C115_field 0 0 0).2.2.1
    rw [h0]
    decide +kernel

/-! ## Square roots -/

theorem euler {x : Sc} (hx : x ≠ 0) (hs : IsSquare x) : x ^ (L / 2) = 1 := (ZMod.euler_criterion L hx).1 hs

theorem two_nonsquare : ¬ IsSquare (2 : Sc) := by
  rw [ZMod.exists_sq_eq_two_iff (p := L) (by decide +kernel)]
  have := L_facts.2.2.2.2
  omega

theorem two_pow : (2 : Sc) ^ (L / 2) = -1 := by
  have h2 : (2 : Sc) ≠ 0 := by
    intro h
    apply two_nonsquare
    rw [h]
    exact ⟨0, (mul_zero _).symm⟩
  rcases ZMod.pow_div_two_eq_neg_one_or_one L h2 with h | h
  · exact absurd ((ZMod.euler_criterion L h2).2 h) two_nonsquare
  · exact h

theorem sqrt5 {x : Sc} (hx : x ≠ 0) (hs : IsSquare x) :
    (((2 * x) ^ (L / 8) * (2 * x) ^ (L / 8) * (2 * x) - 1) * x * (2 * x) ^ (L / 8)) ^ 2 = x := by
  have hb : ((2 * x) ^ (L / 8) * (2 * x) ^ (L / 8) * (2 * x)) ^ 2 = -1 := by
    have : ((2 * x) ^ (L / 8) * (2 * x) ^ (L / 8) * (2 * x)) ^ 2 = (2 * x) ^ (L / 2) := by
      rw [show L / 2 = L / 8 * 4 + 2 by decide +kernel]
      rw [pow_add, pow_mul]
      generalize (2 * x) ^ (L / 8) = y
      ring
    rw [this, mul_pow, two_pow, euler hx hs, mul_one]
  generalize (2 * x) ^ (L / 8) = y at *
  linear_combination (x ^ 2 * y ^ 2 - x) * hb

/-- `Sqrt` of a square is a root of it. -/
theorem C115_sqrt (s : Sc) (h : IsSquare s) : ∃ r, Scalar.sqrt s = .ok r ∧ (Scalar.bigInt r ^ 2) % L = Scalar.bigInt s := by
  have key : ∃ r : Sc, Scalar.modSqrt s = some r ∧ r ^ 2 = s := by
    unfold Scalar.modSqrt
    by_cases h0 : s = 0
    · rw [if_pos h0]
      exact ⟨0, rfl, by rw [h0, zero_pow two_ne_zero]⟩
    · rw [if_neg h0, if_neg (not_not.2 h)]
      exact ⟨_, rfl, sqrt5 h0 h⟩
  obtain ⟨r, hr, hr2⟩ := key
  refine ⟨r, ?_, ?_⟩
  · unfold Scalar.sqrt
    dsimp only
    rw [cast_big, hr]
    dsimp only
    rw [setBig_eq, Int.cast_natCast, cast_val]
  · refine (big_op ?_).symm
    push_cast
    rw [cast_big, hr2]

/-- "`Sqrt` fails when there is no root" is false: it never fails, and gives back a scalar that is not a square (such as two) itself. -/
theorem C115_sqrt_violated : (∀ s : Sc, ¬ IsSquare s → Scalar.sqrt s = .ok s ∧ s ^ 2 ≠ s) ∧ ¬ IsSquare (2 : Sc) := by
  refine ⟨fun s h => ⟨?_, fun h2 => h ⟨s, ?_⟩⟩, two_nonsquare⟩
  · have h0 : s ≠ 0 := by
      rintro rfl
      exact h ⟨0, (mul_zero _).symm⟩
    have hm : Scalar.modSqrt s = none := by
      unfold Scalar.modSqrt
      rw [if_neg h0, if_pos h]
    unfold Scalar.sqrt
    dsimp only
    rw [cast_big, hm]
    dsimp only
    rw [setBig_eq, cast_big]
  · rw [← pow_two, h2]

/-- `Random` and `Hash` are SHA-512 reduced, and give a scalar always; only a `nil` reader gives `nil`. -/
theorem C115_hash (sha512 : List UInt8 → List UInt8) (b : List UInt8) :
    (∃ r, Scalar.hash sha512 b = some r ∧ Scalar.bigInt r = leToNat (sha512 b) % L) ∧ Scalar.random sha512 (some b) = Scalar.hash sha512 b ∧
    Scalar.random sha512 none = none := by
  refine ⟨⟨(leToNat (sha512 b) : Sc), ?_, big_op (by rw [Int.cast_natCast])⟩, rfl, rfl⟩
  have : natToLE 32 (leToNat (sha512 b) % L) = Scalar.bytes (leToNat (sha512 b) : Sc) := by
    unfold Scalar.bytes
    rw [val_cast]
  unfold Scalar.hash
  rw [this, canonical_bytes]

/-! ## Points -/

theorem smul_mod {P : E} (hP : L • P = 0) (n : Nat) : (n % L) • P = n • P := by
  conv_rhs => rw [← Nat.div_add_mod n L, add_nsmul, mul_nsmul, hP, nsmul_zero, zero_add]

theorem equal_iff {P Q : E} : Point.equal P (.ed Q) = true ↔ P = Q := by
  unfold Point.equal
  exact @decide_eq_true_iff _ (Classical.propDecidable _)

/-- Scalars of any size add and multiply as integers modulo the order on the points of the prime order subgroup, to which the generator and every
hash belong; on it two scalars have the same multiple of a point other than the neutral element only if they are the same. On every
point the group laws hold. -/
theorem C115_points (P Q R : E) (a b : Sc) :
    Point.add P (.ed Q) = some (P + Q) ∧ Point.sub (P + Q) (.ed Q) = some P ∧ Point.add P (.ed (Point.neg P)) = some Point.identity ∧
    Point.double P = 2 • P ∧ Point.add P .other = none ∧ Point.add P .nil = none ∧
    Point.mul P (.ed Scalar.zero) = some Point.identity ∧ Point.mul P (.ed Scalar.one) = some P ∧
    Point.smul a (P + Q) = Point.smul a P + Point.smul a Q ∧ Point.mul P (.ed a) = some ((Scalar.bigInt a).toNat • P) ∧
    (Point.equal P (.ed Q) = true ↔ P.1 = Q.1) ∧ (Point.isIdentity P = true ↔ P.1 = (0, 1)) ∧
    L • Point.generator = 0 ∧
    (L • R = 0 → Point.smul (a + b) R = Point.smul a R + Point.smul b R ∧ Point.smul (a * b) R = Point.smul a (Point.smul b R) ∧
      (R ≠ 0 → Point.smul a R = Point.smul b R → a = b)) := by
  refine ⟨rfl, ?_, ?_, (two_nsmul P).symm, rfl, rfl, ?_, ?_, nsmul_add _ _ _, ?_, ?_, ?_, base_order, fun hR => ⟨?_, ?_, ?_⟩⟩
  · show some (P + Q + -Q) = some P
    rw [add_neg_cancel_right]
  · show some (P + -P) = some 0
    rw [add_neg_cancel]
  · show some ((ZMod.val (0 : Sc)) • P) = some 0
    rw [ZMod.val_zero, zero_nsmul]
  · show some ((ZMod.val (1 : Sc)) • P) = some P
    rw [ZMod.val_one_eq_one_mod, show 1 % L = 1 by decide +kernel, one_nsmul]
  · show some (a.val • P) = _
    rw [big_eq, Int.toNat_natCast]
  · exact equal_iff.trans ⟨fun h => by rw [h], fun h => E.ext h⟩
  · exact equal_iff.trans ⟨fun h => by rw [h]; rfl, fun h => E.ext h⟩
  · show (a + b).val • R = a.val • R + b.val • R
    rw [ZMod.val_add, smul_mod hR, add_nsmul]
  · show (a * b).val • R = a.val • b.val • R
    rw [ZMod.val_mul, smul_mod hR, mul_nsmul']
  · intro h0 h
    have ho : addOrderOf R = L := addOrderOf_eq_prime hR h0
    have := nsmul_injOn_Iio_addOrderOf (x := R) (by rw [Set.mem_Iio, ho]; exact val_lt a) (by rw [Set.mem_Iio, ho]; exact val_lt b) h
    exact ZMod.val_injective L this

/-- "Multiplying by the sum of two scalars is adding the multiples" is false off the prime order subgroup: on a point of order eight, one and minus
one add to zero but their multiples do not add to the neutral element. -/
theorem C115_mul_violated : ∃ T : E, 8 • T = 0 ∧ Point.smul (1 + -1) T = 0 ∧ Point.smul 1 T + Point.smul (-1) T ≠ 0 := by
  refine ⟨eight, ?_, ?_, ?_⟩
  · have := addOrderOf_nsmul_eq_zero eight
    rwa [eight_order] at this
  · show (ZMod.val (1 + -1 : Sc)) • eight = 0
    rw [add_neg_cancel, ZMod.val_zero, zero_nsmul]
  · intro h
    have e1 : ZMod.val (1 : Sc) = 1 := (ZMod.val_one_eq_one_mod L).trans (by decide +kernel)
    have e2 : ZMod.val (-1 : Sc) = L - 1 := by
      have h1 : (1 : Sc) ≠ 0 := one_ne_zero
      have : NeZero (1 : Sc) := ⟨h1⟩
      rw [ZMod.val_neg_of_ne_zero, e1]
    have h' : (1 + (L - 1)) • eight = 0 := by
      rw [add_nsmul]
      unfold Point.smul at h
      rw [e1, e2] at h
      exact h
    have := addOrderOf_dvd_of_nsmul_eq_zero h'
    rw [eight_order] at this
    revert this
    decide +kernel

/-- The public key of a mangled scalar is the multiple of the base point by the clamped bytes of the scalar, and not the neutral element. -/
theorem C115_mangle (s : Sc) : Point.mangle s = some (leToNat (clamp (Scalar.bytes s)) • base) ∧ Point.mangle s ≠ some 0 := by
  obtain ⟨r, h1, -, h3⟩ := (C115_encodings s (Scalar.bytes s) 0).2.2.2.2.2.2.2.1 (length_bytes s)
  have hr : r = (leToNat (clamp (Scalar.bytes s)) : Sc) := by
    have : Scalar.setBytesClamping (Scalar.bytes s) = .ok (leToNat (clamp (Scalar.bytes s)) : Sc) := by
      unfold Scalar.setBytesClamping Scalar.setBytesWithClamping
      rw [if_neg (not_not.2 (length_bytes s))]
    exact (Res.ok.inj (this.symm.trans h1)).symm
  have hm : Point.mangle s = some (Point.smul r base) := by
    have h1' : Scalar.setBytesWithClamping (Scalar.bytes s) = .ok r := h1
    unfold Point.mangle
    rw [h1']
  have hb : L • base = 0 := base_order
  constructor
  · rw [hm, hr]
    refine congrArg some ?_
    show (ZMod.val _) • base = _
    rw [val_cast, smul_mod hb]
  · rw [hm]
    intro h
    have h0 : Point.smul r base = Point.smul 0 base := by
      rw [Option.some.inj h]
      show 0 = (ZMod.val (0 : Sc)) • base
      rw [ZMod.val_zero, zero_nsmul]
    exact h3 (((C115_points 0 0 base r 0).2.2.2.2.2.2.2.2.2.2.2.2.2 hb).2.2 base_ne h0)

theorem scalars_ed (l : List Sc) : Point.scalars (l.map .ed) = .ok (some l) := by
  induction l with
  | nil => rfl
  | cons s l ih =>
    rw [List.map_cons]
    unfold Point.scalars
    rw [canonical_bytes]
    dsimp only
    rw [ih]
    rfl

theorem points_ed (l : List E) : Point.points (l.map .ed) = some l := by
  induction l with
  | nil => rfl
  | cons s l ih =>
    rw [List.map_cons]
    unfold Point.points
    rw [ih]
    rfl

/-- `SumOfProducts` of as many points as scalars of this curve is the sum of the multiples, and it panics when the numbers differ;
`VarTimeDoubleScalarBaseMult` is the sum of two. -/
theorem C115_sums (ps : List E) (ss : List Sc) (a b : Sc) (A : E) :
    (ss.length = ps.length → Point.sumOfProducts (ps.map .ed) (ss.map .ed) = .ok (some ((List.zipWith Point.smul ss ps).sum))) ∧
    (ss.length ≠ ps.length → Point.sumOfProducts (ps.map .ed) (ss.map .ed) = .panic) ∧
    Point.varTimeDoubleScalarBaseMult (.ed a) (.ed A) (.ed b) = some (Point.smul a A + Point.smul b base) := by
  have e : Point.sumOfProducts (ps.map .ed) (ss.map .ed) = (Point.multiScalarMult ss ps).bind fun r => .ok (some r) := by
    unfold Point.sumOfProducts
    rw [scalars_ed, points_ed]
    rfl
  rw [e]
  unfold Point.multiScalarMult
  refine ⟨fun h => ?_, fun h => ?_, rfl⟩
  · rw [if_neg (not_not.2 h)]; rfl
  · rw [if_pos h]; rfl

/-- "`SumOfProducts` refuses scalars of other curves" is false: it reads their bytes, which the other curves write most significant first, as a
scalar of this curve, so that the one of another curve becomes `2^248`. -/
theorem C115_sums_violated (P : E) :
    Point.sumOfProducts [.ed P] [.other (List.replicate 31 0 ++ [1])] = .ok (some (Point.smul (2 ^ 248) P)) ∧ (2 ^ 248 : Sc) ≠ 1 ∧
    Point.mul P (.other (List.replicate 31 0 ++ [1])) = none := by
  have hv : ZMod.val ((2 ^ 248 : Nat) : Sc) = 2 ^ 248 := by
    rw [val_cast]
    decide +kernel
  have hc : ((2 ^ 248 : Nat) : Sc) = 2 ^ 248 := by rw [Nat.cast_pow, Nat.cast_ofNat]
  have hb : Scalar.setCanonicalBytes (List.replicate 31 0 ++ [1]) = .ok (2 ^ 248) := by
    rw [canonical_iff, ← hc]
    unfold Scalar.bytes
    rw [hv]
    decide +kernel
  refine ⟨?_, ?_, rfl⟩
  · have h1 : Point.scalars [.other (List.replicate 31 0 ++ [1])] = .ok (some [2 ^ 248]) := by
      unfold Point.scalars
      rw [hb]
      rfl
    unfold Point.sumOfProducts
    rw [h1]
    show Res.ok (some (Point.smul (2 ^ 248) P + 0)) = _
    rw [add_zero]
  · intro h
    rw [← hc] at h
    rw [h, ZMod.val_one_eq_one_mod] at hv
    revert hv
    decide +kernel

/-- The hypotheses above have instances: nonzero scalars, points of the subgroup, squares. -/
example : (∃ b : Sc, Scalar.bigInt b ≠ 0) ∧ (L • base = 0 ∧ base ≠ 0) ∧ IsSquare (4 : Sc) ∧ ((-5 : Int).natAbs < 2 ^ 32) := by
  refine ⟨⟨1, ?_⟩, ⟨base_order, base_ne⟩, ⟨2, by norm_num⟩, by decide⟩
  have h1 : Scalar.bigInt (1 : Sc) = 1 := (C115_field 0 0 0).2.2.2.1
  rw [h1]
  decide

end Verif.Ed25519
