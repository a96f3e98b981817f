import Verif.Curves.Bls377Scalar
import Verif.Curves.EcPointApi
import Verif.Base.Tactics

/-! C117: the scalars of BLS12-377 are the integers modulo a prime, encoded in 32 bytes, and what goes wrong outside the field. -/

set_option linter.unusedSectionVars false

namespace Verif.B377

open Verif.Bytes Verif.Native
open Verif.Ec (fill)
open Verif.Native.Pallas (expandMsgXmd)

instance fact_r : Fact r.Prime := ⟨Prime.prime_r⟩

theorem r_pos : (0 : Int) < r := by exact_mod_cast fact_r.out.pos
theorem r_ne : (r : Int) ≠ 0 := ne_of_gt r_pos
theorem r_lt : r < 256 ^ 32 := by decide +kernel
theorem one_lt_r : 1 < r := fact_r.out.one_lt
theorem r_odd : r % 2 = 1 := by decide +kernel

/-- SPEC: the scalar `s` is the reduced representation of the element `k` of the field. -/
def Rep (s : Sc) (k : ZMod r) : Prop := ∃ x : Int, s = some x ∧ 0 ≤ x ∧ x < r ∧ (x : ZMod r) = k

/-- Every element has exactly one representation. -/
theorem rep_iff (s : Sc) (k : ZMod r) : Rep s k ↔ s = some (k.val : Int) := by
  constructor
  · rintro ⟨x, rfl, h0, h1, rfl⟩
    have : ((x : ZMod r).val : Int) = x % r := ZMod.val_intCast x
    rw [this, Int.emod_eq_of_lt h0 h1]
  · rintro rfl
    exact ⟨_, rfl, Int.natCast_nonneg _, by exact_mod_cast ZMod.val_lt k, by rw [Int.cast_natCast, ZMod.natCast_zmod_val]⟩

theorem mod_ok (v : Int) : Big.mod v r = .ok (v % r) := if_neg r_ne

theorem rep_mod (v : Int) : Rep (some (v % r)) (v : ZMod r) :=
  ⟨_, rfl, Int.emod_nonneg _ r_ne, Int.emod_lt_of_pos _ r_pos, by rw [ZMod.intCast_mod]⟩

theorem reduced_ok (v : Int) : reduced v = .ok (some (some (v % r))) := by
  unfold reduced
  rw [mod_ok]
  rfl

/-- SPEC: the call returns a scalar, and it is the reduced representation of `k`. -/
def Returns (o : Out) (k : ZMod r) : Prop := ∃ s, o = .ok (some s) ∧ Rep s k

theorem returns_reduced {v : Int} {k : ZMod r} (h : (v : ZMod r) = k) : Returns (reduced v) k := ⟨_, reduced_ok v, h ▸ rep_mod v⟩

theorem exp_ok (x : Int) (n : Nat) : Big.exp x n (some (r : Int)) = some (x ^ n % r) := by
  unfold Big.exp
  dsimp only
  rw [if_neg r_ne, if_pos (Int.natCast_nonneg n), Int.toNat_natCast]

theorem inv_cast {x : Int} (h : (x : ZMod r) ≠ 0) : ∃ i, Big.modInverse x r = some i ∧ Rep (some i) ((x : ZMod r)⁻¹) := by
  cases hi : Big.modInverse x r with
  | none =>
    refine absurd ?_ (Big.modInverse_eq_none.1 hi)
    have hd : ¬ (r : Int) ∣ x := fun hd => h ((ZMod.intCast_zmod_eq_zero_iff_dvd x r).2 hd)
    have hc : IsCoprime (r : Int) x := (Prime.coprime_iff_not_dvd (Nat.prime_iff_prime_int.1 fact_r.out)).2 hd
    exact Int.isCoprime_iff_gcd_eq_one.1 hc.symm
  | some i =>
    obtain ⟨h0, h1, h2⟩ := Big.modInverse_spec r_ne hi
    refine ⟨i, rfl, i, rfl, h0, by rwa [abs_of_pos r_pos] at h1, ?_⟩
    have h3 := (ZMod.intCast_eq_intCast_iff _ _ r).2 h2
    rw [Int.cast_mul, Int.cast_one] at h3
    exact eq_inv_of_mul_eq_one_right h3

theorem inv_zero {x : Int} (h : (x : ZMod r) = 0) : Big.modInverse x r = none := by
  rw [Big.modInverse_eq_none]
  intro hg
  have hd := (ZMod.intCast_zmod_eq_zero_iff_dvd x r).1 h
  have h1 : (r : Int) ∣ 1 := by
    have := Int.dvd_coe_gcd hd (dvd_refl (r : Int))
    rwa [hg] at this
  have h2 := Int.le_of_dvd (by decide) h1
  have := one_lt_r
  omega

/-- **C117.** The scalar operations on reduced scalars are those of the field: the result is returned, it is reduced, and it is the sum,
difference, product, negation, double, square or cube of the arguments. -/
theorem C117_arith {s t : Sc} {a b : ZMod r} (hs : Rep s a) (ht : Rep t b) :
    Returns (Sc.add s (some t)) (a + b) ∧ Returns (Sc.sub s (some t)) (a - b) ∧ Returns (Sc.mul s (some t)) (a * b) ∧
    Returns (Sc.neg s) (-a) ∧ Returns (Sc.double s) (2 * a) ∧ Returns (Sc.square s) (a ^ 2) ∧ Returns (Sc.cube s) (a ^ 3) := by
  obtain ⟨x, rfl, -, -, rfl⟩ := hs
  obtain ⟨y, rfl, -, -, rfl⟩ := ht
  refine ⟨returns_reduced (by push_cast; rfl), returns_reduced (by push_cast; rfl), returns_reduced (by push_cast; rfl),
    returns_reduced (by push_cast; rfl), returns_reduced (by push_cast; ring), ?_, ?_⟩
  · refine ⟨some (x ^ 2 % r), ?_, ?_⟩
    · show Res.ok (some (Big.exp x (2 : Nat) (some (r : Int)))) = _
      rw [exp_ok]
    · have := rep_mod (x ^ 2)
      rwa [Int.cast_pow] at this
  · refine ⟨some (x ^ 3 % r), ?_, ?_⟩
    · show Res.ok (some (Big.exp x (3 : Nat) (some (r : Int)))) = _
      rw [exp_ok]
    · have := rep_mod (x ^ 3)
      rwa [Int.cast_pow] at this

/-- **C117.** `MulAdd` of reduced scalars is the product plus the third. -/
theorem C117_mulAdd {s t u : Sc} {a b c : ZMod r} (hs : Rep s a) (ht : Rep t b) (hu : Rep u c) :
    Returns (Sc.mulAdd s (some t) (some u)) (a * b + c) := by
  obtain ⟨m, hm, hr⟩ := (C117_arith hs ht).2.2.1
  unfold Sc.mulAdd
  rw [hm]
  exact (C117_arith hr hu).1

/-- **C117.** `Invert` and `Div` by a nonzero scalar are those of the field. -/
theorem C117_div {s t : Sc} {a b : ZMod r} (hs : Rep s a) (ht : Rep t b) (hb : b ≠ 0) :
    Returns (Sc.invert t) b⁻¹ ∧ Returns (Sc.div s (some t)) (a / b) := by
  obtain ⟨x, rfl, -, -, rfl⟩ := hs
  obtain ⟨y, rfl, -, -, rfl⟩ := ht
  obtain ⟨i, hi, hr⟩ := inv_cast hb
  refine ⟨⟨some i, congrArg (fun z => Res.ok (some z)) hi, hr⟩, ?_⟩
  obtain ⟨j, hj, -, -, hc⟩ := hr
  obtain rfl := Option.some.inj hj
  have : Sc.div (some x) (some (some y)) = reduced (i * x) := by
    show (do
      let v ← deref (Big.modInverse y r)
      let x ← deref (some x)
      reduced (v * x)) = _
    rw [hi]
    rfl
  rw [this]
  exact returns_reduced (by push_cast; rw [hc, div_eq_mul_inv, mul_comm])

/-- **C117, negation.** Inverting zero reports no error: it returns a scalar whose pointer is nil, and reading it, adding it, multiplying by it
or encoding it then panics. -/
theorem C117_invert_zero_violated (t : Sc) :
    Sc.invert Sc.zero = .ok (some none) ∧ Sc.add none (some t) = .panic ∧ Sc.mul none (some t) = .panic ∧ Sc.isZero none = .panic ∧
    Sc.bytes none = .panic ∧ Sc.bigInt none = .panic ∧ Sc.clone none = .panic ∧ Sc.neg none = .panic :=
  ⟨congrArg (fun z => Res.ok (some z)) (inv_zero (by rw [Int.cast_zero])), rfl, rfl, rfl, rfl, rfl, rfl, rfl⟩

/-- **C117, negation.** Dividing by zero panics, although the type has an answer for it (the nil scalar it returns for a foreign argument). -/
theorem C117_div_zero_violated (s : Sc) : Sc.div s (some Sc.zero) = .panic ∧ Sc.div s none = .ok none := by
  refine ⟨?_, rfl⟩
  show (do
    let v ← deref (Big.modInverse 0 r)
    let x ← deref s
    reduced (v * x)) = _
  rw [inv_zero (by rw [Int.cast_zero])]
  rfl

/-- **C117, negation.** A scalar of another type gives the nil scalar from `Add`, `Sub`, `Mul` and `Div`, but a panic from `MulAdd` when it is the
factor. -/
theorem C117_mulAdd_foreign_violated (s : Sc) (z : Arg) :
    Sc.add s none = .ok none ∧ Sc.sub s none = .ok none ∧ Sc.mul s none = .ok none ∧ Sc.mulAdd s none z = .panic := ⟨rfl, rfl, rfl, rfl⟩

/-- SPEC: what `big.Int.ModSqrt` documents for the prime modulus: a root in range for a square, nil otherwise. -/
structure IsSqrt (f : Int → Option Int) : Prop where
  some_spec : ∀ x y, f x = some y → 0 ≤ y ∧ y < r ∧ ((y : ZMod r)) ^ 2 = (x : ZMod r)
  none_spec : ∀ x, f x = none ↔ ¬ IsSquare (x : ZMod r)

/-- **C117.** `Sqrt` of a square is a root of it. -/
theorem C117_sqrt {f : Int → Option Int} (hf : IsSqrt f) {s : Sc} {a : ZMod r} (hs : Rep s a) (ha : IsSquare a) :
    ∃ b, Returns (Sc.sqrt f s) b ∧ b ^ 2 = a := by
  obtain ⟨x, rfl, -, -, rfl⟩ := hs
  cases h : f x with
  | none => exact absurd ha ((hf.none_spec x).1 h)
  | some y =>
    obtain ⟨h0, h1, h2⟩ := hf.some_spec x y h
    exact ⟨_, ⟨some y, congrArg (fun z => Res.ok (some z)) h, y, rfl, h0, h1, rfl⟩, h2⟩

/-- **C117, negation.** `Sqrt` of a non-square reports no error: it returns a scalar with a nil pointer. -/
theorem C117_sqrt_violated {f : Int → Option Int} (hf : IsSqrt f) {s : Sc} {a : ZMod r} (hs : Rep s a) (ha : ¬ IsSquare a) :
    Sc.sqrt f s = .ok (some none) := by
  obtain ⟨x, rfl, -, -, rfl⟩ := hs
  exact congrArg (fun z => Res.ok (some z)) ((hf.none_spec x).2 ha)

open Classical in
/-- A function with the properties of `ModSqrt`. -/
noncomputable def toySqrt (x : Int) : Option Int :=
  if h : IsSquare (x : ZMod r) then some ((Classical.choose h).val : Int) else none

example : IsSqrt toySqrt where
  some_spec := by
    intro x y h
    unfold toySqrt at h
    by_cases hs : IsSquare (x : ZMod r)
    · rw [dif_pos hs] at h
      obtain rfl := Option.some.inj h
      refine ⟨Int.natCast_nonneg _, by exact_mod_cast ZMod.val_lt _, ?_⟩
      rw [Int.cast_natCast, ZMod.natCast_zmod_val, pow_two]
      exact (Classical.choose_spec hs).symm
    · rw [dif_neg hs] at h; cases h
  none_spec := by
    intro x
    unfold toySqrt
    by_cases hs : IsSquare (x : ZMod r)
    · rw [dif_pos hs]; exact ⟨fun h => (by cases h), fun h => absurd hs h⟩
    · rw [dif_neg hs]; exact ⟨fun _ => hs, fun _ => rfl⟩

/-- A non-square exists: the negation above is about something. -/
theorem exists_nonsquare : ∃ a : ZMod r, ¬ IsSquare a := by
  refine FiniteField.exists_nonsquare ?_
  rw [ZMod.ringChar_zmod_n]
  intro h
  have := r_odd
  omega

/-- **C117.** The tests say what the field says. -/
theorem C117_tests {s t : Sc} {a b : ZMod r} (hs : Rep s a) (ht : Rep t b) :
    (Sc.isZero s = .ok (decide (a = 0))) ∧ (Sc.isOne s = .ok (decide (a = 1))) ∧
    (Sc.isOdd s = .ok (decide (a.val % 2 = 1))) ∧ (Sc.isEven s = .ok (decide (a.val % 2 = 0))) ∧
    (Sc.cmp s (some t) = .ok 0 ↔ a = b) ∧ (Sc.cmp s (some t) = .ok (-1) ↔ a.val < b.val) ∧ (Sc.cmp s (some t) = .ok 1 ↔ b.val < a.val) ∧
    Sc.cmp s none = .ok (-2) := by
  rw [rep_iff] at hs ht
  subst hs ht
  have e0 : a = 0 ↔ a.val = 0 := (ZMod.val_eq_zero a).symm
  have e1 : a = 1 ↔ a.val = 1 := by
    rw [← ZMod.val_one r]
    exact (ZMod.val_injective r).eq_iff.symm
  have eab : a = b ↔ a.val = b.val := (ZMod.val_injective r).eq_iff.symm
  generalize hav : a.val = x at *
  generalize hbv : b.val = y at *
  have n0 : (natToBE x = [] ↔ x = 0) := natToBE_eq_nil x
  have n1 : (natToBE x = [1] ↔ x = 1) := by
    constructor
    · intro h
      have := congrArg beToNat h
      rwa [beToNat_natToBE] at this
    · rintro rfl; decide +kernel
  refine ⟨?_, ?_, ?_, ?_, ?_, ?_, ?_, rfl⟩
  · show Res.ok (natToBE ((x : Int)).natAbs == []) = _
    rw [Int.natAbs_natCast]
    refine congrArg Res.ok (Bool.eq_iff_iff.2 ?_)
    rw [beq_iff_eq, decide_eq_true_iff, n0, e0]
  · show Res.ok (natToBE ((x : Int)).natAbs == [1]) = _
    rw [Int.natAbs_natCast]
    refine congrArg Res.ok (Bool.eq_iff_iff.2 ?_)
    rw [beq_iff_eq, decide_eq_true_iff, n1, e1]
  · show Res.ok ((x : Int) % 2 == 1) = _
    refine congrArg Res.ok (Bool.eq_iff_iff.2 ?_)
    rw [beq_iff_eq, decide_eq_true_iff]
    omega
  · show Res.ok ((x : Int) % 2 == 0) = _
    refine congrArg Res.ok (Bool.eq_iff_iff.2 ?_)
    rw [beq_iff_eq, decide_eq_true_iff]
    omega
  all_goals
    show Res.ok (if (x : Int) < y then (-1 : Int) else if (x : Int) = y then 0 else 1) = _ ↔ _
    by_cases h1 : (x : Int) < y
    · rw [if_pos h1]
      constructor
      · intro h
        have := Res.ok.inj h
        omega
      · intro h; first | rfl | (rw [eab] at h; omega) | omega
    · rw [if_neg h1]
      by_cases h2 : (x : Int) = y
      · rw [if_pos h2]
        constructor
        · intro h
          have := Res.ok.inj h
          first | omega | (rw [eab]; omega)
        · intro h; first | rfl | omega
      · rw [if_neg h2]
        constructor
        · intro h
          have := Res.ok.inj h
          omega
        · intro h; first | rfl | (rw [eab] at h; omega) | omega

/-- **C117.** `New` of a machine integer is that integer in the field: `int` has 64 bits, the order more. -/
theorem C117_new (v : Int) (h : v < 2 ^ 63) : Returns (Sc.new v) (v : ZMod r) := by
  unfold Sc.new
  by_cases hn : v < 0
  · rw [if_pos hn]; exact returns_reduced rfl
  · rw [if_neg hn]
    have : (2 : Int) ^ 63 < r := by
      have : 2 ^ 63 < r := by decide +kernel
      exact_mod_cast this
    exact ⟨_, rfl, v, rfl, by omega, by omega, rfl⟩

/-- **C117.** `SetBigInt` takes exactly the reduced integers, and is the identity on them; `BigInt` gives the integer back. -/
theorem C117_bigInt (v : Int) :
    (∀ s, Sc.setBigInt (some v) = .ok s ↔ s = some v ∧ 0 ≤ v ∧ v < r) ∧
    (¬ (0 ≤ v ∧ v < r) → Sc.setBigInt (some v) = .err) ∧ Sc.setBigInt none = .err ∧ Sc.bigInt (some v) = .ok v := by
  have e : Sc.setBigInt (some v) = if v % r ≠ v then .err else .ok (some (v % r)) := by
    unfold Sc.setBigInt
    dsimp only
    rw [mod_ok]
    rfl
  have key : v % r = v ↔ 0 ≤ v ∧ v < r := by
    constructor
    · intro h; rw [← h]; exact ⟨Int.emod_nonneg _ r_ne, Int.emod_lt_of_pos _ r_pos⟩
    · rintro ⟨h0, h1⟩; exact Int.emod_eq_of_lt h0 h1
  rw [e]
  refine ⟨fun s => ?_, fun h => if_pos (fun hh => h (key.1 hh)), rfl, rfl⟩
  by_cases h : v % r = v
  · rw [if_neg (not_not.2 h), h]
    exact ⟨fun hs => ⟨(Res.ok.inj hs).symm, key.1 h⟩, fun hs => by rw [hs.1]⟩
  · rw [if_pos h]
    exact ⟨fun hs => (by cases hs), fun hs => absurd (key.2 hs.2) h⟩

/-- **C117.** `Bytes` is the 32-byte big-endian form, and `SetBytes` reads it back. -/
theorem C117_bytes {s : Sc} {a : ZMod r} (hs : Rep s a) :
    ∃ b, Sc.bytes s = .ok b ∧ b.length = 32 ∧ beToNat b = a.val ∧ Sc.setBytes b = .ok s := by
  rw [rep_iff] at hs
  subst hs
  have hlt : a.val < r := ZMod.val_lt a
  refine ⟨natToBEfix 32 a.val, ?_, length_natToBEfix _ _, by rw [beToNat_natToBEfix, Nat.mod_eq_of_lt (lt_trans hlt r_lt)], ?_⟩
  · have := Ec.fill_lt (s := 32) (x := (a.val : Int)) (Int.natCast_nonneg _) (by exact_mod_cast lt_trans hlt r_lt)
    rwa [Int.toNat_natCast] at this
  · unfold Sc.setBytes Big.setBytes
    rw [beToNat_natToBEfix, Nat.mod_eq_of_lt (lt_trans hlt r_lt), mod_ok]
    have : (a.val : Int) % r = a.val := Int.emod_eq_of_lt (Int.natCast_nonneg _) (by exact_mod_cast hlt)
    show (if (a.val : Int) % r ≠ a.val then Res.err else .ok (some ((a.val : Int) % r))) = _
    rw [this, if_neg (not_not.2 rfl)]

/-- **C117.** `SetBytes` takes a byte string, of whatever length, exactly when its value is below the order. -/
theorem C117_setBytes (b : List UInt8) (s : Sc) :
    (Sc.setBytes b = .ok s ↔ beToNat b < r ∧ s = some (beToNat b : Int)) ∧ (r ≤ beToNat b → Sc.setBytes b = .err) := by
  have e : Sc.setBytes b = if (beToNat b : Int) % r ≠ beToNat b then .err else .ok (some ((beToNat b : Int) % r)) := by
    unfold Sc.setBytes Big.setBytes
    rw [mod_ok]
    rfl
  have key : (beToNat b : Int) % r = beToNat b ↔ beToNat b < r := by
    constructor
    · intro h
      have := Int.emod_lt_of_pos (beToNat b : Int) r_pos
      rw [h] at this
      exact_mod_cast this
    · intro h; exact Int.emod_eq_of_lt (Int.natCast_nonneg _) (by exact_mod_cast h)
  rw [e]
  refine ⟨?_, fun h => if_pos (fun hh => absurd (key.1 hh) (by omega))⟩
  by_cases h : beToNat b < r
  · rw [if_neg (not_not.2 (key.2 h)), key.2 h]
    exact ⟨fun hs => ⟨h, (Res.ok.inj hs).symm⟩, fun hs => by rw [hs.2]⟩
  · rw [if_pos (fun hh => h (key.1 hh))]
    exact ⟨fun hs => (by cases hs), fun hs => absurd hs.1 h⟩

/-- **C117, negation.** A scalar does not have one encoding: leading zeros, or none at all, are accepted. -/
theorem C117_setBytes_length_violated (n : Nat) (b : List UInt8) (s : Sc) (h : Sc.setBytes b = .ok s) :
    Sc.setBytes (List.replicate n 0 ++ b) = .ok s ∧ Sc.setBytes [] = .ok Sc.zero := by
  refine ⟨?_, ?_⟩
  · rw [(C117_setBytes _ _).1, Hash.beToNat_zeros]
    exact (C117_setBytes _ _).1.1 h
  · rw [(C117_setBytes _ _).1]
    exact ⟨lt_trans Nat.zero_lt_one one_lt_r, rfl⟩

/-- **C117.** `SetBytesWide` reduces 32 to 128 bytes and refuses any other length. -/
theorem C117_wide (b : List UInt8) :
    (32 ≤ b.length ∧ b.length ≤ 128 → ∃ s, Sc.setBytesWide b = .ok s ∧ Rep s (beToNat b : ZMod r)) ∧
    (¬ (32 ≤ b.length ∧ b.length ≤ 128) → Sc.setBytesWide b = .err) := by
  unfold Sc.setBytesWide
  refine ⟨fun h => ?_, fun h => if_pos (by omega)⟩
  rw [if_neg (by omega), mod_ok]
  refine ⟨_, rfl, ?_⟩
  have := rep_mod (Big.setBytes b)
  rwa [Big.setBytes, Int.cast_natCast] at this

/-- SPEC: the tag, spelled out. -/
def suiteTag : List UInt8 := "BLS12377_XMD:SHA-256_SSWU_RO_".toList.map fun c => UInt8.ofNat c.toNat

/-- **C117.** `Hash` of every message is the 48 bytes of RFC 9380's `expand_message_xmd` for the tag, big-endian, modulo the order; `Random` is
`Hash` of 64 bytes of the reader's. -/
theorem C117_hash (H : Hash.HashFn) (hs : H.size ≤ 255) (msg : List UInt8) :
    Returns (Sc.hash H msg) (beToNat (Hash.rfcExpand H msg suiteTag 48) : ZMod r) ∧ Sc.random H (some msg) = Sc.hash H msg ∧
    Sc.random H none = .ok none := by
  refine ⟨?_, rfl, rfl⟩
  have ht : Sc.tag = suiteTag := rfl
  have hlen : suiteTag.length ≤ 255 := by decide +kernel
  have hx : expandMsgXmd H msg Sc.tag 48 = .ok (Hash.rfcExpand H msg suiteTag 48) := by
    rw [ht, Pallas.expand_eq H msg suiteTag hlen, Hash.C55_native_rfc H hs msg suiteTag 48 (by decide), if_neg (by omega)]
  unfold Sc.hash
  rw [hx]
  exact returns_reduced (by rw [Big.setBytes, Int.cast_natCast])

/-- **C117, negation.** `Random` from a reader that delivers nothing is the same scalar every time: what `Read` reports is thrown away. -/
theorem C117_random_violated (H : Hash.HashFn) (hs : H.size ≤ 255) :
    Returns (Sc.random H (some (List.replicate 64 0))) (beToNat (Hash.rfcExpand H (List.replicate 64 0) suiteTag 48) : ZMod r) :=
  (C117_hash H hs _).1

example : Returns (Sc.mulAdd (some 2) (some (some 3)) (some (some 4))) (2 * 3 + 4) :=
  C117_mulAdd ⟨2, rfl, by decide, by decide +kernel, by norm_cast⟩ ⟨3, rfl, by decide, by decide +kernel, by norm_cast⟩
    ⟨4, rfl, by decide, by decide +kernel, by norm_cast⟩

end Verif.B377
