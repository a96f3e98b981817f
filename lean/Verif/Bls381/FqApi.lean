import Verif.Bls381.Fq

/-!
# `ScalarBls12381` (`crypto/core/curves/bls12381_curve.go:40-343`)

The methods are those of `ScalarK256` with the field of `fq.go` (`Cube` squares first, `scalarCube`), so the model reuses
`Verif.Native.Scalar` with `impl`: `Random`/`Hash` 40-59 (`ofXmd` after the expansion), `Zero` 61-66, `One` 68-73, `IsZero` 75-77,
`IsOne` 79-81, `IsOdd` 83-86, `IsEven` 88-91, `New` 93-103, `Cmp` 105-112, `Square` 114-119, `Double` 121-127, `Invert` 129-138,
`Sqrt` 140-149, `Cube` 151-158, `Add` 160-170, `Sub` 172-182, `Mul` 184-194, `MulAdd` 196-198, `Div` 200-215, `Neg` 217-222,
`SetBigInt` 224-232, `BigInt` 234-236, `Bytes` 238-241, `SetBytes` 243-256, `SetBytesWide` 258-267.
-/

set_option linter.unusedSectionVars false
set_option exponentiation.threshold 1000
set_option maxRecDepth 20000

namespace Verif.Bls381.Fq
open Verif.Native Verif.Bytes

theorem e_A : impl.A = arith := rfl
theorem e_A' : implFix.A = arithFix := rfl

theorem a_mul : arith.mul = mul := rfl
theorem a_mul' : arithFix.mul = mul := rfl
theorem e_mul : impl.A.mul = implFix.A.mul := by rw [e_A, e_A', a_mul, a_mul']

theorem a_add : arith.add = add := rfl
theorem a_add' : arithFix.add = add := rfl
theorem e_add : impl.A.add = implFix.A.add := by rw [e_A, e_A', a_add, a_add']

theorem a_sub : arith.sub = sub := rfl
theorem a_sub' : arithFix.sub = sub := rfl
theorem e_sub : impl.A.sub = implFix.A.sub := by rw [e_A, e_A', a_sub, a_sub']

theorem a_square : arith.square = square := rfl
theorem a_square' : arithFix.square = square := rfl
theorem e_square : impl.A.square = implFix.A.square := by rw [e_A, e_A', a_square, a_square']

theorem a_toMont : arith.toMont = toMont := rfl
theorem a_toMont' : arithFix.toMont = toMont := rfl
theorem e_toMont : impl.A.toMont = implFix.A.toMont := by rw [e_A, e_A', a_toMont, a_toMont']

theorem a_fromMont : arith.fromMont = fromMont := rfl
theorem a_fromMont' : arithFix.fromMont = fromMont := rfl
theorem e_fromMont : impl.A.fromMont = implFix.A.fromMont := by rw [e_A, e_A', a_fromMont, a_fromMont']

theorem e_P : impl.P = implFix.P := rfl
theorem i_invert : impl.invert = invert := rfl
theorem i_invert' : implFix.invert = invert := rfl
theorem e_invert : impl.invert = implFix.invert := by rw [i_invert, i_invert']
theorem i_sqrt : impl.sqrt = sqrt := rfl
theorem i_sqrt' : implFix.sqrt = sqrt := rfl
theorem e_sqrt : impl.sqrt = implFix.sqrt := by rw [i_sqrt, i_sqrt']

/-- **C90.** The hand-written byte codec and selection of the backend are the common ones: `FromBytes` and `ToBytes` are the 32-byte
little-endian coding, `Selectznz` picks by the flag. -/
theorem C90_codec (b : List UInt8) (h : b.length = 32) (a c : L4) :
    (fromBytes b).val = leToNat b ∧ toBytes a = natToLE 32 a.val ∧ fromBytes b = Native.fromBytes b ∧
    toBytes a = Native.toBytes a ∧ select a c 0 = a ∧ select a c 1 = c := by
  have h1 : (fromBytes b).val = leToNat b := by
    have := leLimbs_val b 0 (by omega)
    rw [List.drop_eq_nil_of_le (by omega : b.length ≤ 0 + 32), List.drop_zero] at this
    show (leLimbs b 0).val = _
    rw [this]
    simp [leToNat]
  have h2 : toBytes a = natToLE 32 a.val := by
    have e8 : ∀ x : UInt64, Fp.putUint64 x = natToLE 8 x.toNat := fun _ => rfl
    have l8 : ∀ x : UInt64, (natToLE 8 x.toNat).length = 8 := fun _ => length_natToLE _ _
    unfold toBytes
    rw [e8, e8, e8, e8]
    apply leToNat_inj
    · simp only [List.length_append, length_natToLE]
    · have b0 := a.l0.toNat_lt
      have b1 := a.l1.toNat_lt
      have b2 := a.l2.toNat_lt
      have b3 := a.l3.toNat_lt
      simp only [leToNat_append, List.length_append, length_natToLE, leToNat_natToLE]
      have := a.val_lt
      unfold L4.val at *
      omega
  refine ⟨h1, h2, ?_, ?_, select_zero a c, select_one a c⟩
  · apply L4.val_inj
    rw [h1, C50_fromBytes_value b h]
  · rw [h2, C50_toBytes_value]

/-- **C90.** The ring operations of BLS12-381 scalars, negation excepted, are those of the integers modulo the group order. -/
theorem C90_scalar_ring {s r t : L4} {x y w : ZMod q} (hs : Rep q s x) (hr : Rep q r y) (ht : Rep q t w) :
    Rep q Scalar.zero (0 : ZMod q) ∧ Rep q (Scalar.one impl) 1 ∧
    Rep q (Scalar.add impl s r) (x + y) ∧ Rep q (Scalar.sub impl s r) (x - y) ∧ Rep q (Scalar.mul impl s r) (x * y) ∧
    Rep q (Scalar.square impl s) (x ^ 2) ∧ Rep q (scalarCube s) (x ^ 3) ∧
    Rep q (Scalar.double impl s) (2 * x) ∧ Rep q (Scalar.mulAdd impl s r t) (x * y + w) := by
  obtain ⟨h0, h1, ha, hsub, hm, _, hsq, _, hd, hma⟩ := C66_scalar_ring good hs hr ht
  refine ⟨h0, ?_, ?_, ?_, ?_, ?_, ?_, ?_, ?_⟩
  · unfold Scalar.one at *; rw [e_P]; exact h1
  · unfold Scalar.add at *; rw [e_add]; exact ha
  · unfold Scalar.sub at *; rw [e_sub]; exact hsub
  · unfold Scalar.mul at *; rw [e_mul]; exact hm
  · unfold Scalar.square at *; rw [e_square]; exact hsq
  · unfold scalarCube
    rw [pow_succ, pow_two]
    exact C50_mul lawful (C50_square lawful hs) hs
  · unfold Scalar.double Field.double at *; rw [e_add]; exact hd
  · unfold Scalar.mulAdd Scalar.add Scalar.mul at *; rw [e_add, e_mul]; exact hma

/-- **C90.** Negation of a non-zero scalar. -/
theorem C90_scalar_neg {s : L4} {x : ZMod q} (hs : Rep q s x) (hx : x ≠ 0) : Rep q (Scalar.neg impl s) (-x) := by
  have h := C50_neg lawful hs
  have hv : s.val ≠ 0 := by
    intro hc
    apply hx
    have h2 := hs.2
    rw [hc, Nat.cast_zero] at h2
    exact lawful.cancel (by rw [← h2, zero_mul])
  have e : arithFix.neg s = neg s := by
    show negFix s = _
    unfold negFix
    rw [if_neg hv]
  rw [e] at h
  exact h

theorem modulus_val : modulus.val = q := by decide +kernel

theorem mul_modulus (r : L4) : Rep q (mul r modulus) 0 := by
  have h := redc_mul r modulus (by
    rw [modulus_val]; exact Nat.mul_lt_mul_of_pos_right r.val_lt (by decide +kernel))
  refine lawful.redc h ?_
  rw [modulus_val, Nat.cast_mul, ZMod.natCast_self, mul_zero, zero_mul, zero_mul]

theorem mul_zero_limbs (r : L4) : Rep q (mul r ⟨0, 0, 0, 0⟩) 0 := by
  have z : (L4.mk 0 0 0 0).val = 0 := by decide
  have h := redc_mul r ⟨0, 0, 0, 0⟩ (by rw [z, Nat.mul_zero]; decide +kernel)
  refine lawful.redc h ?_
  rw [z, Nat.mul_zero, Nat.cast_zero, zero_mul, zero_mul]

theorem square_modulus : square modulus = square ⟨0, 0, 0, 0⟩ := by decide +kernel

theorem chain_modulus : fqChain arith modulus = ⟨0, 0, 0, 0⟩ := by
  have hm : ∀ (β : Type) (a : L4) (k : L4 → β), CMul arith a modulus k = CMul arith a ⟨0, 0, 0, 0⟩ k := by
    intro β a k
    unfold CMul
    have e : arith.mul a modulus = arith.mul a ⟨0, 0, 0, 0⟩ := rep_unique lawful (mul_modulus a) (mul_zero_limbs a)
    rw [e]
  have hs : ∀ (β : Type) (k : L4 → β), CSq arith modulus k = CSq arith ⟨0, 0, 0, 0⟩ k := by
    intro β k
    unfold CSq
    have e : arith.square modulus = arith.square ⟨0, 0, 0, 0⟩ := square_modulus
    rw [e]
  have e : fqChain arith modulus = fqChain arith ⟨0, 0, 0, 0⟩ := by
    unfold fqChain
    simp only [hm, hs]
  rw [e, fqChain_eq]
  have h := fqChain_spec lawful rfl (C50_constants lawful).2
  rw [zero_pow (by decide +kernel)] at h
  exact rep_unique lawful h (C50_constants lawful).2

/-- **C90.** The negation of zero is not a canonical zero: it is the modulus itself, so `IsZero` says no, `Cmp` orders it above zero,
`Invert` reports success and returns zero, and `Div` by it returns zero instead of nothing; only the byte encoding is that of zero. -/
theorem C90_neg_zero_not_canonical {s : L4} (hs : Rep q s 0) :
    Scalar.neg impl s = modulus ∧ Scalar.isZero (Scalar.neg impl s) = false ∧ Scalar.cmp (Scalar.neg impl s) Scalar.zero = 1 ∧
    Scalar.invert impl (Scalar.neg impl s) = .ok Scalar.zero ∧
    (∀ r : L4, Scalar.div impl r (Scalar.neg impl s) = some (Scalar.mul impl Scalar.zero r)) ∧
    Scalar.bytes impl (Scalar.neg impl s) = List.replicate 32 0 := by
  have hz : s = ⟨0, 0, 0, 0⟩ := rep_unique lawful hs (C50_constants lawful).2
  subst hz
  have e1 : Scalar.neg impl ⟨0, 0, 0, 0⟩ = modulus := by decide +kernel
  rw [e1]
  have hi : impl.invert Field.zero modulus = (1, ⟨0, 0, 0, 0⟩) := by
    show invert Field.zero modulus = _
    unfold invert
    rw [chain_modulus]
    dsimp only
    have e : isNonZero modulus = 1 := by decide +kernel
    rw [e, uint1_one, select_one]
  refine ⟨rfl, by decide +kernel, by decide +kernel, ?_, fun r => ?_, by decide +kernel⟩
  · unfold Scalar.invert; rw [hi]; rfl
  · unfold Scalar.div; rw [hi]; rfl

/-- **C90.** In sums, differences and products the modulus left behind by `Neg` of zero still acts as zero. -/
theorem C90_neg_zero_acts_as_zero {s r : L4} {y : ZMod q} (hs : Rep q s 0) (hr : Rep q r y) :
    Rep q (Scalar.add impl r (Scalar.neg impl s)) y ∧ Rep q (Scalar.sub impl r (Scalar.neg impl s)) y ∧
    Rep q (Scalar.mul impl r (Scalar.neg impl s)) 0 := by
  have hz : s = ⟨0, 0, 0, 0⟩ := rep_unique lawful hs (C50_constants lawful).2
  subst hz
  have e1 : Scalar.neg impl ⟨0, 0, 0, 0⟩ = modulus := by decide +kernel
  have hq : (q : Int) < 18446744073709551616 ^ 4 := by decide +kernel
  rw [e1]
  refine ⟨?_, ?_, ?_⟩
  · show Rep q (add r modulus) y
    have : (add r modulus) = r := by
      apply L4.val_inj
      suffices H : ∀ P : L4 → Prop, (∀ t : L4, t.val = r.val → P t) → P (add r modulus) from H (fun t => t.val = r.val) (fun _ h => h)
      intro P hP
      have z0 : z 0 = 0 := rfl
      unfold add
      refine wp_adc P _ _ _ _ (.inr (.inr (by rw [z0]; norm_num))) fun e0 k0 g0 f0 => ?_
      refine wp_adc P _ _ _ _ (.inr (.inr f0)) fun e1 k1 g1 f1 => ?_
      refine wp_adc P _ _ _ _ (.inr (.inr f1)) fun e2 k2 g2 f2 => ?_
      refine wp_adc P _ _ _ _ (.inr (.inr f2)) fun e3 k3 g3 f3 => ?_
      refine hP _ ?_
      have he := (L4.mk e0 e1 e2 e3).zval_nonneg
      have ee : (L4.mk e0 e1 e2 e3).zval + 18446744073709551616 ^ 4 * z k3 = r.zval + modulus.zval := by
        unfold L4.zval; dsimp only
        rw [z0] at *
        linear_combination g0 + 18446744073709551616 ^ 1 * g1 + 18446744073709551616 ^ 2 * g2 + 18446744073709551616 ^ 3 * g3
      have hk := z_nonneg k3
      have hp : 2 * (q : Int) < 18446744073709551616 ^ 4 := by decide +kernel
      have hrl := hr.1
      rw [L4.zval_eq r, modulus_zval] at ee
      have k0 : z k3 = 0 := by
        by_contra hc
        have : z k3 = 1 := by omega
        rw [this] at ee
        omega
      rw [k0] at ee
      have hsv := sub_zval (L4.mk e0 e1 e2 e3) modulus (by rw [modulus_zval]; omega)
      rw [modulus_zval, L4.zval_eq (sub _ _)] at hsv
      generalize (L4.mk e0 e1 e2 e3).zval = E at *
      rw [if_neg (by omega)] at hsv
      omega
    rw [this]
    exact hr
  · show Rep q (sub r modulus) y
    have : (sub r modulus) = r := by
      apply L4.val_inj
      have hrl := hr.1
      have hsv := sub_zval r modulus (by rw [modulus_zval, L4.zval_eq]; omega)
      rw [modulus_zval, L4.zval_eq, L4.zval_eq, if_pos (by omega)] at hsv
      omega
    rw [this]
    exact hr
  · exact mul_modulus r

/-- **C90.** `Invert` and `Div` succeed exactly on non-zero (canonical) divisors and return the quotient. -/
theorem C90_scalar_division {s r : L4} {x y : ZMod q} (hs : Rep q s x) (hr : Rep q r y) :
    (y ≠ 0 → ∃ i, Scalar.invert impl r = .ok i ∧ Rep q i y⁻¹) ∧ (y = 0 → Scalar.invert impl r = .err) ∧
    (y ≠ 0 → ∃ d, Scalar.div impl s r = some d ∧ Rep q d (x * y⁻¹)) ∧ (y = 0 → Scalar.div impl s r = none) := by
  have h := C66_scalar_division good hs hr
  unfold Scalar.invert Scalar.div at *
  rw [e_invert, e_mul]
  exact h

/-- **C90.** `Sqrt` succeeds exactly on squares and returns a root. -/
theorem C90_scalar_sqrt {s : L4} {x : ZMod q} (hs : Rep q s x) :
    (IsSquare x → ∃ r y, Scalar.sqrt impl s = .ok r ∧ Rep q r y ∧ y * y = x) ∧ (¬ IsSquare x → Scalar.sqrt impl s = .err) := by
  have h := C66_scalar_sqrt good hs
  unfold Scalar.sqrt at *
  rw [e_sqrt]
  exact h

theorem setBytes_eq (b : List UInt8) : Field.setBytes impl.A implFix.P b = Field.setBytes implFix.A implFix.P b := by
  unfold Field.setBytes Field.setLimbs
  rw [e_toMont]

theorem setBigInt_eq (c : L4) (v : Int) : Field.setBigInt impl.A implFix.P c v = Field.setBigInt implFix.A implFix.P c v := by
  unfold Field.setBigInt
  simp only [setBytes_eq]

theorem bytes_eq (s : L4) : Field.bytes impl.A s = Field.bytes implFix.A s := by
  unfold Field.bytes
  rw [e_fromMont]

theorem bigInt_eq (s : L4) : Field.bigInt impl.A s = Field.bigInt implFix.A s := by
  unfold Field.bigInt
  rw [bytes_eq]

theorem setBytesWide_eq (b : List UInt8) : Field.setBytesWide impl.A implFix.P b = Field.setBytesWide implFix.A implFix.P b := by
  unfold Field.setBytesWide
  rw [e_mul, e_add]

/-- **C90.** `New` and `SetBigInt` give the residue of every integer; `BigInt` reads it back. -/
theorem C90_scalar_integers (v : Int) :
    (∃ s, Scalar.new impl v = .ok s ∧ Rep q s (v : ZMod q) ∧ Scalar.bigInt impl s = v % (q : Int)) ∧
    (∃ s, Scalar.setBigInt impl (some v) = .ok s ∧ Rep q s (v : ZMod q) ∧ Scalar.bigInt impl s = v % (q : Int)) ∧
    Scalar.setBigInt impl none = .err := by
  have h := C66_scalar_integers good v
  unfold Scalar.new Scalar.setBigInt Scalar.bigInt at *
  simp only [e_P, setBigInt_eq, bigInt_eq] at h ⊢
  exact h

/-- **C90.** `SetBytes` accepts exactly the 32-byte big-endian encodings of values below the order, and `Bytes` is its inverse. -/
theorem C90_scalar_bytes (b : List UInt8) (s : L4) (x : ZMod q) (hs : Rep q s x) :
    (b.length = 32 → beToNat b < q → ∃ r, Scalar.setBytes impl b = .ok r ∧ Rep q r (beToNat b : ZMod q) ∧ Scalar.bytes impl r = b) ∧
    (b.length ≠ 32 ∨ q ≤ beToNat b → Scalar.setBytes impl b = .err) ∧
    (Scalar.bytes impl s).length = 32 ∧ beToNat (Scalar.bytes impl s) = x.val ∧
    Scalar.setBytes impl (Scalar.bytes impl s) = .ok s := by
  have h := C66_scalar_bytes good b s x hs
  unfold Scalar.setBytes Scalar.bytes at *
  simp only [e_P, setBytes_eq, bytes_eq]
  exact h

/-- **C90.** `SetBytesWide` (little-endian) and the hash-to-scalar reduction (big-endian) reduce the whole input. -/
theorem C90_scalar_wide (b : List UInt8) :
    (b.length = 64 → ∃ r, Scalar.setBytesWide impl b = .ok r ∧ Rep q r (leToNat b : ZMod q)) ∧
    (b.length ≠ 64 → Scalar.setBytesWide impl b = .err) ∧
    (b.length ≤ 64 → Rep q (Scalar.ofXmd impl b) (beToNat b : ZMod q)) := by
  have h := C66_scalar_wide good b
  unfold Scalar.setBytesWide Scalar.ofXmd at *
  simp only [e_P, setBytesWide_eq]
  exact h

/-- **C90.** The predicates and the order of canonical scalars read the value. -/
theorem C90_scalar_tests {s r : L4} {x y : ZMod q} (hs : Rep q s x) (hr : Rep q r y) :
    (Scalar.isZero s = true ↔ x = 0) ∧ (Scalar.isOne impl s = true ↔ x = 1) ∧
    (Scalar.isOdd impl s = true ↔ x.val % 2 = 1) ∧ (Scalar.isEven impl s = true ↔ x.val % 2 = 0) ∧
    (Scalar.cmp s r = 0 ↔ x = y) := by
  obtain ⟨h1, h2, h3, h4⟩ := C66_scalar_tests good hs
  refine ⟨h1, ?_, ?_, ?_, ?_⟩
  · unfold Scalar.isOne at *; rw [e_P]; exact h2
  · unfold Scalar.isOdd at *; rw [bytes_eq]; exact h3
  · unfold Scalar.isEven at *; rw [bytes_eq]; exact h4
  · unfold Scalar.cmp Field.cmp
    rw [C50_cmp_is_integer_order]
    unfold cmp3
    constructor
    · intro h
      have hv : s.val = r.val := by
        split at h
        · exact absurd h (by decide)
        · split at h
          · assumption
          · exact absurd h (by decide)
      have := L4.val_inj hv
      subst this
      exact rep_value lawful hs hr
    · rintro rfl
      rw [rep_unique lawful hs hr]
      simp

/-! ## Non-vacuity: the scalars 7 and 49 -/

example : Rep q (Scalar.square impl generator) (((7 : Nat) : ZMod q) ^ 2) :=
  (C90_scalar_ring generator_rep generator_rep generator_rep).2.2.2.2.2.1

example : ∃ i, Scalar.invert impl generator = .ok i ∧ Rep q i (((7 : Nat) : ZMod q))⁻¹ :=
  (C90_scalar_division generator_rep generator_rep).1 (by decide +kernel)

/-- Seven has no square root, its square has one. -/
example : Scalar.sqrt impl generator = .err := by
  refine (C90_scalar_sqrt generator_rep).2 ?_
  rintro ⟨w, hw⟩
  have h := seven_nonresidue
  have hw0 : w ≠ 0 := by
    rintro rfl
    rw [mul_zero] at hw
    exact absurd hw (by decide +kernel)
  rw [hw, ← pow_two, ← pow_mul, show 2 * ((q - 1) / 2) = q - 1 by decide +kernel, ZMod.pow_card_sub_one_eq_one hw0] at h
  exact absurd h (by decide +kernel)

example : ∃ r y, Scalar.sqrt impl (Scalar.square impl generator) = .ok r ∧ Rep q r y ∧ y * y = ((7 : Nat) : ZMod q) ^ 2 :=
  (C90_scalar_sqrt (C90_scalar_ring generator_rep generator_rep generator_rep).2.2.2.2.2.1).1 ⟨((7 : Nat) : ZMod q), pow_two _⟩

example : Scalar.neg impl Scalar.zero ≠ Scalar.zero := by
  have h : Rep q Scalar.zero (0 : ZMod q) := (C50_constants lawful).2
  rw [(C90_neg_zero_not_canonical h).1]; decide

end Verif.Bls381.Fq
