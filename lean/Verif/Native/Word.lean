import Verif.Native.Limbs
import Verif.Base.Tactics

/-!
# Straight-line word programs

The field arithmetic of `crypto/core/curves/native` (the `*_fp.go` / `*_fq.go` files) consists of long straight-line
programs over `math/bits`.  This file models the instructions in continuation style, so that a Go statement
`x13, x14 = bits.Add64(x12, x9, c)` becomes `Add64 x12 x9 c fun x13 x14 => …`, and gives for each instruction the rule
that turns it into an exact equation between integers.
-/

set_option linter.unusedSectionVars false

namespace Verif.Native

/-- `bits.Mul64`: the high and the low word of the 128-bit product (package math/bits; used in
crypto/core/curves/native/k256/fp/secp256k1_fp.go:92). -/
def Mul64 {β : Type} (x y : UInt64) (k : UInt64 → UInt64 → β) : β :=
  k (UInt64.ofNat (x.toNat * y.toNat / 2 ^ 64)) (UInt64.ofNat (x.toNat * y.toNat % 2 ^ 64))

/-- `bits.Add64`: the sum with carry, and the carry out (package math/bits; used in
crypto/core/curves/native/k256/fp/secp256k1_fp.go:104).  The conversions `uint64(uint1(c))` around carries are the
identity, because a carry is 0 or 1, and are left out. -/
def Add64 {β : Type} (x y c : UInt64) (k : UInt64 → UInt64 → β) : β :=
  k (UInt64.ofNat ((x.toNat + y.toNat + c.toNat) % 2 ^ 64)) (UInt64.ofNat ((x.toNat + y.toNat + c.toNat) / 2 ^ 64))

/-- `bits.Sub64`: the difference with borrow, and the borrow out (package math/bits; used in
crypto/core/curves/native/k256/fp/secp256k1_fp.go:380). -/
def Sub64 {β : Type} (x y c : UInt64) (k : UInt64 → UInt64 → β) : β :=
  k (UInt64.ofNat ((x.toNat + 2 ^ 65 - y.toNat - c.toNat) % 2 ^ 64)) (if x.toNat < y.toNat + c.toNat then 1 else 0)

/-- A plain, wrapping `x + y` of two words. -/
def Plus {β : Type} (x y : UInt64) (k : UInt64 → β) : β := k (x + y)

/-- A plain `x & y` of two words. -/
def And {β : Type} (x y : UInt64) (k : UInt64 → β) : β := k (x &&& y)

/-- `cmovznzU64(&out, c, a, b)`: `a` if the bit `c` is 0, else `b`, computed with a mask
(crypto/core/curves/native/k256/fp/secp256k1_fp.go:68-72). -/
def cmovznz (c a b : UInt64) : UInt64 :=
  let x1 := c * 0xffffffffffffffff
  (x1 &&& b) ||| (~~~x1 &&& a)

/-- The mask of the pasta fields is computed as `uint64(int1(0) - int1(c)) & 0xff…`
(crypto/core/curves/native/pasta/fp/pasta_fp.go:87-92): negation of the bit as a signed byte, sign-extended. -/
def cmovznzS (c a b : UInt64) : UInt64 :=
  let x2 := (0 - c) &&& 0xffffffffffffffff
  (x2 &&& b) ||| (~~~x2 &&& a)

def Cmov {β : Type} (c a b : UInt64) (k : UInt64 → β) : β := k (cmovznz c a b)
def CmovS {β : Type} (c a b : UInt64) (k : UInt64 → β) : β := k (cmovznzS c a b)

/-! ## Rules -/

/-- The value of a word as an integer. -/
def z (x : UInt64) : Int := (x.toNat : Int)

theorem z_nonneg (x : UInt64) : 0 ≤ z x := Int.natCast_nonneg _
theorem z_le (x : UInt64) : z x ≤ 18446744073709551615 := by
  have := x.toNat_lt
  unfold z
  omega

theorem z_ofNat (n : Nat) (h : n < 2 ^ 64) : z (UInt64.ofNat n) = (n : Int) := by
  unfold z
  rw [UInt64.toNat_ofNat', Nat.mod_eq_of_lt h]

section
variable {β : Type} (P : β → Prop)

theorem wp_mul (x y : UInt64) (k : UInt64 → UInt64 → β)
    (h : ∀ hi lo, z lo + 18446744073709551616 * z hi = z x * z y → P (k hi lo)) : P (Mul64 x y k) := by
  apply h
  have hx := x.toNat_lt
  have hy := y.toNat_lt
  have hxy : x.toNat * y.toNat < 2 ^ 64 * 2 ^ 64 := Nat.mul_lt_mul'' hx hy
  have hd : x.toNat * y.toNat / 2 ^ 64 < 2 ^ 64 := Nat.div_lt_of_lt_mul hxy
  rw [z_ofNat _ hd, z_ofNat _ (Nat.mod_lt _ (by norm_num))]
  have e : (x.toNat * y.toNat) % 2 ^ 64 + 2 ^ 64 * (x.toNat * y.toNat / 2 ^ 64) = x.toNat * y.toNat :=
    Nat.mod_add_div _ _
  unfold z
  exact_mod_cast e

theorem wp_add (x y c : UInt64) (k : UInt64 → UInt64 → β) (hc : z c ≤ 1)
    (h : ∀ s co, z s + 18446744073709551616 * z co = z x + z y + z c → z co ≤ 1 → P (k s co)) :
    P (Add64 x y c k) := by
  have hx := x.toNat_lt
  have hy := y.toNat_lt
  have hc' : c.toNat ≤ 1 := by unfold z at hc; omega
  apply h
  · rw [z_ofNat _ (by omega), z_ofNat _ (by omega)]
    unfold z
    omega
  · rw [z_ofNat _ (by omega)]
    omega

theorem wp_sub (x y c : UInt64) (k : UInt64 → UInt64 → β) (hc : z c ≤ 1)
    (h : ∀ d bo, z d - 18446744073709551616 * z bo = z x - z y - z c → z bo ≤ 1 → P (k d bo)) :
    P (Sub64 x y c k) := by
  have hx := x.toNat_lt
  have hy := y.toNat_lt
  have hc' : c.toNat ≤ 1 := by unfold z at hc; omega
  apply h
  · rw [z_ofNat _ (by omega)]
    split
    · have : z 1 = 1 := rfl
      rw [this]; unfold z; omega
    · have : z 0 = 0 := rfl
      rw [this]; unfold z; omega
  · split
    · exact le_refl _
    · exact by decide

theorem wp_plus (A B : Int) (x y : UInt64) (k : UInt64 → β) (hx : z x ≤ A) (hy : z y ≤ B)
    (hab : A + B < 18446744073709551616) (h : ∀ s, z s = z x + z y → z s ≤ A + B → P (k s)) : P (Plus x y k) := by
  have e : z (x + y) = z x + z y := by
    unfold z at *
    rw [UInt64.toNat_add]
    omega
  exact h _ e (by rw [e]; omega)

/-- The word sum with its (lost) carry, when no bound is at hand. -/
theorem wp_plus_wrap (x y : UInt64) (k : UInt64 → β)
    (h : ∀ s (ov : Int), z s + 18446744073709551616 * ov = z x + z y → 0 ≤ ov → P (k s)) : P (Plus x y k) := by
  have hx := x.toNat_lt
  have hy := y.toNat_lt
  refine h _ (((x.toNat + y.toNat) / 2 ^ 64 : Nat) : Int) ?_ (by omega)
  unfold z
  rw [UInt64.toNat_add]
  omega

theorem cmov_spec (c a b : UInt64) (hc : z c ≤ 1) : cmovznz c a b = if z c = 0 then a else b := by
  have hc' : c.toNat ≤ 1 := by unfold z at hc; omega
  have : c = 0 ∨ c = 1 := by
    rcases Nat.le_one_iff_eq_zero_or_eq_one.1 hc' with h | h
    · left; exact UInt64.toNat.inj h
    · right; exact UInt64.toNat.inj h
  have ones : ∀ y : UInt64, 0xffffffffffffffff &&& y = y := fun y => by
    apply UInt64.toNat.inj
    rw [UInt64.toNat_and]
    have := Nat.and_two_pow_sub_one_eq_mod y.toNat 64
    rw [Nat.and_comm] at this
    exact this.trans (Nat.mod_eq_of_lt y.toNat_lt)
  have zers : ∀ y : UInt64, 0 &&& y = 0 := fun y => UInt64.zero_and
  rcases this with rfl | rfl
  · have e0 : (0 : UInt64) * 0xffffffffffffffff = 0 := rfl
    have e1 : ~~~(0 : UInt64) = 0xffffffffffffffff := rfl
    unfold cmovznz
    dsimp only
    rw [e0, e1, ones, zers, UInt64.zero_or]
    rfl
  · have e0 : (1 : UInt64) * 0xffffffffffffffff = 0xffffffffffffffff := rfl
    have e1 : ~~~(0xffffffffffffffff : UInt64) = 0 := rfl
    unfold cmovznz
    dsimp only
    rw [e0, e1, ones, zers, UInt64.or_zero]
    rfl

theorem cmovS_spec (c a b : UInt64) (hc : z c ≤ 1) : cmovznzS c a b = if z c = 0 then a else b := by
  rw [← cmov_spec c a b hc]
  have hc' : c.toNat ≤ 1 := by unfold z at hc; omega
  have : c = 0 ∨ c = 1 := by
    rcases Nat.le_one_iff_eq_zero_or_eq_one.1 hc' with h | h
    · left; exact UInt64.toNat.inj h
    · right; exact UInt64.toNat.inj h
  have e : (0 - c) &&& 0xffffffffffffffff = c * 0xffffffffffffffff := by
    rcases this with rfl | rfl <;> rfl
  unfold cmovznzS cmovznz
  dsimp only
  rw [e]

theorem wp_cmov (c a b : UInt64) (k : UInt64 → β) (hc : z c ≤ 1)
    (h : ∀ r, (z c = 0 → r = a) → (z c = 1 → r = b) → P (k r)) : P (Cmov c a b k) := by
  refine h _ (fun e => ?_) (fun e => ?_)
  · rw [cmov_spec _ _ _ hc, if_pos e]
  · rw [cmov_spec _ _ _ hc, if_neg (by omega)]

theorem wp_cmovS (c a b : UInt64) (k : UInt64 → β) (hc : z c ≤ 1)
    (h : ∀ r, (z c = 0 → r = a) → (z c = 1 → r = b) → P (k r)) : P (CmovS c a b k) := by
  refine h _ (fun e => ?_) (fun e => ?_)
  · rw [cmovS_spec _ _ _ hc, if_pos e]
  · rw [cmovS_spec _ _ _ hc, if_neg (by omega)]

/-- Masking a constant with an all-zero or all-one word. -/
theorem wp_and (x y : UInt64) (k : UInt64 → β)
    (h : ∀ r, (x = 0 → r = 0) → (x = 0xffffffffffffffff → r = y) → P (k r)) : P (And x y k) := by
  refine h _ (fun e => ?_) (fun e => ?_)
  · rw [e, UInt64.zero_and]
  · rw [e]
    apply UInt64.toNat.inj
    rw [UInt64.toNat_and]
    have := Nat.and_two_pow_sub_one_eq_mod y.toNat 64
    rw [Nat.and_comm] at this
    exact this.trans (Nat.mod_eq_of_lt y.toNat_lt)

end

/-- The high word of a product is at most 2^64 - 2. -/
theorem mulhi_le {hi lo x y : UInt64} (h : z lo + 18446744073709551616 * z hi = z x * z y) :
    z hi ≤ 18446744073709551614 := by
  have h0 := z_nonneg lo
  have h1 := z_le x
  have h2 := z_le y
  have h3 := z_nonneg x
  have h4 := z_nonneg y
  have : z x * z y ≤ 18446744073709551615 * 18446744073709551615 := mul_le_mul h1 h2 h4 (by norm_num)
  omega

/-- The high word of a product with `y` is below `y`. -/
theorem mulhi_lt {hi lo x y : UInt64} (C : Int) (hy : z y ≤ C + 1) (hC : 0 ≤ C)
    (h : z lo + 18446744073709551616 * z hi = z x * z y) : z hi ≤ C := by
  have h0 := z_nonneg lo
  have h1 := z_le x
  have h3 := z_nonneg x
  have h4 := z_nonneg y
  have : z x * z y ≤ 18446744073709551615 * (C + 1) := mul_le_mul h1 hy h4 (by norm_num)
  omega

/-- The word dropped by a Montgomery reduction step is zero: `t + u·m₀ ≡ t·(1 + m'·m₀) ≡ 0 (mod 2^64)`. -/
theorem redc_low {t u uh lo hi y c inv m0 z0 : UInt64} (hinv : (18446744073709551616 : Int) ∣ 1 + z inv * z m0)
    (hu : z u + 18446744073709551616 * z uh = z t * z inv)
    (hm : z lo + 18446744073709551616 * z hi = z u * z m0) (hz : z z0 = 0)
    (hs : z y + 18446744073709551616 * z c = z t + z lo + z z0) : z y = 0 := by
  obtain ⟨q, hq⟩ := hinv
  have h0 := z_nonneg y
  have h1 := z_le y
  have : z y = 18446744073709551616 * (z t * q - z uh * z m0 - z hi - z c) := by
    linear_combination hs + hm + z m0 * hu + z t * hq + hz
  generalize z t * q - z uh * z m0 - z hi - z c = w at this
  omega

/-- The same for moduli whose lowest word is 2^64 - 1, where `m' = 1` and the multiplier is the word itself. -/
theorem redc_low' {t lo hi y c m0 z0 : UInt64} (hinv : (18446744073709551616 : Int) ∣ 1 + z m0)
    (hm : z lo + 18446744073709551616 * z hi = z t * z m0) (hz : z z0 = 0)
    (hs : z y + 18446744073709551616 * z c = z t + z lo + z z0) : z y = 0 := by
  obtain ⟨q, hq⟩ := hinv
  have h0 := z_nonneg y
  have h1 := z_le y
  have : z y = 18446744073709551616 * (z t * q - z hi - z c) := by
    linear_combination hs + hm + z t * hq + hz
  generalize z t * q - z hi - z c = w at this
  omega

/-- The value of four limbs as an integer. -/
def L4.zval (a : L4) : Int :=
  z a.l0 + 18446744073709551616 * z a.l1 + 18446744073709551616 ^ 2 * z a.l2 + 18446744073709551616 ^ 3 * z a.l3

theorem L4.zval_eq (a : L4) : a.zval = (a.val : Int) := by
  unfold L4.zval L4.val z
  push_cast
  ring

theorem zsum_le (w x y t : UInt64) : z w + 18446744073709551616 * z x + 18446744073709551616 ^ 2 * z y
    + 18446744073709551616 ^ 3 * z t ≤ 18446744073709551616 ^ 4 - 1 := by
  have h0 := z_le w
  have h1 := z_le x
  have h2 := z_le y
  have h3 := z_le t
  omega

theorem zval_le (a : L4) : a.zval ≤ 18446744073709551616 ^ 4 - 1 := zsum_le _ _ _ _

/-- Conditional subtraction: five words below `2·M`, minus `M` if that does not borrow. -/
theorem condsub {x0 x1 x2 x3 x4 d0 d1 d2 d3 d4 b r0 r1 r2 r3 : UInt64} (M : Int)
    (hD : z d0 + 18446744073709551616 * z d1 + 18446744073709551616 ^ 2 * z d2 + 18446744073709551616 ^ 3 * z d3
      + 18446744073709551616 ^ 4 * z d4 - 18446744073709551616 ^ 5 * z b
      = z x0 + 18446744073709551616 * z x1 + 18446744073709551616 ^ 2 * z x2 + 18446744073709551616 ^ 3 * z x3
      + 18446744073709551616 ^ 4 * z x4 - M)
    (hb : z b ≤ 1) (hM0 : 0 < M) (hM : M < 18446744073709551616 ^ 4)
    (hT : z x0 + 18446744073709551616 * z x1 + 18446744073709551616 ^ 2 * z x2 + 18446744073709551616 ^ 3 * z x3
      + 18446744073709551616 ^ 4 * z x4 < 2 * M)
    (r0a : z b = 0 → r0 = d0) (r0b : z b = 1 → r0 = x0) (r1a : z b = 0 → r1 = d1) (r1b : z b = 1 → r1 = x1)
    (r2a : z b = 0 → r2 = d2) (r2b : z b = 1 → r2 = x2) (r3a : z b = 0 → r3 = d3) (r3b : z b = 1 → r3 = x3) :
    (L4.mk r0 r1 r2 r3).zval < M ∧ ∃ k : Int, (L4.mk r0 r1 r2 r3).zval
      = z x0 + 18446744073709551616 * z x1 + 18446744073709551616 ^ 2 * z x2 + 18446744073709551616 ^ 3 * z x3
      + 18446744073709551616 ^ 4 * z x4 - k * M := by
  have hx0 := z_nonneg x0
  have hx1 := z_nonneg x1
  have hx2 := z_nonneg x2
  have hx3 := z_nonneg x3
  have hx4 := z_nonneg x4
  have hd0 := z_nonneg d0
  have hd1 := z_nonneg d1
  have hd2 := z_nonneg d2
  have hd3 := z_nonneg d3
  have hd4 := z_nonneg d4
  have hd0' := z_le d0
  have hd1' := z_le d1
  have hd2' := z_le d2
  have hd3' := z_le d3
  have hd4' := z_le d4
  have hb0 := z_nonneg b
  unfold L4.zval
  dsimp only
  rcases (by omega : z b = 0 ∨ z b = 1) with e | e
  · rw [r0a e, r1a e, r2a e, r3a e]
    rw [e] at hD
    have : z d4 = 0 := by omega
    exact ⟨by omega, 1, by omega⟩
  · rw [r0b e, r1b e, r2b e, r3b e]
    rw [e] at hD
    have : z x4 = 0 := by omega
    exact ⟨by omega, 0, by omega⟩

/-- Conditional addition: a difference plus `M` if it borrowed, the last carry dropped. -/
theorem condadd {d0 d1 d2 d3 b s0 s1 s2 s3 c : UInt64} (D M k0 k1 k2 k3 : Int)
    (hD : z d0 + 18446744073709551616 * z d1 + 18446744073709551616 ^ 2 * z d2 + 18446744073709551616 ^ 3 * z d3
      - 18446744073709551616 ^ 4 * z b = D)
    (hS : z s0 + 18446744073709551616 * z s1 + 18446744073709551616 ^ 2 * z s2 + 18446744073709551616 ^ 3 * z s3
      + 18446744073709551616 ^ 4 * z c
      = z d0 + 18446744073709551616 * z d1 + 18446744073709551616 ^ 2 * z d2 + 18446744073709551616 ^ 3 * z d3
      + k0 + 18446744073709551616 * k1 + 18446744073709551616 ^ 2 * k2 + 18446744073709551616 ^ 3 * k3)
    (hb : z b ≤ 1) (hc : z c ≤ 1)
    (hk0 : z b = 0 → k0 = 0 ∧ k1 = 0 ∧ k2 = 0 ∧ k3 = 0)
    (hk1 : z b = 1 → k0 + 18446744073709551616 * k1 + 18446744073709551616 ^ 2 * k2
      + 18446744073709551616 ^ 3 * k3 = M)
    (hD0 : -M ≤ D) (hD1 : D < M) (hM : M < 18446744073709551616 ^ 4) :
    (L4.mk s0 s1 s2 s3).zval < M ∧ ∃ k : Int, (L4.mk s0 s1 s2 s3).zval = D + k * M := by
  have hs0 := z_nonneg s0
  have hs1 := z_nonneg s1
  have hs2 := z_nonneg s2
  have hs3 := z_nonneg s3
  have hs0' := z_le s0
  have hs1' := z_le s1
  have hs2' := z_le s2
  have hs3' := z_le s3
  have hd0 := z_nonneg d0
  have hd1 := z_nonneg d1
  have hd2 := z_nonneg d2
  have hd3 := z_nonneg d3
  have hd0' := z_le d0
  have hd1' := z_le d1
  have hd2' := z_le d2
  have hd3' := z_le d3
  have hb0 := z_nonneg b
  have hc0 := z_nonneg c
  unfold L4.zval
  dsimp only
  rcases (by omega : z b = 0 ∨ z b = 1) with e | e
  · obtain ⟨rfl, rfl, rfl, rfl⟩ := hk0 e
    rw [e] at hD
    have : z c = 0 := by omega
    rw [this] at hS
    exact ⟨by omega, 0, by omega⟩
  · have hk := hk1 e
    rw [e] at hD
    rcases (by omega : z c = 0 ∨ z c = 1) with f | f
    · rw [f] at hS
      by_cases hz : D = -M
      · omega
      · omega
    · rw [f] at hS
      exact ⟨by omega, 1, by omega⟩

/-- What a Montgomery product must satisfy (specification): `r·2^256 ≡ x (mod p)`, fully reduced. -/
def Redc (p x : Nat) (r : L4) : Prop := r.val < p ∧ (r.val * 2 ^ 256) % p = x % p

/-- Fully reduced value of `x` modulo `p` (specification). -/
def Reduced (p x : Nat) (r : L4) : Prop := r.val = x % p

theorem redc_of (p x : Nat) (r : L4) (M T X U : Int) (hM : M = (p : Int)) (hX : X = (x : Int))
    (hlt : r.zval < M) (hk : ∃ k : Int, r.zval = T - k * M)
    (hI : T * 18446744073709551616 ^ 4 = X + U * M) : Redc p x r := by
  obtain ⟨k, hk⟩ := hk
  rw [L4.zval_eq] at hlt hk
  subst hM hX
  refine ⟨by exact_mod_cast hlt, ?_⟩
  have : ((r.val * 2 ^ 256 : Nat) : Int) = (x : Int) + (p : Int) * (U - k * 2 ^ 256) := by
    push_cast
    rw [hk]
    linear_combination hI
  have h2 : ((r.val * 2 ^ 256 : Nat) : Int) % (p : Int) = (x : Int) % (p : Int) := by
    rw [this, Int.add_mul_emod_self_left]
  exact_mod_cast h2

theorem reduced_of (p x : Nat) (r : L4) (M T : Int) (hM : M = (p : Int)) (hX : T = (x : Int))
    (hlt : r.zval < M) (hk : ∃ k : Int, r.zval = T - k * M) : Reduced p x r := by
  obtain ⟨k, hk⟩ := hk
  rw [L4.zval_eq] at hlt hk
  subst hM hX
  unfold Reduced
  have h1 : r.val < p := by exact_mod_cast hlt
  have h2 : ((r.val : Nat) : Int) % (p : Int) = (x : Int) % (p : Int) := by
    have : (r.val : Int) = (x : Int) + (p : Int) * (-k) := by rw [hk]; ring
    rw [this, Int.add_mul_emod_self_left]
  have h3 : r.val % p = x % p := by exact_mod_cast h2
  rw [← h3, Nat.mod_eq_of_lt h1]

end Verif.Native
