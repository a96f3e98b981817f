import Verif.Bls381.Word

/-!
# Six-limb elements and double-width products

`fp` is an array of six 64-bit limbs, least significant first (crypto/core/curves/native/bls12381/fp.go:14); the products have
twelve (eight for the scalar field).
-/

set_option linter.unusedSectionVars false
set_option exponentiation.threshold 1000

namespace Verif.Native
open Verif.Native

theorem L4.zval_nonneg (a : L4) : 0 ≤ a.zval := by rw [L4.zval_eq]; omega
theorem L4.zval_lt (a : L4) : a.zval < 18446744073709551616 ^ 4 := by have := zval_le a; omega

end Verif.Native

namespace Verif.Bls381
open Verif.Native

export Verif.Native (L4)

/-- `fp` (crypto/core/curves/native/bls12381/fp.go:14). -/
structure L6 where
  l0 : UInt64
  l1 : UInt64
  l2 : UInt64
  l3 : UInt64
  l4 : UInt64
  l5 : UInt64
deriving DecidableEq, Repr

/-- `[2 * native.FieldLimbs]uint64` (crypto/core/curves/native/bls12381/fq.go:130). -/
structure L8 where
  l0 : UInt64
  l1 : UInt64
  l2 : UInt64
  l3 : UInt64
  l4 : UInt64
  l5 : UInt64
  l6 : UInt64
  l7 : UInt64

/-- `[2 * Limbs]uint64` (crypto/core/curves/native/bls12381/fp.go:322). -/
structure L12 where
  l0 : UInt64
  l1 : UInt64
  l2 : UInt64
  l3 : UInt64
  l4 : UInt64
  l5 : UInt64
  l6 : UInt64
  l7 : UInt64
  l8 : UInt64
  l9 : UInt64
  l10 : UInt64
  l11 : UInt64

/-- The integer that six limbs denote (specification only). -/
def L6.val (a : L6) : Nat :=
  a.l0.toNat + 2 ^ 64 * a.l1.toNat + 2 ^ 128 * a.l2.toNat + 2 ^ 192 * a.l3.toNat + 2 ^ 256 * a.l4.toNat + 2 ^ 320 * a.l5.toNat

def L6.zval (a : L6) : Int :=
  z a.l0 + 18446744073709551616 ^ 1 * z a.l1 + 18446744073709551616 ^ 2 * z a.l2 + 18446744073709551616 ^ 3 * z a.l3
    + 18446744073709551616 ^ 4 * z a.l4 + 18446744073709551616 ^ 5 * z a.l5

def L8.zval (a : L8) : Int :=
  z a.l0 + 18446744073709551616 ^ 1 * z a.l1 + 18446744073709551616 ^ 2 * z a.l2 + 18446744073709551616 ^ 3 * z a.l3
    + 18446744073709551616 ^ 4 * z a.l4 + 18446744073709551616 ^ 5 * z a.l5 + 18446744073709551616 ^ 6 * z a.l6
    + 18446744073709551616 ^ 7 * z a.l7

def L12.zval (a : L12) : Int :=
  z a.l0 + 18446744073709551616 ^ 1 * z a.l1 + 18446744073709551616 ^ 2 * z a.l2 + 18446744073709551616 ^ 3 * z a.l3
    + 18446744073709551616 ^ 4 * z a.l4 + 18446744073709551616 ^ 5 * z a.l5 + 18446744073709551616 ^ 6 * z a.l6
    + 18446744073709551616 ^ 7 * z a.l7 + 18446744073709551616 ^ 8 * z a.l8 + 18446744073709551616 ^ 9 * z a.l9
    + 18446744073709551616 ^ 10 * z a.l10 + 18446744073709551616 ^ 11 * z a.l11

theorem L6.zval_eq (a : L6) : a.zval = (a.val : Int) := by
  unfold L6.zval L6.val z
  push_cast
  ring

theorem L6.zval_nonneg (a : L6) : 0 ≤ a.zval := by rw [L6.zval_eq]; omega

theorem L6.val_lt (a : L6) : a.val < 2 ^ 384 := by
  have h0 := a.l0.toNat_lt
  have h1 := a.l1.toNat_lt
  have h2 := a.l2.toNat_lt
  have h3 := a.l3.toNat_lt
  have h4 := a.l4.toNat_lt
  have h5 := a.l5.toNat_lt
  unfold L6.val
  omega

theorem L6.zval_lt (a : L6) : a.zval < 18446744073709551616 ^ 6 := by
  have := a.val_lt
  rw [L6.zval_eq]
  omega

theorem L6.val_inj {a b : L6} (h : a.val = b.val) : a = b := by
  have h0 := a.l0.toNat_lt
  have h1 := a.l1.toNat_lt
  have h2 := a.l2.toNat_lt
  have h3 := a.l3.toNat_lt
  have h4 := a.l4.toNat_lt
  have h5 := a.l5.toNat_lt
  have g0 := b.l0.toNat_lt
  have g1 := b.l1.toNat_lt
  have g2 := b.l2.toNat_lt
  have g3 := b.l3.toNat_lt
  have g4 := b.l4.toNat_lt
  have g5 := b.l5.toNat_lt
  unfold L6.val at h
  cases a; cases b
  simp only [L6.mk.injEq] at *
  refine ⟨UInt64.toNat.inj ?_, UInt64.toNat.inj ?_, UInt64.toNat.inj ?_, UInt64.toNat.inj ?_, UInt64.toNat.inj ?_,
    UInt64.toNat.inj ?_⟩ <;> omega

/-- The limbs of an integer below 2^384 (used to state examples). -/
def L6.ofNat (n : Nat) : L6 :=
  ⟨UInt64.ofNat n, UInt64.ofNat (n / 2 ^ 64), UInt64.ofNat (n / 2 ^ 128), UInt64.ofNat (n / 2 ^ 192), UInt64.ofNat (n / 2 ^ 256),
    UInt64.ofNat (n / 2 ^ 320)⟩

theorem L6.val_ofNat (n : Nat) (h : n < 2 ^ 384) : (L6.ofNat n).val = n := by
  simp only [L6.ofNat, L6.val, UInt64.toNat_ofNat']
  omega

end Verif.Bls381
