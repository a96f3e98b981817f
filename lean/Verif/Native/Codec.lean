import Verif.Native.Word
import Mathlib.Data.List.GetD

/-!
# Byte encodings and selection of the generated fields

`FromBytes`, `ToBytes` and `Selectznz` are textually the same in all six generated files; they are modelled once.
-/

set_option linter.unusedSectionVars false

namespace Verif.Native
open Verif.Bytes

/-- One limb of `FromBytes` (crypto/core/curves/native/k256/fp/secp256k1_fp.go:1531-1596): eight bytes, the last one
most significant, shifted and summed from the low end. -/
def limbOfBytes (b0 b1 b2 b3 b4 b5 b6 b7 : UInt8) : UInt64 :=
  let x1 := b7.toUInt64 <<< 56
  let x2 := b6.toUInt64 <<< 48
  let x3 := b5.toUInt64 <<< 40
  let x4 := b4.toUInt64 <<< 32
  let x5 := b3.toUInt64 <<< 24
  let x6 := b2.toUInt64 <<< 16
  let x7 := b1.toUInt64 <<< 8
  let x54 := x7 + b0.toUInt64
  let x55 := x6 + x54
  let x56 := x5 + x55
  let x57 := x4 + x56
  let x58 := x3 + x57
  let x59 := x2 + x58
  x1 + x59

/-- `FromBytes` (crypto/core/curves/native/k256/fp/secp256k1_fp.go:1531-1596). -/
def fromBytes (b : List UInt8) : L4 :=
  let g := fun (i : Nat) => b.getD i 0
  ⟨limbOfBytes (g 0) (g 1) (g 2) (g 3) (g 4) (g 5) (g 6) (g 7),
   limbOfBytes (g 8) (g 9) (g 10) (g 11) (g 12) (g 13) (g 14) (g 15),
   limbOfBytes (g 16) (g 17) (g 18) (g 19) (g 20) (g 21) (g 22) (g 23),
   limbOfBytes (g 24) (g 25) (g 26) (g 27) (g 28) (g 29) (g 30) (g 31)⟩

/-- One limb of `ToBytes` (crypto/core/curves/native/k256/fp/secp256k1_fp.go:1418-1511). -/
def bytesOfLimb (x4 : UInt64) : List UInt8 :=
  let x5 := x4.toUInt8 &&& 0xff
  let x6 := x4 >>> 8
  let x7 := x6.toUInt8 &&& 0xff
  let x8 := x6 >>> 8
  let x9 := x8.toUInt8 &&& 0xff
  let x10 := x8 >>> 8
  let x11 := x10.toUInt8 &&& 0xff
  let x12 := x10 >>> 8
  let x13 := x12.toUInt8 &&& 0xff
  let x14 := x12 >>> 8
  let x15 := x14.toUInt8 &&& 0xff
  let x16 := x14 >>> 8
  let x17 := x16.toUInt8 &&& 0xff
  let x18 := (x16 >>> 8).toUInt8
  [x5, x7, x9, x11, x13, x15, x17, x18]

/-- `ToBytes` (crypto/core/curves/native/k256/fp/secp256k1_fp.go:1418-1511). -/
def toBytes (a : L4) : List UInt8 := bytesOfLimb a.l0 ++ bytesOfLimb a.l1 ++ bytesOfLimb a.l2 ++ bytesOfLimb a.l3

/-- `Selectznz(out, choice, a, b)` (crypto/core/curves/native/k256/fp/secp256k1_fp.go:1386-1403). -/
def selectznz (choice : UInt64) (a b : L4) : L4 :=
  ⟨cmovznz choice a.l0 b.l0, cmovznz choice a.l1 b.l1, cmovznz choice a.l2 b.l2, cmovznz choice a.l3 b.l3⟩

/-- The pasta version, with the signed mask (crypto/core/curves/native/pasta/fp/pasta_fp.go:1257-1270). -/
def selectznzS (choice : UInt64) (a b : L4) : L4 :=
  ⟨cmovznzS choice a.l0 b.l0, cmovznzS choice a.l1 b.l1, cmovznzS choice a.l2 b.l2, cmovznzS choice a.l3 b.l3⟩

theorem selectznz_zero (a b : L4) : selectznz 0 a b = a := by
  unfold selectznz
  have e : z 0 = 0 := rfl
  rw [cmov_spec _ _ _ (by rw [e]; norm_num), cmov_spec _ _ _ (by rw [e]; norm_num), cmov_spec _ _ _ (by rw [e]; norm_num),
    cmov_spec _ _ _ (by rw [e]; norm_num), if_pos e, if_pos e, if_pos e, if_pos e]

theorem selectznz_one (a b : L4) : selectznz 1 a b = b := by
  unfold selectznz
  have e : z 1 = 1 := rfl
  rw [cmov_spec _ _ _ (by rw [e]), cmov_spec _ _ _ (by rw [e]), cmov_spec _ _ _ (by rw [e]),
    cmov_spec _ _ _ (by rw [e]), if_neg (by rw [e]; norm_num), if_neg (by rw [e]; norm_num), if_neg (by rw [e]; norm_num),
    if_neg (by rw [e]; norm_num)]

theorem selectznzS_eq (c : UInt64) (hc : z c ≤ 1) (a b : L4) : selectznzS c a b = selectznz c a b := by
  unfold selectznz selectznzS
  rw [cmov_spec _ _ _ hc, cmov_spec _ _ _ hc, cmov_spec _ _ _ hc, cmov_spec _ _ _ hc,
    cmovS_spec _ _ _ hc, cmovS_spec _ _ _ hc, cmovS_spec _ _ _ hc, cmovS_spec _ _ _ hc]

theorem shl_byte (b : UInt8) (k : UInt64) (hk : k.toNat + 8 ≤ 64) :
    (b.toUInt64 <<< k).toNat = b.toNat * 2 ^ k.toNat := by
  have hb := b.toNat_lt
  rw [UInt64.toNat_shiftLeft, UInt8.toNat_toUInt64, Nat.mod_eq_of_lt (by omega : k.toNat < 64), Nat.shiftLeft_eq,
    Nat.mod_eq_of_lt]
  calc b.toNat * 2 ^ k.toNat < 2 ^ 8 * 2 ^ k.toNat := Nat.mul_lt_mul_of_pos_right hb (by positivity)
    _ = 2 ^ (8 + k.toNat) := (pow_add _ _ _).symm
    _ ≤ 2 ^ 64 := Nat.pow_le_pow_right (by norm_num) (by omega)

theorem limbOfBytes_spec (b0 b1 b2 b3 b4 b5 b6 b7 : UInt8) :
    (limbOfBytes b0 b1 b2 b3 b4 b5 b6 b7).toNat = leToNat [b0, b1, b2, b3, b4, b5, b6, b7] := by
  have h0 := b0.toNat_lt
  have h1 := b1.toNat_lt
  have h2 := b2.toNat_lt
  have h3 := b3.toNat_lt
  have h4 := b4.toNat_lt
  have h5 := b5.toNat_lt
  have h6 := b6.toNat_lt
  have h7 := b7.toNat_lt
  have e1 := shl_byte b1 8 (by decide)
  have e2 := shl_byte b2 16 (by decide)
  have e3 := shl_byte b3 24 (by decide)
  have e4 := shl_byte b4 32 (by decide)
  have e5 := shl_byte b5 40 (by decide)
  have e6 := shl_byte b6 48 (by decide)
  have e7 := shl_byte b7 56 (by decide)
  have k1 : (8 : UInt64).toNat = 8 := rfl
  have k2 : (16 : UInt64).toNat = 16 := rfl
  have k3 : (24 : UInt64).toNat = 24 := rfl
  have k4 : (32 : UInt64).toNat = 32 := rfl
  have k5 : (40 : UInt64).toNat = 40 := rfl
  have k6 : (48 : UInt64).toNat = 48 := rfl
  have k7 : (56 : UInt64).toNat = 56 := rfl
  rw [k1] at e1
  rw [k2] at e2
  rw [k3] at e3
  rw [k4] at e4
  rw [k5] at e5
  rw [k6] at e6
  rw [k7] at e7
  unfold limbOfBytes
  dsimp only
  rw [UInt64.toNat_add, UInt64.toNat_add, UInt64.toNat_add, UInt64.toNat_add, UInt64.toNat_add, UInt64.toNat_add,
    UInt64.toNat_add, e1, e2, e3, e4, e5, e6, e7, UInt8.toNat_toUInt64]
  simp only [leToNat]
  omega

theorem leToNat_append (a b : List UInt8) : leToNat (a ++ b) = leToNat a + 256 ^ a.length * leToNat b := by
  induction a with
  | nil => simp [leToNat]
  | cons x xs ih =>
    simp only [List.cons_append, leToNat, ih, List.length_cons, pow_succ]
    ring

theorem split32 (b : List UInt8) (h : b.length = 32) :
    b = (List.range 32).map (fun i => b.getD i 0) := by
  apply List.ext_getElem
  · simp [h]
  · intro i h1 h2
    simp only [List.getElem_map, List.getElem_range]
    rw [List.getD_eq_getElem _ _ h1]

/-- **C50.** Reading 32 bytes gives their little-endian value. -/
theorem C50_fromBytes_value (b : List UInt8) (h : b.length = 32) : (fromBytes b).val = leToNat b := by
  conv_rhs => rw [split32 b h]
  unfold fromBytes
  generalize (fun i => b.getD i 0) = g
  unfold L4.val
  simp only [limbOfBytes_spec]
  have e : (List.range 32).map g = [g 0, g 1, g 2, g 3, g 4, g 5, g 6, g 7] ++ ([g 8, g 9, g 10, g 11, g 12, g 13, g 14,
      g 15] ++ ([g 16, g 17, g 18, g 19, g 20, g 21, g 22, g 23] ++ [g 24, g 25, g 26, g 27, g 28, g 29, g 30, g 31])) := rfl
  rw [e, leToNat_append, leToNat_append, leToNat_append]
  simp only [List.length_cons, List.length_nil]
  ring

theorem byte_mask (x : UInt64) : x.toUInt8 &&& 0xff = UInt8.ofNat (x.toNat % 256) := by
  apply UInt8.toNat.inj
  rw [UInt8.toNat_and, UInt64.toNat_toUInt8, UInt8.toNat_ofNat']
  have := Nat.and_two_pow_sub_one_eq_mod (x.toNat % 2 ^ 8) 8
  exact this.trans (by omega)

theorem byte_of (x : UInt64) : x.toUInt8 = UInt8.ofNat (x.toNat % 256) := by
  apply UInt8.toNat.inj
  rw [UInt64.toNat_toUInt8, UInt8.toNat_ofNat']
  omega

theorem shr8 (x : UInt64) : (x >>> 8).toNat = x.toNat / 256 := by
  rw [UInt64.toNat_shiftRight]
  exact Nat.shiftRight_eq_div_pow _ _

theorem bytesOfLimb_spec (x : UInt64) : leToNat (bytesOfLimb x) = x.toNat := by
  have hx := x.toNat_lt
  unfold bytesOfLimb
  dsimp only
  rw [byte_mask, byte_mask, byte_mask, byte_mask, byte_mask, byte_mask, byte_mask, byte_of]
  simp only [leToNat, shr8, UInt8.toNat_ofNat']
  omega

/-- **C50.** Writing 32 bytes gives the little-endian encoding of the value. -/
theorem C50_toBytes_value (a : L4) : toBytes a = natToLE 32 a.val := by
  have hl : (toBytes a).length = 32 := rfl
  have hv : leToNat (toBytes a) = a.val := by
    unfold toBytes
    have hb : ∀ x, (bytesOfLimb x).length = 8 := fun _ => rfl
    rw [List.append_assoc, List.append_assoc, leToNat_append, leToNat_append, leToNat_append, bytesOfLimb_spec,
      bytesOfLimb_spec, bytesOfLimb_spec, bytesOfLimb_spec, hb, hb, hb]
    unfold L4.val
    ring
  have := natToLE_leToNat (toBytes a)
  rw [hl, hv] at this
  exact this.symm

theorem toBytes_fromBytes (b : List UInt8) (h : b.length = 32) : toBytes (fromBytes b) = b := by
  rw [C50_toBytes_value, C50_fromBytes_value b h]
  have := natToLE_leToNat b
  rwa [h] at this

/-- Non-vacuity: bytes 0..31 read as limbs and written back. -/
example : (fromBytes ((List.range 32).map UInt8.ofNat)).l0 = 0x0706050403020100 ∧
    (fromBytes ((List.range 32).map UInt8.ofNat)).l3 = 0x1f1e1d1c1b1a1918 ∧
    toBytes (fromBytes ((List.range 32).map UInt8.ofNat)) = (List.range 32).map UInt8.ofNat := by
  decide +kernel

end Verif.Native
