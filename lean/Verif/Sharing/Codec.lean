import Verif.Sharing.Model
import Verif.Base.Bytes
import Mathlib.Algebra.Field.ZMod

/-! Concrete scalar codecs: the `Codec` contract is met by the curves' own encodings. -/

namespace Verif.Sharing

open Verif.Bytes

/-- core/curves/k256_curve.go:292-310 `ScalarK256.Bytes`/`SetBytes` (same shape for P256, BLS12-381,
Pallas): fixed-length big-endian, wrong length or non-canonical values rejected. -/
def beCodec (p len : Nat) [NeZero p] (h : p ≤ 256 ^ len) : Codec (ZMod p) where
  toBytes x := natToBEfix len x.val
  setBytes bs := if bs.length = len ∧ beToNat bs < p then some (beToNat bs : ZMod p) else none
  rt x := by
    have hx : x.val < p := ZMod.val_lt x
    have : x.val % 256 ^ len = x.val := Nat.mod_eq_of_lt (Nat.lt_of_lt_of_le hx h)
    simp [beToNat_natToBEfix, this, hx]

/-- core/curves/ed25519_curve.go:241-256 `ScalarEd25519.Bytes`/`SetBytes`: 32 byte little-endian,
canonical only. -/
def leCodec (p len : Nat) [NeZero p] (h : p ≤ 256 ^ len) : Codec (ZMod p) where
  toBytes x := natToLE len x.val
  setBytes bs := if bs.length = len ∧ leToNat bs < p then some (leToNat bs : ZMod p) else none
  rt x := by
    have hx : x.val < p := ZMod.val_lt x
    have : x.val % 256 ^ len = x.val := Nat.mod_eq_of_lt (Nat.lt_of_lt_of_le hx h)
    simp [leToNat_natToLE, this, hx]

end Verif.Sharing
