import Verif.Native.HashCurve

/-!
# Examples for hashing to secp256k1 and P-256
-/

set_option maxRecDepth 20000

namespace Verif.Native
open Verif.Bytes Weier Sswu

/-- RFC 9380, J.1.1, the empty message: the code maps `u[0]` to `Q0`. -/
example : osswu3mod4 P256Fp.impl P256.sswu
      (Field.setLimbs P256Fp.arith (L4.ofNat 0xad5342c66a6dd0ff080df1da0ea1c04b96e0330dd89406465eeba11582515009)) =
    (Field.setLimbs P256Fp.arith (L4.ofNat 0xab640a12220d3ff283510ff3f4b1953d09fad35795140b1c5d64f313967934d5),
     Field.setLimbs P256Fp.arith (L4.ofNat 0xdccb558863804a881d4fff3455716c836cef230e5209594ddd33d85c565b19b1)) := by
  decide +kernel

/-- The exceptional element zero is mapped as well. -/
example : osswu3mod4 P256Fp.impl P256.sswu Field.zero =
    (⟨0x5c8dc32df0535ba9, 0xc17f77a98c8cf08d, 0x7696788e43f892a0, 0x9868003399c03e24⟩,
     ⟨0x962a7b09e046fe06, 0x63379e039623dc9a, 0xd9509b23e1a48f1e, 0xe0ad301101133a10⟩) := by
  decide +kernel

/-- A library made of the toy hash. -/
def exLib : HashLib := HashLib.any Hash.toyHash

/-- The hypothesis of the theorems is met by a fixed-length hasher and by an extendable one. -/
example : (newHasher exLib .sha256).WF ∧ (newHasher exLib .shake256).WF :=
  ⟨(by decide : Hash.toyHash.size ≤ 255), fun _ _ => List.length_replicate⟩

/-- Hashing the message "abc" to both curves succeeds with a point of the curve. -/
example : (∃ e P, K256.h2c.apiHash exLib [97, 98, 99] = .ok e ∧ ERep 0 ((7 : Nat) : ZMod K256Fp.prime) e P) ∧
    (∃ e P, P256.h2c.apiHash exLib [97, 98, 99] = .ok e ∧ ERep (-3) (P256.b : ZMod P256Fp.prime) e P) := by
  obtain ⟨e, P, Q, h1, h2, -⟩ := C87_k256_hash (h := newHasher exLib .sha256) (by exact (by decide : Hash.toyHash.size ≤ 255))
    [97, 98, 99] (h2cTag "secp256k1" (newHasher exLib .sha256)) (by decide +kernel)
  obtain ⟨e', P', Q', h1', h2', -⟩ := C87_p256_hash (h := newHasher exLib .sha256) (by exact (by decide : Hash.toyHash.size ≤ 255))
    [97, 98, 99] (h2cTag "P256" (newHasher exLib .sha256)) (by decide +kernel)
  exact ⟨⟨e, _, h1, h2⟩, e', _, h1', h2'⟩

/-- A reader that fails at once, and one that delivers a byte. -/
example : K256.h2c.random exLib ⟨[], by decide, true⟩ = .err ∧ P256.h2c.random exLib ⟨[7], by decide, false⟩ = .err ∧
    K256.h2c.apiRandom exLib ⟨[], by decide, true⟩ = K256.h2c.apiHash exLib (List.replicate 64 0) :=
  ⟨(C88_native_random exLib _ _).1 (Or.inl rfl), (C88_native_random exLib _ _).1 (Or.inr (by decide)),
    C88_api_random_ignores_reader exLib _ _ rfl⟩

end Verif.Native
