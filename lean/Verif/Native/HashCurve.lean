import Verif.Native.SswuCode
import Verif.Hash.Props

/-!
# Hashing to secp256k1 and P-256
(`crypto/core/curves/native/k256/point.go`, `crypto/core/curves/native/p256/point.go`, `crypto/core/curves/native/point.go`)
-/

set_option maxRecDepth 20000
set_option linter.unusedSectionVars false

namespace Verif.Native
open Verif.Bytes Weier Sswu

/-! ## Hashers -/

/-- `EllipticPointHashName` (crypto/core/curves/native/point.go:29-38). -/
inductive HashName
  | sha256 | sha512 | sha3_256 | sha3_384 | sha3_512 | blake2b | shake128 | shake256
deriving DecidableEq

/-- `EllipticPointHashName.String` (crypto/core/curves/native/point.go:193-213). -/
def HashName.str : HashName → String
  | .sha256 => "SHA-256"
  | .sha512 => "SHA-512"
  | .sha3_256 => "SHA3-256"
  | .sha3_384 => "SHA3-384"
  | .sha3_512 => "SHA3-512"
  | .blake2b => "BLAKE2b"
  | .shake128 => "SHAKE-128"
  | .shake256 => "SHAKE-256"

/-- The function of an `EllipticPointHasher` (crypto/core/curves/native/point.go:63-68): `hashType` says which of the two fields
is set. -/
inductive Expander
  | xmd (H : Hash.HashFn)
  | xof (x : List UInt8 → Nat → List UInt8)

/-- `EllipticPointHasher` (crypto/core/curves/native/point.go:63-68). -/
structure Hasher where
  name : HashName
  fn : Expander

/-- The hash functions of the libraries. -/
structure HashLib where
  sha256 : Hash.HashFn
  sha512 : Hash.HashFn
  sha3_256 : Hash.HashFn
  sha3_384 : Hash.HashFn
  sha3_512 : Hash.HashFn
  blake2b : Hash.HashFn
  shake128 : List UInt8 → Nat → List UInt8
  shake256 : List UInt8 → Nat → List UInt8

/-- The constructors `EllipticPointHasherSha256` … `EllipticPointHasherShake256`, one per hash function
(crypto/core/curves/native/point.go:91-163).  The last one stores the name of the one before. -/
def newHasher (L : HashLib) : HashName → Hasher
  | .sha256 => ⟨.sha256, .xmd L.sha256⟩
  | .sha512 => ⟨.sha512, .xmd L.sha512⟩
  | .sha3_256 => ⟨.sha3_256, .xmd L.sha3_256⟩
  | .sha3_384 => ⟨.sha3_384, .xmd L.sha3_384⟩
  | .sha3_512 => ⟨.sha3_512, .xmd L.sha3_512⟩
  | .blake2b => ⟨.blake2b, .xmd L.blake2b⟩
  | .shake128 => ⟨.shake128, .xof L.shake128⟩
  | .shake256 => ⟨.shake128, .xof L.shake256⟩

/-- `EllipticPointHashType.String` (crypto/core/curves/native/point.go:183-191). -/
def Hasher.typeStr (h : Hasher) : String :=
  match h.fn with
  | .xmd _ => "XMD"
  | .xof _ => "XOF"

/-- The bytes of an ASCII string. -/
def strBytes (s : String) : List UInt8 := s.toList.map fun c => UInt8.ofNat c.toNat

/-- The tag, `Sprintf("%s_%s:%s_SSWU_RO_", …)` (crypto/core/curves/native/point.go:236). -/
def h2cTag (curve : String) (h : Hasher) : List UInt8 :=
  strBytes (curve ++ "_" ++ h.typeStr ++ ":" ++ h.name.str ++ "_SSWU_RO_")

/-- The switch at the head of `Hash` (crypto/core/curves/native/k256/point.go:251-256). -/
def Hasher.expand (h : Hasher) (msg dst : List UInt8) (n : Nat) : Res (List UInt8) :=
  match h.fn with
  | .xmd H => Hash.expandNative H msg dst n
  | .xof x => .ok (Hash.expandXof x msg dst n)

/-- The 64-byte buffer whose first 48 bytes are the reversed half (crypto/core/curves/native/k256/point.go:257-258); the last 16
are zero. -/
def wideBuf (half : List UInt8) : List UInt8 := half.reverse ++ List.replicate 16 0

/-! ## secp256k1 -/

/-- `k256PointSswuParams` (crypto/core/curves/native/k256/point.go:122-133). -/
def K256.sswu : SswuParams where
  C1 := ⟨0xffffffffbfffff0b, 0xffffffffffffffff, 0xffffffffffffffff, 0x3fffffffffffffff⟩
  C2 := ⟨0x5b57ba53a30d1520, 0x908f7cef34a762eb, 0x190b0ffe068460c8, 0x98a9828e8f00ff62⟩
  A := ⟨0xdb714ce7b18444a1, 0x4458ce38a32a19a2, 0xa0e58ae2837bfbf0, 0x505aabc49336d959⟩
  B := ⟨0x000006eb001a66db, 0x0000000000000000, 0x0000000000000000, 0x0000000000000000⟩
  Z := ⟨0xfffffff3ffffd234, 0xffffffffffffffff, 0xffffffffffffffff, 0xffffffffffffffff⟩

/-- `k256PointIsogenyParams` (crypto/core/curves/native/k256/point.go:136-237). -/
def K256.iso : IsogenyParams where
  XNum := [⟨0x0000003b1c72a8b4, 0x0000000000000000, 0x0000000000000000, 0x0000000000000000⟩,
    ⟨0xd5bd51a17b2edf46, 0x2cc06f7c86b86bcd, 0x50b37e74f3294a00, 0xeb32314a9da73679⟩,
    ⟨0x48c18b1b0d2191bd, 0x5a3f74c29bfccce3, 0xbe55a02e5e8bd357, 0x09bf218d11fff905⟩,
    ⟨0x000000001c71c789, 0x0000000000000000, 0x0000000000000000, 0x0000000000000000⟩]
  XDen := [⟨0x8af79c1ffdf1e7fa, 0xb84bc22235735eb5, 0x82ee5655a55ace04, 0xce4b32dea0a2becb⟩,
    ⟨0x8ecde3f3762e1fa5, 0x2c3b1ad77be333fd, 0xb102a1a152ea6e12, 0x57b82df5a1ffc133⟩,
    ⟨0x00000001000003d1, 0x0000000000000000, 0x0000000000000000, 0x0000000000000000⟩]
  YNum := [⟨0xffffffce425e12c3, 0xffffffffffffffff, 0xffffffffffffffff, 0xffffffffffffffff⟩,
    ⟨0xba60d5fd6e56922e, 0x4ec198c898a435f2, 0x27e77a577b9764ab, 0xb3b80a1197651d12⟩,
    ⟨0xa460c58d0690c6f6, 0xad1fba614dfe6671, 0xdf2ad0172f45e9ab, 0x84df90c688fffc82⟩,
    ⟨0x00000000097b4283, 0x0000000000000000, 0x0000000000000000, 0x0000000000000000⟩]
  YDen := [⟨0xfffffd0afff4b6fb, 0xffffffffffffffff, 0xffffffffffffffff, 0xffffffffffffffff⟩,
    ⟨0xa0e6d461f9d5bf90, 0x28e34666a05a1c20, 0x88cb0300f0106a0e, 0x6ae1989be1e83c62⟩,
    ⟨0x5634d5edb1453160, 0x4258a84339d4cdfc, 0x8983f271fc5fa51b, 0x039444f072ffa1cd⟩,
    ⟨0x00000001000003d1, 0x0000000000000000, 0x0000000000000000, 0x0000000000000000⟩]

/-- `k256PointArithmetic.Hash` (crypto/core/curves/native/k256/point.go:245-277). -/
def K256.hash (h : Hasher) (msg dst : List UInt8) : Res EP := do
  let u ← h.expand msg dst 96
  let u0 := Field.setBytesWide K256Fp.arith K256Fp.params (wideBuf (u.take 48))
  let u1 := Field.setBytesWide K256Fp.arith K256Fp.params (wideBuf (u.drop 48))
  let r0 := osswu3mod4 K256Fp.impl K256.sswu u0
  let r1 := osswu3mod4 K256Fp.impl K256.sswu u1
  let q0 ← isoMap K256Fp.impl K256.iso r0.1 r0.2
  let q1 ← isoMap K256Fp.impl K256.iso r1.1 r1.2
  .ok (K256.curve.add ⟨q0.1, q0.2, Field.one K256Fp.params⟩ ⟨q1.1, q1.2, Field.one K256Fp.params⟩)

/-! ## P-256 -/

/-- `p256PointSswuParams` (crypto/core/curves/native/p256/point.go:93-99). -/
def P256.sswu : SswuParams where
  C1 := ⟨0xffffffffffffffff, 0x000000003fffffff, 0x4000000000000000, 0x3fffffffc0000000⟩
  C2 := ⟨0x53e43951f64fdbe7, 0xb2806c63966a1a66, 0x1ac5d59c3298bf50, 0xa3323851ba997e27⟩
  A := ⟨0xfffffffffffffffc, 0x00000003ffffffff, 0x0000000000000000, 0xfffffffc00000004⟩
  B := ⟨0xd89cdf6229c4bddf, 0xacf005cd78843090, 0xe5a220abf7212ed6, 0xdc30061d04874834⟩
  Z := ⟨0xfffffffffffffff5, 0x0000000affffffff, 0x0000000000000000, 0xfffffff50000000b⟩

/-- `p256PointArithmetic.Hash` (crypto/core/curves/native/p256/point.go:102-132). -/
def P256.hash (h : Hasher) (msg dst : List UInt8) : Res EP := do
  let u ← h.expand msg dst 96
  let u0 := Field.setBytesWide P256Fp.arith P256Fp.params (wideBuf (u.take 48))
  let u1 := Field.setBytesWide P256Fp.arith P256Fp.params (wideBuf (u.drop 48))
  let q0 := osswu3mod4 P256Fp.impl P256.sswu u0
  let q1 := osswu3mod4 P256Fp.impl P256.sswu u1
  .ok (P256.curve.add ⟨q0.1, q0.2, Field.one P256Fp.params⟩ ⟨q1.1, q1.2, Field.one P256Fp.params⟩)

/-- The name and the hash of a curve (crypto/core/curves/native/k256/point.go:47, crypto/core/curves/native/p256/point.go:45). -/
structure H2C where
  name : String
  hash : Hasher → List UInt8 → List UInt8 → Res EP

/-- secp256k1. -/
def K256.h2c : H2C := ⟨"secp256k1", K256.hash⟩
/-- P-256. -/
def P256.h2c : H2C := ⟨"P256", P256.hash⟩

/-- `EllipticPoint.Hash` (crypto/core/curves/native/point.go:235-242). -/
def H2C.hashPoint (c : H2C) (h : Hasher) (bytes : List UInt8) : Res EP := c.hash h bytes (h2cTag c.name h)

/-- A read from an `io.Reader` into a buffer of 64 bytes: the bytes delivered and whether there was an error. -/
structure Read where
  data : List UInt8
  short : data.length ≤ 64
  failed : Bool

/-- The buffer after the read: the bytes delivered, then the zeros it was made with. -/
def Read.buf (r : Read) : List UInt8 := r.data ++ List.replicate (64 - r.data.length) 0

/-- `EllipticPoint.Random` (crypto/core/curves/native/point.go:217-232). -/
def H2C.random (L : HashLib) (c : H2C) (r : Read) : Res EP :=
  if r.failed then .err
  else if r.data.length ≠ 64 then .err
  else c.hash (newHasher L .sha256) r.buf (strBytes (c.name ++ "_XMD:SHA-256_SSWU_RO_"))

/-- `PointK256.Hash` and `PointP256.Hash` (crypto/core/curves/k256_curve.go:390-398, crypto/core/curves/p256_curve.go:388-396). -/
def H2C.apiHash (L : HashLib) (c : H2C) (bytes : List UInt8) : Res EP := c.hashPoint (newHasher L .sha256) bytes

/-- `PointK256.Random` and `PointP256.Random` (crypto/core/curves/k256_curve.go:384-388, crypto/core/curves/p256_curve.go:382-386):
the number of bytes and the error of the read are dropped. -/
def H2C.apiRandom (L : HashLib) (c : H2C) (r : Read) : Res EP := c.apiHash L r.buf

/-! ## Specification -/

/-- SPEC: RFC 9380, section 5.3: the uniform bytes, for the fixed-length hash or the extendable-output function. -/
def uniform (h : Hasher) (msg dst : List UInt8) : List UInt8 :=
  match h.fn with
  | .xmd H => Hash.rfcExpand H msg dst 96
  | .xof x => Hash.rfcXof x msg dst 96

/-- The functions are hash functions: at most 255 bytes of digest, or as many bytes of output as asked for. -/
def Hasher.WF (h : Hasher) : Prop :=
  match h.fn with
  | .xmd H => H.size ≤ 255
  | .xof x => ∀ m n, (x m n).length = n

/-- SPEC: the two field elements of RFC 9380, section 5.2 (`L = 48`): `OS2IP` of each half modulo `p`. -/
def elem (p : Nat) (h : Hasher) (msg dst : List UInt8) (i : Nat) : ZMod p := (beToNat (((uniform h msg dst).drop (48 * i)).take 48) : ZMod p)

theorem expand_uniform {h : Hasher} (hw : h.WF) (msg dst : List UInt8) (hd : dst.length ≤ 255) :
    h.expand msg dst 96 = .ok (uniform h msg dst) ∧ (uniform h msg dst).length = 96 := by
  obtain ⟨n, fn⟩ := h
  cases fn with
  | xmd H =>
    have e : Hash.expandNative H msg dst 96 = .ok (Hash.rfcExpand H msg dst 96) := by
      rw [Hash.C55_native_rfc H hw msg dst 96 (by decide), if_neg (by omega)]
    obtain ⟨out, ho, hl⟩ := Hash.C55_native_never_refuses H msg dst hw 96 (by decide)
    rw [e] at ho
    obtain rfl := Res.ok.inj ho
    exact ⟨e, hl⟩
  | xof x =>
    refine ⟨?_, hw _ _⟩
    show Res.ok (Hash.expandXof x msg dst 96) = _
    rw [Hash.C55_xof_rfc, if_neg (by omega)]
    rfl

theorem wide_value {A : Arith} {P : Params} {p : Nat} (L : Lawful A P p) (half : List UInt8) (h : half.length = 48) :
    Rep p (Field.setBytesWide A P (wideBuf half)) (beToNat half : ZMod p) := by
  have := C50_setBytesWide L (wideBuf half) (by unfold wideBuf; rw [List.length_append, List.length_reverse, h, List.length_replicate])
  have z : leToNat (List.replicate 16 (0 : UInt8)) = 0 := by decide
  have e : leToNat (wideBuf half) = beToNat half := by
    unfold wideBuf
    rw [leToNat_append, z, mul_zero, add_zero, leToNat_reverse]
  rwa [e] at this

theorem elems {p : Nat} {h : Hasher} (msg dst : List UInt8) (hl : (uniform h msg dst).length = 96) :
    elem p h msg dst 0 = (beToNat ((uniform h msg dst).take 48) : ZMod p) ∧
    elem p h msg dst 1 = (beToNat ((uniform h msg dst).drop 48) : ZMod p) := by
  unfold elem
  rw [Nat.mul_zero, List.drop_zero, Nat.mul_one, List.take_of_length_le (l := List.drop 48 _) (by rw [List.length_drop]; omega)]
  exact ⟨rfl, rfl⟩

/-! ### Points of secp256k1 -/

/-- The prime of secp256k1. -/
local notation "pk" => K256Fp.prime

/-- The isogenous curve `y² = x³ + a' x + 1771` (RFC 9380, 8.7). -/
def K256.ia : Nat := 0x3f8731abdd661adca08a5558f0f5d272e953d363cb6f0e5d405447c01a444533
/-- See `ia`. -/
def K256.ib : Nat := 1771
/-- The non-square (RFC 9380, 8.7). -/
def K256.sz : ZMod pk := -11

/-- The isogeny, constant term first (RFC 9380, E.1): `x ↦ nx/dx`. -/
def K256.nx : List Nat := [0x8e38e38e38e38e38e38e38e38e38e38e38e38e38e38e38e38e38e38daaaaa8c7,
  0x7d3d4c80bc321d5b9f315cea7fd44c5d595d2fc0bf63b92dfff1044f17c6581,
  0x534c328d23f234e6e2a413deca25caece4506144037c40314ecbd0b53d9dd262,
  0x8e38e38e38e38e38e38e38e38e38e38e38e38e38e38e38e38e38e38daaaaa88c]
/-- See `nx`. -/
def K256.dx : List Nat := [0xd35771193d94918a9ca34ccbb7b640dd86cd409542f8487d9fe6b745781eb49b,
  0xedadc6f64383dc1df7c4b2d51b54225406d36b641f5e41bbc52a56612a8c6d14,
  0x1]
/-- `y ↦ y·ny/dy`. -/
def K256.ny : List Nat := [0x4bda12f684bda12f684bda12f684bda12f684bda12f684bda12f684b8e38e23c,
  0xc75e0c32d5cb7c0fa9d0a54b12a0a6d5647ab046d686da6fdffc90fc201d71a3,
  0x29a6194691f91a73715209ef6512e576722830a201be2018a765e85a9ecee931,
  0x2f684bda12f684bda12f684bda12f684bda12f684bda12f684bda12f38e38d84]
/-- See `ny`. -/
def K256.dy : List Nat := [0xfffffffffffffffffffffffffffffffffffffffffffffffffffffffefffff93b,
  0x7a06534bb8bdb49fd5e9e6632722c2989467c1bfc8e8d978dfb425d2685c2573,
  0x6484aa716545ca2cf3a70c3fa8fe337e0a3d21162f0d6299a7bf8192bfd2a76f,
  0x1]

/-- The abscissa of the kernel. -/
def K256.xQ : Nat := 0x89291c84de3e11f1041da6957255eed5fc964a4df050df221d6ad4ce6ab9c5a5

theorem K256.neg11 : ((pk - 11 : Nat) : ZMod pk) = K256.sz := by
  rw [Nat.cast_sub (by decide +kernel), ZMod.natCast_self, zero_sub]
  rfl

theorem cast_eq_mod {p m n : Nat} (h : m % p = n % p) : (m : ZMod p) = (n : ZMod p) := (ZMod.natCast_eq_natCast_iff _ _ _).2 h

theorem K256.iso_check : isoCheck pk K256.ia K256.ib 7 K256.nx K256.dx K256.ny K256.dy = true := by decide +kernel

theorem K256.xQ_nonsquare : ¬ IsSquare (rhs (K256.ia : ZMod pk) (K256.ib : ZMod pk) (K256.xQ : ZMod pk)) := by
  have h : ¬ IsSquare (((K256.xQ ^ 3 + K256.ia * K256.xQ + K256.ib : Nat)) : ZMod pk) :=
    Sswu.not_square (by decide +kernel) (by decide +kernel) (by decide +kernel) (by decide +kernel)
  have e : ((K256.xQ ^ 3 + K256.ia * K256.xQ + K256.ib : Nat) : ZMod pk) = rhs (K256.ia : ZMod pk) (K256.ib : ZMod pk) (K256.xQ : ZMod pk) := by
    unfold rhs
    rw [Nat.cast_add, Nat.cast_add, Nat.cast_mul, Nat.cast_pow]
  rwa [e] at h

/-- The denominators do not vanish on the isogenous curve. -/
theorem K256.den_ok {x y : ZMod pk} (hy : y ^ 2 = rhs (K256.ia : ZMod pk) (K256.ib : ZMod pk) x) : ev K256.dx x ≠ 0 ∧ ev K256.dy x ≠ 0 :=
  ⟨den_ne_zero (m := [pk - K256.xQ, 1]) rfl (by decide +kernel) (Or.inl (by decide +kernel)) K256.xQ_nonsquare hy,
    den_ne_zero (m := [pk - K256.xQ, 1]) rfl (by decide +kernel) (Or.inr (by decide +kernel)) K256.xQ_nonsquare hy⟩

theorem K256.image_eqn {x y : ZMod pk} (hy : y ^ 2 = rhs (K256.ia : ZMod pk) (K256.ib : ZMod pk) x) :
    (y * (ev K256.ny x / ev K256.dy x)) ^ 2 =
      (ev K256.nx x / ev K256.dx x) ^ 3 + 0 * (ev K256.nx x / ev K256.dx x) + ((7 : Nat) : ZMod pk) := by
  rw [iso_image K256.iso_check hy (K256.den_ok hy).1 (K256.den_ok hy).2, zero_mul, add_zero]

/-- SPEC: the 3-isogeny on affine points. -/
def K256.phi (x y : ZMod pk) (hy : y ^ 2 = rhs (K256.ia : ZMod pk) (K256.ib : ZMod pk) x) : Pt (0 : ZMod pk) ((7 : Nat) : ZMod pk) :=
  .some (ev K256.nx x / ev K256.dx x) (y * (ev K256.ny x / ev K256.dy x)) (nonsing K256.two K256.noTwo (K256.image_eqn hy))

/-- SPEC: the point of secp256k1 a field element is mapped to: the image under the isogeny of its simplified SWU image. -/
def K256.IsMap (w : ZMod pk) (P : Pt (0 : ZMod pk) ((7 : Nat) : ZMod pk)) : Prop :=
  ∃ x y, IsSwu (K256.ia : ZMod pk) (K256.ib : ZMod pk) K256.sz par w x y ∧ par y = par w ∧ ∃ hc, P = K256.phi x y hc

theorem K256.ia_ne : (K256.ia : ZMod pk) ≠ 0 := by
  rw [Ne, ZMod.natCast_eq_zero_iff]
  decide +kernel

theorem K256.sz_ne : K256.sz ≠ 0 := by
  rw [← K256.neg11, Ne, ZMod.natCast_eq_zero_iff]
  decide +kernel

theorem K256.exc_eq : (K256.ib : ZMod pk) / (K256.sz * (K256.ia : ZMod pk)) =
    ((0xbb407e4438dd90ca6ba40716591522757e5c173c7232ad8b6c8bcd97de490391 : Nat) : ZMod pk) := by
  have h := cast_eq_mod (p := pk) (m := K256.ib) (n := 0xbb407e4438dd90ca6ba40716591522757e5c173c7232ad8b6c8bcd97de490391 * ((pk - 11) * K256.ia)) (by decide +kernel)
  rw [Nat.cast_mul, Nat.cast_mul, K256.neg11] at h
  rw [div_eq_iff (mul_ne_zero K256.sz_ne K256.ia_ne)]
  exact h

theorem K256.sswu_ok : SswuOK K256.sswu (K256.ia : ZMod pk) (K256.ib : ZMod pk) K256.sz where
  mod4 := by decide +kernel
  repA := rep_of_powMod K256Fp.lawful (by decide +kernel) (by decide +kernel)
  repB := rep_of_powMod K256Fp.lawful (by decide +kernel) (by decide +kernel)
  repZ := by
    rw [← K256.neg11]
    exact rep_of_powMod K256Fp.lawful (by decide +kernel) (by decide +kernel)
  c1 := by decide +kernel
  c2 := by
    refine ⟨((0x25e9711ae8c0dadc46fdbcb72aadd8f4250b65073012ec80bc6ecb9c12973975 : Nat) : ZMod pk), rep_of_powMod K256Fp.lawful (by decide +kernel) (by decide +kernel), ?_⟩
    have h := cast_eq_mod (p := pk) (m := 0x25e9711ae8c0dadc46fdbcb72aadd8f4250b65073012ec80bc6ecb9c12973975 ^ 2) (n := 11 ^ 3) (by decide +kernel)
    rw [Nat.cast_pow] at h
    rw [h, K256.sz, Nat.cast_pow]
    generalize hx : (11 : ZMod pk) = e
    have : ((11 : Nat) : ZMod pk) = e := by rw [← hx]; rfl
    rw [this]
    ring
  a_ne := K256.ia_ne
  nonsquare := by
    rw [← K256.neg11]
    exact Sswu.not_square (by decide +kernel) (by decide +kernel) (by decide +kernel) (by decide +kernel)
  exc := by
    rw [K256.exc_eq]
    have h := cast_eq_mod (p := pk) (m := 0x2899ff0720f53efb09af4823587b279e148bb16bed075ba60fc2a97aff6ae188 ^ 2)
      (n := 0xbb407e4438dd90ca6ba40716591522757e5c173c7232ad8b6c8bcd97de490391 ^ 3 + K256.ia * 0xbb407e4438dd90ca6ba40716591522757e5c173c7232ad8b6c8bcd97de490391 + K256.ib) (by decide +kernel)
    rw [Nat.cast_add, Nat.cast_add, Nat.cast_mul, Nat.cast_pow, Nat.cast_pow] at h
    exact ⟨_, by rw [← pow_two, h]; rfl⟩

theorem K256.ordinate_ne {x y : ZMod pk} (hy : y ^ 2 = rhs (K256.ia : ZMod pk) (K256.ib : ZMod pk) x) : y ≠ 0 := by
  intro h
  exact y_ne_zero K256.noTwo (K256.image_eqn hy) (by rw [h, zero_mul])

theorem K256.rep_nx : List.Forall₂ (fun l (n : Nat) => Rep pk l (n : ZMod pk)) K256.iso.XNum K256.nx := by
  unfold K256.iso K256.nx
  refine .cons ?_ (.cons ?_ (.cons ?_ (.cons ?_ (.nil))))
  all_goals exact rep_of_powMod K256Fp.lawful (by decide +kernel) (by decide +kernel)

theorem K256.rep_dx : List.Forall₂ (fun l (n : Nat) => Rep pk l (n : ZMod pk)) K256.iso.XDen K256.dx := by
  unfold K256.iso K256.dx
  refine .cons ?_ (.cons ?_ (.cons ?_ (.nil)))
  all_goals exact rep_of_powMod K256Fp.lawful (by decide +kernel) (by decide +kernel)

theorem K256.rep_ny : List.Forall₂ (fun l (n : Nat) => Rep pk l (n : ZMod pk)) K256.iso.YNum K256.ny := by
  unfold K256.iso K256.ny
  refine .cons ?_ (.cons ?_ (.cons ?_ (.cons ?_ (.nil))))
  all_goals exact rep_of_powMod K256Fp.lawful (by decide +kernel) (by decide +kernel)

theorem K256.rep_dy : List.Forall₂ (fun l (n : Nat) => Rep pk l (n : ZMod pk)) K256.iso.YDen K256.dy := by
  unfold K256.iso K256.dy
  refine .cons ?_ (.cons ?_ (.cons ?_ (.cons ?_ (.nil))))
  all_goals exact rep_of_powMod K256Fp.lawful (by decide +kernel) (by decide +kernel)

theorem K256.map_spec {u : L4} {w : ZMod pk} (hu : Rep pk u w) :
    ∃ q P, isoMap K256Fp.impl K256.iso (osswu3mod4 K256Fp.impl K256.sswu u).1 (osswu3mod4 K256Fp.impl K256.sswu u).2 = .ok q ∧
      ERep 0 ((7 : Nat) : ZMod pk) ⟨q.1, q.2, Field.one K256Fp.params⟩ P ∧ K256.IsMap w P := by
  obtain ⟨x, y, hx, hy, hs⟩ := osswu_spec C50_k256Fp K256.sswu_ok hu
  obtain ⟨q, hq, h1, h2⟩ := isoMap_spec C50_k256Fp K256.rep_nx K256.rep_dx K256.rep_ny K256.rep_dy (by decide) hx hy
    (K256.den_ok hs.2.1).1 (K256.den_ok hs.2.1).2
  refine ⟨q, K256.phi x y hs.2.1, hq, ⟨_, _, 1, h1, h2, (C50_constants K256Fp.lawful).1, Or.inr ⟨one_ne_zero, _, _, _, rfl,
    (mul_one _).symm, (mul_one _).symm⟩⟩, x, y, hs, hs.2.2.resolve_left (K256.ordinate_ne hs.2.1), hs.2.1, rfl⟩

theorem rep_exists_val {A : Arith} {P : Params} {p : Nat} [NeZero p] (L : Lawful A P p) (w : ZMod p) :
    Rep p (Field.setLimbs A (L4.ofNat w.val)) w := by
  have := C50_setLimbs L (L4.ofNat w.val)
  rwa [L4.val_ofNat _ (lt_trans (ZMod.val_lt w) L.lt), ZMod.natCast_zmod_val] at this

/-- **C87.** For secp256k1 the point a field element is mapped to exists and is unique. -/
theorem C87_k256_map_unique (w : ZMod pk) : ∃! P, K256.IsMap w P := by
  have : NeZero pk := ⟨(Fact.out : Nat.Prime pk).ne_zero⟩
  obtain ⟨q, P, -, -, hP⟩ := K256.map_spec (rep_exists_val K256Fp.lawful w)
  refine ⟨P, hP, ?_⟩
  obtain ⟨x, y, hs, -, hc, rfl⟩ := hP
  rintro Q ⟨x', y', hs', -, hc', rfl⟩
  obtain ⟨rfl, rfl⟩ := swu_unique (sgn := par) (fun y hy => neg_parity K256.odd hy) hs hs'
  rfl

/-- **C87.** Hashing to secp256k1 never fails: for every hash function, message and tag of at most 255 bytes the result is the sum
of the points the two field elements of RFC 9380 are mapped to. -/
theorem C87_k256_hash {h : Hasher} (hw : h.WF) (msg dst : List UInt8) (hd : dst.length ≤ 255) :
    ∃ e P Q, K256.hash h msg dst = .ok e ∧ ERep 0 ((7 : Nat) : ZMod pk) e (P + Q) ∧
      K256.IsMap (elem pk h msg dst 0) P ∧ K256.IsMap (elem pk h msg dst 1) Q := by
  obtain ⟨hx, hl⟩ := expand_uniform hw msg dst hd
  obtain ⟨e0, e1⟩ := elems (p := pk) (h := h) msg dst hl
  rw [e0, e1]
  obtain ⟨q0, P, h0, r0, m0⟩ := K256.map_spec (wide_value K256Fp.lawful ((uniform h msg dst).take 48) (by rw [List.length_take]; omega))
  obtain ⟨q1, Q, h1, r1, m1⟩ := K256.map_spec (wide_value K256Fp.lawful ((uniform h msg dst).drop 48) (by rw [List.length_drop]; omega))
  unfold K256.hash
  rw [hx, Res.bind_ok]
  dsimp only
  rw [h0, Res.bind_ok, h1, Res.bind_ok]
  exact ⟨_, P, Q, rfl, C68_k256.add r0 r1, m0, m1⟩

/-! ### Points of P-256 -/

theorem map_plain {p : Nat} [Fact p.Prime] {F : Impl} (G : Good F p) {S : SswuParams} {a b z : ZMod p} (K : SswuOK S a b z)
    (two : (2 : ZMod p) ≠ 0) (n2 : NoTwo a b) {u : L4} {w : ZMod p} (hu : Rep p u w) :
    ∃ P : Pt a b, ERep a b ⟨(osswu3mod4 F S u).1, (osswu3mod4 F S u).2, Field.one F.P⟩ P ∧
      ∃ x y, IsSwu a b z par w x y ∧ par y = par w ∧ ∃ hn, P = .some x y hn := by
  obtain ⟨x, y, hx, hy, hs⟩ := osswu_spec G K hu
  have hc : y ^ 2 = x ^ 3 + a * x + b := hs.2.1
  exact ⟨.some x y (nonsing two n2 hc), ⟨_, _, 1, hx, hy, (C50_constants G.lawful).1, Or.inr ⟨one_ne_zero, _, _, _, rfl,
    (mul_one _).symm, (mul_one _).symm⟩⟩, x, y, hs, hs.2.2.resolve_left (y_ne_zero n2 hc), _, rfl⟩

/-- The prime of P-256. -/
local notation "pr" => P256Fp.prime

/-- The non-square (RFC 9380, 8.2). -/
def P256.sz : ZMod pr := -10

theorem P256.neg10 : ((pr - 10 : Nat) : ZMod pr) = P256.sz := by
  rw [Nat.cast_sub (by decide +kernel), ZMod.natCast_self, zero_sub]
  rfl

/-- SPEC: the point of P-256 a field element is mapped to. -/
def P256.IsMap (w : ZMod pr) (P : Pt (-3 : ZMod pr) (P256.b : ZMod pr)) : Prop :=
  ∃ x y, IsSwu (-3) (P256.b : ZMod pr) P256.sz par w x y ∧ par y = par w ∧ ∃ hn, P = .some x y hn

theorem P256.sz_ne : P256.sz ≠ 0 := by
  rw [← P256.neg10, Ne, ZMod.natCast_eq_zero_iff]
  decide +kernel

theorem P256.a_ne : (-3 : ZMod pr) ≠ 0 := by
  rw [← P256.neg3, Ne, ZMod.natCast_eq_zero_iff]
  decide +kernel

theorem P256.exc_eq : (P256.b : ZMod pr) / (P256.sz * (-3)) =
    ((0xa528bd8696bdaf996c65b982d94959d3146fe6a020693090bdba13132375f224 : Nat) : ZMod pr) := by
  have h := cast_eq_mod (p := pr) (m := P256.b) (n := 0xa528bd8696bdaf996c65b982d94959d3146fe6a020693090bdba13132375f224 * ((pr - 10) * (pr - 3))) (by decide +kernel)
  rw [Nat.cast_mul, Nat.cast_mul, P256.neg10, P256.neg3] at h
  rw [div_eq_iff (mul_ne_zero P256.sz_ne P256.a_ne)]
  exact h

theorem P256.sswu_ok : SswuOK P256.sswu (-3 : ZMod pr) (P256.b : ZMod pr) P256.sz where
  mod4 := by decide +kernel
  repA := P256.repA
  repB := P256.repB
  repZ := by
    rw [← P256.neg10]
    exact rep_of_powMod P256Fp.lawful (by decide +kernel) (by decide +kernel)
  c1 := by decide +kernel
  c2 := by
    refine ⟨((0x87438e5ed27613f9deb9dc092f06aaf8d3833faafb5a591dc004098eea05acfe : Nat) : ZMod pr), rep_of_powMod P256Fp.lawful (by decide +kernel) (by decide +kernel), ?_⟩
    have h := cast_eq_mod (p := pr) (m := 0x87438e5ed27613f9deb9dc092f06aaf8d3833faafb5a591dc004098eea05acfe ^ 2) (n := 10 ^ 3) (by decide +kernel)
    rw [Nat.cast_pow] at h
    rw [h, P256.sz, Nat.cast_pow]
    generalize hx : (10 : ZMod pr) = e
    have : ((10 : Nat) : ZMod pr) = e := by rw [← hx]; rfl
    rw [this]
    ring
  a_ne := P256.a_ne
  nonsquare := by
    rw [← P256.neg10]
    exact Sswu.not_square (by decide +kernel) (by decide +kernel) (by decide +kernel) (by decide +kernel)
  exc := by
    rw [P256.exc_eq]
    have h := cast_eq_mod (p := pr) (m := 0xe5fb73d16791ce358fb5adb2d33668a3b24099fd8d401f6685e0e994fb4d756 ^ 2)
      (n := 0xa528bd8696bdaf996c65b982d94959d3146fe6a020693090bdba13132375f224 ^ 3 + (pr - 3) * 0xa528bd8696bdaf996c65b982d94959d3146fe6a020693090bdba13132375f224 + P256.b) (by decide +kernel)
    rw [Nat.cast_add, Nat.cast_add, Nat.cast_mul, Nat.cast_pow, Nat.cast_pow, P256.neg3] at h
    exact ⟨_, by rw [← pow_two, h]; rfl⟩

theorem P256.map_spec {u : L4} {w : ZMod pr} (hu : Rep pr u w) :
    ∃ P, ERep (-3) (P256.b : ZMod pr) ⟨(osswu3mod4 P256Fp.impl P256.sswu u).1, (osswu3mod4 P256Fp.impl P256.sswu u).2,
      Field.one P256Fp.params⟩ P ∧ P256.IsMap w P := map_plain C50_p256Fp P256.sswu_ok P256.two P256.noTwo hu

/-- **C87.** For P-256 the point a field element is mapped to exists and is unique. -/
theorem C87_p256_map_unique (w : ZMod pr) : ∃! P, P256.IsMap w P := by
  have : NeZero pr := ⟨(Fact.out : Nat.Prime pr).ne_zero⟩
  obtain ⟨P, -, hP⟩ := P256.map_spec (rep_exists_val P256Fp.lawful w)
  refine ⟨P, hP, ?_⟩
  obtain ⟨x, y, hs, -, hn, rfl⟩ := hP
  rintro Q ⟨x', y', hs', -, hn', rfl⟩
  obtain ⟨rfl, rfl⟩ := swu_unique (sgn := par) (fun y hy => neg_parity P256.odd hy) hs hs'
  rfl

/-- **C87.** Hashing to P-256 never fails: for every hash function, message and tag of at most 255 bytes the result is the sum
of the points the two field elements of RFC 9380 are mapped to. -/
theorem C87_p256_hash {h : Hasher} (hw : h.WF) (msg dst : List UInt8) (hd : dst.length ≤ 255) :
    ∃ e P Q, P256.hash h msg dst = .ok e ∧ ERep (-3) (P256.b : ZMod pr) e (P + Q) ∧
      P256.IsMap (elem pr h msg dst 0) P ∧ P256.IsMap (elem pr h msg dst 1) Q := by
  obtain ⟨hx, hl⟩ := expand_uniform hw msg dst hd
  obtain ⟨e0, e1⟩ := elems (p := pr) (h := h) msg dst hl
  rw [e0, e1]
  obtain ⟨P, r0, m0⟩ := P256.map_spec (wide_value P256Fp.lawful ((uniform h msg dst).take 48) (by rw [List.length_take]; omega))
  obtain ⟨Q, r1, m1⟩ := P256.map_spec (wide_value P256Fp.lawful ((uniform h msg dst).drop 48) (by rw [List.length_drop]; omega))
  unfold P256.hash
  rw [hx, Res.bind_ok]
  exact ⟨_, P, Q, rfl, C68_p256.add r0 r1, m0, m1⟩

/-! ## The API: tags and randomness -/

/-- SPEC: the tag the documentation of the hashers promises: curve, expander and the name of the hash function of the
constructor. -/
def suite (curve : String) (k : HashName) : List UInt8 :=
  strBytes (curve ++ (match k with
    | .sha256 => "_XMD:SHA-256"
    | .sha512 => "_XMD:SHA-512"
    | .sha3_256 => "_XMD:SHA3-256"
    | .sha3_384 => "_XMD:SHA3-384"
    | .sha3_512 => "_XMD:SHA3-512"
    | .blake2b => "_XMD:BLAKE2b"
    | .shake128 => "_XOF:SHAKE-128"
    | .shake256 => "_XOF:SHAKE-256") ++ "_SSWU_RO_")

theorem tag_lib (L L' : HashLib) (c : String) (k : HashName) : h2cTag c (newHasher L k) = h2cTag c (newHasher L' k) := by
  cases k <;> rfl

/-- Some library, for the checks on tags, which do not depend on it. -/
def HashLib.any (H : Hash.HashFn) : HashLib := ⟨H, H, H, H, H, H, fun _ n => List.replicate n 0, fun _ n => List.replicate n 0⟩

theorem tag_suite (c : String) (hc : c = "secp256k1" ∨ c = "P256") (L : HashLib) (k : HashName) (hk : k ≠ .shake256) :
    h2cTag c (newHasher L k) = suite c k := by
  rcases hc with rfl | rfl <;> cases k <;> first | exact absurd rfl hk | (simp only [h2cTag, newHasher, Hasher.typeStr, HashName.str, suite]; decide +kernel)

set_option maxHeartbeats 4000000 in
/-- **C88.** (part) For every constructor but SHAKE-256 the tag is the one of the curve and the hash function, and no two of these
tags agree, so the hashes to the two curves and with different functions are domain separated. -/
theorem C88_tags_partial (L : HashLib) :
    (∀ c, c = "secp256k1" ∨ c = "P256" → ∀ k, k ≠ HashName.shake256 → h2cTag c (newHasher L k) = suite c k) ∧
    (∀ c c', (c = "secp256k1" ∨ c = "P256") → (c' = "secp256k1" ∨ c' = "P256") → ∀ k k',
      k ≠ HashName.shake256 → k' ≠ HashName.shake256 →
      h2cTag c (newHasher L k) = h2cTag c' (newHasher L k') → c = c' ∧ k = k') := by
  refine ⟨fun c hc k hk => tag_suite c hc L k hk, ?_⟩
  intro c c' hc hc' k k' hk hk' h
  rw [tag_suite c hc L k hk, tag_suite c' hc' L k' hk'] at h
  rcases hc with rfl | rfl <;> rcases hc' with rfl | rfl <;> cases k <;> cases k' <;>
    first
    | exact absurd h (by decide +kernel)
    | exact ⟨rfl, rfl⟩

/-- **C88.** (negative) The SHAKE-256 hasher uses the tag of SHAKE-128: on either curve the two hashers run under the same tag, and
the tag is not the one of the function used. -/
theorem C88_shake256_tag (L : HashLib) (c : String) (hc : c = "secp256k1" ∨ c = "P256") :
    h2cTag c (newHasher L .shake256) = h2cTag c (newHasher L .shake128) ∧ h2cTag c (newHasher L .shake256) ≠ suite c .shake256 := by
  refine ⟨rfl, ?_⟩
  rcases hc with rfl | rfl <;> (simp only [h2cTag, newHasher, Hasher.typeStr, HashName.str, suite]; decide +kernel)

/-- **C88.** The random point of the native layer: an error of the reader or a short read is reported, and otherwise the result is
the hash of the 64 bytes read. -/
theorem C88_native_random (L : HashLib) (c : H2C) (r : Read) :
    ((r.failed = true ∨ r.data.length ≠ 64) → c.random L r = .err) ∧
    (r.failed = false → r.data.length = 64 →
      c.random L r = c.hash (newHasher L .sha256) r.data (strBytes (c.name ++ "_XMD:SHA-256_SSWU_RO_"))) := by
  unfold H2C.random
  constructor
  · rintro (h | h)
    · rw [h]; rfl
    · cases r.failed
      · rw [if_neg (by decide), if_pos h]
      · rfl
  · intro h1 h2
    rw [h1, if_neg (by decide), if_neg (by omega)]
    unfold Read.buf
    rw [h2, Nat.sub_self, List.replicate_zero, List.append_nil]

/-- **C88.** (negative) `Random` of the curve API ignores the reader: with any reader that delivers nothing — an exhausted stream,
a failing generator — it returns, without an error, the same public point, the hash of 64 zero bytes. -/
theorem C88_api_random_ignores_reader (L : HashLib) (c : H2C) (r : Read) (h : r.data = []) :
    c.apiRandom L r = c.apiHash L (List.replicate 64 0) := by
  unfold H2C.apiRandom Read.buf
  rw [h]
  rfl

end Verif.Native
