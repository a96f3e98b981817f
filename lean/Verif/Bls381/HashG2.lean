import Verif.Bls381.HashG1Api
import Verif.Bls381.G2Api

/-!
# Hashing to G2
(`crypto/core/curves/native/bls12381/g2.go`)
-/

set_option maxRecDepth 20000
set_option linter.unusedSectionVars false
set_option exponentiation.threshold 1000

namespace Verif.Bls381.G2
open Verif.Bytes Verif.Native Verif.Native.Weier Verif.Native.Sswu P3
open Verif.Bls381.Fp2 (K2 E2 Rep2)

/-- `sswuMapA` (crypto/core/curves/native/bls12381/g2.go:87-97). -/
def mapA : E2 :=
  ⟨⟨0x0000000000000000, 0x0000000000000000, 0x0000000000000000, 0x0000000000000000, 0x0000000000000000, 0x0000000000000000⟩,
   ⟨0xe53a000003135242, 0x01080c0fdef80285, 0xe7889edbe340f6bd, 0x0b51375126310601, 0x02d6985717c744ab, 0x1220b4e979ea5467⟩⟩
/-- `sswuMapB` (crypto/core/curves/native/bls12381/g2.go:98-115). -/
def mapB : E2 :=
  ⟨⟨0x22ea00000cf89db2, 0x6ec832df71380aa4, 0x6e1b94403db5a66e, 0x75bf3c53a79473ba, 0x3dd3a569412c0a34, 0x125cdb5e74dc4fd1⟩,
   ⟨0x22ea00000cf89db2, 0x6ec832df71380aa4, 0x6e1b94403db5a66e, 0x75bf3c53a79473ba, 0x3dd3a569412c0a34, 0x125cdb5e74dc4fd1⟩⟩
/-- `sswuMapZ` (crypto/core/curves/native/bls12381/g2.go:116-133). -/
def mapZ : E2 :=
  ⟨⟨0x87ebfffffff9555c, 0x656fffe5da8ffffa, 0x0fd0749345d33ad2, 0xd951e663066576f4, 0xde291a3d41e980d3, 0x0815664c7dfe040d⟩,
   ⟨0x43f5fffffffcaaae, 0x32b7fff2ed47fffd, 0x07e83a49a2e99d69, 0xeca8f3318332bb7a, 0xef148d1ea0f4c069, 0x040ab3263eff0206⟩⟩
/-- `sswuMapZInv` (crypto/core/curves/native/bls12381/g2.go:134-151). -/
def mapZInv : E2 :=
  ⟨⟨0xacd0000000011110, 0x9dd9999dc88ccccd, 0xb5ca2ac9b76352bf, 0xf1b574bcf4bc90ce, 0x42dab41f28a77081, 0x132fc6ac14cd1e12⟩,
   ⟨0xe396ffffffff2223, 0x4fbf332fcd0d9998, 0x0c4bbd3c1aff4cc4, 0x6b9c91267926ca58, 0x29ae4da6aef7f496, 0x10692e942f195791⟩⟩
/-- `swwuMapMbDivA` (crypto/core/curves/native/bls12381/g2.go:152-169). -/
def mapMbDivA : E2 :=
  ⟨⟨0x903c555555474fb3, 0x5f98cc95ce451105, 0x9f8e582eefe0fade, 0xc68946b6aebbd062, 0x467a4ad10ee6de53, 0x0e7146f483e23a05⟩,
   ⟨0x29c2aaaaaab85af8, 0xbf133368e30eeefa, 0xc7a27a7206cffb45, 0x9dee04ce44c9425c, 0x04a15ce53464ce83, 0x0b8fcaf5b59dac95⟩⟩

/-- `g2IsoXNum`, `g2IsoXDen`, `g2IsoYNum`, `g2IsoYDen` (crypto/core/curves/native/bls12381/g2.go:171-448). -/
def isoTab : IsoTab E2 where
  xNum := [⟨⟨0x47f671c71ce05e62, 0x06dd57071206393e, 0x7c80cd2af3fd71a2, 0x048103ea9e6cd062, 0xc54516acc8d037f6, 0x13808f550920ea41⟩,
      ⟨0x47f671c71ce05e62, 0x06dd57071206393e, 0x7c80cd2af3fd71a2, 0x048103ea9e6cd062, 0xc54516acc8d037f6, 0x13808f550920ea41⟩⟩,
    ⟨⟨0x0000000000000000, 0x0000000000000000, 0x0000000000000000, 0x0000000000000000, 0x0000000000000000, 0x0000000000000000⟩,
      ⟨0x5fe55555554c71d0, 0x873fffdd236aaaa3, 0x6a6b4619b26ef918, 0x21c2888408874945, 0x2836cda7028cabc5, 0x0ac73310a7fd5abd⟩⟩,
    ⟨⟨0x0a0c5555555971c3, 0xdb0c00101f9eaaae, 0xb1fb2f941d797997, 0xd3960742ef416e1c, 0xb70040e2c20556f4, 0x149d7861e581393b⟩,
      ⟨0xaff2aaaaaaa638e8, 0x439fffee91b55551, 0xb535a30cd9377c8c, 0x90e144420443a4a2, 0x941b66d3814655e2, 0x0563998853fead5e⟩⟩,
    ⟨⟨0x40aac71c71c725ed, 0x190955557a84e38e, 0xd817050a8f41abc3, 0xd86485d4c87f6fb1, 0x696eb479f885d059, 0x198e1a74328002d2⟩,
      ⟨0x0000000000000000, 0x0000000000000000, 0x0000000000000000, 0x0000000000000000, 0x0000000000000000, 0x0000000000000000⟩⟩]
  xDen := [⟨⟨0x0000000000000000, 0x0000000000000000, 0x0000000000000000, 0x0000000000000000, 0x0000000000000000, 0x0000000000000000⟩,
      ⟨0x1f3affffff13ab97, 0xf25bfc611da3ff3e, 0xca3757cb3819b208, 0x3e6427366f8cec18, 0x03977bc86095b089, 0x04f69db13f39a952⟩⟩,
    ⟨⟨0x447600000027552e, 0xdcb8009a43480020, 0x6f7ee9ce4a6e8b59, 0xb10330b7c0a95bc6, 0x6140b1fcfb1e54b7, 0x0381be097f0bb4e1⟩,
      ⟨0x7588ffffffd8557d, 0x41f3ff646e0bffdf, 0xf7b1e8d2ac426aca, 0xb3741acd32dbb6f8, 0xe9daf5b9482d581f, 0x167f53e0ba7431b8⟩⟩,
    ⟨⟨0x760900000002fffd, 0xebf4000bc40c0002, 0x5f48985753c758ba, 0x77ce585370525745, 0x5c071a97a256ec6d, 0x15f65ec3fa80e493⟩,
      ⟨0x0000000000000000, 0x0000000000000000, 0x0000000000000000, 0x0000000000000000, 0x0000000000000000, 0x0000000000000000⟩⟩]
  yNum := [⟨⟨0x96d8f684bdfc77be, 0xb530e4f43b66d0e2, 0x184a88ff379652fd, 0x57cb23ecfae804e1, 0x0fd2e39eada3eba9, 0x08c8055e31c5d5c3⟩,
      ⟨0x96d8f684bdfc77be, 0xb530e4f43b66d0e2, 0x184a88ff379652fd, 0x57cb23ecfae804e1, 0x0fd2e39eada3eba9, 0x08c8055e31c5d5c3⟩⟩,
    ⟨⟨0x0000000000000000, 0x0000000000000000, 0x0000000000000000, 0x0000000000000000, 0x0000000000000000, 0x0000000000000000⟩,
      ⟨0xbf0a71c71c91b406, 0x4d6d55d28b7638fd, 0x9d82f98e5f205aee, 0xa27aa27b1d1a18d5, 0x02c3b2b2d2938e86, 0x0c7d13420b09807f⟩⟩,
    ⟨⟨0xd7f9555555531c74, 0x21cffff748daaaa8, 0x5a9ad1866c9bbe46, 0x4870a2210221d251, 0x4a0db369c0a32af1, 0x02b1ccc429ff56af⟩,
      ⟨0xe205aaaaaaac8e37, 0xfcdc000768795556, 0x0c96011a8a1537dd, 0x1c06a963f163406e, 0x010df44c82a881e6, 0x174f45260f808feb⟩⟩,
    ⟨⟨0xa470bda12f67f35c, 0xc0fe38e23327b425, 0xc9d3d0f2c6f0678d, 0x1c55c9935b5a982e, 0x27f6c0e2f0746764, 0x117c5e6e28aa9054⟩,
      ⟨0x0000000000000000, 0x0000000000000000, 0x0000000000000000, 0x0000000000000000, 0x0000000000000000, 0x0000000000000000⟩⟩]
  yDen := [⟨⟨0x0162fffffa765adf, 0x8f7bea480083fb75, 0x561b3c2259e93611, 0x11e19fc1a9c875d5, 0xca713efc00367660, 0x03c6a03d41da1151⟩,
      ⟨0x0162fffffa765adf, 0x8f7bea480083fb75, 0x561b3c2259e93611, 0x11e19fc1a9c875d5, 0xca713efc00367660, 0x03c6a03d41da1151⟩⟩,
    ⟨⟨0x0000000000000000, 0x0000000000000000, 0x0000000000000000, 0x0000000000000000, 0x0000000000000000, 0x0000000000000000⟩,
      ⟨0x5db0fffffd3b02c5, 0xd713f52358ebfdba, 0x5ea60761a84d161a, 0xbb2c75a34ea6c44a, 0x0ac6735921c1119b, 0x0ee3d913bdacfbf6⟩⟩,
    ⟨⟨0x66b10000003affc5, 0xcb1400e764ec0030, 0xa73e5eb56fa5d106, 0x8984c913a0fe09a9, 0x11e10afb78ad7f13, 0x05429d0e3e918f52⟩,
      ⟨0x534dffffffc4aae6, 0x5397ff174c67ffcf, 0xbff273eb870b251d, 0xdaf2827152870915, 0x393a9cbaca9e2dc3, 0x14be74dbfaee5748⟩⟩,
    ⟨⟨0x760900000002fffd, 0xebf4000bc40c0002, 0x5f48985753c758ba, 0x77ce585370525745, 0x5c071a97a256ec6d, 0x15f65ec3fa80e493⟩,
      ⟨0x0000000000000000, 0x0000000000000000, 0x0000000000000000, 0x0000000000000000, 0x0000000000000000, 0x0000000000000000⟩⟩]

/-- `sswu` (crypto/core/curves/native/bls12381/g2.go:1050-1089). -/
def sswu (u : E2) : Point :=
  let tv1 := Fp2.square u
  let tv1 := Fp2.mul tv1 mapZ
  let tv2 := Fp2.square tv1
  let x1 := Fp2.add tv1 tv2
  let x1 := (Fp2.invert x1 x1).1
  let x1 := Fp2.add x1 Fp2.one
  let x1 := Fp2.cmove x1 mapZInv (Fp2.isZero x1)
  let x1 := Fp2.mul x1 mapMbDivA
  let gx1 := Fp2.square x1
  let gx1 := Fp2.add gx1 mapA
  let gx1 := Fp2.mul gx1 x1
  let gx1 := Fp2.add gx1 mapB
  let x2 := Fp2.mul tv1 x1
  let tv2 := Fp2.mul tv2 tv1
  let gx2 := Fp2.mul gx1 tv2
  let e2 := (Fp2.sqrt Fp2.zero gx1).2
  let x := Fp2.cmove x2 x1 e2
  let y2 := Fp2.cmove gx2 gx1 e2
  let y := (Fp2.sqrt Fp2.zero y2).1
  let y := Fp2.cneg y y (Fp2.sgn0 u ^^^ Fp2.sgn0 y)
  ⟨x, y, Fp2.one⟩

/-- `Hash` (crypto/core/curves/native/bls12381/g2.go:518-548). -/
def hash (h : Hasher) (msg dst : List UInt8) : Res Point := do
  let u ← h.expand msg dst 256
  let u0 : E2 := ⟨Fp.setBytesWide (wideBuf64 (u.take 64)), Fp.setBytesWide (wideBuf64 ((u.drop 64).take 64))⟩
  let u1 : E2 := ⟨Fp.setBytesWide (wideBuf64 ((u.drop 128).take 64)), Fp.setBytesWide (wideBuf64 (u.drop 192))⟩
  let r0 := sswu u0
  let r1 := sswu u1
  let q0 := isogenyMap F isoTab r0
  let q1 := isogenyMap F isoTab r1
  .ok (clearCofactor (P3.add F q0 q1))

/-- `Random` (crypto/core/curves/native/bls12381/g2.go:502-515): 64 bytes are read, `native.WideFieldBytes`. -/
def random (L : HashLib) (r : Read) : Res Point :=
  if r.failed then .err
  else if r.data.length ≠ 64 then .err
  else hash (newHasher L .sha256) r.buf (strBytes "BLS12381G2_XMD:SHA-256_SSWU_RO_")

/-! ## Specification -/

/-- The isogenous curve `y² = x³ + a' x + b'` with `a' = 240 i`, `b' = 1012 (1 + i)`, and the non-square `z = -(2 + i)`
(RFC 9380, 8.8.2); the pair `(a, b)` is `a + b i`. -/
def ia : Nat × Nat := (0, 240)
/-- See `ia`. -/
def ib : Nat × Nat := (1012, 1012)
/-- See `ia`. -/
def iz : Nat × Nat := (Fp.p - 2, Fp.p - 1)

/-- The isogeny, constant term first (RFC 9380, E.3): `x ↦ nx/dx`. -/
def nx : List (Nat × Nat) := [(0x5c759507e8e333ebb5b7a9a47d7ed8532c52d39fd3a042a88b58423c50ae15d5c2638e343d9c71c6238aaaaaaaa97d6,
    0x5c759507e8e333ebb5b7a9a47d7ed8532c52d39fd3a042a88b58423c50ae15d5c2638e343d9c71c6238aaaaaaaa97d6),
  (0x0,
    0x11560bf17baa99bc32126fced787c88f984f87adf7ae0c7f9a208c6b4f20a4181472aaa9cb8d555526a9ffffffffc71a),
  (0x11560bf17baa99bc32126fced787c88f984f87adf7ae0c7f9a208c6b4f20a4181472aaa9cb8d555526a9ffffffffc71e,
    0x8ab05f8bdd54cde190937e76bc3e447cc27c3d6fbd7063fcd104635a790520c0a395554e5c6aaaa9354ffffffffe38d),
  (0x171d6541fa38ccfaed6dea691f5fb614cb14b4e7f4e810aa22d6108f142b85757098e38d0f671c7188e2aaaaaaaa5ed1,
    0x0)]
/-- See `nx`. -/
def dx : List (Nat × Nat) := [(0x0,
    0x1a0111ea397fe69a4b1ba7b6434bacd764774b84f38512bf6730d2a0f6b0f6241eabfffeb153ffffb9feffffffffaa63),
  (0xc,
    0x1a0111ea397fe69a4b1ba7b6434bacd764774b84f38512bf6730d2a0f6b0f6241eabfffeb153ffffb9feffffffffaa9f),
  (0x1,
    0x0)]
/-- `y ↦ y·ny/dy`. -/
def ny : List (Nat × Nat) := [(0x1530477c7ab4113b59a4c18b076d11930f7da5d4a07f649bf54439d87d27e500fc8c25ebf8c92f6812cfc71c71c6d706,
    0x1530477c7ab4113b59a4c18b076d11930f7da5d4a07f649bf54439d87d27e500fc8c25ebf8c92f6812cfc71c71c6d706),
  (0x0,
    0x5c759507e8e333ebb5b7a9a47d7ed8532c52d39fd3a042a88b58423c50ae15d5c2638e343d9c71c6238aaaaaaaa97be),
  (0x11560bf17baa99bc32126fced787c88f984f87adf7ae0c7f9a208c6b4f20a4181472aaa9cb8d555526a9ffffffffc71c,
    0x8ab05f8bdd54cde190937e76bc3e447cc27c3d6fbd7063fcd104635a790520c0a395554e5c6aaaa9354ffffffffe38f),
  (0x124c9ad43b6cf79bfbf7043de3811ad0761b0f37a1e26286b0e977c69aa274524e79097a56dc4bd9e1b371c71c718b10,
    0x0)]
/-- See `ny`. -/
def dy : List (Nat × Nat) := [(0x1a0111ea397fe69a4b1ba7b6434bacd764774b84f38512bf6730d2a0f6b0f6241eabfffeb153ffffb9feffffffffa8fb,
    0x1a0111ea397fe69a4b1ba7b6434bacd764774b84f38512bf6730d2a0f6b0f6241eabfffeb153ffffb9feffffffffa8fb),
  (0x0,
    0x1a0111ea397fe69a4b1ba7b6434bacd764774b84f38512bf6730d2a0f6b0f6241eabfffeb153ffffb9feffffffffa9d3),
  (0x12,
    0x1a0111ea397fe69a4b1ba7b6434bacd764774b84f38512bf6730d2a0f6b0f6241eabfffeb153ffffb9feffffffffaa99),
  (0x1,
    0x0)]

/-- The coefficients in the field. -/
def toK (l : List (Nat × Nat)) : List K2 := List.map (Fp6.el Fp.p) l

/-- The value at `x` of the polynomial with the given coefficients. -/
def ev2 (l : List (Nat × Nat)) (x : K2) : K2 := evk (toK l) x

/-- SPEC: the sign of RFC 9380, 4.1, in the quadratic field: the parity of the first coordinate, or of the second where the first is 0. -/
def sgn2 (x : K2) : Nat := if x.re = 0 then x.im.val % 2 else x.re.val % 2

/-- SPEC: `(x, y)` is the simplified SWU image of `w` on the isogenous curve. -/
def Swu (w x y : K2) : Prop := IsSwu (Fp6.el Fp.p ia) (Fp6.el Fp.p ib) (Fp6.el Fp.p iz) sgn2 w x y

/-- SPEC: `P` is the image of `w`: the image of its simplified SWU image under the isogeny. -/
def IsMap (w : K2) (P : PP) : Prop :=
  ∃ x y, Swu w x y ∧ ev2 dx x ≠ 0 ∧ ev2 dy x ≠ 0 ∧ ∃ hn, P = .some (ev2 nx x / ev2 dx x) (y * (ev2 ny x / ev2 dy x)) hn

/-- SPEC: the field elements of a message (RFC 9380, 5.2, `count = 2`, `m = 2`, `L = 64`). -/
def elem (h : Hasher) (msg dst : List UInt8) (i : Nat) : K2 :=
  ⟨piece64 (uniformN 256 h msg dst) (2 * i), piece64 (uniformN 256 h msg dst) (2 * i + 1)⟩

/-! ## Constants -/

theorem rA : Rep2 mapA (Fp6.el Fp.p ia) := Fp6.rep2_check _ _ (by decide +kernel)
theorem rB : Rep2 mapB (Fp6.el Fp.p ib) := Fp6.rep2_check _ _ (by decide +kernel)
theorem rZ : Rep2 mapZ (Fp6.el Fp.p iz) := Fp6.rep2_check _ _ (by decide +kernel)

theorem el_eq_iff {a b : Nat × Nat} : Fp6.el Fp.p a = Fp6.el Fp.p b ↔ a.1 % Fp.p = b.1 % Fp.p ∧ a.2 % Fp.p = b.2 % Fp.p := by
  rw [Fp2.ext_iff2]
  exact and_congr (ZMod.natCast_eq_natCast_iff _ _ _) (ZMod.natCast_eq_natCast_iff _ _ _)

theorem el_zero' : Fp6.el Fp.p (0, 0) = 0 := by
  unfold Fp6.el
  rw [Nat.cast_zero]
  rfl

theorem el_ne_zero {a : Nat × Nat} (h : ¬ (a.1 % Fp.p = 0 ∧ a.2 % Fp.p = 0)) : Fp6.el Fp.p a ≠ 0 := by
  rw [← el_zero', Ne, el_eq_iff]
  exact h

theorem mM : ∃ m, Rep2 mapMbDivA m ∧ m * Fp6.el Fp.p ia = -Fp6.el Fp.p ib ∧ m = Fp6.el Fp.p (0x83c12791abdd5d2fe2f284f0cc6e5aa9b8c2d3f6f3f792302cf75e62bfc4df1d6834443da498888725d8cccccccb1c3, 0x11c4ff711ec210c74cec7f673684c72cc8eb1e458445999c64615cbacab4a8324828bbbad70a777747a173333332f8e8) := by
  refine ⟨Fp6.el Fp.p (0x83c12791abdd5d2fe2f284f0cc6e5aa9b8c2d3f6f3f792302cf75e62bfc4df1d6834443da498888725d8cccccccb1c3, 0x11c4ff711ec210c74cec7f673684c72cc8eb1e458445999c64615cbacab4a8324828bbbad70a777747a173333332f8e8), Fp6.rep2_check _ _ (by decide +kernel), ?_, rfl⟩
  rw [← Nat12.el_mul2 pos]
  apply eq_neg_of_add_eq_zero_left
  rw [← Nat12.el_add2, ← el_zero', el_eq_iff]
  decide +kernel

theorem ia_ne : Fp6.el Fp.p ia ≠ 0 := el_ne_zero (by decide +kernel)

/-- An element whose norm is not a square is not a square. -/
theorem nonsq_norm {a : Nat × Nat} {n : Nat} (hn : (a.1 ^ 2 + a.2 ^ 2) % Fp.p = n % Fp.p) (h : ¬ IsSquare (n : ZMod Fp.p)) :
    ¬ IsSquare (Fp6.el Fp.p a) := by
  rintro ⟨s, hs⟩
  apply h
  rw [← (ZMod.natCast_eq_natCast_iff _ _ _).2 hn, Nat.cast_add, Nat.cast_pow, Nat.cast_pow]
  have h1 : (a.1 : ZMod Fp.p) = (s * s).re := by rw [← hs]; rfl
  have h2 : (a.2 : ZMod Fp.p) = (s * s).im := by rw [← hs]; rfl
  rw [h1, h2]
  refine ⟨s.re ^ 2 + s.im ^ 2, ?_⟩
  rw [QuadraticAlgebra.re_mul, QuadraticAlgebra.im_mul]
  ring

theorem z_ns : ¬ IsSquare (Fp6.el Fp.p iz) := nonsq_norm (n := 5) (by decide +kernel) (fp_not_square (by decide +kernel) (by decide +kernel))

/-! ### Polynomials over pairs -/

/-- Sum. -/
def padd2 : List (Nat × Nat) → List (Nat × Nat) → List (Nat × Nat)
  | [], m => m
  | l, [] => l
  | a :: l, c :: m => Nat12.add2 Fp.p a c :: padd2 l m

/-- Product. -/
def pmul2 : List (Nat × Nat) → List (Nat × Nat) → List (Nat × Nat)
  | [], _ => []
  | a :: l, m => padd2 (m.map (Nat12.mul2 Fp.p a)) ((0, 0) :: pmul2 l m)

theorem ev2_nil (x : K2) : ev2 [] x = 0 := rfl
theorem ev2_cons (a : Nat × Nat) (l : List (Nat × Nat)) (x : K2) : ev2 (a :: l) x = Fp6.el Fp.p a + x * ev2 l x := rfl

theorem ev2_padd (l m : List (Nat × Nat)) (x : K2) : ev2 (padd2 l m) x = ev2 l x + ev2 m x := by
  induction l generalizing m with
  | nil => rw [padd2, ev2_nil, zero_add]
  | cons a l ih =>
    cases m with
    | nil => rw [padd2, ev2_nil, add_zero]; exact fun h => by cases h
    | cons c m => rw [padd2, ev2_cons, ev2_cons, ev2_cons, ih, Nat12.el_add2]; ring

theorem ev2_scale (a : Nat × Nat) (m : List (Nat × Nat)) (x : K2) : ev2 (m.map (Nat12.mul2 Fp.p a)) x = Fp6.el Fp.p a * ev2 m x := by
  induction m with
  | nil => rw [List.map_nil, ev2_nil, mul_zero]
  | cons c m ih => rw [List.map_cons, ev2_cons, ev2_cons, ih, Nat12.el_mul2 pos]; ring

theorem ev2_pmul (l m : List (Nat × Nat)) (x : K2) : ev2 (pmul2 l m) x = ev2 l x * ev2 m x := by
  induction l with
  | nil => rw [pmul2, ev2_nil, zero_mul]
  | cons a l ih => rw [pmul2, ev2_padd, ev2_scale, ev2_cons, ev2_cons, ih, el_zero']; ring

/-- The abscissa of the kernel of the isogeny. -/
def xk : Nat × Nat := (0x1a0111ea397fe69a4b1ba7b6434bacd764774b84f38512bf6730d2a0f6b0f6241eabfffeb153ffffb9feffffffffaaa5, 0x6)

theorem iso_check : pmul2 (pmul2 (pmul2 ny ny) [ib, ia, (0, 0), (1, 0)]) (pmul2 dx (pmul2 dx dx)) =
    pmul2 (padd2 (pmul2 nx (pmul2 nx nx)) (pmul2 [(4, 4)] (pmul2 dx (pmul2 dx dx)))) (pmul2 dy dy) := by decide +kernel

theorem dx_eq : dx = pmul2 [(0x6, 0x1a0111ea397fe69a4b1ba7b6434bacd764774b84f38512bf6730d2a0f6b0f6241eabfffeb153ffffb9feffffffffaaa5), (1, 0)] [(0x6, 0x1a0111ea397fe69a4b1ba7b6434bacd764774b84f38512bf6730d2a0f6b0f6241eabfffeb153ffffb9feffffffffaaa5), (1, 0)] := by decide +kernel
theorem dy_eq : dy = pmul2 [(0x6, 0x1a0111ea397fe69a4b1ba7b6434bacd764774b84f38512bf6730d2a0f6b0f6241eabfffeb153ffffb9feffffffffaaa5), (1, 0)] (pmul2 [(0x6, 0x1a0111ea397fe69a4b1ba7b6434bacd764774b84f38512bf6730d2a0f6b0f6241eabfffeb153ffffb9feffffffffaaa5), (1, 0)] [(0x6, 0x1a0111ea397fe69a4b1ba7b6434bacd764774b84f38512bf6730d2a0f6b0f6241eabfffeb153ffffb9feffffffffaaa5), (1, 0)]) := by decide +kernel

theorem el_one' : Fp6.el Fp.p (1, 0) = 1 := el_one

theorem ev_lin (x : K2) : ev2 [(0x6, 0x1a0111ea397fe69a4b1ba7b6434bacd764774b84f38512bf6730d2a0f6b0f6241eabfffeb153ffffb9feffffffffaaa5), (1, 0)] x = x - Fp6.el Fp.p xk := by
  rw [ev2_cons, ev2_cons, ev2_nil, el_one']
  have : Fp6.el Fp.p (0x6, 0x1a0111ea397fe69a4b1ba7b6434bacd764774b84f38512bf6730d2a0f6b0f6241eabfffeb153ffffb9feffffffffaaa5) = -Fp6.el Fp.p xk := by
    apply eq_neg_of_add_eq_zero_left
    rw [← Nat12.el_add2, ← el_zero', el_eq_iff]
    decide +kernel
  rw [this]
  ring

theorem rhs_el (n : Nat × Nat) : rhs (Fp6.el Fp.p ia) (Fp6.el Fp.p ib) (Fp6.el Fp.p n) = Fp6.el Fp.p
    (Nat12.add2 Fp.p (Nat12.add2 Fp.p (Nat12.mul2 Fp.p (Nat12.mul2 Fp.p n n) n) (Nat12.mul2 Fp.p ia n)) ib) := by
  unfold rhs
  rw [Nat12.el_add2, Nat12.el_add2, Nat12.el_mul2 pos, Nat12.el_mul2 pos, Nat12.el_mul2 pos]
  ring

/-- No point of the isogenous curve is in the kernel. -/
theorem den_ne {x y : K2} (h : y ^ 2 = rhs (Fp6.el Fp.p ia) (Fp6.el Fp.p ib) x) : ev2 dx x ≠ 0 ∧ ev2 dy x ≠ 0 := by
  have hx : x - Fp6.el Fp.p xk ≠ 0 := by
    intro e
    rw [sub_eq_zero] at e
    rw [e, rhs_el] at h
    refine nonsq_norm (n := 0x20) ?_ (fp_not_square (by decide +kernel) (by decide +kernel))
      ⟨y, by rw [← pow_two]; exact h.symm⟩
    decide +kernel
  rw [dx_eq, dy_eq, ev2_pmul, ev2_pmul, ev2_pmul, ev_lin]
  exact ⟨mul_ne_zero hx hx, mul_ne_zero hx (mul_ne_zero hx hx)⟩

theorem image_alg {K : Type} [_root_.Field K] {r b n d m e y : K} (h : m * m * r * (d * (d * d)) = (n * (n * n) + b * (d * (d * d))) * (e * e))
    (hd : d ≠ 0) (he : e ≠ 0) (hy : y ^ 2 = r) : (y * (m / e)) ^ 2 = (n / d) ^ 3 + 0 * (n / d) + b := by
  have h1 : (y * (m / e)) ^ 2 = m * m * r / (e * e) := by rw [← hy]; field_simp
  have h2 : (n / d) ^ 3 + 0 * (n / d) + b = (n * (n * n) + b * (d * (d * d))) / (d * (d * d)) := by field_simp; ring
  rw [h1, h2, div_eq_div_iff (mul_ne_zero he he) (mul_ne_zero hd (mul_ne_zero hd hd))]
  exact h

theorem image_eqn {x y : K2} (hy : y ^ 2 = rhs (Fp6.el Fp.p ia) (Fp6.el Fp.p ib) x) :
    (y * (ev2 ny x / ev2 dy x)) ^ 2 = (ev2 nx x / ev2 dx x) ^ 3 + 0 * (ev2 nx x / ev2 dx x) + bb := by
  obtain ⟨h1, h2⟩ := den_ne hy
  have h := congrArg (fun l => ev2 l x) iso_check
  simp only [ev2_pmul, ev2_padd] at h
  have hc : ev2 [ib, ia, (0, 0), (1, 0)] x = rhs (Fp6.el Fp.p ia) (Fp6.el Fp.p ib) x := by
    rw [ev2_cons, ev2_cons, ev2_cons, ev2_cons, ev2_nil, el_zero', el_one']
    unfold rhs
    ring
  have hb : ev2 [(4, 4)] x = bb := by rw [ev2_cons, ev2_nil, mul_zero, add_zero]
  rw [hc, hb] at h
  exact image_alg h h1 h2 hy

/-- The kernel's check of a table. -/
def tabOk : List E2 → List (Nat × Nat) → Bool
  | [], [] => true
  | a :: l, n :: m => (a.A.val == n.1 * 2 ^ 384 % Fp.p && a.B.val == n.2 * 2 ^ 384 % Fp.p) && tabOk l m
  | _, _ => false

theorem tabOk_spec : ∀ {l : List E2} {m : List (Nat × Nat)}, tabOk l m = true → List.Forall₂ Rep2 l (toK m)
  | [], [], _ => .nil
  | [], _ :: _, h => by cases h
  | _ :: _, [], h => by cases h
  | a :: l, n :: m, h => by
    unfold tabOk at h
    rw [Bool.and_eq_true, Bool.and_eq_true, beq_iff_eq, beq_iff_eq] at h
    exact .cons (Fp6.rep2_check a n h.1) (tabOk_spec h.2)

theorem t1 : List.Forall₂ Rep2 isoTab.xNum (toK nx) := tabOk_spec (by decide +kernel)
theorem t2 : List.Forall₂ Rep2 isoTab.xDen (toK dx) := tabOk_spec (by decide +kernel)
theorem t3 : List.Forall₂ Rep2 isoTab.yNum (toK ny) := tabOk_spec (by decide +kernel)
theorem t4 : List.Forall₂ Rep2 isoTab.yDen (toK dy) := tabOk_spec (by decide +kernel)

/-! ## The simplified SWU map -/

theorem sgn2_bit (x : K2) : sgn2 x % 2 = sgn2 x := by unfold sgn2; split <;> omega

theorem sgn2_neg (y : K2) (hy : y ≠ 0) : sgn2 (-y) ≠ sgn2 y := by
  unfold sgn2
  rw [QuadraticAlgebra.re_neg, QuadraticAlgebra.im_neg]
  by_cases h : y.re = 0
  · rw [if_pos (neg_eq_zero.2 h), if_pos h]
    refine neg_parity G1.odd fun hi => hy ?_
    rw [Fp2.ext_iff2]
    exact ⟨h, hi⟩
  · rw [if_neg (fun e => h (neg_eq_zero.1 e)), if_neg h]
    exact neg_parity G1.odd h

theorem sgn0_xor {a c : E2} {x y : K2} (ha : Rep2 a x) (hc : Rep2 c y) :
    Fp2.sgn0 a ^^^ Fp2.sgn0 c = if sgn2 x = sgn2 y then 0 else 1 := by
  rw [Fp2.sgn0_spec ha, Fp2.sgn0_spec hc]
  change UInt64.ofNat (sgn2 x) ^^^ UInt64.ofNat (sgn2 y) = _
  rw [← sgn2_bit x, ← sgn2_bit y, G1.xor_bits]

theorem minus_one_sq : IsSquare (-1 : K2) := by
  refine ⟨⟨0, 1⟩, ?_⟩
  rw [Fp2.ext_iff2, QuadraticAlgebra.re_mul, QuadraticAlgebra.im_mul, QuadraticAlgebra.re_neg, QuadraticAlgebra.im_neg,
    QuadraticAlgebra.re_one, QuadraticAlgebra.im_one]
  constructor <;> ring

theorem cneg_root {u y0 : E2} {w y : K2} (hu : Rep2 u w) (hy : Rep2 y0 y) :
    ∃ y', Rep2 (Fp2.cneg y0 y0 (Fp2.sgn0 u ^^^ Fp2.sgn0 y0)) y' ∧ y' ^ 2 = y ^ 2 ∧ (y' = 0 ∨ sgn2 y' = sgn2 w) := by
  rw [sgn0_xor hu hy]
  unfold Fp2.cneg
  by_cases h : sgn2 w = sgn2 y
  · rw [if_pos h, Fp2.cmove_zero]
    exact ⟨y, hy, rfl, Or.inr h.symm⟩
  · rw [if_neg h, Fp2.cmove_one]
    refine ⟨-y, Fp2.neg_spec hy, neg_sq y, ?_⟩
    by_cases h0 : y = 0
    · exact Or.inl (by rw [h0, neg_zero])
    · refine Or.inr ?_
      have h1 := sgn2_neg y h0
      have b1 := sgn2_bit y
      have b2 := sgn2_bit (-y)
      have b3 := sgn2_bit w
      omega

theorem sswu_gen {a b z m : K2} (rA : Rep2 mapA a) (rB : Rep2 mapB b) (rZ : Rep2 mapZ z) (rM : Rep2 mapMbDivA m)
    (hm : m * a = -b) (hz : ¬ IsSquare z) (ha : a ≠ 0) {u : E2} {w : K2} (hu : Rep2 u w) (hw : w ≠ 0) :
    ∃ x y, Rep2 (sswu u).x x ∧ Rep2 (sswu u).y y ∧ Rep2 (sswu u).z 1 ∧ IsSwu a b z sgn2 w x y := by
  unfold sswu
  have ht := Fp2.mul_spec (Fp2.square_spec hu) rZ
  have htn : ¬ IsSquare (z * w ^ 2) := nonsq_mul hz hw
  have et : w * w * z = z * w ^ 2 := by ring
  rw [et] at ht
  have htn' := htn
  dsimp only at ht ⊢
  generalize Fp2.mul (Fp2.square u) mapZ = tv1 at ht ⊢
  have ht2 := Fp2.square_spec ht
  have hs := Fp2.add_spec ht ht2
  generalize hT : z * w ^ 2 = t at *
  have hs0 : t + t * t ≠ 0 := by
    intro e
    have e' : t * (t + 1) = 0 := by linear_combination e
    rcases mul_eq_zero.1 e' with h | h
    · exact htn ⟨0, by rw [h, mul_zero]⟩
    · have : t = -1 := eq_neg_of_add_eq_zero_left h
      rw [this] at htn
      exact htn minus_one_sq
  have hs1 : (t + t * t)⁻¹ + 1 ≠ 0 := by
    intro e
    have e' : 1 + (t + t * t) = 0 := by
      have := congrArg (· * (t + t * t)) e
      beta_reduce at this
      rw [add_mul, inv_mul_cancel₀ hs0, one_mul, zero_mul] at this
      exact this
    exact htn ⟨t * t, by linear_combination (t - t ^ 2) * e'⟩
  have hi := ((Fp2.invert_spec (Fp2.add tv1 (Fp2.square tv1)) hs).1 hs0).1
  generalize (Fp2.invert (Fp2.add tv1 (Fp2.square tv1)) (Fp2.add tv1 (Fp2.square tv1))).1 = iv at hi ⊢
  have hv := Fp2.add_spec hi Fp2.one_spec
  rw [Fp2.isZero_spec hv, if_neg hs1, Fp2.cmove_zero]
  have hx1 := Fp2.mul_spec hv rM
  have hc : cand1 a b z w = ((t + t * t)⁻¹ + 1) * m := by
    have e2 : t ^ 2 + t ≠ 0 := by
      intro e
      exact hs0 (by linear_combination e)
    have em : m = -b / a := by rw [eq_div_iff ha, hm]
    unfold cand1
    dsimp only
    rw [hT, if_neg e2, em, one_div, show t ^ 2 + t = t + t * t by ring]
    ring
  have hc2 : rhs a b (t * cand1 a b z w) = t ^ 3 * rhs a b (cand1 a b z w) := by
    have e2 : t ^ 2 + t ≠ 0 := by
      intro e
      exact hs0 (by linear_combination e)
    have := rhs_cand2 (b := b) ha e2
    unfold cand1
    dsimp only
    rw [hT, if_neg e2]
    exact this
  rw [← hc] at hx1
  generalize Fp2.mul (Fp2.add iv Fp2.one) mapMbDivA = x1 at hx1 ⊢
  have hg := Fp2.add_spec (Fp2.mul_spec (Fp2.add_spec (Fp2.square_spec hx1) rA) hx1) rB
  have eg : (cand1 a b z w * cand1 a b z w + a) * cand1 a b z w + b = rhs a b (cand1 a b z w) := by unfold rhs; ring
  rw [eg] at hg
  generalize Fp2.add (Fp2.mul (Fp2.add (Fp2.square x1) mapA) x1) mapB = gx1 at hg ⊢
  have hx2 := Fp2.mul_spec ht hx1
  have hg2 := Fp2.mul_spec hg (Fp2.mul_spec ht2 ht)
  have eg2 : rhs a b (cand1 a b z w) * (t * t * t) = rhs a b (t * cand1 a b z w) := by rw [hc2]; ring
  rw [eg2] at hg2
  have hq := Fp2.sqrt_spec Fp2.zero hg
  by_cases hsq : IsSquare (rhs a b (cand1 a b z w))
  · obtain ⟨y, hy, hr, he⟩ := hq.1 hsq
    rw [he, Fp2.cmove_one, Fp2.cmove_one]
    generalize (Fp2.sqrt Fp2.zero gx1).1 = y0 at hr ⊢
    obtain ⟨y', h1, h2, h3⟩ := cneg_root hu hr
    exact ⟨_, y', hx1, h1, Fp2.one_spec, Or.inl ⟨hsq, rfl⟩, by rw [h2, pow_two, hy], h3⟩
  · rw [hq.2 hsq]
    dsimp only
    rw [Fp2.cmove_zero, Fp2.cmove_zero]
    have hsq2 : IsSquare (rhs a b (t * cand1 a b z w)) := by
      rw [hc2]
      obtain ⟨s, e⟩ := nonsq_nonsq two2 htn hsq
      exact ⟨t * s, by linear_combination t ^ 2 * e⟩
    obtain ⟨y, hy, hr, -⟩ := (Fp2.sqrt_spec Fp2.zero hg2).1 hsq2
    generalize (Fp2.sqrt Fp2.zero (Fp2.mul gx1 (Fp2.mul (Fp2.square tv1) tv1))).1 = y0 at hr ⊢
    obtain ⟨y', h1, h2, h3⟩ := cneg_root hu hr
    refine ⟨_, y', hx2, h1, Fp2.one_spec, Or.inr ⟨hsq, by rw [hT]⟩, by rw [h2, pow_two, hy], h3⟩

theorem sswu_spec {u : E2} {w : K2} (hu : Rep2 u w) (hw : w ≠ 0) :
    ∃ x y, Rep2 (sswu u).x x ∧ Rep2 (sswu u).y y ∧ Rep2 (sswu u).z 1 ∧ Swu w x y := by
  obtain ⟨m, rM, hm, -⟩ := mM
  exact sswu_gen rA rB rZ rM hm z_ns ia_ne hu hw

theorem sswu_zero_gen {a b z m : K2} (rA : Rep2 mapA a) (rB : Rep2 mapB b) (rZ : Rep2 mapZ z) (rM : Rep2 mapMbDivA m)
    (hn : ¬ IsSquare (rhs a b m)) {u : E2} (hu : Rep2 u 0) :
    Rep2 (sswu u).x 0 ∧ Rep2 (sswu u).y 0 ∧ Rep2 (sswu u).z 1 := by
  unfold sswu
  have ht := Fp2.mul_spec (Fp2.square_spec hu) rZ
  rw [zero_mul, zero_mul] at ht
  dsimp only at ht ⊢
  generalize Fp2.mul (Fp2.square u) mapZ = tv1 at ht ⊢
  have ht2 := Fp2.square_spec ht
  have hs := Fp2.add_spec ht ht2
  rw [mul_zero] at ht2
  rw [mul_zero, add_zero] at hs
  rw [(Fp2.invert_spec (Fp2.add tv1 (Fp2.square tv1)) hs).2 rfl]
  dsimp only
  have hv := Fp2.add_spec hs Fp2.one_spec
  rw [zero_add] at hv
  rw [Fp2.isZero_spec hv, if_neg one_ne_zero, Fp2.cmove_zero]
  have hx1 := Fp2.mul_spec hv rM
  rw [one_mul] at hx1
  generalize Fp2.mul (Fp2.add (Fp2.add tv1 (Fp2.square tv1)) Fp2.one) mapMbDivA = x1 at hx1 ⊢
  have hg := Fp2.add_spec (Fp2.mul_spec (Fp2.add_spec (Fp2.square_spec hx1) rA) hx1) rB
  have eg : (m * m + a) * m + b = rhs a b m := by unfold rhs; ring
  rw [eg] at hg
  generalize Fp2.add (Fp2.mul (Fp2.add (Fp2.square x1) mapA) x1) mapB = gx1 at hg ⊢
  have hx2 := Fp2.mul_spec ht hx1
  have hg2 := Fp2.mul_spec hg (Fp2.mul_spec ht2 ht)
  rw [zero_mul] at hx2
  rw [mul_zero, mul_zero] at hg2
  rw [(Fp2.sqrt_spec Fp2.zero hg).2 hn]
  dsimp only
  rw [Fp2.cmove_zero, Fp2.cmove_zero]
  obtain ⟨y, hy, hr, -⟩ := (Fp2.sqrt_spec Fp2.zero hg2).1 ⟨0, (mul_zero 0).symm⟩
  generalize (Fp2.sqrt Fp2.zero (Fp2.mul gx1 (Fp2.mul (Fp2.square tv1) tv1))).1 = y0 at hr ⊢
  obtain ⟨y', h1, h2, -⟩ := cneg_root hu hr
  have e0 : y' = 0 := by
    rw [pow_two y, hy] at h2
    exact (pow_eq_zero_iff (by decide)).1 h2
  rw [e0] at h1
  exact ⟨hx2, h1, Fp2.one_spec⟩

theorem sswu_zero {u : E2} (hu : Rep2 u 0) : Rep2 (sswu u).x 0 ∧ Rep2 (sswu u).y 0 ∧ Rep2 (sswu u).z 1 := by
  obtain ⟨m, rM, -, em⟩ := mM
  refine sswu_zero_gen rA rB rZ rM ?_ hu
  rw [em, rhs_el]
  exact nonsq_norm rfl (fp_not_square (by decide +kernel) (by decide +kernel))

theorem inv_ok {a : E2} {x : K2} (h : Rep2 a x) : Rep2 (F.invert a).1 x⁻¹ := by
  by_cases h0 : x = 0
  · have := (Fp2.invert_spec Fp2.zero h).2 h0
    change Rep2 (Fp2.invert Fp2.zero a).1 _
    rw [this, h0, inv_zero]
    exact Fp2.zero_spec
  · exact ((Fp2.invert_spec Fp2.zero h).1 h0).1

/-- The map of one field element other than zero. -/
theorem map_spec {u : E2} {w : K2} (hu : Rep2 u w) (hw : w ≠ 0) : ∃ P, Rep (isogenyMap F isoTab (sswu u)) P ∧ IsMap w P := by
  obtain ⟨x, y, hx, hy, -, hs⟩ := sswu_spec hu hw
  obtain ⟨h1, h2, h3⟩ := isogenyMap_spec FOk inv_ok t1 t2 t3 t4 hx hy
  obtain ⟨d1, d2⟩ := den_ne hs.2.1
  have hn := nonsing FOk.two noTwo (image_eqn hs.2.1)
  exact ⟨.some _ _ hn, ⟨_, _, 1, h1, h2, h3, Or.inr ⟨one_ne_zero, _, _, hn, rfl, (mul_one _).symm, (mul_one _).symm⟩,
    fun h => absurd h one_ne_zero⟩, x, y, hs, d1, d2, hn, rfl⟩

/-- The coordinates the code computes for zero. -/
theorem map_zero {u : E2} (hu : Rep2 u 0) : Rep2 (isogenyMap F isoTab (sswu u)).x (ev2 nx 0 / ev2 dx 0) ∧
    Rep2 (isogenyMap F isoTab (sswu u)).y 0 ∧ Rep2 (isogenyMap F isoTab (sswu u)).z 1 := by
  obtain ⟨hx, hy, -⟩ := sswu_zero hu
  obtain ⟨h1, h2, h3⟩ := isogenyMap_spec FOk inv_ok t1 t2 t3 t4 hx hy
  rw [zero_mul] at h2
  exact ⟨h1, h2, h3⟩

theorem swu_fun {w x y x' y' : K2} (h : Swu w x y) (h' : Swu w x' y') : x = x' ∧ y = y' := swu_unique' sgn2_neg h h'

theorem rep_val2 (w : K2) : ∃ u, Rep2 u w := by
  obtain ⟨a, ha⟩ := G1.rep_val w.re
  obtain ⟨c, hc⟩ := G1.rep_val w.im
  exact ⟨⟨a, c⟩, ha, hc⟩

end Verif.Bls381.G2
