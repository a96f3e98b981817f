import Verif.Bls381.Wire
import Verif.Bls381.Twist
import Verif.Bls381.Fp6

/-!
# G2 (crypto/core/curves/native/bls12381/g2.go): the group law and the cofactor
-/

set_option maxRecDepth 20000
set_option exponentiation.threshold 1000
set_option linter.unusedSectionVars false

namespace Verif.Bls381.G2
open Verif.Bytes Verif.Native Verif.Native.Weier P3 Fp2

/-- `g2x` (crypto/core/curves/native/bls12381/g2.go:15-32). -/
def g2x : E2 :=
  ⟨⟨0xf5f28fa202940a10, 0xb3f5fb2687b4961a, 0xa1a893b53e2ae580, 0x9894999d1a3caee9, 0x6f67b7631863366b, 0x058191924350bcd7⟩,
   ⟨0xa5a9c0759e23f606, 0xaaa0c59dbccd60c3, 0x3bb17e18e2867806, 0x1b1ab6cc8541b367, 0xc2b6ed0ef2158547, 0x11922a097360edf3⟩⟩

/-- `g2y` (crypto/core/curves/native/bls12381/g2.go:33-50). -/
def g2y : E2 :=
  ⟨⟨0x4c730af860494c4a, 0x597cfa1f5e369c5a, 0xe7e6856caa0a635a, 0xbbefb5e96e0d495f, 0x07d3a975f0ef25a2, 0x0083fd8e7e80dae5⟩,
   ⟨0xadc0fc92df64b05d, 0x18aa270a2b1461dc, 0x86adac6a3be4eba0, 0x79495c4ec93da33a, 0xe7175850a43ccaed, 0x0b2bc2a163de1bf2⟩⟩

/-- `curveG2B` (crypto/core/curves/native/bls12381/g2.go:51-68). -/
def curveG2B : E2 :=
  ⟨⟨0xaa270000000cfff3, 0x53cc0032fc34000a, 0x478fe97a6b0a807f, 0xb1d37ebee6ba24d7, 0x8ec9733bbf78ab2f, 0x09d645513d83de7e⟩,
   ⟨0xaa270000000cfff3, 0x53cc0032fc34000a, 0x478fe97a6b0a807f, 0xb1d37ebee6ba24d7, 0x8ec9733bbf78ab2f, 0x09d645513d83de7e⟩⟩

/-- `psiCoeffX` (crypto/core/curves/native/bls12381/g2.go:451-461). -/
def psiCoeffX : E2 :=
  ⟨⟨0x0000000000000000, 0x0000000000000000, 0x0000000000000000, 0x0000000000000000, 0x0000000000000000, 0x0000000000000000⟩,
   ⟨0x890dc9e4867545c3, 0x2af322533285a5d5, 0x50880866309b7e2c, 0xa20d1b8c7e881024, 0x14e4f04fe2db9068, 0x14e56d3f1564853a⟩⟩

/-- `psiCoeffY` (crypto/core/curves/native/bls12381/g2.go:463-480). -/
def psiCoeffY : E2 :=
  ⟨⟨0x3e2f585da55c9ad1, 0x4294213d86c18183, 0x382844c88b623732, 0x92ad2afd19103e18, 0x1d794e4fac7cf0b9, 0x0bd592fc7d825ec8⟩,
   ⟨0x7bcfa7a25aa30fda, 0xdc17dec12a927e7c, 0x2f088dd86b4ebef1, 0xd1ca2087da74d4a7, 0x2da2596696cebc1d, 0x0e2b7eedbbfd87d2⟩⟩

/-- `psi2CoeffX` (crypto/core/curves/native/bls12381/g2.go:483-493). -/
def psi2CoeffX : E2 :=
  ⟨⟨0xcd03c9e48671f071, 0x5dab22461fcda5d2, 0x587042afd3851b95, 0x8eb60ebe01bacb9e, 0x03f97d6e83d050d2, 0x18f0206554638741⟩,
   ⟨0x0000000000000000, 0x0000000000000000, 0x0000000000000000, 0x0000000000000000, 0x0000000000000000, 0x0000000000000000⟩⟩

/-- The operations of the quadratic field the point functions call. -/
def F : FOps E2 where
  zero := Fp2.zero
  one := Fp2.one
  add := Fp2.add
  sub := Fp2.sub
  mul := Fp2.mul
  square := Fp2.square
  double := Fp2.double
  neg := Fp2.neg
  mulBy3b := Fp2.mulBy3b
  isZero := Fp2.isZero
  equal := Fp2.equal
  cmove := Fp2.cmove
  invert := Fp2.invert Fp2.zero
  sqrt := fun a => Fp2.sqrt a a
  lexLargest := Fp2.lexLargest
  b := curveG2B

/-- The Frobenius map and the constants of `psi` and `psi2`, besides the field operations. -/
structure TOps (E : Type) where
  fo : FOps E
  frob : E → E
  cx : E
  cy : E
  c2 : E

section
variable {E : Type} (T : TOps E)

/-- `psi` (crypto/core/curves/native/bls12381/g2.go:1027-1039). -/
def psi (a : P3 E) : P3 E :=
  let x := T.frob a.x
  let y := T.frob a.y
  let z := T.frob a.z
  ⟨T.fo.mul x T.cx, T.fo.mul y T.cy, z⟩

/-- `psi2` (crypto/core/curves/native/bls12381/g2.go:1041-1048). -/
def psi2 (a : P3 E) : P3 E := ⟨T.fo.mul a.x T.c2, T.fo.neg a.y, a.z⟩

/-- `ClearCofactor` (crypto/core/curves/native/bls12381/g2.go:721-738). -/
def clearWith (a : P3 E) : P3 E :=
  let t1 := mulByX T.fo a
  let t2 := psi T a
  let pt := P3.double T.fo a
  let pt := psi2 T pt
  let t3 := P3.add T.fo t1 t2
  let t3 := mulByX T.fo t3
  let pt := P3.add T.fo pt t3
  let pt := P3.sub T.fo pt t1
  let pt := P3.sub T.fo pt t2
  P3.sub T.fo pt a

end

/-- The constants of G2. -/
def TF : TOps E2 := ⟨F, frobeniusMap, psiCoeffX, psiCoeffY, psi2CoeffX⟩

/-- `ClearCofactor` (crypto/core/curves/native/bls12381/g2.go:721-738). -/
def clearCofactor (a : P3 E2) : P3 E2 := clearWith TF a

/-- A point of G2 as stored. -/
abbrev Point := P3 E2

/-- The coefficient `4 (1 + u)`. -/
abbrev bb : K2 := Fp6.el Fp.p (4, 4)

/-- The curve `y² = x³ + 4 (1 + u)` over the field of `p²` elements. -/
abbrev PP := Pt (0 : K2) bb

/-- The stored coordinates represent the point. -/
abbrev Rep (e : Point) (P : PP) : Prop := HRep Rep2 bb e P

theorem two2 : (2 : K2) ≠ 0 := by
  intro h
  have h2 : (2 : ZMod Fp.p) ≠ 0 := two_ne (by decide +kernel)
  apply h2
  have h' : (1 : K2) + 1 = 0 := by rw [one_add_one_eq_two]; exact h
  have := congrArg QuadraticAlgebra.re h'
  rw [QuadraticAlgebra.re_add, QuadraticAlgebra.re_one, QuadraticAlgebra.re_zero, one_add_one_eq_two] at this
  exact this

theorem g2x_rep : Rep2 g2x (Fp6.el Fp.p (0x24aa2b2f08f0a91260805272dc51051c6e47ad4fa403b02b4510b647ae3d1770bac0326a805bbefd48056c8c121bdb8,
    0x13e02b6052719f607dacd3a088274f65596bd0d09920b61ab5da61bbdc7f5049334cf11213945d57e5ac7d055d042b7e)) := Fp6.rep2_check _ _ (by decide +kernel)

theorem g2y_rep : Rep2 g2y (Fp6.el Fp.p (0xce5d527727d6e118cc9cdc6da2e351aadfd9baa8cbdd3a76d429a695160d12c923ac9cc3baca289e193548608b82801,
    0x606c4a02ea734cc32acd2b02bc28b99cb3e287e85a763af267492ab572e99ab3f370d275cec1da1aaa9075ff05f79be)) := Fp6.rep2_check _ _ (by decide +kernel)

theorem curveG2B_rep : Rep2 curveG2B (Fp6.el Fp.p (0x4,
    0x4)) := Fp6.rep2_check _ _ (by decide +kernel)

theorem psiCoeffX_rep : Rep2 psiCoeffX (Fp6.el Fp.p (0x0,
    0x1a0111ea397fe699ec02408663d4de85aa0d857d89759ad4897d29650fb85f9b409427eb4f49fffd8bfd00000000aaad)) := Fp6.rep2_check _ _ (by decide +kernel)

theorem psiCoeffY_rep : Rep2 psiCoeffY (Fp6.el Fp.p (0x135203e60180a68ee2e9c448d77a2cd91c3dedd930b1cf60ef396489f61eb45e304466cf3e67fa0af1ee7b04121bdea2,
    0x6af0e0437ff400b6831e36d6bd17ffe48395dabc2d3435e77f76e17009241c5ee67992f72ec05f4c81084fbede3cc09)) := Fp6.rep2_check _ _ (by decide +kernel)

theorem psi2CoeffX_rep : Rep2 psi2CoeffX (Fp6.el Fp.p (0x1a0111ea397fe699ec02408663d4de85aa0d857d89759ad4897d29650fb85f9b409427eb4f49fffd8bfd00000000aaac,
    0x0)) := Fp6.rep2_check _ _ (by decide +kernel)

/-- The constants as elements of the field. -/
abbrev kx : K2 := Fp6.el Fp.p (0x0, 0x1a0111ea397fe699ec02408663d4de85aa0d857d89759ad4897d29650fb85f9b409427eb4f49fffd8bfd00000000aaad)
abbrev ky : K2 := Fp6.el Fp.p (0x135203e60180a68ee2e9c448d77a2cd91c3dedd930b1cf60ef396489f61eb45e304466cf3e67fa0af1ee7b04121bdea2,
  0x6af0e0437ff400b6831e36d6bd17ffe48395dabc2d3435e77f76e17009241c5ee67992f72ec05f4c81084fbede3cc09)
abbrev k2 : K2 := Fp6.el Fp.p (0x1a0111ea397fe699ec02408663d4de85aa0d857d89759ad4897d29650fb85f9b409427eb4f49fffd8bfd00000000aaac, 0x0)

theorem el_mul (a b : Nat × Nat) : Fp6.el Fp.p a * Fp6.el Fp.p b =
    Fp6.el Fp.p ((a.1 * b.1 + (Fp.p - 1) * (a.2 * b.2)) % Fp.p, (a.1 * b.2 + a.2 * b.1) % Fp.p) :=
  (Fp6.el_mul Fp.p (by decide +kernel) a b).symm

theorem el_neg_one : Fp6.el Fp.p (Fp.p - 1, 0) = -1 := by
  have h : ((Fp.p - 1 : Nat) : ZMod Fp.p) = -1 := by
    rw [Nat.cast_sub (by decide +kernel), ZMod.natCast_self, zero_sub, Nat.cast_one]
  have h1 : ((-1 : K2)).re = -1 := by rw [QuadraticAlgebra.re_neg, QuadraticAlgebra.re_one]
  have h2 : ((-1 : K2)).im = 0 := by rw [QuadraticAlgebra.im_neg, QuadraticAlgebra.im_one, neg_zero]
  unfold Fp6.el
  dsimp only
  rw [h, Nat.cast_zero]
  ext
  · rw [h1]
  · rw [h2]

theorem el_one : Fp6.el Fp.p (1, 0) = 1 := by
  unfold Fp6.el
  rw [Nat.cast_one, Nat.cast_zero]
  rfl

theorem pow_card {x : K2} (hx : x ≠ 0) : x ^ (Fp.p * Fp.p - 1) = 1 := by
  have h := Quad.frob2 p_mod4 x
  have e : Fp.p * Fp.p = Fp.p * Fp.p - 1 + 1 := by decide +kernel
  rw [e, pow_succ] at h
  exact mul_right_cancel₀ hx (by rw [one_mul]; exact h)

/-- `-b` is not a cube. -/
theorem noTwo : NoTwo (0 : K2) bb := by
  intro x hx
  have hx3 : x ^ 3 = Fp6.el Fp.p (Fp.p - 4, Fp.p - 4) := by
    have e : bb + Fp6.el Fp.p (Fp.p - 4, Fp.p - 4) = 0 := by
      have h : ((Fp.p - 4 : Nat) : ZMod Fp.p) = -((4 : Nat) : ZMod Fp.p) := by
        rw [Nat.cast_sub (by decide +kernel), ZMod.natCast_self, zero_sub]
      unfold bb Fp6.el
      dsimp only
      rw [h]
      ext
      · simp
      · simp
    linear_combination hx - e
  have h1 : Fp6.el Fp.p (Fp.p - 4, Fp.p - 4) ^ ((Fp.p * Fp.p - 1) / 3) = 1 := by
    have hx0 : x ≠ 0 := by
      rintro rfl
      have : (Fp6.el Fp.p (Fp.p - 4, Fp.p - 4)).re = 0 := by rw [← hx3]; simp
      unfold Fp6.el at this
      dsimp only at this
      rw [ZMod.natCast_eq_zero_iff] at this
      exact absurd this (by decide +kernel)
    rw [← hx3, ← pow_mul, show 3 * ((Fp.p * Fp.p - 1) / 3) = Fp.p * Fp.p - 1 by decide +kernel, pow_card hx0]
  have h2 := Fp6.pw2_spec Fp.p (by decide +kernel) 800 (Fp.p - 4, Fp.p - 4) ((Fp.p * Fp.p - 1) / 3) (1, 0) (by decide +kernel)
  rw [h1, el_one, one_mul] at h2
  have h3 := congrArg QuadraticAlgebra.re h2
  have h4 : (Fp6.pw2 Fp.p 800 (Fp.p - 4, Fp.p - 4) ((Fp.p * Fp.p - 1) / 3) (1, 0)).1 % Fp.p ≠ 1 % Fp.p := by decide +kernel
  have h5 : (((Fp6.pw2 Fp.p 800 (Fp.p - 4, Fp.p - 4) ((Fp.p * Fp.p - 1) / 3) (1, 0)).1 : Nat) : ZMod Fp.p) = ((1 : Nat) : ZMod Fp.p) := by
    rw [Nat.cast_one]
    exact h3
  rw [ZMod.natCast_eq_natCast_iff] at h5
  exact h4 h5

theorem three_b (x : K2) : x * b3 = 3 * bb * x := by
  have : b3 = 3 * bb := by
    have e : (3 : K2) * bb = bb + bb + bb := by ring
    rw [e]
    unfold b3 bb Fp6.el
    dsimp only
    ext
    · rw [QuadraticAlgebra.re_add, QuadraticAlgebra.re_add]; push_cast; norm_num
    · rw [QuadraticAlgebra.im_add, QuadraticAlgebra.im_add]; push_cast; norm_num
  rw [this, mul_comm]

theorem FOk : FOK F Rep2 bb where
  unique := rep2_unique
  value := rep2_value
  zero := Fp2.zero_spec
  one := Fp2.one_spec
  coeff := curveG2B_rep
  add := Fp2.add_spec
  sub := Fp2.sub_spec
  mul := Fp2.mul_spec
  square := Fp2.square_spec
  double := Fp2.double_spec
  neg := Fp2.neg_spec
  mulBy3b := fun {a x} h => by
    have := Fp2.mulBy3b_spec h
    rw [three_b] at this
    exact this
  isZero := Fp2.isZero_spec
  equal := Fp2.equal_spec
  cmove0 := Fp2.cmove_zero
  cmove1 := Fp2.cmove_one
  invert := fun {a x} h => by
    have := Fp2.invert_spec Fp2.zero h
    exact ⟨fun hx => ⟨_, mul_inv_cancel₀ hx, (this.1 hx).1, (this.1 hx).2⟩, fun hx => congrArg Prod.snd (this.2 hx)⟩
  two := two2
  noTwo := noTwo

/-! ## The endomorphism -/

/-- The Frobenius map. -/
def frobHom : K2 →+* K2 := frobenius K2 Fp.p

theorem psi_ok : Twist.Ok frobHom kx ky bb := by
  refine ⟨two2, noTwo, ?_, ?_, ?_⟩
  · intro h
    have := congrArg QuadraticAlgebra.re h
    unfold ky Fp6.el at this
    dsimp only at this
    rw [QuadraticAlgebra.re_zero, ZMod.natCast_eq_zero_iff] at this
    exact absurd this (by decide +kernel)
  · have e1 : ky ^ 2 = ky * ky := pow_two _
    have e2 : kx ^ 3 = kx * kx * kx := by ring
    rw [e1, e2, el_mul, el_mul, el_mul]
    exact congrArg _ (by decide +kernel)
  · have e0 : frobHom bb = Fp6.el Fp.p (4, Fp.p - 4) := by
      change bb ^ Fp.p = _
      rw [Quad.frob p_mod4]
      have h : ((Fp.p - 4 : Nat) : ZMod Fp.p) = -((4 : Nat) : ZMod Fp.p) := by
        rw [Nat.cast_sub (by decide +kernel), ZMod.natCast_self, zero_sub]
      unfold bb Fp6.el
      dsimp only
      rw [h]
    have e2 : kx ^ 3 = kx * kx * kx := by ring
    rw [e0, e2, el_mul, el_mul, el_mul]
    exact congrArg _ (by decide +kernel)

theorem psi2_ok : Twist.Ok (RingHom.id K2) k2 (-1) bb := by
  have h : k2 ^ 3 = 1 := by
    have e2 : k2 ^ 3 = k2 * k2 * k2 := by ring
    rw [e2, el_mul, el_mul, ← el_one]
    exact congrArg _ (by decide +kernel)
  refine ⟨two2, noTwo, neg_ne_zero.2 one_ne_zero, ?_, ?_⟩
  · rw [h]; ring
  · rw [h, mul_one, RingHom.id_apply]

/-- The endomorphism `ψ`. -/
def psiHom : PP →+ PP := Twist.hom psi_ok

/-- The endomorphism `ψ²`. -/
def psi2Hom : PP →+ PP := Twist.hom psi2_ok

/-- Multiplication by the (negative) parameter of the curve. -/
def xHom : PP →+ PP := -(nsmulAddMonoidHom (α := PP) 0xd201000000010000)

/-- What `ClearCofactor` computes: `x² - x - 1 + (x - 1) ψ + 2 ψ²`. -/
def clearHom : PP →+ PP := psi2Hom + psi2Hom + xHom.comp (xHom + psiHom) - xHom - psiHom - AddMonoidHom.id PP

/-- What the constants and the Frobenius map have to satisfy. -/
structure TOK {E : Type} (T : TOps E) (R : E → K2 → Prop) : Prop where
  fo : FOK T.fo R bb
  frob : ∀ {a : E} {x : K2}, R a x → R (T.frob a) (x ^ Fp.p)
  cx : R T.cx kx
  cy : R T.cy ky
  c2 : R T.c2 k2

theorem TOk : TOK TF Rep2 := ⟨FOk, Fp2.frobenius_spec, psiCoeffX_rep, psiCoeffY_rep, psi2CoeffX_rep⟩

section
variable {E : Type} {T : TOps E} {R : E → K2 → Prop} (k : TOK T R)
include k

theorem psi_spec {e : P3 E} {P : PP} (he : HRep R bb e P) : HRep R bb (psi T e) (psiHom P) := by
  obtain ⟨X, Y, Z, hX, hY, hZ, hH⟩ := he
  have h := Twist.fn_H psi_ok hH
  refine ⟨_, _, _, k.fo.mul (k.frob hX) k.cx, k.fo.mul (k.frob hY) k.cy, k.frob hZ, ?_⟩
  rw [mul_comm, mul_comm (Y ^ Fp.p)]
  exact h

theorem psi2_spec {e : P3 E} {P : PP} (he : HRep R bb e P) : HRep R bb (psi2 T e) (psi2Hom P) := by
  obtain ⟨X, Y, Z, hX, hY, hZ, hH⟩ := he
  have h := Twist.fn_H psi2_ok hH
  refine ⟨_, _, _, k.fo.mul hX k.c2, k.fo.neg hY, hZ, ?_⟩
  rw [RingHom.id_apply, RingHom.id_apply, RingHom.id_apply, neg_one_mul, mul_comm] at h
  exact h

theorem clear_spec {e : P3 E} {P : PP} (he : HRep R bb e P) : HRep R bb (clearWith T e) (clearHom P) := by
  have h1 := mulByX_spec k.fo he
  have h2 := psi_spec k he
  have h3 := psi2_spec k (P3.double_spec k.fo he)
  have h4 := mulByX_spec k.fo (P3.add_spec k.fo h1 h2)
  have h5 := P3.sub_spec k.fo (P3.sub_spec k.fo (P3.sub_spec k.fo (P3.add_spec k.fo h3 h4) h1) h2) he
  rw [map_add] at h5
  exact h5

end

end Verif.Bls381.G2
