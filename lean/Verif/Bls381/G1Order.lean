import Verif.Bls381.G1
import Verif.Bls381.Count

/-!
# The order of G1

The curve `y² = x³ + 4` over the base field has `h q` points, `h = (1 - x)² / 3`; every point is killed by `(1 - x) q`; the points
killed by `q` are the multiples of the generator.  The proof exhibits points of every prime order that divides the number of points, two
independent ones where the square of the prime divides it, and bounds the number of points by `2 p + 1`.  The points are checked by the
kernel; `(x, y) ↦ (β x, y)` with `β³ = 1` gives the independence.  No definition of the code is modelled here.
-/

set_option maxRecDepth 20000
set_option linter.unusedSectionVars false

namespace Verif.Bls381.G1
open Verif.Bytes Verif.Native Verif.Native.Weier P3

/-- `1 - x`, `x` the (negative) parameter of the curve. -/
abbrev c1 : Nat := 0xd201000000010001

/-- The cofactor of G1. -/
abbrev h1 : Nat := 0x396c8c005555e1568c00aaab0000aaab

/-- A point given by naturals. -/
def mkPt (x y : Nat) (h : y ^ 2 % Fp.p = (x ^ 3 + 4) % Fp.p) : PP :=
  .some (x : ZMod Fp.p) (y : ZMod Fp.p) (nonsing (two_ne (by decide +kernel)) noTwo (by
    have e : ((y ^ 2 % Fp.p : Nat) : ZMod Fp.p) = (((x ^ 3 + 4) % Fp.p : Nat) : ZMod Fp.p) := by rw [h]
    rw [ZMod.natCast_mod, ZMod.natCast_mod, Nat.cast_pow, Nat.cast_add, Nat.cast_pow] at e
    rw [e, zero_mul, add_zero]))

theorem mkPt_ne {x y : Nat} {h} : mkPt x y h ≠ 0 := WeierstrassCurve.Affine.Point.some_ne_zero _

theorem eval_zero {a b : ZMod Fp.p} (an bn : Nat) (ha : (an : ZMod Fp.p) = a) (hb : (bn : ZMod Fp.p) = b) (n2 : NoTwo a b)
    {x y x' y' : Nat} {h : (curve a b).Nonsingular (x : ZMod Fp.p) (y : ZMod Fp.p)}
    {h' : (curve a b).Nonsingular (x' : ZMod Fp.p) (y' : ZMod Fp.p)} {n : Nat} (hn : n < 2 ^ 300)
    (he : (nmul Fp.p an bn 300 ⟨x, y, 1⟩ n ⟨x', y', 1⟩).Z = 0) : (.some x' y' h' : Pt a b) + n • (.some x y h : Pt a b) = 0 := by
  subst ha hb
  have := nmul_spec odd n2 300 ⟨x, y, 1⟩ ⟨x', y', 1⟩ n (.some x y h) (.some x' y' h') hn
    ⟨Nat.Prime.one_lt Fact.out, by rw [Nat.cast_one]; exact Or.inr ⟨one_ne_zero, _, _, h, rfl, (mul_one _).symm, (mul_one _).symm⟩⟩
    ⟨Nat.Prime.one_lt Fact.out, by rw [Nat.cast_one]; exact Or.inr ⟨one_ne_zero, _, _, h', rfl, (mul_one _).symm, (mul_one _).symm⟩⟩
  exact (prep_isZero this.2).1 (by rw [he, Nat.cast_zero])

theorem eval_sum {a b : ZMod Fp.p} (an bn : Nat) (ha : (an : ZMod Fp.p) = a) (hb : (bn : ZMod Fp.p) = b) (n2 : NoTwo a b)
    {x y x' y' x'' y'' : Nat} {h : (curve a b).Nonsingular (x : ZMod Fp.p) (y : ZMod Fp.p)}
    {h' : (curve a b).Nonsingular (x' : ZMod Fp.p) (y' : ZMod Fp.p)} {h'' : (curve a b).Nonsingular (x'' : ZMod Fp.p) (y'' : ZMod Fp.p)}
    (he : (nadd Fp.p an bn (nadd Fp.p an bn ⟨x, y, 1⟩ ⟨x', y', 1⟩) ⟨x'', y'', 1⟩).Z = 0) :
    (.some x y h : Pt a b) + .some x' y' h' + .some x'' y'' h'' = 0 := by
  subst ha hb
  have r : ∀ {x y : Nat} (h : (curve (an : ZMod Fp.p) (bn : ZMod Fp.p)).Nonsingular (x : ZMod Fp.p) (y : ZMod Fp.p)),
      NRep Fp.p an bn ⟨x, y, 1⟩ (.some x y h) := fun h =>
    ⟨Nat.Prime.one_lt Fact.out, by rw [Nat.cast_one]; exact Or.inr ⟨one_ne_zero, _, _, h, rfl, (mul_one _).symm, (mul_one _).symm⟩⟩
  exact (prep_isZero (nadd_spec odd n2 (nadd_spec odd n2 (r h) (r h')) (r h'')).2).1 (by rw [he, Nat.cast_zero])

theorem mkPt_order {x y : Nat} {h} (n : Nat) (hn : n < 2 ^ 300) (he : (nmul Fp.p 0 4 300 ⟨x, y, 1⟩ n ⟨0, 0, 0⟩).Z = 0) :
    n • mkPt x y h = 0 :=
  order_of_eval' 0 4 Nat.cast_zero rfl odd noTwo hn he

theorem mkPt_rel {x y x' y' : Nat} {h h'} (n : Nat) (hn : n < 2 ^ 300)
    (he : (nmul Fp.p 0 4 300 ⟨x, y, 1⟩ n ⟨x', y', 1⟩).Z = 0) : mkPt x' y' h' + n • mkPt x y h = 0 :=
  eval_zero 0 4 Nat.cast_zero rfl noTwo hn he

theorem sum_spec {x y x' y' x'' y'' : Nat} {h h' h''}
    (he : (nadd Fp.p 0 4 (nadd Fp.p 0 4 ⟨x, y, 1⟩ ⟨x', y', 1⟩) ⟨x'', y'', 1⟩).Z = 0) : mkPt x y h + mkPt x' y' h' + mkPt x'' y'' h'' = 0 :=
  eval_sum 0 4 Nat.cast_zero rfl noTwo he

theorem mkPt_congr {x y x' y' : Nat} {h h'} (hx : (x : ZMod Fp.p) = x') (hy : (y : ZMod Fp.p) = y') : mkPt x y h = mkPt x' y' h' := by
  unfold mkPt
  congr 1

theorem mkPt_neg {x y y' : Nat} {h h'} (hy : (y + y') % Fp.p = 0) : mkPt x y h = -mkPt x y' h' := by
  unfold mkPt
  rw [WeierstrassCurve.Affine.Point.neg_some]
  congr 1
  rw [negY_eq]
  have : ((y + y' : Nat) : ZMod Fp.p) = 0 := by
    rw [ZMod.natCast_eq_zero_iff]
    exact Nat.dvd_of_mod_eq_zero hy
  rw [Nat.cast_add] at this
  exact eq_neg_of_add_eq_zero_left this

/-- A cube root of one. -/
abbrev beta : Nat := 0x5f19672fdf76ce51ba69c6076a0f77eaddb3a93be6f89688de17d813620a00022e01fffffffefffe

theorem beta_ok : Twist.Ok (RingHom.id (ZMod Fp.p)) (beta : ZMod Fp.p) 1 ((4 : Nat) : ZMod Fp.p) := by
  have h : (beta : ZMod Fp.p) ^ 3 = 1 := by
    have e : beta ^ 3 % Fp.p = 1 := by decide +kernel
    rw [← Nat.cast_pow, ← ZMod.natCast_mod, e, Nat.cast_one]
  refine ⟨two_ne (by decide +kernel), noTwo, one_ne_zero, ?_, ?_⟩
  · rw [h, one_pow]
  · rw [h, mul_one, RingHom.id_apply]

/-- The automorphism `(x, y) ↦ (β x, y)`. -/
def phi : PP →+ PP := Twist.hom beta_ok

theorem phi_mk {x y x' y' : Nat} {h h'} (hx : beta * x % Fp.p = x' % Fp.p) (hy : y = y') : phi (mkPt x y h) = mkPt x' y' h' := by
  subst hy
  unfold mkPt
  change (WeierstrassCurve.Affine.Point.some _ _ _ : PP) = _
  congr 1
  · rw [RingHom.id_apply, ← Nat.cast_mul, ← ZMod.natCast_mod, hx, ZMod.natCast_mod]
  · rw [RingHom.id_apply, one_mul]

/-! ## The points -/

/-- A point of order 11. -/
def p11 : PP := mkPt 0xb9529a7b23788075a6c33c7b77b3dcf4da4f58af5310f32e739a6c653a5a8f7cf7f19a297bd6a8f3f19ea82cf9419 0x2ecc645926cbd45f215b3fa17df0d7a50e5814f9631c502f2b2c2457926089a452bd11bf89ee72baa1981f99f88acb2 (by decide +kernel)

theorem p11_order : 11 • p11 = 0 := mkPt_order _ (by decide +kernel) (by decide +kernel)

theorem plane11 : ∃ S : AddSubgroup PP, Nat.card S = 11 ^ 2 ∧ ∀ x ∈ S, 11 • x = 0 := by
  refine Count.plane Primes.prime_11 p11_order (Q := phi p11) ?_ mkPt_ne (Count.indep_two Primes.prime_11 (by decide) phi p11_order mkPt_ne ?_)
  · rw [← map_nsmul, p11_order, map_zero]
  · have e1 : phi p11 = mkPt 0x5f6511326af5354af33d865f3386c6713e096f466d995a779646d7fffc8ecde684bd6c85bea2ec01b99f92e1d5988bb 0x2ecc645926cbd45f215b3fa17df0d7a50e5814f9631c502f2b2c2457926089a452bd11bf89ee72baa1981f99f88acb2 (by decide +kernel) := phi_mk (by decide +kernel) rfl
    have e2 : phi (phi p11) = mkPt 0x13ff2bad6b1e5bbd948d631c885bc53281490f9b01b64c08bae52b7a3094639cbe90aa1cb2d213d50f25ece75fd68dd7 0x2ecc645926cbd45f215b3fa17df0d7a50e5814f9631c502f2b2c2457926089a452bd11bf89ee72baa1981f99f88acb2 (by decide +kernel) := by rw [e1]; exact phi_mk (by decide +kernel) rfl
    rw [e2, e1]
    have hs := sum_spec (x := 0xb9529a7b23788075a6c33c7b77b3dcf4da4f58af5310f32e739a6c653a5a8f7cf7f19a297bd6a8f3f19ea82cf9419) (y := 0x2ecc645926cbd45f215b3fa17df0d7a50e5814f9631c502f2b2c2457926089a452bd11bf89ee72baa1981f99f88acb2) (h := by decide +kernel) (x' := 0x5f6511326af5354af33d865f3386c6713e096f466d995a779646d7fffc8ecde684bd6c85bea2ec01b99f92e1d5988bb) (y' := 0x2ecc645926cbd45f215b3fa17df0d7a50e5814f9631c502f2b2c2457926089a452bd11bf89ee72baa1981f99f88acb2) (h' := by decide +kernel)
      (x'' := 0x13ff2bad6b1e5bbd948d631c885bc53281490f9b01b64c08bae52b7a3094639cbe90aa1cb2d213d50f25ece75fd68dd7) (y'' := 0x2ecc645926cbd45f215b3fa17df0d7a50e5814f9631c502f2b2c2457926089a452bd11bf89ee72baa1981f99f88acb2) (h'' := by decide +kernel) (by decide +kernel)
    exact hs

/-- A point of order 10177. -/
def p10177 : PP := mkPt 0xc3aac8a638195f66d2e17a15bf579962e3b07bfd5e1e145199c608f96670c32b8055144cfc675a4e32a2e542875df45 0x140a5431ca8e64213c793c7cdf1b83d593324d3b9bca6254e127276be7718892d6ca2523254b07f8d0c79416d20614f0 (by decide +kernel)

/-- An independent one. -/
def q10177 : PP := mkPt 0x129bdec742dd37e88547fc493bcbab364c3cf8e8df0403a4d07ac53a52d7930861a7a59e34516861eb15301dee90425a 0x17a2a181d28a5f007384dc58d2ecf052e4d1316dd6f9b0419f9a969a04c043203e82a1223ec123cc3f8c6092b6638b6a (by decide +kernel)

theorem p10177_order : 10177 • p10177 = 0 := mkPt_order _ (by decide +kernel) (by decide +kernel)

theorem q10177_order : 10177 • q10177 = 0 := mkPt_order _ (by decide +kernel) (by decide +kernel)

theorem p10177_phi : phi p10177 = 4773 • p10177 := by
  have e1 : phi p10177 = -mkPt 0x18081a1e910a9f24f932f88813738af9215c670fefb5c184a5b9f52748b1240b712ec74ff3a9bf9b182b1b3bd6dde003 0x5f6bdb86ef182790ea26b3964302901d144fe4957bab06a8609ab350f3f6d9147e1dadb8c08f806e9376be92df995bb (by decide +kernel) := by
    rw [← mkPt_neg (x := 0x18081a1e910a9f24f932f88813738af9215c670fefb5c184a5b9f52748b1240b712ec74ff3a9bf9b182b1b3bd6dde003) (y := 0x140a5431ca8e64213c793c7cdf1b83d593324d3b9bca6254e127276be7718892d6ca2523254b07f8d0c79416d20614f0) (h := by decide +kernel) (by decide +kernel)]
    exact phi_mk (by decide +kernel) rfl
  rw [e1]
  exact (eq_neg_of_add_eq_zero_right (mkPt_rel _ (by decide +kernel) (by decide +kernel))).symm

theorem q10177_phi : phi q10177 = 5403 • q10177 := by
  have e1 : phi q10177 = -mkPt 0x1bba951b62bc8bb8c1db740322c6317c205ee79e11816e1cf5b89376ba6d53bbf08b920ef287cc7223e3139aa2709fe 0x25e706866f58799d796cb5d705ebc847fa61a171c8b627dc7963c06f1f0b303e0295edc7292dc337a729f6d499c1f41 (by decide +kernel) := by
    rw [← mkPt_neg (x := 0x1bba951b62bc8bb8c1db740322c6317c205ee79e11816e1cf5b89376ba6d53bbf08b920ef287cc7223e3139aa2709fe) (y := 0x17a2a181d28a5f007384dc58d2ecf052e4d1316dd6f9b0419f9a969a04c043203e82a1223ec123cc3f8c6092b6638b6a) (h := by decide +kernel) (by decide +kernel)]
    exact phi_mk (by decide +kernel) rfl
  rw [e1]
  exact (eq_neg_of_add_eq_zero_right (mkPt_rel _ (by decide +kernel) (by decide +kernel))).symm

theorem plane10177 : ∃ S : AddSubgroup PP, Nat.card S = 10177 ^ 2 ∧ ∀ x ∈ S, 10177 • x = 0 :=
  Count.plane Primes.prime_10177 p10177_order q10177_order mkPt_ne
    (Count.indep_one Primes.prime_10177 phi q10177_order mkPt_ne p10177_phi q10177_phi (by decide))

/-- A point of order 859267. -/
def p859267 : PP := mkPt 0x3985398ca67774179dadb24f8b175a02c3e42bfda5574c030c6046d71da7364c0753f1816aebdd30906751843cd39cb 0x45bfee6f2f85750fd95e76c44969660e261276db42230225a825ee7d93c1a22fe35dddc0ce5078a1cbd772f652821a5 (by decide +kernel)

/-- An independent one. -/
def q859267 : PP := mkPt 0xf14dba56abb3d09485695c66f46adf340abdcafb4e08406c600af63f4099d6402a02b4d447285bcd340fe2634ef7000 0x5dd165d41c7569602ceec2a38c0a168bca1dd71d711b5a128120987b34a6a8c07e7a28eb7379e9ee0acb9bacd865251 (by decide +kernel)

theorem p859267_order : 859267 • p859267 = 0 := mkPt_order _ (by decide +kernel) (by decide +kernel)

theorem q859267_order : 859267 • q859267 = 0 := mkPt_order _ (by decide +kernel) (by decide +kernel)

theorem p859267_phi : phi p859267 = 119571 • p859267 := by
  have e1 : phi p859267 = -mkPt 0xed378e92e8351c43c49e6f5bd5dc7d9aa4649300e3bbabb75f2756c4598b0959b996d184ccbfe339599f2242f004ea4 0x15a5130346878f494d85c049feb51676821624173f62e29d0cae73b91d74dc0120762222a46ef8759d4188d09ad78906 (by decide +kernel) := by
    rw [← mkPt_neg (x := 0xed378e92e8351c43c49e6f5bd5dc7d9aa4649300e3bbabb75f2756c4598b0959b996d184ccbfe339599f2242f004ea4) (y := 0x45bfee6f2f85750fd95e76c44969660e261276db42230225a825ee7d93c1a22fe35dddc0ce5078a1cbd772f652821a5) (h := by decide +kernel) (by decide +kernel)]
    exact phi_mk (by decide +kernel) rfl
  rw [e1]
  exact (eq_neg_of_add_eq_zero_right (mkPt_rel _ (by decide +kernel) (by decide +kernel))).symm

theorem q859267_phi : phi q859267 = 739695 • q859267 := by
  have e1 : phi q859267 = -mkPt 0x38b120b16f1004ad2432b9bf3247b9a4e63d468c24bc5570feefa1948f054af7ac9b83832cd29752f20db45f06585a3 0x1423fb8cf7b89004484cbb8c0a8b0b6ea7d56e131c735d1e3f1ec91943668b9816c45d6ffa1c6160d95246453279585a (by decide +kernel) := by
    rw [← mkPt_neg (x := 0x38b120b16f1004ad2432b9bf3247b9a4e63d468c24bc5570feefa1948f054af7ac9b83832cd29752f20db45f06585a3) (y := 0x5dd165d41c7569602ceec2a38c0a168bca1dd71d711b5a128120987b34a6a8c07e7a28eb7379e9ee0acb9bacd865251) (h := by decide +kernel) (by decide +kernel)]
    exact phi_mk (by decide +kernel) rfl
  rw [e1]
  exact (eq_neg_of_add_eq_zero_right (mkPt_rel _ (by decide +kernel) (by decide +kernel))).symm

theorem plane859267 : ∃ S : AddSubgroup PP, Nat.card S = 859267 ^ 2 ∧ ∀ x ∈ S, 859267 • x = 0 :=
  Count.plane Primes.prime_859267 p859267_order q859267_order mkPt_ne
    (Count.indep_one Primes.prime_859267 phi q859267_order mkPt_ne p859267_phi q859267_phi (by decide))

/-- A point of order 52437899. -/
def p52437899 : PP := mkPt 0x32e54622d24c08b01a5a6358d7fb3401d99f6909b54ed6b7757472fd5db968124d57f91bb7a2dc671ff1657e9bfffde 0x1870a0d527915df385164e56381069804b582d58eb83ff567d7f12b5d2e38ca3bce0692da3a63b056f298eec51949939 (by decide +kernel)

theorem p52437899_order : 52437899 • p52437899 = 0 := mkPt_order _ (by decide +kernel) (by decide +kernel)

theorem plane52437899 : ∃ S : AddSubgroup PP, Nat.card S = 52437899 ^ 2 ∧ ∀ x ∈ S, 52437899 • x = 0 := by
  refine Count.plane Primes.prime_52437899 p52437899_order (Q := phi p52437899) ?_ mkPt_ne (Count.indep_two Primes.prime_52437899 (by decide) phi p52437899_order mkPt_ne ?_)
  · rw [← map_nsmul, p52437899_order, map_zero]
  · have e1 : phi p52437899 = mkPt 0x8f9fd35474fdaa94eb8a9af3067e081cab6a493d77ab41b9ed6f6d17f8f1fb3fad35de0613f55f369d7b70a079c52b8 0x1870a0d527915df385164e56381069804b582d58eb83ff567d7f12b5d2e38ca3bce0692da3a63b056f298eec51949939 (by decide +kernel) := phi_mk (by decide +kernel) rfl
    have e2 : phi (phi p52437899) = mkPt 0xdd8c052c50b4b65fabd57d1856419157c26b06080b571385102949fa1463feeff03228c949a7c45de28329e0ea35815 0x1870a0d527915df385164e56381069804b582d58eb83ff567d7f12b5d2e38ca3bce0692da3a63b056f298eec51949939 (by decide +kernel) := by rw [e1]; exact phi_mk (by decide +kernel) rfl
    rw [e2, e1]
    have hs := sum_spec (x := 0x32e54622d24c08b01a5a6358d7fb3401d99f6909b54ed6b7757472fd5db968124d57f91bb7a2dc671ff1657e9bfffde) (y := 0x1870a0d527915df385164e56381069804b582d58eb83ff567d7f12b5d2e38ca3bce0692da3a63b056f298eec51949939) (h := by decide +kernel) (x' := 0x8f9fd35474fdaa94eb8a9af3067e081cab6a493d77ab41b9ed6f6d17f8f1fb3fad35de0613f55f369d7b70a079c52b8) (y' := 0x1870a0d527915df385164e56381069804b582d58eb83ff567d7f12b5d2e38ca3bce0692da3a63b056f298eec51949939) (h' := by decide +kernel)
      (x'' := 0xdd8c052c50b4b65fabd57d1856419157c26b06080b571385102949fa1463feeff03228c949a7c45de28329e0ea35815) (y'' := 0x1870a0d527915df385164e56381069804b582d58eb83ff567d7f12b5d2e38ca3bce0692da3a63b056f298eec51949939) (h'' := by decide +kernel) (by decide +kernel)
    exact hs

/-! ## The generator and the count -/

/-- The generator. -/
def G : PP := mkPt 0x17f1d3a73197d7942695638c4fa9ac0fc3688c4f9774b905a14e3a3f171bac586c55e83ff97a1aeffb3af00adb22c6bb
  0x8b3f481e3aaa0f1a09e30ed741d8ae4fcf5e095d5d00af600db18cb2c04b3edd03cc744a2888ae40caa232946c5e7e1 (by decide +kernel)

theorem G_ne : G ≠ 0 := mkPt_ne

theorem order_G : Fq.q • G = 0 := mkPt_order _ (by decide +kernel) (by decide +kernel)

theorem addOrder_G : addOrderOf G = Fq.q := addOrderOf_eq_prime order_G G_ne

/-- A point of order 3. -/
def p3 : PP := mkPt 0 2 (by decide +kernel)

theorem p3_order : 3 • p3 = 0 := mkPt_order _ (by decide +kernel) (by decide +kernel)

/-- The points killed by `(1 - x) q`. -/
def T : AddSubgroup PP := (nsmulAddMonoidHom (α := PP) (c1 * Fq.q)).ker

theorem mem_T {n : Nat} (hn : n ∣ c1 * Fq.q) {P : PP} (h : n • P = 0) : P ∈ T := by
  obtain ⟨k, hk⟩ := hn
  rw [T, AddMonoidHom.mem_ker, nsmulAddMonoidHom_apply, hk, mul_nsmul, h, nsmul_zero]

theorem plane_dvd {n : Nat} (hn : n ∣ c1 * Fq.q) (h : ∃ S : AddSubgroup PP, Nat.card S = n ^ 2 ∧ ∀ x ∈ S, n • x = 0) :
    n ^ 2 ∣ Nat.card T := by
  obtain ⟨S, hS, hk⟩ := h
  rw [← hS]
  exact AddSubgroup.card_dvd_of_le fun x hx => mem_T hn (hk x hx)

theorem line_dvd {n : Nat} (hp : n.Prime) (hn : n ∣ c1 * Fq.q) {P : PP} (h : n • P = 0) (h0 : P ≠ 0) : n ∣ Nat.card T := by
  have : Fact n.Prime := ⟨hp⟩
  have ho : addOrderOf P = n := addOrderOf_eq_prime h h0
  rw [← ho, ← Nat.card_zmultiples]
  refine AddSubgroup.card_dvd_of_le ?_
  rw [AddSubgroup.zmultiples_le]
  exact mem_T hn h

instance : Finite PP := Count.finite (two_ne (by decide +kernel)) noTwo

theorem dvd_T : h1 * Fq.q ∣ Nat.card T := by
  have d3 := line_dvd Primes.prime_3 (by decide +kernel) p3_order mkPt_ne
  have dq := line_dvd (n := Fq.q) Fact.out (by decide +kernel) order_G G_ne
  have e : h1 * Fq.q = ((((3 * Fq.q) * 11 ^ 2) * 10177 ^ 2) * 859267 ^ 2) * 52437899 ^ 2 := by decide +kernel
  rw [e]
  refine Nat.Coprime.mul_dvd_of_dvd_of_dvd (by decide +kernel) (Nat.Coprime.mul_dvd_of_dvd_of_dvd (by decide +kernel)
    (Nat.Coprime.mul_dvd_of_dvd_of_dvd (by decide +kernel) (Nat.Coprime.mul_dvd_of_dvd_of_dvd (by decide +kernel)
    (Nat.Coprime.mul_dvd_of_dvd_of_dvd (by decide +kernel) d3 dq) ?_) ?_) ?_) ?_
  · exact plane_dvd (by decide +kernel) plane11
  · exact plane_dvd (by decide +kernel) plane10177
  · exact plane_dvd (by decide +kernel) plane859267
  · exact plane_dvd (by decide +kernel) plane52437899

/-- The curve has `h q` points. -/
theorem card : Nat.card PP = h1 * Fq.q := by
  refine Count.card_eq (two_ne (by decide +kernel)) noTwo ?_ (dvd_T.trans (AddSubgroup.card_addSubgroup_dvd_card T))
  rw [Nat.card_zmod]
  decide +kernel

/-- Every point is killed by `(1 - x) q`. -/
theorem exponent (P : PP) : (c1 * Fq.q) • P = 0 := by
  have : T = ⊤ := by
    rw [← AddSubgroup.card_eq_iff_eq_top]
    refine Nat.dvd_antisymm (AddSubgroup.card_addSubgroup_dvd_card T) ?_
    rw [card]
    exact dvd_T
  have h : P ∈ T := by rw [this]; trivial
  rwa [T, AddMonoidHom.mem_ker, nsmulAddMonoidHom_apply] at h

/-- The points killed by `q` are the multiples of the generator. -/
theorem torsion {P : PP} (h : Fq.q • P = 0) : ∃ k : Nat, k < Fq.q ∧ P = k • G := by
  have hm : P ∈ AddSubgroup.zmultiples G :=
    Count.mem_of_coprime _ (by rw [Nat.card_zmultiples, addOrder_G]) card h (by decide +kernel)
  obtain ⟨k, hk⟩ := AddSubgroup.mem_zmultiples_iff.1 hm
  have hpos : (0 : Int) < Fq.q := by decide +kernel
  refine ⟨(k % (Fq.q : Int)).toNat, ?_, ?_⟩
  · have := Int.emod_lt_of_pos k hpos
    have := Int.emod_nonneg k hpos.ne'
    omega
  · rw [← hk, ← natCast_zsmul, Int.toNat_of_nonneg (Int.emod_nonneg k hpos.ne')]
    have := mod_addOrderOf_zsmul G k
    rw [addOrder_G] at this
    exact this.symm

end Verif.Bls381.G1
