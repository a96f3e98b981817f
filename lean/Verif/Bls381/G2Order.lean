import Verif.Bls381.G2Nat
import Verif.Bls381.CofactorPrime

/-!
# The order of G2

The curve `y² = x³ + 4 (1 + u)` over the field of `p²` elements has `h q` points.  The proof exhibits points of every prime order that
divides the number of points, two independent ones where the square of the prime divides it, and bounds the number of points by `2 p² + 1`.
`ClearCofactor` kills the points of order prime to `q`, so it maps every point into the subgroup of order `q`.  The points are
checked by the kernel.  No definition of the code is modelled here.
-/

set_option maxRecDepth 20000
set_option exponentiation.threshold 1000
set_option linter.unusedSectionVars false

namespace Verif.Bls381.G2
open Verif.Bytes Verif.Native Verif.Native.Weier P3 Fp2

/-- The cofactor of G2. -/
abbrev h2 : Nat := 0x5d543a95414e7f1091d50792876a202cd91de4547085abaa68a205b2e5a7ddfa628f1cb4d9e82ef21537e293a6691ae1616ec6e786f0c70cf1c38e31c7238e5

/-- The automorphism `(x, y) ↦ (c x, y)`, `c³ = 1`. -/
def phi : PP →+ PP := -psi2Hom

theorem phi_apply (P : PP) : phi P = -psi2Hom P := rfl

theorem phi_rel {x y : Nat × Nat} (h : onCurve x y) {n : Nat} (f : Nat) (hn : n < 2 ^ f)
    (he : (smul f ⟨x, y, (1, 0)⟩ n (psi2 NT ⟨x, y, (1, 0)⟩)).z = (0, 0)) : phi (mkPt x y h) = n • mkPt x y h := by
  have := zero_of_z (smul_spec f _ _ n _ _ hn (mkPt_rep x y h) (psi2_spec NTk (mkPt_rep x y h))) he
  exact (eq_neg_of_add_eq_zero_right this).symm

theorem phi_sum {x y : Nat × Nat} (h : onCurve x y)
    (he : (P3.add NF (P3.sub NF ⟨x, y, (1, 0)⟩ (psi2 NT ⟨x, y, (1, 0)⟩)) (psi2 NT (psi2 NT ⟨x, y, (1, 0)⟩))).z = (0, 0)) :
    mkPt x y h + phi (mkPt x y h) + phi (phi (mkPt x y h)) = 0 := by
  have hp := mkPt_rep x y h
  have := zero_of_z (P3.add_spec NOk (P3.sub_spec NOk hp (psi2_spec NTk hp)) (psi2_spec NTk (psi2_spec NTk hp))) he
  have e : phi (phi (mkPt x y h)) = psi2Hom (psi2Hom (mkPt x y h)) := by
    rw [phi_apply, phi_apply, map_neg, neg_neg]
  rw [e]
  rw [sub_eq_add_neg] at this
  exact this

/-- The large prime factor of the cofactor. -/
abbrev big : Nat := 402096035359507321594726366720466575392706800671181159425656785868777272553337714697862511267018014931937703598282857976535744623203249

/-- A point of order 13. -/
def p13 : PP := mkPt (0x182672b79db1f0a4aec0ef311b5842bc36f400ced5e4255e063f975ee380cc7512325397b70ab807010734266dd3d0f7, 0xa8523cf97b0116465255e5a03ea9d13a45b1f486e4c4d1dae475cf3fa5c51391600467825800e9bfa6cc519e3a3270)
  (0x978b9d0052b314f7bb6728f5cdc90cbf423dc475b438ce7c2641d77d6789e6776977c21998601cabd8107b09df94de6, 0xf0eead2eb956009d867800ae975d1e0d41d978b05c9bbfcfd6e2cb9bb1ae0573acb5f63f7a624c6eb27f0ef18fea21d) (by decide +kernel)

theorem p13_order : 13 • p13 = 0 := order_of _ 20 (by decide +kernel) (by decide +kernel)

theorem p13_clear : clearHom p13 = 0 := clear_of _ (by decide +kernel)

/-- A point of order 13. -/
def q13 : PP := mkPt (0x2c3b2521897c5427a3a18abf5815e15f6a4c77dc6f3436a82c042503d8e50624edbf321cef5a46fe93c11dd7e957d90, 0xf8ad37a9c62c5021a6208eae8984d743a66d2cf66f87e0c9dd3d0bf3b9b3ed2d953371c57d8e9e54a52189174151c2c)
  (0x3dc669a70e29eb89e0800495730e7130ec8ec5c0805bf8a4115a1652c1a7c80588ba70fccd5c33692b33c25fa0bdadf, 0x108d60842a9c8c6648d3df7ac795d22805946aba80e653ebd726967372b3cad322a3861a88e6d4742bd490b5dea8adeb) (by decide +kernel)

theorem q13_order : 13 • q13 = 0 := order_of _ 20 (by decide +kernel) (by decide +kernel)

theorem q13_clear : clearHom q13 = 0 := clear_of _ (by decide +kernel)

/-- A point of order 23. -/
def p23 : PP := mkPt (0x503fbc16c24192886d4bb5c5f791e3c3448dc4e19f0ca8d0bcd6cf6cbe9ccd602478cafaf1d7847458df499807d8ae2, 0x1c8529db7e45f16111c0c95106d37fb89a90afb348c9082db6d49fc34ee0077501c7ac278ed112708313a28768cc52c)
  (0x1873c5f5fa3eb73934201eb8817ad3cf6e60d652d3bbcaddd3dd311b64e59ace27eeabf2fb9ab6ede2bd7f4d005b10f6, 0x19b0058ed355111a3cabda7a6a2b3fc103584d915d5e9fae2207ce8bbce772b4e9d43267e453254d48532584e7ae50ab) (by decide +kernel)

theorem p23_order : 23 • p23 = 0 := order_of _ 20 (by decide +kernel) (by decide +kernel)

theorem p23_clear : clearHom p23 = 0 := clear_of _ (by decide +kernel)

/-- A point of order 2713. -/
def p2713 : PP := mkPt (0x20a636165b4cc22d39199689a13399cdf20274ec1aaf9dda5b7bd60ca0760bb87d13d5ceaa90438335952e2a0d096e2, 0x85ec0213c3b406ff4fdd43cf11612f0df22ed2499331a7ad8277de51edf15f68e008b187d51a4386590857c745c91f2)
  (0xbe82dd6d221bb74632645560d71e0fd800763e632c9ebfd0a5ba3fb5c8559fd70cddae5fe71aa7e50b600e242eb7f80, 0xb0602de1c53a429b812cfa813809ca7b9db07983cb1e062cca653ec3dd7bed719f2207e0c2c60984f741d19a7a44ab3) (by decide +kernel)

theorem p2713_order : 2713 • p2713 = 0 := order_of _ 20 (by decide +kernel) (by decide +kernel)

theorem p2713_clear : clearHom p2713 = 0 := clear_of _ (by decide +kernel)

/-- A point of order 11953. -/
def p11953 : PP := mkPt (0x17233a82adf0370ba7fe5bfbf9a94bde6f20cbe24197cbe55c374cbdc69c2e423a66680ee900ad76738af56fc3559619, 0x8fb57abd58129ed676192ff4b4ff33a12cb2071fe2911f84f680498a0e364e8fb0a09735c9d82dfb28024af210cb7e8)
  (0x16ac61c0b2128eea6eb83a5e1ec34fe472858d22dcb14d3c6706f76f7795ede3d36f893abcd1ed0b3688998f9c15d04c, 0x826f360dae456c96dbb5640c867bf64de3c85737d8b6c63e9dad7a8a9ff119a9c98f513dff9d4037d899de6bd631a3d) (by decide +kernel)

theorem p11953_order : 11953 • p11953 = 0 := order_of _ 20 (by decide +kernel) (by decide +kernel)

theorem p11953_clear : clearHom p11953 = 0 := clear_of _ (by decide +kernel)

/-- A point of order 262069. -/
def p262069 : PP := mkPt (0x1836cda8e432fd2fa7ba9d03d8699aa9f0a9645f18f6583fe99ca72abdadab8647184e9bb209fc8bf89315e3bb9c8e9a, 0x691aca38bbed5f0ccc6d23d19fcd8455112838a9e81002ca080db53e0027dc3141e725e835af35b7c1da028c31f646a)
  (0xa2ba51ea017bccae883d66cb64aa1ab43f2269379bdf7f5c29239bde429e0f78939b101bf2e6c69797550a68447f896, 0x159c6dc9501daf08b5253c84c77413348f70a210d400f51d3d9a6ec24b96b376609843a8ef95564213ef4bcb13e70f77) (by decide +kernel)

theorem p262069_order : 262069 • p262069 = 0 := order_of _ 20 (by decide +kernel) (by decide +kernel)

theorem p262069_clear : clearHom p262069 = 0 := clear_of _ (by decide +kernel)

/-- A point of order `big`. -/
def pBig : PP := mkPt (0x102f634061b963873b9f0b7a2715f6156747c04594a795a5603d96d59c63d920d492ade5d8c7a32bd194be02fd3a40b, 0x2a65d18b01fdfec2853a7efc7026bec95688d1f63e1e1d2d2593c9aa5d3f0d6bd8faf70f622c30b622dbdc0d8dafa88)
  (0x33b1f6ff9760f619d18a9c62110a4586229472cabf40c75b2656ac7c2c884a2c1ac5f2409ef66dea5bbb15264c1244c, 0xc3ef46abcb9c5b1ef9e6a780bbe2ab583698a094bf5509046aa538b6473999976b38ae8cce115b6e9bb029b87dc3e10) (by decide +kernel)

theorem pBig_order : big • pBig = 0 := order_of _ 460 (by decide +kernel) (by decide +kernel)

theorem pBig_clear : clearHom pBig = 0 := clear_of _ (by decide +kernel)

/-- The generator. -/
def G : PP := mkPt (0x24aa2b2f08f0a91260805272dc51051c6e47ad4fa403b02b4510b647ae3d1770bac0326a805bbefd48056c8c121bdb8, 0x13e02b6052719f607dacd3a088274f65596bd0d09920b61ab5da61bbdc7f5049334cf11213945d57e5ac7d055d042b7e)
  (0xce5d527727d6e118cc9cdc6da2e351aadfd9baa8cbdd3a76d429a695160d12c923ac9cc3baca289e193548608b82801, 0x606c4a02ea734cc32acd2b02bc28b99cb3e287e85a763af267492ab572e99ab3f370d275cec1da1aaa9075ff05f79be) (by decide +kernel)

theorem G_ne : G ≠ 0 := mkPt_ne

theorem order_G : Fq.q • G = 0 := order_of _ 256 (by decide +kernel) (by decide +kernel)

theorem addOrder_G : addOrderOf G = Fq.q := addOrderOf_eq_prime order_G G_ne

/-- The points that `ClearCofactor` takes to points killed by `q`. -/
def T : AddSubgroup PP := ((nsmulAddMonoidHom (α := PP) Fq.q).comp clearHom).ker

theorem mem_T {P : PP} : P ∈ T ↔ Fq.q • clearHom P = 0 := Iff.rfl

theorem mem_T_clear {P : PP} (h : clearHom P = 0) : P ∈ T := by rw [mem_T, h, nsmul_zero]

theorem line_dvd {n : Nat} (hp : n.Prime) {P : PP} (h : n • P = 0) (h0 : P ≠ 0) (hT : P ∈ T) : n ∣ Nat.card T := by
  have : Fact n.Prime := ⟨hp⟩
  have ho : addOrderOf P = n := addOrderOf_eq_prime h h0
  rw [← ho, ← Nat.card_zmultiples]
  refine AddSubgroup.card_dvd_of_le ?_
  rw [AddSubgroup.zmultiples_le]
  exact hT

theorem plane13 : 13 ^ 2 ∣ Nat.card T := by
  obtain ⟨S, hS, -, hT⟩ := Count.plane_in (P := p13) (Q := q13) Primes.prime_13 p13_order q13_order mkPt_ne
    (Count.indep_one Primes.prime_13 phi q13_order mkPt_ne (r := 3) (s := 9) (phi_rel _ 4 (by decide) (by decide +kernel))
      (phi_rel _ 4 (by decide) (by decide +kernel)) (by decide))
  rw [← hS]
  exact AddSubgroup.card_dvd_of_le (hT T (mem_T_clear p13_clear) (mem_T_clear q13_clear))

theorem plane23 : 23 ^ 2 ∣ Nat.card T := by
  have hc : clearHom (phi p23) = 0 := by
    rw [phi_apply, map_neg, neg_eq_zero]
    exact zero_of_z (clear_spec NTk (psi2_spec NTk (mkPt_rep _ _ _))) (by decide +kernel)
  obtain ⟨S, hS, -, hT⟩ := Count.plane_in (P := p23) (Q := phi p23) Primes.prime_23 p23_order
    (by rw [← map_nsmul, p23_order, map_zero]) mkPt_ne
    (Count.indep_two Primes.prime_23 (by decide) phi p23_order mkPt_ne (phi_sum _ (by decide +kernel)))
  rw [← hS]
  exact AddSubgroup.card_dvd_of_le (hT T (mem_T_clear p23_clear) (mem_T_clear hc))

instance : Finite K2 := Module.finite_of_finite (ZMod Fp.p)

theorem card_K2 : Nat.card K2 = Fp.p ^ 2 := by
  rw [Nat.card_congr (QuadraticAlgebra.equivProd (-1 : ZMod Fp.p) 0), Nat.card_prod, Nat.card_zmod, pow_two]

instance : Finite PP := Count.finite two2 noTwo

theorem dvd_T : h2 * Fq.q ∣ Nat.card T := by
  have dq := line_dvd (n := Fq.q) Fact.out order_G G_ne (by rw [mem_T, ← map_nsmul, order_G, map_zero])
  have e : h2 * Fq.q = (((((Fq.q * 13 ^ 2) * 23 ^ 2) * 2713) * 11953) * 262069) * big := by decide +kernel
  rw [e]
  refine Nat.Coprime.mul_dvd_of_dvd_of_dvd (by decide +kernel) (Nat.Coprime.mul_dvd_of_dvd_of_dvd (by decide +kernel)
    (Nat.Coprime.mul_dvd_of_dvd_of_dvd (by decide +kernel) (Nat.Coprime.mul_dvd_of_dvd_of_dvd (by decide +kernel)
    (Nat.Coprime.mul_dvd_of_dvd_of_dvd (by decide +kernel) (Nat.Coprime.mul_dvd_of_dvd_of_dvd (by decide +kernel) dq
      plane13) plane23) ?_) ?_) ?_) ?_
  · exact line_dvd Primes.prime_2713 p2713_order mkPt_ne (mem_T_clear p2713_clear)
  · exact line_dvd Primes.prime_11953 p11953_order mkPt_ne (mem_T_clear p11953_clear)
  · exact line_dvd Primes.prime_262069 p262069_order mkPt_ne (mem_T_clear p262069_clear)
  · exact line_dvd Primes.prime_402096035359507321594726366720466575392706800671181159425656785868777272553337714697862511267018014931937703598282857976535744623203249 pBig_order mkPt_ne (mem_T_clear pBig_clear)

/-- The curve has `h q` points. -/
theorem card : Nat.card PP = h2 * Fq.q := by
  refine Count.card_eq two2 noTwo ?_ (dvd_T.trans (AddSubgroup.card_addSubgroup_dvd_card T))
  rw [card_K2]
  decide +kernel

/-- `ClearCofactor` maps every point into the subgroup. -/
theorem clear_torsion (P : PP) : Fq.q • clearHom P = 0 := by
  have : T = ⊤ := by
    rw [← AddSubgroup.card_eq_iff_eq_top]
    refine Nat.dvd_antisymm (AddSubgroup.card_addSubgroup_dvd_card T) ?_
    rw [card]
    exact dvd_T
  have h : P ∈ T := by rw [this]; trivial
  exact mem_T.1 h

/-- The points killed by `q` are the multiples of the generator. -/
theorem torsion {P : PP} (h : Fq.q • P = 0) : ∃ k : Nat, k < Fq.q ∧ P = k • G := by
  have hm : P ∈ AddSubgroup.zmultiples G :=
    Count.mem_of_coprime _ (by rw [Nat.card_zmultiples, addOrder_G]) card h (by decide +kernel)
  obtain ⟨k, hk⟩ := AddSubgroup.mem_zmultiples_iff.1 hm
  have hpos : (0 : Int) < Fq.q := by decide +kernel
  refine ⟨(k % (Fq.q : Int)).toNat, ?_, ?_⟩
  · have := Int.emod_lt_of_pos k hpos
    have := Int.emod_nonneg k hpos.ne'
    omega
  · rw [← hk, ← natCast_zsmul, Int.toNat_of_nonneg (Int.emod_nonneg k hpos.ne')]
    have := mod_addOrderOf_zsmul G k
    rw [addOrder_G] at this
    exact this.symm

end Verif.Bls381.G2
