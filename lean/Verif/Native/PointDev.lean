import Verif.Native.PointApi
import Mathlib.NumberTheory.LegendreSymbol.Basic

/-!
# secp256k1 and P-256: where the encodings and wrappers depart from the standards

Instances of the general theorems of `PointApi` at the two curves of the repository.
-/

set_option maxRecDepth 20000

namespace Verif.Native
open Verif.Bytes Weier

/-- Euler: a residue whose `(p-1)/2`-th power is not one is no square. -/
theorem not_square {p : Nat} [Fact p.Prime] {v : Nat} (hodd : p % 2 = 1) (hp2 : p < 2 ^ 300) (hv : v % p ≠ 0)
    (h : Primes.pw p 300 v (p / 2) 1 % p ≠ 1) : ¬ IsSquare (v : ZMod p) := by
  intro hs
  have e := Primes.pw_spec p 300 v (p / 2) 1 (by omega)
  have h0 : (v : ZMod p) ≠ 0 := by
    rw [Ne, ZMod.natCast_eq_zero_iff, Nat.dvd_iff_mod_eq_zero]
    exact hv
  rw [(ZMod.euler_criterion p h0).1 hs, Nat.cast_one, one_mul] at e
  apply h
  have : Primes.pw p 300 v (p / 2) 1 % p = 1 % p := by
    have e' : ((Primes.pw p 300 v (p / 2) 1 : Nat) : ZMod p) = ((1 : Nat) : ZMod p) := by rw [e, Nat.cast_one]
    exact (ZMod.natCast_eq_natCast_iff _ _ _).1 e'
  rw [this, Nat.mod_eq_of_lt (Fact.out : p.Prime).one_lt]

/-- An equation of residues from one of integers. -/
theorem eq_of_mod {p u v : Nat} (h : u % p = v % p) : (u : ZMod p) = (v : ZMod p) := (ZMod.natCast_eq_natCast_iff _ _ _).2 h

theorem val_of_lt {p v : Nat} (h : v < p) : v = (v : ZMod p).val := by
  rw [ZMod.val_natCast, Nat.mod_eq_of_lt h]

/-- The abscissa `n` in a compressed encoding with first byte `s`. -/
def comp (s : UInt8) (n : Nat) : List UInt8 := s :: natToBEfix 32 n

theorem comp_spec (s : UInt8) (n : Nat) (h : n < 2 ^ 256) :
    (comp s n).length = 33 ∧ (comp s n).headD 0 = s ∧ beToNat ((comp s n).drop 1) = n := by
  refine ⟨?_, rfl, ?_⟩
  · unfold comp; rw [List.length_cons, length_natToBEfix]
  · unfold comp
    rw [List.drop_one, List.tail_cons, beToNat_natToBEfix, pow256, Nat.mod_eq_of_lt h]

/-- **C70.** secp256k1: the encoding of the neutral element decodes to the neutral element; and so do strings that encode
nothing, so decoding is not injective. -/
theorem C70_k256_identity :
    K256.curve.fromCompressed (K256.curve.toCompressed Curve.identity) = .ok Curve.identity ∧
    K256.curve.fromCompressed (comp 2 5) = .ok Curve.identity ∧
    K256.curve.fromCompressed (comp 3 5) = .ok Curve.identity := by
  have five : ¬ IsSquare (((5 : Nat) : ZMod K256Fp.prime) ^ 3 + 0 * ((5 : Nat) : ZMod K256Fp.prime) + ((7 : Nat) : ZMod K256Fp.prime)) := by
    have := not_square (p := K256Fp.prime) (v := 5 ^ 3 + 7) (by decide +kernel) (by decide +kernel) (by decide +kernel) (by decide +kernel)
    rw [Nat.cast_add, Nat.cast_pow] at this
    rw [zero_mul, add_zero]
    exact this
  have zero : ¬ IsSquare (((0 : Nat) : ZMod K256Fp.prime) ^ 3 + 0 * ((0 : Nat) : ZMod K256Fp.prime) + ((7 : Nat) : ZMod K256Fp.prime)) := by
    have := not_square (p := K256Fp.prime) (v := 7) (by decide +kernel) (by decide +kernel) (by decide +kernel) (by decide +kernel)
    rw [Nat.cast_zero, zero_mul, add_zero, zero_pow (by norm_num), zero_add]
    exact this
  refine ⟨?_, ?_, ?_⟩
  · rw [((C70_encode C68_k256).2 (erep_identity C68_k256)).1]
    exact ((C70_decompress C68_k256 (2 :: List.replicate 32 0)).2.2.2 ((0 : Nat) : ZMod K256Fp.prime) rfl (Or.inl rfl) (by
      rw [← val_of_lt (by decide +kernel)]; decide)).1 zero
  · obtain ⟨l, s, v⟩ := comp_spec 2 5 (by norm_num)
    exact ((C70_decompress C68_k256 _).2.2.2 ((5 : Nat) : ZMod K256Fp.prime) l (Or.inl s) (by
      rw [v, ← val_of_lt (by decide +kernel)])).1 five
  · obtain ⟨l, s, v⟩ := comp_spec 3 5 (by norm_num)
    exact ((C70_decompress C68_k256 _).2.2.2 ((5 : Nat) : ZMod K256Fp.prime) l (Or.inr s) (by
      rw [v, ← val_of_lt (by decide +kernel)])).1 five

/-- **C70.** P-256: the compressed encoding of the neutral element decodes, without an error, to a different point; the
neutral element is what `02‖1` decodes to. -/
theorem C70_p256_identity :
    (∃ (e : EP) (P : Pt (-3 : ZMod P256Fp.prime) (P256.b : ZMod P256Fp.prime)), P ≠ 0 ∧ ERep _ _ e P ∧
      P256.curve.fromCompressed (P256.curve.toCompressed Curve.identity) = .ok e) ∧
    P256.curve.fromCompressed (comp 2 1) = .ok Curve.identity := by
  refine ⟨?_, ?_⟩
  · rw [((C70_encode C68_p256).2 (erep_identity C68_p256)).1]
    have hsq : IsSquare (((0 : Nat) : ZMod P256Fp.prime) ^ 3 + (-3) * ((0 : Nat) : ZMod P256Fp.prime) + (P256.b : ZMod P256Fp.prime)) := by
      have := eq_of_mod (p := P256Fp.prime) (u := P256.b)
        (v := 0x66485c780e2f83d72433bd5d84a06bb6541c2af31dae871728bf856a174f93f4 * 0x66485c780e2f83d72433bd5d84a06bb6541c2af31dae871728bf856a174f93f4)
        (by decide +kernel)
      rw [Nat.cast_mul] at this
      exact ⟨_, by rw [Nat.cast_zero, mul_zero, add_zero, zero_pow (by norm_num), zero_add]; exact this⟩
    obtain ⟨y, h, e, he, hr, -⟩ := ((C70_decompress C68_p256 (2 :: List.replicate 32 0)).2.2.2 ((0 : Nat) : ZMod P256Fp.prime) rfl (Or.inl rfl) (by
      rw [← val_of_lt (by decide +kernel)]; decide)).2 hsq
    exact ⟨e, _, WeierstrassCurve.Affine.Point.some_ne_zero _, hr, he⟩
  · have one : ¬ IsSquare (((1 : Nat) : ZMod P256Fp.prime) ^ 3 + (-3) * ((1 : Nat) : ZMod P256Fp.prime) + (P256.b : ZMod P256Fp.prime)) := by
      have := not_square (p := P256Fp.prime) (v := 1 ^ 3 + (P256Fp.prime - 3) * 1 + P256.b) (by decide +kernel) (by decide +kernel) (by decide +kernel) (by decide +kernel)
      rw [Nat.cast_add, Nat.cast_add, Nat.cast_mul, Nat.cast_pow, P256.neg3] at this
      exact this
    obtain ⟨l, s, v⟩ := comp_spec 2 1 (by norm_num)
    exact ((C70_decompress C68_p256 _).2.2.2 ((1 : Nat) : ZMod P256Fp.prime) l (Or.inl s) (by
      rw [v, ← val_of_lt (by decide +kernel)])).1 one

section
variable {p : Nat} [Fact p.Prime] {C : Curve} {a b : ZMod p} {G : Pt a b} (K : CurveOK C a b G)
include K

/-- **C70.** Both curves: `FromAffineUncompressed` accepts the encoding of the neutral element but the result is not the
neutral element and not a point of the curve at all; in general, whatever string is accepted, the result is a point of the
curve exactly when `IsOnCurve` says so. -/
theorem C70_uncompressed_unchecked :
    (∃ e, C.fromUncompressed (C.toUncompressed Curve.identity) = .ok e ∧ Curve.isIdentity e = false ∧
      ∀ P : Pt a b, ¬ ERep a b e P) ∧
    (∀ bs e, C.fromUncompressed bs = .ok e → ((∃ P : Pt a b, ERep a b e P) ↔ C.isOnCurve e = true)) := by
  have L := K.good.lawful
  have np : NeZero p := ⟨K.good.prime.ne_zero⟩
  have gen : ∀ {e : EP} {x y : ZMod p}, Rep p e.X x → Rep p e.Y y → Rep p e.Z 1 →
      ((∃ P : Pt a b, ERep a b e P) ↔ C.isOnCurve e = true) := by
    intro e x y hx hy hz
    have := (C70_isOnCurve K hx hy hz).2.1
    rw [this]
    constructor
    · rintro ⟨P, hP⟩
      refine ⟨P, ?_, hP⟩
      rintro rfl
      obtain ⟨X, Y, Z, hX, hY, hZ, hP⟩ := hP
      have z : Z = 0 := (prep_isZero hP).2 rfl
      rw [rep_value L hZ hz] at z
      exact one_ne_zero z
    · rintro ⟨P, -, hP⟩
      exact ⟨P, hP⟩
  refine ⟨?_, ?_⟩
  · rw [((C70_encode K).2 (erep_identity K)).2]
    obtain ⟨e, he, rx, ry, rz⟩ := (C70_uncompressed K (4 :: List.replicate 64 0)).2 0 0 rfl rfl
      (by rw [ZMod.val_zero]; decide) (by rw [ZMod.val_zero]; decide)
    refine ⟨e, he, ?_, ?_⟩
    · unfold Curve.isIdentity
      rw [(C50_equal L rz rz).2.2.1, if_neg one_ne_zero]
      rfl
    · intro P hP
      have := (C70_isOnCurve K rx ry rz).1.1 ((gen rx ry rz).1 ⟨P, hP⟩)
      apply K.noTwo 0
      linear_combination -this.2
  · intro bs e h
    obtain ⟨h1, h2⟩ := C70_uncompressed K bs
    have ok : ¬ (bs.length ≠ 65 ∨ bs.headD 0 ≠ 4 ∨ p ≤ beToNat ((bs.take 33).drop 1) ∨ p ≤ beToNat (bs.drop 33)) := by
      intro hc
      rw [h1 hc] at h
      exact absurd h nofun
    have o1 : bs.length = 65 := by_contra fun hc => ok (Or.inl hc)
    have o2 : bs.headD 0 = 4 := by_contra fun hc => ok (Or.inr (Or.inl hc))
    have o3 : beToNat ((bs.take 33).drop 1) < p := by_contra fun hc => ok (Or.inr (Or.inr (Or.inl (by omega))))
    have o4 : beToNat (bs.drop 33) < p := by_contra fun hc => ok (Or.inr (Or.inr (Or.inr (by omega))))
    obtain ⟨e', he, rx, ry, rz⟩ := h2 _ _ o1 o2 (val_of_lt o3) (val_of_lt o4)
    rw [he] at h
    injection h with h
    subst h
    exact gen rx ry rz

end

/-- **C70.** `IsNegative` is not the sign of the compressed encoding: on secp256k1 for a point with abscissa 1, on P-256 for
the generator. -/
theorem C70_isNegative_not_sign :
    (∃ (e : EP) (P : Pt (0 : ZMod K256Fp.prime) ((7 : Nat) : ZMod K256Fp.prime)), ERep _ _ e P ∧
      K256.curve.isNegative e = true ∧ (K256.curve.toCompressed e).headD 0 = 2) ∧
    P256.curve.isNegative P256.curve.generator = false ∧ (P256.curve.toCompressed P256.curve.generator).headD 0 = 3 := by
  refine ⟨?_, ?_, ?_⟩
  · have ey : ((0x4218f20ae6c646b363db68605822fb14264ca8d2587fdd6fbc750d587e76a7ee : Nat) : ZMod K256Fp.prime) ^ 2 =
        ((1 : Nat) : ZMod K256Fp.prime) ^ 3 + 0 * ((1 : Nat) : ZMod K256Fp.prime) + ((7 : Nat) : ZMod K256Fp.prime) := by
      have := eq_of_mod (p := K256Fp.prime) (u := 0x4218f20ae6c646b363db68605822fb14264ca8d2587fdd6fbc750d587e76a7ee ^ 2)
        (v := 1 ^ 3 + 7) (by decide +kernel)
      rw [Nat.cast_pow, Nat.cast_add, Nat.cast_pow] at this
      rw [zero_mul, add_zero]
      exact this
    have rx := rep_setLimbs K256Fp.lawful ⟨1, 0, 0, 0⟩ 1 (by decide +kernel)
    have ry := rep_setLimbs K256Fp.lawful ⟨0xbc750d587e76a7ee, 0x264ca8d2587fdd6f, 0x63db68605822fb14, 0x4218f20ae6c646b3⟩
      0x4218f20ae6c646b363db68605822fb14264ca8d2587fdd6fbc750d587e76a7ee (by decide +kernel)
    refine ⟨⟨_, _, Field.one K256Fp.params⟩, .some _ _ (nonsing K256.two K256.noTwo ey), ⟨_, _, 1, rx, ry, (C50_constants K256Fp.lawful).1,
      Or.inr ⟨one_ne_zero, _, _, _, rfl, (mul_one _).symm, (mul_one _).symm⟩⟩, by decide +kernel, by decide +kernel⟩
  · decide +kernel
  · decide +kernel

/-- **C71.** Both `elliptic.Curve` wrappers report `(0, 0)` as a point of the curve although it does not satisfy the equation,
accept unreduced and negative coordinates, and return `(nil, nil)` for the multiple by the group order, whose mathematical
value is the neutral element; a scalar of more than 32 bytes is truncated to its last 32. -/
theorem C71_wrapper_departures :
    K256.curve.ellIsOnCurve 0 0 = true ∧ P256.curve.ellIsOnCurve 0 0 = true ∧
    ((0 : ZMod K256Fp.prime) ^ 2 ≠ 0 ^ 3 + ((7 : Nat) : ZMod K256Fp.prime)) ∧
    ((0 : ZMod P256Fp.prime) ^ 2 ≠ 0 ^ 3 + -3 * 0 + (P256.b : ZMod P256Fp.prime)) ∧
    (∀ k : Int, K256.curve.ellIsOnCurve (K256.gx + k * K256Fp.prime) (K256.gy - k * K256Fp.prime) = true) ∧
    (∀ k : Int, P256.curve.ellIsOnCurve (P256.gx + k * P256Fp.prime) (P256.gy - k * P256Fp.prime) = true) ∧
    K256.curve.ellScalarBaseMult K256Fq.impl (natToBEfix 32 K256Fq.prime) = none ∧
    P256.curve.ellScalarBaseMult P256Fq.impl (natToBEfix 32 P256Fq.prime) = none ∧
    coords (K256Fq.prime • K256.G) = (0, 0) ∧ coords (P256Fq.prime • P256.G) = (0, 0) ∧
    (∀ pre k : List UInt8, k.length = 32 →
      K256.curve.ellScalarBaseMult K256Fq.impl (pre ++ k) = K256.curve.ellScalarBaseMult K256Fq.impl k ∧
      P256.curve.ellScalarBaseMult P256Fq.impl (pre ++ k) = P256.curve.ellScalarBaseMult P256Fq.impl k) := by
  have drop : ∀ pre k : List UInt8, k.length = 32 → (pre ++ k).drop ((pre ++ k).length - 32) = k.drop (k.length - 32) := by
    intro pre k hk
    rw [List.length_append, hk, Nat.add_sub_cancel, Nat.sub_self, List.drop_zero, List.drop_left' rfl]
  have bn : ∀ q, q < 2 ^ 256 → beToNat ((natToBEfix 32 q).drop ((natToBEfix 32 q).length - 32)) = q := by
    intro q hq
    rw [length_natToBEfix, Nat.sub_self, List.drop_zero, beToNat_natToBEfix, pow256, Nat.mod_eq_of_lt hq]
  have cast : ∀ {p : Nat} (g : Nat) (k : Int), (((g : Int) + k * p : Int) : ZMod p) = (g : ZMod p) ∧
      (((g : Int) - k * p : Int) : ZMod p) = (g : ZMod p) := by
    intro p g k
    constructor
    · rw [Int.cast_add, Int.cast_mul, Int.cast_natCast, Int.cast_natCast, ZMod.natCast_self, mul_zero, add_zero]
    · rw [Int.cast_sub, Int.cast_mul, Int.cast_natCast, Int.cast_natCast, ZMod.natCast_self, mul_zero, sub_zero]
  refine ⟨?_, ?_, ?_, ?_, fun k => ?_, fun k => ?_, ?_, ?_, ?_, ?_, fun pre k hk => ⟨?_, ?_⟩⟩
  · exact (C71_isOnCurve C68_k256 0 0).2 ⟨0, Or.inl ⟨Int.cast_zero, Int.cast_zero, rfl⟩⟩
  · exact (C71_isOnCurve C68_p256 0 0).2 ⟨0, Or.inl ⟨Int.cast_zero, Int.cast_zero, rfl⟩⟩
  · intro h
    apply K256.noTwo 0
    linear_combination -h
  · intro h
    apply P256.noTwo 0
    linear_combination -h
  · refine (C71_isOnCurve C68_k256 _ _).2 ⟨.some _ _ ?_, Or.inr ⟨?_, rfl⟩⟩ <;>
      rw [(cast _ k).1, (cast _ k).2] <;> exact nonsing K256.two K256.noTwo K256.on_curve
  · refine (C71_isOnCurve C68_p256 _ _).2 ⟨.some _ _ ?_, Or.inr ⟨?_, rfl⟩⟩ <;>
      rw [(cast _ k).1, (cast _ k).2] <;> exact nonsing P256.two P256.noTwo P256.on_curve
  · exact ((C71_scalarMult C68_k256 C50_k256Fq 0 0 _).2.2.1 (bn _ (by decide +kernel)).ge).2
  · exact ((C71_scalarMult C68_p256 C50_p256Fq 0 0 _).2.2.1 (bn _ (by decide +kernel)).ge).2
  · rw [K256.order_G]; rfl
  · rw [P256.order_G]; rfl
  · obtain ⟨-, a1, a2, -⟩ := C71_scalarMult C68_k256 C50_k256Fq 0 0 (pre ++ k)
    obtain ⟨-, b1, b2, -⟩ := C71_scalarMult C68_k256 C50_k256Fq 0 0 k
    rw [drop pre k hk] at a1 a2
    rcases Nat.lt_or_ge (beToNat (k.drop (k.length - 32))) K256Fq.prime with h | h
    · rw [a1 h, b1 h]
    · rw [(a2 h).2, (b2 h).2]
  · obtain ⟨-, a1, a2, -⟩ := C71_scalarMult C68_p256 C50_p256Fq 0 0 (pre ++ k)
    obtain ⟨-, b1, b2, -⟩ := C71_scalarMult C68_p256 C50_p256Fq 0 0 k
    rw [drop pre k hk] at a1 a2
    rcases Nat.lt_or_ge (beToNat (k.drop (k.length - 32))) P256Fq.prime with h | h
    · rw [a1 h, b1 h]
    · rw [(a2 h).2, (b2 h).2]

end Verif.Native
