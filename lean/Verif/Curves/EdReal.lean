import Verif.Curves.EdHash
import Verif.Curves.EdGroup
import Verif.Curves.EdLib
import Verif.Curves.EcScalarApi

/-!
# `EdReal`: the points of Ed25519 are a group of order `8 ℓ`

The group law comes from `EdGroup`; the order from a point of order `ℓ`, a point of order eight and the trivial bound of two points for every
second coordinate.  With it the contract `EdLib` is met by the curve itself.
-/

set_option linter.unusedSectionVars false

namespace Verif.Ed25519
open Verif.Bytes Verif.Native
open Verif.Ec.EdSc (ell)

/-! ## The curve -/

theorem c_ne : (121666 : K) ≠ 0 := by
  have := small_ne (n := 121666) (by decide +kernel)
  exact_mod_cast this

theorem edD_mul : edD * 121666 = -121665 := by
  unfold edD
  rw [div_mul_cancel₀ _ c_ne]

theorem A2_ne : montA + 2 ≠ 0 := by
  have := small_ne (n := 486664) (by decide +kernel)
  have e : montA + 2 = ((486664 : Nat) : K) := by rw [montA_val]; push_cast; norm_num
  rwa [e]

/-- `d = -(A - 2)/(A + 2)`. -/
theorem edD_mont : edD * (montA + 2) = -(montA - 2) := by
  have h := edD_mul
  rw [montA_val]
  linear_combination 4 * h

theorem ns_d : ¬ IsSquare edD := by
  rintro ⟨y, hy⟩
  obtain ⟨s, hs⟩ := sq_negA2
  apply ns_Am2
  refine ⟨y * s, ?_⟩
  have h := edD_mont
  linear_combination h + edD * hs + s * s * hy

theorem good : Edwards.Good edD sqrtM1 := ⟨sqrtM1_sq, ns_d, two_ne⟩

/-- The points of the curve. -/
@[ext] structure E where
  pt : Pnt
  on : OnCurve pt

instance : Add E := ⟨fun P Q => ⟨add P.1 Q.1, Edwards.on_add good P.2 Q.2⟩⟩
instance : Zero E := ⟨⟨identity, Edwards.on_zero⟩⟩
instance : Neg E := ⟨fun P => ⟨neg P.1, Edwards.on_neg P.2⟩⟩

instance : AddCommGroup E where
  nsmul := nsmulRec
  zsmul := zsmulRec
  add_assoc P Q R := E.ext (Edwards.add_assoc' good P.2 Q.2 R.2)
  add_comm P Q := E.ext (Edwards.add_comm' P.1 Q.1)
  zero_add P := E.ext (Edwards.zero_add' P.1)
  add_zero P := E.ext ((Edwards.add_comm' P.1 identity).trans (Edwards.zero_add' P.1))
  neg_add_cancel P := E.ext (Edwards.neg_add' good P.2)

theorem coe_add (P Q : E) : (P + Q).1 = add P.1 Q.1 := rfl
theorem coe_zero : (0 : E).1 = (0, 1) := rfl
theorem coe_neg (P : E) : (-P).1 = (-P.1.1, P.1.2) := rfl

theorem den_y (y : K) : edD * y ^ 2 + 1 ≠ 0 := by
  intro h
  have hy : y ≠ 0 := by
    rintro rfl
    rw [zero_pow two_ne_zero, mul_zero, zero_add] at h
    exact one_ne_zero h
  refine ns_d ⟨sqrtM1 / y, ?_⟩
  field_simp
  linear_combination h - sqrtM1_sq

theorem on_iff (x y : K) : OnCurve (x, y) ↔ x ^ 2 * (edD * y ^ 2 + 1) = y ^ 2 - 1 := by
  unfold OnCurve
  dsimp only
  constructor <;> intro h
  · linear_combination -h
  · linear_combination -h

theorem neg_parity {x : K} (h : x ≠ 0) : (-x).val % 2 ≠ x.val % 2 := by
  have hp2 : p % 2 = 1 := by decide +kernel
  rw [ZMod.neg_val, if_neg h]
  have := ZMod.val_lt x
  omega

/-- Two points with the same second coordinate are equal or opposite. -/
theorem same_y {x x' y : K} (h : OnCurve (x, y)) (h' : OnCurve (x', y)) : x' = x ∨ x' = -x := by
  rw [on_iff] at h h'
  have : (x' - x) * (x' + x) * (edD * y ^ 2 + 1) = 0 := by linear_combination h' - h
  rcases mul_eq_zero.1 ((mul_eq_zero.1 this).resolve_right (den_y y)) with h | h
  · exact Or.inl (sub_eq_zero.1 h)
  · exact Or.inr (eq_neg_of_add_eq_zero_left h)

theorem same_parity {x x' y : K} (h : OnCurve (x, y)) (h' : OnCurve (x', y)) (hp : x'.val % 2 = x.val % 2) : x' = x := by
  rcases same_y h h' with h | h
  · exact h
  · by_cases hx : x = 0
    · rw [h, hx, neg_zero]
    · rw [h] at hp
      exact absurd hp (neg_parity hx)

instance : Finite E := Finite.of_injective (fun P : E => P.1) (fun _ _ h => E.ext h)

theorem card_le : Nat.card E ≤ 2 * p := by
  have hinj : Function.Injective (fun P : E => ((P.1.2, decide (P.1.1.val % 2 = 1)) : K × Bool)) := by
    rintro ⟨⟨x, y⟩, hP⟩ ⟨⟨x', y'⟩, hQ⟩ h
    have h1 : y = y' := (Prod.mk.inj h).1
    have h2 := decide_eq_decide.1 (Prod.mk.inj h).2
    dsimp only at h2
    subst h1
    have := same_parity hQ hP (by
      rcases Nat.mod_two_eq_zero_or_one x.val with a | a <;> rcases Nat.mod_two_eq_zero_or_one x'.val with b | b <;> simp_all)
    subst this
    rfl
  refine le_trans (Nat.card_le_card_of_injective _ hinj) ?_
  rw [Nat.card_prod, Nat.card_zmod, Nat.card_eq_fintype_card, Fintype.card_bool, mul_comm]

/-! ## Computing multiples -/

/-- `d` as a number. -/
def dN : Nat := 0x52036cee2b6ffe738cc740797779e89800700a4d4141d8ab75eb4dca135978a3

theorem dN_eq : (dN : K) = edD := by
  have h : ((dN * 121666 + 121665 : Nat) : K) = 0 := (ZMod.natCast_eq_zero_iff _ _).2 (by decide +kernel)
  rw [Nat.cast_add, Nat.cast_mul] at h
  have h2 := edD_mul
  have : ((dN : K) - edD) * 121666 = 0 := by
    have h3 : (dN : K) * 121666 + 121665 = 0 := h
    linear_combination h3 - h2
  exact sub_eq_zero.1 ((mul_eq_zero.1 this).resolve_right c_ne)

/-- Projective coordinates. -/
structure T3 where
  x : Nat
  y : Nat
  z : Nat

def T3.zero : T3 := ⟨0, 1, 1⟩

def padd (P Q : T3) : T3 :=
  let a := P.z * Q.z % p
  let b := a * a % p
  let c := P.x * Q.x % p
  let e := P.y * Q.y % p
  let t := dN * c * e % p
  let f := (b + (p - t)) % p
  let g := (b + t) % p
  ⟨a * f * (P.x * Q.y + Q.x * P.y) % p, a * g * (e + c) % p, f * g % p⟩

def pmul : Nat → Nat → T3 → T3
  | 0, _, _ => T3.zero
  | f + 1, k, P =>
    if k = 0 then T3.zero
    else
      let r := pmul f (k / 2) (padd P P)
      if k % 2 = 1 then padd P r else r

/-- `t` represents `P`. -/
def Rep3 (t : T3) (P : E) : Prop := (t.z : K) ≠ 0 ∧ (t.x : K) = P.1.1 * t.z ∧ (t.y : K) = P.1.2 * t.z

theorem rep_zero : Rep3 T3.zero 0 := by
  unfold Rep3 T3.zero
  rw [coe_zero]
  refine ⟨?_, ?_, ?_⟩ <;> simp

theorem rep_add_alg {x1 y1 z1 x2 y2 z2 X1 Y1 X2 Y2 : K} (h1 : X1 = x1 * z1) (h2 : Y1 = y1 * z1) (h3 : X2 = x2 * z2) (h4 : Y2 = y2 * z2)
    (n1 : 1 + edD * x1 * x2 * y1 * y2 ≠ 0) (n2 : 1 - edD * x1 * x2 * y1 * y2 ≠ 0) (hz1 : z1 ≠ 0) (hz2 : z2 ≠ 0) {F G : K}
    (hF : F = z1 * z2 * (z1 * z2) - edD * (X1 * X2) * (Y1 * Y2)) (hG : G = z1 * z2 * (z1 * z2) + edD * (X1 * X2) * (Y1 * Y2)) :
    F * G ≠ 0 ∧ z1 * z2 * F * (X1 * Y2 + X2 * Y1) = (x1 * y2 + x2 * y1) / (1 + edD * x1 * x2 * y1 * y2) * (F * G) ∧
      z1 * z2 * G * (Y1 * Y2 + X1 * X2) = (y1 * y2 + x1 * x2) / (1 - edD * x1 * x2 * y1 * y2) * (F * G) := by
  have eF : F = (z1 * z2) ^ 2 * (1 - edD * x1 * x2 * y1 * y2) := by rw [hF, h1, h2, h3, h4]; ring
  have eG : G = (z1 * z2) ^ 2 * (1 + edD * x1 * x2 * y1 * y2) := by rw [hG, h1, h2, h3, h4]; ring
  have hz : (z1 * z2) ^ 2 ≠ 0 := pow_ne_zero _ (mul_ne_zero hz1 hz2)
  refine ⟨by rw [eF, eG]; exact mul_ne_zero (mul_ne_zero hz n2) (mul_ne_zero hz n1), ?_, ?_⟩
  · rw [eG, h1, h2, h3, h4]
    generalize 1 + edD * x1 * x2 * y1 * y2 = u at n1
    field_simp
  · rw [eF, h1, h2, h3, h4]
    generalize 1 - edD * x1 * x2 * y1 * y2 = u at n2
    field_simp

theorem rep_add {s t : T3} {P Q : E} (hs : Rep3 s P) (ht : Rep3 t Q) : Rep3 (padd s t) (P + Q) := by
  obtain ⟨a1, a2, a3⟩ := hs
  obtain ⟨b1, b2, b3⟩ := ht
  obtain ⟨n1, n2⟩ := Edwards.complete good P.2 Q.2
  have hp : ((p : Nat) : K) = 0 := ZMod.natCast_self p
  have key := rep_add_alg a2 a3 b2 b3 n1 n2 a1 b1 rfl rfl
  unfold Rep3
  rw [coe_add]
  have ef : (((s.z * t.z % p * (s.z * t.z % p) % p + (p - dN * (s.x * t.x % p) * (s.y * t.y % p) % p)) % p : Nat) : K) =
      (s.z : K) * t.z * (s.z * t.z) - edD * (s.x * t.x) * (s.y * t.y) := by
    rw [ZMod.natCast_mod, Nat.cast_add, Nat.cast_sub (le_of_lt (Nat.mod_lt _ fact_p.out.pos)), hp]
    rw [ZMod.natCast_mod, ZMod.natCast_mod]
    push_cast
    rw [ZMod.natCast_mod, ZMod.natCast_mod, ZMod.natCast_mod]
    push_cast
    rw [dN_eq]
    ring
  have eg : (((s.z * t.z % p * (s.z * t.z % p) % p + dN * (s.x * t.x % p) * (s.y * t.y % p) % p) % p : Nat) : K) =
      (s.z : K) * t.z * (s.z * t.z) + edD * (s.x * t.x) * (s.y * t.y) := by
    rw [ZMod.natCast_mod, Nat.cast_add]
    rw [ZMod.natCast_mod, ZMod.natCast_mod]
    push_cast
    rw [ZMod.natCast_mod, ZMod.natCast_mod, ZMod.natCast_mod]
    push_cast
    rw [dN_eq]
  have ez : (((padd s t).z : Nat) : K) = ((s.z : K) * t.z * (s.z * t.z) - edD * (s.x * t.x) * (s.y * t.y)) *
      ((s.z : K) * t.z * (s.z * t.z) + edD * (s.x * t.x) * (s.y * t.y)) := by
    unfold padd
    dsimp only
    rw [ZMod.natCast_mod, Nat.cast_mul, ef, eg]
  have ex : (((padd s t).x : Nat) : K) = (s.z : K) * t.z * ((s.z : K) * t.z * (s.z * t.z) - edD * (s.x * t.x) * (s.y * t.y)) *
      (s.x * t.y + t.x * s.y) := by
    unfold padd
    dsimp only
    rw [ZMod.natCast_mod, Nat.cast_mul, Nat.cast_mul, ef, ZMod.natCast_mod]
    push_cast
    rfl
  have ey : (((padd s t).y : Nat) : K) = (s.z : K) * t.z * ((s.z : K) * t.z * (s.z * t.z) + edD * (s.x * t.x) * (s.y * t.y)) *
      (s.y * t.y + s.x * t.x) := by
    unfold padd
    dsimp only
    rw [ZMod.natCast_mod, Nat.cast_mul, Nat.cast_mul, eg, ZMod.natCast_mod, Nat.cast_add, ZMod.natCast_mod, ZMod.natCast_mod]
    push_cast
    rfl
  rw [ex, ey, ez]
  exact key

theorem rep_mul : ∀ (f k : Nat) (t : T3) (P : E), Rep3 t P → k < 2 ^ f → Rep3 (pmul f k t) (k • P) := by
  intro f
  induction f with
  | zero =>
    intro k t P _ hk
    rw [pow_zero, Nat.lt_one_iff] at hk
    subst hk
    rw [zero_nsmul]
    exact rep_zero
  | succ f ih =>
    intro k t P ht hk
    unfold pmul
    by_cases hk0 : k = 0
    · rw [if_pos hk0, hk0, zero_nsmul]
      exact rep_zero
    · rw [if_neg hk0]
      have hr := ih (k / 2) (padd t t) (P + P) (rep_add ht ht) (by rw [pow_succ] at hk; omega)
      have e2 : (k / 2) • (P + P) = (k / 2 * 2) • P := by rw [mul_nsmul', two_nsmul]
      rw [e2] at hr
      dsimp only
      by_cases h1 : k % 2 = 1
      · rw [if_pos h1]
        have e : k • P = P + (k / 2 * 2) • P := by
          have : k = 1 + k / 2 * 2 := by omega
          conv_lhs => rw [this, add_nsmul, one_nsmul]
        rw [e]
        exact rep_add ht hr
      · rw [if_neg h1]
        have : k / 2 * 2 = k := by omega
        rw [this] at hr
        exact hr

theorem rep_is_zero {t : T3} {P : E} (h : Rep3 t P) : P = 0 ↔ (t.x : K) = 0 ∧ (t.y : K) = t.z := by
  obtain ⟨h1, h2, h3⟩ := h
  constructor
  · rintro rfl
    rw [coe_zero] at h2 h3
    exact ⟨by rw [h2, zero_mul], by rw [h3, one_mul]⟩
  · rintro ⟨h4, h5⟩
    rw [h4] at h2
    rw [h5] at h3
    apply E.ext
    rw [coe_zero]
    refine Prod.ext ?_ ?_
    · exact (mul_eq_zero.1 h2.symm).resolve_right h1
    · exact mul_right_cancel₀ h1 (by rw [← h3, one_mul])

/-- A point by its coordinates as numbers. -/
theorem on_nat {x y : Nat} (h : (121666 * y ^ 2 + 121665 * x ^ 2 * y ^ 2) % p = (121666 * (1 + x ^ 2)) % p) :
    OnCurve ((x : K), (y : K)) := by
  have h' : ((121666 * y ^ 2 + 121665 * x ^ 2 * y ^ 2 : Nat) : K) = ((121666 * (1 + x ^ 2) : Nat) : K) :=
    (ZMod.natCast_eq_natCast_iff _ _ _).2 h
  push_cast at h'
  unfold OnCurve
  dsimp only
  have hd := edD_mul
  have : 121666 * (-(x : K) ^ 2 + (y : K) ^ 2) = 121666 * (1 + edD * (x : K) ^ 2 * (y : K) ^ 2) := by
    linear_combination h' - (x : K) ^ 2 * (y : K) ^ 2 * hd
  exact mul_left_cancel₀ c_ne this

theorem rep_nat {x y : Nat} (h : OnCurve ((x : K), (y : K))) : Rep3 ⟨x, y, 1⟩ ⟨_, h⟩ := by
  refine ⟨?_, ?_, ?_⟩ <;> simp

/-- A multiple of a point is the neutral element: by computation. -/
theorem mul_zero_iff {x y : Nat} (h : OnCurve ((x : K), (y : K))) (k : Nat) (hk : k < 2 ^ 260) :
    k • (⟨_, h⟩ : E) = 0 ↔ (pmul 260 k ⟨x, y, 1⟩).x % p = 0 ∧ (pmul 260 k ⟨x, y, 1⟩).y % p = (pmul 260 k ⟨x, y, 1⟩).z % p := by
  rw [rep_is_zero (rep_mul 260 k _ _ (rep_nat h) hk), ZMod.natCast_eq_zero_iff, Nat.dvd_iff_mod_eq_zero, ZMod.natCast_eq_natCast_iff]
  rfl

/-! ## Three points and the order of the group -/

def bx : Nat := 0x216936d3cd6e53fec0a4e231fdd6dc5c692cc7609525a7b2c9562d608f25d51a
def bY : Nat := 0x6666666666666666666666666666666666666666666666666666666666666658
def ex : Nat := 0x602a465ff9c6b5d716cc66cdc721b544a3e6c38fec1a1dc7215eb9b93aba2ea3
def ey : Nat := 0x5fc536d880238b13933c6d305acdfd5f098eff289f4c345b027b2c28f95e826
def fx : Nat := 0x2b8324804fc1df0b2b4d00993dfbd7a72f431806ad2fe478c4ee1b274a0ea0b0

theorem base_on : OnCurve ((bx : K), (bY : K)) := on_nat (by decide +kernel)
theorem eight_on : OnCurve ((ex : K), (ey : K)) := on_nat (by decide +kernel)
theorem four_on : OnCurve ((fx : K), ((0 : Nat) : K)) := on_nat (by decide +kernel)

/-- The base point. -/
def base : E := ⟨_, base_on⟩
/-- A point of order eight. -/
def eight : E := ⟨_, eight_on⟩
/-- A point of order four. -/
def four : E := ⟨_, four_on⟩

theorem base_order : ell • base = 0 := (mul_zero_iff base_on ell (by decide +kernel)).2 (by decide +kernel)

theorem base_ne : base ≠ 0 := fun h => by
  have := (mul_zero_iff base_on 1 (by decide +kernel)).1 (by rw [one_nsmul]; exact h)
  revert this
  decide +kernel

theorem eight_order : addOrderOf eight = 8 := by
  have h8 : 8 • eight = 0 := (mul_zero_iff eight_on 8 (by decide +kernel)).2 (by decide +kernel)
  have h4 : 4 • eight ≠ 0 := fun h => by
    have := (mul_zero_iff eight_on 4 (by decide +kernel)).1 h
    revert this
    decide +kernel
  have : Fact (Nat.Prime 2) := ⟨Nat.prime_two⟩
  exact addOrderOf_eq_prime_pow (p := 2) (n := 2) h4 h8

theorem four_order : 4 • four = 0 := (mul_zero_iff four_on 4 (by decide +kernel)).2 (by decide +kernel)

theorem four_ne : 2 • four ≠ 0 := fun h => by
  have := (mul_zero_iff four_on 2 (by decide +kernel)).1 h
  revert this
  decide +kernel

/-- The number of points. -/
theorem card_E : Nat.card E = 8 * ell := by
  have h8 : 8 ∣ Nat.card E := by
    have := addOrderOf_dvd_natCard eight
    rwa [eight_order] at this
  have hl : ell ∣ Nat.card E := by
    have := addOrderOf_dvd_natCard base
    rwa [addOrderOf_eq_prime (hp := Verif.Ec.EdSc.fact_ell) base_order base_ne] at this
  have hc : Nat.Coprime 8 ell := by decide +kernel
  obtain ⟨k, hk⟩ := hc.mul_dvd_of_dvd_of_dvd h8 hl
  have hpos : 0 < Nat.card E := Nat.card_pos
  have hle := card_le
  have hlt : 2 * p < 8 * ell * 2 := by decide +kernel
  have hell : 0 < 8 * ell := by decide +kernel
  generalize 8 * ell = m at *
  have : k = 1 := by
    have h1 : k < 2 := by
      by_contra h
      have : m * 2 ≤ m * k := Nat.mul_le_mul_left _ (by omega)
      omega
    have h2 : k ≠ 0 := by rintro rfl; omega
    omega
  rw [hk, this, Nat.mul_one]

theorem kills (P : E) : (8 * ell) • P = 0 := by
  rw [← card_E]
  exact card_nsmul_eq_zero'

end Verif.Ed25519
