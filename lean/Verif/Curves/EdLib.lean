import Verif.Curves.EcScalar
import Verif.Base.Tactics

/-!
# `EdLib`: what the code uses of `filippo.io/edwards25519`

The library is not part of the repository; this is its documented behaviour as a contract: the points are an abelian group killed by `8 ℓ`, with a
base point of order `ℓ` and encodings of 32 bytes that decode to the point they encode.  `toyEd` shows that the contract can be met.
-/

set_option linter.unusedSectionVars false

namespace Verif.Ed
open Verif.Bytes
open Verif.Ec.EdSc (ell)

/-- The point group with its encoding. -/
structure EdLib (A : Type) [AddCommGroup A] where
  /-- `NewGeneratorPoint()` -/
  base : A
  /-- `Bytes()` -/
  enc : A → List UInt8
  /-- `SetBytes`: `none` is the error of an invalid encoding -/
  dec : List UInt8 → Option A
  length_enc : ∀ P, (enc P).length = 32
  dec_enc : ∀ P, dec (enc P) = some P
  dec_length : ∀ l P, dec l = some P → l.length = 32
  kills : ∀ P : A, (8 * ell) • P = 0
  base_order : ell • base = 0
  base_ne : base ≠ 0
  /-- the encoding of the neutral element: `y = 1` -/
  enc_zero : enc 0 = 1 :: List.replicate 31 0
  /-- the encoding `y = 0` is that of a point of order four -/
  four : A
  four_order : 4 • four = 0
  four_ne : 2 • four ≠ 0
  enc_four : enc four = List.replicate 32 0
  /-- a point and its negative have the same `y` coordinate: the encodings differ in the top bit of the last byte only -/
  enc_neg : ∀ P, leToNat (enc (-P)) % 2 ^ 255 = leToNat (enc P) % 2 ^ 255
  /-- `y = 4/5` with an even `x` -/
  enc_base : enc base = 0x58 :: List.replicate 31 0x66

variable {A : Type} [AddCommGroup A]

theorem EdLib.enc_inj (L : EdLib A) {P Q : A} (h : L.enc P = L.enc Q) : P = Q := by
  have := L.dec_enc P
  rw [h, L.dec_enc] at this
  exact (Option.some.inj this).symm

/-- Reducing a multiplier modulo `ℓ` changes nothing on the prime order subgroup. -/
theorem mod_smul {P : A} (h : ell • P = 0) (k : Nat) : (k % ell) • P = k • P := by
  conv_rhs => rw [← Nat.mod_add_div k ell, add_nsmul, mul_nsmul, h, nsmul_zero, add_zero]

/-! ## The contract can be met -/

namespace Toy

/-- Twice twice `ℓ`: the exponent of the group. -/
abbrev n8 : Nat := 8 * ell

instance : NeZero n8 := ⟨by decide +kernel⟩

/-- The encoding of `4/5`. -/
abbrev yB : Nat := 0x6666666666666666666666666666666666666666666666666666666666666658

/-- A rearrangement of the magnitudes that puts three of them where the real encodings are. -/
def sigma : Equiv.Perm Nat := (Equiv.swap 0 1).trans ((Equiv.swap 0 (2 * ell)).trans (Equiv.swap 8 yB))

theorem sigma_vals : sigma 0 = 1 ∧ sigma (2 * ell) = 0 ∧ sigma 8 = yB := by
  unfold sigma
  simp only [Equiv.trans_apply, Equiv.swap_apply_def]
  decide +kernel

theorem swap_lt {N a b x : Nat} (ha : a < N) (hb : b < N) (hx : x < N) : Equiv.swap a b x < N := by
  rw [Equiv.swap_apply_def]
  split
  · exact hb
  · split
    · exact ha
    · exact hx

theorem sigma_lt {x : Nat} (hx : x < 2 ^ 255) : sigma x < 2 ^ 255 := by
  unfold sigma
  rw [Equiv.trans_apply, Equiv.trans_apply]
  exact swap_lt (by decide +kernel) (by decide +kernel) (swap_lt (by decide +kernel) (by decide +kernel)
    (swap_lt (by decide +kernel) (by decide +kernel) hx))

/-- The magnitude and the sign of a residue. -/
def mag (v : ZMod n8) : Nat := if v.val ≤ 4 * ell then v.val else n8 - v.val
def neg? (v : ZMod n8) : Nat := if v.val ≤ 4 * ell then 0 else 1

def code (v : ZMod n8) : Nat := sigma (mag v) + 2 ^ 255 * neg? v

theorem mag_lt (v : ZMod n8) : mag v ≤ 4 * ell ∧ 4 * ell < 2 ^ 255 := by
  refine ⟨?_, by decide +kernel⟩
  unfold mag
  split
  · assumption
  · have := ZMod.val_lt v
    show n8 - v.val ≤ 4 * ell
    have : n8 = 8 * ell := rfl
    omega

theorem code_parts (v : ZMod n8) : code v % 2 ^ 255 = sigma (mag v) ∧ code v / 2 ^ 255 = neg? v := by
  have h := sigma_lt (lt_of_le_of_lt (mag_lt v).1 (mag_lt v).2)
  unfold code
  constructor
  · rw [Nat.add_mul_mod_self_left, Nat.mod_eq_of_lt h]
  · rw [Nat.add_mul_div_left _ _ (by norm_num), Nat.div_eq_of_lt h, Nat.zero_add]

theorem code_lt (v : ZMod n8) : code v < 256 ^ 32 := by
  have h := sigma_lt (lt_of_le_of_lt (mag_lt v).1 (mag_lt v).2)
  have e : (256 : Nat) ^ 32 = 2 ^ 255 + 2 ^ 255 := by norm_num
  have h1 : neg? v ≤ 1 := by unfold neg?; split <;> omega
  unfold code
  rw [e]
  have : 2 ^ 255 * neg? v ≤ 2 ^ 255 := by
    calc 2 ^ 255 * neg? v ≤ 2 ^ 255 * 1 := Nat.mul_le_mul_left _ h1
      _ = 2 ^ 255 := Nat.mul_one _
  omega

theorem mag_neg (v : ZMod n8) : mag (-v) = mag v := by
  have hv := ZMod.val_lt v
  have hn : n8 = 8 * ell := rfl
  unfold mag
  by_cases h0 : v = 0
  · rw [h0, neg_zero]
  · have e : (-v).val = n8 - v.val := by rw [ZMod.neg_val, if_neg h0]
    have hp : 0 < v.val := by
      rcases Nat.eq_zero_or_pos v.val with h | h
      · exact absurd ((ZMod.val_eq_zero v).1 h) h0
      · exact h
    rw [e]
    split <;> split <;> omega

theorem code_inj {v w : ZMod n8} (h : code v = code w) : v = w := by
  have h1 := (code_parts v).1
  have h2 := (code_parts v).2
  rw [h, (code_parts w).1] at h1
  rw [h, (code_parts w).2] at h2
  have h1 : mag w = mag v := sigma.injective h1
  apply ZMod.val_injective
  have hv := ZMod.val_lt v
  have hw := ZMod.val_lt w
  unfold mag at h1
  unfold neg? at h2
  split at h1 <;> split at h1 <;> simp_all <;> omega

theorem code_small {k : Nat} (h : k ≤ 4 * ell) : code (k : ZMod n8) = sigma k := by
  have hv : ((k : ZMod n8)).val = k := by
    rw [ZMod.val_natCast]
    exact Nat.mod_eq_of_lt (lt_of_le_of_lt h (by decide +kernel))
  unfold code mag neg?
  rw [hv, if_pos h, if_pos h, Nat.mul_zero, Nat.add_zero]

theorem kill {n : Nat} (P : ZMod n) : n • P = 0 := by rw [nsmul_eq_mul, ZMod.natCast_self, zero_mul]

theorem smul_cast (k m : Nat) : k • (m : ZMod n8) = ((k * m : Nat) : ZMod n8) := by
  rw [nsmul_eq_mul, Nat.cast_mul]

theorem cast_ne {m : Nat} (h : m % n8 ≠ 0) : (m : ZMod n8) ≠ 0 := by
  intro h0
  exact h (Nat.mod_eq_zero_of_dvd ((ZMod.natCast_eq_zero_iff _ _).1 h0))

end Toy

open Classical Toy in
/-- A group meeting the contract: the integers modulo `8 ℓ`, with signed magnitudes as encodings. -/
noncomputable def toyEd : EdLib (ZMod n8) where
  base := ((8 : Nat) : ZMod n8)
  enc v := natToLE 32 (code v)
  dec l := if h : l.length = 32 ∧ ∃ v, code v = leToNat l then some h.2.choose else none
  length_enc _ := length_natToLE _ _
  dec_enc v := by
    have e : leToNat (natToLE 32 (code v)) = code v := by
      rw [leToNat_natToLE, Nat.mod_eq_of_lt (code_lt v)]
    have h : (natToLE 32 (code v)).length = 32 ∧ ∃ w, code w = leToNat (natToLE 32 (code v)) := ⟨length_natToLE _ _, v, e.symm⟩
    rw [dif_pos h]
    have h3 : h.2.choose = v := code_inj (h.2.choose_spec.trans e)
    rw [h3]
  dec_length l P h := by
    by_contra hc
    rw [dif_neg (fun hh => hc hh.1)] at h
    cases h
  kills P := kill P
  base_order := by
    rw [smul_cast, ZMod.natCast_eq_zero_iff]
    decide +kernel
  base_ne := cast_ne (by decide +kernel)
  enc_zero := by
    have h := code_small (k := 0) (Nat.zero_le _)
    rw [Nat.cast_zero, sigma_vals.1] at h
    rw [h]
    decide +kernel
  four := ((2 * ell : Nat) : ZMod n8)
  four_order := by
    rw [smul_cast, ZMod.natCast_eq_zero_iff]
    decide +kernel
  four_ne := by
    rw [smul_cast]
    exact cast_ne (by decide +kernel)
  enc_four := by
    rw [code_small (by decide +kernel), sigma_vals.2.1]
    decide +kernel
  enc_neg P := by
    rw [leToNat_natToLE, leToNat_natToLE, Nat.mod_eq_of_lt (code_lt _), Nat.mod_eq_of_lt (code_lt _), (code_parts _).1, (code_parts _).1, mag_neg]
  enc_base := by
    rw [code_small (by decide +kernel), sigma_vals.2.2]
    decide +kernel

end Verif.Ed
