import Verif.Paillier.Model
import Verif.Core.Props
import Verif.Base.Tactics
import Mathlib.FieldTheory.Finite.Basic
import Mathlib.Data.Int.ModEq

/-! Number-theoretic lemmas for the Paillier properties. -/

set_option linter.unusedSectionVars false

namespace Verif.Paillier
open Verif

/-- `1+kN` to the `n` modulo `N²` -/
theorem one_add_pow (N k : Int) (n : Nat) : (1 + k * N) ^ n ≡ 1 + n * k * N [ZMOD N * N] := by
  induction n with
  | zero => simp
  | succ n ih =>
    rw [pow_succ]
    refine (ih.mul_right _).trans ?_
    rw [Int.modEq_iff_dvd]
    refine ⟨-(n * k * k), ?_⟩
    push_cast; ring

theorem ceq (a b : Int) : CoreMod.constantTimeEq (some a) (some b) = decide (a = b) := by
  have := (CoreMod.C40_in_eq (some a) (some b)).2
  by_cases h : a = b
  · rw [decide_eq_true h]; exact this.2 (by rw [h])
  · rw [decide_eq_false h]
    cases hc : CoreMod.constantTimeEq (some a) (some b)
    · rfl
    · exact absurd (Option.some.inj (this.1 hc)) h

theorem inZm_eq (a b : Int) : CoreMod.inZm (some a) (some b) = decide (0 ≤ a ∧ a < b) := by
  simp [CoreMod.inZm]

theorem expDeref_eq {x y m : Int} (hm : m ≠ 0) (hy : 0 ≤ y) :
    expDeref x y m = .ok (x ^ y.toNat % m) := by
  simp [expDeref, Big.exp, hm, hy]

theorem mul_eq {x y m : Int} (hm : m ≠ 0) : CoreMod.mul (some x) (some y) (some m) = .ok (x * y % m) := by
  simp [CoreMod.mul, Big.mod, hm]

/-- `l` on a residue `1 + kN` -/
theorem l_eq {pk : PublicKey} (hN : 1 < pk.N) (hN2 : pk.N2 = pk.N * pk.N) {x k : Int}
    (hx : x = (1 + k * pk.N) % (pk.N * pk.N)) : pk.l x = .ok (k % pk.N) := by
  have hpos : 0 < pk.N * pk.N := by positivity
  have h0 : 0 ≤ x := by rw [hx]; exact Int.emod_nonneg _ hpos.ne'
  have h1 : x < pk.N * pk.N := by rw [hx]; exact Int.emod_lt_of_pos _ hpos
  have hk : x = 1 + (k % pk.N) * pk.N := by
    have hm : x ≡ 1 + (k % pk.N) * pk.N [ZMOD pk.N * pk.N] := by
      rw [hx]
      refine (Int.mod_modEq _ _).trans ?_
      rw [Int.modEq_iff_dvd]
      refine ⟨-(k / pk.N), ?_⟩
      have := Int.emod_add_mul_ediv k pk.N
      linear_combination pk.N * this
    have a1 := Int.emod_nonneg k (by omega : pk.N ≠ 0)
    have a2 := Int.emod_lt_of_pos k (by omega : 0 < pk.N)
    rw [Int.ModEq, Int.emod_eq_of_lt h0 h1, Int.emod_eq_of_lt (by positivity) (by nlinarith)] at hm
    exact hm
  have hmod : x % pk.N = 1 := by
    rw [hk, Int.add_mul_emod_self_right]
    exact Int.emod_eq_of_lt (by omega) hN
  unfold PublicKey.l
  simp only [ceq, inZm_eq, Big.mod, hN2]
  rw [if_neg (by simp; omega), if_neg (by omega)]
  simp only [Res.bind_ok]
  rw [if_neg (by simp [hmod]), if_neg (by simp; omega)]
  congr 1
  rw [hk, add_sub_cancel_left]
  exact Int.mul_ediv_cancel _ (by omega)

theorem l_ok {pk : PublicKey} {x e : Int} (hN : 0 < pk.N) (h : pk.l x = .ok e) :
    x % pk.N = 1 ∧ 0 ≤ x ∧ x < pk.N2 ∧ x = 1 + e * pk.N := by
  unfold PublicKey.l at h
  simp only [ceq, inZm_eq, Big.mod] at h
  rw [if_neg (by simp; omega), if_neg (by omega)] at h
  simp only [Res.bind_ok] at h
  by_cases h1 : x % pk.N = 1
  · rw [if_neg (by simp [h1])] at h
    by_cases h2 : 0 ≤ x ∧ x < pk.N2
    · rw [if_neg (by simpa using h2)] at h
      have he := Res.ok.inj h
      refine ⟨h1, h2.1, h2.2, ?_⟩
      have hd : pk.N ∣ x - 1 := by
        have := Int.emod_add_mul_ediv x pk.N
        exact ⟨x / pk.N, by omega⟩
      have := Int.ediv_mul_cancel hd
      rw [he] at this; omega
    · rw [if_pos (by simp only [Bool.not_eq_true', decide_eq_false_iff_not]; exact h2)] at h; cases h
  · rw [if_pos (by simp [h1])] at h; cases h

theorem lcm_eq {x y : Int} (hx : 0 < x) (hy : 0 < y) :
    0 < lcm x y ∧ x ∣ lcm x y ∧ y ∣ lcm x y ∧ lcm x y ∣ x * y := by
  unfold lcm
  simp only [ceq]
  have hg : (0 : Int) < Int.gcd x y := by
    have := Int.gcd_pos_of_ne_zero_left y hx.ne'
    exact_mod_cast this
  rw [if_neg (by simp; omega)]
  obtain ⟨a, ha⟩ := Int.gcd_dvd_left (a := x) (b := y)
  obtain ⟨b, hb⟩ := Int.gcd_dvd_right (a := x) (b := y)
  set g : Int := (Int.gcd x y : Int) with hgdef
  have hxg : x / g = a := by
    rw [ha]; exact Int.mul_ediv_cancel_left _ hg.ne'
  have ha0 : 0 < a := by
    by_contra hc
    push Not at hc
    nlinarith
  rw [hxg, abs_of_pos (by positivity)]
  refine ⟨by positivity, ⟨b, ?_⟩, ⟨a, by ring⟩, ⟨g, ?_⟩⟩
  · rw [ha]; linear_combination a * hb
  · linear_combination y * ha

/-- Fermat: `x^(p-1·k) ≡ 1 (mod p)` for `p ∤ x`. -/
theorem fermat {p : Nat} (hp : p.Prime) {x : Int} (hx : ¬ (p : Int) ∣ x) {e : Nat}
    (he : (p - 1 : Int) ∣ e) : x ^ e ≡ 1 [ZMOD p] := by
  have := Fact.mk hp
  have h1 : p - 1 ∣ e := by
    have : ((p - 1 : Nat) : Int) ∣ (e : Int) := by
      rw [Nat.cast_sub hp.one_lt.le]; exact_mod_cast he
    exact_mod_cast this
  obtain ⟨k, rfl⟩ := h1
  rw [← ZMod.intCast_eq_intCast_iff]
  push_cast
  rw [pow_mul, ZMod.pow_card_sub_one_eq_one, one_pow]
  rwa [Ne, ZMod.intCast_zmod_eq_zero_iff_dvd] 

theorem modEq_mul {a b m n : Int} (hc : IsCoprime m n) (h1 : a ≡ b [ZMOD m]) (h2 : a ≡ b [ZMOD n]) :
    a ≡ b [ZMOD m * n] := by
  rw [Int.modEq_iff_dvd] at *
  exact hc.mul_dvd h1 h2

theorem modEq_one_pow {x N : Int} (h : x ≡ 1 [ZMOD N]) (n : Nat) (hn : (N : Int) ∣ n) :
    x ^ n ≡ 1 [ZMOD N * N] := by
  obtain ⟨k, hk⟩ := h.symm.dvd
  have : x = 1 + k * N := by linear_combination hk
  rw [this]
  refine (one_add_pow N k n).trans ?_
  obtain ⟨j, hj⟩ := hn
  rw [Int.modEq_iff_dvd, hj]
  exact ⟨-(j * k), by ring⟩

end Verif.Paillier
