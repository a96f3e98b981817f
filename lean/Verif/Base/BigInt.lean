import Verif.Base.GoRes
import Verif.Base.Bytes
import Mathlib.Data.Int.GCD
import Mathlib.Data.Int.ModEq
import Mathlib.Tactic.Ring

/-! Go's `math/big.Int` operations used by the repository (documented behaviour of the standard
library; trusted). -/

namespace Verif.Big

/-- `big.Int.Mod`: Euclidean modulus; division by zero panics. -/
def mod (x m : Int) : Res Int := if m = 0 then .panic else .ok (x % m)

/-- `big.Int.ModInverse(g, n)`: `none` is the nil result.  For `n ≠ 0` the documented result is the
unique `z ∈ [0,|n|)` with `g·z ≡ 1 (mod n)` when `gcd(g,n) = 1`, nil otherwise. -/
def modInverse (g n : Int) : Option Int :=
  if Int.gcd g n = 1 then some (Int.gcdA g n % n) else none

/-- `big.Int.Exp(x, y, m)`: `none` is the nil result.  `m = none` is a nil modulus. -/
def exp (x y : Int) (m : Option Int) : Option Int :=
  match m with
  | none => some (if y ≤ 0 then 1 else x ^ y.toNat)
  | some m =>
    if m = 0 then some (if y ≤ 0 then 1 else x ^ y.toNat)
    else if 0 ≤ y then some (x ^ y.toNat % m)
    else match modInverse x m with
      | none => none
      | some i => some (i ^ (-y).toNat % m)

theorem modInverse_spec {g n z : Int} (hn : n ≠ 0) (h : modInverse g n = some z) :
    0 ≤ z ∧ z < |n| ∧ g * z ≡ 1 [ZMOD n] := by
  unfold modInverse at h
  split at h
  · rename_i hg
    have hz := Option.some.inj h
    subst hz
    refine ⟨Int.emod_nonneg _ hn, Int.emod_lt_abs _ hn, ?_⟩
    have hb := Int.gcd_eq_gcd_ab g n
    rw [hg] at hb
    have h1 : g * (Int.gcdA g n % n) ≡ g * Int.gcdA g n [ZMOD n] :=
      (Int.mod_modEq _ _).mul_left g
    refine h1.trans ?_
    have : (1 : Int) = g * Int.gcdA g n + n * Int.gcdB g n := by exact_mod_cast hb
    rw [this]
    refine Int.ModEq.symm ?_
    have := (Int.modEq_zero_iff_dvd.2 (dvd_mul_right n (Int.gcdB g n))).add_left (g * Int.gcdA g n)
    simp
  · cases h

theorem modInverse_eq_none {g n : Int} : modInverse g n = none ↔ Int.gcd g n ≠ 1 := by
  unfold modInverse; split <;> simp_all

theorem modInverse_none_spec {g n : Int} (h : modInverse g n = none) :
    ∀ z : Int, ¬ g * z ≡ 1 [ZMOD n] := by
  intro z hz
  rw [modInverse_eq_none] at h
  apply h
  have hd := hz.symm.dvd
  obtain ⟨k, hk⟩ := hd
  apply Nat.eq_one_of_dvd_one
  have h1 : (Int.gcd g n : Int) ∣ g := Int.gcd_dvd_left ..
  have h2 : (Int.gcd g n : Int) ∣ n := Int.gcd_dvd_right ..
  have : (Int.gcd g n : Int) ∣ 1 := by
    have e : (1 : Int) = g * z - n * k := by rw [← hk]; ring
    rw [e]
    exact Int.dvd_sub (dvd_mul_of_dvd_left h1 z) (dvd_mul_of_dvd_left h2 k)
  exact_mod_cast this

/-- `big.Int.Sign` -/
def sign (x : Int) : Int := if x < 0 then -1 else if x = 0 then 0 else 1

/-- `big.Int.Bytes`: minimal big-endian bytes of the absolute value. -/
def bytes (x : Int) : List UInt8 := Bytes.natToBE x.natAbs

/-- `big.Int.SetBytes` -/
def setBytes (b : List UInt8) : Int := (Bytes.beToNat b : Int)

end Verif.Big
