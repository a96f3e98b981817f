/-!
# Byte strings and integers

Models of the standard-library conversions used throughout the repository:
`big.Int.SetBytes`, `big.Int.Bytes`, `big.Int.FillBytes`, and little-endian counterparts
(`internal.ReverseScalarBytes` composed with them, `binary.LittleEndian`).
Bytes are `UInt8`.
-/

namespace Verif.Bytes

/-- `new(big.Int).SetBytes(bs)`: big-endian value. -/
def beToNat (bs : List UInt8) : Nat := bs.foldl (fun a b => a * 256 + b.toNat) 0

/-- little-endian value. -/
def leToNat : List UInt8 → Nat
  | [] => 0
  | b :: r => b.toNat + 256 * leToNat r

/-- little-endian encoding in exactly `len` bytes (high part dropped). -/
def natToLE : Nat → Nat → List UInt8
  | 0, _ => []
  | len + 1, n => UInt8.ofNat n :: natToLE len (n / 256)

/-- big-endian encoding in exactly `len` bytes (high part dropped). -/
def natToBEfix (len n : Nat) : List UInt8 := (natToLE len n).reverse

/-- number of bytes of the minimal encoding (`(n.BitLen()+7)/8`). -/
def byteLen (n : Nat) : Nat := if h : n = 0 then 0 else byteLen (n / 256) + 1
decreasing_by omega

/-- `n.Bytes()`: minimal big-endian encoding, empty for zero. -/
def natToBE (n : Nat) : List UInt8 := natToBEfix (byteLen n) n

/-- `n.FillBytes(make([]byte,len))`: panics (`none`) when the value does not fit. -/
def fillBytes (len n : Nat) : Option (List UInt8) :=
  if n < 256 ^ len then some (natToBEfix len n) else none

theorem toNat_lt (b : UInt8) : b.toNat < 256 := b.toNat_lt

theorem foldl_be (bs : List UInt8) (a : Nat) :
    bs.foldl (fun a b => a * 256 + b.toNat) a = a * 256 ^ bs.length + beToNat bs := by
  induction bs generalizing a with
  | nil => simp [beToNat]
  | cons b bs ih =>
    simp only [List.foldl_cons, beToNat, List.length_cons]
    rw [ih, ih (0 * 256 + b.toNat), Nat.zero_mul, Nat.zero_add, Nat.pow_succ,
      Nat.mul_comm (256 ^ bs.length) 256, ← Nat.mul_assoc, Nat.add_mul, Nat.add_assoc]

@[simp] theorem beToNat_nil : beToNat [] = 0 := rfl

theorem beToNat_cons (b : UInt8) (bs : List UInt8) :
    beToNat (b :: bs) = b.toNat * 256 ^ bs.length + beToNat bs := by
  show List.foldl _ _ (b :: bs) = _
  rw [List.foldl_cons, foldl_be]; simp

theorem beToNat_append (a b : List UInt8) :
    beToNat (a ++ b) = beToNat a * 256 ^ b.length + beToNat b := by
  show List.foldl _ _ (a ++ b) = _
  rw [List.foldl_append, foldl_be]; rfl

theorem beToNat_reverse (bs : List UInt8) : beToNat bs.reverse = leToNat bs := by
  induction bs with
  | nil => rfl
  | cons b bs ih =>
    rw [List.reverse_cons, beToNat_append, ih]
    simp [leToNat, beToNat]; omega

theorem leToNat_reverse (bs : List UInt8) : leToNat bs.reverse = beToNat bs := by
  rw [← beToNat_reverse, List.reverse_reverse]

theorem leToNat_lt (bs : List UInt8) : leToNat bs < 256 ^ bs.length := by
  induction bs with
  | nil => simp [leToNat]
  | cons b bs ih =>
    simp only [leToNat, List.length_cons, Nat.pow_succ]
    have := toNat_lt b; omega

theorem beToNat_lt (bs : List UInt8) : beToNat bs < 256 ^ bs.length := by
  have := leToNat_lt bs.reverse
  rwa [leToNat_reverse, List.length_reverse] at this

@[simp] theorem length_natToLE (len n : Nat) : (natToLE len n).length = len := by
  induction len generalizing n with
  | zero => rfl
  | succ len ih => simp [natToLE, ih]

@[simp] theorem length_natToBEfix (len n : Nat) : (natToBEfix len n).length = len := by
  simp [natToBEfix]

theorem leToNat_natToLE (len n : Nat) : leToNat (natToLE len n) = n % 256 ^ len := by
  induction len generalizing n with
  | zero => simp [natToLE, leToNat, Nat.mod_one]
  | succ len ih =>
    simp only [natToLE, leToNat, ih]
    rw [UInt8.toNat_ofNat', Nat.pow_succ (n := 256), Nat.mul_comm (256 ^ len) 256, Nat.mod_mul]

theorem beToNat_natToBEfix (len n : Nat) : beToNat (natToBEfix len n) = n % 256 ^ len := by
  rw [natToBEfix, beToNat_reverse, leToNat_natToLE]

theorem natToLE_leToNat (bs : List UInt8) : natToLE bs.length (leToNat bs) = bs := by
  induction bs with
  | nil => rfl
  | cons b bs ih =>
    simp only [List.length_cons, natToLE, leToNat]
    have hb := toNat_lt b
    have h1 : (b.toNat + 256 * leToNat bs) / 256 = leToNat bs := by omega
    rw [h1, ih]
    congr 1
    apply UInt8.toNat_inj.1
    rw [UInt8.toNat_ofNat']; omega

theorem natToBEfix_beToNat (bs : List UInt8) : natToBEfix bs.length (beToNat bs) = bs := by
  have := natToLE_leToNat bs.reverse
  rw [leToNat_reverse, List.length_reverse] at this
  rw [natToBEfix, this, List.reverse_reverse]

theorem leToNat_inj {a b : List UInt8} (hl : a.length = b.length) (h : leToNat a = leToNat b) :
    a = b := by
  rw [← natToLE_leToNat a, ← natToLE_leToNat b, hl, h]

theorem beToNat_inj {a b : List UInt8} (hl : a.length = b.length) (h : beToNat a = beToNat b) :
    a = b := by
  rw [← natToBEfix_beToNat a, ← natToBEfix_beToNat b, hl, h]

theorem lt_pow_byteLen (n : Nat) : n < 256 ^ byteLen n := by
  fun_induction byteLen n with
  | case1 => simp
  | case2 n h ih => rw [Nat.pow_succ]; omega

theorem pow_byteLen_le (n : Nat) (h : n ≠ 0) : 256 ^ (byteLen n - 1) ≤ n := by
  fun_induction byteLen n with
  | case1 => contradiction
  | case2 n h ih =>
    simp only [Nat.add_sub_cancel]
    by_cases h0 : n / 256 = 0
    · rw [h0]; unfold byteLen; simp; omega
    · have := ih h0
      have hp : 0 < byteLen (n / 256) := by
        unfold byteLen; rw [dif_neg h0]; omega
      have e : byteLen (n / 256) = (byteLen (n / 256) - 1) + 1 := by omega
      rw [e, Nat.pow_succ]; omega

theorem beToNat_natToBE (n : Nat) : beToNat (natToBE n) = n := by
  rw [natToBE, beToNat_natToBEfix, Nat.mod_eq_of_lt (lt_pow_byteLen n)]

theorem natToBE_inj {a b : Nat} (h : natToBE a = natToBE b) : a = b := by
  rw [← beToNat_natToBE a, h, beToNat_natToBE]

@[simp] theorem natToBE_zero : natToBE 0 = [] := by
  unfold natToBE byteLen; rfl

theorem natToBE_eq_nil (n : Nat) : natToBE n = [] ↔ n = 0 := by
  constructor
  · intro h; rw [← beToNat_natToBE n, h]; rfl
  · rintro rfl; simp

theorem byteLen_le_iff (n k : Nat) : byteLen n ≤ k ↔ n < 256 ^ k := by
  constructor
  · intro h
    exact Nat.lt_of_lt_of_le (lt_pow_byteLen n) (Nat.pow_le_pow_right (by omega) h)
  · intro h
    by_cases h0 : n = 0
    · subst h0; unfold byteLen; simp
    · have h1 := pow_byteLen_le n h0
      by_cases hk : byteLen n ≤ k
      · exact hk
      · have : 256 ^ k ≤ 256 ^ (byteLen n - 1) := Nat.pow_le_pow_right (by omega) (by omega)
        omega

@[simp] theorem length_natToBE (n : Nat) : (natToBE n).length = byteLen n := by simp [natToBE]

theorem fillBytes_spec (len n : Nat) (h : n < 256 ^ len) :
    ∃ bs, fillBytes len n = some bs ∧ bs.length = len ∧ beToNat bs = n := by
  refine ⟨natToBEfix len n, by simp [fillBytes, h], by simp, ?_⟩
  rw [beToNat_natToBEfix, Nat.mod_eq_of_lt h]

end Verif.Bytes
