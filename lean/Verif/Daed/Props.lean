import Verif.Daed.Model
import Verif.Base.Tactics

/-! C44: AES-SIV. -/

set_option linter.unusedSimpArgs false
set_option linter.unusedVariables false

namespace Verif.Daed

open Verif.Bytes

/-! ### specification (RFC 4493 and RFC 5297) -/

/-- SPEC: bytewise exclusive or. -/
def bxor (a b : List UInt8) : List UInt8 := List.zipWith (· ^^^ ·) a b

/-- SPEC (RFC 5297, 2.3): doubling in GF(2^128): shift left by one bit, and add `x^7+x^2+x+1` when the
top bit falls out. -/
def dbl (b : List UInt8) : List UInt8 :=
  let n := beToNat b
  natToBEfix 16 (((2 * n) % 2 ^ 128) ^^^ (if n ≥ 2 ^ 127 then 0x87 else 0))

/-- SPEC: `10*` padding of a partial block. -/
def pad (d : List UInt8) : List UInt8 := d ++ [0x80] ++ List.replicate (15 - d.length) 0

/-- SPEC (RFC 4493, 2.4): the CBC chain from state `X`. -/
def cbcMac (E : List UInt8 → List UInt8) (K1 K2 : List UInt8) (X data : List UInt8) : List UInt8 :=
  if _h : 16 < data.length then cbcMac E K1 K2 (E (bxor X (data.take 16))) (data.drop 16)
  else if data.length = 16 then E (bxor (bxor X data) K1)
  else E (bxor (bxor X (pad data)) K2)
termination_by data.length
decreasing_by simp only [List.length_drop]; omega

/-- SPEC (RFC 4493): AES-CMAC. -/
def rfcCmac (E : List UInt8 → List UInt8) (data : List UInt8) : List UInt8 :=
  let L := E (List.replicate 16 0)
  cbcMac E (dbl L) (dbl (dbl L)) (List.replicate 16 0) data

/-- SPEC (RFC 5297): `xorend`. -/
def xorEnd (a b : List UInt8) : List UInt8 := a.take (a.length - 16) ++ bxor (a.drop (a.length - 16)) b

/-- SPEC (RFC 5297, 2.4): S2V on one associated-data string and the plaintext. -/
def rfcS2V (E : List UInt8 → List UInt8) (ad pt : List UInt8) : List UInt8 :=
  let D := bxor (dbl (rfcCmac E (List.replicate 16 0))) (rfcCmac E ad)
  if pt.length ≥ 16 then rfcCmac E (xorEnd pt D)
  else rfcCmac E (bxor (dbl D) (pad pt))

/-! ### lists -/

theorem length_bxor (a b : List UInt8) : (bxor a b).length = min a.length b.length := by simp [bxor]

theorem bxor_comm (a b : List UInt8) : bxor a b = bxor b a := by
  unfold bxor
  rw [List.zipWith_comm]
  congr 1
  funext x y
  exact UInt8.xor_comm _ _

theorem bxor_assoc (a b c : List UInt8) : bxor (bxor a b) c = bxor a (bxor b c) := by
  induction a generalizing b c with
  | nil => simp [bxor]
  | cons x a ih =>
    rcases b with _ | ⟨y, b⟩
    · simp [bxor]
    · rcases c with _ | ⟨z, c⟩
      · simp [bxor]
      · have := ih b c
        unfold bxor at this ⊢
        simp only [List.zipWith_cons_cons, List.cons.injEq]
        exact ⟨UInt8.xor_assoc _ _ _, this⟩

theorem bxor_self_cancel (a b : List UInt8) (h : a.length ≤ b.length) : bxor (bxor a b) b = a := by
  induction a generalizing b with
  | nil => simp [bxor]
  | cons x a ih =>
    rcases b with _ | ⟨y, b⟩
    · simp at h
    · have := ih b (by simpa using h)
      unfold bxor at this ⊢
      simp only [List.zipWith_cons_cons, List.cons.injEq]
      refine ⟨?_, this⟩
      rw [UInt8.xor_assoc, UInt8.xor_self, UInt8.xor_zero]

theorem bxor_append (a b c d : List UInt8) (h : a.length = c.length) :
    bxor (a ++ b) (c ++ d) = bxor a c ++ bxor b d := by
  unfold bxor; exact List.zipWith_append h

theorem bxor_zeros (a : List UInt8) (k : Nat) (h : a.length ≤ k) : bxor a (List.replicate k 0) = a := by
  induction a generalizing k with
  | nil => simp [bxor]
  | cons x a ih =>
    rcases k with _ | k
    · simp at h
    · have := ih k (by simpa using h)
      unfold bxor at this ⊢
      simp only [List.replicate_succ, List.zipWith_cons_cons, List.cons.injEq, UInt8.xor_zero, true_and]
      exact this

theorem xorBlock_eq (x b : List UInt8) : xorBlock x b = bxor b x := rfl

theorem xorAt_eq (b : List UInt8) (off : Nat) (s : List UInt8) :
    xorAt b off s = b.take off ++ bxor (b.drop off) s ++ b.drop (off + s.length) := rfl

/-! ### doubling -/

theorem beToNat_ge (b : UInt8) (l : List UInt8) : (128 ≤ b.toNat ↔ 128 * 256 ^ l.length ≤ beToNat (b :: l)) := by
  rw [beToNat_cons]
  have := beToNat_lt l
  generalize 256 ^ l.length = M at *
  generalize beToNat l = n at *
  constructor
  · intro h
    have := Nat.mul_le_mul_right M h
    omega
  · intro h
    by_contra hc
    have : b.toNat + 1 ≤ 128 := by omega
    have := Nat.mul_le_mul_right M this
    rw [Nat.add_mul] at this
    omega

theorem shift_byte (b c : UInt8) : ((b <<< 1) ||| (c >>> 7)).toNat = (2 * b.toNat) % 256 + c.toNat / 128 := by
  have h1 : ∀ i : Fin 256, UInt8.ofNat i >>> 7 = UInt8.ofNat ((UInt8.ofNat i).toNat / 128) := by decide +kernel
  have h2 : ∀ i : Fin 256, ∀ j : Fin 2, ((UInt8.ofNat i <<< 1) ||| UInt8.ofNat j).toNat =
      (2 * (UInt8.ofNat i).toNat) % 256 + j := by decide +kernel
  have e1 := h1 ⟨c.toNat, c.toNat_lt⟩
  have hc : c.toNat / 128 < 2 := by have := c.toNat_lt; omega
  have e2 := h2 ⟨b.toNat, b.toNat_lt⟩ ⟨c.toNat / 128, hc⟩
  simp only [UInt8.ofNat_toNat] at e1 e2
  rw [e1, e2]

theorem shift_last (b : UInt8) : (b <<< 1).toNat = (2 * b.toNat) % 256 := by
  have := shift_byte b 0
  simpa using this

theorem xor_low (A x r : Nat) (hx : x < 256) (hr : r < 256) : A * 256 + (x ^^^ r) = (A * 256 + x) ^^^ r := by
  have hxr : x ^^^ r < 2 ^ 8 := Nat.xor_lt_two_pow (by simpa using hx) (by simpa using hr)
  apply Nat.eq_of_testBit_eq
  intro j
  rw [Nat.testBit_xor, Nat.mul_comm A 256, show (256 : Nat) = 2 ^ 8 from rfl,
    Nat.testBit_two_pow_mul_add _ hxr, Nat.testBit_two_pow_mul_add _ (by simpa using hx)]
  by_cases hj : j < 8
  · rw [if_pos hj, if_pos hj, Nat.testBit_xor]
  · rw [if_neg hj, if_neg hj, Nat.testBit_lt_two_pow (lt_of_lt_of_le (show r < 2 ^ 8 by simpa using hr)
      (Nat.pow_le_pow_right (by omega) (by omega))), Bool.xor_false]

theorem length_shiftBytes (carry : UInt8) (l : List UInt8) : (shiftBytes carry l).length = l.length := by
  induction l with
  | nil => rfl
  | cons b l ih =>
    rcases l with _ | ⟨c, l⟩
    · rfl
    · rw [shiftBytes, List.length_cons, ih]; rfl

theorem shiftBytes_val (carry : UInt8) (l : List UInt8) (hl : l ≠ []) :
    beToNat (shiftBytes carry l) =
      ((2 * beToNat l) % 256 ^ l.length) ^^^ (if carry = 1 then 0x87 else 0) := by
  induction l with
  | nil => exact absurd rfl hl
  | cons b l ih =>
    rcases l with _ | ⟨c, l⟩
    · rw [shiftBytes, beToNat_cons, beToNat_cons]
      simp only [List.length_nil, Nat.pow_zero, Nat.mul_one, beToNat_nil, Nat.add_zero, List.length_singleton,
        Nat.pow_one]
      rw [UInt8.toNat_xor, shift_last]
      by_cases h : carry = 1
      · simp [h]
      · simp [h]
    · rw [shiftBytes, beToNat_cons, ih (by simp), length_shiftBytes, shift_byte]
      have hge := beToNat_ge c l
      have hlt := beToNat_lt (c :: l)
      have hb := b.toNat_lt
      have hc := c.toNat_lt
      rw [beToNat_cons b (c :: l)]
      generalize hN : beToNat (c :: l) = N at *
      simp only [List.length_cons] at *
      generalize hr : (if carry = 1 then 0x87 else 0) = r at *
      have hr' : r < 256 := by rw [← hr]; by_cases h : carry = 1 <;> simp [h]
      rw [Nat.pow_succ] at hlt
      generalize hM : 256 ^ l.length = M at *
      have hMpos : 0 < M := by rw [← hM]; exact Nat.pow_pos (by omega)
      simp only [Nat.pow_succ, hM]
      -- split off the low byte
      have h1 : (2 * (b.toNat * (M * 256) + N)) % (M * 256 * 256) =
          ((2 * b.toNat) % 256 + c.toNat / 128) * (M * 256) + (2 * N) % (M * 256) := by
        have hq : (2 * N) / (M * 256) = c.toNat / 128 := by
          by_cases h128 : 128 ≤ c.toNat
          · have := hge.mp h128
            rw [show c.toNat / 128 = 1 by omega]
            exact Nat.div_eq_of_lt_le (by omega) (by omega)
          · have : ¬ 128 * M ≤ N := fun h => h128 (hge.mpr h)
            rw [show c.toNat / 128 = 0 by omega]
            exact Nat.div_eq_of_lt (by omega)
        have hdm := Nat.div_add_mod (2 * N) (M * 256)
        rw [hq] at hdm
        have hlt2 := Nat.mod_lt (2 * N) (show 0 < M * 256 by omega)
        have hb2 : (2 * b.toNat) % 256 + c.toNat / 128 < 256 := by omega
        have hdb := Nat.div_add_mod (2 * b.toNat) 256
        have hexp : 2 * (b.toNat * (M * 256) + N) =
            (((2 * b.toNat) % 256 + c.toNat / 128) * (M * 256) + (2 * N) % (M * 256)) +
              (M * 256 * 256) * ((2 * b.toNat) / 256) := by
          generalize (2 * N) % (M * 256) = R at *
          generalize c.toNat / 128 = Q at *
          generalize (2 * b.toNat) % 256 = b1 at *
          generalize (2 * b.toNat) / 256 = b2 at *
          have : 2 * (b.toNat * (M * 256)) = (256 * b2 + b1) * (M * 256) := by rw [hdb]; ring
          rw [Nat.mul_add, this, ← hdm]; ring
        rw [hexp, Nat.add_mul_mod_self_left, Nat.mod_eq_of_lt]
        have := Nat.mul_le_mul_right (M * 256) (show ((2 * b.toNat) % 256 + c.toNat / 128) + 1 ≤ 256 by omega)
        rw [Nat.add_mul] at this
        generalize ((2 * b.toNat) % 256 + c.toNat / 128) * (M * 256) = Z at *
        have e : M * 256 * 256 = 256 * (M * 256) := by ring
        rw [e]
        omega
      rw [h1]
      -- the xor touches the low byte only
      generalize (2 * b.toNat) % 256 + c.toNat / 128 = Q at *
      generalize hR : (2 * N) % (M * 256) = R
      have hRd := Nat.div_add_mod R 256
      have hRm := Nat.mod_lt R (show 0 < 256 by omega)
      have e1 : R ^^^ r = (R / 256) * 256 + ((R % 256) ^^^ r) := by
        rw [xor_low _ _ _ hRm hr']; congr 1; omega
      have e2 : Q * (M * 256) + R = (Q * M + R / 256) * 256 + R % 256 := by
        have : Q * (M * 256) = Q * M * 256 := by ring
        rw [this, Nat.add_mul]; omega
      rw [e2, ← xor_low _ _ _ hRm hr', e1]
      ring

theorem byte_carry (b : UInt8) : (b >>> 7 = 1) ↔ 128 ≤ b.toNat := by
  have h : ∀ i : Fin 256, (UInt8.ofNat i >>> 7 = 1) ↔ 128 ≤ (UInt8.ofNat i).toNat := by decide +kernel
  have := h ⟨b.toNat, b.toNat_lt⟩
  simpa using this

/-- **C44** `multiplyByX` is doubling in GF(2^128) as RFC 5297 defines it, on every block. -/
theorem C44_double (b : List UInt8) (h : b.length = 16) : multiplyByX b = dbl b := by
  apply beToNat_inj
  · unfold multiplyByX dbl; rw [length_shiftBytes, h]; simp
  · have hne : b ≠ [] := by rintro rfl; simp at h
    unfold multiplyByX
    rw [shiftBytes_val _ _ hne, h]
    unfold dbl
    dsimp only
    rcases b with _ | ⟨c, l⟩
    · exact absurd rfl hne
    have hl : l.length = 15 := by simpa using h
    have hc : ((c :: l).getD 0 0 >>> 7 = 1) ↔ beToNat (c :: l) ≥ 2 ^ 127 := by
      show (c >>> 7 = 1) ↔ _
      rw [byte_carry, beToNat_ge c l, hl, show 128 * 256 ^ 15 = 2 ^ 127 by norm_num]
    generalize beToNat (c :: l) = N at *
    have hx : ((2 * N) % 2 ^ 128) ^^^ (if N ≥ 2 ^ 127 then 0x87 else 0) < 2 ^ 128 := by
      apply Nat.xor_lt_two_pow
      · exact Nat.mod_lt _ (by norm_num)
      · split <;> norm_num
    rw [beToNat_natToBEfix, show (256 : Nat) ^ 16 = 2 ^ 128 by norm_num, Nat.mod_eq_of_lt hx]
    congr 1
    by_cases hN : N ≥ 2 ^ 127
    · rw [if_pos hN, if_pos (hc.mpr hN)]
    · rw [if_neg hN, if_neg (fun h => hN (hc.mp h))]

theorem length_dbl (b : List UInt8) : (dbl b).length = 16 := by unfold dbl; simp

/-- SPEC: the subkeys are the CMAC subkeys of `E1`. -/
def Siv.Good (A : Siv) : Prop :=
  A.cmacK1 = dbl (A.E1 (List.replicate 16 0)) ∧ A.cmacK2 = dbl (dbl (A.E1 (List.replicate 16 0)))

/-- **C44** `NewAESSIV` accepts exactly 64-byte keys; the MAC cipher uses the first half, the stream
cipher the second, and the subkeys are those of RFC 4493. -/
theorem C44_new (aes : List UInt8 → List UInt8 → List UInt8) (hlen : ∀ k b, (aes k b).length = 16)
    (key : List UInt8) :
    (key.length ≠ 64 → newAESSIV aes hlen key = .err) ∧
    (key.length = 64 → ∃ A, newAESSIV aes hlen key = .ok A ∧ A.Good ∧ A.E1 = aes (key.take 32) ∧
      A.E2 = aes (key.drop 32)) := by
  constructor
  · intro h; unfold newAESSIV; rw [if_pos h]
  · intro h
    unfold newAESSIV
    rw [if_neg (by simp [h])]
    refine ⟨_, rfl, ?_, rfl, rfl⟩
    unfold Siv.Good
    dsimp only
    have l1 : (aes (key.take 32) (List.replicate 16 0)).length = 16 := hlen _ _
    rw [C44_double _ l1, C44_double _ (length_dbl _)]
    exact ⟨rfl, rfl⟩

/-! ### CMAC -/

theorem length_pad (d : List UInt8) (h : d.length < 16) : (pad d).length = 16 := by
  unfold pad; simp; omega

theorem cbcMac_long (E : List UInt8 → List UInt8) (K1 K2 X data : List UInt8) (h : 16 < data.length) :
    cbcMac E K1 K2 X data = cbcMac E K1 K2 (E (bxor X (data.take 16))) (data.drop 16) := by
  rw [cbcMac, dif_pos h]

theorem cbcMac_full (E : List UInt8 → List UInt8) (K1 K2 X data : List UInt8) (h : data.length = 16) :
    cbcMac E K1 K2 X data = E (bxor (bxor X data) K1) := by
  rw [cbcMac, dif_neg (by omega), if_pos h]

theorem cbcMac_short (E : List UInt8 → List UInt8) (K1 K2 X data : List UInt8) (h : data.length < 16) :
    cbcMac E K1 K2 X data = E (bxor (bxor X (pad data)) K2) := by
  rw [cbcMac, dif_neg (by omega), if_neg (by omega)]

/-- xoring a short string and the marker into a block is xoring the padded string -/
theorem xor_pad (B d : List UInt8) (hB : B.length = 16) (hd : d.length < 16) :
    xorAt (xorAt B 0 d) d.length [0x80] = bxor B (pad d) := by
  rw [xorAt_eq B 0 d]
  simp only [List.take_zero, List.nil_append, List.drop_zero, Nat.zero_add]
  have hsplit : B = B.take d.length ++ B.drop d.length := (List.take_append_drop _ _).symm
  have l1 : (B.take d.length).length = d.length := by rw [List.length_take]; omega
  have e1 : bxor B d = bxor (B.take d.length) d := by
    have h := bxor_append (B.take d.length) (B.drop d.length) d [] l1
    rw [List.take_append_drop, List.append_nil] at h
    rw [h]; simp [bxor]
  have l2 : (bxor (B.take d.length) d).length = d.length := by rw [length_bxor]; omega
  obtain ⟨y, Y, hY⟩ : ∃ y Y, B.drop d.length = y :: Y := by
    rcases hcs : B.drop d.length with _ | ⟨y, Y⟩
    · have := congrArg List.length hcs
      rw [List.length_drop, List.length_nil] at this; omega
    · exact ⟨y, Y, rfl⟩
  have lY : Y.length = 15 - d.length := by
    have := congrArg List.length hY
    rw [List.length_drop, List.length_cons] at this; omega
  rw [e1, hY, xorAt_eq, List.take_left' l2, List.drop_left' l2]
  have e3 : (bxor (B.take d.length) d ++ y :: Y).drop (d.length + [(0x80 : UInt8)].length) = Y := by
    rw [List.length_singleton, List.drop_append, List.drop_of_length_le (by omega), l2,
      show d.length + 1 - d.length = 1 by omega]
    rfl
  rw [e3]
  conv_rhs => rw [hsplit, hY]
  unfold pad
  rw [List.append_assoc d, bxor_append _ _ _ _ l1, List.append_assoc]
  congr 1
  show bxor (y :: Y) [0x80] ++ Y = bxor (y :: Y) (0x80 :: List.replicate (15 - d.length) 0)
  have := bxor_zeros Y (15 - d.length) (by omega)
  unfold bxor at this ⊢
  simp only [List.zipWith_cons_cons, List.zipWith_nil_right, List.cons_append, List.nil_append, this]

theorem xorAt_zero_full (B d : List UInt8) (h : B.length = d.length) : xorAt B 0 d = bxor B d := by
  rw [xorAt_eq]
  simp only [List.take_zero, List.nil_append, List.drop_zero, Nat.zero_add]
  rw [List.drop_of_length_le (by omega), List.append_nil]

/-- the block loop of `cmac`, after `k` full blocks -/
theorem cmac_loop (A : Siv) (data : List UInt8) (k : Nat) (hk : 16 * k < data.length ∨ k = 0) (X : List UInt8)
    (hX : X = ((List.range k).foldl (fun (st : List UInt8 × Nat) _ =>
      (A.E1 (xorBlock ((data.drop st.2).take 16) st.1), st.2 + 16)) (List.replicate 16 0, 0)).1) :
    ((List.range k).foldl (fun (st : List UInt8 × Nat) _ =>
      (A.E1 (xorBlock ((data.drop st.2).take 16) st.1), st.2 + 16)) (List.replicate 16 0, 0)).2 = 16 * k ∧
    X.length = 16 ∧
    cbcMac A.E1 A.cmacK1 A.cmacK2 (List.replicate 16 0) data =
      cbcMac A.E1 A.cmacK1 A.cmacK2 X (data.drop (16 * k)) := by
  induction k generalizing X with
  | zero => subst hX; exact ⟨rfl, by simp, by simp⟩
  | succ k ih =>
    have hk' : 16 * k + 16 < data.length := by rcases hk with h | h <;> omega
    rw [List.range_succ, List.foldl_append] at hX ⊢
    generalize hst : (List.range k).foldl (fun (st : List UInt8 × Nat) _ =>
      (A.E1 (xorBlock ((data.drop st.2).take 16) st.1), st.2 + 16)) (List.replicate 16 0, 0) = st at *
    obtain ⟨i1, i2, i3⟩ := ih (Or.inl (by omega)) st.1 rfl
    simp only [List.foldl_cons, List.foldl_nil] at hX ⊢
    rw [i1] at hX
    refine ⟨by rw [i1]; omega, by rw [hX]; exact A.len1 _, ?_⟩
    rw [i3, cbcMac_long _ _ _ _ _ (by rw [List.length_drop]; omega), List.drop_drop, hX, xorBlock_eq]
    rfl

theorem cmac_eq (A : Siv) (data : List UInt8) :
    A.cmac data = cbcMac A.E1 A.cmacK1 A.cmacK2 (List.replicate 16 0) data := by
  unfold Siv.cmac
  dsimp only
  generalize hn : (if (data.length + 15) / 16 = 0 then 1 else (data.length + 15) / 16) = n
  have hn1 : 1 ≤ n := by rw [← hn]; split <;> omega
  have hk : 16 * (n - 1) < data.length ∨ n - 1 = 0 := by
    rw [← hn]; split <;> omega
  have hlast : data.length - 16 * (n - 1) ≤ 16 := by rw [← hn]; split <;> omega
  obtain ⟨l1, l2, l3⟩ := cmac_loop A data (n - 1) hk _ rfl
  rw [l3, l1]
  generalize ((List.range (n - 1)).foldl (fun (st : List UInt8 × Nat) _ =>
      (A.E1 (xorBlock ((data.drop st.2).take 16) st.1), st.2 + 16)) (List.replicate 16 0, 0)).1 = X at *
  rw [Nat.mul_comm (n - 1) 16]
  have ld : (data.drop (16 * (n - 1))).length = data.length - 16 * (n - 1) := List.length_drop ..
  rw [← ld] at hlast ⊢
  clear ld l1 l3
  generalize data.drop (16 * (n - 1)) = d at hlast ⊢
  rw [List.take_of_length_le (le_refl _)]
  by_cases h16 : d.length = 16
  · rw [if_pos h16, cbcMac_full _ _ _ _ _ h16, xorAt_zero_full _ _ (by omega), xorBlock_eq]
  · rw [if_neg h16, cbcMac_short _ _ _ _ _ (by omega), xor_pad _ _ l2 (by omega), xorBlock_eq]

/-- **C44** `cmac` is AES-CMAC (RFC 4493) for every input, including the empty one. -/
theorem C44_cmac_rfc (A : Siv) (hA : A.Good) (data : List UInt8) : A.cmac data = rfcCmac A.E1 data := by
  rw [cmac_eq]
  unfold rfcCmac
  dsimp only
  rw [hA.1, hA.2]

theorem xorEnd_append (d rest last : List UInt8) (h : 16 ≤ rest.length) :
    xorEnd (d ++ rest) last = d ++ xorEnd rest last := by
  unfold xorEnd
  rw [List.length_append, show d.length + rest.length - 16 = d.length + (rest.length - 16) by omega,
    List.take_length_add_append, List.drop_length_add_append, List.append_assoc]

theorem length_xorEnd (a b : List UInt8) (h : 16 ≤ a.length) (hb : b.length = 16) :
    (xorEnd a b).length = a.length := by
  unfold xorEnd
  rw [List.length_append, List.length_take, length_bxor, List.length_drop, hb]; omega

/-- what `cmacLong` does after its loop -/
def Siv.longFinish (A : Siv) (last block rest : List UInt8) : List UInt8 :=
  let remaining := rest.length
  let block := xorAt block remaining (last.take (16 - remaining))
  let block :=
    if remaining = 0 then xorBlock A.cmacK1 block
    else
      let block := A.E1 block
      let block := xorAt block 0 (last.drop (16 - remaining))
      let block := xorAt block 0 rest
      let block := xorAt block remaining [0x80]
      xorBlock A.cmacK2 block
  A.E1 block

theorem xorAt_xorAt (B a b : List UInt8) (h : a.length = b.length) (hB : a.length ≤ B.length) :
    xorAt (xorAt B 0 a) 0 b = xorAt B 0 (bxor a b) := by
  simp only [xorAt_eq, List.take_zero, List.nil_append, List.drop_zero, Nat.zero_add]
  have l1 : (bxor B a).length = a.length := by rw [length_bxor]; omega
  have h1 := bxor_append (bxor B a) (B.drop a.length) b [] (by omega)
  rw [List.append_nil] at h1
  rw [h1, length_bxor a b, List.drop_left' (by omega), bxor_assoc, ← h, Nat.min_self]
  simp [bxor]

theorem long_finish (A : Siv) (last X d rest : List UInt8) (hl : last.length = 16) (hX : X.length = 16)
    (hd : d.length = 16) (hr : rest.length < 16) :
    A.longFinish last (bxor X d) rest =
      cbcMac A.E1 A.cmacK1 A.cmacK2 X (xorEnd (d ++ rest) last) := by
  unfold Siv.longFinish
  dsimp only
  by_cases h0 : rest.length = 0
  · have : rest = [] := List.length_eq_zero_iff.mp h0
    subst this
    rw [if_pos h0, List.append_nil]
    have he : xorEnd d last = bxor d last := by unfold xorEnd; rw [hd]; simp
    rw [he, cbcMac_full _ _ _ _ _ (by rw [length_bxor]; omega)]
    simp only [List.length_nil, Nat.sub_zero]
    rw [List.take_of_length_le (by omega), xorAt_zero_full _ _ (by rw [length_bxor]; omega), xorBlock_eq,
      bxor_assoc (bxor X d), bxor_assoc X, bxor_assoc X, bxor_assoc d]
  · rw [if_neg h0]
    generalize hrn : rest.length = r at *
    have hT : xorEnd (d ++ rest) last =
        (d.take r ++ bxor (d.drop r) (last.take (16 - r))) ++ bxor rest (last.drop (16 - r)) := by
      unfold xorEnd
      rw [List.length_append, hd, hrn, show 16 + r - 16 = r by omega,
        List.take_append_of_le_length (by omega), List.drop_append_of_le_length (by omega)]
      have h1 := bxor_append (d.drop r) rest (last.take (16 - r)) (last.drop (16 - r))
        (by rw [List.length_drop, List.length_take]; omega)
      rw [List.take_append_drop] at h1
      rw [h1, List.append_assoc]
    have lF : (d.take r ++ bxor (d.drop r) (last.take (16 - r))).length = 16 := by
      rw [List.length_append, List.length_take, length_bxor, List.length_drop, List.length_take]; omega
    have lR : (bxor rest (last.drop (16 - r))).length = r := by
      rw [length_bxor, List.length_drop]; omega
    rw [hT, cbcMac_long _ _ _ _ _ (by rw [List.length_append]; omega), List.take_left' lF,
      List.drop_left' lF, cbcMac_short _ _ _ _ _ (by omega)]
    have eF : bxor X (d.take r ++ bxor (d.drop r) (last.take (16 - r))) =
        xorAt (bxor X d) r (last.take (16 - r)) := by
      have hs : X = X.take r ++ X.drop r := (List.take_append_drop _ _).symm
      conv_lhs => rw [hs, bxor_append _ _ _ _ (by rw [List.length_take, List.length_take]; omega)]
      rw [xorAt_eq, List.drop_of_length_le (i := r + _) (by
        rw [length_bxor, List.length_take]; omega), List.append_nil]
      unfold bxor
      rw [List.take_zipWith, List.drop_zipWith]
      congr 1
      exact (bxor_assoc (X.drop r) (d.drop r) (last.take (16 - r))).symm
    rw [eF]
    have lE := A.len1 (xorAt (bxor X d) r (last.take (16 - r)))
    generalize A.E1 (xorAt (bxor X d) r (last.take (16 - r))) = Y at *
    rw [xorAt_xorAt _ _ _ (by rw [List.length_drop]; omega) (by rw [List.length_drop]; omega),
      bxor_comm (last.drop (16 - r)) rest]
    have hp := xor_pad Y (bxor rest (last.drop (16 - r))) lE (by omega)
    rw [lR] at hp
    rw [hp, xorBlock_eq]

theorem longLoop_eq (A : Siv) (last : List UInt8) (hl : last.length = 16) (fuel : Nat) (X d rest : List UInt8)
    (hX : X.length = 16) (hd : d.length = 16) (hf : rest.length ≤ fuel) :
    A.longFinish last (A.longLoop fuel (bxor X d) rest).1 (A.longLoop fuel (bxor X d) rest).2 =
      cbcMac A.E1 A.cmacK1 A.cmacK2 X (xorEnd (d ++ rest) last) := by
  induction fuel generalizing X d rest with
  | zero =>
    have : rest = [] := List.length_eq_zero_iff.mp (by omega)
    subst this
    exact long_finish A last X d [] hl hX hd (by simp)
  | succ fuel ih =>
    rw [Siv.longLoop]
    by_cases h16 : 16 ≤ rest.length
    · rw [if_pos h16, xorBlock_eq]
      have h1 := ih (A.E1 (bxor X d)) (rest.take 16) (rest.drop 16) (A.len1 _)
        (by rw [List.length_take]; omega) (by rw [List.length_drop]; omega)
      rw [List.take_append_drop] at h1
      rw [h1, xorEnd_append d rest last h16,
        cbcMac_long _ _ _ X (d ++ xorEnd rest last)
          (by rw [List.length_append, length_xorEnd rest last h16 hl]; omega),
        List.take_left' hd, List.drop_left' hd]
    · rw [if_neg h16]
      exact long_finish A last X d rest hl hX hd (by omega)

theorem cmacLong_eq (A : Siv) (data last : List UInt8) (hd : 16 ≤ data.length) (hl : last.length = 16) :
    A.cmacLong data last =
      cbcMac A.E1 A.cmacK1 A.cmacK2 (List.replicate 16 0) (xorEnd data last) := by
  have l1 : (data.take 16).length = 16 := by rw [List.length_take]; omega
  have h1 := longLoop_eq A last hl data.length (List.replicate 16 0) (data.take 16) (data.drop 16) (by simp) l1
    (by rw [List.length_drop]; omega)
  rw [List.take_append_drop, bxor_comm, bxor_zeros _ _ (by omega)] at h1
  exact h1

/-- **C44** `cmacLong(data, last)` is CMAC of `data` with `last` xored onto its end, for every input of
at least one block. -/
theorem C44_cmac_long (A : Siv) (hA : A.Good) (data last : List UInt8) (hd : 16 ≤ data.length)
    (hl : last.length = 16) : A.cmacLong data last = rfcCmac A.E1 (xorEnd data last) := by
  rw [cmacLong_eq A data last hd hl]
  unfold rfcCmac
  dsimp only
  rw [hA.1, hA.2]

theorem length_cmac (A : Siv) (data : List UInt8) : (A.cmac data).length = 16 := by
  unfold Siv.cmac; exact A.len1 _

/-- **C44** `s2v` is the S2V of RFC 5297 for every plaintext and associated data. -/
theorem C44_s2v_rfc (A : Siv) (hA : A.Good) (msg ad : List UInt8) : A.s2v msg ad = rfcS2V A.E1 ad msg := by
  unfold Siv.s2v rfcS2V
  dsimp only
  rw [C44_double _ (length_cmac A _), C44_cmac_rfc A hA, C44_cmac_rfc A hA, xorBlock_eq]
  have lD : (bxor (dbl (rfcCmac A.E1 (List.replicate 16 0))) (rfcCmac A.E1 ad)).length = 16 := by
    rw [length_bxor, length_dbl, ← C44_cmac_rfc A hA, length_cmac]; rfl
  generalize bxor (dbl (rfcCmac A.E1 (List.replicate 16 0))) (rfcCmac A.E1 ad) = D at *
  by_cases h : msg.length ≥ 16
  · rw [if_pos h, if_pos h, C44_cmac_long A hA msg D h lD]
  · rw [if_neg h, if_neg h, C44_double _ lD, xor_pad _ _ (length_dbl _) (by omega), C44_cmac_rfc A hA]

/-! ### encryption -/

theorem length_s2v (A : Siv) (msg ad : List UInt8) : (A.s2v msg ad).length = 16 := by
  unfold Siv.s2v
  dsimp only
  split
  · unfold Siv.cmacLong; exact A.len1 _
  · exact length_cmac A _

theorem length_keyStream (E : List UInt8 → List UInt8) (hE : ∀ b, (E b).length = 16) (iv : List UInt8) (n : Nat) :
    (keyStream E iv n).length = n := by
  have hk : ∀ k, (((List.range k).map fun i => E (natToBEfix 16 (beToNat iv + i))).flatten).length = 16 * k := by
    intro k
    induction k with
    | zero => rfl
    | succ k ih =>
      rw [List.range_succ, List.map_append, List.flatten_append, List.length_append, ih]
      simp [hE]; omega
  unfold keyStream
  rw [List.length_take, hk]; omega

theorem length_ctrCrypt (A : Siv) (siv input : List UInt8) : (A.ctrCrypt siv input).length = input.length := by
  unfold Siv.ctrCrypt
  dsimp only
  rw [List.length_zipWith, length_keyStream _ A.len2, Nat.min_self]

theorem ctrCrypt_involutive (A : Siv) (siv input : List UInt8) :
    A.ctrCrypt siv (A.ctrCrypt siv input) = input := by
  have hl := length_ctrCrypt A siv input
  have h1 : ∀ x, A.ctrCrypt siv x = bxor x (keyStream A.E2
    ((siv.set 8 (siv.getD 8 0 &&& 0x7f)).set 12 ((siv.set 8 (siv.getD 8 0 &&& 0x7f)).getD 12 0 &&& 0x7f))
    x.length) := fun _ => rfl
  rw [h1 (A.ctrCrypt siv input), hl, h1 input, bxor_self_cancel]
  rw [length_keyStream _ A.len2]

theorem foldl_or (f : Nat → UInt8) (l : List Nat) (d : UInt8) :
    l.foldl (fun d i => d ||| f i) d = 0 ↔ d = 0 ∧ ∀ i ∈ l, f i = 0 := by
  induction l generalizing d with
  | nil => simp
  | cons a l ih =>
    rw [List.foldl_cons, ih]
    have : (d ||| f a = 0) ↔ d = 0 ∧ f a = 0 := by
      constructor
      · intro h
        have h' := congrArg UInt8.toNat h
        rw [UInt8.toNat_or] at h'
        have h0 := Nat.or_eq_zero_iff.mp h'
        exact ⟨UInt8.toNat_inj.mp h0.1, UInt8.toNat_inj.mp h0.2⟩
      · rintro ⟨rfl, h⟩; rw [h]; rfl
    rw [this]
    simp [and_assoc]

theorem compare_iff (a b : List UInt8) (ha : a.length = 16) (hb : b.length = 16) :
    (List.range 16).foldl (fun (d : UInt8) i => d ||| (a.getD i 0 ^^^ b.getD i 0)) 0 = 0 ↔ a = b := by
  rw [foldl_or]
  constructor
  · rintro ⟨-, h⟩
    apply List.ext_getElem (by omega)
    intro i h1 h2
    have := h i (List.mem_range.mpr (by omega))
    rw [List.getD_eq_getElem?_getD, List.getD_eq_getElem?_getD, List.getElem?_eq_getElem h1,
      List.getElem?_eq_getElem h2, Option.getD_some, Option.getD_some] at this
    have h3 := congrArg (fun x => x ^^^ b[i]) this
    simp only [UInt8.xor_assoc, UInt8.xor_self, UInt8.xor_zero, UInt8.zero_xor] at h3
    exact h3
  · rintro rfl
    exact ⟨rfl, fun i _ => UInt8.xor_self⟩

/-- **C44** Decryption returns a plaintext exactly on the ciphertext that encryption of this plaintext
with this associated data produces.  In particular it inverts encryption, and it accepts no other
ciphertext. -/
theorem C44_decrypt_iff (A : Siv) (ct ad pt : List UInt8) :
    A.decrypt ct ad = .ok pt ↔ ct = A.encrypt pt ad := by
  unfold Siv.decrypt Siv.encrypt
  dsimp only
  constructor
  · intro h
    by_cases hl : ct.length < 16
    · rw [if_pos hl] at h; cases h
    rw [if_neg hl] at h
    have l1 : (ct.take 16).length = 16 := by rw [List.length_take]; omega
    by_cases hd : (List.range 16).foldl (fun (d : UInt8) i => d ||| ((ct.take 16).getD i 0 ^^^
        (A.s2v (A.ctrCrypt (ct.take 16) (ct.drop 16)) ad).getD i 0)) 0 ≠ 0
    · rw [if_pos hd] at h; cases h
    rw [if_neg hd] at h
    have hpt := Res.ok.inj h
    have heq := (compare_iff _ _ l1 (length_s2v A _ ad)).mp (not_not.mp hd)
    rw [hpt] at heq
    rw [← heq, ← hpt, ctrCrypt_involutive, List.take_append_drop]
  · intro h
    have l1 := length_s2v A pt ad
    subst h
    rw [if_neg (by rw [List.length_append, l1]; omega), List.take_left' l1, List.drop_left' l1,
      ctrCrypt_involutive, if_neg]
    rw [not_not, compare_iff _ _ l1 l1]

/-- **C44** Round trip. -/
theorem C44_round_trip (A : Siv) (pt ad : List UInt8) : A.decrypt (A.encrypt pt ad) ad = .ok pt :=
  (C44_decrypt_iff A _ ad pt).mpr rfl

/-- **C44** Decryption never panics, and refuses everything shorter than a tag. -/
theorem C44_decrypt_total (A : Siv) (ct ad : List UInt8) :
    A.decrypt ct ad ≠ .panic ∧ (ct.length < 16 → A.decrypt ct ad = .err) := by
  unfold Siv.decrypt
  constructor
  · dsimp only
    split
    · intro h; cases h
    · split <;> (intro h; cases h)
  · intro h; rw [if_pos h]

/-- **C44** The ciphertext is the 16-byte RFC 5297 synthetic IV followed by as many bytes as the
plaintext. -/
theorem C44_ciphertext_shape (A : Siv) (hA : A.Good) (pt ad : List UInt8) :
    (A.encrypt pt ad).length = pt.length + 16 ∧ (A.encrypt pt ad).take 16 = rfcS2V A.E1 ad pt := by
  unfold Siv.encrypt
  dsimp only
  constructor
  · rw [List.length_append, length_s2v, length_ctrCrypt]; omega
  · rw [List.take_left' (length_s2v A pt ad), C44_s2v_rfc A hA]

/-- **C44** Associated data is bound: a ciphertext made with `ad` decrypts under `ad'` only if the
synthetic IVs of the same plaintext coincide (a collision of S2V when `ad ≠ ad'`), and then to the
original plaintext. -/
theorem C44_ad_binding (A : Siv) (pt ad ad' pt' : List UInt8)
    (h : A.decrypt (A.encrypt pt ad) ad' = .ok pt') :
    pt' = pt ∧ A.s2v pt ad = A.s2v pt ad' := by
  have h1 := (C44_decrypt_iff A _ ad' pt').mp h
  unfold Siv.encrypt at h1
  dsimp only at h1
  obtain ⟨e1, e2⟩ := List.append_inj h1 (by rw [length_s2v, length_s2v])
  rw [← e1] at e2
  have e3 := congrArg (A.ctrCrypt (A.s2v pt ad)) e2
  rw [ctrCrypt_involutive, ctrCrypt_involutive] at e3
  subst e3
  exact ⟨rfl, e1⟩

/-! ### examples -/

/-- A toy block function (not a permutation; none of the theorems needs that). -/
def toyAes (k b : List UInt8) : List UInt8 :=
  (List.range 16).map fun i => b.getD i 0 * 3 + b.getD ((i + 1) % 16) 0 + k.getD i 7 + UInt8.ofNat i

theorem toyAes_len : ∀ k b, (toyAes k b).length = 16 := by intro k b; simp [toyAes]

def toySiv : Siv where
  E1 := toyAes [1, 2, 3]
  E2 := toyAes [9]
  len1 := toyAes_len _
  len2 := toyAes_len _
  cmacK1 := multiplyByX (toyAes [1, 2, 3] (List.replicate 16 0))
  cmacK2 := multiplyByX (multiplyByX (toyAes [1, 2, 3] (List.replicate 16 0)))

example : toySiv.Good := by
  constructor
  · exact C44_double _ (toyAes_len _ _)
  · show multiplyByX (multiplyByX _) = _
    rw [C44_double _ (toyAes_len _ _), C44_double _ (length_dbl _)]; rfl

example : (toySiv.encrypt (List.replicate 37 5) [1, 2]).length = 53 ∧
    toySiv.decrypt (toySiv.encrypt (List.replicate 37 5) [1, 2]) [1, 2] = .ok (List.replicate 37 5) ∧
    toySiv.decrypt (toySiv.encrypt (List.replicate 37 5) [1, 2]) [1, 3] = .err := by decide +kernel

example : multiplyByX (0x80 :: List.replicate 15 0) = List.replicate 15 0 ++ [0x87] := by decide +kernel

end Verif.Daed
