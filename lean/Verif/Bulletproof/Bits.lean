import Verif.Bulletproof.Ipp
import Verif.Base.Bytes

/-! The bit vector of the committed value (range_prover.go `getaL`, `cmoveScalar`) and the power vectors. -/

set_option linter.unusedSectionVars false

namespace Verif.Bulletproof

open Verif Verif.Bytes
open Verif.OT (Ev Transcript idx)

variable {F G : Type} [Field F] [DecidableEq F] [AddCommGroup G] [Module F G] [DecidableEq G]

theorem leToNat_testBit (l : List UInt8) (i : Nat) (h : i / 8 < l.length) :
    (leToNat l).testBit i = (l[i / 8]).toNat.testBit (i % 8) := by
  induction l generalizing i with
  | nil => simp at h
  | cons b l ih =>
    have hb := toNat_lt b
    simp only [leToNat, Nat.testBit_eq_decide_div_mod_eq]
    by_cases hi : i < 8
    · have e1 : i / 8 = 0 := by omega
      have e2 : i % 8 = i := by omega
      simp only [e1, e2, List.getElem_cons_zero]
      congr 2
      obtain ⟨d, hd⟩ : ∃ d, 8 = i + 1 + d := ⟨8 - (i + 1), by omega⟩
      have e : b.toNat + 256 * leToNat l = b.toNat + 2 ^ i * (2 * (2 ^ d * leToNat l)) := by
        have : (256 : Nat) = 2 ^ i * (2 * 2 ^ d) := by
          rw [← pow_succ', ← pow_add, show i + (d + 1) = 8 by omega]; rfl
        rw [this]; ring
      rw [e, Nat.add_mul_div_left _ _ (by positivity)]
      omega
    · have h8 : (i - 8) / 8 < l.length := by simp only [List.length_cons] at h; omega
      have := ih (i - 8) h8
      simp only [Nat.testBit_eq_decide_div_mod_eq] at this
      have e1 : i / 8 = (i - 8) / 8 + 1 := by omega
      have e2 : i % 8 = (i - 8) % 8 := by omega
      simp only [e1, e2, List.getElem_cons_succ]
      rw [← this]
      congr 2
      have e3 : 2 ^ i = 256 * 2 ^ (i - 8) := by
        rw [show (256 : Nat) = 2 ^ 8 from rfl, ← pow_add]; congr 1; omega
      rw [e3, ← Nat.div_div_eq_div_mul]
      congr 1
      rw [Nat.add_mul_div_left _ _ (by omega), Nat.div_eq_of_lt hb, Nat.zero_add]

theorem byteBit (b : UInt8) (k : Nat) (hk : k < 8) :
    b >>> UInt8.ofNat k &&& 1 = if b.toNat.testBit k then 1 else 0 := by
  apply UInt8.toNat_inj.1
  have e : (UInt8.ofNat k).toNat % 8 = k := by
    rw [UInt8.toNat_ofNat']; omega
  rw [UInt8.toNat_and, UInt8.toNat_shiftRight, e, Nat.testBit_eq_decide_div_mod_eq,
    Nat.shiftRight_eq_div_pow]
  have : (1 : UInt8).toNat = 1 := rfl
  rw [this, Nat.and_one_is_mod]
  rcases Nat.mod_two_eq_zero_or_one (b.toNat / 2 ^ k) with h | h <;> rw [h] <;> decide

/-- What the range prover needs of the scalar encoding: fixed length, and decoding inverts encoding. -/
structure ScalarCodec (C : Curve F G) (L : Nat) : Prop where
  len : ∀ x, (C.bytes x).length = L
  rt : ∀ x, C.setBytes (C.bytes x) = some x

theorem zipWith_fst {op : UInt8 → UInt8 → UInt8} (h : ∀ a b, op a b = a) {k l : List UInt8}
    (hl : k.length = l.length) : List.zipWith op k l = k := by
  induction k generalizing l with
  | nil => simp
  | cons a k ih => cases l with
    | nil => simp at hl
    | cons b l => rw [List.zipWith_cons_cons, h, ih (by simpa using hl)]

theorem zipWith_snd {op : UInt8 → UInt8 → UInt8} (h : ∀ a b, op a b = b) {k l : List UInt8}
    (hl : k.length = l.length) : List.zipWith op k l = l := by
  induction k generalizing l with
  | nil => cases l <;> simp_all
  | cons a k ih => cases l with
    | nil => simp at hl
    | cons b l => rw [List.zipWith_cons_cons, h, ih (by simpa using hl)]

theorem cmove_eq {C : Curve F G} {L : Nat} (hc : ScalarCodec C L) (x y : F) (c : Bool) :
    cmoveScalar C x y (if c then 1 else 0) = .ok (if c then y else x) := by
  have hl : (C.bytes x).length = (C.bytes y).length := by rw [hc.len, hc.len]
  cases c
  · show cmoveScalar C x y 0 = .ok x
    unfold cmoveScalar
    rw [if_neg (by decide)]
    simp only
    rw [zipWith_fst (fun a b => by simp) hl, hc.rt]; rfl
  · show cmoveScalar C x y 1 = .ok y
    unfold cmoveScalar
    rw [if_neg (by decide)]
    simp only
    rw [zipWith_snd (fun a b => by
      have h1 : (0 - 1 : UInt8) = -1 := by decide
      rw [h1, UInt8.and_neg_one, ← UInt8.xor_assoc, UInt8.xor_self, UInt8.zero_xor]) hl, hc.rt]; rfl

/-- the bits `0 … n-1` of `B` as scalars -/
def bits (B n : Nat) : List F := (List.range n).map fun i => if B.testBit i then 1 else 0

@[simp] theorem length_bits (B n : Nat) : (bits B n : List F).length = n := by simp [bits]

/-- `getaL` reads the encoding as a little-endian number. -/
theorem getaL_eq {C : Curve F G} {L : Nat} (hc : ScalarCodec C L) (v : F) {n : Nat} (hn : n ≤ 8 * L) :
    getaL C v n = .ok (bits (leToNat (C.bytes v)) n) := by
  unfold getaL bits
  apply mapM_ok_of
  intro i hi
  have hi := List.mem_range.1 hi
  have h3 : i >>> 3 = i / 8 := by rw [Nat.shiftRight_eq_div_pow]
  have h7 : i &&& 7 = i % 8 := Nat.and_two_pow_sub_one_eq_mod i 3
  have hlt : i / 8 < (C.bytes v).length := by rw [hc.len]; omega
  have : idx (C.bytes v) (i >>> 3) = .ok (C.bytes v)[i / 8] := by
    unfold idx; rw [h3, List.getElem?_eq_getElem hlt]
  rw [this, Res.bind_ok, h7, byteBit _ _ (by omega), ← leToNat_testBit _ _ hlt, cmove_eq hc]

/-- past the end of the encoding `getaL` panics -/
theorem getaL_panic {C : Curve F G} {L : Nat} (hc : ScalarCodec C L) (v : F) {n : Nat} (hn : 8 * L < n) :
    getaL C v n = .panic := by
  unfold getaL
  obtain ⟨d, rfl⟩ : ∃ d, n = 8 * L + (1 + d) := ⟨n - 8 * L - 1, by omega⟩
  rw [List.range_add, List.mapM_append]
  have h1 : (List.range (8 * L)).mapM (fun i => do
      let b ← idx (C.bytes v) (i >>> 3)
      cmoveScalar C 0 1 (b >>> UInt8.ofNat (i &&& 7) &&& 1)) = getaL C v (8 * L) := rfl
  rw [h1, getaL_eq hc v le_rfl, Res.bind_ok]
  have : List.range (1 + d) = 0 :: (List.range d).map (1 + ·) := by rw [List.range_add]; rfl
  rw [this, List.map_cons, List.mapM_cons]
  have : idx (C.bytes v) ((8 * L + 0) >>> 3) = .panic := by
    unfold idx
    rw [List.getElem?_eq_none]
    rw [hc.len, Nat.shiftRight_eq_div_pow]; omega
  rw [this]; rfl

theorem mulFrom_length (x k : F) (m : Nat) : (mulFrom x k m).length = m := by
  induction m generalizing x with
  | zero => rfl
  | succ m ih => simp [mulFrom, ih]

theorem dblFrom_eq (x : F) (m : Nat) : dblFrom x m = mulFrom x 2 m := by
  induction m generalizing x with
  | zero => rfl
  | succ m ih => simp only [dblFrom, mulFrom, ih]; rw [mul_two]

theorem mulFrom_eq (x k : F) (m : Nat) : mulFrom x k m = (List.range m).map (fun i => x * k ^ i) := by
  induction m generalizing x with
  | zero => rfl
  | succ m ih =>
    rw [mulFrom, ih, List.range_succ_eq_map, List.map_cons, List.map_map]
    simp only [pow_zero, mul_one, Function.comp_def, Nat.succ_eq_add_one, pow_succ']
    simp [mul_assoc]

theorem get2n_ok {n : Nat} (h : 1 ≤ n) : (get2n (n : Int) : Res (List F)) = .ok (mulFrom 1 2 n) := by
  unfold get2n; rw [if_neg (by omega), Int.toNat_natCast, dblFrom_eq]

theorem get1n_ok (n : Nat) : (get1n (n : Int) : Res (List F)) = .ok (List.replicate n 1) := by
  unfold get1n; rw [if_neg (by omega), Int.toNat_natCast]

theorem getkn_ok (k : F) {n : Nat} (h : 2 ≤ n) : getkn k (n : Int) = .ok (mulFrom 1 k n) := by
  unfold getkn
  rw [if_neg (by omega), Int.toNat_natCast]
  obtain ⟨m, rfl⟩ : ∃ m, n = m + 1 := ⟨n - 1, by omega⟩
  simp [mulFrom]

/-- the powers of two weigh the bits of `B` to `B mod 2^n` -/
theorem dot_bits (B n : Nat) : dot (bits B n) (mulFrom (1 : F) 2 n) = ((B % 2 ^ n : Nat) : F) := by
  rw [mulFrom_eq, bits, dot, List.zipWith_map, List.zipWith_self]
  induction n with
  | zero => simp [Nat.mod_one]
  | succ n ih =>
    rw [List.range_succ, List.map_append, List.sum_append, ih, Nat.mod_pow_succ]
    rw [List.map_singleton, List.sum_singleton, Nat.testBit_eq_decide_div_mod_eq]
    rcases Nat.mod_two_eq_zero_or_one (B / 2 ^ n) with h | h <;> simp [h]

theorem bits_idem (B n : Nat) : ∀ a ∈ (bits B n : List F), a * (a - 1) = 0 := by
  intro a ha
  obtain ⟨i, _, rfl⟩ := List.mem_map.1 ha
  split <;> simp

end Verif.Bulletproof
