import Verif.Mina.BitVector
import Mathlib.Data.List.InsertIdx
import Mathlib.Tactic.SplitIfs

/-! C38: the bit vector is a list of bits. -/

namespace Verif.Mina
namespace BitVector

/-- bit `k` of a byte -/
def tb (b : UInt8) (k : Nat) : Bool := b.toNat.testBit k

/-- a bit as a byte -/
def b2u (c : Bool) : UInt8 := if c then 1 else 0

/-! ### byte facts, by exhaustion over all bytes and offsets -/

theorem byte_cases (P : UInt8 → Prop) (h : ∀ n : Fin 256, P (UInt8.ofNat n)) (b : UInt8) : P b := by
  have := h ⟨b.toNat, b.toNat_lt⟩
  simpa using this

theorem putBit_aux : ∀ (n : Fin 256) (o k : Fin 8),
    tb (putBit 1 (UInt8.ofNat n) (UInt8.ofNat o)) k = (if k = o then true else tb (UInt8.ofNat n) k) ∧
    tb (putBit 0 (UInt8.ofNat n) (UInt8.ofNat o)) k = (if k = o then false else tb (UInt8.ofNat n) k) := by
  decide +kernel

theorem tb_putBit (bit b : UInt8) {o k : Nat} (ho : o < 8) (hk : k < 8) :
    tb (putBit bit b (UInt8.ofNat o)) k = if k = o then decide (bit = 1) else tb b k := by
  have h := putBit_aux ⟨b.toNat, b.toNat_lt⟩ ⟨o, ho⟩ ⟨k, hk⟩
  simp only [UInt8.ofNat_toNat, Fin.mk.injEq] at h
  by_cases hb : bit = 1
  · subst hb; simpa using h.1
  · have : putBit bit b (UInt8.ofNat o) = putBit 0 b (UInt8.ofNat o) := by
      rw [putBit, putBit, if_neg hb, if_neg (by decide)]
    rw [this, h.2]; simp [hb]

theorem elem_aux : ∀ (n : Fin 256) (o : Fin 8),
    (UInt8.ofNat n >>> UInt8.ofNat o) &&& 1 = b2u (tb (UInt8.ofNat n) o) := by
  decide +kernel

theorem tb_elem (b : UInt8) {o : Nat} (ho : o < 8) :
    (b >>> UInt8.ofNat o) &&& 1 = b2u (tb b o) := by
  have h := elem_aux ⟨b.toNat, b.toNat_lt⟩ ⟨o, ho⟩
  simpa using h

theorem ins_aux : ∀ (n : Fin 256) (o k : Fin 8) (c : Bool),
    tb (insByte (b2u c) (UInt8.ofNat n) (UInt8.ofNat o)) k =
      (if k < o then tb (UInt8.ofNat n) k else if k = o then c else tb (UInt8.ofNat n) (k.val - 1)) := by
  decide +kernel

theorem tb_ins (bit b : UInt8) {o k : Nat} (ho : o < 8) (hk : k < 8) :
    tb (insByte bit b (UInt8.ofNat o)) k =
      if k < o then tb b k else if k = o then decide (bit = 1) else tb b (k - 1) := by
  have h := ins_aux ⟨b.toNat, b.toNat_lt⟩ ⟨o, ho⟩ ⟨k, hk⟩ (decide (bit = 1))
  have e : insByte (b2u (decide (bit = 1))) b (UInt8.ofNat o) =
      insByte bit b (UInt8.ofNat o) := by
    by_cases hb : bit = 1
    · simp [b2u, hb]
    · simp [b2u, insByte, hb]
  simp only [UInt8.ofNat_toNat, Fin.mk.injEq, Fin.mk_lt_mk] at h
  rw [e] at h
  rw [h]

theorem top_aux : ∀ (n : Fin 256),
    (UInt8.ofNat n &&& 0x80) >>> 7 = b2u (tb (UInt8.ofNat n) 7) ∧
    UInt8.ofNat n &&& 1 = b2u (tb (UInt8.ofNat n) 0) := by decide +kernel

theorem tb_top (b : UInt8) : (b &&& 0x80) >>> 7 = b2u (tb b 7) := by
  have := (top_aux ⟨b.toNat, b.toNat_lt⟩).1
  simpa using this

theorem tb_low (b : UInt8) : b &&& 1 = b2u (tb b 0) := by
  have := (top_aux ⟨b.toNat, b.toNat_lt⟩).2
  simpa using this

theorem high_aux : ∀ (n : Fin 256) (k : Fin 8) (c : Bool),
    tb ((UInt8.ofNat n <<< 1) ||| (b2u c)) k =
      (if k.val = 0 then c else tb (UInt8.ofNat n) (k.val - 1)) ∧
    tb ((UInt8.ofNat n >>> 1) ||| ((b2u c) <<< 7)) k =
      (if k.val = 7 then c else tb (UInt8.ofNat n) (k.val + 1)) := by
  decide +kernel

theorem tb_high (b : UInt8) (c : Bool) {k : Nat} (hk : k < 8) :
    tb ((b <<< 1) ||| (b2u c)) k = if k = 0 then c else tb b (k - 1) := by
  have := (high_aux ⟨b.toNat, b.toNat_lt⟩ ⟨k, hk⟩ c).1
  simpa using this

theorem tb_lower (b : UInt8) (c : Bool) {k : Nat} (hk : k < 8) :
    tb ((b >>> 1) ||| ((b2u c) <<< 7)) k = if k = 7 then c else tb b (k + 1) := by
  have := (high_aux ⟨b.toNat, b.toNat_lt⟩ ⟨k, hk⟩ c).2
  simpa using this

theorem del_aux : ∀ (n : Fin 256) (o k : Fin 8) (c : Bool),
    tb (delByte (b2u c) (UInt8.ofNat n) (UInt8.ofNat o)) k =
      (if k < o then tb (UInt8.ofNat n) k else if k.val = 7 then c else tb (UInt8.ofNat n) (k.val + 1)) := by
  decide +kernel

theorem tb_del (b : UInt8) (c : Bool) {o k : Nat} (ho : o < 8) (hk : k < 8) :
    tb (delByte (b2u c) b (UInt8.ofNat o)) k =
      if k < o then tb b k else if k = 7 then c else tb b (k + 1) := by
  have := del_aux ⟨b.toNat, b.toNat_lt⟩ ⟨o, ho⟩ ⟨k, hk⟩ c
  simpa using this

theorem tb_zero (k : Nat) : tb 0 k = false := by simp [tb]

/-! ### bits of a byte list -/

/-- bit `i` of a byte string, least significant bit of each byte first, `false` beyond the end -/
def bitAt (d : List UInt8) (i : Nat) : Bool := tb (d.getD (i / 8) 0) (i % 8)

theorem bitAt_nil (i : Nat) : bitAt [] i = false := by simp [bitAt, tb_zero]

theorem bitAt_cons (b : UInt8) (d : List UInt8) (i : Nat) :
    bitAt (b :: d) i = if i < 8 then tb b i else bitAt d (i - 8) := by
  rw [bitAt]
  split
  · rename_i h
    rw [Nat.div_eq_of_lt h, Nat.mod_eq_of_lt h]; rfl
  · rename_i h
    have h1 : i / 8 = (i - 8) / 8 + 1 := by omega
    have h2 : i % 8 = (i - 8) % 8 := by omega
    rw [h1, h2, List.getD_cons_succ]; rfl

theorem bitAt_append (a d : List UInt8) (i : Nat) :
    bitAt (a ++ d) i = if i < 8 * a.length then bitAt a i else bitAt d (i - 8 * a.length) := by
  induction a generalizing i with
  | nil => simp
  | cons b a ih =>
    rw [List.cons_append, bitAt_cons, bitAt_cons, ih, List.length_cons]
    by_cases h1 : i < 8
    · rw [if_pos h1, if_pos h1, if_pos (by omega)]
    · rw [if_neg h1, if_neg h1]
      by_cases h2 : i < 8 * (a.length + 1)
      · rw [if_pos (by omega), if_pos h2]
      · rw [if_neg (by omega), if_neg h2]
        congr 1; omega

theorem bitAt_shiftHigher (c : Bool) (d : List UInt8) (i : Nat) (hi : i < 8 * d.length) :
    bitAt (shiftHigher (b2u c) d) i = if i = 0 then c else bitAt d (i - 1) := by
  induction d generalizing c i with
  | nil => simp at hi
  | cons b d ih =>
    rw [List.length_cons] at hi
    rw [shiftHigher, bitAt_cons, tb_top]
    by_cases h : i < 8
    · rw [if_pos h, tb_high b c h]
      by_cases h0 : i = 0
      · simp [h0]
      · rw [if_neg h0, if_neg h0, bitAt_cons, if_pos (by omega)]
    · rw [if_neg h, ih _ _ (by omega), if_neg (show i ≠ 0 by omega), bitAt_cons]
      by_cases h8 : i = 8
      · subst h8; simp
      · rw [if_neg (by omega), if_neg (by omega)]
        congr 1

theorem length_shiftHigher (c : UInt8) (d : List UInt8) : (shiftHigher c d).length = d.length := by
  induction d generalizing c with
  | nil => rfl
  | cons b d ih => simp [shiftHigher, ih]

theorem shiftLower_spec (d : List UInt8) :
    (shiftLower 0 d).1 = b2u (bitAt d 0) ∧ (shiftLower 0 d).2.length = d.length ∧
    ∀ i, bitAt (shiftLower 0 d).2 i = bitAt d (i + 1) := by
  induction d with
  | nil => exact ⟨by simp [shiftLower, bitAt_nil, b2u], rfl, fun i => by simp [shiftLower, bitAt_nil]⟩
  | cons b d ih =>
    obtain ⟨h1, h2, h3⟩ := ih
    refine ⟨?_, by simp [shiftLower, h2], ?_⟩
    · simp only [shiftLower]
      rw [tb_low, bitAt_cons, if_pos (by omega)]
    · intro i
      simp only [shiftLower]
      rw [h1, bitAt_cons, bitAt_cons]
      by_cases h : i < 8
      · rw [if_pos h, tb_lower b _ h]
        by_cases h7 : i = 7
        · subst h7; simp
        · rw [if_neg h7, if_pos (by omega)]
      · rw [if_neg h, if_neg (by omega), h3]
        congr 1; omega

theorem bitAt_set (d : List UInt8) (j : Nat) (b' : UInt8) (hj : j < d.length) (i : Nat) :
    bitAt (d.set j b') i = if i / 8 = j then tb b' (i % 8) else bitAt d i := by
  simp only [bitAt, List.getD_eq_getElem?_getD]
  by_cases h : i / 8 = j
  · rw [if_pos h, h, List.getElem?_set_self hj]; rfl
  · rw [if_neg h, List.getElem?_set_ne (Ne.symm h)]

/-! ### the abstraction -/

/-- The bits of a vector. -/
def bits (v : BitVector) : List Bool := (List.range v.length).map (bitAt v.data)

/-- The buffer is long enough, and the length fits the 32-bit index arithmetic. -/
def Inv (v : BitVector) : Prop := v.length ≤ 8 * v.data.length ∧ v.length < 2 ^ 32

theorem length_bits (v : BitVector) : v.bits.length = v.length := by simp [bits]

theorem getElem?_bits (v : BitVector) (i : Nat) :
    v.bits[i]? = if i < v.length then some (bitAt v.data i) else none := by
  rw [bits, List.getElem?_map]
  by_cases h : i < v.length
  · simp [h]
  · simp [h]

theorem bytesLength_le {n m : Nat} : bytesLength n > m ↔ 8 * m < n := by
  rw [bytesLength]; omega

/-- growing the buffer by a zero byte when needed -/
theorem grow (v : BitVector) (h : v.Inv) :
    let d := if bytesLength (v.length + 1) > v.data.length then v.data ++ [0] else v.data
    v.length + 1 ≤ 8 * d.length ∧ (∀ i, bitAt d i = bitAt v.data i) := by
  have hz : ∀ i, bitAt [0] i = false := by
    intro i
    rw [bitAt_cons]
    split
    · exact tb_zero _
    · exact bitAt_nil _
  intro d
  by_cases hb : bytesLength (v.length + 1) > v.data.length
  · have hd : d = v.data ++ [0] := if_pos hb
    rw [hd]
    rw [bytesLength_le] at hb
    refine ⟨by have := h.1; simp; omega, ?_⟩
    intro i
    rw [bitAt_append, hz]
    split
    · rfl
    · rename_i h'
      rw [bitAt, List.getD_eq_getElem?_getD, List.getElem?_eq_none (by omega)]
      simp [tb_zero]
  · have hd : d = v.data := if_neg hb
    rw [bytesLength_le] at hb
    rw [hd]
    exact ⟨by omega, fun _ => rfl⟩

/-- **C38** Append. -/
theorem C38_append (v : BitVector) (h : v.Inv) (hl : v.length + 1 < 2 ^ 32) (bit : UInt8) :
    ∃ v', v.append bit = .ok v' ∧ v'.Inv ∧ v'.bits = v.bits ++ [decide (bit = 1)] := by
  have hg := grow v h
  simp only at hg
  rw [append]
  generalize (if bytesLength (v.length + 1) > v.data.length then v.data ++ [0] else v.data) = d at hg
  obtain ⟨g1, g2⟩ := hg
  have hm : v.length % 2 ^ 32 = v.length := Nat.mod_eq_of_lt h.2
  rw [hm]
  have hlt : v.length / 8 < d.length := by omega
  rw [List.getElem?_eq_getElem hlt]
  refine ⟨_, rfl, ⟨by simp; omega, by simpa using hl⟩, ?_⟩
  apply List.ext_getElem?
  intro i
  rw [getElem?_bits]
  simp only
  rw [bitAt_set _ _ _ hlt]
  rcases Nat.lt_trichotomy i v.length with hi | hi | hi
  · rw [if_pos (by omega), List.getElem?_append_left (by rw [length_bits]; exact hi), getElem?_bits,
      if_pos hi]
    split
    · rename_i he
      rw [tb_putBit _ _ (by omega) (by omega), if_neg (by omega), ← g2 i, bitAt,
        List.getD_eq_getElem?_getD, he, List.getElem?_eq_getElem hlt]
      rfl
    · rw [g2]
  · subst hi
    rw [if_pos (by omega), if_pos rfl, tb_putBit _ _ (by omega) (by omega), if_pos rfl,
      List.getElem?_append_right (by rw [length_bits]; exact Nat.le_refl _), length_bits]
    simp
  · rw [if_neg (by omega), List.getElem?_eq_none (by rw [List.length_append, length_bits]; simp; omega)]

theorem inRange_iff (v : BitVector) (i : Int) : v.inRange i = true ↔ ∃ n : Nat, i = n ∧ n < v.length := by
  simp only [inRange, Bool.not_eq_true', Bool.or_eq_false_iff, decide_eq_false_iff_not]
  constructor
  · rintro ⟨h1, h2⟩
    exact ⟨i.toNat, by omega, by omega⟩
  · rintro ⟨n, rfl, h⟩
    omega

/-- **C38** Element. -/
theorem C38_element (v : BitVector) (h : v.Inv) (i : Int) :
    (∀ n : Nat, i = n → ∀ b, v.bits[n]? = some b → v.element i = .ok (b2u b)) ∧
    ((¬ ∃ n : Nat, i = n ∧ n < v.bits.length) → v.element i = .panic) := by
  constructor
  · rintro n rfl b hb
    rw [getElem?_bits] at hb
    split at hb
    · rename_i hn
      have hr : v.inRange n = true := (inRange_iff v n).mpr ⟨n, rfl, hn⟩
      have h1 := h.1
      have hlt : n / 8 < v.data.length := by omega
      rw [element, if_neg (by simp [hr])]
      simp only [Int.toNat_natCast, List.getElem?_eq_getElem hlt]
      rw [tb_elem _ (by omega)]
      have := Option.some.inj hb
      rw [← this, bitAt, List.getD_eq_getElem?_getD, List.getElem?_eq_getElem hlt]
      rfl
    · cases hb
  · intro hn
    rw [length_bits] at hn
    have : v.inRange i = false := by
      rw [← Bool.not_eq_true, inRange_iff]; exact hn
    rw [element, this]; rfl

/-- **C38** Set. -/
theorem C38_set (v : BitVector) (h : v.Inv) (bit : UInt8) (i : Int) :
    (∀ n : Nat, i = n → n < v.bits.length →
      ∃ v', v.set bit i = .ok v' ∧ v'.Inv ∧ v'.bits = v.bits.set n (decide (bit = 1))) ∧
    ((¬ ∃ n : Nat, i = n ∧ n < v.bits.length) → v.set bit i = .panic) := by
  constructor
  · rintro n rfl hn
    rw [length_bits] at hn
    have hr : v.inRange n = true := (inRange_iff v n).mpr ⟨n, rfl, hn⟩
    have h1 := h.1
    have h2 := h.2
    have hlt : n / 8 < v.data.length := by omega
    have hm : n / 8 % 2 ^ 32 = n / 8 := Nat.mod_eq_of_lt (by omega)
    rw [set, if_neg (by simp [hr])]
    simp only [Int.toNat_natCast, hm, List.getElem?_eq_getElem hlt]
    refine ⟨_, rfl, ⟨by simpa using h1, h2⟩, ?_⟩
    apply List.ext_getElem?
    intro k
    rw [getElem?_bits, List.getElem?_set, getElem?_bits, length_bits]
    simp only
    rw [bitAt_set _ _ _ hlt]
    by_cases hk : k < v.length
    · rw [if_pos hk, if_pos hk]
      by_cases hnk : n = k
      · subst hnk
        rw [if_pos rfl, if_pos rfl, tb_putBit _ _ (by omega) (by omega), if_pos rfl, if_pos hk]
      · rw [if_neg hnk]
        split
        · rename_i he
          rw [tb_putBit _ _ (by omega) (by omega), if_neg (by omega), bitAt,
            List.getD_eq_getElem?_getD, he, List.getElem?_eq_getElem hlt]
          rfl
        · rfl
    · rw [if_neg hk, if_neg hk, if_neg (by omega)]
  · intro hn
    rw [length_bits] at hn
    have : v.inRange i = false := by
      rw [← Bool.not_eq_true, inRange_iff]; exact hn
    rw [set, this]; rfl

/-- **C38** Insert (before an existing position; inserting at the end panics). -/
theorem C38_insert (v : BitVector) (h : v.Inv) (hl : v.length + 1 < 2 ^ 32) (bit : UInt8) (i : Int) :
    (∀ n : Nat, i = n → n < v.bits.length →
      ∃ v', v.insert bit i = .ok v' ∧ v'.Inv ∧ v'.bits = v.bits.insertIdx n (decide (bit = 1))) ∧
    ((¬ ∃ n : Nat, i = n ∧ n < v.bits.length) → v.insert bit i = .panic) := by
  constructor
  · rintro n rfl hn
    rw [length_bits] at hn
    have hr : v.inRange n = true := (inRange_iff v n).mpr ⟨n, rfl, hn⟩
    have hg := grow v h
    simp only at hg
    rw [insert, if_neg (by simp [hr])]
    simp only
    generalize (if bytesLength (v.length + 1) > v.data.length then v.data ++ [0] else v.data) = d at hg
    obtain ⟨g1, g2⟩ := hg
    have h2 := h.2
    have hlt : n / 8 < d.length := by omega
    have hm : n / 8 % 2 ^ 32 = n / 8 := Nat.mod_eq_of_lt (by omega)
    simp only [Int.toNat_natCast, hm, List.getElem?_eq_getElem hlt]
    have hlt' : (d.take (n / 8)).length = n / 8 := by simp; omega
    refine ⟨_, rfl, ⟨?_, hl⟩, ?_⟩
    · simp only [List.length_append, List.length_cons, length_shiftHigher, List.length_drop, hlt']
      omega
    have hsplit : ∀ k, bitAt v.data k = if k < 8 * (n / 8) then bitAt (d.take (n / 8)) k
        else if k < 8 * (n / 8) + 8 then tb d[n / 8] (k - 8 * (n / 8))
        else bitAt (d.drop (n / 8 + 1)) (k - 8 * (n / 8) - 8) := by
      intro k
      have hd : d = d.take (n / 8) ++ d[n / 8] :: d.drop (n / 8 + 1) := by
        rw [List.getElem_cons_drop, List.take_append_drop]
      rw [← g2 k]
      conv_lhs => rw [hd]
      rw [bitAt_append, hlt', bitAt_cons]
      by_cases c1 : k < 8 * (n / 8)
      · rw [if_pos c1, if_pos c1]
      · rw [if_neg c1, if_neg c1]
        by_cases c2 : k < 8 * (n / 8) + 8
        · rw [if_pos (by omega), if_pos c2]
        · rw [if_neg (by omega), if_neg c2]
    apply List.ext_getElem?
    intro k
    rw [getElem?_bits, List.getElem?_insertIdx, getElem?_bits, getElem?_bits, length_bits]
    simp only
    by_cases hk : k < v.length + 1
    · rw [if_pos hk, bitAt_append, hlt', bitAt_cons, tb_top]
      by_cases c1 : k < 8 * (n / 8)
      · rw [if_pos c1, if_pos (by omega), if_pos (by omega), hsplit k, if_pos c1]
      · rw [if_neg c1]
        by_cases c2 : k < 8 * (n / 8) + 8
        · rw [if_pos (by omega), tb_ins _ _ (by omega) (by omega)]
          rcases Nat.lt_trichotomy k n with hkn | hkn | hkn
          · rw [if_pos (by omega), if_pos hkn, if_pos (by omega), hsplit k, if_neg c1, if_pos c2]
          · rw [if_neg (by omega), if_pos (by omega), if_neg (by omega), if_pos hkn, if_pos (by omega)]
          · rw [if_neg (by omega), if_neg (by omega), if_neg (by omega), if_neg (by omega),
              if_pos (by omega), hsplit (k - 1), if_neg (by omega), if_pos (by omega)]
            congr 2; omega
        · rw [if_neg (by omega), bitAt_shiftHigher _ _ _ (by rw [List.length_drop]; omega),
            if_neg (show ¬ k < n by omega), if_neg (show k ≠ n by omega),
            if_pos (show k - 1 < v.length by omega),
            hsplit (k - 1), if_neg (show ¬ k - 1 < 8 * (n / 8) by omega)]
          by_cases c3 : k = 8 * (n / 8) + 8
          · rw [if_pos (show k - 8 * (n / 8) - 8 = 0 by omega),
              if_pos (show k - 1 < 8 * (n / 8) + 8 by omega)]
            congr 2; omega
          · rw [if_neg (show ¬ k - 8 * (n / 8) - 8 = 0 by omega),
              if_neg (show ¬ k - 1 < 8 * (n / 8) + 8 by omega)]
            congr 2; omega
    · rw [if_neg hk, if_neg (by omega), if_neg (by omega), if_neg (by omega)]
  · intro hn
    rw [length_bits] at hn
    have : v.inRange i = false := by
      rw [← Bool.not_eq_true, inRange_iff]; exact hn
    rw [insert, this]; rfl

theorem bitAt_take (d : List UInt8) (m i : Nat) (hi : i < 8 * m) : bitAt (d.take m) i = bitAt d i := by
  rw [bitAt, bitAt, List.getD_eq_getElem?_getD, List.getD_eq_getElem?_getD,
    List.getElem?_take_of_lt (by omega)]

/-- **C38** Delete. -/
theorem C38_delete (v : BitVector) (h : v.Inv) (i : Int) :
    (∀ n : Nat, i = n → n < v.bits.length →
      ∃ v', v.delete i = .ok v' ∧ v'.Inv ∧ v'.bits = v.bits.eraseIdx n) ∧
    ((¬ ∃ n : Nat, i = n ∧ n < v.bits.length) → v.delete i = .panic) := by
  constructor
  · rintro n rfl hn
    rw [length_bits] at hn
    have hr : v.inRange n = true := (inRange_iff v n).mpr ⟨n, rfl, hn⟩
    have h1 := h.1
    have h2 := h.2
    have hlt : n / 8 < v.data.length := by omega
    have hm : n / 8 % 2 ^ 32 = n / 8 := Nat.mod_eq_of_lt (by omega)
    rw [delete, if_neg (by simp [hr])]
    simp only [Int.toNat_natCast, hm, List.getElem?_eq_getElem hlt]
    obtain ⟨s1, s2, s3⟩ := shiftLower_spec (v.data.drop (n / 8 + 1))
    rw [s1]
    generalize (shiftLower 0 (v.data.drop (n / 8 + 1))).2 = sl at s2 s3
    have hlt' : (v.data.take (n / 8)).length = n / 8 := by simp; omega
    have hlen : (v.data.take (n / 8) ++ delByte (b2u (bitAt (v.data.drop (n / 8 + 1)) 0))
        v.data[n / 8] (UInt8.ofNat (n % 8)) :: sl).length = v.data.length := by
      rw [List.length_append, List.length_cons, hlt', s2, List.length_drop]; omega
    have hd : v.data = v.data.take (n / 8) ++ v.data[n / 8] :: v.data.drop (n / 8 + 1) := by
      rw [List.getElem_cons_drop, List.take_append_drop]
    have hsplit : ∀ k, bitAt v.data k = if k < 8 * (n / 8) then bitAt (v.data.take (n / 8)) k
        else if k < 8 * (n / 8) + 8 then tb v.data[n / 8] (k - 8 * (n / 8))
        else bitAt (v.data.drop (n / 8 + 1)) (k - 8 * (n / 8) - 8) := by
      intro k
      conv_lhs => rw [hd]
      rw [bitAt_append, hlt', bitAt_cons]
      by_cases c1 : k < 8 * (n / 8)
      · rw [if_pos c1, if_pos c1]
      · rw [if_neg c1, if_neg c1]
        by_cases c2 : k < 8 * (n / 8) + 8
        · rw [if_pos (by omega), if_pos c2]
        · rw [if_neg (by omega), if_neg c2]
    -- bits before truncation
    have hbits : ∀ k, bitAt (v.data.take (n / 8) ++ delByte (b2u (bitAt (v.data.drop (n / 8 + 1)) 0))
        v.data[n / 8] (UInt8.ofNat (n % 8)) :: sl) k =
        if k < n then bitAt v.data k else bitAt v.data (k + 1) := by
      intro k
      rw [bitAt_append, hlt', bitAt_cons]
      by_cases c1 : k < 8 * (n / 8)
      · rw [if_pos c1, if_pos (by omega), hsplit k, if_pos c1]
      · rw [if_neg c1]
        by_cases c2 : k < 8 * (n / 8) + 8
        · rw [if_pos (by omega), tb_del _ _ (by omega) (by omega)]
          by_cases hkn : k < n
          · rw [if_pos (by omega), if_pos hkn, hsplit k, if_neg c1, if_pos c2]
          · rw [if_neg (show ¬ k - 8 * (n / 8) < n % 8 by omega), if_neg hkn, hsplit (k + 1),
              if_neg (show ¬ k + 1 < 8 * (n / 8) by omega)]
            by_cases c3 : k - 8 * (n / 8) = 7
            · rw [if_pos c3, if_neg (by omega)]
              congr 1; omega
            · rw [if_neg c3, if_pos (by omega)]
              congr 1; omega
        · rw [if_neg (by omega), if_neg (by omega), s3, hsplit (k + 1), if_neg (by omega),
            if_neg (by omega)]
          congr 1; omega
    generalize (v.data.take (n / 8) ++ delByte (b2u (bitAt (v.data.drop (n / 8 + 1)) 0))
        v.data[n / 8] (UInt8.ofNat (n % 8)) :: sl) = d at hlen hbits
    have hkeep : ∀ k, k < v.length - 1 →
        bitAt (if bytesLength (v.length - 1) < d.length then d.take (bytesLength (v.length - 1)) else d) k =
          bitAt d k := by
      intro k hk
      split
      · apply bitAt_take
        rw [bytesLength]; omega
      · rfl
    refine ⟨_, rfl, ⟨?_, by simp only; omega⟩, ?_⟩
    · simp only
      split
      · rw [List.length_take, bytesLength]; omega
      · omega
    · apply List.ext_getElem?
      intro k
      rw [getElem?_bits, List.getElem?_eraseIdx, getElem?_bits, getElem?_bits]
      simp only
      by_cases hk : k < v.length - 1
      · rw [if_pos hk, hkeep k hk, hbits]
        split
        · rw [if_pos (by omega)]
        · rw [if_pos (by omega)]
      · rw [if_neg hk, if_neg (show ¬ k < n by omega), if_neg (by omega)]
  · intro hn
    rw [length_bits] at hn
    have : v.inRange i = false := by
      rw [← Bool.not_eq_true, inRange_iff]; exact hn
    rw [delete, this]; rfl

/-! ### whole histories -/

/-- an operation on a bit vector -/
inductive Op where
  | append (bit : UInt8)
  | element (i : Int)
  | set (bit : UInt8) (i : Int)
  | insert (bit : UInt8) (i : Int)
  | delete (i : Int)

/-- one operation on the real vector; the second component is `Element`'s result -/
def step (v : BitVector) : Op → Res (BitVector × Option UInt8)
  | .append b => do let v' ← v.append b; Res.ok (v', none)
  | .element i => do let x ← v.element i; Res.ok (v, some x)
  | .set b i => do let v' ← v.set b i; Res.ok (v', none)
  | .insert b i => do let v' ← v.insert b i; Res.ok (v', none)
  | .delete i => do let v' ← v.delete i; Res.ok (v', none)

/-- index check on a list -/
def idx (l : List Bool) (i : Int) : Option Nat :=
  if 0 ≤ i ∧ i < l.length then some i.toNat else none

/-- the same operation on a list of bits -/
def specStep (l : List Bool) : Op → Res (List Bool × Option UInt8)
  | .append b => .ok (l ++ [decide (b = 1)], none)
  | .element i => match idx l i with
    | some n => .ok (l, some (if l.getD n false then 1 else 0))
    | none => .panic
  | .set b i => match idx l i with
    | some n => .ok (l.set n (decide (b = 1)), none)
    | none => .panic
  | .insert b i => match idx l i with
    | some n => .ok (l.insertIdx n (decide (b = 1)), none)
    | none => .panic
  | .delete i => match idx l i with
    | some n => .ok (l.eraseIdx n, none)
    | none => .panic

/-- run a history, collecting outputs -/
def run {σ : Type} (f : σ → Op → Res (σ × Option UInt8)) : σ → List Op → Res (σ × List (Option UInt8))
  | s, [] => .ok (s, [])
  | s, o :: os => do
    let (s', x) ← f s o
    let (s'', xs) ← run f s' os
    Res.ok (s'', x :: xs)

theorem idx_some {l : List Bool} {i : Int} {n : Nat} (h : idx l i = some n) : i = n ∧ n < l.length := by
  rw [idx] at h
  split at h
  · have := Option.some.inj h; omega
  · cases h

theorem idx_none {l : List Bool} {i : Int} (h : idx l i = none) : ¬ ∃ n : Nat, i = n ∧ n < l.length := by
  rw [idx] at h
  split at h
  · cases h
  · rintro ⟨n, rfl, hn⟩; omega

theorem step_spec (v : BitVector) (h : v.Inv) (hl : v.length + 1 < 2 ^ 32) (o : Op) :
    (∃ v' x, step v o = .ok (v', x) ∧ specStep v.bits o = .ok (v'.bits, x) ∧ v'.Inv ∧
      v'.length ≤ v.length + 1) ∨
    (step v o = .panic ∧ specStep v.bits o = .panic) := by
  cases o with
  | append b =>
    obtain ⟨v', h1, h2, h3⟩ := C38_append v h hl b
    refine Or.inl ⟨v', none, by simp [step, h1], by simp [specStep, h3], h2, ?_⟩
    rw [← length_bits, h3]; simp [length_bits]
  | element i =>
    obtain ⟨h1, h2⟩ := C38_element v h i
    cases e : idx v.bits i with
    | none => exact Or.inr ⟨by simp [step, h2 (idx_none e)], by simp [specStep, e]⟩
    | some n =>
      obtain ⟨rfl, hn⟩ := idx_some e
      have hb := List.getElem?_eq_getElem hn
      refine Or.inl ⟨v, some (b2u v.bits[n]), ?_, ?_, h, by omega⟩
      · simp [step, h1 n rfl _ hb]
      · simp [specStep, e, List.getD_eq_getElem?_getD, hb, b2u]
  | set b i =>
    obtain ⟨h1, h2⟩ := C38_set v h b i
    cases e : idx v.bits i with
    | none => exact Or.inr ⟨by simp [step, h2 (idx_none e)], by simp [specStep, e]⟩
    | some n =>
      obtain ⟨rfl, hn⟩ := idx_some e
      obtain ⟨v', a1, a2, a3⟩ := h1 n rfl hn
      refine Or.inl ⟨v', none, by simp [step, a1], by simp [specStep, e, a3], a2, ?_⟩
      rw [← length_bits, a3]; simp [length_bits]
  | insert b i =>
    obtain ⟨h1, h2⟩ := C38_insert v h hl b i
    cases e : idx v.bits i with
    | none => exact Or.inr ⟨by simp [step, h2 (idx_none e)], by simp [specStep, e]⟩
    | some n =>
      obtain ⟨rfl, hn⟩ := idx_some e
      obtain ⟨v', a1, a2, a3⟩ := h1 n rfl hn
      refine Or.inl ⟨v', none, by simp [step, a1], by simp [specStep, e, a3], a2, ?_⟩
      rw [← length_bits, a3, List.length_insertIdx]
      split <;> simp [length_bits]
  | delete i =>
    obtain ⟨h1, h2⟩ := C38_delete v h i
    cases e : idx v.bits i with
    | none => exact Or.inr ⟨by simp [step, h2 (idx_none e)], by simp [specStep, e]⟩
    | some n =>
      obtain ⟨rfl, hn⟩ := idx_some e
      obtain ⟨v', a1, a2, a3⟩ := h1 n rfl hn
      refine Or.inl ⟨v', none, by simp [step, a1], by simp [specStep, e, a3], a2, ?_⟩
      rw [← length_bits, a3, List.length_eraseIdx]
      split <;> simp [length_bits] <;> omega

/-- **C38.** Any history of operations on a bit vector behaves like the same history on a list of bits:
same outputs, same panics, same final bits – whatever the spare bytes of the buffer contain – as long
as the length cannot reach `2^32`. -/
theorem C38_history (ops : List Op) (v : BitVector) (h : v.Inv) (hl : v.length + ops.length < 2 ^ 32) :
    (∃ v' out, run step v ops = .ok (v', out) ∧ run specStep v.bits ops = .ok (v'.bits, out) ∧ v'.Inv) ∨
    (run step v ops = .panic ∧ run specStep v.bits ops = .panic) := by
  induction ops generalizing v with
  | nil => exact Or.inl ⟨v, [], rfl, rfl, h⟩
  | cons o ops ih =>
    rw [List.length_cons] at hl
    rcases step_spec v h (by omega) o with ⟨v', x, h1, h2, h3, h4⟩ | ⟨h1, h2⟩
    · rcases ih v' h3 (by omega) with ⟨w, out, a1, a2, a3⟩ | ⟨a1, a2⟩
      · exact Or.inl ⟨w, x :: out, by simp [run, h1, a1], by simp [run, h2, a2], a3⟩
      · exact Or.inr ⟨by simp [run, h1, a1], by simp [run, h2, a2]⟩
    · exact Or.inr ⟨by simp [run, h1], by simp [run, h2]⟩

/-- **C38.** Spare buffer contents are irrelevant: two vectors with the same bits stay
indistinguishable. -/
theorem C38_spare_irrelevant (ops : List Op) (v w : BitVector) (hv : v.Inv) (hw : w.Inv)
    (he : v.bits = w.bits) (hl : v.length + ops.length < 2 ^ 32) :
    (do let r ← run step v ops; Res.ok (r.1.bits, r.2)) =
      (do let r ← run step w ops; Res.ok (r.1.bits, r.2)) := by
  have hlw : w.length + ops.length < 2 ^ 32 := by
    rw [← length_bits w, ← he, length_bits]; exact hl
  rcases C38_history ops v hv hl with ⟨v', o, h1, h2, -⟩ | ⟨h1, h2⟩ <;>
  rcases C38_history ops w hw hlw with ⟨w', o', g1, g2, -⟩ | ⟨g1, g2⟩
  · rw [he, g2] at h2
    have := Res.ok.inj h2
    rw [h1, g1]; simp_all
  · rw [he, g2] at h2; cases h2
  · rw [he, g2] at h2; cases h2
  · rw [h1, g1]

/-- a non-trivial case: a vector with garbage spare bits -/
example : Inv ⟨[0xff, 0xff], 3⟩ ∧ bits ⟨[0xff, 0xff], 3⟩ = [true, true, true] := by
  refine ⟨by unfold Inv; decide, by decide⟩
example : run step ⟨[0xff, 0xff], 3⟩ [.append 0, .insert 0 1, .element 1, .delete 0, .set 1 0] =
    .ok (⟨[0xf7], 4⟩, [none, none, some 0, none, none]) := by decide +kernel
example : run specStep [true, true, true] [.append 0, .insert 0 1, .element 1, .delete 0, .set 1 0] =
    .ok ([true, true, true, false], [none, none, some 0, none, none]) := by decide +kernel
example : run step ⟨[0xff, 0xff], 3⟩ [.element 3] = .panic := by decide +kernel

end BitVector
end Verif.Mina
