import Verif.Mina.Model
import Verif.Mina.BitVectorProps
import Verif.Base.Tactics

/-! Packing lemmas for the Mina model: the bit vector and chunk loops as lists. -/

set_option linter.unusedSectionVars false
set_option linter.unusedSimpArgs false

namespace Verif.Mina

open Verif.Bytes

variable {p : Nat}

/-! ### specification-level bit lists -/

/-- the `k` low bits of `n`, least significant first -/
def natBits (n k : Nat) : List Bool := (List.range k).map n.testBit

/-- all bits of a byte string -/
def byteBits (l : List UInt8) : List Bool := l.flatMap fun b => natBits b.toNat 8

/-- a little-endian bit string as a number -/
def bitsToNat : List Bool → Nat
  | [] => 0
  | b :: l => b.toNat + 2 * bitsToNat l

/-- a bit string cut into 254-bit numbers -/
def packed (l : List Bool) : List Nat :=
  if _h : l = [] then [] else bitsToNat (l.take 254) :: packed (l.drop 254)
termination_by l.length
decreasing_by
  have := List.length_pos_iff.mpr ‹_›
  simp only [List.length_drop]; omega

@[simp] theorem length_natBits (n k : Nat) : (natBits n k).length = k := by simp [natBits]

@[simp] theorem length_byteBits (l : List UInt8) : (byteBits l).length = 8 * l.length := by
  induction l with
  | nil => rfl
  | cons b l ih =>
    have : byteBits (b :: l) = natBits b.toNat 8 ++ byteBits l := rfl
    rw [this, List.length_append, length_natBits, ih, List.length_cons]; omega

theorem bitsToNat_lt (l : List Bool) : bitsToNat l < 2 ^ l.length := by
  induction l with
  | nil => simp [bitsToNat]
  | cons b l ih =>
    rw [bitsToNat, List.length_cons, Nat.pow_succ]
    have : b.toNat ≤ 1 := Bool.toNat_le b
    omega

theorem bitsToNat_inj {l l' : List Bool} (hl : l.length = l'.length) (h : bitsToNat l = bitsToNat l') :
    l = l' := by
  induction l generalizing l' with
  | nil => rw [List.length_nil] at hl; exact (List.length_eq_zero_iff.mp hl.symm).symm
  | cons b l ih =>
    rcases l' with _ | ⟨b', l'⟩
    · simp at hl
    · rw [bitsToNat, bitsToNat] at h
      have e : b.toNat = b'.toNat := by
        have h1 : b.toNat ≤ 1 := Bool.toNat_le b
        have h2 : b'.toNat ≤ 1 := Bool.toNat_le b'
        omega
      have e' : b = b' := by cases b <;> cases b' <;> simp_all
      rw [e', ih (by simpa using hl) (by omega)]

theorem bitsToNat_append (l l' : List Bool) :
    bitsToNat (l ++ l') = bitsToNat l + 2 ^ l.length * bitsToNat l' := by
  induction l with
  | nil => simp [bitsToNat]
  | cons b l ih =>
    rw [List.cons_append, bitsToNat, ih, bitsToNat, List.length_cons, Nat.pow_succ]; ring

theorem bitsToNat_zeros (k : Nat) : bitsToNat (List.replicate k false) = 0 := by
  induction k with
  | zero => rfl
  | succ k ih => rw [List.replicate_succ, bitsToNat, ih]; rfl

theorem natBits_inj {a b k : Nat} (ha : a < 2 ^ k) (hb : b < 2 ^ k) (h : natBits a k = natBits b k) :
    a = b := by
  apply Nat.eq_of_testBit_eq
  intro i
  by_cases hi : i < k
  · have := congrArg (fun l => l[i]?) h
    simpa [natBits, hi] using this
  · rw [Nat.testBit_lt_two_pow (lt_of_lt_of_le ha (Nat.pow_le_pow_right (by omega) (by omega))),
      Nat.testBit_lt_two_pow (lt_of_lt_of_le hb (Nat.pow_le_pow_right (by omega) (by omega)))]

theorem byteBits_inj {l l' : List UInt8} (h : byteBits l = byteBits l') : l = l' := by
  induction l generalizing l' with
  | nil =>
    have := congrArg List.length h
    rw [length_byteBits, length_byteBits] at this
    rcases l' with _ | ⟨b, l'⟩
    · rfl
    · simp at this
  | cons b l ih =>
    rcases l' with _ | ⟨b', l'⟩
    · have := congrArg List.length h
      rw [length_byteBits, length_byteBits] at this
      simp at this
    · have h' : natBits b.toNat 8 ++ byteBits l = natBits b'.toNat 8 ++ byteBits l' := h
      obtain ⟨h1, h2⟩ := List.append_inj h' (by simp)
      have := natBits_inj (by have := b.toNat_lt; simpa using this)
        (by have := b'.toNat_lt; simpa using this) h1
      rw [UInt8.toNat_inj.mp this, ih h2]

theorem packed_nil : packed [] = [] := by rw [packed]; rfl

theorem packed_ne {l : List Bool} (h : l ≠ []) :
    packed l = bitsToNat (l.take 254) :: packed (l.drop 254) := by rw [packed, dif_neg h]

theorem packed_lt (l : List Bool) : ∀ n ∈ packed l, n < 2 ^ 254 := by
  by_cases h : l = []
  · subst h; simp [packed_nil]
  · rw [packed_ne h]
    intro n hn
    rcases List.mem_cons.mp hn with rfl | hn
    · refine lt_of_lt_of_le (bitsToNat_lt _) (Nat.pow_le_pow_right (by omega) ?_)
      rw [List.length_take]; omega
    · exact packed_lt (l.drop 254) n hn
termination_by l.length
decreasing_by
  have := List.length_pos_iff.mpr ‹_›
  simp only [List.length_drop]; omega

theorem packed_inj (l l' : List Bool) (hl : l.length = l'.length) (h : packed l = packed l') : l = l' := by
  by_cases hn : l = []
  · subst hn
    exact (List.length_eq_zero_iff.mp hl.symm).symm
  · have hn' : l' ≠ [] := by
      rintro rfl
      exact hn (List.length_eq_zero_iff.mp hl)
    rw [packed_ne hn, packed_ne hn'] at h
    simp only [List.cons.injEq] at h
    have h1 := bitsToNat_inj (by simp [hl]) h.1
    have h2 := packed_inj (l.drop 254) (l'.drop 254) (by simp [hl]) h.2
    rw [← List.take_append_drop 254 l, h1, h2, List.take_append_drop]
termination_by l.length
decreasing_by
  have := List.length_pos_iff.mpr hn
  simp only [List.length_drop]; omega

/-- Zero bits that fit into the last chunk leave no trace. -/
theorem packed_zero_pad (l : List Bool) (k : Nat) (hl : l ≠ []) (h : (l.length - 1) % 254 + 1 + k ≤ 254) :
    packed (l ++ List.replicate k false) = packed l := by
  have hpos := List.length_pos_iff.mpr hl
  have hne : l ++ List.replicate k false ≠ [] := by simp [hl]
  rw [packed_ne hne, packed_ne hl]
  by_cases hs : l.length ≤ 254
  · have hm : (l.length - 1) % 254 = l.length - 1 := Nat.mod_eq_of_lt (by omega)
    rw [hm] at h
    rw [List.take_of_length_le (by simp; omega), List.take_of_length_le hs,
      List.drop_of_length_le (by simp; omega), List.drop_of_length_le hs, bitsToNat_append,
      bitsToNat_zeros]
    simp
  · have hd : l.drop 254 ≠ [] := by
      intro h0
      have := congrArg List.length h0
      rw [List.length_drop, List.length_nil] at this; omega
    rw [List.take_append_of_le_length (by omega), List.drop_append_of_le_length (by omega),
      packed_zero_pad (l.drop 254) k hd (by rw [List.length_drop]; omega)]
termination_by l.length
decreasing_by
  simp only [List.length_drop]; omega

/-! ### the code computes these lists -/

/-- `r'` is `r` with the bits `l` appended -/
def Ext (r : RoInput p) (l : List Bool) (r' : RoInput p) : Prop :=
  r'.fields = r.fields ∧ r'.bits.Inv ∧ r'.bits.bits = r.bits.bits ++ l

theorem foldlM_append_ok {α : Type} (f : α → UInt8) (L : List α) (v : BitVector) (h : v.Inv)
    (hl : v.length + L.length < 2 ^ 32) :
    ∃ v', L.foldlM (fun v i => v.append (f i)) v = .ok v' ∧ v'.Inv ∧
      v'.bits = v.bits ++ L.map fun i => decide (f i = 1) := by
  induction L generalizing v with
  | nil => exact ⟨v, rfl, h, by simp⟩
  | cons a L ih =>
    rw [List.length_cons] at hl
    obtain ⟨v1, h1, h2, h3⟩ := BitVector.C38_append v h (by omega) (f a)
    have hlen : v1.length = v.length + 1 := by
      rw [← BitVector.length_bits, h3]; simp [BitVector.length_bits]
    obtain ⟨v2, g1, g2, g3⟩ := ih v1 h2 (by omega)
    refine ⟨v2, ?_, g2, ?_⟩
    · rw [List.foldlM_cons, h1]; exact g1
    · rw [g3, h3]; simp

theorem bit_eq (n i : Nat) : decide (UInt8.ofNat ((n >>> i) &&& 1) = 1) = n.testBit i := by
  rw [Nat.testBit]
  have h : (n >>> i) &&& 1 = (n >>> i) % 2 := Nat.and_one_is_mod _
  rw [Nat.and_comm 1, h]
  rcases Nat.mod_two_eq_zero_or_one (n >>> i) with h0 | h0 <;> rw [h0] <;> decide

theorem addNat_ok (r : RoInput p) (n k : Nat) (h : r.bits.Inv) (hl : r.bits.length + k < 2 ^ 32) :
    ∃ r', r.addNat n k = .ok r' ∧ Ext r (natBits n k) r' := by
  obtain ⟨v, h1, h2, h3⟩ := foldlM_append_ok (fun i => UInt8.ofNat ((n >>> i) &&& 1)) (List.range k)
    r.bits h (by simpa using hl)
  refine ⟨{ r with bits := v }, ?_, rfl, h2, ?_⟩
  · rw [RoInput.addNat, h1]; rfl
  · rw [h3, natBits]
    congr 1
    apply List.map_congr_left
    intro i _
    exact bit_eq n i

theorem addBit_ok (r : RoInput p) (b : Bool) (h : r.bits.Inv) (hl : r.bits.length + 1 < 2 ^ 32) :
    ∃ r', r.addBit b = .ok r' ∧ Ext r [b] r' := by
  obtain ⟨v, h1, h2, h3⟩ := BitVector.C38_append r.bits h hl (if b then 1 else 0)
  refine ⟨{ r with bits := v }, ?_, rfl, h2, ?_⟩
  · rw [RoInput.addBit, h1]; rfl
  · rw [h3]; cases b <;> simp

theorem Ext.length {r r' : RoInput p} {l : List Bool} (h : Ext r l r') :
    r'.bits.length = r.bits.length + l.length := by
  rw [← BitVector.length_bits, h.2.2, List.length_append, BitVector.length_bits]

theorem Ext.trans {r r' r'' : RoInput p} {l l' : List Bool} (h : Ext r l r') (h' : Ext r' l' r'') :
    Ext r (l ++ l') r'' :=
  ⟨by rw [h'.1, h.1], h'.2.1, by rw [h'.2.2, h.2.2, List.append_assoc]⟩

theorem addBytes_ok (r : RoInput p) (m : List UInt8) (h : r.bits.Inv)
    (hl : r.bits.length + 8 * m.length < 2 ^ 32) :
    ∃ r', r.addBytes m = .ok r' ∧ Ext r (byteBits m) r' := by
  induction m generalizing r with
  | nil => exact ⟨r, rfl, rfl, h, by simp [byteBits]⟩
  | cons b m ih =>
    rw [List.length_cons] at hl
    obtain ⟨r1, h1, h2⟩ := addNat_ok r b.toNat 8 h (by omega)
    have hlen := h2.length
    rw [length_natBits] at hlen
    obtain ⟨r2, g1, g2⟩ := ih r1 h2.2.1 (by omega)
    refine ⟨r2, ?_, h2.trans g2⟩
    rw [RoInput.addBytes, List.foldlM_cons, h1]
    exact g1

theorem inv_init (n : Nat) : (RoInput.init n : RoInput p).bits.Inv := by
  simp [RoInput.init, BitVector.Inv]

theorem bits_init (n : Nat) : (RoInput.init n : RoInput p).bits.bits = [] := by
  simp [RoInput.init, BitVector.bits]

theorem length_init (n : Nat) : (RoInput.init n : RoInput p).bits.length = 0 := rfl

theorem chunk_ok (v : BitVector) (h : v.Inv) (s n : Nat) (hn : s + n ≤ v.length) :
    RoInput.chunk v s n = .ok (bitsToNat ((v.bits.drop s).take n)) := by
  rw [RoInput.chunk]
  induction n with
  | zero => simp [bitsToNat]
  | succ n ih =>
    rw [List.range_succ, List.foldlM_append, ih (by omega)]
    have hlt : s + n < v.bits.length := by rw [BitVector.length_bits]; omega
    have he := (BitVector.C38_element v h ((s + n : Nat) : Int)).1 (s + n) rfl v.bits[s + n]
      (List.getElem?_eq_getElem hlt)
    simp only [Res.bind_ok, List.foldlM_cons, List.foldlM_nil, he, Res.pure_eq]
    congr 1
    have hlen : ((v.bits.drop s).take n).length = n := by
      rw [List.length_take, List.length_drop]; omega
    have ht : (v.bits.drop s).take (n + 1) = (v.bits.drop s).take n ++ [v.bits[s + n]] := by
      rw [List.take_add_one, List.getElem?_drop, List.getElem?_eq_getElem hlt]; rfl
    rw [ht, bitsToNat_append, hlen]
    have hb := bitsToNat_lt ((v.bits.drop s).take n)
    rw [hlen] at hb
    have hu : (BitVector.b2u v.bits[s + n]).toNat = (v.bits[s + n]).toNat := by
      cases v.bits[s + n] <;> rfl
    rw [hu, Nat.or_comm, ← Nat.shiftLeft_add_eq_or_of_lt hb, Nat.shiftLeft_eq]
    simp only [bitsToNat]; ring

theorem chunks_ok (v : BitVector) (h : v.Inv) (fuel c : Nat) (hf : v.length ≤ c + fuel) :
    RoInput.chunks v fuel c = .ok (packed (v.bits.drop c)) := by
  induction fuel generalizing c with
  | zero =>
    rw [RoInput.chunks, List.drop_of_length_le (by rw [BitVector.length_bits]; omega), packed_nil]
  | succ fuel ih =>
    rw [RoInput.chunks]
    by_cases hc : c < v.length
    · rw [if_pos hc]
      have hne : v.bits.drop c ≠ [] := by
        intro h0
        have := congrArg List.length h0
        rw [List.length_drop, BitVector.length_bits, List.length_nil] at this; omega
      by_cases h254 : v.length - c > 254
      · simp only [if_pos h254]
        rw [chunk_ok v h c 254 (by omega), ih _ (by omega), packed_ne hne, List.drop_drop]
        rfl
      · simp only [if_neg h254]
        rw [chunk_ok v h c _ (by omega), ih _ (by omega), packed_ne hne, List.drop_drop,
          List.drop_of_length_le (show v.bits.length ≤ c + (v.length - c) by
            rw [BitVector.length_bits]; omega),
          List.drop_of_length_le (show v.bits.length ≤ c + 254 by
            rw [BitVector.length_bits]; omega),
          List.take_of_length_le (show (v.bits.drop c).length ≤ v.length - c by
            rw [List.length_drop, BitVector.length_bits]),
          List.take_of_length_le (show (v.bits.drop c).length ≤ 254 by
            rw [List.length_drop, BitVector.length_bits]; omega)]
        rfl
    · rw [if_neg hc, List.drop_of_length_le (by rw [BitVector.length_bits]; omega), packed_nil]

/-- `Fields` is the field list followed by the packed bits. -/
theorem toFields_ok (r : RoInput p) (h : r.bits.Inv) :
    r.toFields = .ok (r.fields ++ (packed r.bits.bits).map fun c => (c : ZMod p)) := by
  rw [RoInput.toFields, chunks_ok r.bits h _ 0 (by omega)]
  rfl

theorem map_cast_inj_aux {B : Nat} (hp : B < p) {l l' : List Nat} (hl : ∀ n ∈ l, n < B)
    (hl' : ∀ n ∈ l', n < B)
    (h : l.map (fun c => (c : ZMod p)) = l'.map fun c => (c : ZMod p)) : l = l' := by
  induction l generalizing l' with
  | nil =>
    rcases l' with _ | ⟨b, l'⟩
    · rfl
    · exact absurd h.symm (List.cons_ne_nil _ _)
  | cons a l ih =>
    rcases l' with _ | ⟨b, l'⟩
    · exact absurd h (List.cons_ne_nil _ _)
    · have h1 := List.cons.inj h
      have ha := hl a (by simp)
      have hb := hl' b (by simp)
      have := (ZMod.natCast_eq_natCast_iff' a b p).mp h1.1
      rw [Nat.mod_eq_of_lt (by omega), Nat.mod_eq_of_lt (by omega)] at this
      rw [this, ih (fun n hn => hl n (by simp [hn])) (fun n hn => hl' n (by simp [hn])) h1.2]

theorem map_cast_inj (hp : 2 ^ 254 < p) {l l' : List Nat} (hl : ∀ n ∈ l, n < 2 ^ 254)
    (hl' : ∀ n ∈ l', n < 2 ^ 254)
    (h : l.map (fun c => (c : ZMod p)) = l'.map fun c => (c : ZMod p)) : l = l' :=
  map_cast_inj_aux hp hl hl' h

end Verif.Mina
