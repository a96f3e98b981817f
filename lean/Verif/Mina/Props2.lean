import Verif.Mina.Props

/-! C39 continued: binding, padding ambiguities, wire format, threshold challenge. -/

set_option linter.unusedSectionVars false
set_option linter.unusedSimpArgs false
set_option linter.unusedVariables false

namespace Verif.Mina

open Verif.Bytes

variable {p : Nat} [Fact p.Prime]
variable {F : Type} [Field F] [DecidableEq F]
variable {G : Type} [AddCommGroup G] [DecidableEq G] [Module F G]

/-- **C39** A signature accepted for two different transactions of one network (short memos,
non-identity keys) is a collision of the sponge on two different inputs. -/
theorem C39_txn_sound (C : Pallas p F G) (H : Sponge p F) (hp : p % 2 = 1) (hp' : 2 ^ 254 < p) (pk : G)
    (sig : Sig p F) (t t' : Txn G) (hm : t.memo.length ≤ 32) (hm' : t'.memo.length ≤ 32)
    (h1 : t.feePayerPk ≠ 0) (h2 : t.sourcePk ≠ 0) (h3 : t.receiverPk ≠ 0)
    (h1' : t'.feePayerPk ≠ 0) (h2' : t'.sourcePk ≠ 0) (h3' : t'.receiverPk ≠ 0)
    (hn : t.networkId = t'.networkId) (hn3 : t.networkId < 3)
    (hv : verifyTransaction C H pk sig t = .ok ()) (hv' : verifyTransaction C H pk sig t' = .ok ()) :
    t = t' ∨ ∃ iv, ∃ xs ys : List (ZMod p), xs ≠ ys ∧ spongeHash H iv xs = spongeHash H iv ys := by
  obtain ⟨hpk, r1, _, P, e1, x1, y1⟩ := (C39_verify_iff C H pk sig t hn3).mp hv
  obtain ⟨_, _, _, Q, e2, x2, y2⟩ := (C39_verify_iff C H pk sig t' (hn ▸ hn3)).mp hv'
  have hP : P ≠ 0 := by rintro rfl; exact r1 (by rw [← x1, C.x_zero])
  have hQ : Q ≠ 0 := by rintro rfl; exact r1 (by rw [← x2, C.x_zero])
  have hPQ : P = Q := C.parity_inj hp hP hQ (by rw [x1, x2]) (by rw [y1, y2])
  rw [e1, hPQ] at e2
  have e3 := add_left_cancel e2
  have e4 := smul_left_injective F hpk e3
  by_cases hx : txnHashInput C t pk sig.R = txnHashInput C t' pk sig.R
  · exact Or.inl (C39_txn_binding C hp hp' t t' hm hm' h1 h2 h3 h1' h2' h3' hn pk pk _ _ hx)
  · exact Or.inr ⟨networkIv H t.networkId, _, _, hx, by rw [e4, hn]⟩

/-- **C39** Messages of equal length with equal hash inputs are equal. -/
theorem C39_message_binding (C : Pallas p F G) (hp' : 2 ^ 254 < p) (m m' : List UInt8)
    (hl : m.length = m'.length) (pk : G) (rx : ZMod p)
    (h : msgHashInput C m pk rx = msgHashInput C m' pk rx) : m = m' := by
  unfold msgHashInput at h
  obtain ⟨-, hb⟩ := List.append_inj h rfl
  have hb := map_cast_inj hp' (packed_lt _) (packed_lt _) hb
  exact byteBits_inj (packed_inj _ _ (by rw [length_byteBits, length_byteBits, hl]) hb)

theorem finishVerify_congr (C : Pallas p F G) (H : Sponge p F) (pk : G) (sig : Sig p F) (r r' : RoInput p)
    (nid : Nat) (h : msgHash C H pk sig.R r nid = msgHash C H pk sig.R r' nid) :
    finishVerify C H pk sig r nid = finishVerify C H pk sig r' nid := by
  unfold finishVerify
  rw [h]

theorem verifyMessage_congr (C : Pallas p F G) (H : Sponge p F) (pk : G) (sig : Sig p F)
    (m m' : List UInt8) (hm : 8 * m.length < 2 ^ 32) (hm' : 8 * m'.length < 2 ^ 32)
    (h : spongeHash H H.ivMain (msgHashInput C m pk sig.R) =
      spongeHash H H.ivMain (msgHashInput C m' pk sig.R)) :
    verifyMessage C H pk sig m = verifyMessage C H pk sig m' := by
  obtain ⟨r, hr, hI, hf, hb⟩ := msg_input (p := p) m hm
  obtain ⟨r', hr', hI', hf', hb'⟩ := msg_input (p := p) m' hm'
  unfold verifyMessage
  rw [hr, hr', Res.bind_ok, Res.bind_ok]
  apply finishVerify_congr
  rw [msgHash_msg C H m r hI hf hb pk sig.R, msgHash_msg C H m' r' hI' hf' hb' pk sig.R, h]

theorem byteBits_append (a b : List UInt8) : byteBits (a ++ b) = byteBits a ++ byteBits b := by
  simp [byteBits]

theorem byteBits_zeros (k : Nat) : byteBits (List.replicate k 0) = List.replicate (8 * k) false := by
  induction k with
  | zero => rfl
  | succ k ih =>
    have : byteBits (List.replicate (k + 1) 0) = natBits 0 8 ++ byteBits (List.replicate k 0) := rfl
    rw [this, ih, show natBits 0 8 = List.replicate 8 false by decide +kernel, List.replicate_append_replicate]
    congr 1; omega

/-- **C39** (negative) Message verification does not see trailing zero bytes that fit in the last
254-bit word: such messages have exactly the same valid signatures. -/
theorem C39_message_zero_pad (C : Pallas p F G) (H : Sponge p F) (pk : G) (sig : Sig p F) (m : List UInt8)
    (k : Nat) (hm : m ≠ []) (hlen : 8 * (m.length + k) < 2 ^ 32)
    (hk : (8 * m.length - 1) % 254 + 1 + 8 * k ≤ 254) :
    verifyMessage C H pk sig (m ++ List.replicate k 0) = verifyMessage C H pk sig m := by
  apply verifyMessage_congr
  · rw [List.length_append, List.length_replicate]; exact hlen
  · omega
  · unfold msgHashInput
    have hne : byteBits m ≠ [] := by
      intro h0
      have := congrArg List.length h0
      rw [length_byteBits, List.length_nil] at this
      have := List.length_pos_iff.mpr hm
      omega
    rw [byteBits_append, byteBits_zeros, packed_zero_pad _ _ hne (by rw [length_byteBits]; exact hk)]

theorem ctxUpdate_append (H : Sponge p F) (c : Ctx p) (xs ys : List (ZMod p)) :
    ctxUpdate H c (xs ++ ys) = ctxUpdate H (ctxUpdate H c xs) ys := by
  unfold ctxUpdate; rw [List.foldl_append]

theorem ctxUpdate_absorbed (H : Sponge p F) (iv : ZMod p × ZMod p × ZMod p) (xs : List (ZMod p)) :
    (ctxUpdate H ⟨iv, 0⟩ xs).absorbed ≤ 2 ∧ (ctxUpdate H ⟨iv, 0⟩ xs).absorbed % 2 = xs.length % 2 := by
  induction xs using List.reverseRecOn with
  | nil => exact ⟨by show 0 ≤ 2; omega, rfl⟩
  | append_singleton xs x ih =>
    rw [ctxUpdate_append, List.length_append, List.length_singleton]
    generalize ctxUpdate H ⟨iv, 0⟩ xs = c at ih
    obtain ⟨st, a⟩ := c
    simp only at ih
    have : a = 0 ∨ a = 1 ∨ a = 2 := by omega
    rcases this with h | h | h
    all_goals
      subst h
      simp [ctxUpdate]
      omega

/-- **C39** (negative) The sponge pads nothing: a zero word after an odd number of words does not
change the digest. -/
theorem C39_sponge_no_padding (H : Sponge p F) (iv : ZMod p × ZMod p × ZMod p) (xs : List (ZMod p))
    (hodd : xs.length % 2 = 1) : spongeHash H iv (xs ++ [0]) = spongeHash H iv xs := by
  obtain ⟨h1, h2⟩ := ctxUpdate_absorbed H iv xs
  unfold spongeHash
  rw [ctxUpdate_append]
  generalize ctxUpdate H ⟨iv, 0⟩ xs = c at h1 h2
  obtain ⟨st, a⟩ := c
  simp only at h1 h2
  have ha : a = 1 := by omega
  subst ha
  simp [ctxUpdate, ctxDigest]

/-- **C39** (negative) So the empty message and every message of 1 to 31 zero bytes have the same valid
signatures. -/
theorem C39_empty_message (C : Pallas p F G) (H : Sponge p F) (pk : G) (sig : Sig p F) (k : Nat)
    (hk : k ≤ 31) :
    verifyMessage C H pk sig (List.replicate k 0) = verifyMessage C H pk sig [] := by
  rcases Nat.eq_zero_or_pos k with h0 | hpos
  · subst h0; rfl
  apply verifyMessage_congr
  · rw [List.length_replicate]; omega
  · simp
  · have hp1 : packed (byteBits (List.replicate k 0)) = [0] := by
      rw [byteBits_zeros]
      have hne : List.replicate (8 * k) false ≠ [] := by
        intro h; have := congrArg List.length h
        rw [List.length_replicate, List.length_nil] at this; omega
      rw [packed_ne hne, List.take_of_length_le (by rw [List.length_replicate]; omega),
        List.drop_of_length_le (by rw [List.length_replicate]; omega), packed_nil, bitsToNat_zeros]
    have hp0 : packed (byteBits []) = [] := packed_nil
    unfold msgHashInput
    rw [hp1, hp0]
    have := C39_sponge_no_padding H H.ivMain [C.x pk, C.y pk, sig.R] (by simp)
    simpa using this

/-- **C39** (negative) A transaction whose `NetworkId` is not 0, 1 or 2 makes signing and verification
panic (nil sponge), once the earlier checks pass. -/
theorem C39_network_panic (C : Pallas p F G) (H : Sponge p F) (pk : G) (sig : Sig p F) (t : Txn G)
    (hn : 3 ≤ t.networkId) (hpk : pk ≠ 0) (hR : sig.R ≠ 0) (hS : sig.S ≠ 0) :
    verifyTransaction C H pk sig t = .panic := by
  obtain ⟨r, hr, hI, hf, hb⟩ := txn_input C t
  unfold verifyTransaction finishVerify msgHash ctxInit
  rw [hr, Res.bind_ok, if_neg hpk, if_neg (by push Not; exact ⟨hR, hS⟩),
    if_neg (show ¬ t.networkId = 0 by omega), if_neg (show ¬ t.networkId = 1 by omega),
    if_neg (show ¬ t.networkId = 2 by omega)]
  rfl

/-! ### signing never panics on the three networks -/

theorem foldlM_addNat_ok (fs : List (ZMod p)) (r : RoInput p) (h : r.bits.Inv)
    (hl : r.bits.length + 255 * fs.length < 2 ^ 32) :
    ∃ r', fs.foldlM (fun (o : RoInput p) f => o.addNat f.val 255) r = .ok r' ∧
      Ext r (fs.flatMap fun f => natBits f.val 255) r' := by
  induction fs generalizing r with
  | nil => exact ⟨r, rfl, rfl, h, by simp⟩
  | cons f fs ih =>
    rw [List.length_cons, Nat.mul_succ] at hl
    have hl2 : r.bits.length + 255 < 2 ^ 32 :=
      lt_of_le_of_lt (Nat.add_le_add_left (Nat.le_add_left 255 _) _) hl
    obtain ⟨r1, h1, x1⟩ := addNat_ok r f.val 255 h hl2
    have L := x1.length; rw [length_natBits] at L
    obtain ⟨r2, h2, x2⟩ := ih r1 x1.2.1 (by omega)
    refine ⟨r2, ?_, x1.trans x2⟩
    rw [List.foldlM_cons, h1]; exact h2

theorem copyBits_ok (src : BitVector) (hs : src.Inv) (n : Nat) (hn : n ≤ src.length) (v : BitVector)
    (h : v.Inv) (hl : v.length + n < 2 ^ 32) :
    ∃ v', (List.range n).foldlM (fun (v : BitVector) (i : Nat) => do
      let b ← src.element (i : Int)
      v.append b) v = .ok v' ∧ v'.Inv ∧ v'.bits = v.bits ++ src.bits.take n := by
  induction n with
  | zero => exact ⟨v, rfl, h, by simp⟩
  | succ n ih =>
    obtain ⟨v1, h1, i1, b1⟩ := ih (by omega) (by omega)
    have hlt : n < src.bits.length := by rw [BitVector.length_bits]; omega
    have he := (BitVector.C38_element src hs ((n : Nat) : Int)).1 n rfl src.bits[n]
      (List.getElem?_eq_getElem hlt)
    have l1 : v1.length = v.length + n := by
      rw [← BitVector.length_bits, b1, List.length_append, BitVector.length_bits, List.length_take]
      omega
    obtain ⟨v2, h2, i2, b2⟩ := BitVector.C38_append v1 i1 (by omega) (BitVector.b2u src.bits[n])
    refine ⟨v2, ?_, i2, ?_⟩
    · rw [List.range_succ, List.foldlM_append, h1]
      simp only [Res.bind_ok, List.foldlM_cons, List.foldlM_nil, he, h2, Res.pure_eq]
    · rw [b2, b1, List.take_add_one, List.getElem?_eq_getElem hlt, List.append_assoc]
      congr 2
      cases src.bits[n] <;> simp [BitVector.b2u]

theorem bytes_ok (r : RoInput p) (h : r.bits.Inv)
    (hl : 255 * r.fields.length + r.bits.length < 2 ^ 32) : ∃ b, r.bytes = .ok b := by
  unfold RoInput.bytes
  generalize hout : (⟨[], ⟨List.replicate ((r.bits.length + 7) / 8 + 32 * r.fields.length) 0, 0⟩⟩ :
    RoInput p) = out
  have i0 : out.bits.Inv := by rw [← hout]; exact inv_init (p := p) _
  have l0 : out.bits.length = 0 := by rw [← hout]
  obtain ⟨o, ho, x⟩ := foldlM_addNat_ok r.fields out i0 (by omega)
  have L := x.length
  have hfl : (r.fields.flatMap fun f => natBits f.val 255).length = 255 * r.fields.length := by
    induction r.fields with
    | nil => rfl
    | cons a l ih => rw [List.flatMap_cons, List.length_append, ih, length_natBits, List.length_cons]; omega
  obtain ⟨v, hv, _, _⟩ := copyBits_ok r.bits h r.bits.length (le_refl _) o.bits x.2.1 (by omega)
  dsimp only
  rw [ho, Res.bind_ok, hv, Res.bind_ok]
  exact ⟨_, rfl⟩

theorem msgDerive_ok (C : Pallas p F G) (kdf : List UInt8 → F) (raw : F → Nat) (sk : F) (r : RoInput p)
    (h : r.bits.Inv) (hl : 255 * r.fields.length + r.bits.length < 2 ^ 31) (pk : G) (nid : Nat) :
    ∃ b, msgDerive C kdf raw sk r pk nid = .ok (kdf b) := by
  unfold msgDerive
  dsimp only
  generalize hr1 : (r.addFp (C.x pk)).addFp (C.y pk) = r1
  have i1 : r1.bits.Inv := by rw [← hr1]; exact h
  have l1 : r1.bits.length = r.bits.length := by rw [← hr1]; rfl
  have f1 : r1.fields.length = r.fields.length + 2 := by rw [← hr1]; simp [RoInput.addFp]
  obtain ⟨r2, h2, x2⟩ := addNat_ok r1 (raw sk) 255 i1 (by omega)
  have L2 := x2.length; rw [length_natBits] at L2
  obtain ⟨r3, h3, x3⟩ := addBytes_ok r2 [UInt8.ofNat nid] x2.2.1 (by rw [List.length_singleton]; omega)
  have L3 := x3.length; rw [length_byteBits, List.length_singleton] at L3
  obtain ⟨b, hb⟩ := bytes_ok r3 x3.2.1 (by rw [x3.1, x2.1]; omega)
  rw [RoInput.addFq, h2, Res.bind_ok, h3, Res.bind_ok, hb, Res.bind_ok]
  exact ⟨_, rfl⟩

/-- **C39** On the three known networks signing a transaction with a non-zero key never panics, and it
fails only when the derived nonce, the abscissa or the resulting scalar is zero. -/
theorem C39_sign_total (C : Pallas p F G) (H : Sponge p F) (kdf : List UInt8 → F) (raw : F → Nat) (sk : F)
    (t : Txn G) (hsk : sk ≠ 0) (hn : t.networkId < 3) :
    ∃ b k e, k = kdf b ∧ (k ≠ 0 → C.x (k • C.g) ≠ 0 → (if C.yOdd (k • C.g) then -k else k) + e * sk ≠ 0 →
        signTransaction C H kdf raw sk t =
          .ok ⟨C.x (k • C.g), (if C.yOdd (k • C.g) then -k else k) + e * sk⟩) ∧
      signTransaction C H kdf raw sk t ≠ .panic ∧
      e = spongeHash H (networkIv H t.networkId) (txnHashInput C t (sk • C.g) (C.x (k • C.g))) := by
  obtain ⟨r, hr, hI, hf, hb⟩ := txn_input C t
  have hl : r.bits.length = 599 := by rw [← BitVector.length_bits, hb, length_txnBits]
  obtain ⟨b, hk⟩ := msgDerive_ok C kdf raw sk r hI (by rw [hf, hl]; simp) (sk • C.g) t.networkId
  generalize hkb : kdf b = k at hk
  have hh := msgHash_txn C H t r hI hf hb (sk • C.g) (C.x (k • C.g)) _ hn
  refine ⟨b, k, _, hkb.symm, ?_, ?_, rfl⟩
  · intro hk0 hx hs
    unfold signTransaction finishSign
    rw [hr, Res.bind_ok, if_neg hsk]
    dsimp only
    rw [hk, Res.bind_ok, if_neg hk0, hh, Res.bind_ok, if_neg (by push Not; exact ⟨hx, hs⟩)]
  · unfold signTransaction finishSign
    rw [hr, Res.bind_ok, if_neg hsk]
    dsimp only
    rw [hk, Res.bind_ok]
    by_cases hk0 : k = 0
    · rw [if_pos hk0]; intro h; cases h
    · rw [if_neg hk0, hh, Res.bind_ok]
      by_cases hz : C.x (k • C.g) = 0 ∨ (if C.yOdd (k • C.g) = true then -k else k) +
          spongeHash H (networkIv H t.networkId) (txnHashInput C t (sk • C.g) (C.x (k • C.g))) * sk = 0
      · rw [if_pos hz]; intro h; cases h
      · rw [if_neg hz]; intro h; cases h

/-! ### wire format -/

theorem slice_skip (A R : List UInt8) (a b : Nat) (ha : A.length ≤ a) :
    slice (A ++ R) a b = slice R (a - A.length) (b - A.length) := by
  unfold slice
  rw [List.take_append, List.drop_append]
  by_cases hb : b ≤ A.length
  · rw [List.drop_of_length_le (by rw [List.length_take]; omega), show b - A.length = 0 by omega]
    simp
  · rw [List.take_of_length_le (by omega), List.drop_of_length_le (by omega), List.nil_append]

theorem slice_head (B R : List UInt8) (b : Nat) (hb : B.length = b) : slice (B ++ R) 0 b = B := by
  unfold slice
  rw [List.drop_zero, ← hb, List.take_left']
  rfl

theorem getD_skip (A R : List UInt8) (i : Nat) (h : A.length ≤ i) (d : UInt8) :
    (A ++ R).getD i d = R.getD (i - A.length) d := by
  rw [List.getD_eq_getElem?_getD, List.getD_eq_getElem?_getD, List.getElem?_append_right h]

/-- The generic layout: 15 blocks of fixed lengths. -/
theorem layout (l1 l2 l3 l4 l5 l6 l7 l8 l9 l10 l11 l12 l13 : List UInt8)
    (h1 : l1.length = 8) (h2 : l2.length = 8) (h3 : l3.length = 32) (h4 : l4.length = 4)
    (h5 : l5.length = 4) (h6 : l6.length = 2) (h7 : l7.length = 32) (h8 : l8.length = 3)
    (h9 : l9.length = 32) (h10 : l10.length = 32) (h11 : l11.length = 8) (h12 : l12.length = 8)
    (h13 : l13.length = 2) (L : List UInt8)
    (hL : L = l1 ++ l2 ++ l3 ++ l4 ++ l5 ++ l6 ++ l7 ++ l8 ++ l9 ++ l10 ++ l11 ++ l12 ++ l13) :
    L.length = 175 ∧ slice L 0 8 = l1 ∧ slice L 8 16 = l2 ∧ slice L 16 48 = l3 ∧ slice L 48 52 = l4 ∧
    slice L 52 56 = l5 ∧ L.getD 57 0 = l6.getD 1 0 ∧
    (∀ n, n ≤ 32 → slice L 58 (58 + n) = l7.take n) ∧
    L.getD 90 0 = l8.getD 0 0 ∧ L.getD 91 0 = l8.getD 1 0 ∧ L.getD 92 0 = l8.getD 2 0 ∧
    slice L 93 125 = l9 ∧ slice L 125 157 = l10 ∧ slice L 157 165 = l11 ∧ slice L 165 173 = l12 ∧
    L.getD 173 0 = l13.getD 0 0 ∧ L.getD 174 0 = l13.getD 1 0 := by
  simp only [List.append_assoc] at hL
  have hd : ∀ (B R : List UInt8) (i : Nat), i < B.length → (B ++ R).getD i 0 = B.getD i 0 := by
    intro B R i hi
    rw [List.getD_eq_getElem?_getD, List.getD_eq_getElem?_getD, List.getElem?_append_left hi]
  subst hL
  refine ⟨by simp [*], ?_, ?_, ?_, ?_, ?_, ?_, ?_, ?_, ?_, ?_, ?_, ?_, ?_, ?_, ?_, ?_⟩
  · exact slice_head _ _ _ h1
  · rw [slice_skip _ _ _ _ (by omega), h1]; exact slice_head _ _ _ h2
  · rw [slice_skip _ _ _ _ (by omega), h1, slice_skip _ _ _ _ (by omega), h2]
    exact slice_head _ _ _ h3
  · rw [slice_skip _ _ _ _ (by omega), h1, slice_skip _ _ _ _ (by omega), h2,
      slice_skip _ _ _ _ (by omega), h3]
    exact slice_head _ _ _ h4
  · rw [slice_skip _ _ _ _ (by omega), h1, slice_skip _ _ _ _ (by omega), h2,
      slice_skip _ _ _ _ (by omega), h3, slice_skip _ _ _ _ (by omega), h4]
    exact slice_head _ _ _ h5
  · rw [getD_skip _ _ _ (by omega), h1, getD_skip _ _ _ (by omega), h2, getD_skip _ _ _ (by omega), h3,
      getD_skip _ _ _ (by omega), h4, getD_skip _ _ _ (by omega), h5]
    exact hd _ _ _ (by omega)
  · intro n hn
    rw [slice_skip _ _ _ _ (by omega), h1, slice_skip _ _ _ _ (by omega), h2,
      slice_skip _ _ _ _ (by omega), h3, slice_skip _ _ _ _ (by omega), h4,
      slice_skip _ _ _ _ (by omega), h5, slice_skip _ _ _ _ (by omega), h6]
    unfold slice
    rw [show 58 - 8 - 8 - 32 - 4 - 4 - 2 = 0 by omega, show 58 + n - 8 - 8 - 32 - 4 - 4 - 2 = n by omega,
      List.drop_zero, List.take_append_of_le_length (by omega)]
  all_goals
    first
    | rw [getD_skip _ _ _ (by omega), h1, getD_skip _ _ _ (by omega), h2, getD_skip _ _ _ (by omega), h3,
        getD_skip _ _ _ (by omega), h4, getD_skip _ _ _ (by omega), h5, getD_skip _ _ _ (by omega), h6,
        getD_skip _ _ _ (by omega), h7]
    | rw [slice_skip _ _ _ _ (by omega), h1, slice_skip _ _ _ _ (by omega), h2,
        slice_skip _ _ _ _ (by omega), h3, slice_skip _ _ _ _ (by omega), h4,
        slice_skip _ _ _ _ (by omega), h5, slice_skip _ _ _ _ (by omega), h6,
        slice_skip _ _ _ _ (by omega), h7, slice_skip _ _ _ _ (by omega), h8]
  · exact hd _ _ _ (by omega)
  · exact hd _ _ _ (by omega)
  · exact hd _ _ _ (by omega)
  · exact slice_head _ _ _ h9
  · rw [slice_skip _ _ _ _ (by omega), h9]; exact slice_head _ _ _ h10
  · rw [slice_skip _ _ _ _ (by omega), h9, slice_skip _ _ _ _ (by omega), h10]
    exact slice_head _ _ _ h11
  · rw [slice_skip _ _ _ _ (by omega), h9, slice_skip _ _ _ _ (by omega), h10,
      slice_skip _ _ _ _ (by omega), h11]
    exact slice_head _ _ _ h12
  · rw [getD_skip _ _ _ (by omega), h8, getD_skip _ _ _ (by omega), h9, getD_skip _ _ _ (by omega), h10,
      getD_skip _ _ _ (by omega), h11, getD_skip _ _ _ (by omega), h12]
  · rw [getD_skip _ _ _ (by omega), h8, getD_skip _ _ _ (by omega), h9, getD_skip _ _ _ (by omega), h10,
      getD_skip _ _ _ (by omega), h11, getD_skip _ _ _ (by omega), h12]

theorem boolByte_eq (b : Bool) : decide (boolByte b = 1) = b := by cases b <;> rfl

theorem u64_rt (a : UInt64) : UInt64.ofNat (leToNat (natToLE 8 a.toNat)) = a := by
  rw [leToNat_natToLE, Nat.mod_eq_of_lt (by have := a.toNat_lt; simpa using this)]
  exact UInt64.ofNat_toNat
theorem u32_rt (a : UInt32) : UInt32.ofNat (leToNat (natToLE 4 a.toNat)) = a := by
  rw [leToNat_natToLE, Nat.mod_eq_of_lt (by have := a.toNat_lt; simpa using this)]
  exact UInt32.ofNat_toNat

/-- **C39** Decoding an encoded transaction returns it, for every transaction whose memo fits the
32-byte field, whose keys are not the identity and whose network fits a byte. -/
theorem C39_marshal_roundtrip (C : Pallas p F G) (t : Txn G) (hm : t.memo.length ≤ 32)
    (h1 : t.feePayerPk ≠ 0) (h2 : t.sourcePk ≠ 0) (h3 : t.receiverPk ≠ 0) (hn : t.networkId < 256) :
    Txn.unmarshal C (t.marshal C) = .ok t := by
  obtain ⟨L0, s1, s2, s3, s4, s5, s6, s7, s8, s9, s10, s11, s12, s13, s14, s15, s16⟩ :=
    layout (natToLE 8 t.fee.toNat) (natToLE 8 t.feeToken.toNat) (C.enc t.feePayerPk)
      (natToLE 4 t.nonce.toNat) (natToLE 4 t.validUntil.toNat) [0x01, UInt8.ofNat t.memo.length]
      (memoField t.memo) [boolByte t.tag0, boolByte t.tag1, boolByte t.tag2] (C.enc t.sourcePk)
      (C.enc t.receiverPk) (natToLE 8 t.tokenId.toNat) (natToLE 8 t.amount.toNat)
      [boolByte t.locked, UInt8.ofNat t.networkId] (length_natToLE _ _) (length_natToLE _ _)
      (C.len_enc _) (length_natToLE _ _) (length_natToLE _ _) rfl (length_memoField _) rfl (C.len_enc _)
      (C.len_enc _) (length_natToLE _ _) (length_natToLE _ _) rfl (t.marshal C) rfl
  have hml : (UInt8.ofNat t.memo.length).toNat = t.memo.length :=
    UInt8.toNat_ofNat_of_lt' (by show _ < 256; omega)
  have hhi : ((58 : UInt8) + (t.marshal C).getD 57 0).toNat = 58 + t.memo.length := by
    rw [s6]
    show ((58 : UInt8) + UInt8.ofNat t.memo.length).toNat = _
    rw [UInt8.toNat_add, hml]
    show (58 + t.memo.length) % 256 = _
    omega
  have hmemo : slice (t.marshal C) 58 (58 + t.memo.length) = t.memo := by
    rw [s7 _ hm, memoField, List.take_of_length_le hm, List.take_left' rfl]
  unfold Txn.unmarshal
  rw [if_neg (by omega), s3, s11, s12, C.rt _ h1, C.rt _ h2, C.rt _ h3]
  simp only [Res.ofOption, Res.bind_ok]
  rw [hhi, if_neg (by omega), hmemo, s1, s2, s4, s5, s8, s9, s10, s13, s14, s15, s16,
    u64_rt, u64_rt, u64_rt, u64_rt, u32_rt, u32_rt]
  have e1 : ([boolByte t.tag0, boolByte t.tag1, boolByte t.tag2] : List UInt8).getD 0 0 = boolByte t.tag0 := rfl
  have e2 : ([boolByte t.tag0, boolByte t.tag1, boolByte t.tag2] : List UInt8).getD 1 0 = boolByte t.tag1 := rfl
  have e3 : ([boolByte t.tag0, boolByte t.tag1, boolByte t.tag2] : List UInt8).getD 2 0 = boolByte t.tag2 := rfl
  have e4 : ([boolByte t.locked, UInt8.ofNat t.networkId] : List UInt8).getD 0 0 = boolByte t.locked := rfl
  have e5 : ([boolByte t.locked, UInt8.ofNat t.networkId] : List UInt8).getD 1 0 = UInt8.ofNat t.networkId := rfl
  rw [e1, e2, e3, e4, e5, boolByte_eq, boolByte_eq, boolByte_eq, boolByte_eq,
    UInt8.toNat_ofNat_of_lt' (show _ < 256 from hn)]

/-- **C39** (negative) An encoding produced from a memo of 198 to 255 bytes makes the decoder panic: the
end index is computed in a byte and wraps below the start. -/
theorem C39_marshal_long_memo_panics (C : Pallas p F G) (t : Txn G) (hm : 198 ≤ t.memo.length)
    (hm' : t.memo.length < 256) (h1 : t.feePayerPk ≠ 0) (h2 : t.sourcePk ≠ 0) (h3 : t.receiverPk ≠ 0) :
    Txn.unmarshal C (t.marshal C) = .panic := by
  obtain ⟨L0, s1, s2, s3, s4, s5, s6, s7, s8, s9, s10, s11, s12, s13, s14, s15, s16⟩ :=
    layout (natToLE 8 t.fee.toNat) (natToLE 8 t.feeToken.toNat) (C.enc t.feePayerPk)
      (natToLE 4 t.nonce.toNat) (natToLE 4 t.validUntil.toNat) [0x01, UInt8.ofNat t.memo.length]
      (memoField t.memo) [boolByte t.tag0, boolByte t.tag1, boolByte t.tag2] (C.enc t.sourcePk)
      (C.enc t.receiverPk) (natToLE 8 t.tokenId.toNat) (natToLE 8 t.amount.toNat)
      [boolByte t.locked, UInt8.ofNat t.networkId] (length_natToLE _ _) (length_natToLE _ _)
      (C.len_enc _) (length_natToLE _ _) (length_natToLE _ _) rfl (length_memoField _) rfl (C.len_enc _)
      (C.len_enc _) (length_natToLE _ _) (length_natToLE _ _) rfl (t.marshal C) rfl
  have hml : (UInt8.ofNat t.memo.length).toNat = t.memo.length :=
    UInt8.toNat_ofNat_of_lt' (by show _ < 256; omega)
  have hhi : ((58 : UInt8) + (t.marshal C).getD 57 0).toNat = 58 + t.memo.length - 256 := by
    rw [s6]
    show ((58 : UInt8) + UInt8.ofNat t.memo.length).toNat = _
    rw [UInt8.toNat_add, hml]
    show (58 + t.memo.length) % 256 = _
    omega
  unfold Txn.unmarshal
  rw [if_neg (by omega), s3, s11, s12, C.rt _ h1, C.rt _ h2, C.rt _ h3]
  simp only [Res.ofOption, Res.bind_ok]
  rw [hhi, if_pos (by omega)]
  rfl

/-- **C39** (negative) Beyond 32 bytes the memo is not authenticated: two transactions that differ only
in the memo bytes after the 32nd (same length) have the same wire encoding and the same valid
signatures. -/
theorem C39_long_memo_collision (C : Pallas p F G) (H : Sponge p F) (t : Txn G) (m' : List UInt8)
    (hl : m'.length = t.memo.length) (hpre : m'.take 32 = t.memo.take 32) (pk : G) (sig : Sig p F) :
    Txn.marshal C { t with memo := m' } = t.marshal C ∧
      verifyTransaction C H pk sig { t with memo := m' } = verifyTransaction C H pk sig t := by
  have hf : memoField m' = memoField t.memo := by unfold memoField; rw [hl, hpre]
  constructor
  · unfold Txn.marshal; simp only [hf, hl]
  · unfold verifyTransaction Txn.addRoInput; simp only [hf, hl]

/-! ### threshold challenge -/

/-- **C39** The challenge handed to the threshold signer for an encoded transaction is the sponge digest
of that transaction under the MAIN network, whatever network the transaction names. -/
theorem C39_threshold_challenge (C : Pallas p F G) (H : Sponge p F) (t : Txn G) (hm : t.memo.length ≤ 32)
    (h1 : t.feePayerPk ≠ 0) (h2 : t.sourcePk ≠ 0) (h3 : t.receiverPk ≠ 0) (hn : t.networkId < 256)
    (pk r : G) :
    deriveChallenge C H (t.marshal C) pk r = .ok (spongeHash H H.ivMain (txnHashInput C t pk (C.x r))) := by
  obtain ⟨ro, hr, hI, hf, hb⟩ := txn_input C t
  unfold deriveChallenge
  rw [C39_marshal_roundtrip C t hm h1 h2 h3 hn, Res.bind_ok, hr, Res.bind_ok]
  exact msgHash_txn C H t ro hI hf hb pk (C.x r) 1 (by omega)

/-- **C39** A threshold signature `z·G = R + c·pk` on an encoded main-network transaction passes
`VerifyTransaction` exactly when the ordinate of `R` is even: the handler leaves the normalisation of
the nonce to nobody, so half of the honest runs yield a rejected signature. -/
theorem C39_threshold_verifies_iff_even (C : Pallas p F G) (H : Sponge p F) (hp : p % 2 = 1) (t : Txn G)
    (hm : t.memo.length ≤ 32) (h1 : t.feePayerPk ≠ 0) (h2 : t.sourcePk ≠ 0) (h3 : t.receiverPk ≠ 0)
    (hn : t.networkId = 1) (pk R : G) (z c : F) (hpk : pk ≠ 0) (hR : C.x R ≠ 0) (hz : z ≠ 0)
    (hc : deriveChallenge C H (t.marshal C) pk R = .ok c) (heq : z • C.g = R + c • pk) :
    verifyTransaction C H pk ⟨C.x R, z⟩ t = .ok () ↔ C.yOdd R = false := by
  rw [C39_threshold_challenge C H t hm h1 h2 h3 (by omega)] at hc
  have hc := Res.ok.inj hc
  rw [C39_verify_iff C H pk _ t (by omega)]
  have hiv : networkIv H t.networkId = H.ivMain := by rw [hn]; rfl
  simp only
  rw [hiv, hc]
  constructor
  · rintro ⟨_, _, _, P, e1, x1, y1⟩
    rw [heq] at e1
    rw [add_right_cancel e1]; exact y1
  · intro h
    exact ⟨hpk, hR, hz, R, heq, rfl, h⟩

end Verif.Mina
