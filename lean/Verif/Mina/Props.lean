import Verif.Mina.Lemmas

/-! C39: Mina Schnorr signatures and transaction encoding. -/

set_option linter.unusedSectionVars false
set_option linter.unusedSimpArgs false
set_option linter.unusedVariables false

namespace Verif.Mina

open Verif.Bytes

variable {p : Nat} [Fact p.Prime]
variable {F : Type} [Field F] [DecidableEq F]
variable {G : Type} [AddCommGroup G] [DecidableEq G] [Module F G]

theorem val_neg_parity (hp : p % 2 = 1) (a : ZMod p) (ha : a ≠ 0) :
    (-a).val % 2 = 1 ↔ ¬ a.val % 2 = 1 := by
  have h0 : a.val ≠ 0 := fun h => ha ((ZMod.val_eq_zero a).mp h)
  have : NeZero a := ⟨ha⟩
  rw [ZMod.val_neg_of_ne_zero]
  have := ZMod.val_lt a
  omega

theorem Pallas.yOdd_neg (C : Pallas p F G) (hp : p % 2 = 1) (P : G) (hP : P ≠ 0) :
    C.yOdd (-P) = !C.yOdd P := by
  unfold Pallas.yOdd
  rw [C.y_neg]
  have := val_neg_parity hp (C.y P) (C.y_ne_zero P hP)
  by_cases h : (C.y P).val % 2 = 1
  · rw [decide_eq_false (fun h' => this.mp h' h), decide_eq_true h]; rfl
  · rw [decide_eq_true (this.mpr h), decide_eq_false h]; rfl

theorem Pallas.yOdd_zero (C : Pallas p F G) : C.yOdd 0 = false := by
  unfold Pallas.yOdd
  rw [C.y_zero, ZMod.val_zero]; rfl

/-- The two coordinates determine a non-identity point; so does the abscissa with the parity. -/
theorem Pallas.parity_inj (C : Pallas p F G) (hp : p % 2 = 1) {P Q : G} (hP : P ≠ 0) (hQ : Q ≠ 0)
    (hx : C.x P = C.x Q) (hy : C.yOdd P = C.yOdd Q) : P = Q := by
  rcases C.x_inj P Q hP hQ hx with h | h
  · exact h
  · rw [h, C.yOdd_neg hp Q hQ] at hy
    cases hq : C.yOdd Q <;> rw [hq] at hy <;> cases hy

/-! ### signing and verifying -/

/-- The core of completeness: whatever the nonce derivation returns. -/
theorem finish_complete (C : Pallas p F G) (H : Sponge p F) (kdf : List UInt8 → F) (raw : F → Nat)
    (hp : p % 2 = 1) (hg : C.g ≠ 0) (sk : F) (input : RoInput p) (nid : Nat) (sig : Sig p F)
    (h : finishSign C H kdf raw sk input nid = .ok sig) :
    finishVerify C H (sk • C.g) sig input nid = .ok () := by
  unfold finishSign at h
  by_cases hs : sk = 0
  · rw [if_pos hs] at h; cases h
  rw [if_neg hs] at h
  obtain ⟨k, hk, h⟩ := Res.bind_eq_ok.mp h
  by_cases hk0 : k = 0
  · rw [if_pos hk0] at h; cases h
  rw [if_neg hk0] at h
  obtain ⟨e, he, h⟩ := Res.bind_eq_ok.mp h
  dsimp only at h
  generalize hk' : (if C.yOdd (k • C.g) = true then -k else k) = k' at h
  by_cases hz : C.x (k • C.g) = 0 ∨ k' + e * sk = 0
  · rw [if_pos hz] at h; cases h
  rw [if_neg hz] at h
  push Not at hz
  have hsig := (Res.ok.inj h).symm
  have hpk : sk • C.g ≠ 0 := by
    intro h0; rcases smul_eq_zero.mp h0 with h1 | h1
    · exact hs h1
    · exact hg h1
  have hr : k • C.g ≠ 0 := by
    intro h0; rcases smul_eq_zero.mp h0 with h1 | h1
    · exact hk0 h1
    · exact hg h1
  unfold finishVerify
  rw [if_neg hpk, hsig]
  dsimp only
  rw [if_neg (by push Not; exact hz), he]
  simp only [Res.bind_ok]
  by_cases ho : C.yOdd (k • C.g) = true
  · rw [if_pos ho] at hk'
    subst hk'
    have : ((-k + e * sk) • C.g + -(e • sk • C.g)) = -(k • C.g) := by
      rw [add_smul, mul_smul, neg_smul]; abel
    rw [this, C.yOdd_neg hp _ hr, ho, C.x_neg]
    simp
  · rw [if_neg ho] at hk'
    subst hk'
    have : ((k + e * sk) • C.g + -(e • sk • C.g)) = k • C.g := by
      rw [add_smul, mul_smul]; abel
    rw [this, Bool.eq_false_iff.mpr ho]
    simp

/-- **C39** A signature that `SignTransaction` returns is accepted by `VerifyTransaction` under the
matching public key, for every key, transaction, nonce-derivation function and sponge. -/
theorem C39_sign_verifies_txn (C : Pallas p F G) (H : Sponge p F) (kdf : List UInt8 → F) (raw : F → Nat)
    (hp : p % 2 = 1) (hg : C.g ≠ 0) (sk : F) (t : Txn G) (sig : Sig p F)
    (h : signTransaction C H kdf raw sk t = .ok sig) :
    verifyTransaction C H (sk • C.g) sig t = .ok () := by
  unfold signTransaction at h
  obtain ⟨input, hi, h⟩ := Res.bind_eq_ok.mp h
  unfold verifyTransaction
  rw [hi]
  exact finish_complete C H kdf raw hp hg sk input _ sig h

/-- **C39** The same for `SignMessage` and `VerifyMessage`. -/
theorem C39_sign_verifies_msg (C : Pallas p F G) (H : Sponge p F) (kdf : List UInt8 → F) (raw : F → Nat)
    (hp : p % 2 = 1) (hg : C.g ≠ 0) (sk : F) (m : List UInt8) (sig : Sig p F)
    (h : signMessage C H kdf raw sk m = .ok sig) :
    verifyMessage C H (sk • C.g) sig m = .ok () := by
  unfold signMessage at h
  obtain ⟨input, hi, h⟩ := Res.bind_eq_ok.mp h
  unfold verifyMessage
  rw [hi]
  exact finish_complete C H kdf raw hp hg sk input _ sig h

/-! ### what is hashed -/

/-- the bits of a transaction, in order -/
def txnBits (C : Pallas p F G) (t : Txn G) : List Bool :=
  natBits t.fee.toNat 64 ++ natBits t.feeToken.toNat 64 ++ [C.yOdd t.feePayerPk] ++
  natBits t.nonce.toNat 32 ++ natBits t.validUntil.toNat 32 ++
  byteBits ([0x01, UInt8.ofNat t.memo.length] ++ memoField t.memo) ++
  [t.tag0] ++ [t.tag1] ++ [t.tag2] ++ [C.yOdd t.sourcePk] ++ [C.yOdd t.receiverPk] ++
  natBits t.tokenId.toNat 64 ++ natBits t.amount.toNat 64 ++ [t.locked]

theorem length_memoField (m : List UInt8) : (memoField m).length = 32 := by
  simp [memoField]; omega

theorem length_txnBits (C : Pallas p F G) (t : Txn G) : (txnBits C t).length = 599 := by
  simp [txnBits, length_memoField]

theorem txn_input (C : Pallas p F G) (t : Txn G) :
    ∃ r : RoInput p, t.addRoInput C (RoInput.init 75) = .ok r ∧ r.bits.Inv ∧
      r.fields = [C.x t.feePayerPk, C.x t.sourcePk, C.x t.receiverPk] ∧ r.bits.bits = txnBits C t := by
  unfold Txn.addRoInput
  generalize hr0 : ((((RoInput.init 75 : RoInput p).addFp (C.x t.feePayerPk)).addFp
    (C.x t.sourcePk)).addFp (C.x t.receiverPk)) = r0
  have i0 : r0.bits.Inv := by rw [← hr0]; exact inv_init (p := p) 75
  have b0 : r0.bits.bits = [] := by rw [← hr0]; exact bits_init (p := p) 75
  have l0 : r0.bits.length = 0 := by rw [← hr0]; rfl
  have f0 : r0.fields = [C.x t.feePayerPk, C.x t.sourcePk, C.x t.receiverPk] := by rw [← hr0]; rfl
  have z0 : Ext r0 [] r0 := ⟨rfl, i0, by simp⟩
  dsimp only
  -- each step extends the vector
  obtain ⟨r1, h1, x1⟩ := addNat_ok r0 t.fee.toNat 64 i0 (by omega)
  have L1 := x1.length; rw [length_natBits] at L1
  obtain ⟨r2, h2, x2⟩ := addNat_ok r1 t.feeToken.toNat 64 x1.2.1 (by omega)
  have L2 := x2.length; rw [length_natBits] at L2
  obtain ⟨r3, h3, x3⟩ := addBit_ok r2 (C.yOdd t.feePayerPk) x2.2.1 (by omega)
  have L3 := x3.length; rw [List.length_singleton] at L3
  obtain ⟨r4, h4, x4⟩ := addNat_ok r3 t.nonce.toNat 32 x3.2.1 (by omega)
  have L4 := x4.length; rw [length_natBits] at L4
  obtain ⟨r5, h5, x5⟩ := addNat_ok r4 t.validUntil.toNat 32 x4.2.1 (by omega)
  have L5 := x5.length; rw [length_natBits] at L5
  have lm : ([0x01, UInt8.ofNat t.memo.length] ++ memoField t.memo).length = 34 := by
    simp [length_memoField]
  obtain ⟨r6, h6, x6⟩ := addBytes_ok r5 ([0x01, UInt8.ofNat t.memo.length] ++ memoField t.memo) x5.2.1
    (by rw [lm]; omega)
  have L6 := x6.length; rw [length_byteBits, lm] at L6
  obtain ⟨r7, h7, x7⟩ := addBit_ok r6 t.tag0 x6.2.1 (by omega)
  have L7 := x7.length; rw [List.length_singleton] at L7
  obtain ⟨r8, h8, x8⟩ := addBit_ok r7 t.tag1 x7.2.1 (by omega)
  have L8 := x8.length; rw [List.length_singleton] at L8
  obtain ⟨r9, h9, x9⟩ := addBit_ok r8 t.tag2 x8.2.1 (by omega)
  have L9 := x9.length; rw [List.length_singleton] at L9
  obtain ⟨r10, h10, x10⟩ := addBit_ok r9 (C.yOdd t.sourcePk) x9.2.1 (by omega)
  have L10 := x10.length; rw [List.length_singleton] at L10
  obtain ⟨r11, h11, x11⟩ := addBit_ok r10 (C.yOdd t.receiverPk) x10.2.1 (by omega)
  have L11 := x11.length; rw [List.length_singleton] at L11
  obtain ⟨r12, h12, x12⟩ := addNat_ok r11 t.tokenId.toNat 64 x11.2.1 (by omega)
  have L12 := x12.length; rw [length_natBits] at L12
  obtain ⟨r13, h13, x13⟩ := addNat_ok r12 t.amount.toNat 64 x12.2.1 (by omega)
  have L13 := x13.length; rw [length_natBits] at L13
  obtain ⟨r14, h14, x14⟩ := addBit_ok r13 t.locked x13.2.1 (by omega)
  have X := ((((((((((((((z0.trans x1).trans x2).trans x3).trans x4).trans x5).trans x6).trans x7).trans
    x8).trans x9).trans x10).trans x11).trans x12).trans x13).trans x14)
  refine ⟨r14, ?_, X.2.1, by rw [X.1, f0], ?_⟩
  · simp only [RoInput.addUint64, RoInput.addUint32, h1, h2, h3, h4, h5, h6, h7, h8, h9, h10, h11, h12,
      h13, h14, Res.bind_ok]
  · rw [X.2.2, b0]; rfl

theorem msg_input (m : List UInt8) (hm : 8 * m.length < 2 ^ 32) :
    ∃ r : RoInput p, (RoInput.init m.length : RoInput p).addBytes m = .ok r ∧ r.bits.Inv ∧
      r.fields = [] ∧ r.bits.bits = byteBits m := by
  obtain ⟨r, h, x⟩ := addBytes_ok (RoInput.init m.length : RoInput p) m (inv_init _)
    (by rw [length_init]; omega)
  exact ⟨r, h, x.2.1, by rw [x.1]; rfl, by rw [x.2.2, bits_init]; rfl⟩

/-- SPEC: the field elements a transaction signature hashes. -/
def txnHashInput (C : Pallas p F G) (t : Txn G) (pk : G) (rx : ZMod p) : List (ZMod p) :=
  [C.x t.feePayerPk, C.x t.sourcePk, C.x t.receiverPk, C.x pk, C.y pk, rx] ++
    (packed (txnBits C t)).map fun c => (c : ZMod p)

/-- SPEC: the field elements a message signature hashes. -/
def msgHashInput (C : Pallas p F G) (m : List UInt8) (pk : G) (rx : ZMod p) : List (ZMod p) :=
  [C.x pk, C.y pk, rx] ++ (packed (byteBits m)).map fun c => (c : ZMod p)

/-- SPEC: the sponge: absorb a list of field elements, squeeze one word. -/
def spongeHash (H : Sponge p F) (iv : ZMod p × ZMod p × ZMod p) (xs : List (ZMod p)) : F :=
  ctxDigest H (ctxUpdate H ⟨iv, 0⟩ xs)

/-- SPEC: the initial state of a network. -/
def networkIv (H : Sponge p F) (nid : Nat) : ZMod p × ZMod p × ZMod p :=
  if nid = 0 then H.ivTest else if nid = 1 then H.ivMain else (0, 0, 0)

theorem ctxInit_ok (H : Sponge p F) (nid : Nat) (h : nid < 3) :
    ctxInit H nid = .ok ⟨networkIv H nid, 0⟩ := by
  unfold ctxInit networkIv
  by_cases h0 : nid = 0
  · rw [if_pos h0, if_pos h0]
  by_cases h1 : nid = 1
  · rw [if_neg h0, if_pos h1, if_neg h0, if_pos h1]
  · rw [if_neg h0, if_neg h1, if_pos (show nid = 2 by omega), if_neg h0, if_neg h1]

theorem msgHash_txn (C : Pallas p F G) (H : Sponge p F) (t : Txn G) (r : RoInput p) (hI : r.bits.Inv)
    (hf : r.fields = [C.x t.feePayerPk, C.x t.sourcePk, C.x t.receiverPk])
    (hb : r.bits.bits = txnBits C t) (pk : G) (rx : ZMod p) (nid : Nat) (hn : nid < 3) :
    msgHash C H pk rx r nid = .ok (spongeHash H (networkIv H nid) (txnHashInput C t pk rx)) := by
  unfold msgHash
  rw [ctxInit_ok H nid hn]
  dsimp only
  rw [Res.bind_ok, toFields_ok _ (by simpa [RoInput.addFp] using hI), Res.bind_ok]
  unfold spongeHash txnHashInput
  congr 3
  simp [RoInput.addFp, hf, hb]

theorem msgHash_msg (C : Pallas p F G) (H : Sponge p F) (m : List UInt8) (r : RoInput p) (hI : r.bits.Inv)
    (hf : r.fields = []) (hb : r.bits.bits = byteBits m) (pk : G) (rx : ZMod p) :
    msgHash C H pk rx r 1 = .ok (spongeHash H H.ivMain (msgHashInput C m pk rx)) := by
  unfold msgHash
  rw [ctxInit_ok H 1 (by omega)]
  dsimp only
  rw [Res.bind_ok, toFields_ok _ (by simpa [RoInput.addFp] using hI), Res.bind_ok]
  unfold spongeHash msgHashInput networkIv
  congr 3
  simp [RoInput.addFp, hf, hb]

theorem finishVerify_iff (C : Pallas p F G) (H : Sponge p F) (pk : G) (sig : Sig p F) (r : RoInput p)
    (nid : Nat) (e : F) (he : msgHash C H pk sig.R r nid = .ok e) :
    finishVerify C H pk sig r nid = .ok () ↔
      pk ≠ 0 ∧ sig.R ≠ 0 ∧ sig.S ≠ 0 ∧
        ∃ P : G, sig.S • C.g = P + e • pk ∧ C.x P = sig.R ∧ C.yOdd P = false := by
  unfold finishVerify
  by_cases hpk : pk = 0
  · rw [if_pos hpk]; simp [hpk]
  rw [if_neg hpk]
  by_cases hz : sig.R = 0 ∨ sig.S = 0
  · rw [if_pos hz]
    constructor
    · intro h; cases h
    · rintro ⟨_, h1, h2, _⟩; rcases hz with h | h
      · exact absurd h h1
      · exact absurd h h2
  rw [if_neg hz, he]
  push Not at hz
  simp only [Res.bind_ok]
  constructor
  · intro h
    split at h
    · rename_i hc
      rw [Bool.and_eq_true, decide_eq_true_eq, Bool.not_eq_true'] at hc
      exact ⟨hpk, hz.1, hz.2, _, by abel, hc.2, hc.1⟩
    · cases h
  · rintro ⟨_, _, _, P, h1, h2, h3⟩
    have : sig.S • C.g + -(e • pk) = P := by rw [h1]; abel
    rw [this, h2, h3]; simp

/-- **C39** `VerifyTransaction` accepts exactly when the public key and both signature words are
non-zero and `S·G − e·pk` is a point with even ordinate and abscissa `R`, where `e` is the sponge
digest of the transaction's three keys, the signer's key, `R`, and the packed transaction bits under
the transaction's network. -/
theorem C39_verify_iff (C : Pallas p F G) (H : Sponge p F) (pk : G) (sig : Sig p F) (t : Txn G)
    (hn : t.networkId < 3) :
    verifyTransaction C H pk sig t = .ok () ↔
      pk ≠ 0 ∧ sig.R ≠ 0 ∧ sig.S ≠ 0 ∧
        ∃ P : G, sig.S • C.g =
          P + (spongeHash H (networkIv H t.networkId) (txnHashInput C t pk sig.R)) • pk ∧
          C.x P = sig.R ∧ C.yOdd P = false := by
  obtain ⟨r, hr, hI, hf, hb⟩ := txn_input C t
  unfold verifyTransaction
  rw [hr, Res.bind_ok]
  exact finishVerify_iff C H pk sig r _ _ (msgHash_txn C H t r hI hf hb pk sig.R _ hn)

/-- **C39** The same for messages (always under the main network). -/
theorem C39_verify_msg_iff (C : Pallas p F G) (H : Sponge p F) (pk : G) (sig : Sig p F) (m : List UInt8)
    (hm : 8 * m.length < 2 ^ 32) :
    verifyMessage C H pk sig m = .ok () ↔
      pk ≠ 0 ∧ sig.R ≠ 0 ∧ sig.S ≠ 0 ∧
        ∃ P : G, sig.S • C.g = P + (spongeHash H H.ivMain (msgHashInput C m pk sig.R)) • pk ∧
          C.x P = sig.R ∧ C.yOdd P = false := by
  obtain ⟨r, hr, hI, hf, hb⟩ := msg_input (p := p) m hm
  unfold verifyMessage
  rw [hr, Res.bind_ok]
  exact finishVerify_iff C H pk sig r _ _ (msgHash_msg C H m r hI hf hb pk sig.R)

/-- **C39** For a given key, transaction and `R` at most one `S` is accepted, so a signature cannot be
altered in its scalar. -/
theorem C39_unique_s (C : Pallas p F G) (H : Sponge p F) (hp : p % 2 = 1) (hg : C.g ≠ 0) (pk : G)
    (s1 s2 : Sig p F) (t : Txn G) (hn : t.networkId < 3) (hR : s1.R = s2.R)
    (h1 : verifyTransaction C H pk s1 t = .ok ()) (h2 : verifyTransaction C H pk s2 t = .ok ()) :
    s1 = s2 := by
  obtain ⟨_, r1, _, P, e1, x1, y1⟩ := (C39_verify_iff C H pk s1 t hn).mp h1
  obtain ⟨_, r2, _, Q, e2, x2, y2⟩ := (C39_verify_iff C H pk s2 t hn).mp h2
  have hP : P ≠ 0 := by rintro rfl; exact r1 (by rw [← x1, C.x_zero])
  have hQ : Q ≠ 0 := by rintro rfl; exact r2 (by rw [← x2, C.x_zero])
  have hPQ : P = Q := C.parity_inj hp hP hQ (by rw [x1, x2, hR]) (by rw [y1, y2])
  rw [hPQ, hR, ← e2] at e1
  have : (s1.S - s2.S) • C.g = 0 := by rw [sub_smul, e1, sub_self]
  rcases smul_eq_zero.mp this with h | h
  · cases s1; cases s2; simp only at hR h; rw [hR, sub_eq_zero.mp h]
  · exact absurd h hg

theorem memo_inj {m m' : List UInt8} (h : m.length ≤ 32) (h' : m'.length ≤ 32)
    (hl : UInt8.ofNat m.length = UInt8.ofNat m'.length) (hf : memoField m = memoField m') : m = m' := by
  have hlen : m.length = m'.length := by
    have := congrArg UInt8.toNat hl
    rw [UInt8.toNat_ofNat_of_lt' (by show _ < 256; omega),
      UInt8.toNat_ofNat_of_lt' (by show _ < 256; omega)] at this
    exact this
  unfold memoField at hf
  rw [List.take_of_length_le h, List.take_of_length_le h'] at hf
  exact (List.append_inj hf hlen).1

theorem u64_bits_inj {a b : UInt64} (h : natBits a.toNat 64 = natBits b.toNat 64) : a = b :=
  UInt64.toNat_inj.mp (natBits_inj a.toNat_lt b.toNat_lt h)

theorem u32_bits_inj {a b : UInt32} (h : natBits a.toNat 32 = natBits b.toNat 32) : a = b :=
  UInt32.toNat_inj.mp (natBits_inj a.toNat_lt b.toNat_lt h)

/-- **C39** The hash input determines the transaction: two transactions with memos of at most 32 bytes
and non-identity keys, on the same network, that are hashed to the same field elements are equal. -/
theorem C39_txn_binding (C : Pallas p F G) (hp : p % 2 = 1) (hp' : 2 ^ 254 < p) (t t' : Txn G)
    (hm : t.memo.length ≤ 32) (hm' : t'.memo.length ≤ 32)
    (h1 : t.feePayerPk ≠ 0) (h2 : t.sourcePk ≠ 0) (h3 : t.receiverPk ≠ 0)
    (h1' : t'.feePayerPk ≠ 0) (h2' : t'.sourcePk ≠ 0) (h3' : t'.receiverPk ≠ 0)
    (hn : t.networkId = t'.networkId) (pk pk' : G) (rx rx' : ZMod p)
    (h : txnHashInput C t pk rx = txnHashInput C t' pk' rx') : t = t' := by
  unfold txnHashInput at h
  obtain ⟨ha, hb⟩ := List.append_inj h rfl
  have hb := map_cast_inj hp' (packed_lt _) (packed_lt _) hb
  have hb := packed_inj _ _ (by rw [length_txnBits, length_txnBits]) hb
  simp only [List.cons.injEq, and_true] at ha
  obtain ⟨a1, a2, a3, -⟩ := ha
  unfold txnBits at hb
  obtain ⟨hb, b14⟩ := List.append_inj' hb rfl
  obtain ⟨hb, b13⟩ := List.append_inj' hb (by simp)
  obtain ⟨hb, b12⟩ := List.append_inj' hb (by simp)
  obtain ⟨hb, b11⟩ := List.append_inj' hb rfl
  obtain ⟨hb, b10⟩ := List.append_inj' hb rfl
  obtain ⟨hb, b9⟩ := List.append_inj' hb rfl
  obtain ⟨hb, b8⟩ := List.append_inj' hb rfl
  obtain ⟨hb, b7⟩ := List.append_inj' hb rfl
  obtain ⟨hb, b6⟩ := List.append_inj' hb (by simp [length_memoField])
  obtain ⟨hb, b5⟩ := List.append_inj' hb (by simp)
  obtain ⟨hb, b4⟩ := List.append_inj' hb (by simp)
  obtain ⟨hb, b3⟩ := List.append_inj' hb rfl
  obtain ⟨b1, b2⟩ := List.append_inj' hb (by simp)
  have hmb := byteBits_inj b6
  obtain ⟨hm1, hm2⟩ := List.append_inj hmb rfl
  simp only [List.cons.injEq, and_true, true_and] at hm1
  have e1 := C.parity_inj hp h1 h1' a1 (List.cons.inj b3).1
  have e2 := C.parity_inj hp h2 h2' a2 (List.cons.inj b10).1
  have e3 := C.parity_inj hp h3 h3' a3 (List.cons.inj b11).1
  have e4 := memo_inj hm hm' hm1 hm2
  have e5 := u64_bits_inj b1
  have e6 := u64_bits_inj b2
  have e7 := u32_bits_inj b4
  have e8 := u32_bits_inj b5
  have e9 := u64_bits_inj b12
  have e10 := u64_bits_inj b13
  have e11 := (List.cons.inj b7).1
  have e12 := (List.cons.inj b8).1
  have e13 := (List.cons.inj b9).1
  have e14 := (List.cons.inj b14).1
  cases t; cases t'
  simp only at *
  subst_vars
  rfl

end Verif.Mina
