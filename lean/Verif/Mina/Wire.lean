import Verif.Mina.Props2

/-! C39: signature encoding and addresses (`signature.go`, `keys.go`). -/

set_option linter.unusedSectionVars false
set_option linter.unusedSimpArgs false
set_option linter.unusedVariables false

namespace Verif.Mina

open Verif.Bytes

variable {p : Nat} [Fact p.Prime]
variable {F : Type} [Field F] [DecidableEq F]
variable {G : Type} [AddCommGroup G] [DecidableEq G] [Module F G]

/-- signatures/schnorr/mina/signature.go:22-29 `Signature.MarshalBinary`; `Bytes` of a field element is
its canonical value in 32 little-endian bytes. -/
def sigMarshal {q : Nat} (s : Sig p (ZMod q)) : List UInt8 := natToLE 32 s.R.val ++ natToLE 32 s.S.val

/-- signatures/schnorr/mina/signature.go:31-49 `Signature.UnmarshalBinary`; `SetBytes` rejects values
that are not below the modulus. -/
def sigUnmarshal (p q : Nat) (input : List UInt8) : Res (Sig p (ZMod q)) :=
  if input.length ≠ 64 then .err
  else
    let r := leToNat (input.take 32)
    let s := leToNat (input.drop 32)
    if ¬ r < p then .err
    else if ¬ s < q then .err
    else .ok ⟨(r : ZMod p), (s : ZMod q)⟩

/-- **C39** Signatures round-trip through their 64-byte encoding. -/
theorem C39_sig_roundtrip {q : Nat} [Fact q.Prime] (hp : p < 256 ^ 32) (hq : q < 256 ^ 32)
    (s : Sig p (ZMod q)) : sigUnmarshal p q (sigMarshal s) = .ok s := by
  unfold sigUnmarshal sigMarshal
  have hr := ZMod.val_lt s.R
  have hs := ZMod.val_lt s.S
  have h1 : leToNat ((natToLE 32 s.R.val ++ natToLE 32 s.S.val).take 32) = s.R.val := by
    rw [List.take_left' (length_natToLE _ _), leToNat_natToLE, Nat.mod_eq_of_lt (hr.trans hp)]
  have h2 : leToNat ((natToLE 32 s.R.val ++ natToLE 32 s.S.val).drop 32) = s.S.val := by
    rw [List.drop_left' (length_natToLE _ _), leToNat_natToLE, Nat.mod_eq_of_lt (hs.trans hq)]
  rw [if_neg (by simp)]
  simp only [h1, h2, hr, hs, not_true_eq_false, if_false, ZMod.natCast_zmod_val]

/-- **C39** Only one byte string decodes to a given signature. -/
theorem C39_sig_canonical {q : Nat} [Fact q.Prime] (l : List UInt8) (s : Sig p (ZMod q))
    (h : sigUnmarshal p q l = .ok s) : sigMarshal s = l := by
  unfold sigUnmarshal at h
  by_cases hl : l.length ≠ 64
  · rw [if_pos hl] at h; cases h
  rw [if_neg hl] at h
  dsimp only at h
  by_cases h1 : leToNat (l.take 32) < p
  · by_cases h2 : leToNat (l.drop 32) < q
    · rw [if_neg (not_not.mpr h1), if_neg (not_not.mpr h2)] at h
      have := (Res.ok.inj h).symm
      subst this
      unfold sigMarshal
      dsimp only
      rw [ZMod.val_natCast_of_lt h1, ZMod.val_natCast_of_lt h2]
      have e1 : natToLE 32 (leToNat (l.take 32)) = l.take 32 := by
        have := natToLE_leToNat (l.take 32)
        rwa [List.length_take, show min 32 l.length = 32 by omega] at this
      have e2 : natToLE 32 (leToNat (l.drop 32)) = l.drop 32 := by
        have := natToLE_leToNat (l.drop 32)
        rwa [List.length_drop, show l.length - 32 = 32 by omega] at this
      rw [e1, e2, List.take_append_drop]
    · rw [if_neg (not_not.mpr h1), if_pos h2] at h; cases h
  · rw [if_pos h1] at h; cases h

/-! ### addresses -/

/-- `x[31] |= b << 7` -/
def setTop (l : List UInt8) (b : UInt8) : List UInt8 := l.set 31 (l.getD 31 0 ||| (b <<< 7))

/-- `buffer[32] & 1`: the low bit of the ordinate -/
def parityByte (C : Pallas p F G) (P : G) : UInt8 := if C.yOdd P then 1 else 0

/-- signatures/schnorr/mina/keys.go:37-51 `PublicKey.GenerateAddress`, without the final base58 step;
`sha` is SHA-256. -/
def addrPayload (C : Pallas p F G) (sha : List UInt8 → List UInt8) (P : G) : List UInt8 :=
  let body := [0xcb, 0x01, 0x01] ++ natToLE 32 (C.x P).val ++ [parityByte C P]
  body ++ (sha (sha body)).take 4

/-- signatures/schnorr/mina/keys.go:53-83 `PublicKey.ParseAddress`, after base58 decoding. -/
def parsePayload (C : Pallas p F G) (sha : List UInt8 → List UInt8) (b : List UInt8) : Res G :=
  if b.length ≠ 40 then .err
  else if b.getD 0 0 ≠ 0xcb then .err
  else if b.getD 1 0 ≠ 0x01 then .err
  else if b.getD 2 0 ≠ 0x01 then .err
  else if (sha (sha (slice b 0 36))).take 4 ≠ slice b 36 40 then .err
  else Res.ofOption (C.dec (setTop (slice b 3 35) (b.getD 35 0)))

theorem parse_body (C : Pallas p F G) (sha : List UInt8 → List UInt8) (hsha : ∀ l, (sha l).length = 32)
    (X : List UInt8) (hX : X.length = 32) (c : UInt8) :
    parsePayload C sha (([0xcb, 0x01, 0x01] ++ X ++ [c]) ++
      (sha (sha ([0xcb, 0x01, 0x01] ++ X ++ [c]))).take 4) = Res.ofOption (C.dec (setTop X c)) := by
  generalize hb : ([0xcb, 0x01, 0x01] ++ X ++ [c] : List UInt8) = body
  have lb : body.length = 36 := by rw [← hb]; simp [hX]
  have lt : ((sha (sha body)).take 4).length = 4 := by rw [List.length_take, hsha]; rfl
  generalize htl : (sha (sha body)).take 4 = tl at lt
  have g : ∀ i, i < 36 → (body ++ tl).getD i 0 = body.getD i 0 := by
    intro i hi
    rw [List.getD_eq_getElem?_getD, List.getD_eq_getElem?_getD, List.getElem?_append_left (by omega)]
  have s36 : slice (body ++ tl) 0 36 = body := slice_head _ _ _ lb
  have s40 : slice (body ++ tl) 36 40 = tl := by
    rw [slice_skip _ _ _ _ (by omega), lb]
    have := slice_head tl [] 4 lt
    rwa [List.append_nil] at this
  have s3 : slice (body ++ tl) 3 35 = X := by
    have : body ++ tl = [0xcb, 0x01, 0x01] ++ (X ++ ([c] ++ tl)) := by rw [← hb]; simp
    rw [this, slice_skip _ _ _ _ (by simp)]
    exact slice_head _ _ _ hX
  have g35 : body.getD 35 0 = c := by
    rw [← hb, List.append_assoc, getD_skip _ _ _ (by simp), getD_skip _ _ _ (by simp [hX])]
    simp [hX]
  have g0 : body.getD 0 0 = 0xcb := by rw [← hb]; rfl
  have g1 : body.getD 1 0 = 0x01 := by rw [← hb]; rfl
  have g2 : body.getD 2 0 = 0x01 := by rw [← hb]; rfl
  unfold parsePayload
  rw [if_neg (by simp [lb, lt]), g 0 (by omega), g0, if_neg (by simp), g 1 (by omega), g1, if_neg (by simp),
    g 2 (by omega), g2, if_neg (by simp), s36, s40, htl, if_neg (by simp), s3, g 35 (by omega), g35]

/-- **C39** Parsing a generated address returns the key, for every non-identity key. -/
theorem C39_address_roundtrip (C : Pallas p F G) (sha : List UInt8 → List UInt8)
    (hsha : ∀ l, (sha l).length = 32)
    (henc : ∀ P, C.enc P = setTop (natToLE 32 (C.x P).val) (parityByte C P)) (P : G) (hP : P ≠ 0) :
    parsePayload C sha (addrPayload C sha P) = .ok P := by
  unfold addrPayload
  dsimp only
  rw [parse_body C sha hsha _ (length_natToLE _ _), ← henc, C.rt P hP]
  rfl

/-- **C39** Nothing else parses: an accepted payload is the version bytes, a 32-byte abscissa, one
parity byte and the checksum of all of those. -/
theorem C39_address_checked (C : Pallas p F G) (sha : List UInt8 → List UInt8) (b : List UInt8) (P : G)
    (h : parsePayload C sha b = .ok P) :
    ∃ X c, X.length = 32 ∧ C.dec (setTop X c) = some P ∧
      b = ([0xcb, 0x01, 0x01] ++ X ++ [c]) ++ (sha (sha ([0xcb, 0x01, 0x01] ++ X ++ [c]))).take 4 := by
  unfold parsePayload at h
  by_cases hl : b.length = 40
  swap; · rw [if_pos hl] at h; cases h
  rw [if_neg (not_not.mpr hl)] at h
  by_cases h0 : b.getD 0 0 = 0xcb
  swap; · rw [if_pos h0] at h; cases h
  rw [if_neg (not_not.mpr h0)] at h
  by_cases h1 : b.getD 1 0 = 0x01
  swap; · rw [if_pos h1] at h; cases h
  rw [if_neg (not_not.mpr h1)] at h
  by_cases h2 : b.getD 2 0 = 0x01
  swap; · rw [if_pos h2] at h; cases h
  rw [if_neg (not_not.mpr h2)] at h
  by_cases h3 : (sha (sha (slice b 0 36))).take 4 = slice b 36 40
  swap; · rw [if_pos h3] at h; cases h
  rw [if_neg (not_not.mpr h3)] at h
  obtain ⟨x, y, z, b', rfl⟩ : ∃ x y z b', b = x :: y :: z :: b' := by
    match b, hl with
    | x :: y :: z :: b', _ => exact ⟨x, y, z, b', rfl⟩
  have lb : b'.length = 37 := by simpa using hl
  have e0 : x = 0xcb := h0
  have e1 : y = 0x01 := h1
  have e2 : z = 0x01 := h2
  subst e0; subst e1; subst e2
  have es : slice (0xcb :: 0x01 :: 0x01 :: b') 3 35 = b'.take 32 := by unfold slice; rfl
  have eg : (0xcb :: 0x01 :: 0x01 :: b').getD 35 0 = b'.getD 32 0 := rfl
  rw [es, eg] at h
  have hbody : slice (0xcb :: 0x01 :: 0x01 :: b') 0 36 = [0xcb, 0x01, 0x01] ++ b'.take 32 ++ [b'.getD 32 0] := by
    have e4 : b'.take 33 = b'.take 32 ++ [b'.getD 32 0] := by
      rw [List.take_add_one, List.getD_eq_getElem?_getD, List.getElem?_eq_getElem (by omega)]; rfl
    have : slice (0xcb :: 0x01 :: 0x01 :: b') 0 36 = 0xcb :: 0x01 :: 0x01 :: b'.take 33 := by unfold slice; rfl
    rw [this, e4]; simp
  have htail : slice (0xcb :: 0x01 :: 0x01 :: b') 36 40 = b'.drop 33 := by
    unfold slice
    rw [List.take_of_length_le (by simp; omega)]
    rfl
  refine ⟨b'.take 32, b'.getD 32 0, by rw [List.length_take]; omega, ?_, ?_⟩
  · cases hd : C.dec (setTop (b'.take 32) (b'.getD 32 0)) with
    | none => rw [hd] at h; cases h
    | some Q => rw [hd] at h; injection h with h; rw [h]
  · rw [← hbody, h3, htail]
    have : slice (0xcb :: 0x01 :: 0x01 :: b') 0 36 = 0xcb :: 0x01 :: 0x01 :: b'.take 33 := by unfold slice; rfl
    rw [this]
    simp

/-- **C39** (negative) Addresses are not unique: any parity byte of the right parity, with a matching
checksum, parses to the same key. -/
theorem C39_address_aliases (C : Pallas p F G) (sha : List UInt8 → List UInt8)
    (hsha : ∀ l, (sha l).length = 32)
    (henc : ∀ P, C.enc P = setTop (natToLE 32 (C.x P).val) (parityByte C P)) (P : G) (hP : P ≠ 0)
    (c : UInt8) (hc : c <<< 7 = parityByte C P <<< 7) :
    parsePayload C sha (([0xcb, 0x01, 0x01] ++ natToLE 32 (C.x P).val ++ [c]) ++
      (sha (sha ([0xcb, 0x01, 0x01] ++ natToLE 32 (C.x P).val ++ [c]))).take 4) = .ok P := by
  rw [parse_body C sha hsha _ (length_natToLE _ _)]
  have : setTop (natToLE 32 (C.x P).val) c = C.enc P := by rw [henc]; unfold setTop; rw [hc]
  rw [this, C.rt P hP]
  rfl

end Verif.Mina
