import Verif.Mina.Wire
import Verif.Sharing.Props

/-! Non-vacuity examples for C39: a three-element group as the curve. -/

set_option linter.unusedVariables false

namespace Verif.Mina

open Verif.Bytes

variable {p : Nat} [hpp : Fact p.Prime]

instance : Fact (Nat.Prime 3) := ⟨by norm_num⟩

def toyX (P : ZMod 3) : ZMod p := if P = 0 then 0 else 1
def toyY (P : ZMod 3) : ZMod p := if P = 0 then 0 else if P = 1 then 1 else -1

theorem zmod3_cases (P : ZMod 3) : P = 0 ∨ P = 1 ∨ P = -1 := by
  revert P; decide

theorem val_one' : (1 : ZMod p).val = 1 := by
  have := hpp.out.one_lt
  exact ZMod.val_one'' (by omega)

theorem toyX_val (P : ZMod 3) (h : P ≠ 0) : (toyX (p := p) P).val = 1 := by
  unfold toyX; rw [if_neg h, val_one']

theorem toy_even (ho : p % 2 = 1) : ¬ (toyY (p := p) (-1)).val % 2 = 1 := by
  have h1 : toyY (p := p) (-1) = -1 := rfl
  rw [h1, val_neg_parity ho 1 one_ne_zero, val_one']
  decide

/-- A curve with three points `0, G, -G`, coordinates `(1, ±1)`, over any odd prime field. -/
def toyPallas (ho : p % 2 = 1) : Pallas p (ZMod 3) (ZMod 3) where
  g := 1
  x := toyX
  y := toyY
  x_zero := rfl
  y_zero := rfl
  x_neg := by intro P; rcases zmod3_cases P with h | h | h <;> subst h <;> rfl
  y_neg := by
    intro P
    rcases zmod3_cases P with h | h | h <;> subst h
    · show (0 : ZMod p) = -0; simp
    · rfl
    · show (1 : ZMod p) = - -1; simp
  y_ne_zero := by
    intro P hP
    rcases zmod3_cases P with h | h | h <;> subst h
    · exact absurd rfl hP
    · exact one_ne_zero
    · exact neg_ne_zero.mpr one_ne_zero
  x_inj := by
    intro P Q hP hQ _
    rcases zmod3_cases P with h | h | h <;> rcases zmod3_cases Q with h' | h' | h' <;> subst h <;> subst h' <;>
      simp_all
  enc := fun P => setTop (natToLE 32 (toyX (p := p) P).val) (if decide ((toyY (p := p) P).val % 2 = 1) then 1 else 0)
  dec := fun l => if l.getD 31 0 = 0x80 then some 1 else some (-1)
  len_enc := by intro P; simp [setTop]
  rt := by
    intro P hP
    rw [toyX_val P hP]
    rcases zmod3_cases P with h | h | h
    · exact absurd h hP
    · subst h
      have h1 : (toyY (p := p) 1).val = 1 := val_one'
      rw [h1]; decide +kernel
    · subst h
      rw [decide_eq_false (toy_even ho)]; decide +kernel

def toySponge : Sponge p (ZMod 3) where
  perm := fun s => (s.1 + s.2.1 + s.2.2 + 1, s.1, s.2.1)
  ivTest := (1, 2, 3)
  ivMain := (4, 5, 6)
  out := fun _ => 1

def toyTxn : Txn (ZMod 3) where
  fee := 3
  feeToken := 1
  feePayerPk := 1
  nonce := 200
  validUntil := 10000
  memo := [1, 2, 3]
  tag0 := false
  tag1 := true
  tag2 := false
  sourcePk := -1
  receiverPk := 1
  tokenId := 1
  amount := 42
  locked := false
  networkId := 0

/-- Signing succeeds on a concrete transaction, and the result verifies (hypotheses of
`C39_sign_total`, `C39_sign_verifies_txn`). -/
theorem toy_signs (ho : p % 2 = 1) : ∃ sig,
    signTransaction (toyPallas ho) toySponge (fun _ => 1) (fun s => s.val) 2 toyTxn = .ok sig ∧
    verifyTransaction (toyPallas ho) toySponge ((2 : ZMod 3) • (1 : ZMod 3)) sig toyTxn = .ok () := by
  obtain ⟨b, k, e, hk, h1, -, he⟩ := C39_sign_total (toyPallas ho) toySponge (fun _ => 1) (fun s => s.val) 2
    toyTxn (by decide) (by decide)
  have he1 : e = 1 := he
  have hk1 : k = 1 := hk
  subst he1 hk1
  have hy : (toyPallas ho).yOdd ((1 : ZMod 3) • (toyPallas ho).g) = true := by
    have h1 : (toyY (p := p) 1).val = 1 := val_one'
    show decide ((toyY (p := p) 1).val % 2 = 1) = true
    rw [h1]; rfl
  have hsig := h1 (by decide) (by show toyX (p := p) 1 ≠ 0; exact one_ne_zero) (by rw [if_pos hy]; decide)
  exact ⟨_, hsig, C39_sign_verifies_txn (toyPallas ho) toySponge _ _ ho (by show (1 : ZMod 3) ≠ 0; decide) 2
    toyTxn _ hsig⟩

/-- A prime above `2^254` exists, and it is odd (hypotheses of the binding theorems). -/
example : ∃ p : Nat, p.Prime ∧ p % 2 = 1 ∧ 2 ^ 254 < p := by
  obtain ⟨p, h1, h2⟩ := Nat.exists_infinite_primes (2 ^ 254 + 1)
  refine ⟨p, h2, ?_, by omega⟩
  rcases h2.eq_two_or_odd with h | h
  · omega
  · exact h

/-- The round-trip theorem applies to the example transaction. -/
example (ho : p % 2 = 1) : Txn.unmarshal (toyPallas (p := p) ho) (toyTxn.marshal (toyPallas ho)) = .ok toyTxn :=
  C39_marshal_roundtrip (toyPallas ho) toyTxn (by decide) (by decide) (by decide) (by decide) (by decide)

/-- The address theorem applies (the encoding hypothesis holds for the toy curve). -/
example (ho : p % 2 = 1) :
    parsePayload (toyPallas (p := p) ho) (fun l => List.replicate 32 l.sum)
      (addrPayload (toyPallas ho) (fun l => List.replicate 32 l.sum) 1) = .ok 1 :=
  C39_address_roundtrip (toyPallas ho) _ (by simp) (fun _ => rfl) 1 (by decide)

/-- `3` is an odd parity byte other than `1`. -/
example : (3 : UInt8) <<< 7 = (1 : UInt8) <<< 7 := by decide

/-- A 1-byte message and its zero-padded variants up to 31 bytes. -/
example (ho : p % 2 = 1) (sig : Sig p (ZMod 3)) :
    verifyMessage (toyPallas ho) toySponge 1 sig ([7] ++ List.replicate 30 0) =
      verifyMessage (toyPallas ho) toySponge 1 sig [7] :=
  C39_message_zero_pad (toyPallas ho) toySponge 1 sig [7] 30 (by simp) (by simp) (by simp)

/-- A memo of 200 bytes makes the decoder panic on the encoder's output. -/
example (ho : p % 2 = 1) :
    Txn.unmarshal (toyPallas (p := p) ho)
      (Txn.marshal (toyPallas ho) { toyTxn with memo := List.replicate 200 65 }) = .panic :=
  C39_marshal_long_memo_panics (toyPallas ho) _
    (by show 198 ≤ (List.replicate 200 (65 : UInt8)).length; rw [List.length_replicate]; omega)
    (by show (List.replicate 200 (65 : UInt8)).length < 256; rw [List.length_replicate]; omega) (by decide) (by decide) (by decide)

/-- Two memos of 33 bytes that differ in the last byte. -/
example (ho : p % 2 = 1) (sig : Sig p (ZMod 3)) :
    verifyTransaction (toyPallas ho) toySponge 1 sig { toyTxn with memo := List.replicate 32 65 ++ [66] } =
      verifyTransaction (toyPallas ho) toySponge 1 sig { toyTxn with memo := List.replicate 32 65 ++ [67] } :=
  (C39_long_memo_collision (toyPallas ho) toySponge { toyTxn with memo := List.replicate 32 65 ++ [67] }
    (List.replicate 32 65 ++ [66]) (by simp) (by decide +kernel) 1 sig).2

/-- A threshold run with challenge `1`, key `1`: nonce point `-G` (even) is accepted, `G` (odd) is not. -/
example (ho : p % 2 = 1) :
    verifyTransaction (toyPallas ho) toySponge 1 ⟨toyX (-1 + -1), -1⟩ { toyTxn with networkId := 1 } ≠ .ok () := by
  have h := C39_threshold_verifies_iff_even (toyPallas ho) toySponge ho { toyTxn with networkId := 1 }
    (by decide) (by decide) (by decide) (by decide) rfl 1 (1 : ZMod 3) (-1) 1 (by decide)
    (by show toyX (p := p) 1 ≠ 0; exact one_ne_zero) (by decide)
    (C39_threshold_challenge (toyPallas ho) toySponge _ (by decide) (by decide) (by decide) (by decide)
      (by decide) 1 1)
    (by show (-1 : ZMod 3) • (1 : ZMod 3) = 1 + (1 : ZMod 3) • 1; decide)
  intro hv
  have h2 := h.mp hv
  have h1 : (toyY (p := p) 1).val = 1 := val_one'
  have h3 : decide ((toyY (p := p) 1).val % 2 = 1) = false := h2
  rw [h1] at h3
  cases h3

end Verif.Mina
