import Verif.Hash.Model
import Verif.Base.Tactics

/-! C43: the counter of the chaining hash and what its outputs bind. -/

set_option linter.unusedSimpArgs false
set_option linter.unusedVariables false

namespace Verif.Hash

open Verif.Bytes

/-- SPEC: the counter as a number: byte `255 - d` is the digit `d` in base 255, least significant
first. -/
def ctrVal : List UInt8 → Nat
  | [] => 0
  | b :: rest => (255 - b.toNat) + 255 * ctrVal rest

/-- The counter prefix used by iteration `k` (counting from 0) of a hash with an `n`-byte prefix. -/
def counter (n k : Nat) : List UInt8 := byteSub^[k] (List.replicate n 0xFF)

theorem isZeroByte_spec (b : UInt8) : isZeroByte b = if b = 0 then 1 else 0 := by
  have h : ∀ i : Fin 256, isZeroByte (UInt8.ofNat i) = if UInt8.ofNat i = 0 then 1 else 0 := by
    decide +kernel
  have := h ⟨b.toNat, b.toNat_lt⟩
  simpa using this

theorem sub_one_spec (b : UInt8) (hb : b ≠ 0) :
    (b = 1 ∧ (b - 1) ||| -(isZeroByte (b - 1)) = 255 ∧ isZeroByte (b - 1) = 1) ∨
    (b ≠ 1 ∧ ((b - 1) ||| -(isZeroByte (b - 1))) = b - 1 ∧ (b - 1).toNat = b.toNat - 1 ∧
      isZeroByte (b - 1) = 0) := by
  have h : ∀ i : Fin 256, UInt8.ofNat i ≠ 0 →
      (UInt8.ofNat i = 1 ∧ (UInt8.ofNat i - 1) ||| -(isZeroByte (UInt8.ofNat i - 1)) = 255 ∧
        isZeroByte (UInt8.ofNat i - 1) = 1) ∨
      (UInt8.ofNat i ≠ 1 ∧ ((UInt8.ofNat i - 1) ||| -(isZeroByte (UInt8.ofNat i - 1))) = UInt8.ofNat i - 1 ∧
        (UInt8.ofNat i - 1).toNat = (UInt8.ofNat i).toNat - 1 ∧ isZeroByte (UInt8.ofNat i - 1) = 0) := by
    decide +kernel
  have := h ⟨b.toNat, b.toNat_lt⟩
  simp only [UInt8.ofNat_toNat] at this
  exact this hb

theorem byteSubAux_zero (l : List UInt8) (h : ∀ b ∈ l, b ≠ 0) : byteSubAux 0 l = l := by
  induction l with
  | nil => rfl
  | cons b l ih =>
    have hb := h b (by simp)
    rw [byteSubAux]
    rw [UInt8.sub_zero, isZeroByte_spec, if_neg hb, show (0 : UInt8) &&& 0 = 0 from rfl,
      ih fun x hx => h x (by simp [hx]), show -(0 : UInt8) = 0 from rfl, UInt8.or_zero]

/-- One step: bytes stay non-zero, the length stays, and the number increases by one modulo `255^n`. -/
theorem byteSub_step (l : List UInt8) (h : ∀ b ∈ l, b ≠ 0) :
    (∀ b ∈ byteSub l, b ≠ 0) ∧ (byteSub l).length = l.length ∧
      ctrVal (byteSub l) = (ctrVal l + 1) % 255 ^ l.length := by
  unfold byteSub
  induction l with
  | nil => exact ⟨by simp [byteSubAux], rfl, by simp [byteSubAux, ctrVal, Nat.mod_one]⟩
  | cons b l ih =>
    have hb := h b (by simp)
    have hl : ∀ x ∈ l, x ≠ 0 := fun x hx => h x (by simp [hx])
    have hb1 : 1 ≤ b.toNat := by
      rcases Nat.eq_zero_or_pos b.toNat with h0 | h0
      · exact absurd (UInt8.toNat_inj.mp h0) hb
      · exact h0
    have hb2 := b.toNat_lt
    rw [byteSubAux]
    rcases sub_one_spec b hb with ⟨e1, e2, e3⟩ | ⟨e1, e2, e3, e4⟩
    · rw [e2, e3, show (1 : UInt8) &&& 1 = 1 from rfl]
      obtain ⟨i1, i2, i3⟩ := ih hl
      refine ⟨?_, by simp [i2], ?_⟩
      · intro x hx
        rcases List.mem_cons.mp hx with rfl | hx
        · decide
        · exact i1 x hx
      · rw [ctrVal, ctrVal, i3, List.length_cons, Nat.pow_succ]
        subst e1
        show 255 - 255 + _ = (255 - 1 + 255 * ctrVal l + 1) % _
        rw [show 255 - 1 + 255 * ctrVal l + 1 = 255 * (ctrVal l + 1) by omega, Nat.mul_comm (255 ^ _) 255,
          Nat.mul_mod_mul_left]
        omega
    · rw [e2, e4, show (0 : UInt8) &&& 1 = 0 from rfl, byteSubAux_zero l hl]
      have hne : b - 1 ≠ 0 := by
        intro h0
        have := congrArg UInt8.toNat h0
        rw [e3] at this
        have h1 : b.toNat = 1 := by
          have : b.toNat - 1 = 0 := this
          omega
        exact e1 (UInt8.toNat_inj.mp h1)
      refine ⟨?_, by simp, ?_⟩
      · intro x hx
        rcases List.mem_cons.mp hx with rfl | hx
        · exact hne
        · exact hl x hx
      · rw [ctrVal, ctrVal, e3]
        have hlt : ctrVal l < 255 ^ l.length := by
          clear ih
          induction l with
          | nil => simp [ctrVal]
          | cons c l ih =>
            have := ih (fun x hx => h x (by
              rcases List.mem_cons.mp hx with rfl | hx
              · simp
              · simp [hx])) (fun x hx => hl x (by simp [hx]))
            have hc : 1 ≤ c.toNat := by
              rcases Nat.eq_zero_or_pos c.toNat with h0 | h0
              · exact absurd (UInt8.toNat_inj.mp h0) (hl c (by simp))
              · exact h0
            rw [ctrVal, List.length_cons, Nat.pow_succ]
            omega
        rw [Nat.mod_eq_of_lt]
        · have h1 : b.toNat - 1 ≠ 0 := by
            intro h0; exact hne (UInt8.toNat_inj.mp (by rw [e3, h0]; rfl))
          omega
        · rw [List.length_cons, Nat.pow_succ]
          have h1 : b.toNat - 1 ≠ 0 := by
            intro h0; exact hne (UInt8.toNat_inj.mp (by rw [e3, h0]; rfl))
          omega

theorem counter_inv (n k : Nat) :
    (∀ b ∈ counter n k, b ≠ 0) ∧ (counter n k).length = n ∧ ctrVal (counter n k) = k % 255 ^ n := by
  induction k with
  | zero =>
    refine ⟨?_, by simp [counter], ?_⟩
    · intro b hb
      have : b = 0xFF := List.eq_of_mem_replicate hb
      subst this; decide
    · rw [Nat.zero_mod]
      show ctrVal (List.replicate n 0xFF) = 0
      induction n with
      | zero => rfl
      | succ n ih => rw [List.replicate_succ, ctrVal, ih]; rfl
  | succ k ih =>
    have hs : counter n (k + 1) = byteSub (counter n k) := by
      unfold counter; rw [Function.iterate_succ_apply']
    obtain ⟨i1, i2, i3⟩ := ih
    obtain ⟨s1, s2, s3⟩ := byteSub_step (counter n k) i1
    rw [hs]
    refine ⟨s1, by rw [s2, i2], ?_⟩
    rw [s3, i3, i2, Nat.mod_add_mod]

/-- **C43** No counter prefix ever contains a zero byte, at any iteration. -/
theorem C43_no_zero_byte (n k : Nat) : (counter n k).length = n ∧ ∀ b ∈ counter n k, b ≠ 0 :=
  ⟨(counter_inv n k).2.1, (counter_inv n k).1⟩

/-- **C43** The prefixes of the first `255^n` iterations are pairwise distinct; more precisely two
iterations use the same prefix exactly when their numbers agree modulo `255^n`. -/
theorem C43_counter_period (n i j : Nat) : counter n i = counter n j ↔ i % 255 ^ n = j % 255 ^ n := by
  constructor
  · intro h
    rw [← (counter_inv n i).2.2, ← (counter_inv n j).2.2, h]
  · intro h
    have inj : ∀ (l l' : List UInt8), l.length = l'.length → (∀ b ∈ l, b ≠ 0) → (∀ b ∈ l', b ≠ 0) →
        ctrVal l = ctrVal l' → l = l' := by
      intro l
      induction l with
      | nil => intro l' hl _ _ _; exact (List.length_eq_zero_iff.mp hl.symm).symm
      | cons b l ih =>
        intro l' hl h1 h2 hv
        rcases l' with _ | ⟨b', l'⟩
        · simp at hl
        · have hb : 1 ≤ b.toNat := by
            rcases Nat.eq_zero_or_pos b.toNat with h0 | h0
            · exact absurd (UInt8.toNat_inj.mp h0) (h1 b (by simp))
            · exact h0
          have hb' : 1 ≤ b'.toNat := by
            rcases Nat.eq_zero_or_pos b'.toNat with h0 | h0
            · exact absurd (UInt8.toNat_inj.mp h0) (h2 b' (by simp))
            · exact h0
          have := b.toNat_lt
          have := b'.toNat_lt
          rw [ctrVal, ctrVal] at hv
          have e : b.toNat = b'.toNat := by omega
          rw [UInt8.toNat_inj.mp e, ih l' (by simpa using hl) (fun x hx => h1 x (by simp [hx]))
            (fun x hx => h2 x (by simp [hx])) (by omega)]
    obtain ⟨a1, a2, a3⟩ := counter_inv n i
    obtain ⟨b1, b2, b3⟩ := counter_inv n j
    exact inj _ _ (by rw [a2, b2]) a1 b1 (by rw [a3, b3, h])

theorem C43_counter_distinct (n i j : Nat) (hi : i < 255 ^ n) (hj : j < 255 ^ n)
    (h : counter n i = counter n j) : i = j := by
  have := (C43_counter_period n i j).mp h
  rwa [Nat.mod_eq_of_lt hi, Nat.mod_eq_of_lt hj] at this

/-! ### the chaining hash -/

theorem chain_state (kdf : List UInt8 → List UInt8) (values : List (List UInt8)) :
    values.foldl (fun (st : List UInt8 × List UInt8) b => (kdf (st.2 ++ b ++ st.1), byteSub st.2))
      (List.replicate 32 0, List.replicate 32 0xFF) =
    (chainHash kdf values, counter 32 values.length) := by
  induction values using List.reverseRecOn with
  | nil => rfl
  | append_singleton vs v ih =>
    unfold chainHash
    rw [List.foldl_append, ih]
    simp only [List.foldl_cons, List.foldl_nil, List.length_append, List.length_singleton]
    refine Prod.ext rfl ?_
    show byteSub (counter 32 vs.length) = _
    unfold counter; rw [Function.iterate_succ_apply']

/-- **C43** The output after one more value is the KDF of the current counter prefix, the value and the
previous output. -/
theorem C43_chain_step (kdf : List UInt8 → List UInt8) (vs : List (List UInt8)) (v : List UInt8) :
    chainHash kdf (vs ++ [v]) = kdf (counter 32 vs.length ++ v ++ chainHash kdf vs) := by
  conv_lhs => unfold chainHash
  rw [List.foldl_append, chain_state]
  rfl

theorem chain_length (kdf : List UInt8 → List UInt8) (hk : ∀ x, (kdf x).length = 32)
    (vs : List (List UInt8)) : (chainHash kdf vs).length = 32 := by
  induction vs using List.reverseRecOn with
  | nil => simp [chainHash]
  | append_singleton vs v _ => rw [C43_chain_step, hk]

theorem chain_binding_eq (kdf : List UInt8 → List UInt8) (hk : ∀ x, (kdf x).length = 32)
    (vs ws : List (List UInt8)) (hl : vs.length = ws.length) (h : chainHash kdf vs = chainHash kdf ws) :
    vs = ws ∨ ∃ x y, x ≠ y ∧ kdf x = kdf y := by
  induction vs using List.reverseRecOn generalizing ws with
  | nil => exact Or.inl (List.length_eq_zero_iff.mp hl.symm).symm
  | append_singleton vs v ih =>
    rcases List.eq_nil_or_concat ws with rfl | ⟨ws, w, rfl⟩
    · simp at hl
    · rw [List.concat_eq_append] at *
      simp only [List.length_append, List.length_singleton, Nat.add_right_cancel_iff] at hl
      rw [C43_chain_step, C43_chain_step, hl] at h
      by_cases hx : counter 32 ws.length ++ v ++ chainHash kdf vs =
          counter 32 ws.length ++ w ++ chainHash kdf ws
      · obtain ⟨h1, h2⟩ := List.append_inj' hx (by rw [chain_length kdf hk, chain_length kdf hk])
        have hv := List.append_cancel_left h1
        rcases ih ws hl h2 with h3 | h3
        · exact Or.inl (by rw [h3, hv])
        · exact Or.inr h3
      · exact Or.inr ⟨_, _, hx, h⟩

/-- **C43** The chaining hash binds the whole list of values, including how many there are and where
each one ends: two different non-empty lists (of fewer than `255^32` values) with the same output
exhibit a collision of the KDF. -/
theorem C43_hash_binding (kdf : List UInt8 → List UInt8) (hk : ∀ x, (kdf x).length = 32)
    (vs ws : List (List UInt8)) (hv : vs ≠ []) (hw : ws ≠ []) (hvl : vs.length ≤ 255 ^ 32)
    (hwl : ws.length ≤ 255 ^ 32) (h : chainHash kdf vs = chainHash kdf ws) :
    vs = ws ∨ ∃ x y, x ≠ y ∧ kdf x = kdf y := by
  by_cases hl : vs.length = ws.length
  · exact chain_binding_eq kdf hk vs ws hl h
  · right
    rcases List.eq_nil_or_concat vs with rfl | ⟨vs, v, rfl⟩
    · exact absurd rfl hv
    rcases List.eq_nil_or_concat ws with rfl | ⟨ws, w, rfl⟩
    · exact absurd rfl hw
    simp only [List.concat_eq_append] at *
    simp only [List.length_append, List.length_singleton] at hl hvl hwl
    rw [C43_chain_step, C43_chain_step] at h
    generalize hN : 255 ^ 32 = N at *
    refine ⟨_, _, ?_, h⟩
    intro hx
    rw [List.append_assoc, List.append_assoc] at hx
    have h1 := (List.append_inj hx (by rw [(counter_inv 32 _).2.1, (counter_inv 32 _).2.1])).1
    have := C43_counter_distinct 32 vs.length ws.length (by rw [hN]; omega) (by rw [hN]; omega) h1
    omega

/-- **C43** `FiatShamir` binds the absolute values of its arguments; (negative) it does not see signs. -/
theorem C43_fiat_shamir_binding (kdf : List UInt8 → List UInt8) (hk : ∀ x, (kdf x).length = 32)
    (vs ws : List Int) (hv : vs ≠ []) (hw : ws ≠ []) (hvl : vs.length ≤ 255 ^ 32)
    (hwl : ws.length ≤ 255 ^ 32) (h : fiatShamir kdf vs = fiatShamir kdf ws) :
    vs.map Int.natAbs = ws.map Int.natAbs ∨ ∃ x y, x ≠ y ∧ kdf x = kdf y := by
  unfold fiatShamir at h
  rcases C43_hash_binding kdf hk _ _ (by simpa using hv) (by simpa using hw)
    (by rw [List.length_map]; exact hvl) (by rw [List.length_map]; exact hwl) h with h | h
  · left
    have hinj : Function.Injective (fun n : Nat => natToBE n) := fun a b hab => natToBE_inj hab
    have h' : (vs.map Int.natAbs).map (fun n => natToBE n) = (ws.map Int.natAbs).map (fun n => natToBE n) := by
      rw [List.map_map, List.map_map]; exact h
    exact hinj.list_map h'
  · exact Or.inr h

theorem C43_fiat_shamir_sign (kdf : List UInt8 → List UInt8) (vs : List Int) :
    fiatShamir kdf (vs.map fun v => -v) = fiatShamir kdf vs := by
  unfold fiatShamir
  rw [List.map_map]
  congr 1
  apply List.map_congr_left
  intro v _
  show natToBE (-v).natAbs = _
  rw [Int.natAbs_neg]

/-! ### examples -/

example : counter 2 0 = [255, 255] ∧ counter 2 254 = [1, 255] ∧ counter 2 255 = [255, 254] := by
  decide +kernel
example : byteSub [1, 1] = [255, 255] := by decide +kernel
example : ∃ kdf : List UInt8 → List UInt8, ∀ x, (kdf x).length = 32 :=
  ⟨fun x => List.replicate 32 x.sum, by simp⟩

end Verif.Hash
