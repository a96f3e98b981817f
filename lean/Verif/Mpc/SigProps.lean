import Verif.Mpc.Props

/-! # Property C53: serialisation of signatures, and a complete toy life cycle for C31 -/

set_option linter.unusedSectionVars false

namespace Verif.Mpc
open Verif Verif.OT Verif.Bytes

theorem pad_eq (n k : Nat) (h : n < 256 ^ k) :
    List.replicate (k - (natToBE n).length) 0 ++ natToBE n = natToBEfix k n ∧ (natToBE n).length ≤ k := by
  have hl : (natToBE n).length ≤ k := by
    unfold natToBE
    rw [length_natToBEfix]
    exact (byteLen_le_iff n k).2 h
  refine ⟨?_, hl⟩
  apply beToNat_inj
  · rw [List.length_append, List.length_replicate, length_natToBEfix]; omega
  · have hz : ∀ j, beToNat (List.replicate j 0) = 0 := by
      intro j
      induction j with
      | zero => rfl
      | succ j ih => rw [List.replicate_succ, beToNat_cons, ih]; simp
    rw [beToNat_append, hz, beToNat_natToBE, beToNat_natToBEfix, Nat.mod_eq_of_lt h]
    omega

/-- **C53** Every signature with `V < 256`, `R < 2^256` and `S < 2^264` is serialised to 66 bytes
(`V`, `R` in 32 bytes, `S` in 33 bytes, big-endian), from which the same signature is read. -/
theorem C53_roundtrip (s : Dkls.Sign.Signature) (hV : s.V < 256) (hR : s.R < 2 ^ 256) (hS : s.S < 2 ^ 264) :
    serializeSig s = .ok (UInt8.ofNat s.V :: (natToBEfix 32 s.R ++ natToBEfix 33 s.S)) ∧
    deserializeSig (UInt8.ofNat s.V :: (natToBEfix 32 s.R ++ natToBEfix 33 s.S)) = .ok s := by
  obtain ⟨r1, r2⟩ := pad_eq s.R 32 (by have : (256 : Nat) ^ 32 = 2 ^ 256 := by norm_num
                                       omega)
  obtain ⟨s1, s2⟩ := pad_eq s.S 33 (by have : (256 : Nat) ^ 33 = 2 ^ 264 := by decide +kernel
                                       omega)
  constructor
  · unfold serializeSig
    dsimp only
    rw [if_neg (by omega)]
    congr 1
    rw [← r1, ← s1]
    have e1 : (UInt8.ofNat s.V :: List.replicate 65 0).take (33 - (natToBE s.R).length) =
        UInt8.ofNat s.V :: List.replicate (32 - (natToBE s.R).length) 0 := by
      rw [show 33 - (natToBE s.R).length = (32 - (natToBE s.R).length) + 1 by omega, List.take_succ_cons, List.take_replicate]
      congr 2
      omega
    have e2 : (UInt8.ofNat s.V :: List.replicate 65 (0 : UInt8)).drop 33 = List.replicate 33 0 := rfl
    rw [e1, e2]
    have e3 : (UInt8.ofNat s.V :: List.replicate (32 - (natToBE s.R).length) 0 ++ natToBE s.R).length = 33 := by
      rw [List.length_append, List.length_cons, List.length_replicate]; omega
    rw [List.take_append, e3, List.take_of_length_le (by rw [e3]; omega), List.take_replicate]
    rw [show min (66 - (natToBE s.S).length - 33) 33 = 33 - (natToBE s.S).length by omega]
    simp
  · unfold deserializeSig
    rw [if_neg (by simp [length_natToBEfix])]
    congr 1
    have l1 := length_natToBEfix 32 s.R
    have d1 : ((UInt8.ofNat s.V :: (natToBEfix 32 s.R ++ natToBEfix 33 s.S)).drop 1).take 32 = natToBEfix 32 s.R := by
      rw [List.drop_one, List.tail_cons, List.take_append_of_le_length (by omega), List.take_of_length_le (by omega)]
    have d2 : (UInt8.ofNat s.V :: (natToBEfix 32 s.R ++ natToBEfix 33 s.S)).drop 33 = natToBEfix 33 s.S := by
      rw [List.drop_succ_cons, List.drop_append_of_le_length (by omega), List.drop_of_length_le (by omega), List.nil_append]
    rw [d1, d2, beToNat_natToBEfix, beToNat_natToBEfix, List.getD_cons_zero]
    have : (UInt8.ofNat s.V).toNat = s.V := by simp; omega
    rw [this, Nat.mod_eq_of_lt, Nat.mod_eq_of_lt]
    · have : (256 : Nat) ^ 33 = 2 ^ 264 := by decide +kernel
      omega
    · have : (256 : Nat) ^ 32 = 2 ^ 256 := by norm_num
      omega

/-- **C53** Serialisation is canonical: a 66 byte string is read as a signature that serialises to the same string,
so no two strings denote the same signature; strings of other lengths are refused. -/
theorem C53_canonical (b : List UInt8) :
    (b.length ≠ 66 → deserializeSig b = .err) ∧
    (b.length = 66 → ∃ s, deserializeSig b = .ok s ∧ serializeSig s = .ok b) := by
  constructor
  · intro h; unfold deserializeSig; rw [if_pos h]
  · intro h
    refine ⟨⟨(b.getD 0 0).toNat, beToNat ((b.drop 1).take 32), beToNat (b.drop 33)⟩, by
      unfold deserializeSig; rw [if_neg (not_not.2 h)], ?_⟩
    have l1 : ((b.drop 1).take 32).length = 32 := by rw [List.length_take, List.length_drop]; omega
    have l2 : (b.drop 33).length = 33 := by rw [List.length_drop]; omega
    have b1 := beToNat_lt ((b.drop 1).take 32)
    have b2 := beToNat_lt (b.drop 33)
    rw [l1] at b1
    rw [l2] at b2
    rw [(C53_roundtrip _ (UInt8.toNat_lt _) (by
      have : (256 : Nat) ^ 32 = 2 ^ 256 := by norm_num
      simp only; omega) (by
      have : (256 : Nat) ^ 33 = 2 ^ 264 := by decide +kernel
      simp only; omega)).1]
    dsimp only
    have f1 := natToBEfix_beToNat ((b.drop 1).take 32)
    have f2 := natToBEfix_beToNat (b.drop 33)
    rw [l1] at f1
    rw [l2] at f2
    rw [f1, f2, UInt8.ofNat_toNat]
    congr 1
    cases b with
    | nil => simp at h
    | cons x b =>
      rw [List.getD_cons_zero, List.drop_one, List.tail_cons, show 33 = 32 + 1 from rfl, List.drop_succ_cons, List.take_append_drop]

/-- a signature with short `R` and `S` -/
example : serializeSig ⟨1, 0x0102, 0x0304⟩ =
    .ok (1 :: (List.replicate 30 0 ++ [1, 2] ++ List.replicate 31 0 ++ [3, 4])) := by decide +kernel

/-- **C53** (corner case) An `R` of 33 bytes overwrites `V`: the serialisation does not report it and reads back as a
different signature.  (ECDSA's `R` is below the group order, so a signature of `C30` never has such an `R`.) -/
theorem C53_wide_r_overwrites_v : ∃ b s, serializeSig ⟨1, 2 ^ 263, 5⟩ = .ok b ∧ deserializeSig b = .ok s ∧ s.V = 128 ∧ s.R = 0 := by
  exact ⟨128 :: (List.replicate 64 0 ++ [5]), ⟨128, 0, 5⟩, by decide +kernel, by decide +kernel, rfl, rfl⟩

/-! ### a complete life cycle for C31 -/

local instance fact257 : Fact (Nat.Prime 257) := ⟨by norm_num⟩

open Verif.Dkls Verif.Dkls.Sign

def toySR : SignRand (ZMod 257) where
  aliceSeed := fun _ => 1
  bobSeed := fun _ => 2
  kB := 3
  gamma0 := fun i => UInt8.ofNat i
  rnd0 := fun i => UInt8.ofNat (3 * i)
  gamma1 := fun i => UInt8.ofNat (5 * i)
  rnd1 := fun i => UInt8.ofNat (7 * i)
  kPrime := 7
  kSch := 9
  phi := 20
  hat0 := 30
  hat1 := 40

theorem toy_dkg_good : Dkg.Good toyS.toMulEnv.toEnv toyRand where
  proofA := by decide +kernel
  proofB := by decide +kernel
  proofOt := by decide +kernel
  masked := by decide +kernel

theorem toy_refresh_good : Refresh.Good toyS.toMulEnv.toEnv toyRandR where
  proofOt := by decide +kernel
  masked := by decide +kernel

/-- key generation, two refreshes, one signature -/
example : ∃ ks ks' sig, generateKss toyS.toMulEnv.toEnv toyRand = .ok ks ∧
    runRefreshes toyS.toMulEnv.toEnv ks [toyRandR, toyRandR] = .ok ks' ∧
    runSign toyS ks' [1, 2, 3] toySR = .ok sig ∧
    ecdsaVerify toyS ks.1.publicKey (toyS.msgHash [1, 2, 3]) sig.R sig.S = true := by
  have hR : hashPoint toyS ((7 : ZMod 257) • (3 : ZMod 257) • toyS.g) = .ok 67 := by decide +kernel
  obtain ⟨ks, ks', k, d, s, h1, h2, hp, -, -, -, hk, hd, hs, h3⟩ := C31_lifecycle_complete toyS toyOdd toy_curve toyRand
    toy_dkg_good [toyRandR, toyRandR] (by
      intro r hr
      simp only [List.mem_cons, List.not_mem_nil, or_false, or_self] at hr
      subst hr
      exact ⟨toy_refresh_good, 30, by decide, by decide +kernel⟩)
    [1, 2, 3] (toyS_decodes _ _) toySR (by decide) (by
      intro x hx
      have : hashPoint toyS ((7 : ZMod 257) • (3 : ZMod 257) • toyS.g) = .ok x := hx
      rw [hR] at this
      cases this
      show (67 : ZMod 257) + 7 ≠ 0
      decide)
  have hd4 : toyS.sc.setBytes (toyS.msgHash [1, 2, 3]) = some 10 := by decide +kernel
  rw [hd4] at hd
  cases hd
  have hx : ∀ k : ZMod 257, k ≠ 0 → toyS.xc (k • toyS.g) ≠ 0 := by decide +kernel
  have hz : ∀ k : ZMod 257, k ≠ 0 → 10 + (toyS.xc (k • toyS.g) : ZMod 257) * (5 * 11) ≠ 0 := by decide +kernel
  obtain ⟨sig, h4, -, -, h5⟩ := h3 (hx k hk) (by
    rintro rfl
    rw [zero_mul] at hs
    exact hz k hk hs.symm)
  exact ⟨ks, ks', sig, h1, h2, h4, h5⟩

end Verif.Mpc
