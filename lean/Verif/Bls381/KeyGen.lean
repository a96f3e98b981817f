import Verif.Bls381.SigFull
import Verif.Kdf.Hmac

/-!
# C108: BLS key generation (crypto/signatures/bls/bls_sig/lib.go, usual_bls.go, tiny_bls.go)
-/

set_option linter.unusedSectionVars false
set_option maxRecDepth 20000

namespace Verif.Bls381.Sig
open Verif.Native Verif.Bytes Verif.Kdf

/-- A Go slice of bytes: what its array holds from its first element up to its capacity, and its length. -/
structure Slice where
  arr : List UInt8
  len : Nat
  le : len ≤ arr.length

/-- The elements of a slice. -/
def Slice.elems (s : Slice) : List UInt8 := s.arr.take s.len

/-- `append(s, b)`: the elements of the result, and the array of `s` afterwards, in which the new element is stored if there is room. -/
def Slice.append (s : Slice) (b : UInt8) : List UInt8 × List UInt8 :=
  (s.elems ++ [b], if s.len < s.arr.length then s.arr.set s.len b else s.arr)

/-- `SecretKey.Generate` (crypto/signatures/bls/bls_sig/lib.go:65-97): the key, and the array of the argument afterwards.  `sha` is
`sha256.New`; writing to a hash takes every byte. -/
def generate (sha : Hash.HashFn) (ikm : Slice) : Res L4 × List UInt8 :=
  if ikm.len < 32 then (.err, ikm.arr)
  else
    let salt := sha.h (strBytes "BLS-SIG-KEYGEN-SALT-")
    let a := ikm.append 0
    (do
      let okm ← hkdfRead sha a.1 salt [0, 48] 48
      Res.ok (Field.setBytesWide Fq.impl.A Fq.impl.P (okm.reverse ++ List.replicate 16 0)), a.2)

variable {KA SA : Type}

/-- `generateKeysWithSeed` (crypto/signatures/bls/bls_sig/usual_bls.go:50-61), `generateKeysWithSeedVt`
(crypto/signatures/bls/bls_sig/tiny_bls.go:50-61), `KeygenWithSeed` of the schemes. -/
def generateKeysWithSeed (S : Scheme KA SA) (sha : Hash.HashFn) (ikm : Slice) : Res (KA × L4) := do
  let sk ← (generate sha ikm).1
  let pk ← getPublicKey S sk
  Res.ok (pk, sk)

/-- What `rand.Read` did to a fresh buffer. -/
structure RandRead where
  buf : List UInt8
  n : Nat
  failed : Bool

/-- `generateRandBytes` (crypto/signatures/bls/bls_sig/lib.go:53-62) with a count of 32. -/
def generateRandBytes (rd : RandRead) : Res Slice :=
  if rd.failed then .err
  else if rd.n ≠ 32 then .err
  else .ok ⟨fit 32 rd.buf, 32, by rw [fit_length]⟩

/-- `generateKeys` (crypto/signatures/bls/bls_sig/usual_bls.go:40-48), `Keygen` of the schemes. -/
def generateKeys (S : Scheme KA SA) (sha : Hash.HashFn) (rd : RandRead) : Res (KA × L4) := do
  let ikm ← generateRandBytes rd
  generateKeysWithSeed S sha ikm

/-! ## Specification -/

/-- SPEC: the salts of `KeyGen` in draft-irtf-cfrg-bls-signature-04, 2.3: `salt = "BLS-SIG-KEYGEN-SALT-"`, then `salt = H(salt)` before every
attempt. -/
def saltN (sha : Hash.HashFn) : Nat → List UInt8
  | 0 => strBytes "BLS-SIG-KEYGEN-SALT-"
  | i + 1 => sha.h (saltN sha i)

/-- SPEC: the attempt number `i` (from 0): `OS2IP(OKM) mod r` with `PRK = HKDF-Extract(salt, IKM ‖ I2OSP(0, 1))` and
`OKM = HKDF-Expand(PRK, key_info ‖ I2OSP(L, 2), L)`, `L = 48` and no `key_info`. -/
def attempt (sha : Hash.HashFn) (ikm : List UInt8) (i : Nat) : Nat :=
  beToNat (rfcHkdf sha (ikm ++ [0]) (saltN sha (i + 1)) [0, 48] 48) % Fq.q

/-- SPEC: `KeyGen` returns the first attempt that is not zero. -/
def IsKeyGen (sha : Hash.HashFn) (ikm : List UInt8) (v : Nat) : Prop :=
  ∃ i, v = attempt sha ikm i ∧ v ≠ 0 ∧ ∀ j < i, attempt sha ikm j = 0

/-! ## Theorems -/

theorem attempt_cast (sha : Hash.HashFn) (ikm : List UInt8) :
    ((attempt sha ikm 0 : Nat) : ZMod Fq.q) = (beToNat (rfcHkdf sha (ikm ++ [0]) (sha.h (strBytes "BLS-SIG-KEYGEN-SALT-")) [0, 48] 48) : ZMod Fq.q) :=
  ZMod.natCast_mod _ _

/-- **C108.** `Generate` refuses less than 32 bytes and otherwise gives the first attempt of the draft's key generation; the result depends on the
bytes of the argument only. -/
theorem C108_generate (sha : Hash.HashFn) (hb : sha.size ≤ sha.block) (ikm : Slice) :
    (ikm.len < 32 → (generate sha ikm).1 = .err) ∧
    (32 ≤ ikm.len → ∃ sk, (generate sha ikm).1 = .ok sk ∧ Native.Rep Fq.q sk (attempt sha ikm.elems 0 : ZMod Fq.q)) ∧
    ∀ ikm' : Slice, ikm'.elems = ikm.elems → (generate sha ikm').1 = (generate sha ikm).1 := by
  refine ⟨fun h => ?_, fun h => ?_, fun ikm' he => ?_⟩
  · unfold generate
    rw [if_pos h]
  · unfold generate
    rw [if_neg (by omega)]
    dsimp only
    rw [hkdfRead_spec sha hb, if_neg (by have := sha.size_pos; omega), Res.bind_ok]
    refine ⟨_, rfl, ?_⟩
    rw [attempt_cast]
    have := (Fq.C90_scalar_wide (rfcHkdf sha (ikm.elems ++ [0]) (sha.h (strBytes "BLS-SIG-KEYGEN-SALT-")) [0, 48] 48)).2.2 (by rw [rfcHkdf_length]; decide)
    unfold Scalar.ofXmd at this
    rw [rfcHkdf_length] at this
    exact this
  · have hl : ikm'.len = ikm.len := by
      have := congrArg List.length he
      unfold Slice.elems at this
      rwa [List.length_take, List.length_take, Nat.min_eq_left ikm'.le, Nat.min_eq_left ikm.le] at this
    unfold generate Slice.append
    rw [hl, he]
    split <;> rfl

/-- **C108.** If the first attempt is not zero, the key is that of the draft's `KeyGen`, and `KeygenWithSeed` returns it with its public key, in
either scheme; the pair signs and verifies with the hash of the curve (C103). -/
theorem C108_keygen_partial (L : HashLib) (hL : L.sha256.size = 32) (hb : L.sha256.size ≤ L.sha256.block) (ikm : Slice) (h : 32 ≤ ikm.len)
    (h0 : attempt L.sha256 ikm.elems 0 ≠ 0) :
    IsKeyGen L.sha256 ikm.elems (attempt L.sha256 ikm.elems 0) ∧
    (∃ x : Key1, generateKeysWithSeed (usual (hash2 L)) L.sha256 ikm = .ok (x.pk, x.sk) ∧ x.k.val = attempt L.sha256 ikm.elems 0 ∧
      ∀ m d, d.length ≤ 255 → Good2 L m d → ∃ T sig, IsHash2 L m d T ∧ basicSign (usual (hash2 L)) d x.sk (some m) = .ok sig ∧
        (T ≠ 0 → basicVerify (usual (hash2 L)) d x.pk (some m) sig = .ok true)) ∧
    (∃ x : Key2, generateKeysWithSeed (tiny (hash1 L)) L.sha256 ikm = .ok (x.pk, x.sk) ∧ x.k.val = attempt L.sha256 ikm.elems 0 ∧
      ∀ m d, d.length ≤ 255 → Good1 L m d → ∃ T sig, IsHash1 L m d T ∧ basicSign (tiny (hash1 L)) d x.sk (some m) = .ok sig ∧
        (T ≠ 0 → basicVerify (tiny (hash1 L)) d x.pk (some m) sig = .ok true)) := by
  obtain ⟨sk, hs, hr⟩ := (C108_generate L.sha256 hb ikm).2.1 h
  have hlt : attempt L.sha256 ikm.elems 0 < Fq.q := Nat.mod_lt _ (by decide)
  generalize ha : attempt L.sha256 ikm.elems 0 = a at *
  have hv : ((a : Nat) : ZMod Fq.q).val = a := ZMod.val_natCast_of_lt hlt
  have hk : ((a : Nat) : ZMod Fq.q) ≠ 0 := by
    intro e
    rw [e, ZMod.val_zero] at hv
    exact h0 hv.symm
  refine ⟨⟨0, ha.symm, h0, fun j hj => absurd hj (Nat.not_lt_zero j)⟩, ?_, ?_⟩
  · obtain ⟨pk, e1, e2⟩ := (C100_usual_public_key (patch2_hash L) hr).1 hk
    have e3 : getPublicKey (usual (hash2 L)) sk = .ok pk := e1
    refine ⟨⟨sk, _, pk, hr, hk, e2⟩, ?_, hv, fun m d hd hg => ?_⟩
    · unfold generateKeysWithSeed
      rw [hs, Res.bind_ok, e3, Res.bind_ok]
    · obtain ⟨T, sig, h1, h2, -, h3⟩ := C103_usual_sign_partial (by omega) hd hg ⟨sk, _, pk, hr, hk, e2⟩
      exact ⟨T, sig, h1, h2, fun hT => (h3 hT).1⟩
  · obtain ⟨pk, e1, e2⟩ := (C100_tiny_public_key (patch1_hash L) hr).1 hk
    have e3 : getPublicKey (tiny (hash1 L)) sk = .ok pk := e1
    refine ⟨⟨sk, _, pk, hr, hk, e2⟩, ?_, hv, fun m d hd hg => ?_⟩
    · unfold generateKeysWithSeed
      rw [hs, Res.bind_ok, e3, Res.bind_ok]
    · obtain ⟨T, sig, h1, h2, -, h3⟩ := C103_tiny_sign_partial (by omega) hd hg ⟨sk, _, pk, hr, hk, e2⟩
      exact ⟨T, sig, h1, h2, fun hT => (h3 hT).1⟩

/-- **C108.** If the first attempt is zero, `Generate` returns the key zero and `KeygenWithSeed` fails, where the draft goes on to the next
attempt. -/
theorem C108_zero_attempt_violated (L : HashLib) (hb : L.sha256.size ≤ L.sha256.block) (ikm : Slice) (h : 32 ≤ ikm.len)
    (h0 : attempt L.sha256 ikm.elems 0 = 0) :
    (∃ sk, (generate L.sha256 ikm).1 = .ok sk ∧ Native.Rep Fq.q sk (0 : ZMod Fq.q)) ∧
    generateKeysWithSeed (usual (hash2 L)) L.sha256 ikm = .err ∧ generateKeysWithSeed (tiny (hash1 L)) L.sha256 ikm = .err ∧
    ∀ v, IsKeyGen L.sha256 ikm.elems v → ∀ (sk : L4), (generate L.sha256 ikm).1 = .ok sk → ¬ Native.Rep Fq.q sk (v : ZMod Fq.q) := by
  obtain ⟨sk, hs, hr⟩ := (C108_generate L.sha256 hb ikm).2.1 h
  rw [h0, Nat.cast_zero] at hr
  refine ⟨⟨sk, hs, hr⟩, ?_, ?_, ?_⟩
  · have e := (C100_usual_public_key (patch2_hash L) hr).2 rfl
    have e3 : getPublicKey (usual (hash2 L)) sk = .err := e
    unfold generateKeysWithSeed
    rw [hs, Res.bind_ok, e3]
    rfl
  · have e := (C100_tiny_public_key (patch1_hash L) hr).2 rfl
    have e3 : getPublicKey (tiny (hash1 L)) sk = .err := e
    unfold generateKeysWithSeed
    rw [hs, Res.bind_ok, e3]
    rfl
  · rintro v ⟨i, h1, h2, -⟩ sk' hs' hr'
    rw [hs] at hs'
    cases hs'
    have hlt : v < Fq.q := by rw [h1]; exact Nat.mod_lt _ (by decide)
    have e : (v : ZMod Fq.q) = 0 := (Fq.lawful.unit).mul_right_cancel (hr'.2.symm.trans hr.2)
    have hv := ZMod.val_natCast_of_lt hlt
    rw [e, ZMod.val_zero] at hv
    exact h2 hv.symm

/-- **C108.** `Generate` overwrites the byte after its argument in the caller's array if there is one, and nothing else. -/
theorem C108_overwrites_violated (sha : Hash.HashFn) (ikm : Slice) (h : 32 ≤ ikm.len) (hc : ikm.len < ikm.arr.length) :
    (generate sha ikm).2 = ikm.arr.set ikm.len 0 ∧ (ikm.arr[ikm.len] ≠ 0 → (generate sha ikm).2 ≠ ikm.arr) ∧
    (generate sha ikm).2.take ikm.len = ikm.elems := by
  have e : (generate sha ikm).2 = ikm.arr.set ikm.len 0 := by
    unfold generate Slice.append
    rw [if_neg (by omega)]
    dsimp only
    rw [if_pos hc]
  refine ⟨e, fun hne he => hne ?_, ?_⟩
  · rw [e] at he
    have := congrArg (fun l => l[ikm.len]?) he
    simpa [hc] using this.symm
  · rw [e, List.take_set_of_le (Nat.le_refl _)]
    rfl

/-- **C108.** `Keygen` fails if the random bytes could not be read in full, and otherwise is `KeygenWithSeed` of the 32 bytes read. -/
theorem C108_keygen_random (S : Scheme KA SA) (sha : Hash.HashFn) (rd : RandRead) :
    (rd.failed = true ∨ rd.n ≠ 32 → generateKeys S sha rd = .err) ∧
    (rd.failed = false → rd.n = 32 → rd.buf.length = 32 → ∃ ikm : Slice, ikm.elems = rd.buf ∧ generateKeys S sha rd = generateKeysWithSeed S sha ikm) := by
  constructor
  · intro h
    unfold generateKeys generateRandBytes
    by_cases h1 : rd.failed = true
    · rw [if_pos h1]; rfl
    · rw [if_neg h1, if_pos (h.resolve_left h1)]; rfl
  · intro h1 h2 h3
    refine ⟨⟨fit 32 rd.buf, 32, by rw [fit_length]⟩, ?_, ?_⟩
    · unfold Slice.elems
      dsimp only
      rw [fit_of_le (by omega), h3]
      simp [← h3]
    · unfold generateKeys generateRandBytes
      rw [if_neg (by rw [h1]; decide), if_neg (not_not_intro h2)]
      rfl

/-! ## The hypotheses are met -/

/-- A slice with one byte to spare. -/
def seed33 : Slice := ⟨List.replicate 33 1, 32, by decide⟩

example : attempt (constHash 1) seed33.elems 0 ≠ 0 ∧ attempt (constHash 0) seed33.elems 0 = 0 ∧ 32 ≤ seed33.len ∧
    seed33.arr[32]'(by decide) ≠ 0 ∧ (constHash 1).size ≤ (constHash 1).block := by decide +kernel

example : ∃ x : Key1, generateKeysWithSeed (usual (hash2 (HashLib.any (constHash 1)))) (constHash 1) seed33 = .ok (x.pk, x.sk) := by
  obtain ⟨-, ⟨x, h, -⟩, -⟩ := C108_keygen_partial (HashLib.any (constHash 1)) rfl (by decide) seed33 (by decide) (by decide +kernel)
  exact ⟨x, h⟩

end Verif.Bls381.Sig
