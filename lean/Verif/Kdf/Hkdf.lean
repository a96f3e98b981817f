import Verif.Kdf.Hmac
import Verif.Hash.Props

/-! C107: key derivation (crypto/subtle/hkdf.go). -/

set_option linter.unusedSectionVars false

namespace Verif.Kdf.Hkdf
open Verif Verif.Hash Verif.Kdf

/-- The hash functions of the standard library, with their sizes. -/
structure Lib where
  sha1 : HashFn
  sha224 : HashFn
  sha256 : HashFn
  sha384 : HashFn
  sha512 : HashFn
  s1 : sha1.size = 20 ∧ sha1.block = 64
  s224 : sha224.size = 28 ∧ sha224.block = 64
  s256 : sha256.size = 32 ∧ sha256.block = 64
  s384 : sha384.size = 48 ∧ sha384.block = 128
  s512 : sha512.size = 64 ∧ sha512.block = 128

/-- `GetHashDigestSize` and the table `hashDigestSize` (crypto/subtle/subtle.go:16-33). -/
def getHashDigestSize (name : String) : Option UInt32 :=
  if name = "SHA1" then some 20
  else if name = "SHA224" then some 28
  else if name = "SHA256" then some 32
  else if name = "SHA384" then some 48
  else if name = "SHA512" then some 64
  else none

/-- `GetHashFunc` (crypto/subtle/subtle.go:71-87). -/
def getHashFunc (L : Lib) (name : String) : Option HashFn :=
  if name = "SHA1" then some L.sha1
  else if name = "SHA224" then some L.sha224
  else if name = "SHA256" then some L.sha256
  else if name = "SHA384" then some L.sha384
  else if name = "SHA512" then some L.sha512
  else none

/-- `validateHKDFParams` (crypto/subtle/hkdf.go:18-32). -/
def validateHKDFParams (name : String) (tagSize : UInt32) : Res Unit :=
  match getHashDigestSize name with
  | none => .err
  | some digestSize =>
    if tagSize > 255 * digestSize then .err
    else if tagSize < 10 then .err
    else .ok ()

/-- `ComputeHKDF` (crypto/subtle/hkdf.go:34-56).  `io.ReadFull` gets all bytes or the error of the one `Read` that is needed. -/
def computeHKDF (L : Lib) (hashAlg : String) (key salt info : List UInt8) (tagSize : UInt32) : Res (List UInt8) := do
  let _ ← validateHKDFParams hashAlg tagSize
  match getHashFunc L hashAlg with
  | none => .err
  | some H =>
    let salt := if salt.length = 0 then List.replicate H.size 0 else salt
    hkdfRead H key salt info tagSize.toNat

/-! ## Theorems -/

/-- SPEC: the hash functions the module knows, by name. -/
inductive Known (L : Lib) : String → HashFn → Prop
  | sha1 : Known L "SHA1" L.sha1
  | sha224 : Known L "SHA224" L.sha224
  | sha256 : Known L "SHA256" L.sha256
  | sha384 : Known L "SHA384" L.sha384
  | sha512 : Known L "SHA512" L.sha512

theorem known_lookup {L : Lib} {name : String} {H : HashFn} (h : Known L name H) :
    getHashFunc L name = some H ∧ H.size ≤ H.block ∧ ∃ d, getHashDigestSize name = some d ∧ d.toNat = H.size ∧ (255 * d).toNat = 255 * H.size := by
  cases h with
  | sha1 => exact ⟨rfl, by rw [L.s1.1, L.s1.2]; decide, 20, rfl, by rw [L.s1.1]; rfl, by rw [L.s1.1]; rfl⟩
  | sha224 => exact ⟨rfl, by rw [L.s224.1, L.s224.2]; decide, 28, rfl, by rw [L.s224.1]; rfl, by rw [L.s224.1]; rfl⟩
  | sha256 => exact ⟨rfl, by rw [L.s256.1, L.s256.2]; decide, 32, rfl, by rw [L.s256.1]; rfl, by rw [L.s256.1]; rfl⟩
  | sha384 => exact ⟨rfl, by rw [L.s384.1, L.s384.2]; decide, 48, rfl, by rw [L.s384.1]; rfl, by rw [L.s384.1]; rfl⟩
  | sha512 => exact ⟨rfl, by rw [L.s512.1, L.s512.2]; decide, 64, rfl, by rw [L.s512.1]; rfl, by rw [L.s512.1]; rfl⟩

theorem lookup_known {L : Lib} {name : String} (h : ∀ H, ¬ Known L name H) : getHashDigestSize name = none := by
  unfold getHashDigestSize
  have f : ∀ (n : String) (H : HashFn), Known L n H → name ≠ n := fun n H k e => h H (e ▸ k)
  rw [if_neg (f _ _ .sha1), if_neg (f _ _ .sha224), if_neg (f _ _ .sha256), if_neg (f _ _ .sha384), if_neg (f _ _ .sha512)]

/-- **C107.** For a known hash function and a length from 10 bytes to 255 digests the result is the output of RFC 5869, with a salt of zeros
where none is given; everything else is an error; nothing panics. -/
theorem C107_exact (L : Lib) (name : String) (key salt info : List UInt8) (n : UInt32) :
    (∀ H, Known L name H → 10 ≤ n.toNat → n.toNat ≤ 255 * H.size →
      computeHKDF L name key salt info n = .ok (rfcHkdf H key (if salt = [] then List.replicate H.size 0 else salt) info n.toNat)) ∧
    ((∀ H, Known L name H → n.toNat < 10 ∨ 255 * H.size < n.toNat) → computeHKDF L name key salt info n = .err) := by
  constructor
  · intro H hk h1 h2
    obtain ⟨e1, e2, d, e3, e4, e5⟩ := known_lookup hk
    unfold computeHKDF validateHKDFParams
    rw [e3]
    dsimp only
    rw [if_neg (by rw [gt_iff_lt, UInt32.lt_iff_toNat_lt, e5]; omega), if_neg (by rw [UInt32.lt_iff_toNat_lt]; show ¬ n.toNat < 10; omega),
      Res.bind_ok, e1]
    dsimp only
    rw [hkdfRead_spec H e2, if_neg (by omega)]
    simp only [List.length_eq_zero_iff]
  · intro h
    by_cases hk : ∃ H, Known L name H
    · obtain ⟨H, hk⟩ := hk
      obtain ⟨e1, e2, d, e3, e4, e5⟩ := known_lookup hk
      unfold computeHKDF validateHKDFParams
      rw [e3]
      dsimp only
      by_cases hb : n > 255 * d
      · rw [if_pos hb]; rfl
      · rw [if_neg hb]
        rw [gt_iff_lt, UInt32.lt_iff_toNat_lt, e5] at hb
        rw [if_pos (by rw [UInt32.lt_iff_toNat_lt]; show n.toNat < 10; rcases h H hk with h | h <;> omega)]
        rfl
    · unfold computeHKDF validateHKDFParams
      rw [lookup_known fun H hH => hk ⟨H, hH⟩]
      rfl

/-- **C107.** The result has the length asked for, and the shorter of two results for the same inputs is the beginning of the longer. -/
theorem C107_length_prefix (L : Lib) (name : String) (key salt info : List UInt8) {n n' : UInt32} {out out' : List UInt8}
    (h : computeHKDF L name key salt info n = .ok out) (h' : computeHKDF L name key salt info n' = .ok out') (hle : n ≤ n') :
    out.length = n.toNat ∧ out'.take n.toNat = out := by
  have key1 : ∀ (n : UInt32) (out : List UInt8), computeHKDF L name key salt info n = .ok out → ∃ H, Known L name H ∧
      out = rfcHkdf H key (if salt = [] then List.replicate H.size 0 else salt) info n.toNat := by
    intro n out h
    by_cases hk : ∀ H, Known L name H → n.toNat < 10 ∨ 255 * H.size < n.toNat
    · rw [(C107_exact L name key salt info n).2 hk] at h; cases h
    · push Not at hk
      obtain ⟨H, k1, k2, k3⟩ := hk
      rw [(C107_exact L name key salt info n).1 H k1 k2 k3] at h
      exact ⟨H, k1, (Res.ok.inj h).symm⟩
  obtain ⟨H, k1, e1⟩ := key1 n out h
  obtain ⟨H', k1', e1'⟩ := key1 n' out' h'
  have hH : H' = H := by
    have := (known_lookup k1).1
    rw [(known_lookup k1').1] at this
    exact Option.some.inj this
  subst hH
  refine ⟨by rw [e1, rfcHkdf_length], ?_⟩
  rw [e1, e1']
  unfold rfcHkdf
  have hn : n.toNat ≤ n'.toNat := UInt32.le_iff_toNat_le.1 hle
  have hd : (n.toNat + H'.size - 1) / H'.size ≤ (n'.toNat + H'.size - 1) / H'.size := Nat.div_le_div_right (by omega)
  generalize hP : rfcHmac H' (if salt = [] then List.replicate H'.size 0 else salt) key = prk
  rw [List.take_take, Nat.min_eq_left hn]
  obtain ⟨c, hc⟩ : ∃ c, (n'.toNat + H'.size - 1) / H'.size = (n.toNat + H'.size - 1) / H'.size + c := ⟨_, (Nat.add_sub_cancel' hd).symm⟩
  rw [hc, List.range_add, List.map_append, List.flatten_append, List.take_append_of_le_length]
  have hl := blocks_length H' prk info 0 ((n.toNat + H'.size - 1) / H'.size)
  unfold blocks at hl
  simp only [Nat.zero_add] at hl
  rw [hl]
  have hs := H'.size_pos
  have h1 := Nat.div_add_mod (n.toNat + H'.size - 1) H'.size
  have h2 := Nat.mod_lt (n.toNat + H'.size - 1) hs
  rw [Nat.mul_comm] at h1
  omega

theorem rfcHmac_pad (H : HashFn) (k m : List UInt8) (z : Nat) (h : k.length + z ≤ H.block) :
    rfcHmac H (k ++ List.replicate z 0) m = rfcHmac H k m := by
  have : rfcKey H (k ++ List.replicate z 0) = rfcKey H k := by
    unfold rfcKey
    have hl : (k ++ List.replicate z (0 : UInt8)).length = k.length + z := by simp
    dsimp only
    rw [if_pos (by omega), if_pos (by omega), hl, List.append_assoc, List.replicate_append_replicate]
    congr 2
    omega
  unfold rfcHmac
  rw [this]

/-- **C107.** Different salts can give the same key: zeros after a salt of at most a block do not matter, and no salt is the same as zeros. -/
theorem C107_salt_padding (L : Lib) (name : String) (key salt info : List UInt8) (n : UInt32) {H : HashFn} (hk : Known L name H) (z : Nat)
    (h : salt.length + z ≤ H.block) : computeHKDF L name key (salt ++ List.replicate z 0) info n = computeHKDF L name key salt info n := by
  by_cases hn : 10 ≤ n.toNat ∧ n.toNat ≤ 255 * H.size
  · rw [(C107_exact L name key _ info n).1 H hk hn.1 hn.2, (C107_exact L name key _ info n).1 H hk hn.1 hn.2]
    refine congrArg Res.ok ?_
    obtain ⟨-, hb, -⟩ := known_lookup hk
    unfold rfcHkdf
    have e : rfcHmac H (if salt ++ List.replicate z 0 = [] then List.replicate H.size 0 else salt ++ List.replicate z 0) key =
        rfcHmac H (if salt = [] then List.replicate H.size 0 else salt) key := by
      have e0 : ∀ w, w ≤ H.block → rfcHmac H (List.replicate w 0) key = rfcHmac H [] key := by
        intro w hw
        simpa using rfcHmac_pad H [] key w (by simpa using hw)
      by_cases hs : salt = []
      · subst hs
        rw [if_pos rfl, e0 _ hb, List.nil_append]
        split
        · exact e0 _ hb
        · exact e0 _ (by simpa using h)
      · rw [if_neg hs, if_neg (by simp [hs])]
        exact rfcHmac_pad H salt key z h
    rw [e]
  · have : ∀ H', Known L name H' → n.toNat < 10 ∨ 255 * H'.size < n.toNat := by
      intro H' hk'
      have hH : H' = H := by
        have := (known_lookup hk).1
        rw [(known_lookup hk').1] at this
        exact Option.some.inj this
      rw [hH]
      omega
    rw [(C107_exact L name key _ info n).2 this, (C107_exact L name key _ info n).2 this]

/-! ## The hypotheses are met -/

/-- A toy hash function of any size and block. -/
def toy (size block : Nat) (h : 0 < size) : HashFn where
  h := fun m => (List.range size).map fun i => m.foldl (fun a b => 3 * a + b) 5 + UInt8.ofNat i
  size := size
  block := block
  len_h := by simp
  size_pos := h

/-- A library of toy functions of the right sizes. -/
def toyLib : Lib where
  sha1 := toy 20 64 (by decide)
  sha224 := toy 28 64 (by decide)
  sha256 := toy 32 64 (by decide)
  sha384 := toy 48 128 (by decide)
  sha512 := toy 64 128 (by decide)
  s1 := ⟨rfl, rfl⟩
  s224 := ⟨rfl, rfl⟩
  s256 := ⟨rfl, rfl⟩
  s384 := ⟨rfl, rfl⟩
  s512 := ⟨rfl, rfl⟩

example : ∃ out out', computeHKDF toyLib "SHA256" [1, 2] [3] [4] 40 = .ok out ∧ computeHKDF toyLib "SHA256" [1, 2] [3] [4] 70 = .ok out' ∧
    out'.take 40 = out := by
  have h := (C107_exact toyLib "SHA256" [1, 2] [3] [4] 40).1 _ .sha256 (by decide) (by decide)
  have h' := (C107_exact toyLib "SHA256" [1, 2] [3] [4] 70).1 _ .sha256 (by decide) (by decide)
  exact ⟨_, _, h, h', (C107_length_prefix toyLib _ _ _ _ h h' (by decide)).2⟩

example : computeHKDF toyLib "SHA256" [1] [] [] 8161 = .err ∧ computeHKDF toyLib "SHA256" [1] [] [] 9 = .err ∧
    computeHKDF toyLib "MD5" [1] [] [] 16 = .err ∧ (∃ out, computeHKDF toyLib "SHA1" [1] [] [] 5100 = .ok out) :=
  ⟨by decide +kernel, by decide +kernel, by decide +kernel, _, (C107_exact toyLib "SHA1" [1] [] [] 5100).1 _ .sha1 (by decide) (by decide)⟩

end Verif.Kdf.Hkdf
