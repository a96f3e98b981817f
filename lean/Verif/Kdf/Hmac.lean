import Verif.Base.GoRes
import Verif.Base.Bytes
import Verif.Base.Tactics
import Verif.Hash.Model

/-! HMAC and HKDF as the Go libraries compute them, and as RFC 2104 and RFC 5869 define them. -/

set_option linter.unusedSectionVars false

namespace Verif.Kdf
open Verif Verif.Hash

/-- The bytes after `copy(out[:n], b)` into a zeroed array. -/
def fit (n : Nat) (b : List UInt8) : List UInt8 := b.take n ++ List.replicate (n - b.length) 0

theorem fit_length (n : Nat) (b : List UInt8) : (fit n b).length = n := by
  unfold fit
  rw [List.length_append, List.length_take, List.length_replicate]
  omega

/-- `hmac.New`, one `Write` and `Sum` of Go's crypto/hmac, the library called in crypto/core/commit.go:106-116: a key longer than a block is
hashed, and what fits is copied into the pads. -/
def hmac (H : HashFn) (key msg : List UInt8) : List UInt8 :=
  let key := if key.length > H.block then H.h key else key
  let ipad := (fit H.block key).map (· ^^^ 0x36)
  let opad := (fit H.block key).map (· ^^^ 0x5c)
  let inner := H.h (ipad ++ msg)
  H.h (opad ++ inner)

theorem hmac_length (H : HashFn) (key msg : List UInt8) : (hmac H key msg).length = H.size := H.len_h _

/-! ## Specification -/

/-- SPEC: RFC 2104, the key `K`: hashed if it is longer than a block, then zeros up to the length of a block. -/
def rfcKey (H : HashFn) (key : List UInt8) : List UInt8 :=
  let k := if key.length ≤ H.block then key else H.h key
  k ++ List.replicate (H.block - k.length) 0

/-- SPEC: RFC 2104: `H(K xor opad, H(K xor ipad, text))`. -/
def rfcHmac (H : HashFn) (key text : List UInt8) : List UInt8 :=
  H.h (List.zipWith (· ^^^ ·) (rfcKey H key) (List.replicate H.block 0x5c) ++
    H.h (List.zipWith (· ^^^ ·) (rfcKey H key) (List.replicate H.block 0x36) ++ text))

theorem zip_pad (c : UInt8) : ∀ (l : List UInt8) (n : Nat), l.length = n → List.zipWith (· ^^^ ·) l (List.replicate n c) = l.map (· ^^^ c)
  | [], _, h => by subst h; rfl
  | a :: l, 0, h => by cases h
  | a :: l, n + 1, h => by
    rw [List.replicate_succ, List.zipWith_cons_cons, List.map_cons, zip_pad c l n (by simpa using h)]

theorem fit_of_le {n : Nat} {b : List UInt8} (h : b.length ≤ n) : fit n b = b ++ List.replicate (n - b.length) 0 := by
  unfold fit
  rw [List.take_of_length_le h]

/-- The library computes RFC 2104 (the digest of a hash function is not longer than its block). -/
theorem hmac_rfc (H : HashFn) (hb : H.size ≤ H.block) (key msg : List UInt8) : hmac H key msg = rfcHmac H key msg := by
  have hk : (if key.length > H.block then H.h key else key).length ≤ H.block := by
    split
    · rw [H.len_h]; exact hb
    · omega
  have he : fit H.block (if key.length > H.block then H.h key else key) = rfcKey H key := by
    rw [fit_of_le hk]
    unfold rfcKey
    by_cases h : key.length > H.block
    · rw [if_pos h, if_neg (by omega)]
    · rw [if_neg h, if_pos (by omega)]
  have hl : (rfcKey H key).length = H.block := by rw [← he, fit_length]
  unfold hmac rfcHmac
  dsimp only
  rw [he, zip_pad _ _ _ hl, zip_pad _ _ _ hl]

theorem xor_inj (c a b : UInt8) (h : a ^^^ c = b ^^^ c) : a = b := by
  have := congrArg (· ^^^ c) h
  simpa [UInt8.xor_assoc] using this

theorem map_xor_inj (c : UInt8) {l l' : List UInt8} (h : l.map (· ^^^ c) = l'.map (· ^^^ c)) : l = l' :=
  List.map_injective_iff.2 (fun a b => xor_inj c a b) h

/-- Two different keys of at most a block and the same length, or different messages, with the same HMAC give two different inputs of the hash
with the same digest, which are written out here. -/
theorem hmac_collision (H : HashFn) {k k' m m' : List UInt8} (hk : k.length ≤ H.block) (hl : k'.length = k.length)
    (h : hmac H k m = hmac H k' m') (hne : (k, m) ≠ (k', m')) : ∃ x y, x ≠ y ∧ H.h x = H.h y := by
  unfold hmac at h
  dsimp only at h
  rw [if_neg (by omega), if_neg (by omega)] at h
  by_cases e : (fit H.block k).map (· ^^^ 0x5c) ++ H.h ((fit H.block k).map (· ^^^ 0x36) ++ m) =
      (fit H.block k').map (· ^^^ 0x5c) ++ H.h ((fit H.block k').map (· ^^^ 0x36) ++ m')
  · obtain ⟨e1, e2⟩ := List.append_inj e (by rw [List.length_map, List.length_map, fit_length, fit_length])
    have e3 := map_xor_inj _ e1
    have e4 : k = k' := by
      rw [fit_of_le hk, fit_of_le (by omega), hl] at e3
      exact (List.append_inj e3 hl.symm).1
    refine ⟨_, _, fun e5 => hne ?_, e2⟩
    rw [e4] at e5
    rw [e4, (List.append_cancel_left_eq ..).mp e5]
  · exact ⟨_, _, e, h⟩

/-! ## HKDF -/

/-- `Extract` of golang.org/x/crypto/hkdf, called by `hkdf.New`. -/
def extract (H : HashFn) (secret salt : List UInt8) : List UInt8 := hmac H salt secret

/-- The loop of `Read` of golang.org/x/crypto/hkdf for the first read of `need` bytes: `prev` is the previous block, `counter` a byte. -/
def expandLoop (H : HashFn) (prk info : List UInt8) : Nat → List UInt8 → UInt8 → Nat → List UInt8
  | 0, _, _, _ => []
  | fuel + 1, prev, counter, need =>
    if need = 0 then []
    else
      let t := hmac H prk (prev ++ info ++ [counter])
      t.take need ++ expandLoop H prk info fuel t (counter + 1) (need - H.size)

/-- The first `Read` of `need` bytes from `hkdf.New(hash, secret, salt, info)`: an error beyond 255 blocks. -/
def hkdfRead (H : HashFn) (secret salt info : List UInt8) (need : Nat) : Res (List UInt8) :=
  if 255 * H.size < need then .err
  else .ok (expandLoop H (extract H secret salt) info need [] 1 need)

/-- SPEC: RFC 5869, 2.3: `T(0)` is empty, `T(i) = HMAC-Hash(PRK, T(i-1) | info | i)`. -/
def rfcT (H : HashFn) (prk info : List UInt8) : Nat → List UInt8
  | 0 => []
  | i + 1 => rfcHmac H prk (rfcT H prk info i ++ info ++ [UInt8.ofNat (i + 1)])

/-- SPEC: RFC 5869, 2.2 and 2.3: `PRK = HMAC-Hash(salt, IKM)`, the first `L` bytes of `T(1) | … | T(N)`, `N = ceil(L/HashLen)`. -/
def rfcHkdf (H : HashFn) (ikm salt info : List UInt8) (L : Nat) : List UInt8 :=
  (((List.range ((L + H.size - 1) / H.size)).map fun i => rfcT H (rfcHmac H salt ikm) info (i + 1)).flatten).take L

theorem rfcT_length (H : HashFn) (prk info : List UInt8) (i : Nat) : (rfcT H prk info (i + 1)).length = H.size := H.len_h _

/-- The blocks `i+1 … i+n`. -/
def blocks (H : HashFn) (prk info : List UInt8) (i n : Nat) : List UInt8 := ((List.range n).map fun j => rfcT H prk info (i + j + 1)).flatten

theorem blocks_succ (H : HashFn) (prk info : List UInt8) (i n : Nat) :
    blocks H prk info i (n + 1) = rfcT H prk info (i + 1) ++ blocks H prk info (i + 1) n := by
  unfold blocks
  rw [List.range_succ_eq_map, List.map_cons, List.flatten_cons, List.map_map]
  congr 2
  refine List.map_congr_left fun j _ => ?_
  show rfcT H prk info (i + (j + 1) + 1) = _
  rw [show i + (j + 1) + 1 = i + 1 + j + 1 by omega]

theorem blocks_length (H : HashFn) (prk info : List UInt8) (i n : Nat) : (blocks H prk info i n).length = n * H.size := by
  induction n generalizing i with
  | zero => simp [blocks]
  | succ n ih => rw [blocks_succ, List.length_append, ih, rfcT_length]; ring

theorem expandLoop_spec (H : HashFn) (hb : H.size ≤ H.block) (prk info : List UInt8) :
    ∀ (fuel i need n : Nat), need ≤ fuel → need ≤ n * H.size →
      expandLoop H prk info fuel (rfcT H prk info i) (UInt8.ofNat (i + 1)) need = (blocks H prk info i n).take need
  | 0, i, need, n, h1, _ => by
    obtain rfl : need = 0 := by omega
    rfl
  | fuel + 1, i, need, n, h1, h2 => by
    unfold expandLoop
    by_cases h0 : need = 0
    · rw [if_pos h0, h0]; rfl
    · rw [if_neg h0]
      obtain ⟨n, rfl⟩ : ∃ m, n = m + 1 := ⟨n - 1, by cases n with | zero => omega | succ n => omega⟩
      dsimp only
      have ht : hmac H prk (rfcT H prk info i ++ info ++ [UInt8.ofNat (i + 1)]) = rfcT H prk info (i + 1) := hmac_rfc H hb _ _
      have hc : UInt8.ofNat (i + 1) + 1 = UInt8.ofNat (i + 1 + 1) := by
        rw [UInt8.ofNat_add (i + 1) 1]; rfl
      have hs := H.size_pos
      rw [ht, hc, expandLoop_spec H hb prk info fuel (i + 1) (need - H.size) n (by omega) (by rw [Nat.succ_mul] at h2; omega), blocks_succ,
        List.take_append, rfcT_length]

theorem hkdfRead_spec (H : HashFn) (hb : H.size ≤ H.block) (secret salt info : List UInt8) (L : Nat) :
    hkdfRead H secret salt info L = if 255 * H.size < L then .err else .ok (rfcHkdf H secret salt info L) := by
  unfold hkdfRead rfcHkdf extract
  split
  · rfl
  · congr 1
    have hs := H.size_pos
    have h := expandLoop_spec H hb (hmac H salt secret) info L 0 L ((L + H.size - 1) / H.size) (by omega) (by
      have := Nat.div_add_mod (L + H.size - 1) H.size
      have h2 := Nat.mod_lt (L + H.size - 1) hs
      rw [Nat.mul_comm] at this
      omega)
    rw [← hmac_rfc H hb]
    refine h.trans ?_
    unfold blocks
    simp only [Nat.zero_add]

theorem rfcHkdf_length (H : HashFn) (ikm salt info : List UInt8) (L : Nat) : (rfcHkdf H ikm salt info L).length = L := by
  have hs := H.size_pos
  have := blocks_length H (rfcHmac H salt ikm) info 0 ((L + H.size - 1) / H.size)
  unfold blocks at this
  simp only [Nat.zero_add] at this
  unfold rfcHkdf
  rw [List.length_take, this]
  have h1 := Nat.div_add_mod (L + H.size - 1) H.size
  have h2 := Nat.mod_lt (L + H.size - 1) hs
  rw [Nat.mul_comm] at h1
  omega

end Verif.Kdf
