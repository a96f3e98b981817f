import Verif.Hash.Model
import Verif.Base.Tactics

/-! C42, C55: byte-level hash helpers against RFC 9380 (expand_message_xmd / _xof). -/

set_option linter.unusedSimpArgs false
set_option linter.unusedVariables false

namespace Verif.Hash

open Verif.Bytes

/-! ### specification (RFC 9380, section 5.3) -/

/-- SPEC: `b_i` for `i ≥ 1`. -/
def rfcBlock (H : HashFn) (b0 dstPrime : List UInt8) : Nat → List UInt8
  | 0 => H.h (b0 ++ [1] ++ dstPrime)
  | i + 1 => H.h (xorB b0 (rfcBlock H b0 dstPrime i) ++ [UInt8.ofNat (i + 2)] ++ dstPrime)

/-- SPEC: `DST_prime`. -/
def rfcDst (dst : List UInt8) : List UInt8 := dst ++ [UInt8.ofNat dst.length]

/-- SPEC: `b_0`. -/
def rfcB0 (H : HashFn) (msg dst : List UInt8) (len : Nat) : List UInt8 :=
  H.h (List.replicate H.block 0 ++ msg ++ natToBEfix 2 len ++ [0] ++ rfcDst dst)

/-- SPEC: number of blocks, the ceiling of `len / size`. -/
def rfcEll (H : HashFn) (len : Nat) : Nat := (len + H.size - 1) / H.size

/-- SPEC: `uniform_bytes`. -/
def rfcExpand (H : HashFn) (msg dst : List UInt8) (len : Nat) : List UInt8 :=
  (((List.range (rfcEll H len)).map (rfcBlock H (rfcB0 H msg dst len) (rfcDst dst))).flatten).take len

/-! ### I2OSP and OS2IP -/

/-- **C42** `I2OSP(b,n)` always returns exactly `n` bytes. -/
theorem C42_i2osp_length (b : Int) (n : Nat) : (i2osp b n).length = n := by
  unfold i2osp
  by_cases h : n > (natToBE b.natAbs).length
  · simp only [if_pos h]; rw [List.length_append, List.length_replicate]; omega
  · simp only [if_neg h]; rw [List.length_take]; omega

theorem beToNat_zeros (k : Nat) (l : List UInt8) : beToNat (List.replicate k 0 ++ l) = beToNat l := by
  induction k with
  | zero => rfl
  | succ k ih => rw [List.replicate_succ, List.cons_append, beToNat_cons, ih]; simp

/-- **C42** For values that fit, `OS2IP(I2OSP(b,n)) = b`. -/
theorem C42_i2osp_roundtrip (b n : Nat) (h : b < 256 ^ n) : os2ip (i2osp b n) = b := by
  unfold os2ip i2osp
  simp only [Int.natAbs_natCast]
  by_cases hc : n > (natToBE b).length
  · rw [if_pos hc, beToNat_zeros, beToNat_natToBE]
  · rw [if_neg hc]
    have : (natToBE b).length ≤ n := by rw [length_natToBE]; exact (byteLen_le_iff b n).mpr h
    rw [List.take_of_length_le this, beToNat_natToBE]

/-- **C42** and `I2OSP(OS2IP(os), len(os)) = os` for every byte string. -/
theorem C42_os2ip_roundtrip (os : List UInt8) : i2osp (os2ip os) os.length = os := by
  apply beToNat_inj (C42_i2osp_length _ _)
  exact C42_i2osp_roundtrip (os2ip os) os.length (beToNat_lt os)

/-- **C42** (negative) Values that do not fit are not refused and not reduced: the `n` HIGH-order bytes
are returned. -/
theorem C42_i2osp_overflow (b n : Nat) (h : 256 ^ n ≤ b) :
    os2ip (i2osp b n) = b / 256 ^ (byteLen b - n) := by
  have hlen : n < byteLen b := by
    by_contra hc
    have := (byteLen_le_iff b n).mp (by omega)
    omega
  unfold os2ip i2osp
  simp only [Int.natAbs_natCast]
  rw [if_neg (by rw [length_natToBE]; omega)]
  have hsplit := beToNat_append ((natToBE b).take n) ((natToBE b).drop n)
  rw [List.take_append_drop, beToNat_natToBE, List.length_drop, length_natToBE] at hsplit
  have hlt := beToNat_lt ((natToBE b).drop n)
  rw [List.length_drop, length_natToBE] at hlt
  have hpos : 0 < 256 ^ (byteLen b - n) := Nat.pow_pos (by omega)
  generalize beToNat ((natToBE b).take n) = A at *
  generalize beToNat ((natToBE b).drop n) = B at *
  generalize 256 ^ (byteLen b - n) = M at *
  rw [hsplit, Nat.add_comm, Nat.add_mul_div_right _ _ hpos, Nat.div_eq_of_lt hlt, Nat.zero_add]

theorem i2osp_fit (b n : Nat) (h : b < 256 ^ n) : i2osp b n = natToBEfix n b := by
  apply beToNat_inj (by rw [C42_i2osp_length, length_natToBEfix])
  rw [beToNat_natToBEfix, Nat.mod_eq_of_lt h]
  exact C42_i2osp_roundtrip b n h

theorem i2osp_one (i : Nat) (h : i < 256) : i2osp i 1 = [UInt8.ofNat i] := by
  rw [i2osp_fit i 1 (by simpa using h)]; rfl

theorem i2osp_zero (n : Nat) : i2osp 0 n = List.replicate n 0 := by
  unfold i2osp
  simp only [Int.natAbs_zero, natToBE_zero, List.length_nil, List.append_nil, Nat.sub_zero]
  by_cases h : n > 0
  · rw [if_pos h]
  · rw [if_neg h, show n = 0 by omega]; rfl

/-! ### expansion -/

theorem length_rfcBlock (H : HashFn) (b0 d : List UInt8) (i : Nat) : (rfcBlock H b0 d i).length = H.size := by
  cases i <;> exact H.len_h _

theorem length_blocks (H : HashFn) (b0 d : List UInt8) (k : Nat) :
    (((List.range k).map (rfcBlock H b0 d)).flatten).length = k * H.size := by
  induction k with
  | zero => simp
  | succ k ih =>
    rw [List.range_succ, List.map_append, List.flatten_append, List.length_append, ih]
    simp [length_rfcBlock, Nat.succ_mul]

theorem ell_mul (H : HashFn) (len : Nat) : len ≤ rfcEll H len * H.size := by
  unfold rfcEll
  have := Nat.div_add_mod (len + H.size - 1) H.size
  have := Nat.mod_lt (len + H.size - 1) H.size_pos
  have := H.size_pos
  rw [Nat.mul_comm]
  omega

theorem ell_pos (H : HashFn) (len : Nat) (h : 1 ≤ len) : 1 ≤ rfcEll H len := by
  unfold rfcEll
  have := H.size_pos
  exact (Nat.le_div_iff_mul_le H.size_pos).mpr (by omega)

theorem ell_sub (H : HashFn) (len : Nat) (h : 1 ≤ len) : (rfcEll H len - 1) * H.size ≤ len := by
  unfold rfcEll
  have h1 := Nat.div_mul_le_self (len + H.size - 1) H.size
  have := H.size_pos
  rw [Nat.sub_mul]
  omega

theorem loop_eq (H : HashFn) (b0 d : List UInt8) (k : Nat) (hk : k + 1 < 256) :
    (List.range' 2 k).foldl (fun (bs : List (List UInt8)) (i : Nat) =>
        bs ++ [H.h (xorB b0 (bs.getLastD []) ++ i2osp i 1 ++ d)]) [H.h (b0 ++ [1] ++ d)] =
      (List.range (k + 1)).map (rfcBlock H b0 d) := by
  induction k with
  | zero => rfl
  | succ k ih =>
    rw [List.range'_1_concat, List.foldl_append, ih (by omega)]
    simp only [List.foldl_cons, List.foldl_nil]
    rw [List.range_succ (n := k + 1), List.map_append]
    congr 1
    have hl : ((List.range (k + 1)).map (rfcBlock H b0 d)).getLastD [] = rfcBlock H b0 d k := by
      rw [List.range_succ, List.map_append]; simp
    rw [hl, i2osp_one _ (by omega), Nat.add_comm 2 k]
    rfl

theorem expand_eq (H : HashFn) (msg dst : List UInt8) (len : Nat) (hl : 1 ≤ len)
    (he : rfcEll H len ≤ 255) (hd : dst.length ≤ 255) (hlen : len < 65536) :
    expandXmd H msg dst len = .ok (rfcExpand H msg dst len) := by
  unfold expandXmd
  have h1 : ¬ (len + H.size - 1) / H.size > 255 := by have := he; unfold rfcEll at this; omega
  have h2 : ¬ (len + H.size - 1) / H.size < 1 := by have := ell_pos H len hl; unfold rfcEll at this; omega
  dsimp only
  rw [if_neg h1, if_neg h2, i2osp_one dst.length (by omega), i2osp_zero, i2osp_zero,
    i2osp_fit len 2 (by simpa using hlen), show (1 : Int) = ((1 : Nat) : Int) from rfl, i2osp_one 1 (by omega)]
  have hb0 : H.h (List.replicate H.block 0 ++ msg ++ natToBEfix 2 len ++ List.replicate 1 0 ++
      (dst ++ [UInt8.ofNat dst.length])) = rfcB0 H msg dst len := rfl
  rw [hb0]
  have hloop := loop_eq H (rfcB0 H msg dst len) (rfcDst dst) (rfcEll H len - 1) (by omega)
  have hk : rfcEll H len - 1 + 1 = rfcEll H len := by have := ell_pos H len hl; omega
  rw [hk] at hloop
  have hel : (len + H.size - 1) / H.size = rfcEll H len := rfl
  rw [hel]
  have hloop' : (List.range' 2 (rfcEll H len - 1)).foldl (fun (bs : List (List UInt8)) (i : Nat) =>
        bs ++ [H.h (xorB (rfcB0 H msg dst len) (bs.getLastD []) ++ i2osp i 1 ++ (dst ++ [UInt8.ofNat dst.length]))])
        [H.h (rfcB0 H msg dst len ++ [UInt8.ofNat 1] ++ (dst ++ [UInt8.ofNat dst.length]))] =
      (List.range (rfcEll H len)).map (rfcBlock H (rfcB0 H msg dst len) (rfcDst dst)) := hloop
  rw [hloop', if_pos (by rw [length_blocks]; exact ell_mul H len)]
  rfl

/-- **C42** `ExpandMessageXmd` computes exactly the RFC 9380 byte string whenever the request is legal
there: at least one byte, at most 255 blocks, a tag of at most 255 bytes. -/
theorem C42_expand_rfc (H : HashFn) (hs : H.size ≤ 255) (msg dst : List UInt8) (len : Nat) (hl : 1 ≤ len)
    (he : rfcEll H len ≤ 255) (hd : dst.length ≤ 255) :
    expandXmd H msg dst len = .ok (rfcExpand H msg dst len) := by
  apply expand_eq H msg dst len hl he hd
  have h1 := ell_mul H len
  have h2 : rfcEll H len * H.size ≤ 255 * 255 := Nat.mul_le_mul he hs
  omega

/-- **C42** The call fails exactly when more than 255 blocks are needed, and otherwise returns exactly
the requested number of bytes (for any tag length). -/
theorem C42_expand_length (H : HashFn) (msg dst : List UInt8) (len : Nat) (hl : 1 ≤ len) :
    (rfcEll H len > 255 ∧ expandXmd H msg dst len = .err) ∨
    (rfcEll H len ≤ 255 ∧ ∃ out, expandXmd H msg dst len = .ok out ∧ out.length = len) := by
  by_cases he : rfcEll H len > 255
  · refine Or.inl ⟨he, ?_⟩
    unfold expandXmd
    unfold rfcEll at he
    simp only [if_pos he]
  · refine Or.inr ⟨by omega, ?_⟩
    have h1 : ¬ (len + H.size - 1) / H.size > 255 := by unfold rfcEll at he; omega
    have h2 : ¬ (len + H.size - 1) / H.size < 1 := by have := ell_pos H len hl; unfold rfcEll at this; omega
    unfold expandXmd
    dsimp only
    rw [if_neg h1, if_neg h2]
    rw [show (1 : Int) = ((1 : Nat) : Int) from rfl, i2osp_one 1 (by omega)]
    generalize H.h (i2osp 0 H.block ++ msg ++ i2osp len 2 ++ i2osp 0 1 ++ (dst ++ i2osp dst.length 1)) = b0
    generalize (dst ++ i2osp dst.length 1) = d
    have hloop := loop_eq H b0 d ((len + H.size - 1) / H.size - 1) (by omega)
    have hloop' : (List.range' 2 ((len + H.size - 1) / H.size - 1)).foldl
        (fun (bs : List (List UInt8)) (i : Nat) =>
          bs ++ [H.h (xorB b0 (bs.getLastD []) ++ i2osp i 1 ++ d)]) [H.h (b0 ++ [UInt8.ofNat 1] ++ d)] =
        (List.range ((len + H.size - 1) / H.size - 1 + 1)).map (rfcBlock H b0 d) := hloop
    rw [hloop', show (len + H.size - 1) / H.size - 1 + 1 = rfcEll H len by unfold rfcEll; omega]
    have hle := ell_mul H len
    rw [if_pos (by rw [length_blocks]; exact hle)]
    exact ⟨_, rfl, by rw [List.length_take, length_blocks]; omega⟩

/-- **C42** (negative) A request for zero bytes panics instead of returning the empty string. -/
theorem C42_expand_zero_panics (H : HashFn) (msg dst : List UInt8) : expandXmd H msg dst 0 = .panic := by
  unfold expandXmd
  have h : (0 + H.size - 1) / H.size = 0 := Nat.div_eq_of_lt (by have := H.size_pos; omega)
  simp only [h]
  rw [if_neg (by omega), if_pos (by omega)]

/-- **C42** Outputs of at least one block bind the message and the tag: equal outputs of equal length
come from the same pair or exhibit a collision of the hash. -/
theorem C42_expand_binding (H : HashFn) (hs : H.size ≤ 255) (msg dst msg' dst' : List UInt8) (len : Nat)
    (hl : H.size ≤ len) (he : rfcEll H len ≤ 255) (hd : dst.length ≤ 255) (hd' : dst'.length ≤ 255)
    (h : expandXmd H msg dst len = expandXmd H msg' dst' len) :
    (msg = msg' ∧ dst = dst') ∨ ∃ x y, x ≠ y ∧ H.h x = H.h y := by
  have hpos := H.size_pos
  rw [C42_expand_rfc H hs msg dst len (by omega) he hd, C42_expand_rfc H hs msg' dst' len (by omega) he hd'] at h
  have h := Res.ok.inj h
  unfold rfcExpand at h
  have e1 := ell_pos H len (by omega)
  obtain ⟨k, hk⟩ : ∃ k, rfcEll H len = k + 1 := ⟨rfcEll H len - 1, by omega⟩
  rw [hk] at h
  have hfirst : ∀ b0 d, ((((List.range (k + 1)).map (rfcBlock H b0 d)).flatten).take len).take H.size =
      rfcBlock H b0 d 0 := by
    intro b0 d
    rw [List.take_take, Nat.min_eq_left hl, List.range_succ_eq_map, List.map_cons, List.flatten_cons,
      List.take_left' (length_rfcBlock H b0 d 0)]
  have h1 := congrArg (fun l => l.take H.size) h
  rw [hfirst, hfirst] at h1
  by_cases hx : rfcB0 H msg dst len ++ [1] ++ rfcDst dst = rfcB0 H msg' dst' len ++ [1] ++ rfcDst dst'
  · have hb : (rfcB0 H msg dst len).length = (rfcB0 H msg' dst' len).length := by
      rw [rfcB0, rfcB0, H.len_h, H.len_h]
    rw [List.append_assoc, List.append_assoc] at hx
    obtain ⟨x1, x2⟩ := List.append_inj hx hb
    obtain ⟨-, x3⟩ := List.append_inj x2 rfl
    unfold rfcDst at x3
    obtain ⟨x4, -⟩ := List.append_inj' x3 rfl
    subst x4
    by_cases hy : List.replicate H.block 0 ++ msg ++ natToBEfix 2 len ++ [0] ++ rfcDst dst =
        List.replicate H.block 0 ++ msg' ++ natToBEfix 2 len ++ [0] ++ rfcDst dst
    · left
      have := List.append_cancel_right hy
      have := List.append_cancel_right this
      have := List.append_cancel_right this
      exact ⟨List.append_cancel_left this, rfl⟩
    · exact Or.inr ⟨_, _, hy, x1⟩
  · exact Or.inr ⟨_, _, hx, h1⟩

/-- **C42** `Hash` returns the first 48 RFC-expanded bytes, read big-endian and reduced: a canonical
field element. -/
theorem C42_hash_value (H : HashFn) (h32 : H.size = 32) (p : Nat) (hp : 0 < p) (dst msg : List UInt8)
    (hd : dst.length ≤ 255) :
    ∃ x, hash H p dst msg = .ok x ∧ x < p ∧ x = os2ip (rfcExpand H msg dst 48) % p := by
  have he : rfcEll H 48 = 2 := by unfold rfcEll; rw [h32]
  have hx := C42_expand_rfc H (by omega) msg dst 48 (by omega) (by omega) hd
  refine ⟨_, ?_, Nat.mod_lt _ hp, rfl⟩
  unfold hash hashToField
  rw [hx]
  simp only [Res.bind_ok]
  have hlen : (rfcExpand H msg dst 48).length = 48 := by
    unfold rfcExpand; rw [List.length_take, length_blocks, he, h32]; omega
  show Res.ok (os2ip (((rfcExpand H msg dst 48).drop (48 * 0)).take 48) % p) = _
  rw [Nat.mul_zero, List.drop_zero, List.take_of_length_le (by omega)]

/-- **C42** `hashToField` returns `count` canonical elements for `1 ≤ count ≤ 170`, and an error above. -/
theorem C42_hash_to_field (H : HashFn) (h32 : H.size = 32) (p : Nat) (hp : 0 < p) (dst msg : List UInt8)
    (count : Nat) (hc : 1 ≤ count) :
    (count ≤ 170 ∧ ∃ u, hashToField H p dst msg count = .ok u ∧ u.length = count ∧ ∀ x ∈ u, x < p) ∨
    (170 < count ∧ hashToField H p dst msg count = .err) := by
  have hell : rfcEll H (count * 48) = (count * 48 + 31) / 32 := by unfold rfcEll; rw [h32]; rfl
  rcases C42_expand_length H msg dst (count * 48) (by omega) with ⟨h1, h2⟩ | ⟨h1, out, h2, h3⟩
  · right
    refine ⟨by omega, ?_⟩
    unfold hashToField; rw [h2]; rfl
  · left
    refine ⟨by omega, ?_⟩
    unfold hashToField; rw [h2]
    refine ⟨_, rfl, by simp, ?_⟩
    intro x hx
    obtain ⟨i, _, rfl⟩ := List.mem_map.mp hx
    exact Nat.mod_lt _ hp

/-- **C42** element `i` of `hashToField` is the `i`-th group of 48 bytes of the RFC expansion, read big-endian and
reduced. -/
theorem C42_hash_to_field_value (H : HashFn) (h32 : H.size = 32) (p : Nat) (dst msg : List UInt8)
    (count : Nat) (hc : 1 ≤ count) (hc' : count ≤ 170) (hd : dst.length ≤ 255) :
    ∃ u, hashToField H p dst msg count = .ok u ∧ u.length = count ∧
      ∀ i < count, u[i]? = some (os2ip (((rfcExpand H msg dst (count * 48)).drop (48 * i)).take 48) % p) := by
  have hell : rfcEll H (count * 48) = (count * 48 + 31) / 32 := by unfold rfcEll; rw [h32]; rfl
  have hx := C42_expand_rfc H (by omega) msg dst (count * 48) (by omega) (by omega) hd
  unfold hashToField
  rw [hx]
  refine ⟨_, rfl, by simp, ?_⟩
  intro i hi
  rw [List.getElem?_map, List.getElem?_range hi]
  rfl

/-! ### native expanders -/

theorem two_bytes (n : Nat) : [UInt8.ofNat (n >>> 8), UInt8.ofNat n] = natToBEfix 2 n := by
  show _ = [UInt8.ofNat (n / 256), UInt8.ofNat n]
  rw [Nat.shiftRight_eq_div_pow]

theorem native_loop (H : HashFn) (b0 d : List UInt8) (len k : Nat) (hk : k * H.size ≤ len) :
    (List.range' 1 k).foldl (fun (st : List UInt8 × List UInt8) (i : Nat) =>
        (copyAt st.1 ((i - 1) * H.size) st.2, H.h (xorB b0 st.2 ++ [1 + UInt8.ofNat i] ++ d)))
      (List.replicate len 0, H.h (b0 ++ [1] ++ d)) =
    (((List.range k).map (rfcBlock H b0 d)).flatten ++ List.replicate (len - k * H.size) 0,
      rfcBlock H b0 d k) := by
  induction k with
  | zero => simp [rfcBlock]
  | succ k ih =>
    have hk' : k * H.size ≤ len := by rw [Nat.succ_mul] at hk; omega
    rw [List.range'_1_concat, List.foldl_append, ih hk']
    simp only [List.foldl_cons, List.foldl_nil]
    have hB := length_blocks H b0 d k
    have hsz := length_rfcBlock H b0 d k
    rw [Nat.succ_mul] at hk
    refine Prod.ext ?_ ?_
    · dsimp only
      rw [show 1 + k - 1 = k by omega]
      unfold copyAt
      rw [List.length_append, hB, List.length_replicate, List.take_left' hB,
        List.take_of_length_le (by rw [hsz]; omega), hsz, ← hB, List.drop_length_add_append, List.drop_replicate,
        hB, List.range_succ, List.map_append, List.flatten_append, Nat.succ_mul]
      simp only [List.map_cons, List.map_nil, List.flatten_cons, List.flatten_nil, List.append_nil]
      congr 2
      omega
    · dsimp only
      rw [rfcBlock]
      have : (1 : UInt8) + UInt8.ofNat (1 + k) = UInt8.ofNat (k + 2) := by
        apply UInt8.toNat_inj.mp
        rw [UInt8.toNat_add]
        simp only [UInt8.toNat_ofNat']
        show (1 + _) % 256 = _
        omega
      rw [this]

/-- **C55** The native expander (used for hashing to k256, p256, BLS12-381 and Pallas points) computes
the RFC 9380 string for every message, every output length of at least one byte, and every tag, where a
tag above 255 bytes is first replaced by the hash of `"H2C-OVERSIZE-DST-" ‖ tag`. -/
theorem C55_native_rfc (H : HashFn) (hs : H.size ≤ 255) (msg dst : List UInt8) (len : Nat) (hl : 1 ≤ len) :
    expandNative H msg dst len =
      .ok (rfcExpand H msg (if dst.length > 255 then H.h (oversizeSalt ++ dst) else dst) len) := by
  unfold expandNative
  have hdom : getDomainXmd H dst = (if dst.length > 255 then H.h (oversizeSalt ++ dst) else dst) := rfl
  rw [hdom]
  generalize (if dst.length > 255 then H.h (oversizeSalt ++ dst) else dst) = d
  dsimp only
  have hb0 : H.h (List.replicate H.block (0 : UInt8) ++ msg ++ [UInt8.ofNat (len >>> 8), UInt8.ofNat len] ++
      ([0] : List UInt8) ++ d ++ [UInt8.ofNat d.length]) = rfcB0 H msg d len := by
    rw [two_bytes]; unfold rfcB0 rfcDst; simp only [List.append_assoc]
  rw [hb0]
  unfold rfcExpand
  generalize rfcB0 H msg d len = b0 at *
  have hell : (len + H.size - 1) / H.size = rfcEll H len := rfl
  rw [hell, if_neg (by have := ell_pos H len hl; omega)]
  have hsub := ell_sub H len hl
  have hmul := ell_mul H len
  have hpos := ell_pos H len hl
  have hloop := native_loop H b0 (d ++ [UInt8.ofNat d.length]) len (rfcEll H len - 1) hsub
  simp only [← List.append_assoc] at hloop
  rw [hloop]
  dsimp only
  obtain ⟨k, hk⟩ : ∃ k, rfcEll H len = k + 1 := ⟨rfcEll H len - 1, by omega⟩
  rw [hk] at hsub hmul ⊢
  rw [Nat.add_sub_cancel] at hsub ⊢
  rw [Nat.succ_mul] at hmul
  have hB := length_blocks H b0 (d ++ [UInt8.ofNat d.length]) k
  have hsz := length_rfcBlock H b0 (d ++ [UInt8.ofNat d.length]) k
  rw [List.range_succ, List.map_append, List.flatten_append]
  simp only [List.map_cons, List.map_nil, List.flatten_cons, List.flatten_nil, List.append_nil]
  have hd : rfcDst d = d ++ [UInt8.ofNat d.length] := rfl
  rw [hd]
  generalize ((List.range k).map (rfcBlock H b0 (d ++ [UInt8.ofNat d.length]))).flatten = B at *
  generalize rfcBlock H b0 (d ++ [UInt8.ofNat d.length]) k = L at *
  unfold copyAt
  rw [List.length_append, hB, List.length_replicate, List.take_left' hB]
  congr 1
  rw [show k * H.size + (len - k * H.size) - k * H.size = len - k * H.size by omega,
    List.take_left' (by rw [List.length_append, List.length_take, hB]; omega), List.take_append, hB,
    List.take_of_length_le (l := B) (by omega)]

/-- **C55** So on legal requests the two expanders of the repository return the same bytes. -/
theorem C55_expanders_agree (H : HashFn) (hs : H.size ≤ 255) (msg dst : List UInt8) (len : Nat) (hl : 1 ≤ len)
    (he : rfcEll H len ≤ 255) (hd : dst.length ≤ 255) :
    expandNative H msg dst len = expandXmd H msg dst len := by
  rw [C55_native_rfc H hs msg dst len hl, C42_expand_rfc H hs msg dst len hl he hd, if_neg (by omega)]

/-- **C55** (negative) The native expander never refuses: any positive length is served, although the
one-byte block counter repeats after 256 blocks. -/
theorem C55_native_never_refuses (H : HashFn) (msg dst : List UInt8) (hs : H.size ≤ 255) (len : Nat)
    (hl : 1 ≤ len) : ∃ out, expandNative H msg dst len = .ok out ∧ out.length = len := by
  refine ⟨_, C55_native_rfc H hs msg dst len hl, ?_⟩
  unfold rfcExpand
  rw [List.length_take, length_blocks]
  have := ell_mul H len
  omega

/-- **C55** (negative) A request for zero bytes panics. -/
theorem C55_native_zero_panics (H : HashFn) (msg dst : List UInt8) : expandNative H msg dst 0 = .panic := by
  unfold expandNative
  have h : (0 + H.size - 1) / H.size = 0 := Nat.div_eq_of_lt (by have := H.size_pos; omega)
  dsimp only
  rw [h, if_pos (by omega)]

/-- SPEC: RFC 9380 `expand_message_xof`, with `DST_prime` as above. -/
def rfcXof (xof : List UInt8 → Nat → List UInt8) (msg dst : List UInt8) (len : Nat) : List UInt8 :=
  xof (msg ++ natToBEfix 2 len ++ rfcDst dst) len

/-- **C55** The extendable-output expander is the RFC one, with long tags replaced by 64 bytes of
output on `"H2C-OVERSIZE-DST-" ‖ tag`. -/
theorem C55_xof_rfc (xof : List UInt8 → Nat → List UInt8) (msg dst : List UInt8) (len : Nat) :
    expandXof xof msg dst len =
      rfcXof xof msg (if dst.length > 255 then xof (oversizeSalt ++ dst) 64 else dst) len := by
  unfold expandXof rfcXof rfcDst getDomainXof
  rw [two_bytes]
  simp only [List.append_assoc]

/-! ### examples -/

/-- A toy hash with 32-byte output: every byte is the sum of the input plus its position. -/
def toyHash : HashFn where
  h := fun m => (List.range 32).map fun i => m.sum + UInt8.ofNat i
  size := 32
  block := 64
  len_h := by simp
  size_pos := by omega

example : i2osp 300 2 = [1, 44] ∧ i2osp 300 1 = [1] ∧ i2osp 5 4 = [0, 0, 0, 5] := by decide +kernel
example : rfcEll toyHash 48 = 2 ∧ rfcEll toyHash 8160 = 255 ∧ rfcEll toyHash 8161 = 256 := by decide +kernel
example : expandXmd toyHash [1, 2] [3] 40 = expandNative toyHash [1, 2] [3] 40 := by decide +kernel
example : expandXmd toyHash [1] [2] 8161 = .err := by
  rcases C42_expand_length toyHash [1] [2] 8161 (by omega) with h | h
  · exact h.2
  · have : rfcEll toyHash 8161 = 256 := by decide +kernel
    omega
example : ∃ out, expandNative toyHash [1] [2] 8161 = .ok out ∧ out.length = 8161 :=
  C55_native_never_refuses toyHash [1] [2] (by decide) 8161 (by omega)

end Verif.Hash
