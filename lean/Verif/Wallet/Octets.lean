import Verif.Base.Bytes
import Verif.Base.GoRes
import Verif.Base.BigInt
import Verif.Base.Tactics

/-! Model of `/repo/crypto/data.go` (RFC 6979 conversions, compact signatures, hexadecimal text) and property C48. -/

set_option linter.unusedSectionVars false

namespace Verif.Octets
open Verif Verif.Bytes

/-- crypto/data.go:73-90 `int2octets`; `Bytes()` is the big-endian absolute value. -/
def int2octets (v : Int) (rolen : Nat) : List UInt8 :=
  let out := Big.bytes v
  if out.length < rolen then List.replicate (rolen - out.length) 0 ++ out
  else if out.length > rolen then out.drop (out.length - rolen)
  else out

/-- `BitLen` of math/big (used at crypto/data.go:111) -/
def bitLen (n : Nat) : Nat := if n = 0 then 0 else Nat.log2 n + 1

/-- crypto/data.go:110-123 `hashToInt` for a curve of order `N` -/
def hashToInt (hash : List UInt8) (N : Nat) : Nat :=
  let orderBits := bitLen N
  let orderBytes := (orderBits + 7) / 8
  let hash := if hash.length > orderBytes then hash.take orderBytes else hash
  let ret := beToNat hash
  let excess : Int := (hash.length * 8 : Nat) - (orderBits : Nat)
  if excess > 0 then ret >>> excess.toNat else ret

/-- crypto/data.go:94-101 `bits2octets` -/
def bits2octets (hash : List UInt8) (N rolen : Nat) : List UInt8 :=
  let z1 : Int := (hashToInt hash N : Nat)
  let z2 := z1 - (N : Int)
  if Big.sign z2 < 0 then int2octets z1 rolen else int2octets z2 rolen

/-- crypto/data.go:28-43, one half of the candidate: `n` padded with zeros to `curvelen` -/
def padded (curvelen : Nat) (n : Int) : List UInt8 :=
  let bytelen := (bitLen n.natAbs + 7) / 8
  (if bytelen < curvelen then List.replicate (curvelen - bytelen) 0 else []) ++ Big.bytes n

/-- crypto/data.go:21-43: candidate number `i` -/
def candidate (bitSize : Nat) (r s : Int) (compressed : Bool) (i : Nat) : List UInt8 :=
  let v : UInt8 := 27 + UInt8.ofNat i
  let v := if compressed then v + 4 else v
  let curvelen := (bitSize + 7) / 8
  [v] ++ padded curvelen r ++ padded curvelen s

/-- crypto/data.go:16-51 `SignCompact`; `recover` is btcec's `RecoverCompact` (coordinates of the recovered key, `none`
for an error).  The loop stops at the first candidate that recovers to the key. -/
def signCompact (recover : List UInt8 → List UInt8 → Option (Nat × Nat)) (bitSize : Nat) (r s : Int)
    (pk : Nat × Nat) (hash : List UInt8) (compressed : Bool) : Res (List UInt8) :=
  let rec loop : Nat → Nat → Res (List UInt8)
    | 0, _ => .err
    | fuel + 1, i =>
      let result := candidate bitSize r s compressed i
      match recover result hash with
      | some xy => if xy.1 = pk.1 ∧ xy.2 = pk.2 then .ok result else loop fuel (i + 1)
      | none => loop fuel (i + 1)
  loop ((1 + 1) * 2) 0

/-- `strconv.FormatInt(v, 16)` for a byte (crypto/data.go:132): no leading zero -/
def formatHex (v : UInt8) : List Char :=
  let d (n : Nat) : Char := Nat.digitChar n
  if v.toNat < 16 then [d v.toNat] else [d (v.toNat / 16), d (v.toNat % 16)]

/-- crypto/data.go:129-140 `bytesToHexString` (and 125-127 `SignToString`) -/
def bytesToHexString (b : List UInt8) : List Char :=
  b.foldl (fun buf v =>
    let t := formatHex v
    if t.length > 1 then buf ++ t else buf ++ ('0' :: t)) []

/-- `hex.EncodeToString` of the Go standard library -/
def hexEncode (b : List UInt8) : List Char :=
  b.flatMap fun v => [Nat.digitChar (v.toNat / 16), Nat.digitChar (v.toNat % 16)]

/-- crypto/data.go:53-70 `NewSignatureData`; `unhex` is `hex.DecodeString`, `parse` is btcec's `ParsePubKey` -/
def newSignatureData (recover : List UInt8 → List UInt8 → Option (Nat × Nat)) (unhex : String → Option (List UInt8))
    (parse : List UInt8 → Option (Nat × Nat)) (hash : List UInt8) (pk : String) (r s : Int) : Res (List Char) := do
  let pb ← Res.ofOption (unhex pk)
  let k ← Res.ofOption (parse pb)
  let sig ← signCompact recover 256 r s k hash false
  Res.ok (hexEncode sig)

/-! ### Properties -/

theorem bitLen_le_iff (n k : Nat) : bitLen n ≤ k ↔ n < 2 ^ k := by
  unfold bitLen
  split
  · rename_i h; subst h; simp
  · rename_i h
    rw [Nat.succ_le_iff, Nat.log2_lt h]

theorem byteLen_eq_bitLen (n : Nat) : (bitLen n + 7) / 8 = byteLen n := by
  apply le_antisymm
  · have h : bitLen n ≤ 8 * byteLen n := by
      rw [bitLen_le_iff, Nat.pow_mul]
      exact lt_pow_byteLen n
    omega
  · rw [byteLen_le_iff]
    have h1 : n < 2 ^ bitLen n := (bitLen_le_iff n _).mp le_rfl
    refine lt_of_lt_of_le h1 ?_
    rw [show (256 : Nat) = 2 ^ 8 by norm_num, ← Nat.pow_mul]
    exact Nat.pow_le_pow_right (by norm_num) (by omega)

theorem length_natToBE (n : Nat) : (natToBE n).length = byteLen n := length_natToBEfix _ _

theorem beToNat_replicate_zero (k : Nat) : beToNat (List.replicate k 0) = 0 := by
  induction k with
  | zero => rfl
  | succ k ih => rw [List.replicate_succ, beToNat_cons, ih]; simp

theorem beToNat_drop (l : List UInt8) (k : Nat) (hk : k ≤ l.length) :
    beToNat (l.drop (l.length - k)) = beToNat l % 256 ^ k := by
  conv_rhs => rw [← List.take_append_drop (l.length - k) l, beToNat_append]
  have hl : (l.drop (l.length - k)).length = k := by rw [List.length_drop]; omega
  rw [hl, Nat.mul_add_mod_self_right, Nat.mod_eq_of_lt]
  have := beToNat_lt (l.drop (l.length - k))
  rwa [hl] at this

/-- **C48.** `int2octets` always returns exactly `rolen` bytes: the big-endian form of `|v| mod 256^rolen`. -/
theorem C48_int2octets (v : Int) (rolen : Nat) :
    (int2octets v rolen).length = rolen ∧ beToNat (int2octets v rolen) = v.natAbs % 256 ^ rolen := by
  have hl : (Big.bytes v).length = byteLen v.natAbs := length_natToBE _
  have hb : beToNat (Big.bytes v) = v.natAbs := beToNat_natToBE _
  rw [int2octets]
  split
  · rename_i h
    constructor
    · rw [List.length_append, List.length_replicate]; omega
    · rw [beToNat_append, beToNat_replicate_zero, hb, zero_mul, zero_add, Nat.mod_eq_of_lt]
      rw [← byteLen_le_iff]; omega
  · split
    · rename_i h h'
      constructor
      · rw [List.length_drop]; omega
      · rw [beToNat_drop _ _ (by omega), hb]
    · rename_i h h'
      have : (Big.bytes v).length = rolen := by omega
      refine ⟨this, ?_⟩
      rw [hb, Nat.mod_eq_of_lt]
      rw [← byteLen_le_iff]; omega

/-- **C48.** so `int2octets` is injective on the values that fit, and is inverted by reading the bytes. -/
theorem C48_int2octets_inj (v w rolen : Nat) (hv : v < 256 ^ rolen) (hw : w < 256 ^ rolen)
    (h : int2octets v rolen = int2octets w rolen) : v = w := by
  have a := (C48_int2octets v rolen).2
  have b := (C48_int2octets w rolen).2
  rw [h, b, Int.natAbs_natCast, Int.natAbs_natCast, Nat.mod_eq_of_lt hv, Nat.mod_eq_of_lt hw] at a
  exact a.symm

/-- RFC 6979 §2.3.2 `bits2int`, the specification: keep the leftmost `qlen` bits of the bit string. -/
def bits2int (b : List UInt8) (qlen : Nat) : Nat :=
  if qlen < 8 * b.length then beToNat b / 2 ^ (8 * b.length - qlen) else beToNat b

/-- **C48.** `hashToInt` is RFC 6979's `bits2int` with `qlen` the bit length of the group order, for hashes of every
length. -/
theorem C48_hashToInt (hash : List UInt8) (N : Nat) : hashToInt hash N = bits2int hash (bitLen N) := by
  rw [hashToInt, bits2int]
  by_cases h1 : hash.length > (bitLen N + 7) / 8
  · have hl : (hash.take ((bitLen N + 7) / 8)).length = (bitLen N + 7) / 8 := by
      rw [List.length_take]; omega
    have h1' : bitLen N < 8 * hash.length := by omega
    rw [if_pos h1, if_pos h1', hl]
    have hdiv : beToNat (hash.take ((bitLen N + 7) / 8)) =
        beToNat hash / 256 ^ (hash.length - (bitLen N + 7) / 8) := by
      conv_rhs => rw [← List.take_append_drop ((bitLen N + 7) / 8) hash, beToNat_append]
      have hd : (hash.drop ((bitLen N + 7) / 8)).length = hash.length - (bitLen N + 7) / 8 := List.length_drop ..
      have hlt := beToNat_lt (hash.drop ((bitLen N + 7) / 8))
      rw [hd] at hlt ⊢
      rw [List.take_append_drop, Nat.mul_comm, Nat.mul_add_div (Nat.pos_of_ne_zero (by positivity)), Nat.div_eq_of_lt hlt]
      omega
    rw [hdiv]
    have e : 8 * hash.length - bitLen N =
        8 * (hash.length - (bitLen N + 7) / 8) + (((bitLen N + 7) / 8) * 8 - bitLen N) := by omega
    rw [e, Nat.pow_add, Nat.pow_mul, ← Nat.div_div_eq_div_mul]
    split
    · rename_i h2
      rw [Nat.shiftRight_eq_div_pow]
      congr 2
      omega
    · rename_i h2
      have : ((bitLen N + 7) / 8) * 8 - bitLen N = 0 := by omega
      rw [this, Nat.pow_zero, Nat.div_one]
  · rw [if_neg h1]
    split
    · rename_i h2
      rw [if_pos (by omega), Nat.shiftRight_eq_div_pow]
      congr 2
      omega
    · rename_i h2
      rw [if_neg (by omega)]

theorem bits2int_lt (b : List UInt8) (qlen : Nat) : bits2int b qlen < 2 ^ qlen := by
  have h := beToNat_lt b
  rw [show (256 : Nat) = 2 ^ 8 by norm_num, ← Nat.pow_mul] at h
  rw [bits2int]
  split
  · rename_i h1
    rw [Nat.div_lt_iff_lt_mul (Nat.pos_of_ne_zero (by positivity)), ← Nat.pow_add]
    rwa [show qlen + (8 * b.length - qlen) = 8 * b.length by omega]
  · exact lt_of_lt_of_le h (Nat.pow_le_pow_right (by norm_num) (by omega))

/-- **C48.** `bits2octets` is RFC 6979's: the integer of the leftmost bits reduced modulo the group order (one
conditional subtraction always suffices), in exactly `rolen` bytes. -/
theorem C48_bits2octets (hash : List UInt8) (N rolen : Nat) (hN : 0 < N) (hr : N ≤ 256 ^ rolen) :
    (bits2octets hash N rolen).length = rolen ∧
    beToNat (bits2octets hash N rolen) = bits2int hash (bitLen N) % N := by
  have hz : hashToInt hash N < 2 * N := by
    rw [C48_hashToInt]
    refine lt_of_lt_of_le (bits2int_lt _ _) ?_
    have h2 : ¬ bitLen N ≤ bitLen N - 1 := by
      have : 0 < bitLen N := by unfold bitLen; rw [if_neg (by omega)]; omega
      omega
    rw [bitLen_le_iff] at h2
    have h3 : bitLen N = (bitLen N - 1) + 1 := by
      have : 0 < bitLen N := by unfold bitLen; rw [if_neg (by omega)]; omega
      omega
    rw [h3, Nat.pow_succ]
    omega
  rw [bits2octets, ← C48_hashToInt]
  by_cases h : hashToInt hash N < N
  · have hs : Big.sign ((hashToInt hash N : Nat) - (N : Int)) < 0 := by
      rw [Big.sign, if_pos (by omega)]; decide
    rw [if_pos hs]
    refine ⟨(C48_int2octets _ _).1, ?_⟩
    rw [(C48_int2octets _ _).2, Int.natAbs_natCast, Nat.mod_eq_of_lt h, Nat.mod_eq_of_lt (lt_of_lt_of_le h hr)]
  · have hs : ¬ Big.sign ((hashToInt hash N : Nat) - (N : Int)) < 0 := by
      rw [Big.sign, if_neg (by omega)]; split <;> decide
    rw [if_neg hs]
    refine ⟨(C48_int2octets _ _).1, ?_⟩
    have e : ((hashToInt hash N : Nat) - (N : Int)).natAbs = hashToInt hash N - N := by omega
    rw [(C48_int2octets _ _).2, e, Nat.mod_eq_of_lt (a := hashToInt hash N - N) (by omega),
      Nat.mod_eq_sub_mod (a := hashToInt hash N) (by omega), Nat.mod_eq_of_lt (a := hashToInt hash N - N) (by omega)]

theorem padded_eq (r : Int) (h : r.natAbs < 256 ^ 32) : padded 32 r = natToBEfix 32 r.natAbs := by
  rw [padded]
  simp only [byteLen_eq_bitLen]
  have hb : byteLen r.natAbs ≤ 32 := (byteLen_le_iff _ _).mpr h
  have hl : (Big.bytes r).length = byteLen r.natAbs := length_natToBE _
  apply beToNat_inj
  · rw [List.length_append, hl, length_natToBEfix]
    split
    · rw [List.length_replicate]; omega
    · rw [List.length_nil]; omega
  · rw [beToNat_append, beToNat_natToBEfix, Nat.mod_eq_of_lt h]
    have : beToNat (Big.bytes r) = r.natAbs := beToNat_natToBE _
    rw [this]
    split
    · rw [beToNat_replicate_zero]; omega
    · show 0 * _ + _ = _; omega

/-- **C48.** For 256-bit curves and `r`, `s` below `2^256`, the result of `SignCompact` is a 65-byte string `v ‖ r ‖ s`,
with `v = 27 + i` (`+ 4` for a compressed key), for the *least* `i < 4` whose recovered key is the given one; if no `i`
recovers the key the call fails. -/
theorem C48_signCompact (recover : List UInt8 → List UInt8 → Option (Nat × Nat)) (r s : Nat)
    (pk : Nat × Nat) (hash : List UInt8) (c : Bool) (hr : r < 256 ^ 32) (hs : s < 256 ^ 32) (sig : List UInt8) :
    let cand (i : Nat) := UInt8.ofNat (27 + i + if c then 4 else 0) :: (natToBEfix 32 r ++ natToBEfix 32 s)
    (signCompact recover 256 r s pk hash c = .ok sig ↔
      ∃ i < 4, sig = cand i ∧ recover sig hash = some pk ∧ ∀ j < i, recover (cand j) hash ≠ some pk) ∧
    (signCompact recover 256 r s pk hash c = .err ↔ ∀ i < 4, recover (cand i) hash ≠ some pk) := by
  intro cand
  have hc : ∀ i < 4, candidate 256 r s c i = cand i := by
    intro i hi
    rw [candidate]
    simp only [show (256 + 7) / 8 = 32 from rfl]
    rw [padded_eq _ (by rwa [Int.natAbs_natCast]), padded_eq _ (by rwa [Int.natAbs_natCast])]
    simp only [Int.natAbs_natCast, cand, List.cons_append, List.nil_append, List.cons.injEq, and_true]
    have : ∀ (i : Fin 4) (c : Bool), (if c = true then (27 : UInt8) + UInt8.ofNat i.1 + 4 else 27 + UInt8.ofNat i.1) =
      UInt8.ofNat (27 + i.1 + if c = true then 4 else 0) := by decide +kernel
    exact this ⟨i, hi⟩ c
  have step : ∀ fuel i, signCompact.loop recover 256 r s pk hash c (fuel + 1) i =
      if recover (candidate 256 r s c i) hash = some pk then .ok (candidate 256 r s c i)
      else signCompact.loop recover 256 r s pk hash c fuel (i + 1) := by
    intro fuel i
    rw [signCompact.loop]
    rcases recover (candidate 256 r s c i) hash with _ | xy
    · simp
    · simp only [Option.some.injEq]
      by_cases h : xy.1 = pk.1 ∧ xy.2 = pk.2
      · rw [if_pos h, if_pos (Prod.ext h.1 h.2)]
      · rw [if_neg h, if_neg (fun e => h (by rw [e]; exact ⟨rfl, rfl⟩))]
  have main : ∀ fuel i, i + fuel = 4 → (∀ j < i, recover (cand j) hash ≠ some pk) →
      (signCompact.loop recover 256 r s pk hash c fuel i = .ok sig ↔
        ∃ k < 4, sig = cand k ∧ recover sig hash = some pk ∧ ∀ j < k, recover (cand j) hash ≠ some pk) ∧
      (signCompact.loop recover 256 r s pk hash c fuel i = .err ↔ ∀ k < 4, recover (cand k) hash ≠ some pk) := by
    intro fuel
    induction fuel with
    | zero =>
      intro i hi hj
      rw [signCompact.loop]
      refine ⟨⟨fun h => (by cases h), ?_⟩, ⟨fun _ k hk => hj k (by omega), fun _ => rfl⟩⟩
      rintro ⟨k, hk, rfl, h, -⟩
      exact absurd h (hj k (by omega))
    | succ fuel ih =>
      intro i hi hj
      rw [step, hc i (by omega)]
      by_cases h : recover (cand i) hash = some pk
      · rw [if_pos h]
        refine ⟨⟨fun e => ?_, ?_⟩, ⟨fun e => (by cases e), fun e => absurd h (e i (by omega))⟩⟩
        · cases e
          exact ⟨i, by omega, rfl, h, hj⟩
        · rintro ⟨k, hk, rfl, h', hm⟩
          rcases Nat.lt_trichotomy k i with hlt | rfl | hgt
          · exact absurd h' (hj k hlt)
          · rfl
          · exact absurd h (hm i hgt)
      · rw [if_neg h]
        refine ih (i + 1) (by omega) ?_
        intro j hj'
        rcases Nat.lt_succ_iff_lt_or_eq.mp hj' with h' | rfl
        · exact hj j h'
        · exact h
  exact main 4 0 rfl (fun j hj => absurd hj (by omega))

/-- **C48.** `bytesToHexString` is the standard lower-case hexadecimal encoding, two characters per byte. -/
theorem C48_hex (b : List UInt8) : bytesToHexString b = hexEncode b ∧ (bytesToHexString b).length = 2 * b.length := by
  have h1 : ∀ (b : List UInt8) (acc : List Char), b.foldl (fun buf v =>
      let t := formatHex v
      if t.length > 1 then buf ++ t else buf ++ ('0' :: t)) acc = acc ++ hexEncode b := by
    intro b
    induction b with
    | nil => intro acc; simp [hexEncode]
    | cons v b ih =>
      intro acc
      rw [List.foldl_cons, ih]
      have hv := v.toNat_lt
      have : hexEncode (v :: b) = [Nat.digitChar (v.toNat / 16), Nat.digitChar (v.toNat % 16)] ++ hexEncode b := rfl
      rw [this, ← List.append_assoc]
      congr 1
      simp only [formatHex]
      by_cases h : v.toNat < 16
      · rw [if_pos h]
        simp only [List.length_singleton, gt_iff_lt, lt_irrefl, if_false]
        rw [Nat.div_eq_of_lt h, Nat.mod_eq_of_lt h]; rfl
      · rw [if_neg h]
        simp
  have e : bytesToHexString b = hexEncode b := by rw [bytesToHexString, h1, List.nil_append]
  refine ⟨e, ?_⟩
  rw [e]
  induction b with
  | nil => rfl
  | cons v b ih =>
    have : hexEncode (v :: b) = [Nat.digitChar (v.toNat / 16), Nat.digitChar (v.toNat % 16)] ++ hexEncode b := rfl
    rw [this, List.length_append, ih (by rw [bytesToHexString, h1, List.nil_append])]
    simp only [List.length_cons, List.length_nil]; omega

/-- **C48.** Hexadecimal text determines the bytes. -/
theorem C48_hex_inj (a b : List UInt8) (h : bytesToHexString a = bytesToHexString b) : a = b := by
  rw [(C48_hex a).1, (C48_hex b).1] at h
  have hd : ∀ i j : Fin 16, Nat.digitChar i.1 = Nat.digitChar j.1 → i = j := by decide +kernel
  induction a generalizing b with
  | nil =>
    cases b with
    | nil => rfl
    | cons y b => simp [hexEncode] at h
  | cons x a ih =>
    cases b with
    | nil => simp [hexEncode] at h
    | cons y b =>
      have e1 : hexEncode (x :: a) = Nat.digitChar (x.toNat / 16) :: Nat.digitChar (x.toNat % 16) :: hexEncode a := rfl
      have e2 : hexEncode (y :: b) = Nat.digitChar (y.toNat / 16) :: Nat.digitChar (y.toNat % 16) :: hexEncode b := rfl
      rw [e1, e2] at h
      obtain ⟨h1, h⟩ := List.cons.inj h
      obtain ⟨h2, h⟩ := List.cons.inj h
      have hx := x.toNat_lt
      have hy := y.toNat_lt
      have g1 := congrArg Fin.val (hd ⟨x.toNat / 16, by omega⟩ ⟨y.toNat / 16, by omega⟩ h1)
      have g2 := congrArg Fin.val (hd ⟨x.toNat % 16, by omega⟩ ⟨y.toNat % 16, by omega⟩ h2)
      have g3 : x = y := UInt8.toNat_inj.mp (by simp only at g1 g2; omega)
      rw [g3, ih b h]

/-- **C48.** `NewSignatureData` returns the hexadecimal text of a signature that recovers to the given key, or fails. -/
theorem C48_newSignatureData (recover : List UInt8 → List UInt8 → Option (Nat × Nat)) (unhex : String → Option (List UInt8))
    (parse : List UInt8 → Option (Nat × Nat)) (hash : List UInt8) (pk : String) (r s : Nat)
    (hr : r < 256 ^ 32) (hs : s < 256 ^ 32) (t : List Char)
    (h : newSignatureData recover unhex parse hash pk r s = .ok t) :
    ∃ pb k sig, unhex pk = some pb ∧ parse pb = some k ∧ t = hexEncode sig ∧ sig.length = 65 ∧
      recover sig hash = some k := by
  rw [newSignatureData] at h
  rcases h1 : unhex pk with _ | pb
  · rw [h1] at h; cases h
  rcases h2 : parse pb with _ | k
  · rw [h1] at h; simp only [Res.ofOption, Res.bind_ok, h2] at h; cases h
  rw [h1] at h
  simp only [Res.ofOption, Res.bind_ok, h2] at h
  obtain ⟨sig, hsig, h⟩ := Res.bind_eq_ok.mp h
  cases h
  obtain ⟨i, -, rfl, hrec, -⟩ := ((C48_signCompact recover r s k hash false hr hs sig).1).mp hsig
  refine ⟨pb, k, _, rfl, h2, rfl, ?_, hrec⟩
  rw [List.length_cons, List.length_append, length_natToBEfix, length_natToBEfix]

/-! ### concrete cases -/

/-- a 521-bit style order: 9 bits, so 2 bytes are read and 7 bits dropped -/
example : hashToInt [0xAB, 0xCD, 0xEF] 300 = 0xABCD / 128 ∧ bitLen 300 = 9 ∧
    bits2octets [0xFF, 0xFF, 0xFF] 300 2 = [0, 211] := by decide +kernel
example : int2octets (-258) 4 = [0, 0, 1, 2] ∧ int2octets 258 1 = [2] := by
  constructor <;> simp [int2octets, Big.bytes, natToBE, byteLen, natToBEfix, natToLE]
/-- the second candidate recovers -/
example : signCompact (fun s _ => if s.head? = some 28 then some (5, 6) else some (5, 7)) 256 3 4 (5, 6) [1] false =
    .ok (28 :: (natToBEfix 32 3 ++ natToBEfix 32 4)) :=
  ((C48_signCompact _ 3 4 (5, 6) [1] false (by norm_num) (by norm_num) _).1).mpr
    ⟨1, by omega, rfl, by decide +kernel, by intro j hj; obtain rfl : j = 0 := by omega
                                             decide +kernel⟩
example : bytesToHexString [0x0a, 0xff, 0] = "0aff00".toList := by decide +kernel

end Verif.Octets
