import Verif.Kdf.Hkdf
import Mathlib.Data.Nat.Digits.Lemmas
import Mathlib.Tactic.IntervalCases
import Mathlib.Data.List.Forall2
import Mathlib.Tactic.Ring

/-! Model of `/repo/crypto/subtle/subtle.go` and property C127: names of hash functions and curves, numbers in
hexadecimal (the table of hash functions and their sizes is in Kdf/Hkdf.lean).  Strings of hexadecimal digits are lists of bytes. -/

namespace Verif.Kdf.Names
open Verif Verif.Kdf

/-- crypto/subtle/subtle.go:93-98 -/
inductive NistCurve where
  | p256 | p384 | p521
  deriving DecidableEq

/-- crypto/subtle/subtle.go:39-54 `ConvertHashName` -/
def convertHashName (n : String) : String :=
  if n = "SHA-224" then "SHA224" else if n = "SHA-256" then "SHA256" else if n = "SHA-384" then "SHA384"
  else if n = "SHA-512" then "SHA512" else if n = "SHA-1" then "SHA1" else ""

/-- crypto/subtle/subtle.go:58-69 `ConvertCurveName` -/
def convertCurveName (n : String) : String :=
  if n = "secp256r1" ∨ n = "P-256" then "NIST_P256" else if n = "secp384r1" ∨ n = "P-384" then "NIST_P384"
  else if n = "secp521r1" ∨ n = "P-521" then "NIST_P521" else ""

/-- crypto/subtle/subtle.go:91-102 `GetCurve` -/
def getCurve (c : String) : Option NistCurve :=
  if c = "NIST_P256" then some .p256 else if c = "NIST_P384" then some .p384
  else if c = "NIST_P521" then some .p521 else none

/-- the table of `encoding/hex` -/
def hexChar (c : UInt8) : Option Nat :=
  if 48 ≤ c.toNat ∧ c.toNat ≤ 57 then some (c.toNat - 48)
  else if 97 ≤ c.toNat ∧ c.toNat ≤ 102 then some (c.toNat - 87)
  else if 65 ≤ c.toNat ∧ c.toNat ≤ 70 then some (c.toNat - 55)
  else none

/-- `hex.DecodeString` (encoding/hex) -/
def decodeString : List UInt8 → Option (List Nat)
  | [] => some []
  | [_] => none
  | a :: b :: r =>
    match hexChar a, hexChar b, decodeString r with
    | some x, some y, some t => some ((16 * x + y) :: t)
    | _, _, _ => none

/-- crypto/subtle/subtle.go:120-130 `NewBigIntFromHex`; `SetBytes` is big-endian -/
def newBigIntFromHex (s : List UInt8) : Option Nat :=
  let s := if s.length % 2 = 1 then 48 :: s else s
  (decodeString s).map fun b => b.foldl (fun a x => 256 * a + x) 0

/-! ### specification -/

/-- the character is the hexadecimal digit `d`: 0-9, a-f or A-F -/
def Digit (c : UInt8) (d : Nat) : Prop :=
  (c.toNat = 48 + d ∧ d < 10) ∨ (c.toNat = 87 + d ∧ 10 ≤ d ∧ d < 16) ∨ (c.toNat = 55 + d ∧ 10 ≤ d ∧ d < 16)

/-! ### the properties -/

theorem hexChar_iff (c : UInt8) (d : Nat) : hexChar c = some d ↔ Digit c d := by
  unfold hexChar Digit
  split_ifs <;> simp <;> omega

theorem digit_unique {c : UInt8} {d e : Nat} (h : Digit c d) (h' : Digit c e) : d = e := by
  have := (hexChar_iff c d).2 h
  rw [(hexChar_iff c e).2 h'] at this
  exact (Option.some.inj this).symm

/-- decoding fails exactly if a character is no digit, and the bytes are worth the digits -/
theorem decode_iff : ∀ (s : List UInt8), s.length % 2 = 0 →
    (∀ b, decodeString s = some b → ∃ ds, List.Forall₂ Digit s ds ∧
      ∀ acc, b.foldl (fun a x => 256 * a + x) acc = ds.foldl (fun a x => 16 * a + x) acc) ∧
    ∀ ds, List.Forall₂ Digit s ds → (decodeString s).isSome
  | [], _ => by
    refine ⟨?_, fun _ _ => rfl⟩
    rintro b ⟨⟩
    exact ⟨[], .nil, fun _ => rfl⟩
  | [_], h => by simp at h
  | c :: c' :: r, h => by
    have ih := decode_iff r (by simpa [Nat.add_assoc] using h)
    constructor
    · intro b hb
      unfold decodeString at hb
      cases hx : hexChar c with
      | none => rw [hx] at hb; cases hb
      | some x =>
        cases hy : hexChar c' with
        | none => rw [hx, hy] at hb; cases hb
        | some y =>
          cases ht : decodeString r with
          | none => rw [hx, hy, ht] at hb; cases hb
          | some t =>
            rw [hx, hy, ht] at hb
            cases hb
            obtain ⟨ds, h1, h2⟩ := ih.1 t ht
            refine ⟨x :: y :: ds, .cons ((hexChar_iff _ _).1 hx) (.cons ((hexChar_iff _ _).1 hy) h1), fun acc => ?_⟩
            simp only [List.foldl_cons]
            rw [h2]
            congr 1
            ring
    · intro ds hd
      cases hd with
      | cons h1 h2 =>
        cases h2 with
        | cons h2 h3 =>
          unfold decodeString
          rw [(hexChar_iff _ _).2 h1, (hexChar_iff _ _).2 h2]
          obtain ⟨t, ht⟩ := Option.isSome_iff_exists.1 (ih.2 _ h3)
          rw [ht]
          rfl

theorem foldl_digits (ds : List Nat) : ds.foldl (fun a x => 16 * a + x) 0 = Nat.ofDigits 16 ds.reverse := by
  induction ds using List.reverseRecOn with
  | nil => rfl
  | append_singleton l d ih =>
    rw [List.foldl_append, List.reverse_append, ih]
    simp [Nat.ofDigits_cons, Nat.add_comm]

theorem forall₂_unique {s : List UInt8} {ds es : List Nat} (h : List.Forall₂ Digit s ds) (h' : List.Forall₂ Digit s es) :
    ds = es := by
  induction h generalizing es with
  | nil => cases h'; rfl
  | cons h1 _ ih => cases h' with
    | cons h2 h3 => rw [digit_unique h1 h2, ih h3]

/-- **C127** A string is read as a number exactly if all its characters are hexadecimal digits (of either case), of an even
or an odd number, and the number is the one written, most significant digit first. -/
theorem C127_hex_iff (s : List UInt8) (n : Nat) :
    newBigIntFromHex s = some n ↔ ∃ ds, List.Forall₂ Digit s ds ∧ n = Nat.ofDigits 16 ds.reverse := by
  have zero : Digit 48 0 := Or.inl ⟨rfl, by decide⟩
  -- for a string of even length
  have even : ∀ s : List UInt8, s.length % 2 = 0 →
      (((decodeString s).map fun b => b.foldl (fun a x => 256 * a + x) 0) = some n ↔
        ∃ ds, List.Forall₂ Digit s ds ∧ n = ds.foldl (fun a x => 16 * a + x) 0) := by
    intro s h
    obtain ⟨h1, h2⟩ := decode_iff s h
    constructor
    · intro he
      obtain ⟨b, hb, rfl⟩ := Option.map_eq_some_iff.1 he
      obtain ⟨ds, h3, h4⟩ := h1 b hb
      exact ⟨ds, h3, h4 0⟩
    · rintro ⟨ds, hd, rfl⟩
      obtain ⟨b, hb⟩ := Option.isSome_iff_exists.1 (h2 ds hd)
      obtain ⟨es, h3, h4⟩ := h1 b hb
      rw [hb, forall₂_unique hd h3, ← h4 0]
      rfl
  unfold newBigIntFromHex
  by_cases h : s.length % 2 = 1
  · simp only [if_pos h]
    rw [even (48 :: s) (by rw [List.length_cons]; omega)]
    constructor
    · rintro ⟨ds, hd, rfl⟩
      cases hd with
      | cons h1 h2 =>
        rw [digit_unique h1 zero]
        exact ⟨_, h2, by rw [← foldl_digits]; rfl⟩
    · rintro ⟨ds, hd, rfl⟩
      exact ⟨0 :: ds, .cons zero hd, by rw [← foldl_digits]; rfl⟩
  · simp only [if_neg h]
    rw [even s (by omega)]
    constructor
    · rintro ⟨ds, hd, rfl⟩
      exact ⟨ds, hd, foldl_digits ds⟩
    · rintro ⟨ds, hd, rfl⟩
      exact ⟨ds, hd, (foldl_digits ds).symm⟩

/-- the digit in lower case -/
def lower (d : Nat) : UInt8 := if d < 10 then UInt8.ofNat (48 + d) else UInt8.ofNat (87 + d)

theorem lower_digit (d : Nat) (h : d < 16) : Digit (lower d) d := by
  unfold Digit
  interval_cases d <;> decide

/-- **C127** Every number is read back from its hexadecimal digits, with any number of zeros in front. -/
theorem C127_reads_back (n z : Nat) :
    newBigIntFromHex (List.replicate z 48 ++ (Nat.digits 16 n).reverse.map lower) = some n := by
  rw [C127_hex_iff]
  refine ⟨List.replicate z 0 ++ (Nat.digits 16 n).reverse, ?_, ?_⟩
  · refine List.rel_append ?_ ?_
    · induction z with
      | zero => exact .nil
      | succ z ih => exact .cons (Or.inl ⟨rfl, by decide⟩) ih
    · rw [List.forall₂_map_left_iff, List.forall₂_same]
      intro d hd
      exact lower_digit d (Nat.digits_lt_base (by decide) (List.mem_reverse.1 hd))
  · rw [List.reverse_append, List.reverse_reverse, List.reverse_replicate, Nat.ofDigits_append, Nat.ofDigits_digits]
    have : Nat.ofDigits 16 (List.replicate z 0) = 0 := by
      induction z with
      | zero => rfl
      | succ z ih => rw [List.replicate_succ, Nat.ofDigits_cons, ih]
    rw [this, Nat.mul_zero, Nat.add_zero]

/-- **C127** A prefix "0x" and a sign are refused. -/
theorem C127_no_prefix (s : List UInt8) : newBigIntFromHex (48 :: 120 :: s) = none ∧ newBigIntFromHex (45 :: s) = none := by
  constructor <;>
  · rw [Option.eq_none_iff_forall_ne_some]
    intro n h
    obtain ⟨ds, h1, -⟩ := (C127_hex_iff _ _).1 h
    rcases h1 with _ | ⟨h1, h2⟩
    first
    | (rcases h1 with h | h | h <;> simp at h <;> omega)
    | (rcases h2 with _ | ⟨h2, -⟩
       rcases h2 with h | h | h <;> simp at h <;> omega)

/-- **C127** The tables agree: a name has a hash function exactly if it has a digest size, which is the length of that
function's digests, for every name. -/
theorem C127_sizes (L : Hkdf.Lib) (name : String) :
    (Hkdf.getHashDigestSize name).map UInt32.toNat = (Hkdf.getHashFunc L name).map (·.size) := by
  unfold Hkdf.getHashDigestSize Hkdf.getHashFunc
  split_ifs
  · exact congrArg some L.s1.1.symm
  · exact congrArg some L.s224.1.symm
  · exact congrArg some L.s256.1.symm
  · exact congrArg some L.s384.1.symm
  · exact congrArg some L.s512.1.symm
  · rfl

/-- **C127** Converted names are names with a function, and a curve, exactly for the names with a dash (and the SEC names). -/
theorem C127_converted (L : Hkdf.Lib) (name : String) :
    ((Hkdf.getHashFunc L (convertHashName name)).isSome ↔ name ∈ ["SHA-1", "SHA-224", "SHA-256", "SHA-384", "SHA-512"]) ∧
    ((getCurve (convertCurveName name)).isSome ↔
      name ∈ ["secp256r1", "P-256", "secp384r1", "P-384", "secp521r1", "P-521"]) := by
  constructor
  · unfold convertHashName
    split_ifs <;> simp_all [Hkdf.getHashFunc]
  · unfold convertCurveName
    split_ifs <;> simp_all [getCurve] <;> tauto

/-- **C127** The hash of a converted name is the hash of that name; the converted names are different functions. -/
theorem C127_convert_values (L : Hkdf.Lib) :
    Hkdf.getHashFunc L (convertHashName "SHA-1") = some L.sha1 ∧
    Hkdf.getHashFunc L (convertHashName "SHA-224") = some L.sha224 ∧
    Hkdf.getHashFunc L (convertHashName "SHA-256") = some L.sha256 ∧
    Hkdf.getHashFunc L (convertHashName "SHA-384") = some L.sha384 ∧
    Hkdf.getHashFunc L (convertHashName "SHA-512") = some L.sha512 ∧
    (∀ n, n = "P-256" ∨ n = "secp256r1" → getCurve (convertCurveName n) = some .p256) ∧
    (∀ n, n = "P-384" ∨ n = "secp384r1" → getCurve (convertCurveName n) = some .p384) ∧
    ∀ n, n = "P-521" ∨ n = "secp521r1" → getCurve (convertCurveName n) = some .p521 := by
  refine ⟨?_, ?_, ?_, ?_, ?_, ?_, ?_, ?_⟩
  iterate 5 simp [convertHashName, Hkdf.getHashFunc]
  all_goals
    rintro n (rfl | rfl) <;> simp [convertCurveName, getCurve]

/-- **C127** Negated: a name already in the converted form is converted to the empty name, which has no function and no
curve, without an error: converting twice loses the name. -/
theorem C127_convert_twice_violated (name : String) :
    convertHashName (convertHashName name) = "" ∧ convertCurveName (convertCurveName name) = "" := by
  constructor
  · unfold convertHashName
    split_ifs <;> simp_all
  · unfold convertCurveName
    split_ifs <;> simp_all

/-! ### concrete cases -/

/-- "a0F" -/
example : newBigIntFromHex [97, 48, 70] = some 0xa0f := rfl
/-- the empty string is zero -/
example : newBigIntFromHex [] = some 0 := rfl
/-- "g" -/
example : newBigIntFromHex [103] = none := rfl

end Verif.Kdf.Names
