import Verif.Kdf.Hmac
import Verif.Hash.Props

/-! C106: commitments (crypto/core/commit.go). -/

set_option linter.unusedSectionVars false

namespace Verif.Kdf.Commit
open Verif Verif.Hash Verif.Kdf

/-- `Size` (crypto/core/commit.go:20-21). -/
abbrev size : Nat := 32

/-- `Witness` (crypto/core/commit.go:32-35); the nonce is an array of 32 bytes, so it is kept with the proof of its length. -/
structure Witness where
  msg : List UInt8
  r : List UInt8
  hr : r.length = size

theorem Witness.ext' {d d' : Witness} (h1 : d.msg = d'.msg) (h2 : d.r = d'.r) : d = d' := by
  cases d; cases d'
  cases h1; cases h2
  rfl

/-- What `crand.Read` did to the buffer of 32 bytes: its content, the count and whether there was an error. -/
structure RandRead where
  buf : List UInt8
  hbuf : buf.length = size
  n : Nat
  failed : Bool

/-- `ComputeHMAC` (crypto/core/commit.go:99-117); `none` is the nil function.  Writing to a hash takes every byte and does not fail, as
`hash.Hash` documents. -/
def computeHMAC (f : Option HashFn) (msg k : List UInt8) : Res (List UInt8) :=
  match f with
  | none => .err
  | some H => .ok (hmac H k msg)

/-- `Commit` (crypto/core/commit.go:61-82); `sha` is `sha256.New`. -/
def commit (sha : HashFn) (msg : List UInt8) (rd : RandRead) : Res (List UInt8 × Witness) :=
  let d : Witness := ⟨msg, rd.buf, rd.hbuf⟩
  if rd.failed then .err
  else if rd.n ≠ size then .err
  else do
    let c ← computeHMAC (some sha) msg d.r
    Res.ok (c, d)

/-- `Open` (crypto/core/commit.go:84-97). -/
def openC (sha : HashFn) (c : List UInt8) (d : Witness) : Res Bool :=
  if c.length ≠ size then .err
  else do
    let c' ← computeHMAC (some sha) d.msg d.r
    Res.ok (c' == c)

/-- The standard library's JSON for `witnessJSON` (crypto/core/commit.go:37-41): the message and the numbers of the array. -/
structure Json where
  marshal : List UInt8 → List UInt8 → List UInt8
  unmarshal : List UInt8 → Option (List UInt8 × List UInt8)

/-- `MarshalJSON` (crypto/core/commit.go:44-47). -/
def marshalJson (J : Json) (w : Witness) : List UInt8 := J.marshal w.msg w.r

/-- `UnmarshalJSON` (crypto/core/commit.go:49-59); a JSON array shorter than the Go array is filled with zeros, the rest of a longer one is
dropped. -/
def unmarshalJson (J : Json) (data : List UInt8) : Res Witness :=
  match J.unmarshal data with
  | none => .err
  | some w => .ok ⟨w.1, fit size w.2, fit_length _ _⟩

/-! ## Theorems -/

/-- **C106.** `Commit` succeeds exactly if the random bytes were read in full; the commitment has 32 bytes, the witness holds the message
itself, and opening with it succeeds. -/
theorem C106_commit (sha : HashFn) (hs : sha.size = 32) (msg : List UInt8) (rd : RandRead) :
    (rd.failed = false ∧ rd.n = 32 → ∃ c d, commit sha msg rd = .ok (c, d) ∧ c.length = 32 ∧ d.msg = msg ∧ d.r = rd.buf ∧ openC sha c d = .ok true) ∧
    (rd.failed = true ∨ rd.n ≠ 32 → commit sha msg rd = .err) := by
  constructor
  · rintro ⟨h1, h2⟩
    refine ⟨hmac sha rd.buf msg, ⟨msg, rd.buf, rd.hbuf⟩, ?_, (hmac_length ..).trans hs, rfl, rfl, ?_⟩
    · unfold commit
      dsimp only
      rw [if_neg (by rw [h1]; decide), if_neg (not_not_intro h2)]
      rfl
    · unfold openC
      rw [if_neg (not_not_intro ((hmac_length ..).trans hs))]
      show Res.ok (hmac sha rd.buf msg == hmac sha rd.buf msg) = _
      rw [beq_self_eq_true]
  · intro h
    unfold commit
    dsimp only
    by_cases h1 : rd.failed = true
    · rw [if_pos h1]
    · rw [if_neg h1, if_pos (h.resolve_left h1)]

/-- **C106.** Opening is exactly the comparison with the HMAC of RFC 2104 keyed by the nonce; commitments of another length are errors. -/
theorem C106_open (sha : HashFn) (hb : sha.size ≤ sha.block) (c : List UInt8) (d : Witness) :
    (openC sha c d = .err ↔ c.length ≠ 32) ∧ (openC sha c d = .ok true ↔ c.length = 32 ∧ c = rfcHmac sha d.r d.msg) ∧
    (openC sha c d = .ok false ↔ c.length = 32 ∧ c ≠ rfcHmac sha d.r d.msg) ∧ openC sha c d ≠ .panic := by
  unfold openC
  by_cases h : c.length = 32
  · rw [if_neg (not_not_intro h)]
    have e : (do let c' ← computeHMAC (some sha) d.msg d.r; Res.ok (c' == c)) = Res.ok (hmac sha d.r d.msg == c) := rfl
    rw [e, hmac_rfc sha hb]
    by_cases hc : c = rfcHmac sha d.r d.msg
    · rw [← hc, beq_self_eq_true]
      exact ⟨⟨(nomatch ·), fun h' => absurd h h'⟩, ⟨fun _ => ⟨h, rfl⟩, fun _ => rfl⟩, ⟨(nomatch ·), fun h' => absurd rfl h'.2⟩, nofun⟩
    · rw [beq_false_of_ne (Ne.symm hc)]
      exact ⟨⟨(nomatch ·), fun h' => absurd h h'⟩, ⟨(nomatch ·), fun h' => absurd h'.2 hc⟩, ⟨fun _ => ⟨h, hc⟩, fun _ => rfl⟩, nofun⟩
  · rw [if_pos h]
    exact ⟨⟨fun _ => h, fun _ => rfl⟩, ⟨(nomatch ·), fun h' => absurd h'.1 h⟩, ⟨(nomatch ·), fun h' => absurd h'.1 h⟩, nofun⟩

/-- **C106.** Binding: two different witnesses that open the same commitment give a collision of the hash function. -/
theorem C106_binding (sha : HashFn) (hb : 32 ≤ sha.block) {c : List UInt8} {d d' : Witness} (h : openC sha c d = .ok true)
    (h' : openC sha c d' = .ok true) (hne : d ≠ d') : ∃ x y, x ≠ y ∧ sha.h x = sha.h y := by
  have key : ∀ d : Witness, openC sha c d = .ok true → hmac sha d.r d.msg = c := by
    intro d h
    unfold openC at h
    split at h
    · cases h
    · exact eq_of_beq (Res.ok.inj (show Res.ok (hmac sha d.r d.msg == c) = Res.ok true from h))
  refine hmac_collision sha (k := d.r) (k' := d'.r) (m := d.msg) (m' := d'.msg) (by rw [d.hr]; exact hb) (by rw [d.hr, d'.hr])
    ((key d h).trans (key d' h').symm) fun e => hne ?_
  exact Witness.ext' (congrArg Prod.snd e) (congrArg Prod.fst e)

/-- **C106.** A witness comes back from JSON unchanged, so it opens the same commitments; text the library refuses is an error. -/
theorem C106_json (J : Json) (hJ : ∀ m r, J.unmarshal (J.marshal m r) = some (m, r)) (w : Witness) :
    unmarshalJson J (marshalJson J w) = .ok w ∧ ∀ data, unmarshalJson J data = .err ↔ J.unmarshal data = none := by
  constructor
  · unfold unmarshalJson marshalJson
    rw [hJ]
    refine congrArg Res.ok (Witness.ext' rfl ?_)
    show fit size w.r = w.r
    rw [fit_of_le (by rw [w.hr]), w.hr]
    simp
  · intro data
    unfold unmarshalJson
    cases J.unmarshal data with
    | none => exact ⟨fun _ => rfl, fun _ => rfl⟩
    | some w => exact ⟨(nomatch ·), (nomatch ·)⟩

/-- **C106.** The general function refuses only the missing hash function, and is HMAC otherwise. -/
theorem C106_hmac (msg k : List UInt8) :
    computeHMAC none msg k = .err ∧ ∀ H : HashFn, H.size ≤ H.block → computeHMAC (some H) msg k = .ok (rfcHmac H k msg) :=
  ⟨rfl, fun H hb => congrArg Res.ok (hmac_rfc H hb k msg)⟩

/-! ## The hypotheses are met -/

/-- A read that went well. -/
def goodRead : RandRead := ⟨List.replicate 32 7, rfl, 32, false⟩

example : toyHash.size = 32 ∧ toyHash.size ≤ toyHash.block ∧ 32 ≤ toyHash.block := by decide

example : ∃ c d, commit toyHash [1, 2, 3] goodRead = .ok (c, d) ∧ openC toyHash c d = .ok true ∧
    openC toyHash c ⟨[1, 2, 4], d.r, d.hr⟩ = .ok false := by
  obtain ⟨c, d, h1, _, _, _, h2⟩ := (C106_commit toyHash rfl [1, 2, 3] goodRead).1 ⟨rfl, rfl⟩
  refine ⟨c, d, h1, h2, ?_⟩
  have e : (c, d) = (hmac toyHash goodRead.buf [1, 2, 3], ⟨[1, 2, 3], goodRead.buf, goodRead.hbuf⟩) := (Res.ok.inj (h1.symm.trans rfl))
  obtain ⟨rfl, rfl⟩ := Prod.mk.inj e
  decide +kernel

/-- Two witnesses of one commitment: the toy hash adds the bytes, so exchanging two of them does not change the digest. -/
example : ∃ (c : List UInt8) (d d' : Witness), openC toyHash c d = .ok true ∧ openC toyHash c d' = .ok true ∧ d ≠ d' :=
  ⟨hmac toyHash goodRead.buf [1, 2], ⟨[1, 2], goodRead.buf, goodRead.hbuf⟩, ⟨[2, 1], goodRead.buf, goodRead.hbuf⟩, by decide +kernel, by decide +kernel,
    fun h => absurd (congrArg Witness.msg h) (by decide)⟩

end Verif.Kdf.Commit
