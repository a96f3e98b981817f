import Verif.Curves.EdLib

/-!
# `EdSig`: the two single-party Ed25519 packages

`crypto/ted25519/ted25519/ed25519.go` (SHA-512, RFC 8032) and `crypto/signatures/schnorr/nem/ed25519_keccak.go` (Keccak-512 and a reversed
seed), over the library contract `EdLib`: keys may be any points, also those with a component of small order.  The hash functions are not part
of the repository and are arbitrary functions with 64 bytes of output.
-/

set_option linter.unusedSectionVars false

namespace Verif.EdSig
open Verif.Bytes Verif.Ed
open Verif.Ec.EdSc (ell clamp)

variable {A : Type} [AddCommGroup A]

/-- What the two packages do differently. -/
structure Suite where
  /-- `sha512.Sum512` or `Keccak512` -/
  hash : List UInt8 → List UInt8
  /-- what the seed goes through before it is hashed -/
  seedIn : List UInt8 → List UInt8
  /-- what `newKeyFromSeed` does to the first half of the digest before `SetBytesWithClamping` -/
  genMask : List UInt8 → List UInt8
  /-- what `sign` does to it -/
  signMask : List UInt8 → List UInt8

/-- `b[0] &= 248; b[31] &= m; b[31] |= 64` (crypto/ted25519/ted25519/ed25519.go:124-126, 172-174). -/
def mask (m : UInt8) (b : List UInt8) : List UInt8 :=
  match b with
  | [] => []
  | f :: r => (f &&& 248) :: (r.dropLast ++ [(r.getLastD 0 &&& m) ||| 64])

/-- The package `ted25519` (crypto/ted25519/ted25519/ed25519.go:123-126, 163-174). -/
def rfc (sha512 : List UInt8 → List UInt8) : Suite := ⟨sha512, id, mask 127, mask 63⟩

/-- `ReverseScalarBytes` (crypto/internal/point.go:21-29) before, and no masking but that of the library after the hash
(crypto/signatures/schnorr/nem/ed25519_keccak.go:140-148, 178-189). -/
def nem (keccak512 : List UInt8 → List UInt8) : Suite := ⟨keccak512, List.reverse, id, id⟩

/-- `SetBytesWithClamping`: masks and reduces (crypto/core/curves/ed25519_curve.go:273-279). -/
def clamped (b : List UInt8) : Nat := leToNat (clamp b) % ell

/-- `SetUniformBytes` of the 64 bytes of a digest (crypto/core/curves/ed25519_curve.go:261-267). -/
def wide (b : List UInt8) : Nat := leToNat b % ell

/-- `SetCanonicalBytes` of 32 bytes (crypto/core/curves/ed25519_curve.go:247-256, 286-288). -/
def canonical (b : List UInt8) : Option Nat := if leToNat b < ell then some (leToNat b) else none

/-- `newKeyFromSeed` into a fresh array of 64 bytes (crypto/ted25519/ted25519/ed25519.go:108-142,
crypto/signatures/schnorr/nem/ed25519_keccak.go:123-157). -/
def newKeyFromSeed (S : Suite) (L : EdLib A) (seed : List UInt8) : Res (List UInt8) :=
  if seed.length ≠ 32 then .err
  else
    let digest := S.hash (S.seedIn seed)
    let h := clamped (S.genMask (digest.take 32))
    .ok (seed ++ L.enc (h • L.base))

/-- `Public` (crypto/ted25519/ted25519/ed25519.go:52-56, crypto/signatures/schnorr/nem/ed25519_keccak.go:56-60). -/
def publicOf (priv : List UInt8) : Res (List UInt8) :=
  if priv.length < 32 then .panic
  else .ok ((priv.drop 32).take 32 ++ List.replicate (32 - (priv.drop 32).length) 0)

/-- `Seed` (crypto/ted25519/ted25519/ed25519.go:61-65, crypto/signatures/schnorr/nem/ed25519_keccak.go:74-78).  A slice with fewer than 32
elements is taken to have no spare capacity. -/
def seedOf (priv : List UInt8) : Res (List UInt8) :=
  if priv.length < 32 then .panic else .ok (priv.take 32)

/-- `GenerateKey`, given what `io.ReadFull` read: `none` is its error (crypto/ted25519/ted25519/ed25519.go:85-103,
crypto/signatures/schnorr/nem/ed25519_keccak.go:98-117). -/
def generateKey (S : Suite) (L : EdLib A) (rand : Option (List UInt8)) : Res (List UInt8 × List UInt8) :=
  match rand with
  | none => .err
  | some seed => do
    let priv ← newKeyFromSeed S L seed
    .ok ((priv.drop 32).take 32, priv)

/-- `Sign` (crypto/ted25519/ted25519/ed25519.go:146-228, crypto/signatures/schnorr/nem/ed25519_keccak.go:161-252). -/
def sign (S : Suite) (L : EdLib A) (priv msg : List UInt8) : Res (List UInt8) :=
  if priv.length ≠ 64 then .err
  else
    let digest := S.hash (S.seedIn (priv.take 32))
    let sc := clamped (S.signMask (digest.take 32))
    let r := wide (S.hash (digest.drop 32 ++ msg))
    let R := L.enc (r • L.base)
    let h := wide (S.hash (R ++ priv.drop 32 ++ msg))
    .ok (R ++ natToLE 32 ((h * sc + r) % ell))

/-- The method `Sign` of the key, which implements `crypto.Signer`: `hashFunc` is `opts.HashFunc()`
(crypto/ted25519/ted25519/ed25519.go:72-81, crypto/signatures/schnorr/nem/ed25519_keccak.go:85-94). -/
def signer (S : Suite) (L : EdLib A) (priv msg : List UInt8) (hashFunc : Nat) : Res (List UInt8) :=
  if hashFunc ≠ 0 then .err else sign S L priv msg

/-- `Verify` (crypto/ted25519/ted25519/ed25519.go:233-288, crypto/signatures/schnorr/nem/ed25519_keccak.go:257-320). -/
def verify (S : Suite) (L : EdLib A) (pub msg sig : List UInt8) : Res Bool :=
  if pub.length ≠ 32 then .err
  else if sig.length ≠ 64 ∨ (sig.getD 63 0) &&& 224 ≠ 0 then .err
  else
    match L.dec pub with
    | none => .err
    | some P =>
      let h := wide (S.hash (sig.take 32 ++ pub ++ msg))
      match canonical (sig.drop 32) with
      | none => .err
      | some s => .ok (decide (sig.take 32 = L.enc (h • (-P) + s • L.base)))

end Verif.EdSig
