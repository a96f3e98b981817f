import Verif.Ted25519.Model
import Verif.Curves.EdSig
import Verif.Curves.EdLib
import Verif.Curves.EcScalarApi
import Verif.Kdf.Hmac

/-!
# Keys and nonces of the threshold Ed25519 package

The parts of `/repo/crypto/ted25519/ted25519` that `Model.lean` leaves abstract: where keys and nonces come from, the sums of nonces, and the byte
forms.  Points are those of an `EdLib` (`Verif.Ed25519.lib` is the curve itself); SHA-512 is an arbitrary function with 64 bytes of output and
SHA-256 a `HashFn`.
-/

set_option linter.unusedSectionVars false

namespace Verif.Ted25519

open Verif.SharingV1 Verif.Bytes
open Verif.Ed (EdLib)
open Verif.Ec.EdSc (ell)
open Verif.Hash Verif.Kdf

variable {A : Type} [AddCommGroup A]

/-- `ExpandSeed` (crypto/ted25519/ted25519/ext.go:33-39). -/
def expandSeed (sha512 : List UInt8 → List UInt8) (seed : List UInt8) : List UInt8 := EdSig.mask 127 ((sha512 seed).take 32)

/-- `GeAdd` (crypto/ted25519/ted25519/ext.go:17-29). -/
def geAddLib (L : EdLib A) (a b : List UInt8) : Res (List UInt8) :=
  match L.dec a with
  | none => .panic
  | some P =>
    match L.dec b with
    | none => .panic
    | some Q => .ok (L.enc (P + Q))

/-- `generateSharableKey` (crypto/ted25519/ted25519/keygen.go:87-121), given what the generator delivered to `GenerateKey`. -/
def generateSharableKey (sha512 : List UInt8 → List UInt8) (L : EdLib A) (rand : Option (List UInt8)) : Res (List UInt8 × List UInt8) := do
  let (pub, priv) ← EdSig.generateKey (EdSig.rfc sha512) L rand
  let seed ← EdSig.seedOf priv
  let expanded := (expandSeed sha512 seed).reverse
  .ok (pub, natToBE (beToNat expanded % ell))

/-- The commitment to one coefficient: `SetBytesCanonical` of its reversed bytes, times the generator
(crypto/ted25519/ted25519/keygen.go:162-174). -/
def coeffLib (L : EdLib A) (c : ZMod ell) : Option A :=
  (canonical (p := ell) (pad32 (natToBE c.val).reverse)).map fun k => k.val • L.base

/-- `split` and `splitPrivateKey` (crypto/ted25519/ted25519/keygen.go:134-177); `rnd` are the random coefficients drawn. -/
def splitLib (L : EdLib A) (T N : Int) (secret : List UInt8) (rnd : Nat → ZMod ell) : Res (List A × List (Share ell)) :=
  match newShamir T N with
  | none => .err
  | some s => do
    let (shares, poly) ← getSharesAndPolynomial s secret rnd
    match poly.mapM (coeffLib L) with
    | none => .err
    | some v => .ok (v, shares)

/-- `GenerateSharedKey` (crypto/ted25519/ted25519/keygen.go:119-131). -/
def generateSharedKey (sha512 : List UInt8 → List UInt8) (L : EdLib A) (T N : Int) (rand : Option (List UInt8)) (rnd : Nat → ZMod ell) :
    Res (List UInt8 × List (Share ell) × List A) := do
  let (pub, priv) ← generateSharableKey sha512 L rand
  let (commitments, keyShares) ← splitLib L T N priv rnd
  .ok (pub, keyShares, commitments)

/-- The input keying material of `generateRandomHkdf` (crypto/ted25519/ted25519/noncegen.go:112-114). -/
def nonceSecret (s : Share ell) (randNonce : List UInt8) : List UInt8 := s.bytes ++ randNonce

/-- `"ted25519nonce"` -/
def nonceLabel : List UInt8 := [0x74, 0x65, 0x64, 0x32, 0x35, 0x35, 0x31, 0x39, 0x6e, 0x6f, 0x6e, 0x63, 0x65]

/-- The info of `generateRandomHkdf` (crypto/ted25519/ted25519/noncegen.go:116-119). -/
def nonceInfo (pub msg : List UInt8) : List UInt8 := nonceLabel ++ pub ++ msg

/-- `generateRandomHkdf` and the one `Read` of 64 bytes that `RandomElement` makes (crypto/ted25519/ted25519/noncegen.go:102-122,
crypto/core/curves/field.go:110-131, crypto/core/curves/ec_scalar.go:330-347).  `rand` is what the system's generator delivered. The salt of
`hkdf.New` is a block of zeros where none is given.  The value is below the order, so `newElement` does not panic. -/
def nonceElement (sha256 : HashFn) (sha512 : List UInt8 → List UInt8) (s : Share ell) (pub msg : List UInt8) (rand : Option (List UInt8)) :
    Res Nat :=
  match rand with
  | none => .err
  | some randNonce => do
    let seed ← hkdfRead sha256 (nonceSecret s randNonce) (List.replicate sha256.size 0) (nonceInfo pub msg) 64
    .ok (EdSig.clamped ((sha512 seed).take 32))

/-- `generateSharableNonce` (crypto/ted25519/ted25519/noncegen.go:34-66). -/
def generateSharableNonce (sha256 : HashFn) (sha512 : List UInt8 → List UInt8) (L : EdLib A) (s : Share ell) (pub msg : List UInt8)
    (rand : Option (List UInt8)) : Res (List UInt8 × List UInt8) := do
  let nonce ← nonceElement sha256 sha512 s pub msg rand
  match canonical (p := ell) (pad32 (natToBE nonce).reverse) with
  | none => .err
  | some k => .ok (L.enc (k.val • L.base), natToBE nonce)

/-- `GenerateSharedNonce` (crypto/ted25519/ted25519/noncegen.go:70-89). -/
def generateSharedNonce (sha256 : HashFn) (sha512 : List UInt8 → List UInt8) (L : EdLib A) (T N : Int) (s : Share ell) (pub msg : List UInt8)
    (rand : Option (List UInt8)) (rnd : Nat → ZMod ell) : Res (List UInt8 × List (Share ell) × List A) := do
  let (noncePub, nonce) ← generateSharableNonce sha256 sha512 L s pub msg rand
  let (commitments, keyShares) ← splitLib L T N nonce rnd
  .ok (noncePub, keyShares, commitments)

/-- The sum of the public nonces, as the signers form it (crypto/ted25519/ted25519/twobytwo_test.go:43-49). -/
def sumPubs (L : EdLib A) : List (List UInt8) → Res (List UInt8)
  | [] => .err
  | a :: l => l.foldlM (geAddLib L) a

/-- The sum of one party's nonce shares: `NonceShare.Add` (crypto/ted25519/ted25519/noncegen.go:92-100). -/
def sumShares : List (Share ell) → Res (Share ell)
  | [] => .err
  | a :: l => l.foldlM Share.add a

/-- `PublicKeyFromBytes` (crypto/ted25519/ted25519/keygen.go:18-24). -/
def publicKeyFromBytes (b : List UInt8) : Res (List UInt8) := if b.length ≠ 32 then .err else .ok b

/-- `CommitmentsToBytes` (crypto/ted25519/ted25519/keygen.go:41-49). -/
def commitmentsToBytes (L : EdLib A) (c : List A) : List (List UInt8) := c.map L.enc

/-- `CommitmentsFromBytes` (crypto/ted25519/ted25519/keygen.go:52-65). -/
def commitmentsFromBytes (L : EdLib A) : List (List UInt8) → Res (List A)
  | [] => .ok []
  | b :: r => do
    let pubKey ← publicKeyFromBytes b
    match L.dec pubKey with
    | none => .err
    | some P => do
      let l ← commitmentsFromBytes L r
      .ok (P :: l)

end Verif.Ted25519
