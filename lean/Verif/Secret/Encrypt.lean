import Verif.Accumulator.Props
import Verif.Base.Bytes

/-! Model of `/repo/crypto/secret/encrypt.go` and `/repo/crypto/secret/key.go` (property C47).

Libraries outside the repository are abstract functions with the laws stated in `Env.Lawful`: SHA-256, the Kyber-768
KEM of circl, AES-256-GCM of the Go standard library, the CID parser, and the BARE encoding of an accumulator.
The accumulator itself and its witness check are the model of `/repo/crypto/accumulator` (`Verif.Accumulator`).
Simplifications: accumulator, witness and key pointers are non-nil; the random reader does not fail. -/

set_option linter.unusedSectionVars false

namespace Verif.Secret
open Verif Verif.Bytes

variable {F G1 G2 GT : Type} [Field F] [DecidableEq F] [AddCommGroup G1] [Module F G1]
  [DecidableEq G1] [AddCommGroup G2] [Module F G2] [DecidableEq G2] [CommGroup GT] [DecidableEq GT]

/-- The library functions called by secret/encrypt.go:29-169.
`marshal`/`unmarshal`: accumulator/accumulator.go:141-173; `cidOk`: `cid.Decode` succeeds; `keyFromSeed`, `encap`,
`decap`: kyber768 `NewKeyFromSeed`, `EncapsulateTo` (with its randomness; ciphertext and shared key), `DecapsulateTo`;
`gseal`, `aopen`: AES-GCM with key, nonce and text, no associated data. -/
structure Env (G1 Pub Priv Rnd : Type) where
  cidOk : List UInt8 → Bool
  marshal : G1 → List UInt8
  unmarshal : List UInt8 → Option G1
  sha256 : List UInt8 → List UInt8
  keyFromSeed : List UInt8 → Pub × Priv
  encap : Pub → Rnd → List UInt8 × List UInt8
  decap : Priv → List UInt8 → List UInt8
  gseal : List UInt8 → List UInt8 → List UInt8 → List UInt8
  aopen : List UInt8 → List UInt8 → List UInt8 → Option (List UInt8)

variable {Pub Priv Rnd : Type}

/-- The laws of the libraries: what a correct KEM, a correct AEAD and a correct encoding satisfy. -/
structure Env.Lawful (E : Env G1 Pub Priv Rnd) : Prop where
  unm : ∀ V, E.unmarshal (E.marshal V) = some V
  sha : ∀ b, (E.sha256 b).length = 32
  ctl : ∀ pk r, (E.encap pk r).1.length = 1088
  kem : ∀ seed r, E.decap (E.keyFromSeed seed).2 (E.encap (E.keyFromSeed seed).1 r).1
    = (E.encap (E.keyFromSeed seed).1 r).2
  aead : ∀ k n m, E.aopen k n (E.gseal k n m) = some m

/-- secret/encrypt.go:16 -/
def accSize : Nat := 60
/-- kyber768.CiphertextSize, used at secret/encrypt.go:35 and 74 -/
def ctSize : Nat := 1088
/-- kyber768.KeySeedSize, used at secret/encrypt.go:136 -/
def seedSize : Nat := 64
/-- `gcm.NonceSize()`, used at secret/encrypt.go:49 and 104 -/
def nonceSize : Nat := 12

/-- secret/encrypt.go:18-20 `EncryptionScheme`: the stored accumulator key -/
structure Scheme (F : Type) where
  secretKey : F

/-- secret/encrypt.go:146-160 `generateDeterministicSeed` -/
def genSeed (E : Env G1 Pub Priv Rnd) (_es : Scheme F) (V : G1) (cid : List UInt8) : Res (List UInt8) :=
  if E.cidOk cid then .ok (E.sha256 (E.marshal V ++ cid)) else .err

/-- secret/encrypt.go:129-144 `deriveKyberKeypair`; `seed[:64]` of a seed that is not shorter -/
def deriveKey (E : Env G1 Pub Priv Rnd) (es : Scheme F) (V : G1) (cid : List UInt8) : Res (Pub × Priv) := do
  let seed ← genSeed E es V cid
  let seed := if seed.length < seedSize then seed ++ List.replicate (seedSize - seed.length) 0 else seed
  Res.ok (E.keyFromSeed (seed.take seedSize))

/-- secret/encrypt.go:29-69 `Encrypt`; `r` and `nonce` are the randomness of the KEM and of the AEAD -/
def encrypt (E : Env G1 Pub Priv Rnd) (es : Scheme F) (V : G1) (cid msg : List UInt8) (r : Rnd)
    (nonce : List UInt8) : Res (List UInt8) := do
  let kp ← deriveKey E es V cid
  let cs := E.encap kp.1 r
  let acc := E.marshal V
  if acc.length ≠ accSize then Res.err
  else
    let padded := acc ++ msg
    let sealed := E.gseal cs.2 nonce padded
    Res.ok (cs.1 ++ nonce ++ sealed)

/-- secret/encrypt.go:72-131 `Decrypt` -/
def decrypt (E : Env G1 Pub Priv Rnd) (P : Pairing F G1 G2 GT) (es : Scheme F) (cid data : List UInt8)
    (w : Accumulator.Witness F G1) (pk : G2) : Res (List UInt8) :=
  if data.length < ctSize + accSize then .err
  else do
    let V ← Res.ofOption (E.unmarshal (data.take accSize))
    let kp ← deriveKey E es V cid
    let ct := (data.drop accSize).take ctSize
    let ss := E.decap kp.2 ct
    if data.length < accSize + ctSize + nonceSize then Res.err
    else do
      let nonce := (data.drop (accSize + ctSize)).take nonceSize
      let c := data.drop (accSize + ctSize + nonceSize)
      let pt ← Res.ofOption (E.aopen ss nonce c)
      if Accumulator.verify P w pk V then Res.ok pt else Res.err

/-- secret/key.go:20-32 `NewKey`: `hash` is `Scalar.Hash`.  (`append` may write into the spare capacity of the slice
returned by `Bytes()`; not modelled.) -/
def newKey (hash : List UInt8 → F) (propertyKey pubKey : List UInt8) : F := hash (pubKey ++ propertyKey)

/-- secret/key.go:98-106 `convertValuesToElements` -/
def elements (hash : List UInt8 → F) (values : List (List UInt8)) : List F := values.map hash

/-- secret/key.go:35-46 `CreateAccumulator` -/
def createAccumulator (P : Pairing F G1 G2 GT) (hash : List UInt8 → F) (α : F) (values : List (List UInt8)) : Res G1 := do
  let r ← Accumulator.update α (Accumulator.new P) (elements hash values) []
  Res.ok r.1

/-- secret/key.go:49-57 `CreateWitness` -/
def createWitness (hash : List UInt8 → F) (α : F) (V : G1) (value : List UInt8) : Res (Accumulator.Witness F G1) :=
  Accumulator.newWitness (hash value) V α

/-- secret/key.go:60-62 `VerifyWitness` with 65-72 `PublicKey` -/
def verifyWitness (P : Pairing F G1 G2 GT) (α : F) (V : G1) (w : Accumulator.Witness F G1) : Bool :=
  Accumulator.verify P w (Accumulator.getPublicKey P α) V

/-- secret/key.go:75-81 `UpdateAccumulator` -/
def updateAccumulator (hash : List UInt8 → F) (α : F) (V : G1) (adds dels : List (List UInt8)) : Res G1 := do
  let r ← Accumulator.update α V (elements hash adds) (elements hash dels)
  Res.ok r.1

end Verif.Secret
