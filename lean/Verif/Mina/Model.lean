import Verif.Mina.BitVector
import Verif.Base.Bytes
import Mathlib.Data.ZMod.Basic
import Mathlib.Algebra.Module.Basic
import Mathlib.Algebra.Field.Basic

/-! Model of `/repo/crypto/signatures/schnorr/mina`: packing (`roinput.go`), sponge (`poseidon_hash.go`),
transactions (`txn.go`), keys and signatures (`keys.go`, `challenge_derive.go`). -/

namespace Verif.Mina

open Verif.Bytes

variable {p : Nat}

/-- signatures/schnorr/mina/roinput.go:15-18 `roinput`.  Base field elements are `ZMod p`. -/
structure RoInput (p : Nat) where
  fields : List (ZMod p)
  bits : BitVector

namespace RoInput

/-- signatures/schnorr/mina/roinput.go:25-29 `roinput.Init` -/
def init (bytes : Nat) : RoInput p := ⟨[], ⟨List.replicate bytes 0, 0⟩⟩

/-- signatures/schnorr/mina/roinput.go:44-46 `roinput.AddFp` -/
def addFp (r : RoInput p) (f : ZMod p) : RoInput p := { r with fields := r.fields ++ [f] }

/-- append bits `0 … k-1` of `n`, least significant first -/
def addNat (r : RoInput p) (n k : Nat) : Res (RoInput p) := do
  let b ← (List.range k).foldlM (fun v i => v.append (UInt8.ofNat ((n >>> i) &&& 1))) r.bits
  Res.ok { r with bits := b }

/-- signatures/schnorr/mina/roinput.go:48-58 `roinput.AddFq`: 255 bits of the canonical value; limb `i/64`,
bit `i%64` of the four limbs is bit `i` of the value. -/
def addFq (r : RoInput p) (s : Nat) : Res (RoInput p) := r.addNat s 255

/-- signatures/schnorr/mina/roinput.go:60-62 `roinput.AddBit` -/
def addBit (r : RoInput p) (b : Bool) : Res (RoInput p) := do
  let v ← r.bits.append (if b then 1 else 0)
  Res.ok { r with bits := v }

/-- signatures/schnorr/mina/roinput.go:64-70 `roinput.AddBytes` -/
def addBytes (r : RoInput p) (input : List UInt8) : Res (RoInput p) :=
  input.foldlM (fun r b => r.addNat b.toNat 8) r

/-- signatures/schnorr/mina/roinput.go:72-76 `roinput.AddUint32` -/
def addUint32 (r : RoInput p) (x : UInt32) : Res (RoInput p) := r.addNat x.toNat 32

/-- signatures/schnorr/mina/roinput.go:78-82 `roinput.AddUint64` -/
def addUint64 (r : RoInput p) (x : UInt64) : Res (RoInput p) := r.addNat x.toNat 64

/-- signatures/schnorr/mina/roinput.go:84-102 `roinput.Bytes`.  The buffer is large enough, so the
appends never reallocate and the returned slice is the vector's own buffer. -/
def bytes (r : RoInput p) : Res (List UInt8) := do
  let out : RoInput p := ⟨[], ⟨List.replicate ((r.bits.length + 7) / 8 + 32 * r.fields.length) 0, 0⟩⟩
  let out ← r.fields.foldlM (fun (o : RoInput p) f => o.addNat f.val 255) out
  let v ← (List.range r.bits.length).foldlM (fun (v : BitVector) (i : Nat) => do
    let b ← r.bits.element (i : Int)
    v.append b) out.bits
  Res.ok v.data

/-- signatures/schnorr/mina/roinput.go:124-130: one chunk of `n` bits starting at `start`, as an integer
(limb `i >> 6`, bit `i & 0x3f` is bit `i`). -/
def chunk (v : BitVector) (start n : Nat) : Res Nat :=
  (List.range n).foldlM (fun c i => do
    let b ← v.element ((start + i : Nat) : Int)
    Res.ok (c ||| (b.toNat <<< i))) 0

/-- signatures/schnorr/mina/roinput.go:113-134: the chunk loop; `fuel` bounds the iterations (each one
consumes at least one bit). -/
def chunks (v : BitVector) : Nat → Nat → Res (List Nat)
  | 0, _ => .ok []
  | fuel + 1, consumed =>
    if consumed < v.length then do
      let remaining := v.length - consumed
      let size := if remaining > 254 then 254 else remaining
      let c ← chunk v consumed size
      let rest ← chunks v fuel (consumed + size)
      Res.ok (c :: rest)
    else .ok []

/-- signatures/schnorr/mina/roinput.go:104-136 `roinput.Fields`; `SetRaw` reduces the integer. -/
def toFields (r : RoInput p) : Res (List (ZMod p)) := do
  let cs ← chunks r.bits r.bits.length 0
  Res.ok (r.fields ++ cs.map fun c => (c : ZMod p))

end RoInput

/-! ### sponge -/

/-- What the sponge imports: the permutation on the three state words (poseidon_config.go:48-70), the
initial states of the two networks, and the conversion of the digest word to a scalar. -/
structure Sponge (p : Nat) (F : Type) where
  perm : ZMod p × ZMod p × ZMod p → ZMod p × ZMod p × ZMod p
  ivTest : ZMod p × ZMod p × ZMod p
  ivMain : ZMod p × ZMod p × ZMod p
  out : ZMod p → F

/-- signatures/schnorr/mina/poseidon_hash.go:14-22 `Context` with width 3 and rate 2 (`ThreeW`) -/
structure Ctx (p : Nat) where
  state : ZMod p × ZMod p × ZMod p
  absorbed : Nat

variable {F : Type}

/-- signatures/schnorr/mina/poseidon_hash.go:1133-1165 `Context.Init`; an unknown network gives a nil
context, on which the next call panics. -/
def ctxInit (S : Sponge p F) (network : Nat) : Res (Ctx p) :=
  if network = 0 then .ok ⟨S.ivTest, 0⟩
  else if network = 1 then .ok ⟨S.ivMain, 0⟩
  else if network = 2 then .ok ⟨(0, 0, 0), 0⟩
  else .panic

/-- signatures/schnorr/mina/poseidon_hash.go:1167-1176 `Context.Update` -/
def ctxUpdate (S : Sponge p F) (c : Ctx p) (fields : List (ZMod p)) : Ctx p :=
  fields.foldl (fun c f =>
    let c := if c.absorbed = 2 then ⟨S.perm c.state, 0⟩ else c
    if c.absorbed = 0 then ⟨(c.state.1 + f, c.state.2.1, c.state.2.2), c.absorbed + 1⟩
    else ⟨(c.state.1, c.state.2.1 + f, c.state.2.2), c.absorbed + 1⟩) c

/-- signatures/schnorr/mina/poseidon_hash.go:1178-1182 `Context.Digest` -/
def ctxDigest (S : Sponge p F) (c : Ctx p) : F := S.out (S.perm c.state).1

/-! ### curve -/

/-- The Pallas curve (core/curves/pallas_curve.go): affine coordinates of group elements, `(0,0)` for
the identity (`toAffine`), and the 32-byte compressed encoding, whose decoding is only required to work
for non-identity points. -/
structure Pallas (p : Nat) (F G : Type) [Field F] [AddCommGroup G] [Module F G] where
  g : G
  x : G → ZMod p
  y : G → ZMod p
  x_zero : x 0 = 0
  y_zero : y 0 = 0
  x_neg : ∀ P, x (-P) = x P
  y_neg : ∀ P, y (-P) = -y P
  y_ne_zero : ∀ P, P ≠ 0 → y P ≠ 0
  x_inj : ∀ P Q, P ≠ 0 → Q ≠ 0 → x P = x Q → P = Q ∨ P = -Q
  enc : G → List UInt8
  dec : List UInt8 → Option G
  len_enc : ∀ P, (enc P).length = 32
  rt : ∀ P, P ≠ 0 → dec (enc P) = some P

variable {G : Type} [Field F] [DecidableEq F] [AddCommGroup G] [DecidableEq G] [Module F G]

/-- core/curves/native/pasta/fp/fp.go `IsOdd` of the `y` coordinate -/
def Pallas.yOdd (C : Pallas p F G) (P : G) : Bool := (C.y P).val % 2 = 1

/-! ### transactions -/

/-- signatures/schnorr/mina/txn.go:20-30 `Transaction`.  `NetworkId` is an `int`; only non-negative
values are modelled. -/
structure Txn (G : Type) where
  fee : UInt64
  feeToken : UInt64
  feePayerPk : G
  nonce : UInt32
  validUntil : UInt32
  memo : List UInt8
  tag0 : Bool
  tag1 : Bool
  tag2 : Bool
  sourcePk : G
  receiverPk : G
  tokenId : UInt64
  amount : UInt64
  locked : Bool
  networkId : Nat
deriving DecidableEq

/-- `copy` of a memo into a zeroed 32-byte field -/
def memoField (m : List UInt8) : List UInt8 :=
  m.take 32 ++ List.replicate (32 - m.length) 0

/-- the `mapper` table of `MarshalBinary` -/
def boolByte (b : Bool) : UInt8 := if b then 1 else 0

/-- signatures/schnorr/mina/txn.go:59-84 `Transaction.MarshalBinary` -/
def Txn.marshal (C : Pallas p F G) (t : Txn G) : List UInt8 :=
  natToLE 8 t.fee.toNat ++ natToLE 8 t.feeToken.toNat ++ C.enc t.feePayerPk ++
  natToLE 4 t.nonce.toNat ++ natToLE 4 t.validUntil.toNat ++
  [0x01, UInt8.ofNat t.memo.length] ++ memoField t.memo ++
  [boolByte t.tag0, boolByte t.tag1, boolByte t.tag2] ++ C.enc t.sourcePk ++ C.enc t.receiverPk ++
  natToLE 8 t.tokenId.toNat ++ natToLE 8 t.amount.toNat ++
  [boolByte t.locked, UInt8.ofNat t.networkId]

/-- `input[a:b]` with `b ≤ len` -/
def slice (l : List UInt8) (a b : Nat) : List UInt8 := (l.take b).drop a

/-- signatures/schnorr/mina/txn.go:86-125 `Transaction.UnmarshalBinary`.  `58+input[57]` is computed in
a byte; a slice bound beyond the input is taken to panic (no spare capacity). -/
def Txn.unmarshal (C : Pallas p F G) (input : List UInt8) : Res (Txn G) :=
  if input.length < 175 then .err
  else do
    let feePayerPk ← Res.ofOption (C.dec (slice input 16 48))
    let sourcePk ← Res.ofOption (C.dec (slice input 93 125))
    let receiverPk ← Res.ofOption (C.dec (slice input 125 157))
    let hi := ((58 : UInt8) + input.getD 57 0).toNat
    let memo ← if hi < 58 ∨ input.length < hi then Res.panic else Res.ok (slice input 58 hi)
    Res.ok {
      fee := UInt64.ofNat (leToNat (slice input 0 8))
      feeToken := UInt64.ofNat (leToNat (slice input 8 16))
      feePayerPk, sourcePk, receiverPk, memo
      nonce := UInt32.ofNat (leToNat (slice input 48 52))
      validUntil := UInt32.ofNat (leToNat (slice input 52 56))
      tag0 := input.getD 90 0 = 1
      tag1 := input.getD 91 0 = 1
      tag2 := input.getD 92 0 = 1
      tokenId := UInt64.ofNat (leToNat (slice input 157 165))
      amount := UInt64.ofNat (leToNat (slice input 165 173))
      locked := input.getD 173 0 = 1
      networkId := (input.getD 174 0).toNat }

/-- signatures/schnorr/mina/txn.go:202-224 `Transaction.addRoInput` -/
def Txn.addRoInput (C : Pallas p F G) (t : Txn G) (r : RoInput p) : Res (RoInput p) := do
  let r := ((r.addFp (C.x t.feePayerPk)).addFp (C.x t.sourcePk)).addFp (C.x t.receiverPk)
  let r ← r.addUint64 t.fee
  let r ← r.addUint64 t.feeToken
  let r ← r.addBit (C.yOdd t.feePayerPk)
  let r ← r.addUint32 t.nonce
  let r ← r.addUint32 t.validUntil
  let r ← r.addBytes ([0x01, UInt8.ofNat t.memo.length] ++ memoField t.memo)
  let r ← r.addBit t.tag0
  let r ← r.addBit t.tag1
  let r ← r.addBit t.tag2
  let r ← r.addBit (C.yOdd t.sourcePk)
  let r ← r.addBit (C.yOdd t.receiverPk)
  let r ← r.addUint64 t.tokenId
  let r ← r.addUint64 t.amount
  r.addBit t.locked

/-! ### signatures -/

/-- signatures/schnorr/mina/signature.go:17-20 `Signature` -/
structure Sig (p : Nat) (F : Type) where
  R : ZMod p
  S : F
deriving DecidableEq

/-- signatures/schnorr/mina/keys.go:240-249 `msgHash` -/
def msgHash (C : Pallas p F G) (H : Sponge p F) (pk : G) (rx : ZMod p) (input : RoInput p)
    (networkId : Nat) : Res F := do
  let input := ((input.addFp (C.x pk)).addFp (C.y pk)).addFp rx
  let ctx ← ctxInit H networkId
  let fields ← input.toFields
  Res.ok (ctxDigest H (ctxUpdate H ctx fields))

/-- signatures/schnorr/mina/keys.go:251-272 `SecretKey.msgDerive`; `kdf` is BLAKE2b-256 with the top two
bits cleared, read as a scalar; `raw` is the canonical integer of a scalar. -/
def msgDerive (C : Pallas p F G) (kdf : List UInt8 → F) (raw : F → Nat) (sk : F) (msg : RoInput p) (pk : G)
    (networkId : Nat) : Res F := do
  let input := (msg.addFp (C.x pk)).addFp (C.y pk)
  let input ← input.addFq (raw sk)
  let input ← input.addBytes [UInt8.ofNat networkId]
  let b ← input.bytes
  Res.ok (kdf b)

/-- signatures/schnorr/mina/keys.go:172-202 `SecretKey.finishSchnorrSign` -/
def finishSign (C : Pallas p F G) (H : Sponge p F) (kdf : List UInt8 → F) (raw : F → Nat) (sk : F)
    (input : RoInput p) (networkId : Nat) : Res (Sig p F) :=
  if sk = 0 then .err
  else do
    let pk := sk • C.g
    let k ← msgDerive C kdf raw sk input pk networkId
    if k = 0 then Res.err
    else do
      let r := k • C.g
      let k' := if C.yOdd r then -k else k
      let rx := C.x r
      let e ← msgHash C H pk rx input networkId
      let s := k' + e * sk
      if rx = 0 ∨ s = 0 then Res.err else Res.ok ⟨rx, s⟩

/-- signatures/schnorr/mina/keys.go:218-240 `PublicKey.finishSchnorrVerify`; `ok ()` is a nil error. -/
def finishVerify (C : Pallas p F G) (H : Sponge p F) (pk : G) (sig : Sig p F) (input : RoInput p)
    (networkId : Nat) : Res Unit :=
  if pk = 0 then .err
  else if sig.R = 0 ∨ sig.S = 0 then .err
  else do
    let e ← msgHash C H pk sig.R input networkId
    let r := sig.S • C.g + -(e • pk)
    if !C.yOdd r && decide (C.x r = sig.R) then Res.ok () else Res.err

/-- signatures/schnorr/mina/keys.go:159-163 `SecretKey.SignTransaction` -/
def signTransaction (C : Pallas p F G) (H : Sponge p F) (kdf : List UInt8 → F) (raw : F → Nat) (sk : F)
    (t : Txn G) : Res (Sig p F) := do
  let input ← t.addRoInput C (RoInput.init 75)
  finishSign C H kdf raw sk input t.networkId

/-- signatures/schnorr/mina/keys.go:205-209 `PublicKey.VerifyTransaction` -/
def verifyTransaction (C : Pallas p F G) (H : Sponge p F) (pk : G) (sig : Sig p F) (t : Txn G) :
    Res Unit := do
  let input ← t.addRoInput C (RoInput.init 75)
  finishVerify C H pk sig input t.networkId

/-- signatures/schnorr/mina/keys.go:167-171 `SecretKey.SignMessage` -/
def signMessage (C : Pallas p F G) (H : Sponge p F) (kdf : List UInt8 → F) (raw : F → Nat) (sk : F)
    (message : List UInt8) : Res (Sig p F) := do
  let input ← (RoInput.init message.length : RoInput p).addBytes message
  finishSign C H kdf raw sk input 1

/-- signatures/schnorr/mina/keys.go:212-216 `PublicKey.VerifyMessage` -/
def verifyMessage (C : Pallas p F G) (H : Sponge p F) (pk : G) (sig : Sig p F) (message : List UInt8) :
    Res Unit := do
  let input ← (RoInput.init message.length : RoInput p).addBytes message
  finishVerify C H pk sig input 1

/-- signatures/schnorr/mina/challenge_derive.go:17-42 `MinaTSchnorrHandler.DeriveChallenge` -/
def deriveChallenge (C : Pallas p F G) (H : Sponge p F) (msg : List UInt8) (pk r : G) : Res F := do
  let t ← Txn.unmarshal C msg
  let input ← t.addRoInput C (RoInput.init 75)
  msgHash C H pk (C.x r) input 1

end Verif.Mina
