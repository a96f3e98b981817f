import Verif.Schnorr.Model
import Verif.Base.GoRes
import Mathlib.Data.List.FinRange
import Mathlib.Data.Fintype.Basic

/-! Model of `/repo/crypto/ot/base/simplest/ot.go` and `util.go` (verified simplest OT) and of
`/repo/crypto/ot/ottest/util.go`.

`H` stands for SHA3-256; `X` for a merlin transcript's `ExtractBytes(label, 32)`: an arbitrary
function of everything appended to and extracted from the transcript before. -/

namespace Verif.OT

open Verif

variable {F G : Type} [Field F] [AddCommGroup G] [Module F G]

/-- ot.go:43-58: the `[DigestSize]byte` arrays -/
abbrev Digest := Fin 32 → UInt8

/-- one operation on a merlin transcript -/
inductive Ev where
  | append (label : String) (data : List UInt8)
  | extract (label : String)
deriving DecidableEq, Repr

/-- the history of a merlin transcript (its state is a function of it) -/
abbrev Transcript := List Ev

/-- The cryptographic environment of a curve: scalar and point encodings, hash, transcript.
`dec` is `Point.FromAffineCompressed`. -/
structure Env (F G : Type) [AddCommGroup G] where
  sc : Sharing.Codec F
  pc : PointCodec G
  dec : List UInt8 → Option G
  /-- decoding inverts encoding away from the identity -/
  dec_enc : ∀ p, p ≠ 0 → dec (pc.enc p) = some p
  g : G
  H : List UInt8 → Digest
  X : Transcript → String → Digest

/-- a digest as a byte slice (`d[:]`) -/
def bytesOf (d : Digest) : List UInt8 := List.ofFn d

/-- schnorr package with the same curve and hash -/
def Env.schnorr (E : Env F G) : Schnorr.Params F G := ⟨E.sc, E.pc, fun l => bytesOf (E.H l)⟩

/-- `transcript.ExtractBytes(label, 32)`: the bytes and the new transcript -/
def Env.extract (E : Env F G) (t : Transcript) (label : String) : Digest × Transcript :=
  (E.X t label, t ++ [.extract label])

/-- util.go:8-13 `xorBytes` -/
def xorBytes (a b : Digest) : Digest := fun i => a i ^^^ b i

/-- slice indexing: out of range panics -/
def idx {α : Type} (l : List α) (i : Nat) : Res α :=
  match l[i]? with
  | some a => .ok a
  | none => .panic

/-- util.go:26-29 `ExtractBitFromByteVector` -/
def extractBit (v : List UInt8) (i : Nat) : Res UInt8 := do
  let b ← idx v (i >>> 3)
  .ok ((b >>> UInt8.ofNat (i &&& 7)) &&& 1)

/-- `subtle.ConstantTimeCopy(v, x, y)` for equal lengths (unequal lengths panic, see `ctCopy`) -/
def ctSel {α : Type} (v : Nat) (x y : α) : α := if v = 1 then y else x

/-- `subtle.ConstantTimeCopy(v, x, y)` on slices: panics when the lengths differ -/
def ctCopy (v : Nat) (x y : List UInt8) : Res (List UInt8) :=
  if x.length ≠ y.length then .panic else .ok (ctSel v x y)

/-- array of two digests indexed by an `int` -/
def sel (p : Digest × Digest) (w : Nat) : Res Digest :=
  match w with
  | 0 => .ok p.1
  | 1 => .ok p.2
  | _ => .panic

/-- ot.go:86-102 `Sender` with its output (ot.go:64-69) -/
structure Sender (F G : Type) where
  keys : List (Digest × Digest)
  secretKey : F
  publicKey : G
  batchSize : Nat
  transcript : Transcript

/-- ot.go:72-83 `ReceiverOutput` -/
structure ReceiverOutput where
  packed : List UInt8
  bits : List Nat
  keys : List Digest

/-- ot.go:105-121 `Receiver` -/
structure Receiver (G : Type) where
  out : ReceiverOutput
  senderPublicKey : G
  senderChallenge : List Digest
  batchSize : Nat
  transcript : Transcript

/-- ot.go:131-132, 149-150 -/
def startTranscript (sid : Digest) : Transcript :=
  [.append "Coinbase_DKLs_SeedOT" [], .append "session_id" (bytesOf sid)]

/-- ot.go:127-139 `NewSender` -/
def newSender (batchSize : Nat) (sid : Digest) : Res (Sender F G) :=
  if batchSize &&& 7 ≠ 0 then .err
  else .ok { keys := [], secretKey := 0, publicKey := 0, batchSize := batchSize,
             transcript := startTranscript sid }

/-- util.go:16-22 `initChoice` -/
def initChoice (batchSize : Nat) (packed : List UInt8) : Res (List Nat) :=
  (List.range batchSize).mapM fun i => do
    let b ← extractBit packed i
    .ok b.toNat

/-- ot.go:143-166 `NewReceiver`; `rnd` are the bytes read from `rand` into the packed vector (its
length is fixed to `batchSize >> 3` by the code). -/
def newReceiver (batchSize : Nat) (sid : Digest) (rnd : Nat → UInt8) : Res (Receiver G) :=
  if batchSize &&& 7 ≠ 0 then .err
  else do
    let packed := (List.range (batchSize >>> 3)).map rnd
    let bits ← initChoice batchSize packed
    .ok { out := { packed := packed, bits := bits, keys := [] }, senderPublicKey := 0,
          senderChallenge := [], batchSize := batchSize, transcript := startTranscript sid }

/-- ot.go:171-186 `Round1ComputeAndZkpToPublicKey`; `b` the secret key, `k` the Schnorr nonce. -/
def Sender.round1 (E : Env F G) (s : Sender F G) (b k : F) : Res (Sender F G × Schnorr.Proof F G) :=
  let (sid, t) := E.extract s.transcript "sender schnorr proof"
  match Schnorr.prove E.schnorr E.g (bytesOf sid) b k with
  | none => .err
  | some pf => .ok ({ s with secretKey := b, publicKey := b • E.g, transcript := t }, pf)

/-- ot.go:215-225, 259-269: the one-time key for index `i` from the point `rho` -/
def padKey (E : Env F G) (salt : Digest) (i : Nat) (rho : G) : Digest :=
  E.H (bytesOf salt ++ [UInt8.ofNat i] ++ E.pc.enc rho)

/-- ot.go:201-226: one iteration of the pad transfer -/
def padTransferStep (E : Env F G) (B : G) (salt : Digest) (bits : List Nat) (a : Nat → F) (i : Nat) :
    Res (List UInt8 × Digest) := do
  let option0 := a i • E.g
  let option1 := option0 + B
  let w ← idx bits i
  let masked ← ctCopy w (E.pc.enc option0) (E.pc.enc option1)
  .ok (masked, padKey E salt i (a i • B))

/-- ot.go:190-228 `Round2VerifySchnorrAndPadTransfer`; `a i` the scalars drawn. -/
def Receiver.round2 (E : Env F G) (r : Receiver G) (pf : Schnorr.Proof F G) (a : Nat → F) :
    Res (Receiver G × List (List UInt8)) :=
  let (sid, t) := E.extract r.transcript "sender schnorr proof"
  if !Schnorr.verify E.schnorr pf E.g (bytesOf sid) then .err
  else do
    let (salt, t) := E.extract t "random oracle salts"
    let res ← (List.range r.batchSize).mapM (padTransferStep E pf.statement salt r.out.bits a)
    .ok ({ r with senderPublicKey := pf.statement, transcript := t,
                  out := { r.out with keys := res.map Prod.snd } }, res.map Prod.fst)

/-- ot.go:239-243: the loop decoding the masked choices -/
def decodeAll (E : Env F G) : List (List UInt8) → Res (List G)
  | [] => .ok []
  | b :: bs =>
    match E.dec b with
    | none => .err
    | some p => do
      let ps ← decodeAll E bs
      .ok (p :: ps)

/-- ot.go:250-280: keys and challenge for one index -/
def senderKeys (E : Env F G) (s : Sender F G) (salt : Digest) (A : List G) (i : Nat) :
    Res ((Digest × Digest) × Digest) := do
  let Ai ← idx A i
  let k0 := padKey E salt i (s.secretKey • Ai)
  let k1 := padKey E salt i (s.secretKey • (Ai + -s.publicKey))
  let h0 := E.H (bytesOf (E.H (bytesOf k0)))
  let h1 := E.H (bytesOf (E.H (bytesOf k1)))
  .ok ((k0, k1), xorBytes h0 h1)

/-- ot.go:232-282 `Round3PadTransfer` -/
def Sender.round3 (E : Env F G) (s : Sender F G) (masked : List (List UInt8)) :
    Res (Sender F G × List Digest) := do
  let A ← decodeAll E masked
  let (salt, t) := E.extract s.transcript "random oracle salts"
  let res ← (List.range s.batchSize).mapM (senderKeys E s salt A)
  .ok ({ s with keys := res.map Prod.fst, transcript := t }, res.map Prod.snd)

/-- ot.go:286-300 `Round4RespondToChallenge` -/
def Receiver.round4 (E : Env F G) (r : Receiver G) (challenge : List Digest) :
    Res (Receiver G × List Digest) := do
  let res ← (List.range r.batchSize).mapM fun i => do
    let k ← idx r.out.keys i
    let hashed := E.H (bytesOf (E.H (bytesOf k)))
    let c ← idx challenge i
    let w ← idx r.out.bits i
    .ok (ctSel w hashed (xorBytes c hashed))
  .ok ({ r with senderChallenge := challenge }, res)

/-- ot.go:306-320 `Round5Verify` -/
def Sender.round5 (E : Env F G) (s : Sender F G) (responses : List Digest) :
    Res (List (Digest × Digest)) :=
  (List.range s.batchSize).mapM fun i => do
    let k ← idx s.keys i
    let o0 := E.H (bytesOf k.1)
    let o1 := E.H (bytesOf k.2)
    let c ← idx responses i
    if E.H (bytesOf o0) ≠ c then .err else .ok (o0, o1)

/-- ot.go:332-347 `Round6Verify` -/
def Receiver.round6 (E : Env F G) (r : Receiver G) (openings : List (Digest × Digest)) : Res Unit := do
  let _ ← (List.range r.batchSize).mapM fun i => do
    let k ← idx r.out.keys i
    let w ← idx r.out.bits i
    let o ← idx openings i
    let ow ← sel o w
    if E.H (bytesOf k) ≠ ow then Res.err
    else do
      let c ← idx r.senderChallenge i
      if xorBytes (E.H (bytesOf o.1)) (E.H (bytesOf o.2)) ≠ c then Res.err
      else .ok ()
  .ok ()

/-- ot.go:363-376 `SenderOutput.Encrypt` -/
def encrypt (keys : List (Digest × Digest)) (pts : List (Digest × Digest)) :
    Res (List (Digest × Digest)) :=
  if pts.length ≠ keys.length then .err
  else (List.range pts.length).mapM fun i => do
    let k ← idx keys i
    let p ← idx pts i
    .ok (xorBytes k.1 p.1, xorBytes k.2 p.2)

/-- ot.go:380-392 `ReceiverOutput.Decrypt` -/
def decrypt (o : ReceiverOutput) (cts : List (Digest × Digest)) : Res (List Digest) :=
  if cts.length ≠ o.keys.length then .err
  else (List.range cts.length).mapM fun i => do
    let w ← idx o.bits i
    let k ← idx o.keys i
    let c ← idx cts i
    let cw ← sel c w
    .ok (xorBytes k cw)

/-- ottest/util.go:16-51 `RunSimplestOT` -/
def run (E : Env F G) (batchSize : Nat) (sid : Digest) (rnd : Nat → UInt8) (b k : F) (a : Nat → F) :
    Res (Sender F G × Receiver G) := do
  let r ← newReceiver (G := G) batchSize sid rnd
  let s ← newSender (F := F) (G := G) batchSize sid
  let (s, pf) ← s.round1 E b k
  let (r, masked) ← r.round2 E pf a
  let (s, ch) ← s.round3 E masked
  let (r, resp) ← r.round4 E ch
  let op ← s.round5 E resp
  r.round6 E op
  .ok (s, r)

end Verif.OT
