import Verif.Dkls.Sign

/-! Model of `/repo/crypto/tecdsa/dklsv1/protocol.go`, `/repo/crypto/mpc/mpc.go` and of the step lists of
`/repo/crypto/tecdsa/dklsv1/boilerplate.go`. -/

namespace Verif.Mpc
open Verif Verif.OT

/-- what `Iterator.Next` (core/protocol/protocol.go:56-59) returns: a message (or nil), the sentinel error
`ErrProtocolFinished`, another error; or it panics -/
inductive Outcome (M : Type) where
  | ok (m : Option M)
  | finished
  | err
  | panic
deriving DecidableEq, Repr

/-- a step function; the party's state is shared by the closures -/
abbrev Step (σ M : Type) := σ → Option M → σ × Outcome M

/-- dklsv1/protocol.go:10-13 `protoStepper`, with the state of the party -/
structure Party (σ M : Type) where
  steps : List (Step σ M)
  step : Nat
  st : σ

variable {σ τ M : Type}

/-- dklsv1/protocol.go:33-33 `complete` -/
def Party.complete (p : Party σ M) : Bool := decide (p.steps.length ≤ p.step)

/-- dklsv1/protocol.go:16-30 `Next` -/
def Party.next (p : Party σ M) (input : Option M) : Party σ M × Outcome M :=
  if p.complete then (p, .finished)
  else
    match p.steps[p.step]? with
    | none => (p, .panic)
    | some f =>
      match f p.st input with
      | (s, .ok m) => ({ p with st := s, step := p.step + 1 }, .ok m)
      | (s, o) => ({ p with st := s }, o)

/-- how `RunProtocol` ends; `running` means that the model's step bound was reached -/
inductive Verdict where
  | ok | errFirst | errSecond | panic | running
deriving DecidableEq, Repr

/-- the message and the finished flag taken from an outcome without error -/
def Outcome.msg : Outcome M → Option M
  | .ok m => m
  | _ => none

def Outcome.fin : Outcome M → Bool
  | .finished => true
  | _ => false

/-- mpc/mpc.go:41-52 the loop; the first argument bounds the iterations -/
def loop : Nat → Party σ M → Party τ M → Option M → Bool → Bool → Party σ M × Party τ M × Verdict
  | 0, p, q, _, _, _ => (p, q, .running)
  | n + 1, p, q, message, aFin, bFin =>
    if aFin && bFin then (p, q, .ok)
    else
      match p.next message with
      | (p, .err) => (p, q, .errFirst)
      | (p, .panic) => (p, q, .panic)
      | (p, o) =>
        match q.next o.msg with
        | (q, .err) => (p, q, .errSecond)
        | (q, .panic) => (p, q, .panic)
        | (q, o') => loop n p q o'.msg o'.fin o.fin

/-- steps still to do -/
def Party.remaining (p : Party σ M) : Nat := p.steps.length - p.step

/-- mpc/mpc.go:34-63 `RunProtocol` -/
def runProtocol (p : Party σ M) (q : Party τ M) : Party σ M × Party τ M × Verdict :=
  loop (p.remaining + q.remaining + 2) p q none false false

/-! ### the parties of `boilerplate.go` -/

variable {F G : Type} [Field F] [DecidableEq F] [AddCommGroup G] [DecidableEq G] [Module F G]

open Verif.Dkls

/-- the payload of a message.  The gob encoding is not modelled: a payload is the value encoded, and decoding
another type of payload is an error. -/
inductive Payload (F G : Type) where
  | digest (d : Digest)
  | dkg2 (m : Dkg.Round2Output)
  | proof (p : Schnorr.Proof F G)
  | masked (m : List (List UInt8))
  | digests (l : List Digest)
  | openings (l : List (Digest × Digest))
  | scalar (s : F)
  | refresh2 (m : Refresh.Round2Output F G)
  | sign2 (m : Sign.Round2Output G)
  | sign3 (m : Sign.Round3Output F G)

/-- core/protocol/protocol.go:39-54 `Message`: version and payload -/
structure Msg (F G : Type) where
  version : Nat
  payload : Payload F G

/-- core/protocol/protocol.go:34 `Version1` -/
def version1 : Nat := 200

/-- dkgserializers.go:33-44 (and the other encoders): only version 1 is supported.  The refresh encoders
accept newer versions too (refreshserializers.go:25-30); the parties below are created with one version for all. -/
def encode (version : Nat) (p : Payload F G) : Res (Option (Msg F G)) :=
  if version ≠ version1 then .err else .ok (some ⟨version, p⟩)

/-- dkgserializers.go:46-57 (and the other decoders): a nil message is dereferenced, other versions are errors -/
def decode (m : Option (Msg F G)) : Res (Payload F G) :=
  match m with
  | none => .panic
  | some m => if m.version ≠ version1 then .err else .ok m.payload

/-- a step from a computation returning the new state and the message -/
def step {σ M : Type} (f : σ → Option M → Res (σ × Option M)) : Step σ M := fun s m =>
  match f s m with
  | .ok (s, m) => (s, .ok m)
  | .err => (s, .err)
  | .panic => (s, .panic)

/-- Bob's state in key generation: the transcript after round 1, or the full state after round 3 -/
inductive BobDkg (F G : Type) where
  | fresh
  | seeded (t : Transcript)
  | full (b : Dkg.Bob F G)

/-- Alice's state in key generation -/
inductive AliceDkg (F G : Type) where
  | fresh
  | full (a : Dkg.Alice F G)

/-- boilerplate.go:138-194 `NewBobDkg`; `r` the randomness of the run -/
def newBobDkg (E : OT.Env F G) (r : Dkg.Rand F) (version : Nat) : Party (BobDkg F G) (Msg F G) where
  step := 0
  st := .fresh
  steps := [
    step fun _ _ => do
      let (t, seed) := Dkg.bobRound1 r.bobSeed
      let m ← encode version (.digest seed)
      .ok (.seeded t, m),
    step fun s m => do
      match s, ← decode m with
      | .seeded t, .dkg2 x => do
        let (b, pf) ← Dkg.bobRound3 E t x r.skB r.kB
        let m ← encode version (.proof pf)
        .ok (.full b, m)
      | _, _ => .err,
    step fun s m => do
      match s, ← decode m with
      | .full b, .proof x => do
        let (b, pf) ← Dkg.bobRound5 E b x r.otSk r.otK
        let m ← encode version (.proof pf)
        .ok (.full b, m)
      | _, _ => .err,
    step fun s m => do
      match s, ← decode m with
      | .full b, .masked x => do
        let (b, ch) ← Dkg.bobRound7 E b x
        let m ← encode version (.digests ch)
        .ok (.full b, m)
      | _, _ => .err,
    step fun s m => do
      match s, ← decode m with
      | .full b, .digests x => do
        let op ← Dkg.bobRound9 E b x
        let m ← encode version (.openings op)
        .ok (.full b, m)
      | _, _ => .err]

/-- boilerplate.go:61-122 `NewAliceDkg` -/
def newAliceDkg (E : OT.Env F G) (r : Dkg.Rand F) (version : Nat) : Party (AliceDkg F G) (Msg F G) where
  step := 0
  st := .fresh
  steps := [
    step fun _ m => do
      match ← decode m with
      | .digest x => do
        let (a, o) ← Dkg.aliceRound2 E x r.aliceSeed r.choices r.skA r.kA
        let m ← encode version (.dkg2 o)
        .ok (.full a, m)
      | _ => .err,
    step fun s m => do
      match s, ← decode m with
      | .full a, .proof x => do
        let (a, pf) ← Dkg.aliceRound4 E a x
        let m ← encode version (.proof pf)
        .ok (.full a, m)
      | _, _ => .err,
    step fun s m => do
      match s, ← decode m with
      | .full a, .proof x => do
        let (a, c) ← Dkg.aliceRound6 E a x r.pads
        let m ← encode version (.masked c)
        .ok (.full a, m)
      | _, _ => .err,
    step fun s m => do
      match s, ← decode m with
      | .full a, .digests x => do
        let (a, c) ← Dkg.aliceRound8 E a x
        let m ← encode version (.digests c)
        .ok (.full a, m)
      | _, _ => .err,
    step fun s m => do
      match s, ← decode m with
      | .full a, .openings x => do
        Dkg.aliceRound10 E a x
        .ok (.full a, none)
      | _, _ => .err]

/-- boilerplate.go:126-137, 201-212 `Result` of key generation: nil before completion; the output is encoded
for version 1 only -/
def result {σ α : Type} (p : Party σ (Msg F G)) (output : σ → Option α) (version : Nat) : Res (Option α) :=
  if !p.complete then .ok none
  else if version ≠ version1 then .err
  else
    match output p.st with
    | none => .panic
    | some x => .ok (some x)

def AliceDkg.output : AliceDkg F G → Option (AliceOutput F G)
  | .full a => some a.output
  | .fresh => none

def BobDkg.output : BobDkg F G → Option (BobOutput F G)
  | .full b => some b.output
  | _ => none

/-- the results of both parties after a protocol run without error; a nil result is decoded later and panics
(`m.Version` of a nil message) -/
def both {α β : Type} (v : Verdict) (a : Res (Option α)) (b : Res (Option β)) : Res (α × β) :=
  match v with
  | .ok => do
    match ← a with
    | none => .panic
    | some x => do
      match ← b with
      | none => .panic
      | some y => .ok (x, y)
  | .panic => .panic
  | _ => .err

/-- mpc/mpc.go:14-31 `GenerateKss`: Bob is the first party.  The keyshare set is the pair of outputs. -/
def generateKss (E : OT.Env F G) (r : Dkg.Rand F) : Res (AliceOutput F G × BobOutput F G) :=
  let (bob, alice, v) := runProtocol (newBobDkg E r version1) (newAliceDkg E r version1)
  both v (result alice AliceDkg.output version1) (result bob BobDkg.output version1)

/-- Alice's state in a refresh -/
inductive AliceRefresh (F G : Type) where
  | fresh
  | seeded (t : Transcript)
  | full (a : Refresh.Alice F G)

/-- Bob's state in a refresh -/
inductive BobRefresh (F G : Type) where
  | fresh
  | full (b : Refresh.Bob F G)

/-- boilerplate.go:296-342 `NewAliceRefresh` -/
def newAliceRefresh (E : OT.Env F G) (o : AliceOutput F G) (r : Refresh.Rand F) (version : Nat) :
    Party (AliceRefresh F G) (Msg F G) where
  step := 0
  st := .fresh
  steps := [
    step fun _ _ => do
      let (t, seed) := Refresh.aliceRound1 E r.aliceSeed
      let m ← encode version (.scalar seed)
      .ok (.seeded t, m),
    step fun s m => do
      match s, ← decode m with
      | .seeded t, .refresh2 x => do
        let (a, c) ← Refresh.aliceRound3 E o t x r.choices r.pads
        let m ← encode version (.masked c)
        .ok (.full a, m)
      | _, _ => .err,
    step fun s m => do
      match s, ← decode m with
      | .full a, .digests x => do
        let (a, c) ← Refresh.aliceRound5 E a x
        let m ← encode version (.digests c)
        .ok (.full a, m)
      | _, _ => .err,
    step fun s m => do
      match s, ← decode m with
      | .full a, .openings x => do
        Refresh.aliceRound7 E a x
        .ok (.full a, none)
      | _, _ => .err]

/-- boilerplate.go:359-402 `NewBobRefresh` -/
def newBobRefresh (E : OT.Env F G) (o : BobOutput F G) (r : Refresh.Rand F) (version : Nat) :
    Party (BobRefresh F G) (Msg F G) where
  step := 0
  st := .fresh
  steps := [
    step fun _ m => do
      match ← decode m with
      | .scalar x => do
        let (b, out) ← Refresh.bobRound2 E o x r.bobSeed r.otSk r.otK
        let m ← encode version (.refresh2 out)
        .ok (.full b, m)
      | _ => .err,
    step fun s m => do
      match s, ← decode m with
      | .full b, .masked x => do
        let (b, c) ← Refresh.bobRound4 E b x
        let m ← encode version (.digests c)
        .ok (.full b, m)
      | _, _ => .err,
    step fun s m => do
      match s, ← decode m with
      | .full b, .digests x => do
        let c ← Refresh.bobRound6 E b x
        let m ← encode version (.openings c)
        .ok (.full b, m)
      | _, _ => .err]

def AliceRefresh.output : AliceRefresh F G → Option (AliceOutput F G)
  | .full a => some a.output
  | _ => none

def BobRefresh.output : BobRefresh F G → Option (BobOutput F G)
  | .full b => some b.output
  | _ => none

/-- mpc/mpc.go:82-97 `RunRefreshProtocol` on the functions of one keyshare set (kss/val.go, kss/usr.go
`GetRefreshFunc`): the validator is Alice and the first party. -/
def runRefresh (E : OT.Env F G) (ks : AliceOutput F G × BobOutput F G) (r : Refresh.Rand F) :
    Res (AliceOutput F G × BobOutput F G) :=
  let (alice, bob, v) := runProtocol (newAliceRefresh E ks.1 r version1) (newBobRefresh E ks.2 r version1)
  both v (result alice AliceRefresh.output version1) (result bob BobRefresh.output version1)

/-- the random values of one signature -/
structure SignRand (F : Type) where
  aliceSeed : Digest
  bobSeed : Digest
  kB : F
  gamma0 : Nat → UInt8
  rnd0 : Nat → UInt8
  gamma1 : Nat → UInt8
  rnd1 : Nat → UInt8
  kPrime : F
  kSch : F
  phi : F
  hat0 : F
  hat1 : F

/-- Alice's state in signing -/
inductive AliceSign (F G : Type) where
  | fresh
  | seeded (a : Sign.Alice F G)

/-- Bob's state in signing -/
inductive BobSign (F G : Type) where
  | fresh
  | full (b : Sign.Bob F G)
  | signed (s : Sign.Signature)

/-- boilerplate.go:212-239 `NewAliceSign`, with a fresh hash (kss/val.go `GetSignFunc`) -/
def newAliceSign (E : SEnv F G) (o : AliceOutput F G) (message : List UInt8) (r : SignRand F) (version : Nat) :
    Party (AliceSign F G) (Msg F G) where
  step := 0
  st := .fresh
  steps := [
    step fun _ _ => do
      let (a, seed) := Sign.aliceRound1 o [] r.aliceSeed
      let m ← encode version (.digest seed)
      .ok (.seeded a, m),
    step fun s m => do
      match s, ← decode m with
      | .seeded a, .sign2 x => do
        let out ← Sign.aliceRound3 E a message x r.kPrime r.kSch r.phi r.hat0 r.hat1
        let m ← encode version (.sign3 out)
        .ok (.seeded a, m)
      | _, _ => .err]

/-- boilerplate.go:243-274 `NewBobSign` -/
def newBobSign (E : SEnv F G) (o : BobOutput F G) (message : List UInt8) (r : SignRand F) (version : Nat) :
    Party (BobSign F G) (Msg F G) where
  step := 0
  st := .fresh
  steps := [
    step fun _ m => do
      match ← decode m with
      | .digest x => do
        let (b, out) ← Sign.bobRound2 E o [] x r.bobSeed r.kB r.gamma0 r.rnd0 r.gamma1 r.rnd1
        let m ← encode version (.sign2 out)
        .ok (.full b, m)
      | _ => .err,
    step fun s m => do
      match s, ← decode m with
      | .full b, .sign3 x => do
        let sig ← Sign.bobRound4 E b message x
        .ok (.signed sig, none)
      | _, _ => .err]

def BobSign.output : BobSign F G → Option Sign.Signature
  | .signed s => some s
  | _ => none

/-- mpc/mpc.go:66-79 `RunSignProtocol` on the functions of one keyshare set, up to the serialisation -/
def runSign (E : SEnv F G) (ks : AliceOutput F G × BobOutput F G) (message : List UInt8) (r : SignRand F) :
    Res Sign.Signature :=
  let (_, bob, v) := runProtocol (newAliceSign E ks.1 message r version1) (newBobSign E ks.2 message r version1)
  match v with
  | .ok => do
    match ← result bob BobSign.output version1 with
    | none => .panic
    | some s => .ok s
  | .panic => .panic
  | _ => .err

/-- signatures/ecdsa/ecdsa_signature.go:11-20 `SerializeSecp256k1Signature`: 66 bytes; for an `R` of more than 33 or an `S`
of more than 66 bytes the slice bound is negative -/
def serializeSig (s : Sign.Signature) : Res (List UInt8) :=
  let rb := Bytes.natToBE s.R
  let sb := Bytes.natToBE s.S
  if 33 < rb.length ∨ 66 < sb.length then .panic
  else
    let buf := UInt8.ofNat s.V :: List.replicate 65 0
    let buf := buf.take (33 - rb.length) ++ rb ++ buf.drop 33
    .ok (buf.take (66 - sb.length) ++ sb)

/-- signatures/ecdsa/ecdsa_signature.go:23-33 `DeserializeSecp256k1Signature` -/
def deserializeSig (b : List UInt8) : Res Sign.Signature :=
  if b.length ≠ 66 then .err
  else .ok ⟨(b.getD 0 0).toNat, Bytes.beToNat ((b.drop 1).take 32), Bytes.beToNat (b.drop 33)⟩

end Verif.Mpc
