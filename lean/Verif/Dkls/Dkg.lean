import Verif.OT.Simplest

/-! Model of `/repo/crypto/tecdsa/dklsv1/dkg/dkg.go` and `/repo/crypto/tecdsa/dklsv1/refresh/refresh.go`:
two-party key generation and key refresh.  The wire encodings of the messages are not modelled here. -/

namespace Verif.Dkls
open Verif Verif.OT

variable {F G : Type} [Field F] [DecidableEq F] [AddCommGroup G] [Module F G]

/-- `simplest.NewReceiver`/`NewSender` batch size `kos.Kappa` (kos.go:30) -/
def kappa : Nat := 256

/-- dkg.go:26-40 `AliceOutput` -/
structure AliceOutput (F G : Type) where
  publicKey : G
  secretKeyShare : F
  seedOt : ReceiverOutput

/-- dkg.go:43-56 `BobOutput` -/
structure BobOutput (F G : Type) where
  publicKey : G
  secretKeyShare : F
  seedOt : List (Digest × Digest)

namespace Dkg

/-- dkg.go:60-79 `Alice` after `Round2CommitToProof` (before that round only the transcript is set) -/
structure Alice (F G : Type) where
  proof : Schnorr.Proof F G
  receiver : Receiver G
  secretKeyShare : F
  publicKey : G
  transcript : Transcript

/-- dkg.go:83-104 `Bob` after `Round3SchnorrProve` -/
structure Bob (F G : Type) where
  sender : Sender F G
  secretKeyShare : F
  publicKey : G
  aliceCommitment : List UInt8
  aliceSalt : Digest
  transcript : Transcript

/-- dkg.go:116-121 `NewAlice`, `NewBob`: the fresh transcript -/
def newTranscript : Transcript := [.append "Coinbase_DKLs_DKG" []]

/-- dkg.go:137-144 `Round1GenerateRandomSeed`; `seed` the random bytes -/
def bobRound1 (seed : Digest) : Transcript × Digest :=
  (newTranscript ++ [.append "session_id_bob" (bytesOf seed)], seed)

/-- dkg.go:107-113 `Round2Output` -/
structure Round2Output where
  seed : Digest
  commitment : List UInt8

/-- dkg.go:147-175 `Round2CommitToProof`; `aliceSeed`, `rnd` (packed choices of the seed OT), `sk`, `k`
(Schnorr nonce) the randomness. -/
def aliceRound2 (E : Env F G) (bobSeed aliceSeed : Digest) (rnd : Nat → UInt8) (sk k : F) :
    Res (Alice F G × Round2Output) := do
  let t := newTranscript ++ [.append "session_id_bob" (bytesOf bobSeed), .append "session_id_alice" (bytesOf aliceSeed)]
  let (sidOt, t) := E.extract t "salt for simplest OT"
  let receiver ← newReceiver (G := G) kappa sidOt rnd
  let (salt, t) := E.extract t "salt for alice schnorr"
  match Schnorr.proveCommit E.schnorr E.g (bytesOf salt) sk k with
  | none => .err
  | some (pf, com) =>
    .ok ({ proof := pf, receiver := receiver, secretKeyShare := sk, publicKey := 0, transcript := t },
         { seed := aliceSeed, commitment := com })

/-- dkg.go:179-201 `Round3SchnorrProve`; `t0` Bob's transcript after round 1 -/
def bobRound3 (E : Env F G) (t0 : Transcript) (m : Round2Output) (sk k : F) :
    Res (Bob F G × Schnorr.Proof F G) := do
  let t := t0 ++ [.append "session_id_alice" (bytesOf m.seed)]
  let (sidOt, t) := E.extract t "salt for simplest OT"
  let sender ← newSender (F := F) (G := G) kappa sidOt
  let (aliceSalt, t) := E.extract t "salt for alice schnorr"
  let (salt, t) := E.extract t "salt for bob schnorr"
  match Schnorr.prove E.schnorr E.g (bytesOf salt) sk k with
  | none => .err
  | some pf =>
    .ok ({ sender := sender, secretKeyShare := sk, publicKey := 0, aliceCommitment := m.commitment,
           aliceSalt := aliceSalt, transcript := t }, pf)

/-- dkg.go:204-213 `Round4VerifyAndReveal` -/
def aliceRound4 (E : Env F G) (a : Alice F G) (pf : Schnorr.Proof F G) : Res (Alice F G × Schnorr.Proof F G) :=
  let (salt, t) := E.extract a.transcript "salt for bob schnorr"
  if !Schnorr.verify E.schnorr pf E.g (bytesOf salt) then .err
  else .ok ({ a with publicKey := a.secretKeyShare • pf.statement, transcript := t }, a.proof)

/-- dkg.go:216-227 `Round5DecommitmentAndStartOt`; `b`, `k` the randomness of the seed OT's first round -/
def bobRound5 (E : Env F G) (b : Bob F G) (pf : Schnorr.Proof F G) (otSk otK : F) :
    Res (Bob F G × Schnorr.Proof F G) :=
  if !Schnorr.decommitVerify E.schnorr pf b.aliceCommitment E.g (bytesOf b.aliceSalt) then .err
  else do
    let (s, m) ← b.sender.round1 E otSk otK
    .ok ({ b with publicKey := b.secretKeyShare • pf.statement, sender := s }, m)

/-- dkg.go:230-232 `Round6DkgRound2Ot` -/
def aliceRound6 (E : Env F G) (a : Alice F G) (pf : Schnorr.Proof F G) (x : Nat → F) :
    Res (Alice F G × List (List UInt8)) := do
  let (r, m) ← a.receiver.round2 E pf x
  .ok ({ a with receiver := r }, m)

/-- dkg.go:235-237 `Round7DkgRound3Ot` -/
def bobRound7 (E : Env F G) (b : Bob F G) (masked : List (List UInt8)) : Res (Bob F G × List Digest) := do
  let (s, m) ← b.sender.round3 E masked
  .ok ({ b with sender := s }, m)

/-- dkg.go:240-242 `Round8DkgRound4Ot` -/
def aliceRound8 (E : Env F G) (a : Alice F G) (ch : List Digest) : Res (Alice F G × List Digest) := do
  let (r, m) ← a.receiver.round4 E ch
  .ok ({ a with receiver := r }, m)

/-- dkg.go:245-247 `Round9DkgRound5Ot` -/
def bobRound9 (E : Env F G) (b : Bob F G) (resp : List Digest) : Res (List (Digest × Digest)) := b.sender.round5 E resp

/-- dkg.go:250-252 `Round10DkgRound6Ot` -/
def aliceRound10 (E : Env F G) (a : Alice F G) (op : List (Digest × Digest)) : Res Unit := a.receiver.round6 E op

/-- dkg.go:256-262 `Alice.Output` -/
def Alice.output (a : Alice F G) : AliceOutput F G := ⟨a.publicKey, a.secretKeyShare, a.receiver.out⟩

/-- dkg.go:266-272 `Bob.Output` -/
def Bob.output (b : Bob F G) : BobOutput F G := ⟨b.publicKey, b.secretKeyShare, b.sender.keys⟩

/-- all the random values drawn in one run -/
structure Rand (F : Type) where
  bobSeed : Digest
  aliceSeed : Digest
  choices : Nat → UInt8
  skA : F
  kA : F
  skB : F
  kB : F
  otSk : F
  otK : F
  pads : Nat → F

/-- the run in which every message is delivered unchanged (`dkg_test.go:29-84`, `boilerplate.go:40-128`) -/
def run (E : Env F G) (r : Rand F) : Res (AliceOutput F G × BobOutput F G) := do
  let (t0, bobSeed) := bobRound1 r.bobSeed
  let (a, m2) ← aliceRound2 E bobSeed r.aliceSeed r.choices r.skA r.kA
  let (b, m3) ← bobRound3 E t0 m2 r.skB r.kB
  let (a, m4) ← aliceRound4 E a m3
  let (b, m5) ← bobRound5 E b m4 r.otSk r.otK
  let (a, m6) ← aliceRound6 E a m5 r.pads
  let (b, m7) ← bobRound7 E b m6
  let (a, m8) ← aliceRound8 E a m7
  let m9 ← bobRound9 E b m8
  aliceRound10 E a m9
  .ok (a.output, b.output)

end Dkg

namespace Refresh

/-- refresh.go:31-44 `Alice` -/
structure Alice (F G : Type) where
  receiver : Receiver G
  secretKeyShare : F
  publicKey : G
  transcript : Transcript

/-- refresh.go:48-61 `Bob` -/
structure Bob (F G : Type) where
  sender : Sender F G
  secretKeyShare : F
  publicKey : G
  transcript : Transcript

/-- refresh.go:74, 84 -/
def newTranscript : Transcript := [.append "Coinbase_DKLs_Refresh" []]

/-- refresh.go:88-92 `Round1RefreshGenerateSeed` -/
def aliceRound1 (E : Env F G) (seed : F) : Transcript × F :=
  (newTranscript ++ [.append "alice refresh seed" (E.sc.toBytes seed)], seed)

/-- refresh.go:63-66 `RefreshRound2Output` -/
structure Round2Output (F G : Type) where
  otProof : Schnorr.Proof F G
  bobMultiplier : F

/-- refresh.go:94-123 `Round2RefreshProduceSeedAndMultiplyAndStartOT` (with refresh.go:79-86 `NewBob`) -/
def bobRound2 (E : Env F G) (o : BobOutput F G) (aliceSeed bobSeed otSk otK : F) :
    Res (Bob F G × Round2Output F G) := do
  let t := newTranscript ++ [.append "alice refresh seed" (E.sc.toBytes aliceSeed),
    .append "bob refresh seed" (E.sc.toBytes bobSeed)]
  let (kBytes, t) := E.extract t "secret key share multiplier"
  let k ← Res.ofOption (E.sc.setBytes (bytesOf kBytes))
  let (sid, t) := E.extract t "salt for simplest OT"
  let s ← newSender (F := F) (G := G) kappa sid
  let (s, pf) ← s.round1 E otSk otK
  .ok ({ sender := s, secretKeyShare := o.secretKeyShare * k, publicKey := o.publicKey, transcript := t },
       { otProof := pf, bobMultiplier := bobSeed })

/-- refresh.go:123-145 `Round3RefreshMultiplyRound2Ot` (with refresh.go:69-76 `NewAlice`); `t0` the
transcript after round 1.  `Invert` of zero is an error. -/
def aliceRound3 (E : Env F G) (o : AliceOutput F G) (t0 : Transcript) (m : Round2Output F G) (rnd : Nat → UInt8)
    (x : Nat → F) : Res (Alice F G × List (List UInt8)) := do
  let t := t0 ++ [.append "bob refresh seed" (E.sc.toBytes m.bobMultiplier)]
  let (kBytes, t) := E.extract t "secret key share multiplier"
  let k ← Res.ofOption (E.sc.setBytes (bytesOf kBytes))
  if k = 0 then .err
  else do
    let (sid, t) := E.extract t "salt for simplest OT"
    let r ← newReceiver (G := G) kappa sid rnd
    let (r, masked) ← r.round2 E m.otProof x
    .ok ({ receiver := r, secretKeyShare := o.secretKeyShare * k⁻¹, publicKey := o.publicKey, transcript := t }, masked)

/-- refresh.go:147-149 `Round4RefreshRound3Ot` -/
def bobRound4 (E : Env F G) (b : Bob F G) (masked : List (List UInt8)) : Res (Bob F G × List Digest) := do
  let (s, m) ← b.sender.round3 E masked
  .ok ({ b with sender := s }, m)

/-- refresh.go:151-153 `Round5RefreshRound4Ot` -/
def aliceRound5 (E : Env F G) (a : Alice F G) (ch : List Digest) : Res (Alice F G × List Digest) := do
  let (r, m) ← a.receiver.round4 E ch
  .ok ({ a with receiver := r }, m)

/-- refresh.go:155-157 `Round6RefreshRound5Ot` -/
def bobRound6 (E : Env F G) (b : Bob F G) (resp : List Digest) : Res (List (Digest × Digest)) := b.sender.round5 E resp

/-- refresh.go:159-161 `Round7DkgRound6Ot` -/
def aliceRound7 (E : Env F G) (a : Alice F G) (op : List (Digest × Digest)) : Res Unit := a.receiver.round6 E op

/-- refresh.go:163-169 `Alice.Output` -/
def Alice.output (a : Alice F G) : AliceOutput F G := ⟨a.publicKey, a.secretKeyShare, a.receiver.out⟩

/-- refresh.go:171-177 `Bob.Output` -/
def Bob.output (b : Bob F G) : BobOutput F G := ⟨b.publicKey, b.secretKeyShare, b.sender.keys⟩

/-- the random values of one refresh -/
structure Rand (F : Type) where
  aliceSeed : F
  bobSeed : F
  choices : Nat → UInt8
  otSk : F
  otK : F
  pads : Nat → F

/-- one refresh with every message delivered unchanged -/
def run (E : Env F G) (oa : AliceOutput F G) (ob : BobOutput F G) (r : Rand F) :
    Res (AliceOutput F G × BobOutput F G) := do
  let (t0, seed) := aliceRound1 E r.aliceSeed
  let (b, m2) ← bobRound2 E ob seed r.bobSeed r.otSk r.otK
  let (a, m3) ← aliceRound3 E oa t0 m2 r.choices r.pads
  let (b, m4) ← bobRound4 E b m3
  let (a, m5) ← aliceRound5 E a m4
  let m6 ← bobRound6 E b m5
  aliceRound7 E a m6
  .ok (a.output, b.output)

/-- several refreshes, one after the other -/
def runs (E : Env F G) : AliceOutput F G × BobOutput F G → List (Rand F) → Res (AliceOutput F G × BobOutput F G)
  | p, [] => .ok p
  | p, r :: rs => do
    let q ← run E p.1 p.2 r
    runs E q rs

end Refresh
end Verif.Dkls
