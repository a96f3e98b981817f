import Verif.Base.GoRes

/-! Model of the message serializers of the two-party ECDSA protocols:
`/repo/crypto/tecdsa/dklsv1/dkgserializers.go`, `signserializers.go`, `refreshserializers.go`.

`encoding/gob` is not in the repository: it is the parameter `Gob`, whose encoder and decoder depend on whether the
concrete types behind the interfaces `curves.Scalar` and `curves.Point` have been registered *in this process*
(`registerTypes`, dkgserializers.go:27-32).  That registration is the only state of these functions: every function
takes the flag and returns it.  All the encoders are one function with a row of a table, and so are the decoders: the
bodies differ in the Go type of the payload, the version test, the labels and whether they call `registerTypes`. -/

namespace Verif.Mpc.Wire
open Verif

/-- the Go types that are encoded: `[32]byte`, `*dkg.Round2Output`, `*schnorr.Proof`, `[][]byte`, `[][32]byte`
(`OtChallenge` and `OtChallengeResponse` are the same type, ot.go:50-54), `[]ChallengeOpening`, `curves.Scalar`,
`*refresh.RefreshRound2Output`, `*sign.SignRound2Output`, `*sign.SignRound3Output`, `*curves.EcdsaSignature`,
`*dkg.AliceOutput`, `*dkg.BobOutput` -/
inductive Kind where
  | digest | dkgRound2 | proof | masked | digests | openings | scalar | refreshRound2 | signRound2 | signRound3
  | signature | alice | bob
  deriving DecidableEq

/-- the types with a field of interface type `Scalar` or `Point`: schnorr.go:32-36, refresh.go:63-66, sign.go:89-116,
dkg.go:26-56; the seed of the refresh is itself an interface value (refreshserializers.go:32) -/
def Kind.hasInterface : Kind → Bool
  | .proof | .scalar | .refreshRound2 | .signRound2 | .signRound3 | .alice | .bob => true
  | .digest | .dkgRound2 | .masked | .digests | .openings | .signature => false

/-- `encoding/gob` with a fresh encoder or decoder on a byte buffer; the flag: are the types registered in the process? -/
structure Gob (Body : Kind → Type) where
  enc : Bool → (k : Kind) → Body k → Option (List UInt8)
  dec : Bool → (k : Kind) → List UInt8 → Option (Body k)

/-- core/protocol/protocol.go:39-54 `Message`; the maps are functions, a missing key gives the zero value -/
structure Message where
  protocol : String
  version : Nat
  payloads : String → List UInt8
  metadata : String → String

/-- dkgserializers.go:16 -/
def payloadKey : String := "direct"

/-- dkgserializers.go:18-25, signserializers.go:14-21, refreshserializers.go:16-23 `new…ProtocolMessage` -/
def newMessage (protocol : String) (payload : List UInt8) (round : String) (version : Nat) : Message where
  protocol := protocol
  version := version
  payloads := fun k => if k = payloadKey then payload else []
  metadata := fun k => if k = "round" then round else ""

/-- core/protocol/protocol.go:18-24 -/
def dkls18Dkg : String := "DKLs18-DKG"
def dkls18Sign : String := "DKLs18-Sign"
def dkls18Refresh : String := "DKLs18-Refresh"

/-- core/protocol/protocol.go:33 `Version1` -/
def version1 : Nat := 200

/-- the version test of key generation and signing, e.g. dkgserializers.go:35 -/
def onlyVersion1 (v : Nat) : Bool := v == version1
/-- refreshserializers.go:25-30 `versionIsSupported` -/
def versionIsSupported (v : Nat) : Bool := !decide (v < version1)

/-- the encoders -/
inductive Enc where
  | dkg1 | dkg2 | dkg3 | dkg4 | dkg5 | dkg6 | dkg7 | dkg8 | dkg9 | dkgAlice | dkgBob
  | sign1 | sign2 | sign3 | signature
  | refresh1 | refresh2 | refresh3 | refresh4 | refresh5 | refresh6 | refreshAlice | refreshBob
  deriving DecidableEq

/-- the payload types: the parameters of the functions at dkgserializers.go:34-45, 60-70, 85-95, 110-120, 135-145,
160-170, 185-195, 210-220, 235-245, 261-272, 290-301; signserializers.go:23-33, 48-58, 73-83, 98-108;
refreshserializers.go:32-43, 58-68, 83-93, 108-118, 133-143, 158-168, 184-195, 213-224 -/
def Enc.kind : Enc → Kind
  | .dkg1 => .digest | .dkg2 => .dkgRound2 | .dkg3 => .proof | .dkg4 => .proof | .dkg5 => .proof | .dkg6 => .masked
  | .dkg7 => .digests | .dkg8 => .digests | .dkg9 => .openings | .dkgAlice => .alice | .dkgBob => .bob
  | .sign1 => .digest | .sign2 => .signRound2 | .sign3 => .signRound3 | .signature => .signature
  | .refresh1 => .scalar | .refresh2 => .refreshRound2 | .refresh3 => .masked | .refresh4 => .digests
  | .refresh5 => .digests | .refresh6 => .openings | .refreshAlice => .alice | .refreshBob => .bob

/-- the round labels (last lines of the same functions) -/
def Enc.round : Enc → String
  | .dkg1 => "1" | .dkg2 => "2" | .dkg3 => "3" | .dkg4 => "4" | .dkg5 => "5" | .dkg6 => "6" | .dkg7 => "7"
  | .dkg8 => "8" | .dkg9 => "9" | .dkgAlice => "alice-output" | .dkgBob => "bob-output"
  | .sign1 => "1" | .sign2 => "2" | .sign3 => "3" | .signature => "signature"
  | .refresh1 => "1" | .refresh2 => "2" | .refresh3 => "3" | .refresh4 => "4" | .refresh5 => "5" | .refresh6 => "6"
  | .refreshAlice => "alice-output" | .refreshBob => "bob-output"

/-- the protocol labels: one `new…ProtocolMessage` per file (dkgserializers.go:18-25, signserializers.go:14-21,
refreshserializers.go:16-23) -/
def Enc.protocol : Enc → String
  | .sign1 | .sign2 | .sign3 | .signature => dkls18Sign
  | .refresh1 | .refresh2 | .refresh3 | .refresh4 | .refresh5 | .refresh6 | .refreshAlice | .refreshBob => dkls18Refresh
  | _ => dkls18Dkg

/-- the version tests: refreshserializers.go:33 and the other functions of that file, `!= Version1` elsewhere -/
def Enc.supported : Enc → Nat → Bool
  | .refresh1 | .refresh2 | .refresh3 | .refresh4 | .refresh5 | .refresh6 | .refreshAlice | .refreshBob => versionIsSupported
  | _ => onlyVersion1

/-- the encoders calling `registerTypes`: dkgserializers.go:38, 265, 294; refreshserializers.go:36, 188, 217 -/
def Enc.registers : Enc → Bool
  | .dkg1 | .dkgAlice | .dkgBob | .refresh1 | .refreshAlice | .refreshBob => true
  | _ => false

/-- the decoders; the number is that of the round whose input is decoded -/
inductive Dec where
  | dkg2 | dkg3 | dkg4 | dkg5 | dkg6 | dkg7 | dkg8 | dkg9 | dkg10 | dkgAlice | dkgBob
  | sign2 | sign3 | sign4 | signature
  | refresh2 | refresh3 | refresh4 | refresh5 | refresh6 | refresh7 | refreshAlice | refreshBob
  deriving DecidableEq

/-- the result types of the functions at dkgserializers.go:47-58, 72-83, 97-108, 122-133, 147-158, 172-183, 197-208,
222-233, 247-258, 275-287, 304-315; signserializers.go:35-46, 60-71, 85-96, 111-122; refreshserializers.go:45-56,
70-81, 95-106, 120-131, 145-156, 170-181, 198-210, 227-238 -/
def Dec.kind : Dec → Kind
  | .dkg2 => .digest | .dkg3 => .dkgRound2 | .dkg4 => .proof | .dkg5 => .proof | .dkg6 => .proof | .dkg7 => .masked
  | .dkg8 => .digests | .dkg9 => .digests | .dkg10 => .openings | .dkgAlice => .alice | .dkgBob => .bob
  | .sign2 => .digest | .sign3 => .signRound2 | .sign4 => .signRound3 | .signature => .signature
  | .refresh2 => .scalar | .refresh3 => .refreshRound2 | .refresh4 => .masked | .refresh5 => .digests
  | .refresh6 => .digests | .refresh7 => .openings | .refreshAlice => .alice | .refreshBob => .bob

/-- the version tests, as for the encoders: refreshserializers.go:46, 71, 96, 121, 146, 171, 199, 228;
dkgserializers.go:48 and signserializers.go:36 for the others -/
def Dec.supported : Dec → Nat → Bool
  | .refresh2 | .refresh3 | .refresh4 | .refresh5 | .refresh6 | .refresh7 | .refreshAlice | .refreshBob => versionIsSupported
  | _ => onlyVersion1

/-- the decoders calling `registerTypes`: dkgserializers.go:279, refreshserializers.go:202 -/
def Dec.registers : Dec → Bool
  | .dkgAlice | .refreshAlice => true
  | _ => false

variable {Body : Kind → Type} (L : Gob Body)

/-- the body of every encoder, e.g. dkgserializers.go:34-45: version test, registration if the function does it,
encoding, labels -/
def encode (e : Enc) (reg : Bool) (x : Body e.kind) (version : Nat) : Bool × Res Message :=
  if !e.supported version then (reg, .err)
  else
    let reg := reg || e.registers
    match L.enc reg e.kind x with
    | none => (reg, .err)
    | some bz => (reg, .ok (newMessage e.protocol bz e.round version))

/-- the body of every decoder, e.g. dkgserializers.go:275-287; a nil message is dereferenced -/
def decode (d : Dec) (reg : Bool) (m : Option Message) : Bool × Res (Body d.kind) :=
  match m with
  | none => (reg, .panic)
  | some m =>
    if !d.supported m.version then (reg, .err)
    else
      let reg := reg || d.registers
      match L.dec reg d.kind (m.payloads payloadKey) with
      | none => (reg, .err)
      | some x => (reg, .ok x)

/-- one call of a serializer in a process -/
inductive Call (Body : Kind → Type) where
  | enc (e : Enc) (x : Body e.kind) (version : Nat)
  | dec (d : Dec) (m : Option Message)

/-- the registration flag after a call -/
def Call.after (reg : Bool) : Call Body → Bool
  | .enc e x v => (encode L e reg x v).1
  | .dec d m => (decode L d reg m).1

end Verif.Mpc.Wire
