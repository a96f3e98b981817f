import Verif.Gennaro.Model

/-! Model of `/repo/crypto/dkg/gennaro2p/genarro2p.go`: distributed key generation for two parties, a wrapper around
the participant of `dkg/gennaro`.

Simplifications: the fields of a message are values (a message itself can be nil, `none`), a nil blinding generator is
`none`, and the scalars drawn are arguments, as in Gennaro/Model.lean. -/

namespace Verif.Gennaro.TwoParty
open Verif Verif.SharingV1 Verif.Bytes

variable {p : Nat} [Fact p.Prime] {G : Type*} [AddCommGroup G] [Module (ZMod p) G] [DecidableEq G]

/-- crypto/dkg/gennaro2p/genarro2p.go:23 -/
def threshold : Nat := 2

/-- crypto/dkg/gennaro2p/genarro2p.go:27-32 `Participant` -/
structure Party (p : Nat) (G : Type*) where
  id : Nat
  counterPartyId : Nat
  embedded : Gennaro.Participant p G
  blind : G

/-- crypto/dkg/gennaro2p/genarro2p.go:34-39 `Round1Message` -/
structure Round1Message (p : Nat) (G : Type*) where
  verifiers : List G
  secretShare : Share p
  blindingShare : Share p
  blind : G

/-- crypto/dkg/gennaro2p/genarro2p.go:41-43 `Round2Message` -/
structure Round2Message (G : Type*) where
  verifiers : List G

/-- crypto/dkg/gennaro2p/genarro2p.go:45-49 `DkgResult` -/
structure DkgResult (p : Nat) (G : Type*) where
  publicKey : G
  secretShare : Share p
  publicShares : List (Nat × G)

/-- crypto/dkg/gennaro2p/genarro2p.go:74-80 `newBlind`; `r` the scalar drawn -/
def newBlind (g : G) (r : ZMod p) : G := r • g

/-- crypto/dkg/gennaro2p/genarro2p.go:55-72 `NewParticipant`; `r` is drawn if `blind` is nil -/
def newParticipant (g : G) (id counterPartyId : Nat) (blind : Option G) (r : ZMod p) : Option (Party p G) :=
  let b := match blind with
    | none => newBlind g r
    | some b => b
  match Gennaro.newParticipant p b id threshold [counterPartyId] with
  | none => none
  | some dp => some ⟨id, counterPartyId, dp, b⟩

/-- crypto/dkg/gennaro2p/genarro2p.go:85-105 `Round1` -/
def round1 (g : G) (valid : Nat → Bool) (P : Party p G) (secret : Option (List UInt8)) (sampled blinding : ZMod p)
    (rnd rndB : Nat → ZMod p) : Party p G × Res (Round1Message p G) :=
  let (dp, res) := Gennaro.round1 g P.blind valid P.embedded secret sampled blinding rnd rndB
  let P' := { P with embedded := dp }
  match res with
  | .err => (P', .err)
  | .panic => (P', .panic)
  | .ok (bcast, p2p) =>
    match p2p.lookup P.counterPartyId with
    | none => (P', .err)
    | some (s, b) => (P', .ok ⟨bcast, s, b, P.blind⟩)

/-- crypto/dkg/gennaro2p/genarro2p.go:108-126 `Round2`; a nil message is dereferenced -/
def round2 (g : G) (P : Party p G) (msg : Option (Round1Message p G)) : Party p G × Res (Round2Message G) :=
  match msg with
  | none => (P, .panic)
  | some m =>
    let (dp, res) := Gennaro.round2 g P.blind P.embedded [(P.counterPartyId, m.verifiers)]
      [(P.counterPartyId, m.secretShare, m.blindingShare)]
    let P' := { P with embedded := dp }
    match res with
    | .err => (P', .err)
    | .panic => (P', .panic)
    | .ok bcast => (P', .ok ⟨bcast⟩)

/-- crypto/dkg/gennaro2p/genarro2p.go:129-151 `Finalize`; a nil message is dereferenced -/
def finalize (g : G) (P : Party p G) (msg : Option (Round2Message G)) : Party p G × Res (DkgResult p G) :=
  match msg with
  | none => (P, .panic)
  | some m =>
    let (dp, res) := Gennaro.round3 g P.embedded [(P.counterPartyId, m.verifiers)]
    let P' := { P with embedded := dp }
    match res with
    | .err => (P', .err)
    | .panic => (P', .panic)
    | .ok (pk, share) =>
      match Gennaro.round4 dp with
      | .err => (P', .err)
      | .panic => (P', .panic)
      | .ok pub => (P', .ok ⟨pk, share, pub⟩)

end Verif.Gennaro.TwoParty
