import Verif.Dkls.Multiply
import Verif.Base.Bytes
import Verif.Dkls.Dkg

/-! Model of `/repo/crypto/tecdsa/dklsv1/sign/sign.go`: the two-party ECDSA signing protocol. -/

namespace Verif.Dkls
open Verif Verif.OT Verif.Bytes

/-- the environment of the signing protocol: the multiplication environment, the group order, the affine
`x` coordinate of a point and the message hash supplied by the caller -/
structure SEnv (F G : Type) [AddCommGroup G] extends toMulEnv : Dkls.Env F G where
  q : Nat
  xc : G → Nat
  msgHash : List UInt8 → List UInt8

namespace Sign

variable {F G : Type} [Field F] [DecidableEq F] [AddCommGroup G] [DecidableEq G] [Module F G]

/-- `Scalar.BigInt()` -/
def toNat (E : SEnv F G) (x : F) : Nat := beToNat (E.sc.toBytes x)

/-- `sha3.Sum256(p.ToAffineCompressed())` followed by `Scalar.SetBytes` (sign.go:222-226, 254-258, 283-287,
307-311, 343-347, 365-369) -/
def hashPoint (E : SEnv F G) (p : G) : Res F := Res.ofOption (E.sc.setBytes (bytesOf (E.H (E.pc.enc p))))

/-- sign.go:34-41 `Alice` (with sign.go:64-73 `NewAlice`); `hashed` is what was written to the hash before -/
structure Alice (F G : Type) where
  hashed : List UInt8
  out : AliceOutput F G
  transcript : Transcript

/-- sign.go:45-61 `Bob` after `Round2Initialize` -/
structure Bob (F G : Type) where
  hashed : List UInt8
  out : BobOutput F G
  transcript : Transcript
  mul0 : MultiplyReceiver F
  mul1 : MultiplyReceiver F
  kB : F
  dB : G

/-- sign.go:67, 81 -/
def newTranscript : Transcript := [.append "Coinbase_DKLs_Sign" []]

/-- sign.go:124-131 `Round1GenerateRandomSeed` -/
def aliceRound1 (o : AliceOutput F G) (hashed : List UInt8) (seed : Digest) : Alice F G × Digest :=
  (⟨hashed, o, newTranscript ++ [.append "session_id_alice" (bytesOf seed)]⟩, seed)

/-- sign.go:89-98 `SignRound2Output` -/
structure Round2Output (G : Type) where
  kos0 : Kos.Round1Output
  kos1 : Kos.Round1Output
  dB : G
  seed : Digest

/-- sign.go:137-177 `Round2Initialize` (with sign.go:77-86 `NewBob`).  `One().Div(kB)` is a nil scalar for
`kB = 0`, on which `encode` panics. -/
def bobRound2 (E : SEnv F G) (o : BobOutput F G) (hashed : List UInt8) (aliceSeed bobSeed : Digest) (kB : F)
    (gamma0 rnd0 gamma1 rnd1 : Nat → UInt8) : Res (Bob F G × Round2Output G) := do
  let t := newTranscript ++ [.append "session_id_alice" (bytesOf aliceSeed), .append "session_id_bob" (bytesOf bobSeed)]
  let (sid0, t) := E.extract t "multiply receiver id 0"
  let r0 ← newMultiplyReceiver E.toMulEnv o.seedOt sid0
  let (sid1, t) := E.extract t "multiply receiver id 1"
  let r1 ← newMultiplyReceiver E.toMulEnv o.seedOt sid1
  if kB = 0 then .panic
  else do
    let dB := kB • E.g
    let kBInv := 1 / kB
    let (r0, m0) ← r0.round1 E.toMulEnv kBInv gamma0 rnd0
    let (r1, m1) ← r1.round1 E.toMulEnv (o.secretKeyShare * kBInv) gamma1 rnd1
    .ok (⟨hashed, o, t, r0, r1, kB, dB⟩, ⟨m0, m1, dB, bobSeed⟩)

/-- sign.go:101-116 `SignRound3Output` -/
structure Round3Output (F G : Type) where
  mul0 : MultiplyRound2Output F
  mul1 : MultiplyRound2Output F
  rProof : Schnorr.Proof F G
  rPrime : G
  etaPhi : F
  etaSig : F

/-- sign.go:236-240, 330-334: `rX` from the compressed form (exactly 33 bytes) -/
def decodeX (E : SEnv F G) (r : G) : Res F :=
  if (E.pc.enc r).length ≠ 33 then .err else Res.ofOption (E.sc.setBytes ((E.pc.enc r).drop 1))

/-- sign.go:184-265 `Round3Sign`; `kPrime`, `kSch`, `phi`, `hat0`, `hat1` the random scalars.  For `kA = 0` the
quotient is a nil scalar and the multiplication panics. -/
def aliceRound3 (E : SEnv F G) (a : Alice F G) (message : List UInt8) (m : Round2Output G)
    (kPrime kSch phi hat0 hat1 : F) : Res (Round3Output F G) := do
  let t := a.transcript ++ [.append "session_id_bob" (bytesOf m.seed)]
  let (sid0, t) := E.extract t "multiply receiver id 0"
  let s0 ← newMultiplySender E.toMulEnv a.out.seedOt sid0
  let (sid1, t) := E.extract t "multiply receiver id 1"
  let s1 ← newMultiplySender E.toMulEnv a.out.seedOt sid1
  let rPrime := kPrime • m.dB
  let hR ← hashPoint E rPrime
  let kA := hR + kPrime
  let (salt, _) := E.extract t "schnorr proof for R"
  let pf ← Res.ofOption (Schnorr.prove E.schnorr m.dB (bytesOf salt) kA kSch)
  let r := pf.statement
  if kA = 0 then .panic
  else do
    let kAInv := 1 / kA
    let (t0, o0) ← s0.round2 E.toMulEnv (phi + kAInv) hat0 m.kos0
    let (t1, o1) ← s1.round2 E.toMulEnv (a.out.secretKeyShare * kAInv) hat1 m.kos1
    let gamma1 := (kA * phi + 1) • E.g + (-t0) • r
    let h1 ← hashPoint E gamma1
    let hM ← Res.ofOption (E.sc.setBytes (E.msgHash (a.hashed ++ message)))
    let rX ← decodeX E r
    let sigA := hM * t0 + rX * t1
    let gamma2 := t0 • a.out.publicKey + (-t1) • E.g
    let h2 ← hashPoint E gamma2
    .ok ⟨o0, o1, pf, rPrime, h1 + phi, h2 + sigA⟩

/-- core/curves/ecdsa.go:21-24 `EcdsaSignature` -/
structure Signature where
  V : Nat
  R : Nat
  S : Nat
deriving DecidableEq, Repr

/-- `crypto/ecdsa.Verify` (Go standard library) for a curve of order `q` of 256 bits, in the notation of the
abstract group: `r`, `s` in `[1, q-1]`, `e` the leftmost 256 bits of the digest, `X = e/s·G + r/s·Q` not
the identity, and the `x` coordinate of `X` congruent to `r` modulo `q`.  (The curve objects of
core/curves are not the standard library's, so the generic `verifyLegacy` runs, which calls their
`ScalarBaseMult`, `ScalarMult` and `Add`; they take the coordinates `(0, 0)` for the identity, so the
identity is *not* refused as a public key.) -/
def ecdsaVerify (E : SEnv F G) (Q : G) (digest : List UInt8) (r s : Nat) : Bool :=
  let e : F := (beToNat (digest.take 32) : Nat)
  let X := (e / (s : F)) • E.g + ((r : F) / (s : F)) • Q
  decide (0 < r ∧ r < E.q ∧ 0 < s ∧ s < E.q ∧ X ≠ 0 ∧ E.xc X % E.q = r)

/-- sign.go:371-375: `S` and `V` made canonical -/
def normalize (E : SEnv F G) (s : F) (v : Nat) : Nat × Nat :=
  if (toNat E s).testBit 255 then (toNat E (-s), v ^^^ 1) else (toNat E s, v)

/-- sign.go:272-358 `Round4Final`; on success the signature.  (On an error after line 338 the code leaves a
partial signature in `bob.Signature`, which the model drops.) -/
def bobRound4 (E : SEnv F G) (b : Bob F G) (message : List UInt8) (m : Round3Output F G) : Res Signature := do
  let t0 ← b.mul0.round3 E.toMulEnv m.mul0
  let t1 ← b.mul1.round3 E.toMulEnv m.mul1
  let hR ← hashPoint E m.rPrime
  let r := hR • b.dB + m.rPrime
  let pf : Schnorr.Proof F G := { m.rProof with statement := r }
  let (salt, _) := E.extract b.transcript "schnorr proof for R"
  if !Schnorr.verify E.schnorr pf b.dB (bytesOf salt) then .err
  else do
    let rX ← decodeX E r
    let rY := ((E.pc.enc r).getD 0 0 &&& 1).toNat
    let sigR := toNat E (rX + 0)
    let h1 ← hashPoint E (t0 • r)
    let phi := m.etaPhi - h1
    let theta := t0 - phi / b.kB
    let digestBytes := E.msgHash (b.hashed ++ message)
    let digest ← Res.ofOption (E.sc.setBytes digestBytes)
    let capitalR : F := (sigR : Nat)
    let sigB := digest * theta + capitalR * t1
    let gamma2 := t1 • E.g + (-theta) • b.out.publicKey
    let h2 ← hashPoint E gamma2
    let scalarS := sigB + (m.etaSig - h2)
    let (S, V) := normalize E scalarS rY
    if !ecdsaVerify E b.out.publicKey digestBytes sigR S then .err
    else .ok { V := V, R := sigR, S := S }

end Sign
end Verif.Dkls
