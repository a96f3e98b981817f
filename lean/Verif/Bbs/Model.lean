import Verif.Base.GoRes
import Verif.Base.Pairing
import Verif.OT.Simplest

/-! Model of `/repo/crypto/signatures/bbs` (BBS+ signatures, blind signatures, proofs of knowledge of a
signature) and of `/repo/crypto/signatures/common` (the committed-proof builder and the proof messages).

Scalars are a field `F`; `G1`, `G2` are vector spaces over it and the pairing is `Verif.Pairing`.  The curve
is `curves.BLS12381` configured with its point in `G2`, as the package requires (`OtherGroup` of it is `G1`).
Simplifications: pointers to keys, generators, signatures, scalars and readers are non-nil; type assertions
to `PairingPoint` of non-nil points succeed.  A Go `map[int]Scalar` is the list of its entries *in the order
in which `range` visits them*: the theorems quantify over every order.  A merlin transcript is its history,
and 64 bytes extracted from it and mapped to a scalar are an arbitrary function of that history and of the
label.  A reader is the list of the scalars that successive `Scalar.Random` calls make of it; a call that
needs more scalars than the list has is not described by the model (it returns `.err`). -/

set_option linter.unusedSectionVars false

namespace Verif.Bbs

open Verif
open Verif.OT (Ev Transcript idx)

variable {F G1 G2 GT : Type} [Field F] [DecidableEq F] [AddCommGroup G1] [Module F G1] [DecidableEq G1]
  [AddCommGroup G2] [Module F G2] [DecidableEq G2] [CommGroup GT] [DecidableEq GT]

/-- What the package uses of the curve besides the group operations (core/curves/bls12381_curve.go:40-60,
238-267, 350-354, 450-468, 698-716): `hash1` is `PointBls12381G1.Hash`, `cmp`/`unc`/`dec` are
`ToAffineCompressed`/`ToAffineUncompressed`/`FromAffineCompressed`, `bytes`/`setBytes` those of the scalars,
`shake d` the scalars that `Random` makes of a SHAKE256 that absorbed `d`, and `chal t l` is
`SetBytesWide(transcript.ExtractBytes(l, 64))`. -/
structure Env (F G1 G2 : Type) where
  hash1 : List UInt8 → G1
  unc1 : G1 → List UInt8
  cmp1 : G1 → List UInt8
  dec1 : List UInt8 → Option G1
  unc2 : G2 → List UInt8
  cmp2 : G2 → List UInt8
  dec2 : List UInt8 → Option G2
  bytes : F → List UInt8
  setBytes : List UInt8 → Option F
  shake : List UInt8 → List F
  chal : Transcript → String → F

/-- `PointBls12381G1.SumOfProducts` (core/curves/bls12381_curve.go:484-506): a nil point among the operands or
lists of different lengths give a nil result (`none`). -/
def sop (points : List (Option G1)) (scalars : List F) : Option G1 := do
  let ps ← points.mapM id
  if ps.length = scalars.length then some (List.zipWith (fun p s => s • p) ps scalars).sum else none

/-- using a nil point: method call or type assertion on a nil interface -/
def deref {α : Type} : Option α → Res α
  | some p => .ok p
  | none => .panic

/-! ### message_generators.go -/

/-- message_generators.go:30-35 `MessageGenerators` -/
structure Generators (G1 : Type) where
  h0 : G1
  length : Nat
  state : List UInt8
deriving DecidableEq

/-- `byte(n >> s)` of a Go int -/
def byteAt (n : Nat) (s : Nat) : UInt8 := UInt8.ofNat (n >>> s)

/-- message_generators.go:37-58 `Init` -/
def Generators.init (V : Env F G1 G2) (w : G2) (length : Int) : Res (Generators G1) :=
  if length < 0 then .err
  else
    let n := length.toNat
    let state := (V.unc2 w ++ List.replicate 192 0).take 192 ++ List.replicate 9 0
    let state := state.set 197 (byteAt n 24)
    let state := state.set 198 (byteAt n 16)
    let state := state.set 199 (byteAt n 8)
    let state := state.set 200 (byteAt n 0)
    .ok { h0 := V.hash1 state, length := n, state := state }

/-- message_generators.go:60-77 `Get`.  The index is written to a local copy of the state, which is then not
used: the stored state is what is hashed. -/
def Generators.get (V : Env F G1 G2) (g : Generators G1) (i : Int) : Option G1 :=
  if i ≤ 0 then some g.h0
  else if i > g.length then none
  else
    let n := i.toNat
    let _state := (((g.state.set 193 (byteAt n 24)).set 194 (byteAt n 16)).set 195 (byteAt n 8)).set 196 (byteAt n 0)
    some (V.hash1 g.state)

/-! ### signature.go, public_key.go, secret_key.go -/

/-- signature.go:20-23 `Signature` (and blind_signature.go:24-27 `BlindSignature`) -/
structure Signature (F G1 : Type) where
  a : G1
  e : F
  s : F
deriving DecidableEq

/-- secret_key.go:170-177 `getNonZeroScalar`: the first non-zero draw and the rest of the reader -/
def getNonZero : List F → Res (F × List F)
  | [] => .err
  | x :: xs => if x = 0 then getNonZero xs else .ok (x, xs)

/-- one `Scalar.Random(reader)` -/
def draw : List F → Res (F × List F)
  | [] => .err
  | x :: xs => .ok (x, xs)

/-- `Scalar.Invert` (core/curves/bls12381_curve.go:129-138) -/
def invert (x : F) : Res F := if x = 0 then .err else .ok x⁻¹

/-- secret_key.go:144-159 `computeB` -/
def computeB (V : Env F G1 G2) (E : Pairing F G1 G2 GT) (s : F) (msgs : List F) (g : Generators G1) : Res G1 :=
  match msgs with
  | [] => .panic
  | _ =>
    deref (sop (some E.g1 :: g.get V 0 :: (List.range msgs.length).map fun (i : Nat) => g.get V (i + 1)) (1 :: s :: msgs))

/-- secret_key.go:161-168 `addDeterministicNonceData`: the bytes written to the generator.  A nil generator
would panic on `ToAffineUncompressed`. -/
def nonceData (V : Env F G1 G2) (g : Generators G1) (msgs : List F) : Res (List UInt8) := do
  let ps ← (List.range (g.length + 1)).mapM fun (i : Nat) => deref (g.get V i)
  .ok (ps.flatMap V.unc1 ++ msgs.flatMap V.bytes)

/-- secret_key.go:107-134 `SecretKey.Sign` -/
def sign (V : Env F G1 G2) (E : Pairing F G1 G2 GT) (sk : F) (g : Generators G1) (msgs : List F) :
    Res (Signature F G1) :=
  if g.length < msgs.length then .err
  else if msgs.length < 1 then .err
  else if sk = 0 then .err
  else do
    let nd ← nonceData V g msgs
    let (e, r) ← getNonZero (V.shake (V.bytes sk ++ nd))
    let (s, _) ← getNonZero r
    let b ← computeB V E s msgs g
    let exp ← invert (e + sk)
    .ok { a := exp • b, e := e, s := s }

/-- secret_key.go:137-141 `SecretKey.PublicKey` -/
def publicKey (E : Pairing F G1 G2 GT) (sk : F) : G2 := sk • E.g2

/-- public_key.go:44-73 `PublicKey.Verify`; `.ok ()` is the nil error -/
def verify (V : Env F G1 G2) (E : Pairing F G1 G2 GT) (pk : G2) (sig : Signature F G1) (g : Generators G1)
    (msgs : List F) : Res Unit :=
  if g.length < msgs.length then .err
  else if msgs.length < 1 then .err
  else if pk = 0 then .err
  else if sig.a = 0 then .err
  else do
    let a := sig.e • E.g2 + pk
    let b ← computeB V E sig.s msgs g
    if E.e sig.a a * E.e (-b) E.g2 = 1 then .ok () else .err

/-! ### common/proof_committed_builder.go, common/proof_message.go -/

/-- common/proof_committed_builder.go:22-26 `ProofCommittedBuilder`: the committed pairs (the two slices are
always appended to together) -/
structure Builder (F G1 : Type) where
  points : List (Option G1)
  scalars : List F

/-- common/proof_committed_builder.go:29-35 `NewProofCommittedBuilder` -/
def Builder.new : Builder F G1 := ⟨[], []⟩

/-- common/proof_committed_builder.go:48-55 `Commit` (limit of line 16); `CommitRandom` of lines 38-45 is the
same with a drawn scalar -/
def Builder.commit (b : Builder F G1) (p : Option G1) (s : F) : Res (Builder F G1) :=
  if b.points.length > 65535 then .err else .ok ⟨b.points ++ [p], b.scalars ++ [s]⟩

/-- common/proof_committed_builder.go:38-45 `CommitRandom` -/
def Builder.commitRandom (b : Builder F G1) (p : Option G1) (r : List F) : Res (Builder F G1 × List F) := do
  if b.points.length > 65535 then .err
  else
    let (s, r) ← draw r
    .ok (⟨b.points ++ [p], b.scalars ++ [s]⟩, r)

/-- common/proof_committed_builder.go:58-63 `Get`; `none` is the pair of nils -/
def Builder.get (b : Builder F G1) (i : Int) : Res (Option (Option G1 × F)) :=
  if i ≥ b.points.length ∨ i < 0 then .ok none
  else do
    let p ← idx b.points i.toNat
    let s ← idx b.scalars i.toNat
    .ok (some (p, s))

/-- common/proof_committed_builder.go:67-73 `GetChallengeContribution`: a nil commitment gives nil bytes -/
def Builder.contribution (V : Env F G1 G2) (b : Builder F G1) : List UInt8 :=
  match sop b.points b.scalars with
  | none => []
  | some c => V.cmp1 c

/-- common/proof_committed_builder.go:76-86 `GenerateProof` -/
def Builder.generateProof (b : Builder F G1) (challenge : F) (secrets : List F) : Res (List F) :=
  if secrets.length ≠ b.scalars.length then .err
  else .ok (List.zipWith (fun sec sc => sec * challenge + sc) secrets b.scalars)

/-- common/proof_message.go:19-79 `ProofMessage` and its three implementations -/
inductive ProofMessage (F : Type) where
  | revealed (m : F)
  | proofSpecific (m : F)
  | shared (m : F) (blinding : F)
deriving DecidableEq

/-- common/proof_message.go:39-41, 55-57, 71-73 `IsHidden` -/
def ProofMessage.isHidden : ProofMessage F → Bool
  | .revealed _ => false
  | .proofSpecific _ => true
  | .shared _ _ => true

/-- common/proof_message.go:47-49, 63-65, 77-79 `GetMessage` -/
def ProofMessage.message : ProofMessage F → F
  | .revealed m => m
  | .proofSpecific m => m
  | .shared m _ => m

/-- common/proof_message.go:43-45, 59-61, 75-77 `GetBlinding` (nil for a revealed message, where a use of it
would panic; the callers here ask hidden messages only) -/
def ProofMessage.blinding (r : List F) : ProofMessage F → Res (F × List F)
  | .revealed _ => .panic
  | .proofSpecific _ => draw r
  | .shared _ b => .ok (b, r)

/-! ### blind_signature.go, blind_signature_context.go -/

/-- blind_signature.go:73-79 `BlindSignature.ToUnblinded` -/
def toUnblinded (sig : Signature F G1) (blinder : F) : Signature F G1 :=
  { a := sig.a, e := sig.e, s := sig.s + blinder }

/-- blind_signature_context.go:29-36 `BlindSignatureContext` -/
structure BlindCtx (F G1 : Type) where
  commitment : G1
  challenge : F
  proofs : List F
deriving DecidableEq

/-- blind_signature_context.go:84-88 and 173-177: the challenge of a blind signature context, from the bytes
of the random commitment -/
def blindChallenge (V : Env F G1 G2) (rc : List UInt8) (commitment : G1) (nonce : F) : F :=
  V.chal [.append "new blind signature" [], .append "random commitment" rc,
    .append "blind commitment" (V.cmp1 commitment), .append "nonce" (V.bytes nonce)]
    "blind signature context challenge"

/-- blind_signature_context.go:57-68: the loop over the hidden messages -/
def blindLoop (V : Env F G1 G2) (g : Generators G1) :
    List (Int × F) → Builder F G1 → List (Option G1) → List F → List F →
      Res (Builder F G1 × List (Option G1) × List F × List F)
  | [], b, points, secrets, r => .ok (b, points, secrets, r)
  | (i, m) :: rest, b, points, secrets, r =>
    if i > g.length ∨ i < 0 then .err
    else do
      let pt := g.get V (i + 1)
      let (b, r) ← b.commitRandom pt r
      blindLoop V g rest b (points ++ [pt]) (secrets ++ [m]) r

/-- blind_signature_context.go:45-106 `NewBlindSignatureContext`; `msgs` lists the entries of the map in the
order of the `range` loop.  Returns the context and the blinding. -/
def newBlindCtx (V : Env F G1 G2) (msgs : List (Int × F)) (g : Generators G1) (nonce : F) (r : List F) :
    Res (BlindCtx F G1 × F) := do
  let (b, points, secrets, r) ← blindLoop V g msgs Builder.new [] [] r
  let (blinding, r) ← draw r
  let secrets := secrets ++ [blinding]
  let h0 := g.get V 0
  let points := points ++ [h0]
  let (b, _) ← b.commitRandom h0 r
  let commitment ← deref (sop points secrets)
  let challenge := blindChallenge V (b.contribution V) commitment nonce
  let proofs ← b.generateProof challenge secrets
  .ok (⟨commitment, challenge, proofs⟩, blinding)

/-- blind_signature_context.go:160-193 `BlindSignatureContext.Verify` -/
def BlindCtx.verify (V : Env F G1 G2) (c : BlindCtx F G1) (known : List Int) (g : Generators G1) (nonce : F) :
    Res Unit :=
  if known.any (fun i => decide (i > g.length)) then .err
  else do
    let points := ((List.range g.length).filter fun (i : Nat) => !known.contains (i : Int)).map fun (i : Nat) => g.get V (i + 1)
    let points := points ++ [g.get V 0, some c.commitment]
    let commitment ← deref (sop points (c.proofs ++ [-c.challenge]))
    if blindChallenge V (V.cmp1 commitment) c.commitment nonce = c.challenge then .ok () else .err

/-- `map[int]Scalar` lookup of a key known to be present -/
def lookup (msgs : List (Int × F)) (i : Int) : F := ((msgs.find? fun p => p.1 == i).map Prod.snd).getD 0

/-- blind_signature_context.go:194-255 `BlindSignatureContext.ToBlindSignature`; `msgs` lists the entries of
the map in the order of the last `range` loop (the first one only feeds a sort). -/
def toBlindSignature (V : Env F G1 G2) (E : Pairing F G1 G2 GT) (c : BlindCtx F G1) (msgs : List (Int × F))
    (sk : F) (g : Generators G1) (nonce : F) : Res (Signature F G1) :=
  if sk = 0 then .err
  else if msgs.any (fun p => decide (p.1 > g.length)) then .err
  else do
    let tv1 := (msgs.map Prod.fst).mergeSort (fun a b => decide (a ≤ b))
    let signingMsgs := tv1.map (lookup msgs)
    c.verify V tv1 g nonce
    let nd ← nonceData V g signingMsgs
    let (e, r) ← getNonZero (V.shake (V.bytes sk ++ nd))
    let (s, _) ← getNonZero r
    let exp ← invert (e + sk)
    let b ← deref (sop (some c.commitment :: some E.g1 :: g.get V 0 :: msgs.map fun p => g.get V (p.1 + 1))
      (1 :: 1 :: s :: msgs.map Prod.snd))
    .ok { a := exp • b, e := e, s := s }

/-! ### pok_signature.go, pok_signature_proof.go -/

/-- pok_signature.go:23-35 `PokSignature` -/
structure Pok (F G1 : Type) where
  aPrime : G1
  aBar : G1
  d : G1
  proof1 : Builder F G1
  proof2 : Builder F G1
  secrets1 : List F
  secrets2 : List F

/-- pok_signature.go:113-121: the loop over the messages -/
def pokLoop (V : Env F G1 G2) (g : Generators G1) :
    List (ProofMessage F) → Nat → Builder F G1 → List F → List F → Res (Builder F G1 × List F)
  | [], _, b, secrets, _ => .ok (b, secrets)
  | m :: ms, i, b, secrets, r =>
    if m.isHidden then do
      let (bl, r) ← m.blinding r
      let b ← b.commit (g.get V (i + 1)) bl
      pokLoop V g ms (i + 1) b (secrets ++ [m.message]) r
    else pokLoop V g ms (i + 1) b secrets r

/-- pok_signature.go:38-130 `NewPokSignature` -/
def newPok (V : Env F G1 G2) (E : Pairing F G1 G2 GT) (sig : Signature F G1) (g : Generators G1)
    (msgs : List (ProofMessage F)) (r : List F) : Res (Pok F G1) :=
  if msgs.length ≠ g.length then .err
  else do
    let (r1, r) ← getNonZero r
    let (r2, r) ← getNonZero r
    let r3 ← invert r1
    let b ← computeB V E sig.s (msgs.map ProofMessage.message) g
    let aPrime := r1 • sig.a
    let aBar := r1 • b - sig.e • aPrime
    let d ← deref (sop [some b, some g.h0] [r1, r2])
    let sPrime := sig.s + r2 * r3
    let (p1, r) ← Builder.commitRandom Builder.new (some aPrime) r
    let (p1, r) ← p1.commitRandom (some g.h0) r
    let (p2, r) ← Builder.commitRandom Builder.new (some (-d)) r
    let (p2, r) ← p2.commitRandom (some g.h0) r
    let (p2, secrets2) ← pokLoop V g msgs 0 p2 [r3, sPrime] r
    .ok { aPrime := aPrime, aBar := aBar, d := d, proof1 := p1, proof2 := p2,
          secrets1 := [sig.e, r2], secrets2 := secrets2 }

/-- pok_signature.go:134-140 `PokSignature.GetChallengeContribution` -/
def Pok.contribution (V : Env F G1 G2) (p : Pok F G1) (t : Transcript) : Transcript :=
  t ++ [.append "A'" (V.cmp1 p.aPrime), .append "Abar" (V.cmp1 p.aBar), .append "D" (V.cmp1 p.d),
    .append "Proof1" (p.proof1.contribution V), .append "Proof2" (p.proof2.contribution V)]

/-- pok_signature_proof.go:22-25 `PokSignatureProof`; `Init` and `GenerateProof` make `proof1` of length two -/
structure PokProof (F G1 : Type) where
  aPrime : G1
  aBar : G1
  d : G1
  proof1 : F × F
  proof2 : List F
deriving DecidableEq

/-- pok_signature.go:143-159 `GenerateProof` -/
def Pok.generateProof (p : Pok F G1) (challenge : F) : Res (PokProof F G1) := do
  let proof1 ← p.proof1.generateProof challenge p.secrets1
  let proof2 ← p.proof2.generateProof challenge p.secrets2
  let x0 ← idx proof1 0
  let x1 ← idx proof1 1
  .ok { aPrime := p.aPrime, aBar := p.aBar, d := p.d, proof1 := (x0, x1), proof2 := proof2 }

/-- pok_signature_proof.go:167-174: the loop that pairs the generators of the messages that are not revealed
with the entries of `proof2` from index `j` on -/
def hiddenLoop (V : Env F G1 G2) (g : Generators G1) (revealed : List (Int × F)) (proof2 : List F) :
    List Nat → Nat → Res (List (Option G1) × List F)
  | [], _ => .ok ([], [])
  | i :: is, j =>
    if (revealed.map Prod.fst).contains (i : Int) then hiddenLoop V g revealed proof2 is j
    else do
      let sc ← idx proof2 j
      let (ps, ss) ← hiddenLoop V g revealed proof2 is (j + 1)
      .ok (g.get V (i + 1) :: ps, sc :: ss)

/-- pok_signature_proof.go:127-183 `PokSignatureProof.GetChallengeContribution`; `revealed` lists the entries
of the map in the order of the `range` loop. -/
def PokProof.contribution (V : Env F G1 G2) (E : Pairing F G1 G2 GT) (p : PokProof F G1) (g : Generators G1)
    (revealed : List (Int × F)) (challenge : F) (t : Transcript) : Res Transcript := do
  let t := t ++ [.append "A'" (V.cmp1 p.aPrime), .append "Abar" (V.cmp1 p.aBar), .append "D" (V.cmp1 p.d)]
  let c1 ← deref (sop [some (p.aBar - p.d), some p.aPrime, some g.h0] [challenge, p.proof1.1, p.proof1.2])
  let t := t ++ [.append "Proof1" (V.cmp1 c1)]
  let r := sop (some E.g1 :: revealed.map fun q => g.get V (q.1 + 1)) (1 :: revealed.map Prod.snd)
  -- `make([]curves.Point, 3, pts)` with `pts = 3 + length - len(revealed)` below 3
  if g.length < revealed.length then .panic
  else
    let x0 ← idx p.proof2 0
    let x1 ← idx p.proof2 1
    let (ps, ss) ← hiddenLoop V g revealed p.proof2 (List.range g.length) 2
    let _r ← deref r
    let c2 ← deref (sop (r :: some (-p.d) :: some g.h0 :: ps) (challenge :: x0 :: x1 :: ss))
    .ok (t ++ [.append "Proof2" (V.cmp1 c2)])

/-- pok_signature_proof.go:189-194 `VerifySigPok` -/
def PokProof.verifySigPok (E : Pairing F G1 G2 GT) (p : PokProof F G1) (pk : G2) : Bool :=
  !decide (pk = 0) && !decide (p.aPrime = 0) && !decide (p.aBar = 0) &&
    decide (E.e p.aPrime pk * E.e p.aBar (-E.g2) = 1)

/-- pok_signature_proof.go:192-213 `Verify` -/
def PokProof.verify (V : Env F G1 G2) (E : Pairing F G1 G2 GT) (p : PokProof F G1) (revealed : List (Int × F))
    (pk : G2) (g : Generators G1) (nonce challenge : F) (t : Transcript) : Res Bool := do
  let t ← p.contribution V E g revealed challenge t
  let t := t ++ [.append "nonce" (V.bytes nonce)]
  let vChallenge := V.chal t "signature proof of knowledge"
  .ok (p.verifySigPok E pk && decide (challenge = vChallenge))

/-! ### encodings -/

/-- signature.go:34-38, blind_signature.go:38-42 `MarshalBinary` -/
def Signature.marshal (V : Env F G1 G2) (s : Signature F G1) : List UInt8 :=
  V.cmp1 s.a ++ V.bytes s.e ++ V.bytes s.s

/-- signature.go:40-67, blind_signature.go:44-71 `UnmarshalBinary`: on an error the receiver `old` keeps its
value -/
def Signature.unmarshal (V : Env F G1 G2) (old : Signature F G1) (data : List UInt8) : Res (Signature F G1) :=
  let pl := (V.cmp1 old.a).length
  let sl := (V.bytes old.s).length
  if data.length ≠ pl + sl * 2 then .err
  else do
    let a ← Res.ofOption (V.dec1 (data.take pl))
    let e ← Res.ofOption (V.setBytes ((data.drop pl).take sl))
    let s ← Res.ofOption (V.setBytes (data.drop (pl + sl)))
    .ok ⟨a, e, s⟩

/-- blind_signature_context.go:118-124 `MarshalBinary` -/
def BlindCtx.marshal (V : Env F G1 G2) (c : BlindCtx F G1) : List UInt8 :=
  V.cmp1 c.commitment ++ V.bytes c.challenge ++ c.proofs.flatMap V.bytes

/-- blind_signature_context.go:126-157 `UnmarshalBinary` -/
def BlindCtx.unmarshal (V : Env F G1 G2) (old : BlindCtx F G1) (data : List UInt8) : Res (BlindCtx F G1) :=
  let sl := (V.bytes old.challenge).length
  let pl := (V.cmp1 old.commitment).length
  if data.length < sl * 2 + pl then .err
  else if (data.length - pl) % sl ≠ 0 then .err
  else do
    let commitment ← Res.ofOption (V.dec1 (data.take pl))
    let challenge ← Res.ofOption (V.setBytes ((data.drop pl).take sl))
    let n := (data.length - pl) / sl - 1
    let proofs ← (List.range n).mapM fun i =>
      Res.ofOption (V.setBytes ((data.drop (pl + (i + 1) * sl)).take sl))
    .ok ⟨commitment, challenge, proofs⟩

/-- pok_signature_proof.go:41-51 `MarshalBinary` -/
def PokProof.marshal (V : Env F G1 G2) (p : PokProof F G1) : List UInt8 :=
  V.cmp1 p.aPrime ++ V.cmp1 p.aBar ++ V.cmp1 p.d ++ (V.bytes p.proof1.1 ++ V.bytes p.proof1.2) ++
    p.proof2.flatMap V.bytes

/-- pok_signature_proof.go:53-116 `UnmarshalBinary` -/
def PokProof.unmarshal (V : Env F G1 G2) (old : PokProof F G1) (data : List UInt8) : Res (PokProof F G1) :=
  let sl := (V.bytes old.proof1.1).length
  let pl := (V.cmp1 old.aPrime).length
  if data.length < sl * 4 + pl * 3 then .err
  else if (data.length - pl) % sl ≠ 0 then .err
  else do
    let cnt := (data.length - pl * 3) / sl - 2
    let aPrime ← Res.ofOption (V.dec1 (data.take pl))
    let aBar ← Res.ofOption (V.dec1 ((data.drop pl).take pl))
    let d ← Res.ofOption (V.dec1 ((data.drop (pl + pl)).take pl))
    let x0 ← Res.ofOption (V.setBytes ((data.drop (pl + pl + pl)).take sl))
    let x1 ← Res.ofOption (V.setBytes ((data.drop (pl + pl + pl + sl)).take sl))
    let proof2 ← (List.range cnt).mapM fun i =>
      Res.ofOption (V.setBytes ((data.drop (pl + pl + pl + sl + sl + i * sl)).take sl))
    .ok ⟨aPrime, aBar, d, (x0, x1), proof2⟩

/-- secret_key.go:89-91 `SecretKey.MarshalBinary` -/
def skMarshal (V : Env F G1 G2) (sk : F) : List UInt8 := V.bytes sk

/-- secret_key.go:93-104 `SecretKey.UnmarshalBinary` -/
def skUnmarshal (V : Env F G1 G2) (data : List UInt8) : Res F := Res.ofOption (V.setBytes data)

/-- public_key.go:26-28 `PublicKey.MarshalBinary` -/
def pkMarshal (V : Env F G1 G2) (pk : G2) : List UInt8 := V.cmp2 pk

/-- public_key.go:30-41 `PublicKey.UnmarshalBinary` -/
def pkUnmarshal (V : Env F G1 G2) (data : List UInt8) : Res G2 := Res.ofOption (V.dec2 data)

end Verif.Bbs
