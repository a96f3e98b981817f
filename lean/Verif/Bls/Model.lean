import Verif.Base.GoRes
import Verif.Base.Pairing
import Verif.Sharing.Model

/-! Model of `/repo/crypto/signatures/bls/bls_sig`.  The package contains two instances of the same
scheme: `usual_bls*.go` (keys in `G1`, signatures in `G2`) and `tiny_bls*.go` (the other way round, every
name suffixed `Vt`).  The model is generic in the key group `P` and the signature group `S`;
`Variant.minSig` selects the few lines in which the two files differ.  Line numbers below are those of
the `usual` files. -/

set_option linter.unusedSectionVars false

namespace Verif.Bls

open Verif.Sharing (Codec)


variable {F P S GT CP CS : Type} [Field F] [DecidableEq F] [AddCommGroup P] [Module F P]
  [AddCommGroup S] [Module F S] [CommGroup GT] [DecidableEq GT]

/-- A curve group: points `C` of the whole curve, with the prime-order subgroup `G` embedded by `ι`
(native/bls12381/g1.go and g2.go).  `inSub` is `InCorrectSubgroup`, `isId` is `IsIdentity`, and outside
the subgroup `add`, `mul` are left unspecified. -/
structure CurveGroup (F G C : Type) [Field F] [AddCommGroup G] [Module F G] where
  ι : G → C
  inj : Function.Injective ι
  inSub : C → Bool
  inSub_iff : ∀ c, inSub c = true ↔ ∃ g, ι g = c
  isId : C → Bool
  isId_iff : ∀ c, isId c = true ↔ c = ι 0
  add : C → C → C
  add_ι : ∀ a b, add (ι a) (ι b) = ι (a + b)
  mul : C → F → C
  mul_ι : ∀ a x, mul (ι a) x = ι (x • a)

/-- Which of the two files. -/
structure Variant where
  minSig : Bool

/-- Everything the package imports: the two groups, the pairing, hashing to the signature group
(`Hash(EllipticPointHasherSha256(), msg, dst)`, which lands in the subgroup), the key encoding and the
scalar codec. `pair` is the pairing engine on arbitrary curve points, specified only on the subgroups;
the generator of the key group is `E.g1`. -/
structure Env (F P S GT CP CS : Type) [Field F] [AddCommGroup P] [Module F P]
    [AddCommGroup S] [Module F S] [CommGroup GT] where
  variant : Variant
  E : Pairing F P S GT
  kp : CurveGroup F P CP
  sg : CurveGroup F S CS
  neg_p : CP → CP
  neg_p_ι : ∀ a, neg_p (kp.ι a) = kp.ι (-a)
  neg_s : CS → CS
  neg_s_ι : ∀ a, neg_s (sg.ι a) = sg.ι (-a)
  pair : CP → CS → GT
  pair_ι : ∀ a b, pair (kp.ι a) (sg.ι b) = E.e a b
  hash : List UInt8 → List UInt8 → S
  pkBytes : CP → List UInt8
  sc : Codec F

variable (V : Env F P S GT CP CS)

/-- the generator of the key group as a curve point -/
def gen : CP := V.kp.ι V.E.g1

/-- hash to the signature group -/
def hashPt (msg dst : List UInt8) : CS := V.sg.ι (V.hash msg dst)

/-- signatures/bls/bls_sig/usual_bls_sig.go:157-164 `SecretKey.GetPublicKey` -/
def getPublicKey (sk : F) : Res CP :=
  let result := V.kp.mul (gen V) sk
  if !V.kp.inSub result || V.kp.isId result then .err else .ok result

/-- signatures/bls/bls_sig/usual_bls_sig.go:174-187 `SecretKey.createSignature`; `none` is a nil
message. -/
def createSignature (sk : F) (message : Option (List UInt8)) (dst : List UInt8) : Res CS :=
  match message with
  | none => .err
  | some m =>
    if sk = 0 then .err
    else
      let result := V.sg.mul (hashPt V m dst) sk
      if !V.sg.inSub result then .err else .ok result

/-- signatures/bls/bls_sig/usual_bls_sig.go:191-208 `PublicKey.verifySignature`.  The signature pointer
is non-nil. The two variants negate different arguments. -/
def verifySignature (pk : CP) (message : Option (List UInt8)) (sig : CS) (dst : List UInt8) : Res Bool :=
  match message with
  | none => .err
  | some m =>
    if V.kp.isId pk then .err
    else if V.sg.isId sig || !V.sg.inSub sig then .err
    else if V.variant.minSig then
      .ok (decide (V.pair pk (V.neg_s (hashPt V m dst)) * V.pair (gen V) sig = 1))
    else
      .ok (decide (V.pair pk (hashPt V m dst) * V.pair (V.neg_p (gen V)) sig = 1))

/-- signatures/bls/bls_sig/usual_bls_sig.go:119-128: the loop over the keys, accumulating the product
of pairings. -/
def aggLoop (dst : List UInt8) : List (CP × List UInt8) → GT → Res GT
  | [], acc => .ok acc
  | (pk, m) :: rest, acc =>
    if V.kp.isId pk || !V.kp.inSub pk then .err
    else aggLoop dst rest (acc * V.pair pk (hashPt V m dst))

/-- signatures/bls/bls_sig/usual_bls_sig.go:98-131 `Signature.coreAggregateVerify` -/
def coreAggregateVerify (sig : CS) (pks : List CP) (msgs : List (List UInt8)) (dst : List UInt8) :
    Res Bool :=
  if pks.length < 1 then .err
  else if msgs.length < 1 then .err
  else if pks.length ≠ msgs.length then .err
  else if !V.sg.inSub sig then .err
  else do
    let acc ← aggLoop V dst (pks.zip msgs) 1
    Res.ok (decide (acc * V.pair (V.neg_p (gen V)) sig = 1))

/-- signatures/bls/bls_sig/usual_bls_sig.go:211-226 `aggregatePublicKeys` -/
def aggregatePublicKeys (pks : List CP) : Res CP :=
  if pks.length < 1 then .err
  else pks.foldlM (fun r k => if !V.kp.inSub k then Res.err else Res.ok (V.kp.add r k)) (V.kp.ι 0)

/-- signatures/bls/bls_sig/usual_bls_sig.go:229-244 `aggregateSignatures` -/
def aggregateSignatures (sigs : List CS) : Res CS :=
  if sigs.length < 1 then .err
  else sigs.foldlM (fun r s => if !V.sg.inSub s then Res.err else Res.ok (V.sg.add r s)) (V.sg.ι 0)

/-- signatures/bls/bls_sig/lib.go:41-51 `allRowsUnique`; `seen` is the map. -/
def allRowsUnique : List (List UInt8) → List (List UInt8) → Bool
  | [], _ => true
  | row :: rest, seen => if row ∈ seen then false else allRowsUnique rest (row :: seen)

/-! ### the Basic scheme -/

/-- signatures/bls/bls_sig/usual_bls.go:131-133 `SigBasic.Sign` (and 335-337 `SigPop.Sign`) -/
def basicSign (dst : List UInt8) (sk : F) (msg : Option (List UInt8)) : Res CS :=
  createSignature V sk msg dst

/-- signatures/bls/bls_sig/usual_bls.go:146-148 `SigBasic.Verify` (and 352-354 `SigPop.Verify`) -/
def basicVerify (dst : List UInt8) (pk : CP) (msg : Option (List UInt8)) (sig : CS) : Res Bool :=
  verifySignature V pk msg sig dst

/-- signatures/bls/bls_sig/usual_bls.go:155-164 `SigBasic.AggregateVerify` (and 361-370
`SigPop.AggregateVerify`) -/
def basicAggregateVerify (dst : List UInt8) (pks : List CP) (msgs : List (List UInt8))
    (sigs : List CS) : Res Bool :=
  if !allRowsUnique msgs [] then .err
  else do
    let asig ← aggregateSignatures V sigs
    coreAggregateVerify V asig pks msgs dst

/-! ### the message-augmentation scheme -/

/-- signatures/bls/bls_sig/usual_bls.go:209-223 `SigAug.Sign`; tiny_bls.go:209-220 lacks the
empty-message check. -/
def augSign (dst : List UInt8) (sk : F) (msg : List UInt8) : Res CS :=
  if !V.variant.minSig && msg.length = 0 then .err
  else do
    let pk ← getPublicKey V sk
    createSignature V sk (some (V.pkBytes pk ++ msg)) dst

/-- signatures/bls/bls_sig/usual_bls.go:248-255 `SigAug.Verify` -/
def augVerify (dst : List UInt8) (pk : CP) (msg : List UInt8) (sig : CS) : Res Bool :=
  verifySignature V pk (some (V.pkBytes pk ++ msg)) sig dst

/-- signatures/bls/bls_sig/usual_bls.go:261-278 `SigAug.AggregateVerify` -/
def augAggregateVerify (dst : List UInt8) (pks : List CP) (msgs : List (List UInt8))
    (sigs : List CS) : Res Bool :=
  if pks.length ≠ msgs.length then .err
  else do
    let data := (pks.zip msgs).map fun pm => V.pkBytes pm.1 ++ pm.2
    let asig ← aggregateSignatures V sigs
    coreAggregateVerify V asig pks data dst

/-! ### the proof-of-possession scheme -/

/-- signatures/bls/bls_sig/usual_bls.go:303-308 `NewSigPopWithDst` -/
def newSigPopWithDst (signDst popDst : List UInt8) : Res (List UInt8 × List UInt8) :=
  if signDst = popDst then .err else .ok (signDst, popDst)

/-- signatures/bls/bls_sig/usual_bls_sig.go:257-271 `SecretKey.createProofOfPossession` -/
def popProve (popDst : List UInt8) (sk : F) : Res CS := do
  let pk ← getPublicKey V sk
  createSignature V sk (some (V.pkBytes pk)) popDst

/-- signatures/bls/bls_sig/usual_bls_sig.go:300-309 `ProofOfPossession.verify` -/
def popVerify (popDst : List UInt8) (pk : CP) (pop : CS) : Res Bool :=
  verifySignature V pk (some (V.pkBytes pk)) pop popDst

/-- signatures/bls/bls_sig/usual_bls.go:408-414 `SigPop.FastAggregateVerify`; with keys and signature
already combined it is usual_bls.go:399-403 `SigPop.VerifyMultiSignature`. -/
def fastAggregateVerify (dst : List UInt8) (pks : List CP) (msg : Option (List UInt8)) (asig : CS) :
    Res Bool := do
  let apk ← aggregatePublicKeys V pks
  verifySignature V apk msg asig dst

/-- signatures/bls/bls_sig/usual_bls.go:420-428 `SigPop.FastAggregateVerifyConstituent` -/
def fastAggregateVerifyConstituent (dst : List UInt8) (pks : List CP) (msg : Option (List UInt8))
    (sigs : List CS) : Res Bool := do
  let asig ← aggregateSignatures V sigs
  fastAggregateVerify V dst pks msg asig

/-! ### threshold signatures -/

/-- signatures/bls/bls_sig/lib.go:129-132 `SecretKeyShare` -/
structure KeyShare where
  identifier : UInt8
  value : List UInt8
deriving DecidableEq

/-- signatures/bls/bls_sig/lib.go:161-208 `thresholdizeSecretKey`; `rnd` are the polynomial's random
coefficients. -/
def thresholdize (sk : F) (threshold total : Nat) (rnd : Nat → F) : Res (List KeyShare) :=
  if threshold > total then .err
  else if threshold = 0 then .err
  else if total ≤ 1 then .err
  else if total > 255 ∨ threshold > 255 then .err
  else do
    let sss ← Res.ofOption (Sharing.newShamir threshold total)
    let shares ← Res.ofOption (Sharing.split sss V.sc sk rnd)
    if shares.length ≠ total then Res.err
    else Res.ok (shares.map fun s => ⟨UInt8.ofNat s.id, s.value⟩)

/-- signatures/bls/bls_sig/lib.go:135-141 `SecretKeyShare.MarshalBinary`: writing the identifier after
a value longer than 32 bytes is out of range. -/
def KeyShare.marshal (s : KeyShare) : Res (List UInt8) :=
  if s.value.length ≥ 33 then .panic
  else .ok (s.value ++ [s.identifier] ++ List.replicate (32 - s.value.length) 0)

/-- signatures/bls/bls_sig/lib.go:144-158 `SecretKeyShare.UnmarshalBinary` -/
def KeyShare.unmarshal (data : List UInt8) : Res KeyShare :=
  if data.length ≠ 33 then .err
  else if data = List.replicate 33 0 then .err
  else .ok ⟨data.getD 32 0, data.take 32⟩

/-- signatures/bls/bls_sig/usual_bls_sig.go:396-399 `PartialSignature` -/
structure Partial (CS : Type) where
  identifier : UInt8
  signature : CS

/-- signatures/bls/bls_sig/usual_bls_sig.go:403-420 `SecretKeyShare.partialSign`.  Decoding the
reversed 32 bytes with the little-endian `SetBytes` is the big-endian scalar codec. -/
def partialSign (dst : List UInt8) (sks : KeyShare) (message : List UInt8) : Res (Partial CS) :=
  if message.length = 0 then .err
  else do
    let s ← Res.ofOption (V.sc.setBytes sks.value)
    let result := V.sg.mul (hashPt V message dst) s
    if !V.sg.inSub result then Res.err else Res.ok ⟨sks.identifier, result⟩

/-- signatures/bls/bls_sig/usual_bls.go:226-238 `SigAug.PartialSign` -/
def augPartialSign (dst : List UInt8) (sks : KeyShare) (pk : CP) (msg : List UInt8) :
    Res (Partial CS) :=
  if msg.length = 0 then .err else partialSign V dst sks (V.pkBytes pk ++ msg)

/-- signatures/bls/bls_sig/usual_bls_sig.go:470-491 `splitXY`; `dup` is the map of identifiers. -/
def splitXY : List (Partial CS) → List UInt8 → Res (List (F × CS))
  | [], _ => .ok []
  | p :: rest, dup =>
    if p.identifier ∈ dup then .err
    else if !V.sg.inSub p.signature then .err
    else do
      let r ← splitXY rest (p.identifier :: dup)
      Res.ok (((p.identifier.toNat : F), p.signature) :: r)

/-- signatures/bls/bls_sig/usual_bls_sig.go:444-459: the basis polynomial at zero for index `i`. -/
def basisAt (xs : List F) (i : Nat) (xi : F) : Res F :=
  xs.zipIdx.foldlM (fun b p =>
    if i = p.2 then Res.ok b
    else if xi - p.1 = 0 then Res.err
    else Res.ok (b * (-p.1 * (xi - p.1)⁻¹))) 1

/-- signatures/bls/bls_sig/usual_bls_sig.go:423-467 `combineSigs` -/
def combineSigs (partials : List (Partial CS)) : Res CS :=
  if partials.length < 2 then .err
  else if partials.length > 255 then .err
  else do
    let xy ← splitXY V partials []
    let sig ← xy.zipIdx.foldlM (fun sig p => do
      let b ← basisAt (xy.map Prod.fst) p.2 p.1.1
      Res.ok (V.sg.add sig (V.sg.mul p.1.2 b))) (V.sg.ι 0)
    if !V.sg.inSub sig then Res.err else Res.ok sig

end Verif.Bls
