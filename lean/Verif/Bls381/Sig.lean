import Verif.Bls381.PairInst
import Verif.Bls381.FqApi

/-!
# BLS signatures on stored points (crypto/signatures/bls/bls_sig)

The model `Verif.Bls` of the package works over abstract groups.  Here the same functions are written on the stored points, scalars and
pairing engine of `native/bls12381`, for `usual_bls_sig.go` (keys in G1, signatures in G2) and `tiny_bls_sig.go` (the other way round).
A `Scheme` collects what the two files use; pointers are assumed not to be nil.
-/

set_option linter.unusedSectionVars false
set_option maxRecDepth 20000

namespace Verif.Bls381.Sig
open Verif.Native Verif.Bytes

/-- The functions of one group that the package uses (crypto/core/curves/native/bls12381/g1.go, g2.go): `Generator`, `Identity`, `Add`,
`Mul`, `IsIdentity`, `InCorrectSubgroup`, `ToCompressed`, `FromCompressed`. -/
structure Side (A : Type) where
  size : Nat
  gen : A
  zero : A
  add : A → A → A
  mul : A → L4 → A
  isId : A → UInt64
  inSub : A → UInt64
  enc : A → List UInt8
  dec : List UInt8 → Option A

/-- G1 (crypto/core/curves/native/bls12381/g1.go). -/
def side1 : Side G1.Point where
  size := 48
  gen := G1.generator
  zero := P3.identity G1.F
  add := P3.add G1.F
  mul := G1.mul
  isId := P3.isIdentity G1.F
  inSub := P3.inCorrectSubgroup G1.F
  enc := P3.toCompressed G1.codec
  dec := P3.fromCompressed G1.codec

/-- G2 (crypto/core/curves/native/bls12381/g2.go). -/
def side2 : Side G2.Point where
  size := 96
  gen := G2.generator
  zero := P3.identity G2.F
  add := P3.add G2.F
  mul := G2.mul
  isId := P3.isIdentity G2.F
  inSub := P3.inCorrectSubgroup G2.F
  enc := P3.toCompressed G2.codec
  dec := P3.fromCompressed G2.codec

/-- One of the two files: the group of the keys, the group of the signatures, the hash to it, and the calls on the pairing engine.
`verifyEngine pk h s` is the engine after the calls of `verifySignature`; `addKey` adds the pair of a key and a hashed message in
`coreAggregateVerify`, `closeAgg` the pair with the signature. -/
structure Scheme (KA SA : Type) where
  k : Side KA
  s : Side SA
  hash : List UInt8 → List UInt8 → SA
  verifyEngine : KA → SA → SA → Pair.Engine
  addKey : Pair.Engine → KA → SA → Pair.Engine
  closeAgg : Pair.Engine → SA → Pair.Engine
  /-- `SigAug.Sign` refuses an empty message -/
  refuseEmpty : Bool

/-- signatures/bls/bls_sig/usual_bls_sig.go:205-206, 126-128 -/
def usual (hash : List UInt8 → List UInt8 → G2.Point) : Scheme G1.Point G2.Point where
  k := side1
  s := side2
  hash := hash
  verifyEngine := fun pk p2 sig => Pair.addPairInvG1 (Pair.addPair [] pk p2) G1.generator sig
  addKey := fun e pk p2 => Pair.addPair e pk p2
  closeAgg := fun e sig => Pair.addPairInvG1 e G1.generator sig
  refuseEmpty := true

/-- signatures/bls/bls_sig/tiny_bls_sig.go:204-205, 126-128 -/
def tiny (hash : List UInt8 → List UInt8 → G1.Point) : Scheme G2.Point G1.Point where
  k := side2
  s := side1
  hash := hash
  verifyEngine := fun pk p1 sig => Pair.addPair (Pair.addPairInvG1 [] p1 pk) sig G2.generator
  addKey := fun e pk p1 => Pair.addPair e p1 pk
  closeAgg := fun e sig => Pair.addPairInvG2 e sig G2.generator
  refuseEmpty := false

variable {KA SA : Type} (S : Scheme KA SA)

/-! ### keys, signatures and their encodings -/

/-- signatures/bls/bls_sig/lib.go:102-105 `SecretKey.MarshalBinary` -/
def skMarshal (sk : L4) : List UInt8 := (Field.bytes Fq.impl.A sk).reverse

/-- signatures/bls/bls_sig/lib.go:110-126 `SecretKey.UnmarshalBinary` -/
def skUnmarshal (data : List UInt8) : Res L4 :=
  if data.length ≠ 32 then .err
  else if data = List.replicate data.length 0 then .err
  else Field.setBytes Fq.impl.A Fq.impl.P data.reverse

/-- signatures/bls/bls_sig/usual_bls_sig.go:53-68 `PublicKey.UnmarshalBinary`, 138-153 `Signature.UnmarshalBinary` (the same for the
other types of point) -/
def unmarshal {A : Type} (G : Side A) (data : List UInt8) : Res A :=
  if data.length ≠ G.size then .err
  else match G.dec data with
  | none => .err
  | some p => if G.isId p = 1 then .err else .ok p

/-- signatures/bls/bls_sig/usual_bls_sig.go:157-164 `SecretKey.GetPublicKey` -/
def getPublicKey (sk : L4) : Res KA :=
  let result := S.k.mul S.k.gen sk
  if S.k.inSub result = 0 ∨ S.k.isId result = 1 then .err else .ok result

/-- signatures/bls/bls_sig/usual_bls_sig.go:174-187 `SecretKey.createSignature`; `none` is a nil message. -/
def createSignature (sk : L4) (message : Option (List UInt8)) (dst : List UInt8) : Res SA :=
  match message with
  | none => .err
  | some m =>
    if Scalar.isZero sk then .err
    else
      let result := S.s.mul (S.hash m dst) sk
      if S.s.inSub result = 0 then .err else .ok result

/-- signatures/bls/bls_sig/usual_bls_sig.go:191-208 `PublicKey.verifySignature` -/
def verifySignature (pk : KA) (message : Option (List UInt8)) (sig : SA) (dst : List UInt8) : Res Bool :=
  match message with
  | none => .err
  | some m =>
    if S.k.isId pk = 1 then .err
    else if S.s.isId sig = 1 ∨ S.s.inSub sig = 0 then .err
    else .ok (Pair.check (S.verifyEngine pk (S.hash m dst) sig))

/-- signatures/bls/bls_sig/usual_bls_sig.go:119-127: the loop over the keys. -/
def aggLoop (dst : List UInt8) : List (KA × List UInt8) → Pair.Engine → Res Pair.Engine
  | [], e => .ok e
  | (pk, m) :: rest, e =>
    if S.k.isId pk = 1 ∨ S.k.inSub pk = 0 then .err
    else aggLoop dst rest (S.addKey e pk (S.hash m dst))

/-- signatures/bls/bls_sig/usual_bls_sig.go:98-131 `Signature.coreAggregateVerify` -/
def coreAggregateVerify (sig : SA) (pks : List KA) (msgs : List (List UInt8)) (dst : List UInt8) : Res Bool :=
  if pks.length < 1 then .err
  else if msgs.length < 1 then .err
  else if pks.length ≠ msgs.length then .err
  else if S.s.inSub sig = 0 then .err
  else do
    let e ← aggLoop S dst (pks.zip msgs) []
    Res.ok (Pair.check (S.closeAgg e sig))

/-- signatures/bls/bls_sig/usual_bls_sig.go:211-226 `aggregatePublicKeys`, 229-244 `aggregateSignatures` -/
def aggregate {A : Type} (G : Side A) (l : List A) : Res A :=
  if l.length < 1 then .err
  else l.foldlM (fun r a => if G.inSub a = 0 then Res.err else Res.ok (G.add r a)) G.zero

/-! ### the schemes -/

/-- signatures/bls/bls_sig/usual_bls.go:131-133 `SigBasic.Sign` -/
def basicSign (dst : List UInt8) (sk : L4) (msg : Option (List UInt8)) : Res SA := createSignature S sk msg dst

/-- signatures/bls/bls_sig/usual_bls.go:146-148 `SigBasic.Verify` -/
def basicVerify (dst : List UInt8) (pk : KA) (msg : Option (List UInt8)) (sig : SA) : Res Bool := verifySignature S pk msg sig dst

/-- signatures/bls/bls_sig/usual_bls.go:155-164 `SigBasic.AggregateVerify` -/
def basicAggregateVerify (dst : List UInt8) (pks : List KA) (msgs : List (List UInt8)) (sigs : List SA) : Res Bool :=
  if !Bls.allRowsUnique msgs [] then .err
  else do
    let asig ← aggregate S.s sigs
    coreAggregateVerify S asig pks msgs dst

/-- signatures/bls/bls_sig/usual_bls.go:209-223 `SigAug.Sign` -/
def augSign (dst : List UInt8) (sk : L4) (msg : List UInt8) : Res SA :=
  if S.refuseEmpty && msg.length = 0 then .err
  else do
    let pk ← getPublicKey S sk
    createSignature S sk (some (S.k.enc pk ++ msg)) dst

/-- signatures/bls/bls_sig/usual_bls.go:248-255 `SigAug.Verify` -/
def augVerify (dst : List UInt8) (pk : KA) (msg : List UInt8) (sig : SA) : Res Bool :=
  verifySignature S pk (some (S.k.enc pk ++ msg)) sig dst

/-- signatures/bls/bls_sig/usual_bls.go:261-278 `SigAug.AggregateVerify` -/
def augAggregateVerify (dst : List UInt8) (pks : List KA) (msgs : List (List UInt8)) (sigs : List SA) : Res Bool :=
  if pks.length ≠ msgs.length then .err
  else do
    let data := (pks.zip msgs).map fun pm => S.k.enc pm.1 ++ pm.2
    let asig ← aggregate S.s sigs
    coreAggregateVerify S asig pks data dst

/-- signatures/bls/bls_sig/usual_bls_sig.go:257-271 `SecretKey.createProofOfPossession` -/
def popProve (popDst : List UInt8) (sk : L4) : Res SA := do
  let pk ← getPublicKey S sk
  createSignature S sk (some (S.k.enc pk)) popDst

/-- signatures/bls/bls_sig/usual_bls_sig.go:300-309 `ProofOfPossession.verify` -/
def popVerify (popDst : List UInt8) (pk : KA) (pop : SA) : Res Bool := verifySignature S pk (some (S.k.enc pk)) pop popDst

/-- signatures/bls/bls_sig/usual_bls.go:408-414 `SigPop.FastAggregateVerify` -/
def fastAggregateVerify (dst : List UInt8) (pks : List KA) (msg : Option (List UInt8)) (asig : SA) : Res Bool := do
  let apk ← aggregate S.k pks
  verifySignature S apk msg asig dst

/-- signatures/bls/bls_sig/usual_bls.go:420-428 `SigPop.FastAggregateVerifyConstituent` -/
def fastAggregateVerifyConstituent (dst : List UInt8) (pks : List KA) (msg : Option (List UInt8)) (sigs : List SA) : Res Bool := do
  let asig ← aggregate S.s sigs
  fastAggregateVerify S dst pks msg asig

/-! ### threshold signatures -/

/-- signatures/bls/bls_sig/usual_bls_sig.go:403-420 `SecretKeyShare.partialSign`; `copy` into the 32-byte array cuts or pads. -/
def partialSign (dst : List UInt8) (sks : Bls.KeyShare) (message : List UInt8) : Res (Bls.Partial SA) :=
  if message.length = 0 then .err
  else do
    let blob := (sks.value.reverse ++ List.replicate 32 0).take 32
    let s ← Field.setBytes Fq.impl.A Fq.impl.P blob
    let result := S.s.mul (S.hash message dst) s
    if S.s.inSub result = 0 then Res.err else Res.ok ⟨sks.identifier, result⟩

/-- signatures/bls/bls_sig/usual_bls_sig.go:470-491 `splitXY`; `dup` is the map of identifiers. -/
def splitXY : List (Bls.Partial SA) → List UInt8 → Res (List (L4 × SA))
  | [], _ => .ok []
  | p :: rest, dup =>
    if p.identifier ∈ dup then .err
    else if S.s.inSub p.signature = 0 then .err
    else do
      let r ← splitXY rest (p.identifier :: dup)
      Res.ok ((Field.setUint64 Fq.impl.A p.identifier.toUInt64, p.signature) :: r)

/-- signatures/bls/bls_sig/usual_bls_sig.go:444-459: the basis polynomial at zero for index `i`. -/
def basisAt (xs : List L4) (i : Nat) (xi : L4) : Res L4 :=
  xs.zipIdx.foldlM (fun b p =>
    if i = p.2 then Res.ok b
    else
      let num := Fq.impl.A.neg p.1
      let den := Fq.impl.A.sub xi p.1
      let inv := Fq.impl.invert den den
      if inv.1 ≠ 1 then Res.err
      else Res.ok (Fq.impl.A.mul b (Fq.impl.A.mul num inv.2))) (Field.one Fq.impl.P)

/-- signatures/bls/bls_sig/usual_bls_sig.go:423-467 `combineSigs` -/
def combineSigs (partials : List (Bls.Partial SA)) : Res SA :=
  if partials.length < 2 then .err
  else if partials.length > 255 then .err
  else do
    let xy ← splitXY S partials []
    let sig ← xy.zipIdx.foldlM (fun sig p => do
      let b ← basisAt (xy.map Prod.fst) p.2 p.1.1
      Res.ok (S.s.add sig (S.s.mul p.1.2 b))) S.s.zero
    if S.s.inSub sig = 0 then Res.err else Res.ok sig

end Verif.Bls381.Sig
