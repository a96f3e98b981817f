import Verif.Base.GoRes
import Verif.Base.Pairing
import Verif.Sharing.Model

/-! Model of `/repo/crypto/accumulator`.  Scalars are a field `F`, `G1`, `G2` vector spaces over it.
Simplification everywhere: element, scalar and point pointers are non-nil; a Go *slice* argument that
may be nil and whose nilness the code tests is an `Option (List _)` (`none` = nil). -/

set_option linter.unusedSectionVars false

namespace Verif.Accumulator

open Verif.Sharing (Codec)

universe u
variable {F G1 G2 GT : Type u} [Field F] [DecidableEq F] [AddCommGroup G1] [Module F G1]
  [DecidableEq G1] [AddCommGroup G2] [Module F G2] [DecidableEq G2] [CommGroup GT] [DecidableEq GT]

/-- `Scalar.Invert` of core/curves/curve.go:33-95 (interface `Scalar`): an error exactly at zero. -/
def invert (x : F) : Res F := if x = 0 then .err else .ok x⁻¹

/-! ### lib.go -/

/-- accumulator/lib.go:19-41 `dad`: `none` is a nil slice. -/
def dad (values : Option (List F)) (y : F) : Res F :=
  match values with
  | none => .err
  | some [a] => .ok (a - y)
  | some vs => .ok (vs.foldl (fun r v => r * (v - y)) 1)

/-- accumulator/lib.go:46-64 `polynomialPoint.evaluate` on a non-nil slice; `p[0]` of an empty one
panics. The loop carries the pair (result, power of `x`). -/
def evaluate (p : List G1) (x : F) : Res G1 :=
  match p with
  | [] => .panic
  | c :: cs => .ok (cs.foldl (fun (s : G1 × F) c => (s.1 + s.2 • c, s.2 * x)) (c, x)).1

/-- accumulator/lib.go:67-90 `polynomialPoint.Add` -/
def ppAdd : List G1 → List G1 → List G1
  | [], q => q
  | p, [] => p
  | a :: p, b :: q => (a + b) :: ppAdd p q

/-- accumulator/lib.go:93-104 `polynomialPoint.Mul` -/
def ppMul (p : List G1) (r : F) : List G1 := p.map fun c => r • c

/-- accumulator/lib.go:109-132 `polynomial.Add` -/
def polyAdd : List F → List F → List F
  | [], q => q
  | p, [] => p
  | a :: p, b :: q => (a + b) :: polyAdd p q

/-- accumulator/lib.go:135-158 `polynomial.Sub` -/
def polySub : List F → List F → List F
  | [], q => q.map fun c => -c
  | p, [] => p
  | a :: p, b :: q => (a - b) :: polySub p q

/-- accumulator/lib.go:161-192 `polynomial.Mul`.  With an empty left operand, `p[0].Zero()` (or the
negative length) panics unless the right operand has exactly one entry. -/
def polyMul (p q : List F) : Res (List F) :=
  if p.length = 0 ∧ q.length ≠ 1 then .panic
  else
    let prod := List.replicate (p.length + q.length - 1) (0 : F)
    .ok (p.zipIdx.foldl (fun prod ci =>
      q.zipIdx.foldl (fun prod dj => prod.modify (ci.2 + dj.2) (· + ci.1 * dj.1)) prod) prod)

/-- accumulator/lib.go:195-204 `polynomial.MulScalar` -/
def polyMulScalar (p : List F) (r : F) : List F := p.map fun c => c * r

/-! ### key.go -/

/-- accumulator/key.go:71-86 `SecretKey.BatchAdditions` -/
def batchAdditions (α : F) (ys : List F) : F := ys.foldl (fun m y => m * (y + α)) 1

/-- accumulator/key.go:89-99 `SecretKey.BatchDeletions` -/
def batchDeletions (α : F) (ys : List F) : Res F := invert (batchAdditions α ys)

/-- accumulator/key.go:121-138 and 164-177: multiply `1` by `(y - x)` for the listed `y`. -/
def linProd (ys : List F) : Res (List F) :=
  ys.foldlM (fun poly y => polyMul poly [y, -1]) [1]

/-- accumulator/key.go:103-203 `SecretKey.CreateCoefficients` -/
def createCoefficients (α : F) (adds dels : List F) : Res (List F) := do
  let vD ← (List.range dels.length).foldlM (fun vD s => do
    let c ← batchDeletions α (dels.take (s + 1))
    let poly ← linProd (dels.take s)
    Res.ok (polyAdd vD (polyMulScalar poly c))) []
  let bAdd := batchAdditions α adds
  let vD := polyMulScalar vD bAdd
  let vA ← (List.range adds.length).foldlM (fun vA s => do
    let c := if s = 0 then 1 else batchAdditions α (adds.take s)
    let poly ← linProd (adds.drop (s + 1))
    Res.ok (polyAdd vA (polyMulScalar poly c))) []
  Res.ok (polySub vA vD)

/-- accumulator/key.go:30-36 `SecretKey.GetPublicKey` -/
def getPublicKey (E : Pairing F G1 G2 GT) (α : F) : G2 := α • E.g2

/-! ### accumulator.go -/

/-- accumulator/accumulator.go:38-48 `Accumulator.New` -/
def new (E : Pairing F G1 G2 GT) : G1 := E.g1

/-- accumulator/accumulator.go:52-63 `Accumulator.WithElements` -/
def withElements (E : Pairing F G1 G2 GT) (α : F) (m : List F) : G1 :=
  batchAdditions α m • new E

/-- accumulator/accumulator.go:66-76 `Accumulator.AddElements` -/
def addElements (α : F) (V : G1) (m : List F) : Res G1 := .ok (batchAdditions α m • V)

/-- accumulator/accumulator.go:80-87 `Accumulator.Add` -/
def add (α : F) (V : G1) (y : F) : Res G1 :=
  if V = 0 then .err else .ok ((y + α) • V)

/-- accumulator/accumulator.go:91-102 `Accumulator.Remove` -/
def remove (α : F) (V : G1) (y : F) : Res G1 :=
  if V = 0 then .err
  else do
    let i ← invert (y + α)
    Res.ok (i • V)

/-- accumulator/accumulator.go:106-139 `Accumulator.Update`: the new value and the coefficients. -/
def update (α : F) (V : G1) (adds dels : List F) : Res (G1 × List G1) :=
  if V = 0 then .err
  else do
    let a := batchAdditions α adds
    let d ← batchDeletions α dels
    let newAcc := (a * d) • V
    let els ← createCoefficients α adds dels
    Res.ok (newAcc, els.map fun c => c • V)

/-- The state-changing calls of accumulator.go:67-140. -/
inductive Op (F : Type u) where
  | add (y : F)
  | remove (y : F)
  | addElements (ys : List F)
  | update (adds dels : List F)
deriving DecidableEq

/-- One call on an accumulator object; when it returns an error the object is
unchanged (every method assigns `acc.value` only after its last check). -/
def Op.apply (α : F) (V : G1) : Op F → Res G1
  | .add y => Accumulator.add α V y
  | .remove y => Accumulator.remove α V y
  | .addElements ys => Accumulator.addElements α V ys
  | .update adds dels => do
    let r ← Accumulator.update α V adds dels
    Res.ok r.1

/-- A history of calls on one object; a failing call leaves the object as it was.  Returns the final
value and the calls that succeeded, in order. -/
def exec (α : F) : G1 → List (Op F) → G1 × List (Op F)
  | V, [] => (V, [])
  | V, op :: ops =>
    match op.apply α V with
    | .ok V' => ((exec α V' ops).1, op :: (exec α V' ops).2)
    | _ => exec α V ops

/-! ### witness.go -/

/-- accumulator/witness.go:19-22 `MembershipWitness` -/
structure Witness (F G1 : Type u) where
  c : G1
  y : F
deriving DecidableEq

/-- accumulator/witness.go:25-43 `MembershipWitness.New` -/
def newWitness (y : F) (V : G1) (α : F) : Res (Witness F G1) :=
  if V = 0 then .err
  else if α = 0 then .err
  else if y = 0 then .err
  else do
    let c ← remove α V y
    Res.ok ⟨c, y + 0⟩

/-- accumulator/witness.go:47-87 `MembershipWitness.Verify`; `true` is the nil error.  The type
assertions to `PairingPoint` succeed for the pairing curve. -/
def verify (E : Pairing F G1 G2 GT) (w : Witness F G1) (pk : G2) (V : G1) : Bool :=
  if w.c = 0 ∨ w.y = 0 then false
  else if pk = 0 then false
  else if V = 0 then false
  else
    let p := w.y • E.g2 + pk
    decide (E.e w.c p * E.e (-V) E.g2 = 1)

/-- accumulator/witness.go:179-182 `Delta` -/
structure Delta (F G1 : Type u) where
  d : F
  p : G1

/-- accumulator/witness.go:93-101 `MembershipWitness.ApplyDelta` -/
def applyDelta (w : Witness F G1) (δ : Delta F G1) : Witness F G1 :=
  { w with c := δ.d • w.c + δ.p }

/-- accumulator/witness.go:337-376 `evaluateDelta` -/
def evaluateDelta (y : F) (adds dels : Option (List F)) (coeffs : List G1) : Res (Delta F G1) := do
  let d ← dad dels y
  let d ← invert d
  let a ← dad adds y
  let a := a * d
  let v ← evaluate coeffs y
  Res.ok ⟨a, d • v⟩

/-- accumulator/witness.go:104-114 `MembershipWitness.BatchUpdate` -/
def batchUpdate (w : Witness F G1) (adds dels : Option (List F)) (coeffs : List G1) :
    Res (Witness F G1) := do
  let δ ← evaluateDelta w.y adds dels coeffs
  Res.ok (applyDelta w δ)

/-- accumulator/witness.go:257-279 (first loop of `evaluateDeltas`): per-epoch factors. -/
def epochFactors (y : F) (A D : List (Option (List F))) : Res (List (F × F)) :=
  (A.zip D).mapM fun ad => do
    let ta ← dad ad.1 y
    let td ← dad ad.2 y
    Res.ok (ta, td)

/-- accumulator/witness.go:236-336 `evaluateDeltas` -/
def evaluateDeltas (y : F) (A D : List (Option (List F))) (C : List (List G1)) :
    Res (Delta F G1) :=
  if A.length ≠ D.length ∨ A.length ≠ C.length then .err
  else do
    let fs ← epochFactors y A D
    let a := fs.foldl (fun r t => r * t.1) 1
    let d := fs.foldl (fun r t => r * t.2) 1
    let d ← invert d
    let p := (List.range A.length).foldl (fun p i =>
      let ddh := (fs.take i).foldl (fun r t => r * t.2) 1
      let dak := (fs.drop (i + 1)).foldl (fun r t => r * t.1) 1
      ppAdd p (ppMul (C.getD i []) (dak * ddh))) []
    let a := a * d
    let v ← evaluate p y
    Res.ok ⟨a, d • v⟩

/-- accumulator/witness.go:117-127 `MembershipWitness.MultiBatchUpdate` -/
def multiBatchUpdate (w : Witness F G1) (A D : List (Option (List F))) (C : List (List G1)) :
    Res (Witness F G1) := do
  let δ ← evaluateDeltas w.y A D C
  Res.ok (applyDelta w δ)

/-! ### proof.go -/

/-- accumulator/proof.go:28-30 `ProofParams` -/
structure ProofParams (G1 : Type u) where
  x : G1
  y : G1
  z : G1

/-- accumulator/proof.go:33-51 `ProofParams.New`; `hashG1` is `Point.Hash`, `pkBytes` the marshalled
public key. -/
def newProofParams (hashG1 : List UInt8 → G1) (entropy pkBytes : List UInt8) : ProofParams G1 :=
  let data := List.replicate 32 0xFF ++ entropy ++ pkBytes
  { z := hashG1 data
    y := hashG1 (data.set 0 0xFE)
    x := hashG1 (data.set 0 0xFD) }

/-- The seven random scalars drawn at accumulator/proof.go:133-134 and 161-165. -/
structure Rand (F : Type u) where
  sigma : F
  rho : F
  rY : F
  rSigma : F
  rRho : F
  rDeltaSigma : F
  rDeltaRho : F

/-- accumulator/proof.go:100-123 `MembershipProofCommitting` -/
structure Committing (F G1 GT : Type u) where
  eC : G1
  tSigma : G1
  tRho : G1
  deltaSigma : F
  deltaRho : F
  blindingFactor : F
  rSigma : F
  rRho : F
  rDeltaSigma : F
  rDeltaRho : F
  sigma : F
  rho : F
  capRSigma : G1
  capRRho : G1
  capRDeltaSigma : G1
  capRDeltaRho : G1
  capRE : GT
  accumulator : G1
  witnessValue : F
  xG1 : G1
  yG1 : G1
  zG1 : G1

/-- accumulator/proof.go:126-255 `MembershipProofCommitting.New` -/
def newCommitting (E : Pairing F G1 G2 GT) (w : Witness F G1) (V : G1) (pp : ProofParams G1)
    (pk : G2) (r : Rand F) : Committing F G1 GT :=
  let eC := (r.sigma + r.rho) • pp.z + w.c
  let tSigma := r.sigma • pp.x
  let tRho := r.rho • pp.y
  { eC := eC
    tSigma := tSigma
    tRho := tRho
    deltaSigma := w.y * r.sigma
    deltaRho := w.y * r.rho
    blindingFactor := r.rY
    rSigma := r.rSigma
    rRho := r.rRho
    rDeltaSigma := r.rDeltaSigma
    rDeltaRho := r.rDeltaRho
    sigma := r.sigma
    rho := r.rho
    capRSigma := r.rSigma • pp.x
    capRRho := r.rRho • pp.y
    capRDeltaSigma := r.rY • tSigma + r.rDeltaSigma • (-pp.x)
    capRDeltaRho := r.rY • tRho + r.rDeltaRho • (-pp.y)
    capRE := E.e (r.rY • eC) E.g2 * E.e ((-(r.rDeltaSigma + r.rDeltaRho)) • pp.z) E.g2 *
      E.e ((-(r.rSigma + r.rRho)) • pp.z) pk
    accumulator := V
    witnessValue := w.y
    xG1 := pp.x
    yG1 := pp.y
    zG1 := pp.z }

/-- The encodings used when hashing: `ToAffineCompressed` of a `G1` point, `Bytes` of a `GT` element,
and `Scalar.Hash` (core/curves/curve.go:33-95, interface `Scalar`). -/
structure HashEnv (F G1 GT : Type u) where
  pt : PointCodec G1
  gt : PointCodec GT
  hash : List UInt8 → F

/-- accumulator/proof.go:258-269 `MembershipProofCommitting.GetChallengeBytes` -/
def Committing.challengeBytes (H : HashEnv F G1 GT) (m : Committing F G1 GT) : List UInt8 :=
  H.pt.enc m.accumulator ++ H.pt.enc m.eC ++ H.pt.enc m.tSigma ++ H.pt.enc m.tRho ++
    H.gt.enc m.capRE ++ H.pt.enc m.capRSigma ++ H.pt.enc m.capRRho ++
    H.pt.enc m.capRDeltaSigma ++ H.pt.enc m.capRDeltaRho

/-- accumulator/proof.go:297-302 `schnorr` -/
def schnorr (r v challenge : F) : F := v * challenge + r

/-- accumulator/proof.go:317-326 `MembershipProof` -/
structure MembershipProof (F G1 : Type u) where
  eC : G1
  tSigma : G1
  tRho : G1
  sSigma : F
  sRho : F
  sDeltaSigma : F
  sDeltaRho : F
  sY : F

/-- accumulator/proof.go:273-295 `MembershipProofCommitting.GenProof` -/
def Committing.genProof (m : Committing F G1 GT) (c : F) : MembershipProof F G1 :=
  { eC := m.eC
    tSigma := m.tSigma
    tRho := m.tRho
    sSigma := schnorr m.rSigma m.sigma c
    sRho := schnorr m.rRho m.rho c
    sDeltaSigma := schnorr m.rDeltaSigma m.deltaSigma c
    sDeltaRho := schnorr m.rDeltaRho m.deltaRho c
    sY := schnorr m.blindingFactor m.witnessValue c }

/-- accumulator/proof.go:493-503 `MembershipProofFinal` -/
structure Final (G1 GT : Type u) where
  accumulator : G1
  eC : G1
  tSigma : G1
  tRho : G1
  capRE : GT
  capRSigma : G1
  capRRho : G1
  capRDeltaSigma : G1
  capRDeltaRho : G1
deriving DecidableEq

/-- accumulator/proof.go:329-415 `MembershipProof.Finalize` -/
def finalize (E : Pairing F G1 G2 GT) (mp : MembershipProof F G1) (V : G1) (pp : ProofParams G1)
    (pk : G2) (c : F) : Final G1 GT :=
  let lhs := mp.sY • mp.eC + (-(mp.sDeltaSigma + mp.sDeltaRho)) • pp.z + (-c) • V
  let rhs := c • mp.eC + (-(mp.sSigma + mp.sRho)) • pp.z
  { accumulator := V
    eC := mp.eC
    tSigma := mp.tSigma
    tRho := mp.tRho
    capRE := E.e lhs E.g2 * E.e rhs pk
    capRSigma := mp.sSigma • pp.x + c • (-mp.tSigma)
    capRRho := mp.sRho • pp.y + c • (-mp.tRho)
    capRDeltaSigma := mp.sY • mp.tSigma + mp.sDeltaSigma • (-pp.x)
    capRDeltaRho := mp.sY • mp.tRho + mp.sDeltaRho • (-pp.y) }

/-- The bytes hashed at accumulator/proof.go:509-517. -/
def Final.bytes (H : HashEnv F G1 GT) (m : Final G1 GT) : List UInt8 :=
  H.pt.enc m.accumulator ++ H.pt.enc m.eC ++ H.pt.enc m.tSigma ++ H.pt.enc m.tRho ++
    H.gt.enc m.capRE ++ H.pt.enc m.capRSigma ++ H.pt.enc m.capRRho ++
    H.pt.enc m.capRDeltaSigma ++ H.pt.enc m.capRDeltaRho

/-- accumulator/proof.go:506-518 `MembershipProofFinal.GetChallenge` -/
def Final.getChallenge (H : HashEnv F G1 GT) (m : Final G1 GT) : F := H.hash (m.bytes H)

/-! ### marshalling of witnesses and deltas -/

/-- What `curves.GetCurveByName` (core/curves/curve.go:459-484) resolves a name to: the point and
scalar codecs of that curve with their fixed lengths (`len(curve.Point.ToAffineCompressed())`,
`len(curve.Scalar.Bytes())`). -/
structure CurveCodec (F G1 : Type u) where
  ptLen : Nat
  scLen : Nat
  ptEnc : G1 → List UInt8
  ptDec : List UInt8 → Option G1
  scEnc : F → List UInt8
  scDec : List UInt8 → Option F

/-- accumulator/witness.go:133-138 (the `Value` field of `MarshalBinary`) and 191-193 -/
def payload (K : CurveCodec F G1) (c : G1) (y : F) : List UInt8 := K.ptEnc c ++ K.scEnc y

/-- accumulator/witness.go:155-176 (tail of `MembershipWitness.UnmarshalBinary`, and 217-232 of
`Delta`): split the payload. -/
def parsePayload (K : CurveCodec F G1) (v : List UInt8) : Res (G1 × F) :=
  if v.length ≠ K.ptLen + K.scLen then .err
  else do
    let c ← Res.ofOption (K.ptDec (v.take K.ptLen))
    let y ← Res.ofOption (K.scDec (v.drop K.ptLen))
    Res.ok (c, y)

end Verif.Accumulator
