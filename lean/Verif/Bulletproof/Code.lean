import Verif.Base.GoRes
import Verif.OT.Simplest
import Mathlib.Algebra.Module.Basic
import Mathlib.Algebra.Field.Basic
import Mathlib.Algebra.BigOperators.Group.List.Basic

/-! Model of `/repo/crypto/bulletproof` (helpers.go, generators.go, ipp_prover.go, ipp_verifier.go,
range_prover.go, range_verifier.go, range_batch_prover.go, range_batch_verifier.go).

Scalars are a field `F`, points an `F`-module `G` (written additively; `P.Mul(s)` is `s • P`).  A merlin
transcript is its history, and a 64 byte challenge read from it and mapped to a scalar is an arbitrary
function of that history and of the label. -/

namespace Verif.Bulletproof

open Verif
open Verif.OT (Ev Transcript idx)

/-- What the package uses of `curves.Curve` (core/curves/curve.go:40-150).
`invErr`: whether `Scalar.Invert` reports the inversion of zero (K-256, P-256, BLS12-381, Pallas) or
silently returns zero (ed25519_curve.go:136-140).  `unc` is `Point.ToAffineUncompressed`, `cmp`
`Point.ToAffineCompressed`, `dec` `Point.FromAffineCompressed`; `chal t l` is
`SetBytesWide(transcript.ExtractBytes(l, 64))`, which cannot fail on 64 bytes. -/
structure Curve (F G : Type) where
  invErr : Bool
  bytes : F → List UInt8
  setBytes : List UInt8 → Option F
  big : F → Nat
  unc : G → List UInt8
  cmp : G → List UInt8
  dec : List UInt8 → Option G
  chal : Transcript → String → F

variable {F G : Type} [Field F] [DecidableEq F] [AddCommGroup G] [Module F G] [DecidableEq G]

/-- merlin `Transcript.AppendMessage` with a point's uncompressed encoding -/
def Curve.app (C : Curve F G) (t : Transcript) (label : String) (P : G) : Transcript :=
  t ++ [.append label (C.unc P)]

/-- merlin `Transcript.ExtractBytes(label, 64)` followed by `SetBytesWide` -/
def Curve.ext (C : Curve F G) (t : Transcript) (label : String) : F × Transcript :=
  (C.chal t label, t ++ [.extract label])

/-- `Scalar.Invert` -/
def Curve.invert (C : Curve F G) (x : F) : Res F :=
  if x = 0 ∧ C.invErr = true then .err else .ok x⁻¹

/-- `Point.SumOfProducts(points, scalars)`.  On lists of different lengths the native curves return a nil
`Point` (k256_curve.go:600-606), on which the callers here call a method at once, and ed25519's
`MultiScalarMult` panics: a panic either way. -/
def sop (points : List G) (scalars : List F) : Res G :=
  if points.length = scalars.length then .ok (List.zipWith (fun p s => s • p) points scalars).sum
  else .panic

/-! ### helpers.go -/

/-- helpers.go:16-32 `innerProduct` -/
def innerProduct (a b : List F) : Res F :=
  if a.length ≠ b.length then .err
  else if a.length < 1 then .err
  else .ok ((List.zip a b).foldl (fun acc p => p.1 * p.2 + acc) 0)

/-- helpers.go:35-60 `splitPointVector`, `splitScalarVector` -/
def split {α : Type} (l : List α) : Res (List α × List α) :=
  if l.length < 1 then .err
  else if l.length &&& 1 ≠ 0 then .err
  else .ok (l.take (l.length >>> 1), l.drop (l.length >>> 1))

/-- helpers.go:63-71 `multiplyScalarToPointVector` -/
def mulPts (x : F) (g : List G) : List G := g.map (fun p => x • p)

/-- helpers.go:74-82 `multiplyScalarToScalarVector` -/
def mulScs (x : F) (a : List F) : List F := a.map (fun e => e * x)

/-- helpers.go:85-95 `multiplyPairwisePointVectors` -/
def addPts (g h : List G) : Res (List G) :=
  if g.length ≠ h.length then .err else .ok (List.zipWith (· + ·) g h)

/-- helpers.go:98-108 `multiplyPairwiseScalarVectors` -/
def mulPair (a b : List F) : Res (List F) :=
  if a.length ≠ b.length then .err else .ok (List.zipWith (· * ·) a b)

/-- helpers.go:111-121 `addPairwiseScalarVectors` -/
def addPair (a b : List F) : Res (List F) :=
  if a.length ≠ b.length then .err else .ok (List.zipWith (· + ·) a b)

/-- helpers.go:124-133 `subtractPairwiseScalarVectors` -/
def subPair (a b : List F) : Res (List F) :=
  if a.length ≠ b.length then .err else .ok (List.zipWith (· - ·) a b)

/-- helpers.go:136-147 `invertScalars` -/
def invertScalars (C : Curve F G) (xs : List F) : Res (List F) := xs.mapM C.invert

/-- helpers.go:150-152 `isPowerOfTwo` (a length, so `i ≥ 0`; `0 & -1 = 0`) -/
def isPowerOfTwo (i : Nat) : Bool := i &&& (i - 1) == 0

/-- helpers.go:156-163, the loop of `get2nVector`: `m` more entries, starting at `x` -/
def dblFrom (x : F) : Nat → List F
  | 0 => []
  | m + 1 => x :: dblFrom (x + x) m

/-- helpers.go:156-163 `get2nVector`; `make` panics on a negative length, `vector2n[0]` on zero -/
def get2n (length : Int) : Res (List F) :=
  if length < 1 then .panic else .ok (dblFrom 1 length.toNat)

/-- helpers.go:165-171 `get1nVector` -/
def get1n (length : Int) : Res (List F) :=
  if length < 0 then .panic else .ok (List.replicate length.toNat 1)

/-- helpers.go:173-181, the loop of `getknVector`: `m` more entries, starting at `x` -/
def mulFrom (x k : F) : Nat → List F
  | 0 => []
  | m + 1 => x :: mulFrom (x * k) k m

/-- helpers.go:173-181 `getknVector`; `vectorkn[1] = k` panics on length one -/
def getkn (k : F) (length : Int) : Res (List F) :=
  if length < 2 then .panic else .ok (1 :: mulFrom k k (length.toNat - 1))

/-! ### generators.go -/

/-- generators.go:22-25 `ippGenerators` -/
structure Gens (P : Type) where
  G : List P
  H : List P

/-- generators.go:32-57 `getGeneratorPoints`; `pt i` is the hash to the curve of the `i`-th 64 byte block of
SHAKE256(domain).  `make` panics on a negative length. -/
def getGenerators (lenVector : Int) (pt : Nat → G) : Res (Gens G) :=
  if lenVector < 0 then .panic
  else do
    let (g, h) ← split ((List.range (lenVector.toNat * 2)).map pt)
    .ok ⟨g, h⟩

/-- `l[0:n]`: panics on a negative `n` and past the end (for the lists sliced here the capacity beyond the
length is not reachable: the callers check `n ≤ len(G)`, and `G` and `H` come from one `split`) -/
def slice0 {α : Type} (l : List α) (n : Int) : Res (List α) :=
  if 0 ≤ n ∧ n ≤ l.length then .ok (l.take n.toNat) else .panic

/-! ### ipp_prover.go -/

/-- ipp_prover.go:28-33 `InnerProductProof` -/
structure Ipp (F G : Type) where
  a : F
  b : F
  capLs : List G
  capRs : List G
deriving DecidableEq

/-- ipp_prover.go:330-342 `calcx` -/
def calcxIpp (C : Curve F G) (capL capR : G) (t : Transcript) : F × Transcript :=
  C.ext (C.app (C.app t "addRecursiveL" capL) "addRecursiveR" capR) "getx"

/-- ipp_prover.go:180-324 `proveRecursive`.  `c` and `capP` of `ippRecursion` are carried along by the code
but never read, so they are left out (their computation cannot fail after the checks).  The recursion halves
the vectors; `fuel` bounds its depth, and `prove` passes the length of `a`, which is enough. -/
def proveRec (C : Curve F G) (u : G) : Nat → List F → List F → List G → List G → List G → List G →
    Transcript → Res (Ipp F G × Transcript)
  | fuel, a, b, g, h, capLs, capRs, t =>
    if a.length ≠ b.length then .err
    else if g.length ≠ h.length then .err
    else if a.length ≠ g.length then .err
    else match a, b with
      | [a0], b0 :: _ => .ok (⟨a0, b0, capLs, capRs⟩, t)
      | a, b =>
        match fuel with
        | 0 => .panic
        | fuel + 1 => do
          let (aLo, aHi) ← split a
          let (bLo, bHi) ← split b
          let (gLo, gHi) ← split g
          let (hLo, hHi) ← split h
          let cL ← innerProduct aLo bHi
          let cR ← innerProduct aHi bLo
          let lga ← sop gHi aLo
          let lhb ← sop hLo bHi
          let capL := lga + lhb + cL • u
          let rga ← sop gLo aHi
          let rhb ← sop hHi bLo
          let capR := rga + rhb + cR • u
          let (x, t) := calcxIpp C capL capR t
          let xInv ← C.invert x
          let gPrime ← addPts (mulPts xInv gLo) (mulPts x gHi)
          let hPrime ← addPts (mulPts x hLo) (mulPts xInv hHi)
          let aPrime ← addPair (mulScs x aLo) (mulScs xInv aHi)
          let bPrime ← addPair (mulScs xInv bLo) (mulScs x bHi)
          proveRec C u fuel aPrime bPrime gPrime hPrime (capLs ++ [capL]) (capRs ++ [capR]) t

/-- ipp_prover.go:77-99 `rangeToIPP`; `tHat` and `capPhmuinv` only feed `capP`, which is never read -/
def rangeToIPP (C : Curve F G) (proofG proofH : List G) (l r : List F) (u : G) (t : Transcript) :
    Res (Ipp F G × Transcript) :=
  proveRec C u l.length l r proofG proofH [] [] t

/-- ipp_prover.go:103-130 `getP` -/
def getP (gens : Gens G) (a b : List F) (u : G) : Res G :=
  if isPowerOfTwo a.length = false then .err
  else if gens.G.length ≠ gens.H.length then .err
  else do
    let c ← innerProduct a b
    let proofG ← slice0 gens.G a.length
    let proofH ← slice0 gens.H b.length
    let ga ← sop proofG a
    let hb ← sop proofH b
    .ok (ga + hb + c • u)

/-- ipp_prover.go:135-178 `Prove`; the commitment `capP` computed there is never read -/
def prove (C : Curve F G) (gens : Gens G) (a b : List F) (u : G) (t : Transcript) :
    Res (Ipp F G × Transcript) :=
  if isPowerOfTwo a.length = false then .err
  else if gens.G.length ≠ gens.H.length then .err
  else do
    let _ ← innerProduct a b
    if a.length > gens.G.length then .err
    else do
      let proofG ← slice0 gens.G a.length
      let proofH ← slice0 gens.H b.length
      proveRec C u a.length a b proofG proofH [] [] t

/-- ipp_prover.go:345-355 `InnerProductProof.MarshalBinary`; `capRs[i]` panics when `capRs` is shorter -/
def marshalIpp (C : Curve F G) (p : Ipp F G) : Res (List UInt8) := do
  let pts ← (List.range p.capLs.length).mapM fun i => do
    let l ← idx p.capLs i
    let r ← idx p.capRs i
    .ok (C.cmp l ++ C.cmp r)
  .ok (C.bytes p.a ++ C.bytes p.b ++ pts.flatten)

/-- `data[ptr : ptr+len]`: panics past the end (the capacity of a slice handed in by a caller may exceed its
length; then Go reads the bytes behind it instead, which is not modelled) -/
def cut (data : List UInt8) (ptr len : Nat) : Res (List UInt8) :=
  if ptr + len ≤ data.length then .ok ((data.drop ptr).take len) else .panic

/-- ipp_prover.go:378-391, the point loop of `UnmarshalBinary`; every pass consumes `2 * pointLen` bytes,
so the length of the data bounds the number of passes (`pointLen > 0`) -/
def unmarshalPts (C : Curve F G) (pointLen : Nat) (data : List UInt8) :
    Nat → Nat → List G → List G → Res (List G × List G)
  | 0, _, capLs, capRs => .ok (capLs, capRs)
  | fuel + 1, ptr, capLs, capRs =>
    if ptr < data.length then do
      let lb ← cut data ptr pointLen
      let l ← Res.ofOption (C.dec lb)
      let rb ← cut data (ptr + pointLen) pointLen
      let r ← Res.ofOption (C.dec rb)
      unmarshalPts C pointLen data fuel (ptr + pointLen + pointLen) (capLs ++ [l]) (capRs ++ [r])
    else .ok (capLs, capRs)

/-- ipp_prover.go:359-396 `InnerProductProof.UnmarshalBinary`; the scalar and point lengths are those of the
curve's zero scalar and of its generator `gen` -/
def unmarshalIpp (C : Curve F G) (gen : G) (data : List UInt8) : Res (Ipp F G) := do
  let scalarLen := (C.bytes 0).length
  let pointLen := (C.cmp gen).length
  let ab ← cut data 0 scalarLen
  let a ← Res.ofOption (C.setBytes ab)
  let bb ← cut data scalarLen scalarLen
  let b ← Res.ofOption (C.setBytes bb)
  let (ls, rs) ← unmarshalPts C pointLen data data.length (scalarLen + scalarLen) [] []
  .ok ⟨a, b, ls, rs⟩

/-! ### ipp_verifier.go -/

/-- Go's `1 << k` in a 64 bit `int` -/
def shl1 (k : Nat) : Int :=
  if k < 63 then 2 ^ k else if k = 63 then -(2 ^ 63) else 0

/-- ipp_verifier.go:142-159 `getxs`; `capRs[i]` panics when `capRs` is shorter -/
def getxs (C : Curve F G) : List G → List G → Transcript → Res (List F × Transcript)
  | [], _, t => .ok ([], t)
  | _ :: _, [], _ => .panic
  | l :: ls, r :: rs, t =>
    let (x, t) := calcxIpp C l r t
    do
      let (xs, t) ← getxs C ls rs t
      .ok (x :: xs, t)

/-- ipp_verifier.go:167-179, the inner loop of `gets` -/
def getsAt (C : Curve F G) (i : Nat) : List F → F → Res F
  | [], si => .ok si
  | x :: xs, si =>
    -- `len(xs)-j-1` is the number of challenges behind `xj`
    if i >>> xs.length &&& 1 = 1 then getsAt C i xs (si * x)
    else do
      let xInv ← C.invert x
      getsAt C i xs (si * xInv)

/-- ipp_verifier.go:164-183 `gets`; `make` panics on a negative length -/
def gets (C : Curve F G) (xs : List F) (n : Int) : Res (List F) :=
  if n < 0 then .panic else (List.range n.toNat).mapM fun i => getsAt C i xs 1

/-- ipp_verifier.go:203-205, the inner loop of `getsNew`: `i = 0, step, 2·step, … < n`, with
`ss[i + half] = ss[i] * xjSquared`; reading a nil entry and writing out of range panic.  (In Go `<<` binds
tighter than `+`.) -/
def sweep (half step : Nat) (xsq : F) : Nat → Nat → List (Option F) → Res (List (Option F))
  | 0, _, ss => .ok ss
  | fuel + 1, i, ss =>
    if i < ss.length then
      match ss[i]? with
      | some (some v) =>
        if i + half < ss.length then sweep half step xsq fuel (i + step) (ss.set (i + half) (some (v * xsq)))
        else .panic
      | _ => .panic
    else .ok ss

/-- ipp_verifier.go:201-206, the outer loop of `getsNew` -/
def sweeps : List F → List (Option F) → Res (List (Option F))
  | [], ss => .ok ss
  | x :: xs, ss => do
    let ss ← sweep (1 <<< xs.length) (1 <<< (xs.length + 1)) (x * x) ss.length 0 ss
    sweeps xs ss

/-- using a nil scalar panics (ipp_verifier.go:126, the caller of `getsNew`) -/
def unNil {α : Type} : Option α → Res α
  | some v => .ok v
  | none => .panic

/-- ipp_verifier.go:189-209 `getsNew`; entries never written stay nil, and the caller panics on them -/
def getsNew (C : Curve F G) (xs : List F) (n : Int) : Res (List F) :=
  if n < 1 then .panic
  else do
    let s0 ← C.invert (xs.foldl (· * ·) 1)
    let ss ← sweeps xs (some s0 :: List.replicate (n.toNat - 1) none)
    ss.mapM unNil

/-- ipp_verifier.go:101-116 `getRHS`; indexing `capRs` past its end panics -/
def getRHS (C : Curve F G) : G → List G → List G → List F → Res G
  | product, [], _, _ => .ok product
  | product, l :: ls, r :: rs, x :: xs => do
    let inv ← C.invert (x * x)
    getRHS C (product + (x * x) • l + inv • r) ls rs xs
  | _, _ :: _, _, _ => .panic

/-- ipp_verifier.go:119-137 `getLHS` -/
def getLHS (C : Curve F G) (u : G) (proof : Ipp F G) (g h : List G) (s : List F) : Res G := do
  let sInv ← invertScalars C s
  let gas ← sop g (mulScs proof.a s)
  let hbsInv ← sop h (mulScs proof.b sInv)
  .ok (gas + hbsInv + (proof.a * proof.b) • u)

/-- ipp_verifier.go:32-70 `Verify` -/
def verify (C : Curve F G) (gens : Gens G) (capP u : G) (proof : Ipp F G) (t : Transcript) :
    Res (Bool × Transcript) :=
  if proof.capLs.length ≠ proof.capRs.length then .err
  else if gens.G.length ≠ gens.H.length then .err
  else
    let n := shl1 proof.capLs.length
    if n > gens.G.length then .err
    else do
      let proofG ← slice0 gens.G n
      let proofH ← slice0 gens.H n
      let (xs, t) ← getxs C proof.capLs proof.capRs t
      let s ← getsNew C xs n
      let lhs ← getLHS C u proof proofG proofH s
      let rhs ← getRHS C capP proof.capLs proof.capRs xs
      .ok (decide (lhs = rhs), t)

/-- ipp_verifier.go:74-98 `VerifyFromRangeProof` -/
def verifyFromRange (C : Curve F G) (proofG proofH : List G) (capPhmuinv u : G) (tHat : F)
    (proof : Ipp F G) (t : Transcript) : Res (Bool × Transcript) := do
  let n := shl1 proof.capLs.length
  let (xs, t) ← getxs C proof.capLs proof.capRs t
  let s ← gets C xs n
  let lhs ← getLHS C u proof proofG proofH s
  let rhs ← getRHS C (capPhmuinv + tHat • u) proof.capLs proof.capRs xs
  .ok (decide (lhs = rhs), t)

/-! ### range_prover.go, range_verifier.go -/

/-- range_prover.go:43-45 `RangeProofGenerators` -/
structure RGens (G : Type) where
  g : G
  h : G
  u : G

/-- range_prover.go:36-41 `RangeProof` -/
structure RProof (F G : Type) where
  capA : G
  capS : G
  capT1 : G
  capT2 : G
  taux : F
  mu : F
  tHat : F
  ipp : Ipp F G
deriving DecidableEq

/-- the scalars drawn from `crand.Reader` (range_prover.go:125, 133-135, 202-203) -/
structure Rnd (F : Type) where
  alpha : F
  sL : Nat → F
  sR : Nat → F
  rho : F
  tau1 : F
  tau2 : F

/-- range_prover.go:418-434 `cmoveScalar` on a bit; `-byte(which)` is `0x00` or `0xff` -/
def cmoveScalar (C : Curve F G) (x y : F) (which : UInt8) : Res F :=
  if which ≠ 0 ∧ which ≠ 1 then .err
  else
    let mask : UInt8 := 0 - which
    Res.ofOption (C.setBytes (List.zipWith (fun xb yb => xb ^^^ ((xb ^^^ yb) &&& mask)) (C.bytes x) (C.bytes y)))

/-- range_prover.go:396-415 `getaL`; `vBytes[i>>3]` panics past the end -/
def getaL (C : Curve F G) (v : F) (n : Nat) : Res (List F) :=
  (List.range n).mapM fun i => do
    let b ← idx (C.bytes v) (i >>> 3)
    cmoveScalar C 0 1 (b >>> UInt8.ofNat (i &&& 7) &&& 1)

/-- range_prover.go:390-392 `getcapV` -/
def getcapV (v gamma : F) (g h : G) : G := gamma • h + v • g

/-- range_prover.go:440-458 `calcyz`, range_batch_prover.go:257-277 `calcyzBatched` (a list of one or more
commitments) -/
def calcyz (C : Curve F G) (capV : List G) (capA capS : G) (t : Transcript) : F × F × Transcript :=
  let t := capV.foldl (fun t V => C.app t "addV" V) t
  let t := C.app t "addcapA" capA
  let t := C.app t "addcapS" capS
  let (y, t) := C.ext t "gety"
  let (z, t) := C.ext t "getz"
  (y, z, t)

/-- range_prover.go:464-476 `calcx` -/
def calcx (C : Curve F G) (capT1 capT2 : G) (t : Transcript) : F × Transcript :=
  C.ext (C.app (C.app t "addcapT1" capT1) "addcapT2" capT2) "getx"

/-- range_verifier.go:162-187 `deltayz` -/
def deltayz (y z : F) (n : Int) : Res F := do
  let onen ← get1n n
  let yn ← getkn y n
  let onendotyn ← innerProduct onen yn
  let twon ← get2n n
  let onendottwon ← innerProduct onen twon
  .ok ((z - z * z) * onendotyn - z * z * z * onendottwon)

/-- range_verifier.go:118-129 `gethPrime` -/
def gethPrime (C : Curve F G) (h : List G) (y : F) : Res (List G) :=
  -- the power vector is built before the error is looked at: a short `h` panics first
  match C.invert y with
  | .ok yInv => do
    let yInvn ← getkn yInv h.length
    .ok (List.zipWith (fun p s => s • p) h yInvn)
  | .err => if h.length < 3 then (if h.length < 2 then .panic else .err) else .panic
  | .panic => .panic

/-- range_verifier.go:134-159 `getPhmu` -/
def getPhmu (proofG proofHPrime : List G) (h capA capS : G) (x y z mu : F) (n : Int) : Res G := do
  let yn ← getkn y n
  let twon ← get2n n
  let e ← addPair (mulScs z yn) (mulScs (z * z) twon)
  let lastElem ← sop proofHPrime e
  let onen ← get1n n
  let zg ← sop proofG (mulScs (-z) onen)
  .ok (capA + x • capS + zg + lastElem - mu • h)

/-- range_prover.go:88-285 `RangeProver.Prove`.  `v.BigInt()` is never negative, and a negative `n` panics
at `G[0:n]`, before the check for it. -/
def rangeProve (C : Curve F G) (gens : Gens G) (v gamma : F) (n : Int) (pg : RGens G) (rnd : Rnd F)
    (t : Transcript) : Res (RProof F G × Transcript) :=
  if n > gens.G.length then .err
  else do
    let proofG ← slice0 gens.G n
    let proofH ← slice0 gens.H n
    -- 100-111: `Cmp(..) == 1`, so `v = 2^n` passes
    if C.big v > 2 ^ n.toNat then .err
    else do
      let aL ← getaL C v n.toNat
      let onen ← get1n n
      let aR ← subPair aL onen
      let gaL ← sop proofG aL
      let haR ← sop proofH aR
      let capA := rnd.alpha • pg.h + gaL + haR
      let sL := (List.range n.toNat).map rnd.sL
      let sR := (List.range n.toNat).map rnd.sR
      let gsL ← sop proofG sL
      let hsR ← sop proofH sR
      let capS := rnd.rho • pg.h + gsL + hsR
      let (y, z, t) := calcyz C [getcapV v gamma pg.g pg.h] capA capS t
      let zonen := mulScs z onen
      let cl ← subPair aL zonen
      let twoN ← get2n n
      let aRz ← addPair aR zonen
      let yn ← getkn y n
      let had ← mulPair yn aRz
      let cr ← addPair had (mulScs (z * z) twoN)
      let lr ← mulPair yn sR
      let t1a ← innerProduct sL cr
      let t1b ← innerProduct lr cl
      let t1 := t1a + t1b
      let t2 ← innerProduct sL lr
      let capT1 := t1 • pg.g + rnd.tau1 • pg.h
      let capT2 := t2 • pg.g + rnd.tau2 • pg.h
      let (x, t) := calcx C capT1 capT2 t
      let l ← addPair cl (mulScs x sL)
      let r ← addPair cr (mulScs x lr)
      let d ← deltayz y z n
      let tHat := v * (z * z) + d + t1 * x + t2 * (x * x)
      let taux := rnd.tau2 * (x * x) + rnd.tau1 * x + z * z * gamma
      let mu := rnd.alpha + rnd.rho * x
      let hPrime ← gethPrime C proofH y
      let _ ← getPhmu proofG hPrime pg.h capA capS x y z mu n
      let (w, t) := C.ext t "getw"
      let (ipp, t) ← rangeToIPP C proofG hPrime l r (w • pg.u) t
      .ok (⟨capA, capS, capT1, capT2, taux, mu, tHat, ipp⟩, t)

/-- range_verifier.go:100-115 `checktHat` -/
def checktHat (proof : RProof F G) (capV g h : G) (d x z : F) : Bool :=
  decide (proof.tHat • g + proof.taux • h = (z * z) • capV + d • g + x • proof.capT1 + (x * x) • proof.capT2)

/-- range_verifier.go:42-97 `RangeVerifier.Verify` -/
def rangeVerify (C : Curve F G) (gens : Gens G) (proof : RProof F G) (capV : G) (pg : RGens G) (n : Int)
    (t : Transcript) : Res (Bool × Transcript) :=
  if n > gens.G.length then .err
  else do
    let proofG ← slice0 gens.G n
    let proofH ← slice0 gens.H n
    let (y, z, t) := calcyz C [capV] proof.capA proof.capS t
    let (x, t) := calcx C proof.capT1 proof.capT2 t
    let (w, t) := C.ext t "getw"
    let d ← deltayz y z n
    if checktHat proof capV pg.g pg.h d x z = false then .err
    else do
      let hPrime ← gethPrime C proofH y
      let capPhmu ← getPhmu proofG hPrime pg.h proof.capA proof.capS x y z proof.mu n
      verifyFromRange C proofG hPrime capPhmu (w • pg.u) proof.tHat proof.ipp t

/-- range_prover.go:288-300 `RangeProof.MarshalBinary` -/
def marshalRange (C : Curve F G) (p : RProof F G) : Res (List UInt8) := do
  let ipp ← marshalIpp C p.ipp
  .ok (C.cmp p.capA ++ C.cmp p.capS ++ C.cmp p.capT1 ++ C.cmp p.capT2 ++
    C.bytes p.taux ++ C.bytes p.mu ++ C.bytes p.tHat ++ ipp)

/-- range_prover.go:304-361 `RangeProof.UnmarshalBinary` -/
def unmarshalRange (C : Curve F G) (gen : G) (data : List UInt8) : Res (RProof F G) := do
  let sl := (C.bytes 0).length
  let pl := (C.cmp gen).length
  let b ← cut data 0 pl
  let capA ← Res.ofOption (C.dec b)
  let b ← cut data pl pl
  let capS ← Res.ofOption (C.dec b)
  let b ← cut data (pl + pl) pl
  let capT1 ← Res.ofOption (C.dec b)
  let b ← cut data (pl + pl + pl) pl
  let capT2 ← Res.ofOption (C.dec b)
  let b ← cut data (pl + pl + pl + pl) sl
  let taux ← Res.ofOption (C.setBytes b)
  let b ← cut data (pl + pl + pl + pl + sl) sl
  let mu ← Res.ofOption (C.setBytes b)
  let b ← cut data (pl + pl + pl + pl + sl + sl) sl
  let tHat ← Res.ofOption (C.setBytes b)
  let ipp ← unmarshalIpp C gen (data.drop (pl + pl + pl + pl + sl + sl + sl))
  .ok ⟨capA, capS, capT1, capT2, taux, mu, tHat, ipp⟩

/-! ### range_batch_prover.go, range_batch_verifier.go -/

/-- range_prover.go:366-378 `checkRange` -/
def checkRange (C : Curve F G) (v : F) (n : Int) : Res Unit :=
  if n < 0 then .err else if C.big v > 2 ^ n.toNat then .err else .ok ()

/-- range_batch_prover.go:223-235, the loop of `getSumTermrXBatched`: `z^(j+1)·2^n` for `m` values of `j` -/
def sumTermr (twoN : List F) (zExp z : F) : Nat → List F
  | 0 => []
  | m + 1 => mulScs (zExp * z) twoN ++ sumTermr twoN (zExp * z) z m

/-- range_batch_prover.go:237-243 `getcapVBatched`; `gamma[i]` panics when `gamma` is shorter -/
def capVBatched (g h : G) : List F → List F → Res (List G)
  | [], _ => .ok []
  | _ :: _, [] => .panic
  | v :: vs, gm :: gms => do
    let rest ← capVBatched g h vs gms
    .ok (getcapV v gm g h :: rest)

/-- range_batch_prover.go:245-255 `getaLBatched` -/
def getaLBatched (C : Curve F G) (n : Nat) : List F → Res (List F)
  | [] => .ok []
  | v :: vs => do
    let a ← getaL C v n
    let rest ← getaLBatched C n vs
    .ok (a ++ rest)

/-- range_batch_prover.go:298-304, the loop of `deltayzBatched` -/
def deltaSum (c z : F) : Nat → F → F → F
  | 0, _, acc => acc
  | m + 1, zExp, acc => deltaSum c z m (zExp * z) (acc + zExp * z * c)

/-- range_batch_prover.go:279-310 `deltayzBatched` -/
def deltayzBatched (y z : F) (n : Int) (m : Nat) : Res F := do
  let onenm ← get1n (n * m)
  let ynm ← getkn y (n * m)
  let d1 ← innerProduct onenm ynm
  let onen ← get1n n
  let twon ← get2n n
  let d2 ← innerProduct onen twon
  .ok ((z - z * z) * d1 - deltaSum d2 z m (z * z) 0)

/-- range_batch_prover.go:316-327, the loop of `getPhmuBatched`: `m` passes over blocks of `n` points -/
def phmuSum (twoN : List F) (n : Nat) (z : F) : Nat → List G → F → G → Res G
  | 0, _, _, acc => .ok acc
  | m + 1, hs, zExp, acc => do
    let e ← sop (hs.take n) (mulScs (zExp * z) twoN)
    phmuSum twoN n z m (hs.drop n) (zExp * z) (acc + e)

/-- range_batch_prover.go:313-348 `getPhmuBatched` -/
def getPhmuBatched (proofG proofHPrime : List G) (h capA capS : G) (x y z mu : F) (n : Int) (m : Nat) :
    Res G := do
  let twoN ← get2n n
  let last ← phmuSum twoN n.toNat z m proofHPrime z 0
  let ynm ← getkn y (n * m)
  let hz ← sop proofHPrime (mulScs z ynm)
  let onenm ← get1n (n * m)
  let zg ← sop proofG (mulScs (-z) onenm)
  .ok (capA + x • capS + zg + (last + hz) - mu • h)

/-- range_batch_prover.go:158-162, the value sum of `t0` -/
def dotAcc : List F → List F → F → Res F
  | _, [], acc => .ok acc
  | [], _ :: _, _ => .panic
  | z :: zs, v :: vs, acc => dotAcc zs vs (acc + z * v)

/-- range_batch_prover.go:176-181, the loop of `taux`; `gamma[j-1]` panics when `gamma` is shorter -/
def gammaSum (z : F) : Nat → List F → F → F → Res F
  | 0, _, _, acc => .ok acc
  | _ + 1, [], _, _ => .panic
  | m + 1, gm :: gms, zExp, acc => gammaSum z m gms (zExp * z) (acc + zExp * z * gm)

/-- range_batch_prover.go:16-219 `RangeProver.BatchProve`.  `n*m` is computed in unbounded integers: overflow of the
Go `int` (a bit length of about `2^63/m`) is not modelled. -/
def batchProve (C : Curve F G) (gens : Gens G) (v gamma : List F) (n : Int) (pg : RGens G) (rnd : Rnd F)
    (t : Transcript) : Res (RProof F G × Transcript) :=
  let m := v.length
  let nm := n * m
  if nm > gens.G.length then .err
  else do
    let proofG ← slice0 gens.G nm
    let proofH ← slice0 gens.H nm
    let _ ← v.mapM fun vi => checkRange C vi n
    let aL ← getaLBatched C n.toNat v
    let onenm ← get1n nm
    let aR ← subPair aL onenm
    let gaL ← sop proofG aL
    let haR ← sop proofH aR
    let capA := rnd.alpha • pg.h + gaL + haR
    let sL := (List.range nm.toNat).map rnd.sL
    let sR := (List.range nm.toNat).map rnd.sR
    let gsL ← sop proofG sL
    let hsR ← sop proofH sR
    let capS := rnd.rho • pg.h + gsL + hsR
    let capV ← capVBatched pg.g pg.h v gamma
    let (y, z, t) := calcyz C capV capA capS t
    let zonenm := mulScs z onenm
    let cl ← subPair aL zonenm
    let twoN ← get2n n
    let zSum := sumTermr twoN z z m
    let aRz ← addPair aR zonenm
    let ynm ← getkn y nm
    let had ← mulPair ynm aRz
    let cr ← addPair had zSum
    let lr ← mulPair ynm sR
    let t1a ← innerProduct sL cr
    let t1b ← innerProduct lr cl
    let t1 := t1a + t1b
    let t2 ← innerProduct sL lr
    let capT1 := t1 • pg.g + rnd.tau1 • pg.h
    let capT2 := t2 • pg.g + rnd.tau2 • pg.h
    let (x, t) := calcx C capT1 capT2 t
    let l ← addPair cl (mulScs x sL)
    let r ← addPair cr (mulScs x lr)
    let zm ← getkn z m
    let sumv ← dotAcc (mulScs (z * z) zm) v 0
    let d ← deltayzBatched y z n m
    let tHat := sumv + d + t1 * x + t2 * (x * x)
    let zsum ← gammaSum z m gamma z 0
    let taux := rnd.tau2 * (x * x) + rnd.tau1 * x + zsum
    let mu := rnd.alpha + rnd.rho * x
    let hPrime ← gethPrime C proofH y
    let _ ← getPhmuBatched proofG hPrime pg.h capA capS x y z mu n m
    let (w, t) := C.ext t "getw"
    let (ipp, t) ← rangeToIPP C proofG hPrime l r (w • pg.u) t
    .ok (⟨capA, capS, capT1, capT2, taux, mu, tHat, ipp⟩, t)

/-- range_batch_verifier.go:73-91 `checktHatBatched` -/
def checktHatBatched (proof : RProof F G) (capV : List G) (g h : G) (d x z : F) (m : Nat) : Res Bool := do
  let zm ← getkn z m
  let sv ← sop capV (mulScs (z * z) zm)
  .ok (decide (proof.tHat • g + proof.taux • h = sv + d • g + x • proof.capT1 + (x * x) • proof.capT2))

/-- range_batch_verifier.go:13-70 `RangeVerifier.VerifyBatched` -/
def verifyBatched (C : Curve F G) (gens : Gens G) (proof : RProof F G) (capV : List G) (pg : RGens G)
    (n : Int) (t : Transcript) : Res (Bool × Transcript) :=
  let m := capV.length
  let nm := n * m
  if nm > gens.G.length then .err
  else do
    let proofG ← slice0 gens.G nm
    let proofH ← slice0 gens.H nm
    let (y, z, t) := calcyz C capV proof.capA proof.capS t
    let (x, t) := calcx C proof.capT1 proof.capT2 t
    let (w, t) := C.ext t "getw"
    let d ← deltayzBatched y z n m
    let good ← checktHatBatched proof capV pg.g pg.h d x z m
    if good = false then .err
    else do
      let hPrime ← gethPrime C proofH y
      let capPhmu ← getPhmuBatched proofG hPrime pg.h proof.capA proof.capS x y z proof.mu n m
      verifyFromRange C proofG hPrime capPhmu (w • pg.u) proof.tHat proof.ipp t

end Verif.Bulletproof
