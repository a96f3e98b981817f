import Mathlib.Algebra.Module.Basic
import Mathlib.Algebra.Field.Basic
import Mathlib.Data.List.Dedup

/-!
# Model of `/repo/crypto/sharing` (Shamir, Feldman, Pedersen)

Curve scalars are an abstract field `F`; curve points an `F`-module `G` with generator `g`.
An `error` return is `none`.
-/

namespace Verif.Sharing

variable {F : Type*} [Field F] [DecidableEq F]

/-- `curves.Scalar.Bytes` / `curves.Scalar.SetBytes` (core/curves/curve.go:40-95), abstracted to the
contract this package relies on: decoding inverts encoding; decoding may fail.
Concrete instances are built in `Verif.Codec`. -/
structure Codec (F : Type*) where
  toBytes : F → List UInt8
  setBytes : List UInt8 → Option F
  rt : ∀ x, setBytes (toBytes x) = some x

/-- sharing/shamir.go:22-25 `ShamirShare`. -/
structure Share where
  id : Nat
  value : List UInt8
deriving DecidableEq, Repr

/-- sharing/shamir.go:27-39 `ShamirShare.Validate`; on success the decoded scalar is returned
(the callers decode the same bytes again right after: shamir.go:135, 161). -/
def Share.validate (c : Codec F) (s : Share) : Option F :=
  if s.id = 0 then none
  else match c.setBytes s.value with
    | none => none
    | some v => if v = 0 then none else some v

/-- sharing/shamir.go:47-50 `Shamir` (and the parameter part of `Feldman`, `Pedersen`). -/
structure Shamir where
  threshold : Nat
  limit : Nat
deriving DecidableEq, Repr

/-- sharing/shamir.go:52-66 `NewShamir`, sharing/feldman.go:49-63 `NewFeldman`
(identical checks).  The `curve == nil` check is not modelled. -/
def newShamir (threshold limit : Nat) : Option Shamir :=
  if limit < threshold then none
  else if threshold < 2 then none
  else if limit > 255 then none
  else some ⟨threshold, limit⟩

/-- sharing/polynomial.go:19-26 `Polynomial.Init`; `rnd i` is the `i`-th scalar drawn from the
reader. -/
def polyInit (intercept : F) (degree : Nat) (rnd : Nat → F) : List F :=
  intercept :: (List.range (degree - 1)).map rnd

/-- sharing/polynomial.go:28-35 `Polynomial.Evaluate` (Horner, highest coefficient first).
The empty list is unreachable (Go would panic): `polyInit` never returns it. -/
def evaluate : List F → F → F
  | [], _ => 0
  | [a], _ => a
  | a :: b :: r, x => evaluate (b :: r) x * x + a

/-- sharing/shamir.go:76-87 `getPolyAndShares`. -/
def getPolyAndShares (s : Shamir) (c : Codec F) (secret : F) (rnd : Nat → F) :
    List Share × List F :=
  let poly := polyInit secret s.threshold rnd
  ((List.range s.limit).map fun i => ⟨i + 1, c.toBytes (evaluate poly ((i + 1 : Nat) : F))⟩, poly)

/-- sharing/shamir.go:68-74 `Shamir.Split`. -/
def split (s : Shamir) (c : Codec F) (secret : F) (rnd : Nat → F) : Option (List Share) :=
  if secret = 0 then none else some (getPolyAndShares s c secret rnd).1

/-- sharing/shamir.go:171-179 (and 191-199): the numerator product, `i` the skipped index. -/
def lagNum (xs : List F) (i : Nat) : F :=
  xs.zipIdx.foldl (fun acc p => if i = p.2 then acc else acc * p.1) 1

/-- sharing/shamir.go:171-179 (and 191-199): the denominator product. -/
def lagDen (xs : List F) (i : Nat) (xi : F) : F :=
  xs.zipIdx.foldl (fun acc p => if i = p.2 then acc else acc * (p.1 - xi)) 1

/-- sharing/shamir.go:168-186 `interpolate` (with `M = F`) and 188-206 `interpolatePoint`
(with `M = G`): the two bodies differ only in the type of `ys`. -/
def interpolate {M : Type*} [AddCommGroup M] [Module F M] (xs : List F) (ys : List M) : Option M :=
  ((xs.zip ys).zipIdx).foldlM (fun (acc : M) (p : (F × M) × Nat) =>
    let num := lagNum xs p.2
    let den := lagDen xs p.2 p.1.1
    if den = 0 then none else some (acc + (num / den) • p.1.2)) 0

/-- sharing/shamir.go:123-137 (and 149-164): the validation loop, `dups` the identifiers seen. -/
def checkShares (s : Shamir) (c : Codec F) : List Share → List Nat → Option (List (F × F))
  | [], _ => some []
  | sh :: rest, dups =>
    match sh.validate c with
    | none => none
    | some v =>
      if sh.id > s.limit then none
      else if sh.id ∈ dups then none
      else (checkShares s c rest (sh.id :: dups)).map (((sh.id : F), v) :: ·)

/-- sharing/shamir.go:115-139 `Shamir.Combine` (also `Feldman.Combine`, `Pedersen.Combine`, which
delegate: feldman.go:96-103, pedersen.go:136-143). -/
def combine (s : Shamir) (c : Codec F) (shares : List Share) : Option F :=
  if shares.length < s.threshold then none
  else match checkShares s c shares [] with
    | none => none
    | some l => interpolate (l.map Prod.fst) (l.map Prod.snd)

/-- sharing/shamir.go:141-166 `Shamir.CombinePoints`; `g` the curve generator. -/
def combinePoints {G : Type*} [AddCommGroup G] [Module F G] (g : G)
    (s : Shamir) (c : Codec F) (shares : List Share) : Option G :=
  if shares.length < s.threshold then none
  else match checkShares s c shares [] with
    | none => none
    | some l => interpolate (l.map Prod.fst) (l.map fun p => p.2 • g)

/-- sharing/shamir.go:89-113 `LagrangeCoeffs`.  The Go map `xs` keyed by identifier is the
duplicate-free list of identifiers (map iteration order only permutes commutative products); the
result map is an association list. -/
def lagrangeCoeffs (F : Type*) [Field F] [DecidableEq F] (identities : List Nat) :
    Option (List (Nat × F)) :=
  let ids := identities.dedup
  let xs : List F := ids.map (fun n => ((n : Nat) : F))
  ids.zipIdx.mapM fun p =>
    let num := lagNum xs p.2
    let den := lagDen xs p.2 (p.1 : F)
    if den = 0 then none else some (p.1, num / den)

section Feldman
variable {G : Type*} [AddCommGroup G] [Module F G] [DecidableEq G]

/-- sharing/feldman.go:27-33: the loop `i = i·x; rhs = rhs + C_j·i`. -/
def commitEvalLoop (x : F) : F → G → List G → G
  | _, rhs, [] => rhs
  | i, rhs, c :: cs => commitEvalLoop x (i * x) (rhs + (i * x) • c) cs

/-- sharing/feldman.go:26-33 (and pedersen.go:37-44): the right-hand side of the check.
The empty commitment list (Go panics) is excluded by callers returning at least one point. -/
def commitEval (x : F) : List G → G
  | [] => 0
  | c :: cs => commitEvalLoop x 1 c cs

/-- sharing/feldman.go:20-42 `FeldmanVerifier.Verify`; `true` is a nil error. -/
def feldmanVerify (g : G) (c : Codec F) (commitments : List G) (sh : Share) : Bool :=
  match sh.validate c with
  | none => false
  | some v => decide (v • g = commitEval ((sh.id : Nat) : F) commitments)

/-- sharing/feldman.go:65-81 `Feldman.Split`. -/
def feldmanSplit (g : G) (s : Shamir) (c : Codec F) (secret : F) (rnd : Nat → F) :
    Option (List G × List Share) :=
  if secret = 0 then none
  else
    let sp := getPolyAndShares s c secret rnd
    some (sp.2.map (· • g), sp.1)

/-- sharing/pedersen.go:28-57 `PedersenVerifier.Verify`; `h` is `pv.Generator`. Note that only
`share.Id` is used as the evaluation point. -/
def pedersenVerify (g h : G) (c : Codec F) (commitments : List G) (sh bl : Share) : Bool :=
  match sh.validate c with
  | none => false
  | some v =>
    match bl.validate c with
    | none => false
    | some b => decide (v • g + b • h = commitEval ((sh.id : Nat) : F) commitments)

/-- sharing/pedersen.go:68-89 `NewPedersen` (curve checks abstracted to `h ≠ 0`). -/
def newPedersen (threshold limit : Nat) (h : G) : Option Shamir :=
  if limit < threshold then none
  else if threshold < 2 then none
  else if limit > 255 then none
  else if h = 0 then none
  else some ⟨threshold, limit⟩

/-- sharing/pedersen.go:60-65 `PedersenResult`. -/
structure PedersenResult (F G : Type*) where
  blinding : F
  blindingShares : List Share
  secretShares : List Share
  feldman : List G
  pedersen : List G

/-- sharing/pedersen.go:92-121 `Pedersen.Split`.  `blinding`, `rnd`, `rndB` are the scalars drawn
from the reader. The zero secret is *not* rejected here. -/
def pedersenSplit (g h : G) (s : Shamir) (c : Codec F) (secret blinding : F) (rnd rndB : Nat → F) :
    PedersenResult F G :=
  let sp := getPolyAndShares s c secret rnd
  let bp := getPolyAndShares s c blinding rndB
  { blinding := blinding
    blindingShares := bp.1
    secretShares := sp.1
    feldman := sp.2.map (· • g)
    pedersen := (sp.2.zip bp.2).map fun p => p.1 • g + p.2 • h }

end Feldman
end Verif.Sharing
