import Verif.Sharing.Model
import Verif.Base.Bytes
import Verif.Base.GoRes
import Mathlib.Algebra.Field.ZMod

/-!
# Model of `/repo/crypto/sharing/v1` (Shamir, Feldman, Pedersen over `curves.Element`)

`curves.Element` of one field is `ZMod p`; that its operations are those of `ZMod p` is theorem
`Verif.Elem.C41_field_ops`.  Shares whose element belongs to another field are not modelled (all
operations on them panic: `C41_mixed_moduli_panic`).
-/

namespace Verif.SharingV1

open Verif.Sharing (polyInit evaluate commitEval)
open Verif.Bytes

variable {p : Nat} [Fact p.Prime]

/-- sharing/v1/shamir.go:18-23 `ShamirShare` -/
structure Share (p : Nat) where
  id : Nat
  value : ZMod p

/-- sharing/v1/shamir.go:52-55 `Shamir` (also the parameters of `Feldman`, `Pedersen`) -/
structure Shamir where
  threshold : Nat
  limit : Nat
deriving DecidableEq, Repr

/-- sharing/v1/shamir.go:58-68 `NewShamir`: `int` arguments, stored as `uint32`. -/
def newShamir (threshold limit : Int) : Option Shamir :=
  if limit < threshold then none
  else if threshold < 2 then none
  else some ⟨(threshold % 2 ^ 32).toNat, (limit % 2 ^ 32).toNat⟩

/-- sharing/v1/feldman.go:29-39 `NewFeldman`: the arguments already are `uint32`. -/
def newFeldman (threshold limit : UInt32) : Option Shamir :=
  if limit < threshold then none
  else if threshold < 2 then none
  else some ⟨threshold.toNat, limit.toNat⟩

/-- sharing/v1/shamir.go:43-49 `ShamirShare.Add` -/
def Share.add (s other : Share p) : Res (Share p) :=
  if s.id ≠ other.id then .panic else .ok ⟨s.id, s.value + other.value⟩

/-- sharing/v1/shamir.go:35-40 `ShamirShare.Bytes`: 4-byte identifier, minimal value bytes. -/
def Share.bytes (s : Share p) : List UInt8 := natToBEfix 4 s.id ++ natToBE s.value.val

/-- sharing/v1/shamir.go:111-136 `GetSharesAndPolynomial`; `rnd` are the random coefficients.
`field.NewElement(i+1)` panics when `i+1` is not below the modulus. -/
def getSharesAndPolynomial (s : Shamir) (secret : List UInt8) (rnd : Nat → ZMod p) :
    Res (List (Share p) × List (ZMod p)) :=
  if secret = [] then .err
  else if ¬ beToNat secret < p then .err
  else
    let poly := polyInit ((beToNat secret : Nat) : ZMod p) s.threshold rnd
    if p ≤ s.limit then .panic
    else .ok ((List.range s.limit).map fun i => ⟨i + 1, evaluate poly ((i + 1 : Nat) : ZMod p)⟩, poly)

/-- sharing/v1/shamir.go:72-75 `Split` -/
def split (s : Shamir) (secret : List UInt8) (rnd : Nat → ZMod p) : Res (List (Share p)) :=
  match getSharesAndPolynomial s secret rnd with
  | .ok r => .ok r.1
  | .err => .err
  | .panic => .panic

/-- sharing/v1/shamir.go:87-100: the coordinates of the first `threshold` shares.  The map `dups`
is never written to, so the duplicate check never fires here. -/
def coords (s : Shamir) : List (Share p) → Res (List (ZMod p × ZMod p))
  | [] => .ok []
  | r :: rest =>
    if r.id > s.limit ∨ r.id < 1 then .err
    else if p ≤ r.id then .panic
    else coords s rest >>= fun l => .ok ((((r.id : Nat) : ZMod p), r.value) :: l)

/-- sharing/v1/shamir.go:149-162 (and 196-208): one Lagrange coefficient. -/
def basis (t : Nat) (xs : List (ZMod p)) (i : Nat) : Res (ZMod p) :=
  (List.range t).foldlM (fun b j =>
    if i = j then Res.ok b
    else
      let denom := xs.getD j 0 - xs.getD i 0
      if denom = 0 then .err else .ok (b * (xs.getD j 0 / denom))) 1

/-- sharing/v1/shamir.go:139-168 `Interpolate` -/
def interpolate (t : Nat) (xs ys : List (ZMod p)) : Res (ZMod p) :=
  if xs.length < t ∨ ys.length < t then .err
  else (List.range t).foldlM (fun acc i => basis t xs i >>= fun b => Res.ok (acc + ys.getD i 0 * b)) 0

/-- sharing/v1/shamir.go:78-107 `Combine`.  (A zero threshold, which would index an empty slice in
`Interpolate`, is excluded by `NewShamir` for arguments below 2³².) -/
def combine (s : Shamir) (shares : List (Share p)) : Res (List UInt8) :=
  if shares.length < s.threshold then .err
  else coords s (shares.take s.threshold) >>= fun l =>
    interpolate s.threshold (l.map Prod.fst) (l.map Prod.snd) >>= fun v => .ok (natToBE v.val)

/-- sharing/v1/shamir.go:172-212 `ComputeL` -/
def computeL (s : Shamir) (shares : List (Share p)) : Res (List (ZMod p)) :=
  if shares.length < s.threshold then .err
  else coords s (shares.take s.threshold) >>= fun l =>
    (List.range s.threshold).mapM fun i => basis s.threshold (l.map Prod.fst) i

section Group
variable {G : Type*} [AddCommGroup G] [Module (ZMod p) G] [DecidableEq G]

/-- sharing/v1/feldman.go:41-58 `Feldman.Split` -/
def feldmanSplit (g : G) (s : Shamir) (secret : List UInt8) (rnd : Nat → ZMod p) :
    Res (List G × List (Share p)) :=
  match getSharesAndPolynomial s secret rnd with
  | .ok r => .ok (r.2.map (· • g), r.1)
  | .err => .err
  | .panic => .panic

/-- sharing/v1/feldman.go:67-107 `Feldman.Verify`.  `ElementFromBytes(id)` panics for an identifier
not below the order.  The loop over the verifiers is the same as in the non-legacy package. -/
def feldmanVerify (g : G) (s : Shamir) (share : Share p) (verifiers : List G) : Res Bool :=
  if verifiers.length < s.threshold then .err
  else if p ≤ share.id then .panic
  else .ok (decide (share.value • g = commitEval ((share.id : Nat) : ZMod p) verifiers))

/-- sharing/v1/pedersen.go:25-31 `PedersenResult` -/
structure PedersenResult (p : Nat) (G : Type*) where
  blinding : ZMod p
  blindingShares : List (Share p)
  secretShares : List (Share p)
  blindedVerifiers : List G
  verifiers : List G

/-- sharing/v1/pedersen.go:58-105 `Pedersen.Split`; `blinding` is the value drawn below the order.
Its minimal encoding is passed on, which is empty for zero. -/
def pedersenSplit (g h : G) (s : Shamir) (secret : List UInt8) (blinding : ZMod p)
    (rnd rndB : Nat → ZMod p) : Res (PedersenResult p G) :=
  (getSharesAndPolynomial s secret rnd).bind fun sp =>
  (getSharesAndPolynomial s (natToBE blinding.val) rndB).bind fun bp =>
  .ok { blinding := blinding
        blindingShares := bp.1
        secretShares := sp.1
        blindedVerifiers := (sp.2.zip bp.2).map fun q => q.1 • g + q.2 • h
        verifiers := sp.2.map (· • g) }

/-- sharing/v1/pedersen.go:115-163 `Pedersen.Verify` -/
def pedersenVerify (g h : G) (s : Shamir) (share blinding : Share p) (verifiers : List G) :
    Res Bool :=
  if verifiers.length < s.threshold then .err
  else if p ≤ share.id then .panic
  else .ok (decide (share.value • g + blinding.value • h
    = commitEval ((share.id : Nat) : ZMod p) verifiers))

end Group
end Verif.SharingV1
