import Verif.SharingV1.Model

/-!
# Model of `/repo/crypto/ted25519/ted25519` (dealer-based threshold Ed25519)

`p` is the order of the prime subgroup, `G` that subgroup (an `F_p`-module; points outside it are not
modelled).  SHA-512 followed by `SetBytesWide` is an arbitrary function `H` into the scalars.
-/

namespace Verif.Ted25519

open Verif.SharingV1 Verif.Bytes
open Verif.Sharing (polyInit evaluate)

variable {p : Nat} [Fact p.Prime] {G : Type*} [AddCommGroup G] [Module (ZMod p) G] [DecidableEq G]

/-- Generator, compressed encoding (32 bytes) with its decoder, and the challenge hash. -/
structure Params (p : Nat) (G : Type*) where
  g : G
  enc : G → List UInt8
  dec : List UInt8 → Option G
  len_enc : ∀ P, (enc P).length = 32
  dec_enc : ∀ P, dec (enc P) = some P
  H : List UInt8 → ZMod p

/-- Go `var a [32]byte; copy(a[:], b)` -/
def pad32 (b : List UInt8) : List UInt8 := b.take 32 ++ List.replicate (32 - b.length) 0

/-- core/curves/ed25519_curve.go:247-256 `SetBytes` = `SetBytesCanonical` -/
def canonical (b : List UInt8) : Option (ZMod p) :=
  if b.length = 32 ∧ leToNat b < p then some ((leToNat b : Nat) : ZMod p) else none

/-- ted25519/ted25519/keygen.go:162-174: the commitment to one coefficient. -/
def coeffPoint (P : Params p G) (c : ZMod p) : Option G :=
  (canonical (p := p) (pad32 (natToBE c.val).reverse)).map (· • P.g)

/-- ted25519/ted25519/keygen.go:149-177 `split` (also `splitPrivateKey`, 134-146); `rnd` are the random
coefficients drawn. -/
def splitKey (P : Params p G) (T N : Int) (secret : List UInt8) (rnd : Nat → ZMod p) :
    Res (List G × List (Share p)) :=
  match newShamir T N with
  | none => .err
  | some s =>
    match getSharesAndPolynomial s secret rnd with
    | .err => .err
    | .panic => .panic
    | .ok (shares, poly) =>
      match poly.mapM (coeffPoint P) with
      | none => .err
      | some v => .ok (v, shares)

/-- ted25519/ted25519/keygen.go:180-194 `Reconstruct` -/
def reconstruct (T N : Int) (shares : List (Share p)) : Res (List UInt8) :=
  match newShamir T N with
  | none => .err
  | some s => combine s shares

/-- ted25519/ted25519/keygen.go:213-233: the loop of `VerifyVSS`.  Note line 221: the *big-endian* bytes
of the power are copied to the front of the array that is then read as little-endian. -/
def vssLoop (x : ZMod p) : ZMod p → G → List G → Option G
  | _, rhs, [] => some rhs
  | i, rhs, c :: cs =>
    match canonical (p := p) (pad32 (natToBE (i * x).val)) with
    | none => none
    | some k => vssLoop x (i * x) (rhs + k • c) cs

/-- ted25519/ted25519/keygen.go:198-240 `KeyShare.VerifyVSS` -/
def verifyVSS (P : Params p G) (T : Int) (share : Share p) (commitments : List G) : Res Bool :=
  if (commitments.length : Int) < T then .err
  else if p ≤ share.id then .panic
  else match commitments with
    | [] => .panic
    | c0 :: cs =>
      match vssLoop ((share.id : Nat) : ZMod p) 1 c0 cs with
      | none => .err
      | some rhs =>
        match canonical (p := p) (pad32 (natToBE share.value.val).reverse) with
        | none => .err
        | some v => .ok (decide (v • P.g = rhs))

/-- ted25519/ted25519/ext.go:58-123 `ThresholdSign` (every failure is a panic). -/
def thresholdSign (P : Params p G) (sk pub msg r R : List UInt8) : Res (List UInt8) :=
  if sk.length = 0 ∨ sk.length > 32 then .panic
  else if r.length = 0 ∨ r.length > 32 then .panic
  else
    let c := P.H (R ++ pub ++ msg)
    match canonical (p := p) (pad32 sk), canonical (p := p) (pad32 r) with
    | some x, some r => .ok (R.take 32 ++ natToLE 32 (c * x + r).val)
    | _, _ => .panic

/-- ted25519/ted25519/partialsig.go:19-22 `PartialSignature` -/
structure PartialSig where
  id : UInt8
  sig : List UInt8
deriving DecidableEq, Repr

/-- ted25519/ted25519/partialsig.go:48-55 `TSign`: the identifier is truncated to a byte. -/
def tSign (P : Params p G) (msg : List UInt8) (key : Share p) (pub : List UInt8) (nonce : Share p)
    (noncePub : List UInt8) : Res PartialSig :=
  match thresholdSign P (natToBE key.value.val).reverse pub msg (natToBE nonce.value.val).reverse noncePub with
  | .ok sig => if sig.length ≠ 64 then .panic else .ok ⟨UInt8.ofNat key.id, sig⟩
  | .err => .err
  | .panic => .panic

/-- ted25519/ted25519/sigagg.go:46-52: partial signatures as Shamir shares (`ElementFromBytes` panics for
a non-canonical value). -/
def sigShares (p : Nat) : List PartialSig → Res (List (Share p))
  | [] => .ok []
  | s :: r =>
    let v := beToNat (s.sig.drop 32).reverse
    if v < p then (sigShares p r).bind fun l => .ok (⟨s.id.toNat, ((v : Nat) : ZMod p)⟩ :: l) else .panic

/-- ted25519/ted25519/sigagg.go:19-64 `Aggregate` -/
def aggregate (p : Nat) [Fact p.Prime] (T N : Int) (sigs : List PartialSig) : Res (List UInt8) :=
  match sigs with
  | [] => .err
  | s0 :: rest =>
    if rest.any (fun s => decide (s.sig.take 32 ≠ s0.sig.take 32)) then .err
    else match newShamir T N with
      | none => .err
      | some sh =>
        (sigShares p (s0 :: rest)).bind fun l =>
        (combine sh l).bind fun v => .ok (s0.sig.take 32 ++ pad32 v.reverse)

/-- ted25519/ted25519/ed25519.go:233-287 `Verify` -/
def verify (P : Params p G) (pub msg sig : List UInt8) : Res Bool :=
  if pub.length ≠ 32 then .err
  else if sig.length ≠ 64 ∨ (sig.getD 63 0) &&& 224 ≠ 0 then .err
  else match P.dec pub with
    | none => .err
    | some A =>
      let h := P.H (sig.take 32 ++ pub ++ msg)
      match canonical (p := p) (sig.drop 32) with
      | none => .err
      | some s => .ok (decide (sig.take 32 = P.enc (h • (-A) + s • P.g)))

/-- ted25519/ted25519/ext.go:17-29 `GeAdd` -/
def geAdd (P : Params p G) (a b : List UInt8) : Res (List UInt8) :=
  match P.dec a, P.dec b with
  | some A, some B => .ok (P.enc (A + B))
  | _, _ => .panic

/-- ted25519/ted25519/keygen.go:68-75 `KeyShareFromBytes`; an input shorter than 4 bytes panics. -/
def keyShareFromBytes (b : List UInt8) : Res (Share p) :=
  if b.length < 4 then .panic
  else if beToNat (b.drop 4) < p then .ok ⟨beToNat (b.take 4), ((beToNat (b.drop 4) : Nat) : ZMod p)⟩
  else .panic

end Verif.Ted25519
