import Verif.Base.GoRes
import Verif.Base.Group
import Verif.Sharing.Model

/-!
# Model of `/repo/crypto/dkg/frost`

Go maps keyed by participant identifier are association lists with distinct keys; the iteration order
is the list order (theorems quantify over every list, hence every order).
-/

namespace Verif.FrostDkg

open Verif.Sharing

/-! ## `strconv.Atoi` -/

/-- Value of a string of decimal digits, `none` on any other character. -/
def digitsVal : List Char → Nat → Option Nat
  | [], a => some a
  | c :: r, a => if c.isDigit then digitsVal r (a * 10 + (c.toNat - '0'.toNat)) else none

/-- Go standard library `strconv.Atoi` on a 64-bit platform, value part only (the caller discards
the error): 0 on a syntax error, the nearest `int64` on a range error. -/
def atoiValue (s : List Char) : Int :=
  let (neg, ds) := match s with
    | '+' :: r => (false, r)
    | '-' :: r => (true, r)
    | r => (false, r)
  if ds = [] then 0
  else match digitsVal ds 0 with
    | none => 0
    | some n =>
      if neg then (if (n : Int) > 2 ^ 63 then -(2 ^ 63) else -(n : Int))
      else (if (n : Int) ≥ 2 ^ 63 then 2 ^ 63 - 1 else (n : Int))

/-- dkg/frost/participant.go:55,63: `byte(ctxV)` -/
def ctxByte (ctx : String) : UInt8 := UInt8.ofNat ((atoiValue ctx.toList) % 256).toNat

variable {F G : Type*} [Field F] [DecidableEq F] [AddCommGroup G] [Module F G] [DecidableEq G]

/-- Curve parameters: scalar codec, point encoding, generator, and `Scalar.Hash`. -/
structure Params (F G : Type*) where
  sc : Codec F
  pc : PointCodec G
  g : G
  hash : List UInt8 → F

/-- dkg/frost/dkg_round1.go:25-28 `Round1Bcast` -/
structure Bcast (F G : Type*) where
  verifiers : List G
  wi : F
  ci : F

/-- dkg/frost/participant.go:18-30 `DkgParticipant` (the per-peer struct values are never filled in,
so only the key set `others` of `otherParticipantShares` is kept). -/
structure Participant (F G : Type*) where
  round : Nat
  id : Nat
  shamir : Shamir
  others : List Nat
  ctx : UInt8
  verifiers : List G
  secretShares : List Share
  skShare : Option F
  verificationKey : Option G
  vkShare : Option G

/-- dkg/frost/participant.go:38-65 `NewDkgParticipant` (curve non-nil). -/
def newParticipant (F G : Type*) (id threshold : Nat) (ctx : String) (others : List Nat) :
    Option (Participant F G) :=
  if others = [] then none
  else match newShamir threshold (others.length + 1) with
    | none => none
    | some s => some { round := 1, id := id, shamir := s, others := others.dedup, ctx := ctxByte ctx,
                       verifiers := [], secretShares := [], skShare := none,
                       verificationKey := none, vkShare := none }

/-- dkg/frost/dkg_round1.go:113-121, dkg_round2.go:93-101: the message hashed in the proof of
knowledge; the identifier is truncated to a byte. -/
def pokMsg (P : Params F G) (id : Nat) (ctx : UInt8) (A0 R : G) : List UInt8 :=
  UInt8.ofNat id :: ctx :: (P.pc.enc A0 ++ P.pc.enc R)

/-- dkg/frost/dkg_round1.go:60-148 `Round1`.  `secret` is the optional caller secret (`none`: sampled
value `sampled`), `rnd` the polynomial's random coefficients, `k` the nonce.  A share index outside
`1..limit` panics (line 140). -/
def round1 (P : Params F G) (dp : Participant F G) (secret : Option (List UInt8)) (sampled : F)
    (rnd : Nat → F) (k : F) : Res (Participant F G × Bcast F G × List (Nat × Share)) :=
  if dp.round ≠ 1 then .err
  else if dp.others.length + 1 > dp.shamir.limit ∨ dp.others.length + 1 < dp.shamir.threshold then .err
  else
    let s? : Option F := match secret with
      | none => some sampled
      | some b => match P.sc.setBytes b with
        | none => none
        | some s => if s = 0 then none else some s
    match s? with
    | none => .err
    | some s =>
      match feldmanSplit P.g dp.shamir P.sc s rnd with
      | none => .err
      | some (verifiers, shares) =>
        let R := k • P.g
        let ci := P.hash (pokMsg P dp.id dp.ctx (verifiers.headD 0) R)
        let wi := s * ci + k
        match dp.others.mapM (fun id => if id = 0 then none else (shares[id - 1]?).map (fun sh => (id, sh))) with
        | none => .panic
        | some p2p =>
          .ok ({ dp with verifiers := verifiers, secretShares := shares, round := 2 },
            ⟨verifiers, wi, ci⟩, p2p)

/-- dkg/frost/dkg_round2.go:69-114: the check of one peer's broadcast and share. On-curve checks are
taken as true for every group element; `prod2.IsIdentity()` (line 85) is kept.  An empty commitment
list or a missing share is a panic. -/
def checkPeer (P : Params F G) (dp : Participant F G) (p2p : List (Nat × Share)) (id : Nat)
    (b : Bcast F G) : Res Unit :=
  if id = dp.id then .ok ()
  else match b.verifiers with
    | [] => .panic
    | A0 :: _ =>
      let prod1 := b.wi • P.g
      let prod2 := (-b.ci) • A0
      if A0 = 0 ∨ prod2 = 0 then .err
      else
        let prod := prod1 + prod2
        let cj := P.hash (pokMsg P id dp.ctx A0 prod)
        if cj ≠ b.ci then .err
        else match p2p.lookup id with
          | none => .panic
          | some sh => if feldmanVerify P.g P.sc b.verifiers sh then .ok () else .err

/-- Sequential loop over a map, first failure wins. -/
def forEach {α : Type*} (f : α → Res Unit) : List α → Res Unit
  | [] => .ok ()
  | a :: r => match f a with
    | .ok _ => forEach f r
    | .err => .err
    | .panic => .panic

/-- dkg/frost/dkg_round2.go:122-131: adding up the received shares. -/
def addShares (P : Params F G) (dp : Participant F G) (p2p : List (Nat × Share)) :
    List (Nat × Bcast F G) → F → Res F
  | [], acc => .ok acc
  | (id, _) :: r, acc =>
    if id = dp.id then addShares P dp p2p r acc
    else match p2p.lookup id with
      | none => .panic
      | some sh => match P.sc.setBytes sh.value with
        | none => .err
        | some t => addShares P dp p2p r (acc + t)

/-- dkg/frost/dkg_round2.go:134-139: adding up the peers' first commitments. -/
def addKeys (dp : Participant F G) : List (Nat × Bcast F G) → G → G
  | [], acc => acc
  | (id, b) :: r, acc =>
    if id = dp.id then addKeys dp r acc else addKeys dp r (acc + b.verifiers.headD 0)

/-- dkg/frost/dkg_round2.go:25-158 `Round2`; returns the updated participant and the broadcast
`(vk, vkShare)`.  Empty `bcast`/`p2psend` stands for nil or empty maps. `uint32` subtraction
`Threshold-1`, `Limit-1` does not wrap as both are at least 2. -/
def round2 (P : Params F G) (dp : Participant F G) (bcast : List (Nat × Bcast F G))
    (p2p : List (Nat × Share)) : Res (Participant F G × G × G) :=
  if dp.round ≠ 2 then .err
  else if p2p = [] then .err
  else if bcast.length > dp.shamir.limit ∨ bcast.length < dp.shamir.threshold - 1 then .err
  else if p2p.length > dp.shamir.limit - 1 ∨ p2p.length < dp.shamir.threshold - 1 then .err
  else if bcast.any (fun x => decide (x.2.ci = 0)) then .err
  else if bcast.any (fun x => x.2.verifiers.any (fun c => decide (c = 0))) then .err
  else
    (forEach (fun x => checkPeer P dp p2p x.1 x.2) bcast).bind fun _ =>
    if dp.id = 0 then .panic
    else match dp.secretShares[dp.id - 1]? with
      | none => .panic
      | some own => match P.sc.setBytes own.value with
        | none => .err
        | some sk0 =>
          (addShares P dp p2p bcast sk0).bind fun sk =>
          let vk := addKeys dp bcast (dp.verifiers.headD 0)
          .ok ({ dp with skShare := some sk, vkShare := some (sk • P.g),
                         verificationKey := some vk, round := 3 }, vk, sk • P.g)

/-! ## The participant as a state machine -/

/-- A call on a participant object. -/
inductive Call (F G : Type*) where
  | round1 (secret : Option (List UInt8)) (sampled : F) (rnd : Nat → F) (k : F)
  | round2 (bcast : List (Nat × Bcast F G)) (p2p : List (Nat × Share))

/-- Which round a call asks for. -/
def Call.number : Call F G → Nat
  | .round1 .. => 1
  | .round2 .. => 2

/-- One call: the new object state and whether the call returned without error.  (After a panic the
object is left as it was: the only panics that could leave a partial update, dkg_round1.go:140, happen
before `round` is written.) -/
def stepCall (P : Params F G) (dp : Participant F G) : Call F G → Participant F G × Bool
  | .round1 s sm r k => match round1 P dp s sm r k with
    | .ok (dp', _) => (dp', true)
    | _ => (dp, false)
  | .round2 b p => match round2 P dp b p with
    | .ok (dp', _) => (dp', true)
    | _ => (dp, false)

/-- History of calls: final state and the list of (round number, success). -/
def runCalls (P : Params F G) : Participant F G → List (Call F G) → Participant F G × List (Nat × Bool)
  | dp, [] => (dp, [])
  | dp, c :: cs =>
    let (dp', ok) := stepCall P dp c
    let (dp'', l) := runCalls P dp' cs
    (dp'', (c.number, ok) :: l)

end Verif.FrostDkg
