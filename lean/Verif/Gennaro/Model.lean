import Verif.Base.GoRes
import Verif.SharingV1.Model

/-!
# Model of `/repo/crypto/dkg/gennaro`

Methods that change the participant return the new object state beside their outcome, because a
failing round may already have stored part of what it received.  Maps received from peers are
association lists (any order, distinct keys).  `dp.scalar.Add` is addition modulo the order (the
`K256Scalar`/`P256Scalar` implementations, core/curves/ec_scalar.go); the Ed25519 scalar is not
covered here.
-/

namespace Verif.Gennaro

open Verif.SharingV1 Verif.Bytes

variable {p : Nat} [Fact p.Prime] {G : Type*} [AddCommGroup G] [Module (ZMod p) G] [DecidableEq G]

/-- dkg/gennaro/participant.go:21-32 `Participant`; `others` is the key set of
`otherParticipantShares`, `shares`/`vers` its `Share`/`Verifiers` fields. -/
structure Participant (p : Nat) (G : Type*) where
  round : Nat
  id : Nat
  shamir : Shamir
  others : List Nat
  shares : Nat → Option (Share p)
  vers : Nat → List G
  skShare : Option (ZMod p)
  vk : Option G
  result : Option (PedersenResult p G)

/-- dkg/gennaro/participant.go:78-91 `validIds`: every value `1..len` occurs. -/
def validIds (ids : List Nat) : Bool := (List.range ids.length).all fun i => decide (i + 1 ∈ ids)

/-- dkg/gennaro/participant.go:39-75 `NewParticipant` (generator non-nil and on the curve, `h` its value);
`uint32` lengths do not wrap for slices below 2³² entries. -/
def newParticipant (p : Nat) (h : G) (id threshold : Nat) (others : List Nat) : Option (Participant p G) :=
  if others = [] then none
  else if validIds (others ++ [id]) = false then none
  else if others.length + 1 < threshold then none
  else if threshold < 2 then none
  else if h = 0 then none
  else some { round := 1, id := id, shamir := ⟨threshold, others.length + 1⟩, others := others.dedup,
              shares := fun _ => none, vers := fun _ => [], skShare := none, vk := none, result := none }

/-- dkg/gennaro/round1.go:68-71: the packets for the other participants (an index outside the slices
panics). -/
def packets (r : PedersenResult p G) : List Nat → Option (List (Nat × Share p × Share p))
  | [] => some []
  | id :: rest =>
    if id = 0 then none
    else match r.secretShares[id - 1]?, r.blindingShares[id - 1]?, packets r rest with
      | some s, some b, some l => some ((id, s, b) :: l)
      | _, _, _ => none

/-- dkg/gennaro/round1.go:36-79 `Round1`.  `secret = none` is the nil argument, for which `sampled` is
drawn; `valid` is `dp.scalar.IsValid`; `blinding`, `rnd`, `rndB` are the values `Pedersen.Split` draws. -/
def round1 (g h : G) (valid : Nat → Bool) (dp : Participant p G) (secret : Option (List UInt8))
    (sampled blinding : ZMod p) (rnd rndB : Nat → ZMod p) :
    Participant p G × Res (List G × List (Nat × Share p × Share p)) :=
  if dp.round ≠ 1 then (dp, .err)
  else
    let go (bytes : List UInt8) : Participant p G × Res (List G × List (Nat × Share p × Share p)) :=
      match pedersenSplit g h dp.shamir bytes blinding rnd rndB with
      | .err => ({ dp with result := none }, .err)
      | .panic => (dp, .panic)
      | .ok r =>
        match packets r dp.others with
        | none => ({ dp with result := some r }, .panic)
        | some pk => ({ dp with result := some r, round := 2 }, .ok (r.blindedVerifiers, pk))
    match secret with
    | none => go (natToBE sampled.val)
    | some b =>
      if valid (beToNat b) = false then (dp, .err)
      else if beToNat b = 0 then (dp, .err)
      else go b

/-- dkg/gennaro/round2.go:42-80: the loop over the broadcasts; returns the shares stored so far and
the accumulated secret share. -/
def round2Loop (g h : G) (dp : Participant p G) (p2p : List (Nat × Share p × Share p)) :
    List (Nat × List G) → (Nat → Option (Share p)) → ZMod p → (Nat → Option (Share p)) × Res (ZMod p)
  | [], st, sk => (st, .ok sk)
  | (id, bvs) :: rest, st, sk =>
    if id = dp.id then round2Loop g h dp p2p rest st sk
    else match p2p.lookup id with
      | none => (st, .err)
      | some (x, r) =>
        match pedersenVerify g h dp.shamir x r bvs with
        | .err => (st, .err)
        | .panic => (st, .panic)
        | .ok false => (st, .err)
        | .ok true =>
          if id ∈ dp.others then
            round2Loop g h dp p2p rest (fun k => if k = id then some x else st k) (sk + x.value)
          else (st, .panic)

/-- dkg/gennaro/round2.go:22-90 `Round2` -/
def round2 (g h : G) (dp : Participant p G) (bcast : List (Nat × List G))
    (p2p : List (Nat × Share p × Share p)) : Participant p G × Res (List G) :=
  if dp.round ≠ 2 then (dp, .err)
  else if bcast = [] ∨ p2p = [] then (dp, .err)
  else match dp.result with
    | none => (dp, .panic)
    | some res =>
      if dp.id = 0 then (dp, .panic)
      else match res.secretShares[dp.id - 1]? with
        | none => (dp, .panic)
        | some own =>
          match round2Loop g h dp p2p bcast dp.shares own.value with
          | (st, .ok sk) =>
            ({ dp with shares := st, skShare := some sk, round := 3 }, .ok res.verifiers)
          | (st, .err) => ({ dp with shares := st }, .err)
          | (st, .panic) => ({ dp with shares := st }, .panic)

/-- dkg/gennaro/round3.go:42-68: the loop over the broadcasts.  A peer without a stored share (nil
pointer), or an unknown peer, panics. -/
def round3Loop (g : G) (dp : Participant p G) :
    List (Nat × List G) → (Nat → List G) → G → (Nat → List G) × Res G
  | [], st, pk => (st, .ok pk)
  | (id, vs) :: rest, st, pk =>
    if id = dp.id then round3Loop g dp rest st pk
    else if id ∉ dp.others then (st, .panic)
    else match dp.shares id with
      | none => if vs.length < dp.shamir.threshold then (st, .err) else (st, .panic)
      | some x =>
        match feldmanVerify g dp.shamir x vs with
        | .err => (st, .err)
        | .panic => (st, .panic)
        | .ok false => (st, .err)
        | .ok true =>
          match vs with
          | [] => (st, .panic)
          | R0 :: _ => round3Loop g dp rest (fun k => if k = id then vs else st k) (pk + R0)

/-- dkg/gennaro/round3.go:22-89 `Round3` -/
def round3 (g : G) (dp : Participant p G) (bcast : List (Nat × List G)) :
    Participant p G × Res (G × Share p) :=
  if dp.round ≠ 3 then (dp, .err)
  else if bcast = [] then (dp, .err)
  else match dp.result, dp.skShare with
    | some res, some sk =>
      match res.verifiers with
      | [] => (dp, .panic)
      | R0 :: _ =>
        match round3Loop g dp bcast dp.vers R0 with
        | (st, .err) => ({ dp with vers := st }, .err)
        | (st, .panic) => ({ dp with vers := st }, .panic)
        | (st, .ok pk) =>
          if pk = 0 then ({ dp with vers := st }, .err)
          else ({ dp with vers := st, vk := some pk, round := 4 }, .ok (pk, ⟨dp.id, sk⟩))
    | _, _ => (dp, .panic)

/-- dkg/gennaro/round4.go:52-72: the inner loop for one participant `j` with commitments `v`, over
`k = 0, .., t-1`, adding `(j·(k+1))·v[k]`. -/
def round4Inner (j : Nat) (v : List G) : List Nat → G → Res G
  | [], w => .ok w
  | k :: ks, w => match v[k]? with
    | none => .panic
    | some R => round4Inner j v ks (w + (((j * (k + 1) : Nat) : ZMod p)) • R)

/-- dkg/gennaro/round4.go:21-76 `Round4` (does not change the object). The result lists the public
share of every participant. -/
def round4 (dp : Participant p G) : Res (List (Nat × G)) :=
  if dp.round ≠ 4 then .err
  else match dp.result, dp.vk with
    | some res, some vk =>
      (dp.id :: dp.others).foldr (fun j acc =>
        (round4Inner (p := p) j (if j = dp.id then res.verifiers else dp.vers j)
          (List.range res.verifiers.length) vk).bind fun w => acc.bind fun l => .ok ((j, w) :: l)) (.ok [])
    | _, _ => .panic

/-! ## The participant as a state machine -/

/-- A call on a participant object. -/
inductive Call (p : Nat) (G : Type*) where
  | round1 (secret : Option (List UInt8)) (sampled blinding : ZMod p) (rnd rndB : Nat → ZMod p)
  | round2 (bcast : List (Nat × List G)) (p2p : List (Nat × Share p × Share p))
  | round3 (bcast : List (Nat × List G))
  | round4

def Call.number : Call p G → Nat
  | .round1 .. => 1
  | .round2 .. => 2
  | .round3 .. => 3
  | .round4 => 4

/-- Did the call return without error? -/
def Res.isOk {α : Type*} : Res α → Bool
  | .ok _ => true
  | _ => false

def stepCall (g h : G) (valid : Nat → Bool) (dp : Participant p G) : Call p G → Participant p G × Bool
  | .round1 s sm b r rb => let x := round1 g h valid dp s sm b r rb; (x.1, Res.isOk x.2)
  | .round2 b pk => let x := round2 g h dp b pk; (x.1, Res.isOk x.2)
  | .round3 b => let x := round3 g dp b; (x.1, Res.isOk x.2)
  | .round4 => (dp, Res.isOk (round4 dp))

def runCalls (g h : G) (valid : Nat → Bool) :
    Participant p G → List (Call p G) → Participant p G × List (Nat × Bool)
  | dp, [] => (dp, [])
  | dp, c :: cs =>
    let (dp', ok) := stepCall g h valid dp c
    let (dp'', l) := runCalls g h valid dp' cs
    (dp'', (c.number, ok) :: l)

end Verif.Gennaro
