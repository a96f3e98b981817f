import Verif.Base.GoRes
import Verif.Base.Group
import Mathlib.Algebra.Field.Basic

/-!
# Model of `/repo/crypto/ted25519/frost` (threshold signing)

Go maps are association lists with distinct keys, iterated in list order; theorems quantify over the
order.  Methods return the new object state beside the outcome, because a failing round may already
have stored values.  Points are in the prime-order group (an `F`-module), so on-curve checks hold.
-/

namespace Verif.FrostSign

variable {F G : Type*} [Field F] [DecidableEq F] [AddCommGroup G] [Module F G] [DecidableEq G]

/-- Curve and challenge-deriver parameters: generator, point encoding, `Scalar.Hash`,
`ChallengeDerive.DeriveChallenge` (ted25519/frost/challenge_derive.go:15-17) and `Point.IsNegative`. -/
structure Params (F G : Type*) where
  g : G
  pc : PointCodec G
  hash : List UInt8 → F
  derive : List UInt8 → G → G → Option F
  isNeg : G → Bool

/-- ted25519/frost/participant.go:19-44 `Signer` and its `state` -/
structure Signer (F G : Type*) where
  skShare : F
  vkShare : G
  vk : G
  id : Nat
  threshold : Nat
  round : Nat
  lCoeffs : List (Nat × F)
  cosigners : List Nat
  smallD : Option F
  smallE : Option F
  commitments : Option (List (Nat × G × G))
  msg : List UInt8
  c : Option F
  capRs : List (Nat × G)
  sumR : Option G

/-- ted25519/frost/participant.go:49-83 `NewSigner`; the first three arguments are the fields taken from
the finished DKG participant. -/
def newSigner (skShare : F) (vkShare vk : G) (id thresh : Nat) (lcoeffs : List (Nat × F))
    (cosigners : List Nat) : Option (Signer F G) :=
  if cosigners = [] ∨ lcoeffs = [] then none
  else if thresh > cosigners.length then none
  else if lcoeffs.length ≠ cosigners.length then none
  else if cosigners.any (fun id => (lcoeffs.lookup id).isNone) then none
  else some { skShare := skShare, vkShare := vkShare, vk := vk, id := id, threshold := thresh, round := 1,
              lCoeffs := lcoeffs, cosigners := cosigners, smallD := none, smallE := none,
              commitments := none, msg := [], c := none, capRs := [], sumR := none }

/-- ted25519/frost/round1.go:45-78 `SignRound1`; `d`, `e` are the nonces drawn. -/
def round1 (P : Params F G) (s : Signer F G) (d e : F) : Signer F G × Res (G × G) :=
  if s.round ≠ 1 then (s, .err)
  else ({ s with round := 2, smallD := some d, smallE := some e }, .ok (d • P.g, e • P.g))

/-- ted25519/frost/round2.go:161-181 `concatHashArray`; `none` is the nil dereference when a cosigner
sent nothing. -/
def blobTail (P : Params F G) (inp : List (Nat × G × G)) : List Nat → Option (List UInt8)
  | [] => some []
  | id :: r => match inp.lookup id, blobTail P inp r with
    | some (D, E), some l => some (UInt8.ofNat id :: (P.pc.enc D ++ P.pc.enc E) ++ l)
    | _, _ => none

def blob (P : Params F G) (id : Nat) (msg : List UInt8) (inp : List (Nat × G × G))
    (cosigners : List Nat) : Option (List UInt8) :=
  (blobTail P inp cosigners).map fun t => UInt8.ofNat id :: msg ++ t

/-- ted25519/frost/round2.go:93-115: the binding factors and commitments of all signers:
`(Rs, R, ri)`. -/
def commitLoop (P : Params F G) (s : Signer F G) (msg : List UInt8) (inp : List (Nat × G × G)) :
    List (Nat × G × G) → List (Nat × G) × G × Option F → Option (List (Nat × G) × G × Option F)
  | [], acc => some acc
  | (id, D, E) :: rest, (Rs, R, ri) =>
    match blob P id msg inp s.cosigners with
    | none => none
    | some b =>
      let rj := P.hash b
      let Rj := rj • E + D
      commitLoop P s msg inp rest (Rs ++ [(id, Rj)], R + Rj, if s.id = id then some rj else ri)

/-- ted25519/frost/round2.go:47-158 `SignRound2`.  Result `(z_i, vkShare)`. -/
def round2 (P : Params F G) (s : Signer F G) (msg : List UInt8) (inp : List (Nat × G × G)) :
    Signer F G × Res (F × G) :=
  match s.smallD, s.smallE with
  | some d, some e =>
    if d = 0 then (s, .err)
    else if e = 0 then (s, .err)
    else if msg = [] then (s, .err)
    else if s.round ≠ 2 then (s, .err)
    else if inp.length ≠ s.threshold then (s, .err)
    else if inp.any (fun x => decide (x.2.1 = 0) || decide (x.2.2 = 0)) then (s, .err)
    else
      let s1 := { s with commitments := some inp }
      match commitLoop P s1 msg inp inp ([], 0, none) with
      | none => (s1, .panic)
      | some (Rs, R, ri) =>
        match P.derive msg s.vk R with
        | none => (s1, .err)
        | some c =>
          let s2 := { s1 with c := some c, capRs := Rs, sumR := some R }
          match s.lCoeffs.lookup s.id with
          | none => (s2, .panic)
          | some L =>
            let d' := if P.isNeg R then -d else d
            let e' := if P.isNeg R then -e else e
            match ri with
            | none => ({ s2 with smallD := some d', smallE := some e' }, .panic)
            | some r =>
              ({ s2 with round := 3, msg := msg, smallD := some 0, smallE := some 0 },
                .ok (L * s.skShare * c + e' * r + d', s.vkShare))
  | _, _ => (s, .err)

/-- ted25519/frost/round3.go:75-103: checking and adding the responses. -/
def respLoop (P : Params F G) (s : Signer F G) (c : F) (negate : Bool) :
    List (Nat × F × G) → F → Res F
  | [], z => .ok z
  | (id, zj, vkj) :: rest, z =>
    match s.lCoeffs.lookup id with
    | none => .panic
    | some L => match s.capRs.lookup id with
      | none => if negate then .panic else .err
      | some Rj =>
        let right := (c * L) • vkj + (if negate then -Rj else Rj)
        if zj • P.g ≠ right then .err else respLoop P s c negate rest (z + zj)

/-- ted25519/frost/round3.go:30-131 `SignRound3`; result `(R, z, c, msg)`.  `Scalar.Cmp(…) != 0` is
inequality (for every scalar type `Cmp` returns 0 exactly on equal values). -/
def round3 (P : Params F G) (s : Signer F G) (inp : List (Nat × F × G)) :
    Signer F G × Res (G × F × F × List UInt8) :=
  match s.smallD, s.smallE with
  | some d, some e =>
    if d ≠ 0 ∨ e ≠ 0 then (s, .err)
    else if s.msg = [] then (s, .err)
    else match s.commitments with
      | none => (s, .err)
      | some cm =>
        if cm.length ≠ inp.length then (s, .err)
        else if s.round ≠ 3 then (s, .err)
        else if inp.length ≠ s.threshold then (s, .err)
        else match s.c, s.sumR with
          | some c, some R =>
            match respLoop P s c (P.isNeg R) inp 0 with
            | .err => (s, .err)
            | .panic => (s, .panic)
            | .ok z =>
              match P.derive s.msg s.vk (z • P.g + (-c) • s.vk) with
              | none => (s, .err)
              | some c' => if c' ≠ c then (s, .err)
                else ({ s with round := 4 }, .ok (R, z, c, s.msg))
          | _, _ => (s, .panic)
  | _, _ => (s, .panic)

/-- ted25519/frost/round3.go:134-157 `Verify`; `true` is `(true, nil)`. -/
def verify (P : Params F G) (vk : G) (msg : List UInt8) (z c : F) : Bool :=
  if msg = [] then false
  else match P.derive msg vk (z • P.g + (-c) • vk) with
    | none => false
    | some c' => decide (c' = c)

/-! ## The signer as a state machine -/

inductive Call (F G : Type*) where
  | round1 (d e : F)
  | round2 (msg : List UInt8) (inp : List (Nat × G × G))
  | round3 (inp : List (Nat × F × G))

def Call.number : Call F G → Nat
  | .round1 .. => 1
  | .round2 .. => 2
  | .round3 .. => 3

def isOk {α : Type*} : Res α → Bool
  | .ok _ => true
  | _ => false

def stepCall (P : Params F G) (s : Signer F G) : Call F G → Signer F G × Bool
  | .round1 d e => let x := round1 P s d e; (x.1, isOk x.2)
  | .round2 m i => let x := round2 P s m i; (x.1, isOk x.2)
  | .round3 i => let x := round3 P s i; (x.1, isOk x.2)

def runCalls (P : Params F G) : Signer F G → List (Call F G) → Signer F G × List (Nat × Bool)
  | s, [] => (s, [])
  | s, c :: cs =>
    let (s', ok) := stepCall P s c
    let (s'', l) := runCalls P s' cs
    (s'', (c.number, ok) :: l)

end Verif.FrostSign
