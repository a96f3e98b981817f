import Verif.OT.Kos

/-! Model of `/repo/crypto/tecdsa/dklsv1/sign/multiply.go`: the OT based two-party multiplication. -/

namespace Verif.Dkls
open Verif Verif.OT

variable {F G : Type} [Field F] [AddCommGroup G] [Module F G]

/-- the environment: curve, encodings, SHA3-256, merlin (`OT.Env`), plus the cSHAKE256 stream of the OT
extension and the fixed cSHAKE256 stream `gadgetStream` with customisation
`"Coinbase DKLs gadget vector"` (multiply.go:60) -/
structure Env (F G : Type) [AddCommGroup G] extends OT.Env F G where
  shake : Digest → List UInt8 → Nat → UInt8
  gadgetStream : Nat → UInt8

/-- the environment of the OT extension -/
def Env.kos (E : Env F G) : Kos.Env F := ⟨E.sc, E.H, E.shake⟩

/-- multiply.go:51-73 `generateGadgetVector` -/
def generateGadgetVector (E : Env F G) : Res (List F) := do
  let hi ← (List.range (Kos.L - Kos.Kappa)).mapM fun i =>
    Res.ofOption (E.sc.setBytes ((List.range 32).map fun t => E.gadgetStream (32 * i + t)))
  .ok ((List.range Kos.Kappa).map (fun i => ((2 ^ i : Nat) : F)) ++ hi)

/-- multiply.go:31-38 `MultiplySender` (the additive share is returned by `round2Multiply`) -/
structure MultiplySender (F : Type) where
  seed : ReceiverOutput
  gadget : List F
  transcript : Transcript
  sid : Digest

/-- multiply.go:41-49 `MultiplyReceiver` -/
structure MultiplyReceiver (F : Type) where
  seed : List (Digest × Digest)
  cot : Kos.Receiver
  omega : Nat → UInt8
  gadget : List F
  transcript : Transcript
  sid : Digest

/-- multiply.go:85-86, 105-106 -/
def mulTranscript (sid : Digest) : Transcript :=
  [.append "Coinbase_DKLs_Multiply" [], .append "session_id" (bytesOf sid)]

/-- multiply.go:78-94 `NewMultiplySender` -/
def newMultiplySender (E : Env F G) (seed : ReceiverOutput) (sid : Digest) : Res (MultiplySender F) := do
  let gadget ← generateGadgetVector E
  .ok { seed := seed, gadget := gadget, transcript := mulTranscript sid, sid := sid }

/-- multiply.go:99-114 `NewMultiplyReceiver` -/
def newMultiplyReceiver (E : Env F G) (seed : List (Digest × Digest)) (sid : Digest) :
    Res (MultiplyReceiver F) := do
  let gadget ← generateGadgetVector E
  .ok { seed := seed, cot := ⟨fun _ => 0, fun _ => Kos.zeroD, sid⟩, omega := fun _ => 0, gadget := gadget,
        transcript := mulTranscript sid, sid := sid }

/-- multiply.go:134-145: one step of the masked subtraction, on the byte representation.  Scalar byte
slices of a curve all have the same length. -/
def encodeStep (E : Env F G) (gadget : List F) (rnd : Nat → UInt8) (bytes : List UInt8) (j : Nat) :
    Res (List UInt8) := do
  let bit := (Kos.bitAt (fun i => if i < 32 then 0 else rnd (i - 32)) j).toNat
  let option0 ← Res.ofOption (E.sc.setBytes bytes)
  let gj ← idx gadget j
  .ok (ctSel bit (E.sc.toBytes option0) (E.sc.toBytes (option0 - gj)))

/-- multiply.go:126-149 `encode`; `rnd` are the random bytes of `gamma`.  `copy` of the reversed bytes
into `encoding[0:32]`. -/
def encode (E : Env F G) (gadget : List F) (rnd : Nat → UInt8) (beta : F) : Res (Nat → UInt8) := do
  let bytes ← (List.range (Kos.L - Kos.Kappa)).foldlM
    (fun acc i => encodeStep E gadget rnd acc (Kos.Kappa + i)) (E.sc.toBytes beta)
  let rev := bytes.reverse
  .ok (fun i => if i < 32 then rev.getD i 0 else rnd (i - 32))

/-- multiply.go:162-167, 189-194: the first message written to the transcript -/
def appendRound1 (t : Transcript) (m : Kos.Round1Output) : Transcript :=
  t ++ (List.range Kos.Kappa).map (fun i => Ev.append s!"row {i} of U" ((List.range Kos.extBytes).map (m.U i)))
    ++ [.append "wPrime" (bytesOf m.WPrime), .append "vPrime" (bytesOf m.VPrime)]

/-- multiply.go:152-169 `Round1Initialize`; `gamma`, `rnd` the random bytes of `encode` and of the OT
extension -/
def MultiplyReceiver.round1 (E : Env F G) (r : MultiplyReceiver F) (beta : F) (gamma rnd : Nat → UInt8) :
    Res (MultiplyReceiver F × Kos.Round1Output) := do
  let omega ← encode E r.gadget gamma beta
  let (cot, m) ← Kos.round1 E.kos r.seed r.sid omega rnd
  .ok ({ r with omega := omega, cot := cot, transcript := appendRound1 r.transcript m }, m)

/-- multiply.go:196-202, 228-235: rows `i < Kappa` of `Tau` written to the transcript (the message has
`L` rows) -/
def appendTau (E : Env F G) (t : Transcript) (tau : List (F × F)) : Res Transcript := do
  let rows ← (List.range Kos.Kappa).mapM (idx tau)
  .ok (t ++ ((List.range Kos.Kappa).zip rows).flatMap fun p =>
    [Ev.append s!"row {p.1} of Tau" (E.sc.toBytes p.2.1), Ev.append s!"row {p.1} of Tau" (E.sc.toBytes p.2.2)])

/-- multiply.go:203-211, 240-248: the two challenges (`chiWidth = 2` written out) -/
def drawChi (E : Env F G) (t : Transcript) : Res (F × F) := do
  let (b0, t) := E.extract t "draw challenge chi 0"
  let c0 ← Res.ofOption (E.sc.setBytes (bytesOf b0))
  let (b1, _) := E.extract t "draw challenge chi 1"
  let c1 ← Res.ofOption (E.sc.setBytes (bytesOf b1))
  .ok (c0, c1)

/-- multiply.go:117-121 `MultiplyRound2Output` -/
structure MultiplyRound2Output (F : Type) where
  tau : List (F × F)
  R : List F
  U : F

/-- multiply.go:175-222 `Round2Multiply`; returns the additive share and the message. -/
def MultiplySender.round2 (E : Env F G) (s : MultiplySender F) (alpha alphaHat : F) (m : Kos.Round1Output) :
    Res (F × MultiplyRound2Output F) := do
  let input := List.replicate Kos.L (alpha, alphaHat)
  let (tA, tau) ← Kos.round2 E.kos s.seed s.sid input m
  let t ← appendTau E (appendRound1 s.transcript m) tau
  let chi ← drawChi E t
  let R ← (List.range Kos.L).mapM fun j => do
    let a ← idx tA j
    .ok (0 + chi.1 * a.1 + chi.2 * a.2)
  let share ← (List.range Kos.L).foldlM (fun acc j => do
    let a ← idx tA j
    let g ← idx s.gadget j
    .ok (acc + g * a.1)) 0
  .ok (share, { tau := tau, R := R, U := chi.1 * alpha + chi.2 * alphaHat })

/-- multiply.go:251-265: Bob's loop body for `j`.  `right` has 32 bytes: `ConstantTimeCopy` panics if
`U.Bytes()` has another length, `ConstantTimeCompare` is false on unequal lengths. -/
def checkStep (E : Env F G) (r : MultiplyReceiver F) (chi : F × F) (tB : List (F × F))
    (o : MultiplyRound2Output F) (acc : F) (j : Nat) : Res F := do
  let Rj ← idx o.R j
  let b ← idx tB j
  let left := Rj + chi.1 * b.1 + chi.2 * b.2
  let bit := (Kos.bitAt r.omega j).toNat
  let right ← ctCopy bit (List.replicate 32 0) (E.sc.toBytes o.U)
  if right ≠ E.sc.toBytes left then .err
  else do
    let g ← idx r.gadget j
    .ok (acc + g * b.1)

/-- multiply.go:227-267 `Round3Multiply`; returns the additive share. -/
def MultiplyReceiver.round3 (E : Env F G) (r : MultiplyReceiver F) (o : MultiplyRound2Output F) : Res F := do
  let t ← appendTau E r.transcript o.tau
  let tB ← Kos.round3 E.kos r.cot o.tau
  let chi ← drawChi E t
  (List.range Kos.L).foldlM (checkStep E r chi tB o) 0

end Verif.Dkls
