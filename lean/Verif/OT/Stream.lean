import Verif.OT.SimplestProps

/-! Model of `/repo/crypto/ot/base/simplest/stream.go` and property C124: the seed transfer over a stream.

Each side is a process that handles the messages of the other in order; the stream is two FIFO queues; a schedule is any
interleaving of the two.  gob carries values of the types used here unchanged; `reg` says whether the scalars and points
in the proof are of a type that gob knows (these functions register those of K-256 only).  A message of another type
is a decoding error. -/

set_option linter.unusedSimpArgs false

namespace Verif.OT.Stream
open Verif Verif.OT

variable {F G : Type} [Field F] [AddCommGroup G] [Module F G]

/-- what is written to the stream -/
inductive Msg (F G : Type) where
  | proof (pf : Schnorr.Proof F G)
  | masked (l : List (List UInt8))
  | digests (l : List Digest)
  | openings (l : List (Digest × Digest))

/-- crypto/ot/base/simplest/stream.go:61-100 where `SenderStreamOTRun` is: reading the masked choices, reading the responses, or
returned -/
inductive SProc (F G : Type) where
  | await2 (s : Sender F G)
  | await4 (s : Sender F G)
  | stop (s : Sender F G) (res : Res Unit)

/-- crypto/ot/base/simplest/stream.go:19-56 where `ReceiverStreamOTRun` is -/
inductive RProc (G : Type) where
  | await1 (r : Receiver G)
  | await3 (r : Receiver G)
  | await5 (r : Receiver G)
  | stop (r : Receiver G) (res : Res Unit)

/-- crypto/ot/base/simplest/stream.go:61-100 `SenderStreamOTRun` (62-73): up to the first read -/
def sStart (E : Env F G) (reg : Bool) (b k : F) (s : Sender F G) : SProc F G × List (Msg F G) :=
  match s.round1 E b k with
  | .err => (.stop s .err, [])
  | .panic => (.stop s .panic, [])
  | .ok (s, pf) => if reg then (.await2 s, [.proof pf]) else (.stop s .err, [])

/-- crypto/ot/base/simplest/stream.go:61-100 `SenderStreamOTRun` (75-99): one read and what follows it, up to the next -/
def sRecv (E : Env F G) : SProc F G → Msg F G → SProc F G × List (Msg F G)
  | .await2 s, .masked l =>
    match s.round3 E l with
    | .err => (.stop s .err, [])
    | .panic => (.stop s .panic, [])
    | .ok (s, ch) => (.await4 s, [.digests ch])
  | .await2 s, _ => (.stop s .err, [])
  | .await4 s, .digests l =>
    match s.round5 E l with
    | .err => (.stop s .err, [])
    | .panic => (.stop s .panic, [])
    | .ok op => (.stop s (.ok ()), [.openings op])
  | .await4 s, _ => (.stop s .err, [])
  | .stop s res, _ => (.stop s res, [])

/-- crypto/ot/base/simplest/stream.go:19-56 `ReceiverStreamOTRun` (25-55): one read and what follows it, up to the next -/
def rRecv (E : Env F G) (a : Nat → F) : RProc G → Msg F G → RProc G × List (Msg F G)
  | .await1 r, .proof pf =>
    match r.round2 E pf a with
    | .err => (.stop r .err, [])
    | .panic => (.stop r .panic, [])
    | .ok (r, l) => (.await3 r, [.masked l])
  | .await1 r, _ => (.stop r .err, [])
  | .await3 r, .digests l =>
    match r.round4 E l with
    | .err => (.stop r .err, [])
    | .panic => (.stop r .panic, [])
    | .ok (r, resp) => (.await5 r, [.digests resp])
  | .await3 r, _ => (.stop r .err, [])
  | .await5 r, .openings op => (.stop r (r.round6 E op), [])
  | .await5 r, _ => (.stop r .err, [])
  | .stop r res, _ => (.stop r res, [])

/-! ### specification -/

/-- the two processes and what is on its way to each -/
structure Sys (F G : Type) where
  snd : SProc F G
  rcv : RProc G
  toS : List (Msg F G)
  toR : List (Msg F G)

/-- a process that has returned reads nothing -/
def SProc.reading : SProc F G → Prop
  | .stop _ _ => False
  | _ => True

def RProc.reading : RProc G → Prop
  | .stop _ _ => False
  | _ => True

/-- one of the two reads the next message sent to it -/
inductive Step (E : Env F G) (a : Nat → F) : Sys F G → Sys F G → Prop
  | snd (p : SProc F G) (q : RProc G) (m : Msg F G) (x y : List (Msg F G)) (h : p.reading) :
      Step E a ⟨p, q, m :: x, y⟩ ⟨(sRecv E p m).1, q, x, y ++ (sRecv E p m).2⟩
  | rcv (p : SProc F G) (q : RProc G) (m : Msg F G) (x y : List (Msg F G)) (h : q.reading) :
      Step E a ⟨p, q, x, m :: y⟩ ⟨p, (rRecv E a q m).1, x ++ (rRecv E a q m).2, y⟩

/-- any number of steps, in any order -/
abbrev Reaches (E : Env F G) (a : Nat → F) : Sys F G → Sys F G → Prop := Relation.ReflTransGen (Step E a)

/-- both are started -/
def init (E : Env F G) (reg : Bool) (b k : F) (s : Sender F G) (r : Receiver G) : Sys F G :=
  ⟨(sStart E reg b k s).1, .await1 r, [], (sStart E reg b k s).2⟩

/-- nobody can go on -/
def Final (E : Env F G) (a : Nat → F) (x : Sys F G) : Prop := ∀ y, ¬ Step E a x y

/-! ### lemmas -/

theorem final_of_empty {E : Env F G} {a : Nat → F} {p : SProc F G} {q : RProc G} : Final E a ⟨p, q, [], []⟩ := by
  intro y h
  cases h

/-- a state with one message for the receiver has one successor -/
theorem step_toR {E : Env F G} {a : Nat → F} {p : SProc F G} {q : RProc G} {m : Msg F G} {y : Sys F G}
    (h : Step E a ⟨p, q, [], [m]⟩ y) : y = ⟨p, (rRecv E a q m).1, (rRecv E a q m).2, []⟩ := by
  cases h
  rfl

theorem step_toS {E : Env F G} {a : Nat → F} {p : SProc F G} {q : RProc G} {m : Msg F G} {y : Sys F G}
    (h : Step E a ⟨p, q, [m], []⟩ y) : y = ⟨(sRecv E p m).1, q, [], (sRecv E p m).2⟩ := by
  cases h
  rfl

/-- all schedules from `x` end in `z`: no divergence, no other end -/
def EndsIn (E : Env F G) (a : Nat → F) (x z : Sys F G) : Prop :=
  Reaches E a x z ∧ Final E a z ∧ ∀ y, Reaches E a x y → Reaches E a y z

theorem endsIn_self {E : Env F G} {a : Nat → F} {x : Sys F G} (h : Final E a x) : EndsIn E a x x := by
  refine ⟨.refl, h, fun y hy => ?_⟩
  rcases hy.cases_head with rfl | ⟨z, hz, -⟩
  · exact .refl
  · exact absurd hz (h z)

theorem endsIn_step {E : Env F G} {a : Nat → F} {x x' z : Sys F G} (h : Step E a x x')
    (hu : ∀ y, Step E a x y → y = x') (hz : EndsIn E a x' z) : EndsIn E a x z := by
  refine ⟨.head h hz.1, hz.2.1, fun y hy => ?_⟩
  rcases hy.cases_head with rfl | ⟨w, hw, hwy⟩
  · exact .head h hz.1
  · rw [hu w hw] at hwy
    exact hz.2.2 y hwy

theorem endsIn_toR {E : Env F G} {a : Nat → F} {p : SProc F G} {q : RProc G} {m : Msg F G} {z : Sys F G}
    (hq : q.reading) (hz : EndsIn E a ⟨p, (rRecv E a q m).1, (rRecv E a q m).2, []⟩ z) :
    EndsIn E a ⟨p, q, [], [m]⟩ z :=
  endsIn_step (.rcv p q m [] [] hq) (fun _ h => step_toR h) hz

theorem endsIn_toS {E : Env F G} {a : Nat → F} {p : SProc F G} {q : RProc G} {m : Msg F G} {z : Sys F G}
    (hp : p.reading) (hz : EndsIn E a ⟨(sRecv E p m).1, q, [], (sRecv E p m).2⟩ z) :
    EndsIn E a ⟨p, q, [m], []⟩ z :=
  endsIn_step (.snd p q m [] [] hp) (fun _ h => step_toS h) hz

/-! ### the property -/

/-- **C124** Whatever the schedule, the two processes end as the six rounds called by hand: if those succeed with sender
`s'` and receiver `r'`, then so do the processes, with the same `s'` and `r'` and nothing left on the stream. -/
theorem C124_as_rounds (E : Env F G) (n : Nat) (sid : Digest) (rnd : Nat → UInt8) (b k : F) (a : Nat → F)
    (s : Sender F G) (r : Receiver G) (hs : newSender (F := F) (G := G) n sid = .ok s)
    (hr : newReceiver (G := G) n sid rnd = .ok r) (s' : Sender F G) (r' : Receiver G)
    (hrun : run E n sid rnd b k a = .ok (s', r')) :
    EndsIn E a (init E true b k s r) ⟨.stop s' (.ok ()), .stop r' (.ok ()), [], []⟩ := by
  unfold run at hrun
  rw [hr, hs] at hrun
  simp only [Res.bind_ok] at hrun
  obtain ⟨⟨s1, pf⟩, h1, hrun⟩ := Res.bind_eq_ok.1 hrun
  obtain ⟨⟨r2, l⟩, h2, hrun⟩ := Res.bind_eq_ok.1 hrun
  obtain ⟨⟨s3, ch⟩, h3, hrun⟩ := Res.bind_eq_ok.1 hrun
  obtain ⟨⟨r4, resp⟩, h4, hrun⟩ := Res.bind_eq_ok.1 hrun
  obtain ⟨op, h5, hrun⟩ := Res.bind_eq_ok.1 hrun
  obtain ⟨⟨⟩, h6, hrun⟩ := Res.bind_eq_ok.1 hrun
  cases hrun
  have e0 : init E true b k s r = ⟨.await2 s1, .await1 r, [], [.proof pf]⟩ := by
    simp [init, sStart, h1]
  rw [e0]
  refine endsIn_toR trivial ?_
  rw [show rRecv E a (.await1 r) (.proof pf) = (.await3 r2, [.masked l]) by simp [rRecv, h2]]
  refine endsIn_toS trivial ?_
  rw [show sRecv E (.await2 s1) (.masked l) = (.await4 s3, [.digests ch]) by simp [sRecv, h3]]
  refine endsIn_toR trivial ?_
  rw [show rRecv E a (.await3 r2) (.digests ch) = (.await5 r4, [.digests resp]) by simp [rRecv, h4]]
  refine endsIn_toS trivial ?_
  rw [show sRecv E (.await4 s3) (.digests resp) = (.stop s3 (.ok ()), [.openings op]) by simp [sRecv, h5]]
  refine endsIn_toR trivial ?_
  rw [show rRecv E a (.await5 r4) (.openings op) = (.stop r4 (.ok ()), []) by simp [rRecv, h6]]
  exact endsIn_self final_of_empty

/-- **C124** The honest case: for every batch size that is a multiple of eight, session and choice bits, with the
conditions of the rounds (a nonce that gives a proof, masked points that can be encoded): all schedules end with both
sides successful, the receiver holding for every index exactly the sender's key its choice bit selects. -/
theorem C124_honest (E : Env F G) (hc : Schnorr.Canonical E.sc) (n : Nat) (sid : Digest)
    (rnd : Nat → UInt8) (b k : F) (a : Nat → F)
    (hk : Schnorr.prove E.schnorr E.g (bytesOf (E.X (startTranscript sid) "sender schnorr proof")) b k ≠ none)
    (hA : ∀ i < 8 * n, maskedPoint E (bitOf ((List.range n).map rnd) i) (a i) (b • E.g) ≠ 0) :
    ∃ (s s' : Sender F G) (r r' : Receiver G), newSender (F := F) (G := G) (8 * n) sid = .ok s ∧
      newReceiver (G := G) (8 * n) sid rnd = .ok r ∧
      EndsIn E a (init E true b k s r) ⟨.stop s' (.ok ()), .stop r' (.ok ()), [], []⟩ ∧
      Correlated (8 * n) s'.keys r'.out ∧ r'.out.packed = (List.range n).map rnd := by
  obtain ⟨s', r', h1, h2, h3⟩ := C24_honest_run E hc n sid rnd b k a hk hA
  obtain ⟨hx, hy⟩ := C24_batch_multiple_of_8 (F := F) (G := G) (8 * n) sid rnd
  obtain ⟨s, hs⟩ := hx.2 ⟨n, rfl⟩
  obtain ⟨r, hr⟩ := hy.2 ⟨n, rfl⟩
  exact ⟨s, s', r, r', hs, hr, C124_as_rounds E _ sid rnd b k a s r hs hr s' r' h1, h2, h3⟩

/-- **C124** Whatever the other side is — its messages are arbitrary — a side that returns success has done all of its
rounds successfully: the receiver has accepted the proof, the challenge and the openings it was sent. -/
theorem C124_receiver_sound (E : Env F G) (a : Nat → F) (r r' : Receiver G) (m1 m2 m3 : Msg F G)
    (h : (rRecv E a (rRecv E a (rRecv E a (.await1 r) m1).1 m2).1 m3).1 = .stop r' (.ok ())) :
    ∃ pf l r2 ch resp op, m1 = .proof pf ∧ m2 = .digests ch ∧ m3 = .openings op ∧
      r.round2 E pf a = .ok (r2, l) ∧ r2.round4 E ch = .ok (r', resp) ∧ r'.round6 E op = .ok () := by
  cases m1 with
  | proof pf =>
    rcases e2 : r.round2 E pf a with ⟨r2, l⟩ | _ | _
    · simp only [rRecv, e2] at h
      cases m2 with
      | digests ch =>
        rcases e4 : r2.round4 E ch with ⟨r4, resp⟩ | _ | _
        · simp only [rRecv, e4] at h
          cases m3 with
          | openings op =>
            simp only [rRecv, RProc.stop.injEq] at h
            obtain ⟨rfl, h6⟩ := h
            exact ⟨pf, l, r2, ch, resp, op, rfl, rfl, rfl, e2 ▸ rfl, e4 ▸ rfl, h6⟩
          | _ => simp [rRecv] at h
        · simp [rRecv, e4] at h
        · simp [rRecv, e4] at h
      | _ => simp [rRecv] at h
    · simp [rRecv, e2] at h
    · simp [rRecv, e2] at h
  | _ => simp [rRecv] at h

theorem C124_sender_sound (E : Env F G) (b k : F) (s s' : Sender F G) (m1 m2 : Msg F G)
    (h : (sRecv E (sRecv E (sStart E true b k s).1 m1).1 m2).1 = .stop s' (.ok ())) :
    ∃ s1 pf l ch resp op, m1 = .masked l ∧ m2 = .digests resp ∧ s.round1 E b k = .ok (s1, pf) ∧
      s1.round3 E l = .ok (s', ch) ∧ s'.round5 E resp = .ok op := by
  rcases e1 : s.round1 E b k with ⟨s1, pf⟩ | _ | _
  · simp only [sStart, e1, if_true] at h
    cases m1 with
    | masked l =>
      rcases e3 : s1.round3 E l with ⟨s3, ch⟩ | _ | _
      · simp only [sRecv, e3] at h
        cases m2 with
        | digests resp =>
          rcases e5 : s3.round5 E resp with op | _ | _
          · simp only [sRecv, e5, SProc.stop.injEq] at h
            obtain ⟨rfl, -⟩ := h
            exact ⟨s1, pf, l, ch, resp, op, rfl, rfl, rfl, e3, e5⟩
          · simp [sRecv, e5] at h
          · simp [sRecv, e5] at h
        | _ => simp [sRecv] at h
      · simp [sRecv, e3] at h
      · simp [sRecv, e3] at h
    | _ => simp [sRecv] at h
  · simp [sStart, e1, sRecv] at h
  · simp [sStart, e1, sRecv] at h

/-- **C124** Negated: a side that refuses tells the other nothing.  If the receiver refuses the proof, it returns an error
and the sender waits for ever: all schedules end with it reading an empty stream. -/
theorem C124_peer_waits_violated (E : Env F G) (b k : F) (a : Nat → F) (s s1 : Sender F G) (r : Receiver G)
    (pf : Schnorr.Proof F G) (h1 : s.round1 E b k = .ok (s1, pf))
    (hv : Schnorr.verify E.schnorr pf E.g (bytesOf (E.X r.transcript "sender schnorr proof")) = false) :
    EndsIn E a (init E true b k s r) ⟨.await2 s1, .stop r .err, [], []⟩ := by
  have e0 : init E true b k s r = ⟨.await2 s1, .await1 r, [], [.proof pf]⟩ := by
    simp [init, sStart, h1]
  rw [e0]
  refine endsIn_toR trivial ?_
  rw [show rRecv E a (.await1 r) (.proof pf) = (.stop r .err, []) by
    simp [rRecv, (C24_refusals E [] [] r.out r pf a).2.2 hv]]
  exact endsIn_self final_of_empty

/-- **C124** Negated: on a curve other than K-256, whose types nothing else has registered, the sender fails when it writes
the proof, and the receiver waits for ever. -/
theorem C124_other_curves_violated (E : Env F G) (b k : F) (a : Nat → F) (s s1 : Sender F G) (r : Receiver G)
    (pf : Schnorr.Proof F G) (h1 : s.round1 E b k = .ok (s1, pf)) :
    EndsIn E a (init E false b k s r) ⟨.stop s1 .err, .await1 r, [], []⟩ := by
  have e0 : init E false b k s r = ⟨.stop s1 .err, .await1 r, [], []⟩ := by
    simp [init, sStart, h1]
  rw [e0]
  exact endsIn_self final_of_empty

/-! ### concrete cases -/

local instance fact257 : Fact (Nat.Prime 257) := ⟨by norm_num⟩

example : ∃ (s s' : Sender (ZMod 257) (ZMod 257)) (r r' : Receiver (ZMod 257)),
    EndsIn toyEnv32 (fun i => (i : ZMod 257) + 11) (init toyEnv32 true 5 7 s r)
      ⟨.stop s' (.ok ()), .stop r' (.ok ()), [], []⟩ ∧ Correlated (8 * 1) s'.keys r'.out := by
  obtain ⟨s, s', r, r', -, -, h1, h2, -⟩ := C124_honest toyEnv32 (Schnorr.canonical_be 257 32 (by norm_num)) 1
    (fun _ => 1) (fun _ => 0xA6) 5 7 (fun i => (i : ZMod 257) + 11) (by decide +kernel) (by decide +kernel)
  exact ⟨s, s', r, r', h1, h2⟩

/-- a receiver with another transcript refuses -/
example : ∃ pf, Schnorr.prove toyEnv32.schnorr toyEnv32.g
      (bytesOf (toyEnv32.X (startTranscript fun _ => 1) "sender schnorr proof")) 5 7 = some pf ∧
    Schnorr.verify toyEnv32.schnorr pf toyEnv32.g (bytesOf (toyEnv32.X [] "sender schnorr proof")) = false := by
  have h : ((Schnorr.prove toyEnv32.schnorr toyEnv32.g
      (bytesOf (toyEnv32.X (startTranscript fun _ => 1) "sender schnorr proof")) 5 7).map fun pf =>
      Schnorr.verify toyEnv32.schnorr pf toyEnv32.g (bytesOf (toyEnv32.X [] "sender schnorr proof"))) =
      some false := by decide +kernel
  exact Option.map_eq_some_iff.1 h

end Verif.OT.Stream
