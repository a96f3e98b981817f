import Verif.OT.KosProps

/-! Model of `/repo/crypto/ot/extension/kos/stream.go` and property C125: the correlated transfer over a stream.

The two sides as processes over two FIFO queues, as in OT/Stream.lean; gob carries values unchanged; `reg` says whether
gob knows the type of the scalars in the response (nothing here registers it).  A message of the other type is a
decoding error. -/

set_option linter.unusedSimpArgs false

namespace Verif.OT.Kos.Stream
open Verif Verif.OT Verif.OT.Kos

variable {F : Type} [Field F]

/-- what is written to the stream -/
inductive Msg (F : Type) where
  | first (m : Round1Output)
  | tau (t : List (F × F))

/-- crypto/ot/extension/kos/stream.go:41-57 where `SenderStreamCOtRun` is; on success the sender's output shares -/
inductive SProc (F : Type) where
  | await1
  | stop (res : Res (List (F × F)))

/-- crypto/ot/extension/kos/stream.go:17-41 where `ReceiverStreamCOtRun` is; on success the receiver's output shares -/
inductive RProc (F : Type) where
  | await2 (r : Receiver)
  | stop (res : Res (List (F × F)))

/-- crypto/ot/extension/kos/stream.go:17-41 `ReceiverStreamCOtRun` (18-27): up to the read -/
def rStart (E : Env F) (keys : List (Digest × Digest)) (sid : Digest) (choice rnd : Nat → UInt8) :
    RProc F × List (Msg F) :=
  match round1 E keys sid choice rnd with
  | .err => (.stop .err, [])
  | .panic => (.stop .panic, [])
  | .ok (r, m) => (.await2 r, [.first m])

/-- crypto/ot/extension/kos/stream.go:17-41 `ReceiverStreamCOtRun` (28-40): the read and what follows -/
def rRecv (E : Env F) : RProc F → Msg F → RProc F × List (Msg F)
  | .await2 r, .tau t => (.stop (round3 E r t), [])
  | .await2 _, _ => (.stop .err, [])
  | .stop res, _ => (.stop res, [])

/-- crypto/ot/extension/kos/stream.go:41-57 `SenderStreamCOtRun`: the read and what follows -/
def sRecv (E : Env F) (reg : Bool) (o : ReceiverOutput) (sid : Digest) (input : List (F × F)) :
    SProc F → Msg F → SProc F × List (Msg F)
  | .await1, .first m =>
    match round2 E o sid input m with
    | .err => (.stop .err, [])
    | .panic => (.stop .panic, [])
    | .ok (tA, t) => if reg then (.stop (.ok tA), [.tau t]) else (.stop .err, [])
  | .await1, _ => (.stop .err, [])
  | .stop res, _ => (.stop res, [])

/-! ### specification -/

structure Sys (F : Type) where
  snd : SProc F
  rcv : RProc F
  toS : List (Msg F)
  toR : List (Msg F)

/-- everything that does not change during a run: the two sides' seeds, sessions and inputs -/
structure Setup (F : Type) where
  keys : List (Digest × Digest)
  out : ReceiverOutput
  sidS : Digest
  sidR : Digest
  choice : Nat → UInt8
  rnd : Nat → UInt8
  input : List (F × F)
  reg : Bool

/-- one of the two reads the next message sent to it; a side that has returned reads nothing -/
inductive Step (E : Env F) (U : Setup F) : Sys F → Sys F → Prop
  | snd (q : RProc F) (m : Msg F) (x y : List (Msg F)) :
      Step E U ⟨.await1, q, m :: x, y⟩ ⟨(sRecv E U.reg U.out U.sidS U.input .await1 m).1, q, x,
        y ++ (sRecv E U.reg U.out U.sidS U.input .await1 m).2⟩
  | rcv (p : SProc F) (r : Receiver) (m : Msg F) (x y : List (Msg F)) :
      Step E U ⟨p, .await2 r, x, m :: y⟩ ⟨p, (rRecv E (.await2 r) m).1, x ++ (rRecv E (.await2 r) m).2, y⟩

abbrev Reaches (E : Env F) (U : Setup F) : Sys F → Sys F → Prop := Relation.ReflTransGen (Step E U)

def init (E : Env F) (U : Setup F) : Sys F :=
  ⟨.await1, (rStart E U.keys U.sidR U.choice U.rnd).1, (rStart E U.keys U.sidR U.choice U.rnd).2, []⟩

def Final (E : Env F) (U : Setup F) (x : Sys F) : Prop := ∀ y, ¬ Step E U x y

/-- all schedules from `x` end in `z` -/
def EndsIn (E : Env F) (U : Setup F) (x z : Sys F) : Prop :=
  Reaches E U x z ∧ Final E U z ∧ ∀ y, Reaches E U x y → Reaches E U y z

/-! ### lemmas -/

theorem final_of_empty {E : Env F} {U : Setup F} {p : SProc F} {q : RProc F} : Final E U ⟨p, q, [], []⟩ := by
  intro y h
  cases h

theorem endsIn_self {E : Env F} {U : Setup F} {x : Sys F} (h : Final E U x) : EndsIn E U x x := by
  refine ⟨.refl, h, fun y hy => ?_⟩
  rcases hy.cases_head with rfl | ⟨z, hz, -⟩
  · exact .refl
  · exact absurd hz (h z)

theorem endsIn_step {E : Env F} {U : Setup F} {x x' z : Sys F} (h : Step E U x x')
    (hu : ∀ y, Step E U x y → y = x') (hz : EndsIn E U x' z) : EndsIn E U x z := by
  refine ⟨.head h hz.1, hz.2.1, fun y hy => ?_⟩
  rcases hy.cases_head with rfl | ⟨w, hw, hwy⟩
  · exact .head h hz.1
  · rw [hu w hw] at hwy
    exact hz.2.2 y hwy

/-- the run from its second message on -/
theorem endsIn_first {E : Env F} {U : Setup F} {r : Receiver} {m : Round1Output}
    (h1 : round1 E U.keys U.sidR U.choice U.rnd = .ok (r, m)) {z : Sys F}
    (hz : EndsIn E U ⟨(sRecv E U.reg U.out U.sidS U.input .await1 (.first m)).1, .await2 r, [],
      (sRecv E U.reg U.out U.sidS U.input .await1 (.first m)).2⟩ z) : EndsIn E U (init E U) z := by
  have e0 : init E U = ⟨.await1, .await2 r, [.first m], []⟩ := by simp [init, rStart, h1]
  rw [e0]
  refine endsIn_step (.snd _ (.first m) [] []) ?_ hz
  intro y hy
  cases hy
  rfl

/-! ### the property -/

/-- **C125** Whatever the schedule, the two processes end as the three rounds called by hand: if the first two succeed, the
sender returns its shares, and the receiver what the third round gives on the sender's message. -/
theorem C125_as_rounds (E : Env F) (U : Setup F) (hreg : U.reg = true) (r : Receiver) (m : Round1Output)
    (tA t : List (F × F)) (h1 : round1 E U.keys U.sidR U.choice U.rnd = .ok (r, m))
    (h2 : round2 E U.out U.sidS U.input m = .ok (tA, t)) :
    EndsIn E U (init E U) ⟨.stop (.ok tA), .stop (round3 E r t), [], []⟩ := by
  refine endsIn_first h1 ?_
  rw [show sRecv E U.reg U.out U.sidS U.input .await1 (.first m) = (.stop (.ok tA), [.tau t]) by
    simp [sRecv, h2, hreg]]
  refine endsIn_step (.rcv _ r (.tau t) [] []) ?_ (endsIn_self final_of_empty)
  intro y hy
  cases hy
  rfl

/-- **C125** The honest case: seeds from an honest seed transfer, the same session on both sides, columns that decode.  All
schedules end with both sides successful, and for every index the two output shares add up to the sender's input if
the receiver chose it, and to zero otherwise. -/
theorem C125_honest (E : Env F) (U : Setup F) (hreg : U.reg = true) (h : Correlated 256 U.keys U.out)
    (hsid : U.sidS = U.sidR) (hin : U.input.length = 672)
    (hdec : ∀ zeta, Decodable E U.sidR (nablaOf U.out) zeta) :
    ∃ tA tB, EndsIn E U (init E U) ⟨.stop (.ok tA), .stop (.ok tB), [], []⟩ ∧
      tA.length = 672 ∧ tB.length = 672 ∧
      ∀ j < 672, ∃ a t b, U.input[j]? = some a ∧ tA[j]? = some t ∧ tB[j]? = some b ∧
        t + b = if vbit U.choice j then a else 0 := by
  obtain ⟨r, m, h1, h2, -, h4⟩ := C25_honest E U.keys U.out h U.sidR U.choice U.rnd U.input hin
  obtain ⟨tA, tau, tB, h5, h6⟩ := h2 (hdec _)
  refine ⟨tA, tB, ?_, h4 tA tau tB h5 h6⟩
  have := C125_as_rounds E U hreg r m tA tau h1 (by rw [hsid]; exact h5)
  rwa [h6] at this

/-- **C125** Against an arbitrary receiver: the sender sends something, or reports success, only if the first message it
read passed the consistency check of its round, and then its shares are those of the round. -/
theorem C125_sender_sound (E : Env F) (reg : Bool) (o : ReceiverOutput) (sid : Digest) (input : List (F × F))
    (m : Msg F) (out : List (Msg F)) (p : SProc F) (h : sRecv E reg o sid input .await1 m = (p, out))
    (hp : out ≠ [] ∨ ∃ tA, p = .stop (.ok tA)) :
    ∃ m1 tA t, m = .first m1 ∧ round2 E o sid input m1 = .ok (tA, t) ∧ p = .stop (.ok tA) ∧ out = [.tau t] := by
  cases m with
  | tau t =>
    simp only [sRecv, Prod.mk.injEq] at h
    obtain ⟨rfl, rfl⟩ := h
    simp at hp
  | first m1 =>
    rcases e : round2 E o sid input m1 with ⟨tA, t⟩ | _ | _
    · cases reg with
      | false =>
        simp only [sRecv, e, Bool.false_eq_true, if_false, Prod.mk.injEq] at h
        obtain ⟨rfl, rfl⟩ := h
        simp at hp
      | true =>
        simp only [sRecv, e, if_true, Prod.mk.injEq] at h
        obtain ⟨rfl, rfl⟩ := h
        exact ⟨m1, tA, t, rfl, e, rfl, rfl⟩
    · simp only [sRecv, e, Prod.mk.injEq] at h
      obtain ⟨rfl, rfl⟩ := h
      simp at hp
    · simp only [sRecv, e, Prod.mk.injEq] at h
      obtain ⟨rfl, rfl⟩ := h
      simp at hp

/-- **C125** A tampered check value: the sender refuses every first message that differs from an accepted one in `V'`
only; nothing is sent back. -/
theorem C125_tampered (E : Env F) (U : Setup F) (h : Correlated 256 U.keys U.out) (A : Mat) (W V V' : Digest)
    (x : List (F × F) × List (F × F)) (hok : round2 E U.out U.sidS U.input ⟨A, W, V⟩ = .ok x) (hne : V' ≠ V) :
    sRecv E U.reg U.out U.sidS U.input .await1 (.first ⟨A, W, V'⟩) = (.stop .err, []) := by
  simp [sRecv, C25_tampered_check_value E U.keys U.out h U.sidS U.input A W V V' x hok hne]

/-- **C125** Negated: a sender that refuses tells the receiver nothing; all schedules end with the receiver reading an empty
stream for ever. -/
theorem C125_peer_waits_violated (E : Env F) (U : Setup F) (r : Receiver) (m : Round1Output)
    (h1 : round1 E U.keys U.sidR U.choice U.rnd = .ok (r, m)) (h2 : round2 E U.out U.sidS U.input m = .err) :
    EndsIn E U (init E U) ⟨.stop .err, .await2 r, [], []⟩ := by
  refine endsIn_first h1 ?_
  rw [show sRecv E U.reg U.out U.sidS U.input .await1 (.first m) = (.stop .err, []) by simp [sRecv, h2]]
  exact endsIn_self final_of_empty

/-- **C125** Negated: nothing here registers the type of the scalars, so in a process in which nothing else has (as the seed
transfer over a stream does for K-256) the sender, having done its work, fails, and the receiver waits for ever. -/
theorem C125_unregistered_violated (E : Env F) (U : Setup F) (hreg : U.reg = false) (r : Receiver) (m : Round1Output)
    (tA t : List (F × F)) (h1 : round1 E U.keys U.sidR U.choice U.rnd = .ok (r, m))
    (h2 : round2 E U.out U.sidS U.input m = .ok (tA, t)) :
    EndsIn E U (init E U) ⟨.stop .err, .await2 r, [], []⟩ := by
  refine endsIn_first h1 ?_
  rw [show sRecv E U.reg U.out U.sidS U.input .await1 (.first m) = (.stop .err, []) by simp [sRecv, h2, hreg]]
  exact endsIn_self final_of_empty

/-! ### a concrete case -/

local instance fact257 : Fact (Nat.Prime 257) := ⟨by norm_num⟩

@[irreducible] def toyInput (n : Nat) : List (ZMod 257 × ZMod 257) := (List.range n).map fun (i : Nat) => (((i : Nat) : ZMod 257), 2)

theorem toyInput_length (n : Nat) : (toyInput n).length = n := by
  unfold toyInput
  rw [List.length_map, List.length_range]

def toySetup (reg : Bool) : Setup (ZMod 257) where
  keys := toyKeys
  out := toyOut
  sidS := fun _ => 1
  sidR := fun _ => 1
  choice := fun i => UInt8.ofNat i
  rnd := fun _ => 7
  input := toyInput 672
  reg := reg

theorem toySetup_input (reg : Bool) : (toySetup reg).input = toyInput 672 := rfl

example : ∃ tA tB, EndsIn toy (toySetup true) (init toy (toySetup true)) ⟨.stop (.ok tA), .stop (.ok tB), [], []⟩ := by
  obtain ⟨tA, tB, h, -⟩ := C125_honest toy (toySetup true) rfl toy_correlated rfl
    (by rw [toySetup_input]; exact toyInput_length 672)
    (fun zeta => toy_decodable _ _ zeta)
  exact ⟨tA, tB, h⟩

end Verif.OT.Kos.Stream
