import Verif.Mpc.Wire
import Verif.Base.Tactics

/-! # Property C121: the messages of the two-party ECDSA protocols on the wire -/

namespace Verif.Mpc.Wire
open Verif

/-! ### specification -/

/-- What `encoding/gob` does: what an encoder writes a decoder of the same Go type reads back; a value holding
interface values can neither be written nor read before the concrete types are registered, everything else always
can; an empty buffer is never a value. -/
structure IsGob {Body : Kind → Type} (L : Gob Body) : Prop where
  writes : ∀ r k x, (r = true ∨ k.hasInterface = false) → ∃ b, L.enc r k x = some b
  reads : ∀ r r' k x b, (r' = true ∨ k.hasInterface = false) → L.enc r k x = some b → L.dec r' k b = some x
  unregisteredW : ∀ k x, k.hasInterface = true → L.enc false k x = none
  unregisteredR : ∀ r k x b, k.hasInterface = true → L.enc r k x = some b → L.dec false k b = none
  empty : ∀ r k, L.dec r k [] = none

/-- which decoder the protocol feeds with the message of which encoder -/
def Dec.source : Dec → Enc
  | .dkg2 => .dkg1 | .dkg3 => .dkg2 | .dkg4 => .dkg3 | .dkg5 => .dkg4 | .dkg6 => .dkg5 | .dkg7 => .dkg6
  | .dkg8 => .dkg7 | .dkg9 => .dkg8 | .dkg10 => .dkg9 | .dkgAlice => .dkgAlice | .dkgBob => .dkgBob
  | .sign2 => .sign1 | .sign3 => .sign2 | .sign4 => .sign3 | .signature => .signature
  | .refresh2 => .refresh1 | .refresh3 => .refresh2 | .refresh4 => .refresh3 | .refresh5 => .refresh4
  | .refresh6 => .refresh5 | .refresh7 => .refresh6 | .refreshAlice => .refreshAlice | .refreshBob => .refreshBob

/-- the functions of key refresh -/
def Dec.ofRefresh (d : Dec) : Bool := d.source.protocol == dkls18Refresh

/-- the type a decoder returns is the one its source encodes -/
theorem kind_source (d : Dec) : d.source.kind = d.kind := by cases d <;> rfl

variable {Body : Kind → Type} {L : Gob Body}

theorem encode_ok_iff (e : Enc) (reg : Bool) (x : Body e.kind) (v : Nat) (m : Message) :
    (encode L e reg x v).2 = .ok m ↔ e.supported v = true ∧
      ∃ b, L.enc (reg || e.registers) e.kind x = some b ∧ m = newMessage e.protocol b e.round v := by
  unfold encode
  cases e.supported v
  · simp
  · cases h : L.enc (reg || e.registers) e.kind x with
    | none => simp [h]
    | some b => simp [h, eq_comm]

theorem decode_ok_iff (d : Dec) (reg : Bool) (m : Message) (x : Body d.kind) :
    (decode L d reg (some m)).2 = .ok x ↔ d.supported m.version = true ∧
      L.dec (reg || d.registers) d.kind (m.payloads payloadKey) = some x := by
  unfold decode
  cases hs : d.supported m.version
  · simp [hs]
  · cases h : L.dec (reg || d.registers) d.kind (m.payloads payloadKey) with
    | none => simp [hs, h]
    | some b => simp [hs, h]

theorem decode_some (d : Dec) (reg : Bool) (m : Message) (hs : d.supported m.version = true) (x : Body d.kind)
    (h : L.dec (reg || d.registers) d.kind (m.payloads payloadKey) = some x) :
    decode L d reg (some m) = (reg || d.registers, .ok x) := by
  unfold decode
  simp [hs, h]

theorem decode_none (d : Dec) (reg : Bool) (m : Message) (hs : d.supported m.version = true)
    (h : L.dec (reg || d.registers) d.kind (m.payloads payloadKey) = none) :
    decode L d reg (some m) = (reg || d.registers, .err) := by
  unfold decode
  simp [hs, h]

theorem supported_iff (d : Dec) (v : Nat) :
    (d.supported v = true ↔ if d.ofRefresh then 200 ≤ v else v = 200) ∧
    (d.source.supported v = true ↔ if d.ofRefresh then 200 ≤ v else v = 200) := by
  have h1 : (versionIsSupported v = true ↔ 200 ≤ v) := by
    unfold versionIsSupported version1
    rw [Bool.not_eq_true', decide_eq_false_iff_not, not_lt]
  have h2 : (onlyVersion1 v = true ↔ v = 200) := by
    unfold onlyVersion1 version1
    exact beq_iff_eq
  cases d <;> first | exact ⟨h1, h1⟩ | exact ⟨h2, h2⟩

theorem payload_newMessage (p : String) (b : List UInt8) (r : String) (v : Nat) :
    (newMessage p b r v).payloads payloadKey = b := by
  simp [newMessage]

theorem round_newMessage (p : String) (b : List UInt8) (r : String) (v : Nat) :
    (newMessage p b r v).metadata "round" = r := by
  simp [newMessage]

theorem dec_cast {r : Bool} {k k' : Kind} (h : k = k') (x : Body k) (b : List UInt8) (hd : L.dec r k b = some x) :
    L.dec r k' b = some (h ▸ x) := by
  subst h
  exact hd

/-! ### theorems -/

/-- **C121** Every message round-trips: in processes where the types are registered, for every decoder, every value of
the type its peer encodes and version 200, the peer's encoder produces a message, labelled with the protocol and the
round, and the decoder returns exactly the value. -/
theorem C121_roundtrip (hL : IsGob L) (d : Dec) (x : Body d.source.kind) :
    ∃ m, (encode L d.source true x 200).2 = .ok m ∧ m.version = 200 ∧ m.protocol = d.source.protocol ∧
      m.metadata "round" = d.source.round ∧ (decode L d true (some m)).2 = .ok (kind_source d ▸ x) := by
  obtain ⟨b, hb⟩ := hL.writes true d.source.kind x (Or.inl rfl)
  have hs := supported_iff d 200
  have h1 : d.source.supported 200 = true := hs.2.2 (by split <;> simp)
  have h2 : d.supported 200 = true := hs.1.2 (by split <;> simp)
  refine ⟨newMessage d.source.protocol b d.source.round 200, ?_, rfl, rfl, round_newMessage _ _ _ _, ?_⟩
  · exact (encode_ok_iff _ _ _ _ _).2 ⟨h1, b, by rw [Bool.true_or]; exact hb, rfl⟩
  · refine (decode_ok_iff _ _ _ _).2 ⟨h2, ?_⟩
    rw [payload_newMessage, Bool.true_or]
    exact dec_cast (kind_source d) x b (hL.reads true true d.source.kind x b (Or.inl rfl) hb)

/-- **C121** The versions: key generation and signing encode and accept version 200 and no other.  -/
theorem C121_only_version_200 (d : Dec) (hd : d.ofRefresh = false) (reg : Bool) (v : Nat) (hv : v ≠ 200) :
    (∀ x : Body d.source.kind, (encode L d.source reg x v).2 = .err) ∧
    (∀ m : Message, m.version = v → (decode L d reg (some m)).2 = .err) := by
  have hs := supported_iff d v
  rw [hd] at hs
  have h1 : d.source.supported v = false := by
    rw [Bool.eq_false_iff]; exact fun h => hv (hs.2.1 h)
  have h2 : d.supported v = false := by
    rw [Bool.eq_false_iff]; exact fun h => hv (hs.1.1 h)
  constructor
  · intro x
    unfold encode
    rw [h1]; rfl
  · intro m hm
    unfold decode
    dsimp only
    rw [hm, h2]; rfl

/-- **C121** Negated: "only version 1 is supported" is what the refresh functions say when they refuse, but they encode
and decode every version from 200 on; for each of them, a message of any later version is accepted. -/
theorem C121_refresh_version_violated (hL : IsGob L) (d : Dec) (hd : d.ofRefresh = true) (v : Nat)
    (x : Body d.source.kind) :
    ((∃ m, (encode L d.source true x v).2 = .ok m ∧ m.version = v ∧ ∃ y, (decode L d true (some m)).2 = .ok y) ↔
      200 ≤ v) ∧
    (v < 200 → ∀ m : Message, m.version = v → ∀ reg, (decode L d reg (some m)).2 = .err) := by
  have hs := supported_iff d v
  rw [hd] at hs
  constructor
  · constructor
    · rintro ⟨m, hm, -, -⟩
      exact hs.2.1 ((encode_ok_iff _ _ _ _ _).1 hm).1
    · intro h
      obtain ⟨b, hb⟩ := hL.writes true d.source.kind x (Or.inl rfl)
      refine ⟨newMessage d.source.protocol b d.source.round v,
        (encode_ok_iff _ _ _ _ _).2 ⟨hs.2.2 h, b, by rw [Bool.true_or]; exact hb, rfl⟩, rfl, kind_source d ▸ x,
        (decode_ok_iff _ _ _ _).2 ⟨hs.1.2 h, ?_⟩⟩
      rw [payload_newMessage, Bool.true_or]
      exact dec_cast (kind_source d) x b (hL.reads true true d.source.kind x b (Or.inl rfl) hb)
  · intro hv m hm reg
    have h2 : d.supported v = false := by
      rw [Bool.eq_false_iff]; exact fun h => absurd (hs.1.1 h) (by simpa using hv)
    unfold decode
    dsimp only
    rw [hm, h2]; rfl

/-- **C121** Negated: the labels do not protect anything.  No decoder looks at the protocol or at the round: two
messages with the same version and the same payload are treated alike by every decoder. -/
theorem C121_labels_ignored_violated (d : Dec) (reg : Bool) (m m' : Message) (hv : m.version = m'.version)
    (hp : m.payloads "direct" = m'.payloads "direct") :
    decode L d reg (some m) = decode L d reg (some m') := by
  unfold decode
  dsimp only
  rw [hv, show m.payloads payloadKey = m'.payloads payloadKey from hp]

/-- **C121** Negated: a message of one round or one protocol is accepted in any other expecting the same Go type: for
every encoder and every decoder of the same type, version 200 messages are accepted.  In particular Bob's first proof
replayed as his third message, the choice bits of a refresh in a key generation, and the first message of a signing
session as the first message of a key generation. -/
theorem C121_cross_protocol_violated (hL : IsGob L) (e : Enc) (d : Dec) (hk : e.kind = d.kind) (x : Body e.kind) :
    ∃ m, (encode L e true x 200).2 = .ok m ∧ (decode L d true (some m)).2 = .ok (hk ▸ x) := by
  obtain ⟨b, hb⟩ := hL.writes true e.kind x (Or.inl rfl)
  have h1 : e.supported 200 = true := by cases e <;> rfl
  have h2 : d.supported 200 = true := by cases d <;> rfl
  refine ⟨newMessage e.protocol b e.round 200, ?_, ?_⟩
  · exact (encode_ok_iff _ _ _ _ _).2 ⟨h1, b, by rw [Bool.true_or]; exact hb, rfl⟩
  · refine (decode_ok_iff _ _ _ _).2 ⟨h2, ?_⟩
    rw [payload_newMessage, Bool.true_or]
    exact dec_cast hk x b (hL.reads true true e.kind x b (Or.inl rfl) hb)

/-- the three replays named above -/
theorem C121_replays_violated : Enc.dkg3.kind = Dec.dkg6.kind ∧ Enc.dkg3.round ≠ Dec.dkg6.source.round ∧
    Enc.refresh3.kind = Dec.dkg7.kind ∧ Enc.refresh3.protocol ≠ Dec.dkg7.source.protocol ∧
    Enc.sign1.kind = Dec.dkg2.kind ∧ Enc.sign1.protocol ≠ Dec.dkg2.source.protocol := by decide

/-- **C121** The labels identify the message: protocol and round of the messages of two different encoders differ. -/
theorem C121_labels_distinct (e e' : Enc) (h : e.protocol = e'.protocol ∧ e.round = e'.round) : e = e' := by
  cases e <;> cases e' <;> first | rfl | (exact absurd h (by decide))

/-- **C121** Malformed messages: a message without the payload is an error, for every decoder and process state; a nil
message is a panic. -/
theorem C121_malformed (hL : IsGob L) (d : Dec) (reg : Bool) :
    (∀ m : Message, m.payloads "direct" = [] → (decode L d reg (some m)).2 = .err) ∧
    (decode L d reg none).2 = .panic := by
  refine ⟨fun m hm => ?_, rfl⟩
  unfold decode
  dsimp only
  rw [show m.payloads payloadKey = [] from hm, hL.empty]
  split <;> rfl

/-! ### the registration in a process -/

theorem encode_fst (e : Enc) (reg : Bool) (x : Body e.kind) (v : Nat) :
    (encode L e reg x v).1 = (reg || (e.supported v && e.registers)) := by
  unfold encode
  cases e.supported v
  · simp
  · cases h : L.enc (reg || e.registers) e.kind x <;> simp [h]

theorem decode_fst (d : Dec) (reg : Bool) (m : Message) :
    (decode L d reg (some m)).1 = (reg || (d.supported m.version && d.registers)) := by
  unfold decode
  cases hs : d.supported m.version
  · simp [hs]
  · cases h : L.dec (reg || d.registers) d.kind (m.payloads payloadKey) <;> simp [hs, h]

theorem after_mono (reg : Bool) (c : Call Body) (h : reg = true) : c.after L reg = true := by
  subst h
  cases c with
  | enc e x v => exact (encode_fst e true x v).trans (Bool.true_or _)
  | dec d m =>
    cases m with
    | none => rfl
    | some m => exact (decode_fst d true m).trans (Bool.true_or _)

theorem foldl_mono (reg : Bool) (cs : List (Call Body)) (h : reg = true) :
    cs.foldl (fun r c => c.after L r) reg = true := by
  induction cs generalizing reg with
  | nil => exact h
  | cons c cs ih => exact ih _ (after_mono reg c h)

/-- the calls that register the types: Bob's first message of a key generation, Alice's first message of a refresh,
encoding any output, and decoding an output of *Alice* — each in a version it supports -/
def Call.registering : Call Body → Prop
  | .enc .dkg1 _ v | .enc .dkgAlice _ v | .enc .dkgBob _ v => v = 200
  | .enc .refresh1 _ v | .enc .refreshAlice _ v | .enc .refreshBob _ v => 200 ≤ v
  | .dec .dkgAlice (some m) => m.version = 200
  | .dec .refreshAlice (some m) => 200 ≤ m.version
  | _ => False

theorem versions (v : Nat) : (versionIsSupported v = true ↔ 200 ≤ v) ∧ (onlyVersion1 v = true ↔ v = 200) := by
  constructor
  · unfold versionIsSupported version1
    rw [Bool.not_eq_true', decide_eq_false_iff_not, not_lt]
  · unfold onlyVersion1 version1
    exact beq_iff_eq

theorem enc_registering (e : Enc) (x : Body e.kind) (v : Nat) :
    (e.supported v && e.registers) = true ↔ (Call.enc e x v).registering := by
  obtain ⟨h1, h2⟩ := versions v
  rw [Bool.and_eq_true]
  cases e <;> first
    | exact ⟨fun h => h1.1 h.1, fun h => ⟨h1.2 h, rfl⟩⟩
    | exact ⟨fun h => h2.1 h.1, fun h => ⟨h2.2 h, rfl⟩⟩
    | exact ⟨fun h => (by cases h.2), fun h => (by cases h)⟩

theorem dec_registering (d : Dec) (m : Message) :
    (d.supported m.version && d.registers) = true ↔ (Call.dec (Body := Body) d (some m)).registering := by
  obtain ⟨h1, h2⟩ := versions m.version
  rw [Bool.and_eq_true]
  cases d <;> first
    | exact ⟨fun h => h1.1 h.1, fun h => ⟨h1.2 h, rfl⟩⟩
    | exact ⟨fun h => h2.1 h.1, fun h => ⟨h2.2 h, rfl⟩⟩
    | exact ⟨fun h => (by cases h.2), fun h => (by cases h)⟩

/-- **C121** For every history of calls in a fresh process: the types are registered after it exactly if one of the
calls was, in a supported version, one of the functions that register them (first message of key generation or refresh;
encoding an output; decoding *Alice's* output). -/
theorem C121_registered_iff (cs : List (Call Body)) :
    cs.foldl (fun r c => c.after L r) false = true ↔ ∃ c ∈ cs, c.registering := by
  have key : ∀ (reg : Bool) (c : Call Body), c.after L reg = true ↔ reg = true ∨ c.registering := by
    intro reg c
    cases c with
    | enc e x v =>
      rw [← enc_registering, ← Bool.or_eq_true]
      exact (encode_fst e reg x v) ▸ Iff.rfl
    | dec d m =>
      cases m with
      | none =>
        have : ¬ (Call.dec (Body := Body) d none).registering := by cases d <;> exact id
        simp [Call.after, this, decode]
      | some m =>
        rw [← dec_registering, ← Bool.or_eq_true]
        exact (decode_fst d reg m) ▸ Iff.rfl
  have gen : ∀ reg : Bool, cs.foldl (fun r c => c.after L r) reg = true ↔
      reg = true ∨ ∃ c ∈ cs, c.registering := by
    induction cs with
    | nil => simp
    | cons c cs ih =>
      intro reg
      rw [List.foldl_cons, ih, key]
      simp [or_assoc]
  rw [gen]
  simp

/-- **C121** Negated: key generation does not work between two processes.  Alice's process, fresh, receives Bob's first
message, answers it, and receives his second message (round 3), encoded by him in a process where the types are
registered: she cannot decode it, and repeating the delivery any number of times does not help. -/
theorem C121_alice_fresh_process_violated (hL : IsGob L) (m1 : Option Message) (x2 : Body Enc.dkg2.kind) (v : Nat)
    (x3 : Body Enc.dkg3.kind) (m3 : Message) (h3 : (encode L .dkg3 true x3 v).2 = .ok m3) (n : Nat) :
    (decode L .dkg4 ((Call.dec .dkg2 m1 :: Call.enc .dkg2 x2 v :: List.replicate n (Call.dec .dkg4 (some m3))).foldl
      (fun r c => Call.after L r c) false) (some m3)).2 = .err := by
  have hf : (Call.dec .dkg2 m1 :: Call.enc .dkg2 x2 v :: List.replicate n (Call.dec .dkg4 (some m3))).foldl
      (fun r c => Call.after L r c) false = false := by
    rw [Bool.eq_false_iff]
    intro h
    obtain ⟨c, hc, hr⟩ := (C121_registered_iff _).1 h
    simp only [List.mem_cons, List.mem_replicate] at hc
    rcases hc with rfl | rfl | ⟨-, rfl⟩
    · cases m1 <;> exact hr
    · exact hr
    · exact hr
  rw [hf]
  obtain ⟨hv, b, hb, rfl⟩ := (encode_ok_iff _ _ _ _ _).1 h3
  rw [decode_none .dkg4 false (newMessage Enc.dkg3.protocol b Enc.dkg3.round v) hv
    (by rw [payload_newMessage]; exact hL.unregisteredR true .proof x3 b rfl hb)]

/-- **C121** Negated: Bob's stored output cannot be used after a restart: encoded in any process, a fresh process
returns an error when it decodes it (`DecodeBobDkgResult` and `DecodeBobRefreshResult` do not register the types), and
stays unregistered.  Alice's output is decoded in a fresh process. -/
theorem C121_bob_restart_violated (hL : IsGob L) (reg : Bool) (v : Nat) :
    (∀ (x : Body .bob) (m : Message), (encode L .dkgBob reg x v).2 = .ok m →
      decode L .dkgBob false (some m) = (false, .err)) ∧
    (∀ (x : Body .bob) (m : Message), (encode L .refreshBob reg x v).2 = .ok m →
      decode L .refreshBob false (some m) = (false, .err)) ∧
    (∀ (x : Body .alice) (m : Message), (encode L .dkgAlice reg x v).2 = .ok m →
      decode L .dkgAlice false (some m) = (true, .ok x)) ∧
    (∀ (x : Body .alice) (m : Message), (encode L .refreshAlice reg x v).2 = .ok m →
      decode L .refreshAlice false (some m) = (true, .ok x)) := by
  refine ⟨fun x m h => ?_, fun x m h => ?_, fun x m h => ?_, fun x m h => ?_⟩ <;>
    obtain ⟨hv, b, hb, rfl⟩ := (encode_ok_iff _ _ _ _ _).1 h
  · exact decode_none .dkgBob false (newMessage Enc.dkgBob.protocol b Enc.dkgBob.round v) hv
      (by rw [payload_newMessage]; exact hL.unregisteredR _ .bob x b rfl hb)
  · exact decode_none .refreshBob false (newMessage Enc.refreshBob.protocol b Enc.refreshBob.round v) hv
      (by rw [payload_newMessage]; exact hL.unregisteredR _ .bob x b rfl hb)
  · exact decode_some .dkgAlice false (newMessage Enc.dkgAlice.protocol b Enc.dkgAlice.round v) hv x
      (by rw [payload_newMessage]; exact hL.reads _ true .alice x b (Or.inl rfl) hb)
  · exact decode_some .refreshAlice false (newMessage Enc.refreshAlice.protocol b Enc.refreshAlice.round v) hv x
      (by rw [payload_newMessage]; exact hL.reads _ true .alice x b (Or.inl rfl) hb)

/-! ### a concrete library -/

/-- a toy library: every payload type is the natural numbers, written in unary after a type tag -/
def toyTag : Kind → UInt8
  | .digest => 0 | .dkgRound2 => 1 | .proof => 2 | .masked => 3 | .digests => 4 | .openings => 5 | .scalar => 6
  | .refreshRound2 => 7 | .signRound2 => 8 | .signRound3 => 9 | .signature => 10 | .alice => 11 | .bob => 12

def toyGob : Gob (fun _ => Nat) where
  enc r k x := if r || !k.hasInterface then some (toyTag k :: List.replicate x 1) else none
  dec r k b :=
    match b with
    | [] => none
    | t :: l => if (r || !k.hasInterface) ∧ t = toyTag k ∧ l = List.replicate l.length 1 then some l.length else none

theorem toyGob_is : IsGob toyGob where
  writes r k x h := by
    refine ⟨_, if_pos ?_⟩
    rcases h with h | h <;> simp [h]
  reads r r' k x b h hb := by
    unfold toyGob at hb ⊢
    dsimp only at hb ⊢
    split at hb
    · cases hb
      have : (r' || !k.hasInterface) = true := by rcases h with h | h <;> simp [h]
      simp [this]
    · cases hb
  unregisteredW k x h := by simp [toyGob, h]
  unregisteredR r k x b h hb := by
    unfold toyGob at hb ⊢
    dsimp only at hb ⊢
    split at hb
    · cases hb
      simp [h]
    · cases hb
  empty r k := rfl

example : ∃ m, (encode toyGob .dkg3 true (7 : Nat) 200).2 = .ok m ∧
    (decode toyGob .dkg6 true (some m)).2 = .ok (7 : Nat) :=
  C121_cross_protocol_violated toyGob_is .dkg3 .dkg6 rfl 7

example : ∃ m, (encode toyGob .dkgBob false (3 : Nat) 200).2 = .ok m ∧
    decode toyGob .dkgBob false (some m) = (false, .err) :=
  ⟨_, rfl, (C121_bob_restart_violated toyGob_is false 200).1 3 _ rfl⟩

end Verif.Mpc.Wire
