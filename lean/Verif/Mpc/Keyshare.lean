import Verif.Mpc.WireApi
import Mathlib.Data.Countable.Basic
import Mathlib.Data.Fintype.EquivFin
import Mathlib.Logic.Equiv.List

/-! Model of `/repo/crypto/kss/kss.go`, `val.go`, `usr.go` and property C126: keyshare sets, stored and loaded.

A keyshare is the encoded output of a party (`*protocol.Message`, Mpc/Wire.lean).  `encoding/json` is the parameter
`Json`: `json.Marshal` of a `*protocol.Message` (never an error: strings, a number and maps of these) and
`json.Unmarshal` into a fresh one.  `keyA`, `keyB` are the uncompressed public keys inside decoded outputs. -/

namespace Verif.Mpc.Keyshare
open Verif Verif.Mpc.Wire

variable {Body : Kind → Type}

/-- `json.Marshal(m)` and `json.Unmarshal(bz, &protocol.Message{})` -/
structure Json where
  enc : Option Message → List UInt8
  dec : List UInt8 → Option Message

/-- crypto/kss/kss.go:18-24 `keyshares` -/
structure Keyshares where
  val : Option Message
  usr : Option Message
  valBz : List UInt8
  usrBz : List UInt8

/-- crypto/kss/kss.go:42-57 `NewKeyshareSet` -/
def newKeyshareSet (J : Json) (aliceResult bobResult : Option Message) : Keyshares :=
  ⟨aliceResult, bobResult, J.enc aliceResult, J.enc bobResult⟩

/-- crypto/kss/kss.go:88-95 `ValidatorKeyshareFromBytes` -/
def validatorKeyshareFromBytes (J : Json) (bz : List UInt8) : Option (Option Message) :=
  match J.dec bz with
  | none => none
  | some m => some (some m)

/-- crypto/kss/kss.go:78-85 `UserKeyshareFromBytes` -/
def userKeyshareFromBytes (J : Json) (bz : List UInt8) : Option (Option Message) :=
  match J.dec bz with
  | none => none
  | some m => some (some m)

/-- crypto/kss/kss.go:60-75 `LoadKeyshareSet` -/
def loadKeyshareSet (J : Json) (valBz usrBz : List UInt8) : Option Keyshares :=
  match validatorKeyshareFromBytes J valBz with
  | none => none
  | some val =>
    match userKeyshareFromBytes J usrBz with
    | none => none
    | some usr => some ⟨val, usr, valBz, usrBz⟩

/-- crypto/kss/val.go:41-43 and usr.go:41-43 `Marshal` -/
def marshal (J : Json) (m : Option Message) : List UInt8 := J.enc m

/-- `if err != nil { panic(err) }` -/
def orPanic {α β : Type} (f : α → β) : Bool × Res α → Bool × Res β
  | (r, .ok x) => (r, .ok (f x))
  | (r, _) => (r, .panic)

/-- crypto/kss/val.go:66-76 `PublicKey` of the validator's keyshare -/
def valPublicKey (L : Gob Body) (keyA : Body .alice → List UInt8) (reg : Bool) (m : Option Message) :
    Bool × Res (List UInt8) :=
  orPanic keyA (decode L .dkgAlice reg m)

/-- crypto/kss/usr.go:66-76 `PublicKey` of the user's keyshare -/
def usrPublicKey (L : Gob Body) (keyB : Body .bob → List UInt8) (reg : Bool) (m : Option Message) :
    Bool × Res (List UInt8) :=
  orPanic keyB (decode L .dkgBob reg m)

/-- crypto/kss/val.go:46-53 `GetSignFunc` with `NewAliceSign` (crypto/tecdsa/dklsv1/boilerplate.go:212-239), up to the party
it makes, which is a function of the decoded output (the rounds are in Dkls/Sign.lean) -/
def valGetSignFunc {P : Type} (L : Gob Body) (newAlice : Body .alice → P) (reg : Bool) (m : Option Message) :
    Bool × Res P :=
  let (reg, r) := decode L .dkgAlice reg m
  (reg, r.bind fun x => .ok (newAlice x))

/-- crypto/kss/val.go:56-63 `GetRefreshFunc` with `NewAliceRefresh` (crypto/tecdsa/dklsv1/boilerplate.go:296-342) -/
def valGetRefreshFunc {P : Type} (L : Gob Body) (newAlice : Body .alice → P) (reg : Bool) (m : Option Message) :
    Bool × Res P :=
  let (reg, r) := decode L .dkgAlice reg m
  (reg, r.bind fun x => .ok (newAlice x))

/-- crypto/kss/usr.go:46-53 `GetSignFunc` with `NewBobSign` (crypto/tecdsa/dklsv1/boilerplate.go:243-274) -/
def usrGetSignFunc {P : Type} (L : Gob Body) (newBob : Body .bob → P) (reg : Bool) (m : Option Message) :
    Bool × Res P :=
  let (reg, r) := decode L .dkgBob reg m
  (reg, r.bind fun y => .ok (newBob y))

/-- crypto/kss/usr.go:56-63 `GetRefreshFunc` with `NewBobRefresh` (crypto/tecdsa/dklsv1/boilerplate.go:359-402) -/
def usrGetRefreshFunc {P : Type} (L : Gob Body) (newBob : Body .bob → P) (reg : Bool) (m : Option Message) :
    Bool × Res P :=
  let (reg, r) := decode L .dkgBob reg m
  (reg, r.bind fun y => .ok (newBob y))

/-- crypto/kss/kss.go:37-39 `PublicKey` of a set -/
def Keyshares.publicKey (L : Gob Body) (keyA : Body .alice → List UInt8) (reg : Bool) (s : Keyshares) :
    Bool × Res (List UInt8) :=
  valPublicKey L keyA reg s.val

/-! ### specification -/

/-- the empty message -/
def zeroMessage : Message := ⟨"", 0, fun _ => [], fun _ => ""⟩

/-- A message that exists in Go: its maps are finite. -/
def Storable (m : Message) : Prop :=
  ∃ (lp : List (String × List UInt8)) (lm : List (String × String)),
    m.payloads = (fun k => (lp.lookup k).getD []) ∧ m.metadata = (fun k => (lm.lookup k).getD "")

/-- What `encoding/json` does: what was written is read back; a nil pointer is written as `null`, which leaves the
fresh message as it is. (Strings are text here: Go replaces bytes that are not UTF-8.) -/
structure IsJson (J : Json) : Prop where
  roundtrip : ∀ m, Storable m → J.dec (J.enc (some m)) = some m
  null : J.dec (J.enc none) = some zeroMessage

/-- what the parties output can be stored -/
theorem storable_newMessage (p : String) (bz : List UInt8) (r : String) (v : Nat) : Storable (newMessage p bz r v) := by
  refine ⟨[(payloadKey, bz)], [("round", r)], ?_, ?_⟩ <;>
  · funext k
    simp only [newMessage, List.lookup]
    split
    · next h => subst h; simp
    · next h => simp [beq_false_of_ne h]

theorem storable_of_encode {L : Gob Body} {e : Enc} {reg : Bool} {x : Body e.kind} {v : Nat} {m : Message}
    (h : (encode L e reg x v).2 = .ok m) : Storable m := by
  obtain ⟨-, bz, -, rfl⟩ := (encode_ok_iff _ _ _ _ _).1 h
  exact storable_newMessage _ _ _ _

/-! ### the property -/

variable {L : Gob Body} {J : Json} (keyA : Body .alice → List UInt8) (keyB : Body .bob → List UInt8)

/-- **C126** A keyshare set survives being stored: loading the bytes of a set made of two outputs gives the same set, and so
do the bytes of its two keyshares. -/
theorem C126_roundtrip (hJ : IsJson J) (a b : Message) (sa : Storable a) (sb : Storable b) :
    loadKeyshareSet J (newKeyshareSet J (some a) (some b)).valBz (newKeyshareSet J (some a) (some b)).usrBz =
        some (newKeyshareSet J (some a) (some b)) ∧
      loadKeyshareSet J (marshal J (some a)) (marshal J (some b)) = some (newKeyshareSet J (some a) (some b)) := by
  have ha := hJ.roundtrip a sa
  have hb := hJ.roundtrip b sb
  constructor <;>
    simp [loadKeyshareSet, newKeyshareSet, marshal, validatorKeyshareFromBytes, userKeyshareFromBytes, ha, hb]

/-- **C126** Loading fails exactly if one of the two is not the JSON of a message, and what is loaded keeps the bytes. -/
theorem C126_load_iff (vb ub : List UInt8) (s : Keyshares) :
    loadKeyshareSet J vb ub = some s ↔
      ∃ a b, J.dec vb = some a ∧ J.dec ub = some b ∧ s = ⟨some a, some b, vb, ub⟩ := by
  unfold loadKeyshareSet validatorKeyshareFromBytes userKeyshareFromBytes
  cases h1 : J.dec vb with
  | none => simp
  | some a =>
    cases h2 : J.dec ub with
    | none => simp
    | some b => simp [eq_comm]

/-- **C126** The public key of a set is that of the validator's output, and it is available in every process, also right
after a restart; asking for it registers the types. -/
theorem C126_set_public_key (hL : IsGob L) (hJ : IsJson J) (reg reg' : Bool) (x : Body .alice) (a b : Message) (sb : Storable b)
    (ha : (encode L .dkgAlice reg x 200).2 = .ok a) :
    ∃ s, loadKeyshareSet J (J.enc (some a)) (J.enc (some b)) = some s ∧
      s.publicKey L keyA reg' = (true, .ok (keyA x)) := by
  refine ⟨_, (C126_roundtrip hJ a b (storable_of_encode ha) sb).2, ?_⟩
  obtain ⟨hv, bz, hb, rfl⟩ := (encode_ok_iff _ _ _ _ _).1 ha
  have : decode L .dkgAlice reg' (some (newMessage Enc.dkgAlice.protocol bz Enc.dkgAlice.round 200)) = (true, .ok x) := by
    have := decode_some (L := L) .dkgAlice reg' (newMessage Enc.dkgAlice.protocol bz Enc.dkgAlice.round 200) hv x
      (by rw [payload_newMessage, show (reg' || Dec.dkgAlice.registers) = true by cases reg' <;> rfl]
          exact hL.reads _ true .alice x bz (Or.inl rfl) hb)
    rwa [show (reg' || Dec.dkgAlice.registers) = true by cases reg' <;> rfl] at this
  unfold Keyshares.publicKey valPublicKey
  show orPanic keyA (decode L .dkgAlice reg' (some _)) = _
  rw [this]
  rfl

/-- **C126** The public key of the user's keyshare is that of the user's output in a process that has registered the types. -/
theorem C126_user_public_key (hL : IsGob L) (hJ : IsJson J) (reg : Bool) (y : Body .bob) (a b : Message) (sa : Storable a)
    (hb : (encode L .dkgBob reg y 200).2 = .ok b) :
    ∃ s, loadKeyshareSet J (J.enc (some a)) (J.enc (some b)) = some s ∧
      usrPublicKey L keyB true s.usr = (true, .ok (keyB y)) := by
  refine ⟨_, (C126_roundtrip hJ a b sa (storable_of_encode hb)).2, ?_⟩
  obtain ⟨hv, bz, hbz, rfl⟩ := (encode_ok_iff _ _ _ _ _).1 hb
  have := decode_some (L := L) .dkgBob true (newMessage Enc.dkgBob.protocol bz Enc.dkgBob.round 200) hv y
    (by rw [payload_newMessage]; exact hL.reads _ true .bob y bz (Or.inl rfl) hbz)
  unfold usrPublicKey
  show orPanic keyB (decode L .dkgBob true (some _)) = _
  rw [this]
  rfl

/-- **C126** Negated: after a restart the user's keyshare, stored and loaded, panics when asked for its public key, unless
something else (as the validator's keyshare) has registered the types before. -/
theorem C126_user_after_restart_violated (hL : IsGob L) (hJ : IsJson J) (reg : Bool) (y : Body .bob) (a b : Message) (sa : Storable a)
    (hb : (encode L .dkgBob reg y 200).2 = .ok b) :
    ∃ s, loadKeyshareSet J (J.enc (some a)) (J.enc (some b)) = some s ∧
      usrPublicKey L keyB false s.usr = (false, .panic) := by
  refine ⟨_, (C126_roundtrip hJ a b sa (storable_of_encode hb)).2, ?_⟩
  unfold usrPublicKey
  show orPanic keyB (decode L .dkgBob false (some b)) = _
  rw [(C121_bob_restart_violated hL reg 200).1 y b hb]
  rfl

/-- **C126** Negated: loading checks nothing about the messages.  Missing keyshares (`nil`, stored as `null`), and messages
without a payload or of another version, are loaded without an error, and the set panics when asked for its key. -/
theorem C126_unusable_loaded_violated (hL : IsGob L) (hJ : IsJson J) (reg : Bool) (b : Message) (sb : Storable b) :
    (∃ s, loadKeyshareSet J (J.enc none) (J.enc (some b)) = some s ∧ (s.publicKey L keyA reg).2 = .panic) ∧
    ∀ a : Message, Storable a → (a.version ≠ 200 ∨ a.payloads "direct" = []) →
      ∃ s, loadKeyshareSet J (J.enc (some a)) (J.enc (some b)) = some s ∧ (s.publicKey L keyA reg).2 = .panic := by
  have key : ∀ (a : Message), (decode L .dkgAlice reg (some a)).2 = .err →
      (valPublicKey L keyA reg (some a)).2 = .panic := by
    intro a h
    unfold valPublicKey
    rcases hd : decode L .dkgAlice reg (some a) with ⟨r, x | _ | _⟩
    · rw [hd] at h; cases h
    · rfl
    · rfl
  constructor
  · refine ⟨⟨some zeroMessage, some b, _, _⟩, (C126_load_iff _ _ _).2 ⟨_, _, hJ.null, hJ.roundtrip b sb, rfl⟩, ?_⟩
    exact key _ ((C121_malformed hL .dkgAlice reg).1 _ rfl)
  · intro a sa ha
    refine ⟨_, (C126_roundtrip hJ a b sa sb).2, key a ?_⟩
    rcases ha with h | h
    · exact (C121_only_version_200 .dkgAlice rfl reg a.version h).2 a rfl
    · exact (C121_malformed hL .dkgAlice reg).1 a h

/-- **C126** Negated: a set made in memory without one of the keyshares is made without an error, and asking it for its key
is a panic. -/
theorem C126_nil_accepted_violated (reg : Bool) (b : Option Message) :
    ((newKeyshareSet J none b).publicKey L keyA reg).2 = .panic := rfl

/-- **C126** Negated: nothing compares the two halves: any two stored keyshares, of whatever keys, are a set, whose key is
that of the first. -/
theorem C126_mixed_keys_violated (hL : IsGob L) (hJ : IsJson J) (x : Body .alice) (y : Body .bob) (a b : Message)
    (ha : (encode L .dkgAlice true x 200).2 = .ok a) (hb : (encode L .dkgBob true y 200).2 = .ok b)
    (hne : keyA x ≠ keyB y) :
    ∃ s, loadKeyshareSet J (J.enc (some a)) (J.enc (some b)) = some s ∧
      (s.publicKey L keyA true).2 ≠ (usrPublicKey L keyB true s.usr).2 := by
  obtain ⟨s, h1, h2⟩ := C126_set_public_key keyA hL hJ true true x a b (storable_of_encode hb) ha
  obtain ⟨s', h3, h4⟩ := C126_user_public_key keyB hL hJ true y a b (storable_of_encode ha) hb
  rw [h1] at h3
  cases h3
  refine ⟨s, h1, ?_⟩
  rw [h2, h4]
  exact fun h => hne (Res.ok.inj h)

/-- **C126** The validator's keyshare, stored and loaded, signs and refreshes in every process with exactly the output of the
key generation, also right after a restart. -/
theorem C126_val_functions {P : Type} (newAlice : Body .alice → P) (hL : IsGob L) (hJ : IsJson J) (reg reg' : Bool)
    (x : Body .alice) (a b : Message) (sb : Storable b) (ha : (encode L .dkgAlice reg x 200).2 = .ok a) :
    ∃ s, loadKeyshareSet J (J.enc (some a)) (J.enc (some b)) = some s ∧
      (valGetSignFunc L newAlice reg' s.val).2 = .ok (newAlice x) ∧
      (valGetRefreshFunc L newAlice reg' s.val).2 = .ok (newAlice x) := by
  obtain ⟨s, h1, h2⟩ := C126_set_public_key (fun _ => []) hL hJ reg reg' x a b sb ha
  refine ⟨s, h1, ?_⟩
  have hs : s.val = some a := by
    have h := (C126_roundtrip hJ a b (storable_of_encode ha) sb).2
    unfold marshal at h
    rw [h] at h1
    cases h1; rfl
  obtain ⟨hv, bz, hb, rfl⟩ := (encode_ok_iff _ _ _ _ _).1 ha
  have hd : decode L .dkgAlice reg' (some (newMessage Enc.dkgAlice.protocol bz Enc.dkgAlice.round 200)) = (true, .ok x) := by
    have := decode_some (L := L) .dkgAlice reg' (newMessage Enc.dkgAlice.protocol bz Enc.dkgAlice.round 200) hv x
      (by rw [payload_newMessage, show (reg' || Dec.dkgAlice.registers) = true by cases reg' <;> rfl]
          exact hL.reads _ true .alice x bz (Or.inl rfl) hb)
    rwa [show (reg' || Dec.dkgAlice.registers) = true by cases reg' <;> rfl] at this
  rw [hs]
  unfold valGetSignFunc valGetRefreshFunc
  rw [hd]
  exact ⟨rfl, rfl⟩

/-- **C126** The user's keyshare signs and refreshes with exactly the output of the key generation, in a process that has
registered the types. -/
theorem C126_usr_functions {P : Type} (newBob : Body .bob → P) (hL : IsGob L) (hJ : IsJson J) (reg : Bool)
    (y : Body .bob) (a b : Message) (sa : Storable a) (hb : (encode L .dkgBob reg y 200).2 = .ok b) :
    ∃ s, loadKeyshareSet J (J.enc (some a)) (J.enc (some b)) = some s ∧
      (usrGetSignFunc L newBob true s.usr).2 = .ok (newBob y) ∧
      (usrGetRefreshFunc L newBob true s.usr).2 = .ok (newBob y) := by
  refine ⟨_, (C126_roundtrip hJ a b sa (storable_of_encode hb)).2, ?_⟩
  obtain ⟨hv, bz, hbz, rfl⟩ := (encode_ok_iff _ _ _ _ _).1 hb
  have hd := decode_some (L := L) .dkgBob true (newMessage Enc.dkgBob.protocol bz Enc.dkgBob.round 200) hv y
    (by rw [payload_newMessage]; exact hL.reads _ true .bob y bz (Or.inl rfl) hbz)
  unfold usrGetSignFunc usrGetRefreshFunc
  show ((decode L .dkgBob true (some _)).2.bind _) = _ ∧ ((decode L .dkgBob true (some _)).2.bind _) = _
  rw [hd]
  exact ⟨rfl, rfl⟩

/-- **C126** Negated: after a restart the user can neither sign nor refresh with the stored keyshare (an error), unless
something else has registered the types before. -/
theorem C126_user_sign_after_restart_violated {P : Type} (newBob : Body .bob → P) (hL : IsGob L) (hJ : IsJson J)
    (reg : Bool) (y : Body .bob) (a b : Message) (sa : Storable a) (hb : (encode L .dkgBob reg y 200).2 = .ok b) :
    ∃ s, loadKeyshareSet J (J.enc (some a)) (J.enc (some b)) = some s ∧
      usrGetSignFunc L newBob false s.usr = (false, .err) ∧
      usrGetRefreshFunc L newBob false s.usr = (false, .err) := by
  refine ⟨_, (C126_roundtrip hJ a b sa (storable_of_encode hb)).2, ?_⟩
  have hd := (C121_bob_restart_violated hL reg 200).1 y b hb
  unfold usrGetSignFunc usrGetRefreshFunc
  show ((decode L .dkgBob false (some b)).1, (decode L .dkgBob false (some b)).2.bind _) = _ ∧
    ((decode L .dkgBob false (some b)).1, (decode L .dkgBob false (some b)).2.bind _) = _
  rw [hd]
  exact ⟨rfl, rfl⟩

/-- **C126** The result of a refresh is a keyshare too: the set loaded from refreshed outputs of version 200 has the refreshed
key, though the messages name another protocol. -/
theorem C126_refreshed (hL : IsGob L) (hJ : IsJson J) (reg reg' : Bool) (x : Body .alice) (a b : Message)
    (sb : Storable b) (ha : (encode L .refreshAlice reg x 200).2 = .ok a) :
    a.protocol = "DKLs18-Refresh" ∧
    ∃ s, loadKeyshareSet J (J.enc (some a)) (J.enc (some b)) = some s ∧
      s.publicKey L keyA reg' = (true, .ok (keyA x)) := by
  have sa := storable_of_encode ha
  obtain ⟨hv, bz, hb, rfl⟩ := (encode_ok_iff _ _ _ _ _).1 ha
  refine ⟨rfl, _, (C126_roundtrip hJ _ b sa sb).2, ?_⟩
  have hd : decode L .dkgAlice reg' (some (newMessage Enc.refreshAlice.protocol bz Enc.refreshAlice.round 200)) =
      (true, .ok x) := by
    have := decode_some (L := L) .dkgAlice reg' (newMessage Enc.refreshAlice.protocol bz Enc.refreshAlice.round 200)
      rfl x
      (by rw [payload_newMessage, show (reg' || Dec.dkgAlice.registers) = true by cases reg' <;> rfl]
          exact hL.reads _ true .alice x bz (Or.inl rfl) hb)
    rwa [show (reg' || Dec.dkgAlice.registers) = true by cases reg' <;> rfl] at this
  unfold Keyshares.publicKey valPublicKey
  show orPanic keyA (decode L .dkgAlice reg' (some _)) = _
  rw [hd]
  rfl

/-! ### a concrete case -/

/-- the hypotheses on the messages are met by the toy library -/
example : ∃ a b, (encode toyGob .dkgAlice false (7 : Nat) 200).2 = .ok a ∧
    (encode toyGob .dkgBob false (3 : Nat) 200).2 = .ok b :=
  ⟨_, _, rfl, rfl⟩

/-- The hypothesis on `encoding/json` is met: there are encodings that read back every message with finite maps. -/
theorem exists_isJson : ∃ J, IsJson J := by
  classical
  have hs : Countable String :=
    (show Function.Injective (fun s : String => s.toList.map Char.toNat) from fun a b h =>
      String.toList_injective (List.map_injective_iff.2 (fun c d h => Char.toNat_inj.1 h) h)).countable
  have hu : Countable UInt8 :=
    (show Function.Injective UInt8.toNat from fun a b h => UInt8.toNat_inj.1 h).countable
  obtain ⟨f, hf⟩ := exists_injective_nat
    (Option (String × Nat × List (String × List UInt8) × List (String × String)))
  let build : String × Nat × List (String × List UInt8) × List (String × String) → Message := fun q =>
    ⟨q.1, q.2.1, fun k => (q.2.2.1.lookup k).getD [], fun k => (q.2.2.2.lookup k).getD ""⟩
  let pick : Option Message → Option (String × Nat × List (String × List UInt8) × List (String × String)) := fun m =>
    m.bind fun m => if h : Storable m then some (m.protocol, m.version, h.choose, h.choose_spec.choose) else none
  refine ⟨⟨fun m => List.replicate (f (pick m)) 0, fun bz =>
    if h : ∃ q, f q = bz.length then some (h.choose.elim zeroMessage build) else none⟩, ?_, ?_⟩
  · intro m hm
    have h : ∃ q, f q = (List.replicate (f (pick (some m))) (0 : UInt8)).length := ⟨_, (List.length_replicate ..).symm⟩
    have hq : h.choose = pick (some m) := hf (by have := h.choose_spec; simpa using this)
    simp only [dif_pos h, hq]
    have h2 := hm.choose_spec.choose_spec
    simp only [pick, Option.bind_some, dif_pos hm, Option.elim, build]
    exact congrArg some (congr (congrArg (Message.mk m.protocol m.version) h2.1.symm) h2.2.symm)
  · have h : ∃ q, f q = (List.replicate (f (pick none)) (0 : UInt8)).length := ⟨_, (List.length_replicate ..).symm⟩
    have hq : h.choose = pick none := hf (by have := h.choose_spec; simpa using this)
    simp only [dif_pos h, hq]
    rfl

end Verif.Mpc.Keyshare
