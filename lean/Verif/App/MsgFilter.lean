/-
Model of `app/decorators/msg_filter_template.go` and its properties (C45).

A message is known to the filter only through its registered protobuf name and, for an authz exec
message, through the messages packed inside it.  The transaction, the context and what the next
handler does (including its effects) are arbitrary.
-/

set_option linter.unusedSectionVars false

namespace Verif.App.MsgFilter

/-- A transaction message as the filter sees it (`sdk.Msg`, used at
app/decorators/msg_filter_template.go:37-57).  `plain n` is any message registered under the name `n`;
`exec inner` is an `*authz.MsgExec`, whose packed messages either unpack (`some m`) or do not (`none`).
Simplified: the remaining fields of a message play no role in the filter. -/
inductive Msg where
  | plain (name : String)
  | exec (inner : List (Option Msg))

/-- `proto.MessageName` of a message (used at app/decorators/msg_filter_template.go:51). -/
def messageName : Msg → String
  | .plain n => n
  | .exec _ => "cosmos.authz.v1beta1.MsgExec"

/-- `execMsg.GetMessages()` (used at app/decorators/msg_filter_template.go:41): the unpacked inner
messages, or an error if one of them does not unpack. -/
def getMessages : List (Option Msg) → Option (List Msg)
  | [] => some []
  | none :: _ => none
  | some m :: rest => match getMessages rest with
    | none => none
    | some ms => some (m :: ms)

theorem getMessages_size (inner : List (Option Msg)) : ∀ ms, getMessages inner = some ms → sizeOf ms ≤ sizeOf inner := by
  induction inner with
  | nil => intro ms h; simp only [getMessages, Option.some.injEq] at h; subst h; simp
  | cons o rest ih =>
    intro ms h
    cases o with
    | none => simp [getMessages] at h
    | some m =>
      simp only [getMessages] at h
      cases hr : getMessages rest with
      | none => rw [hr] at h; simp at h
      | some ms' =>
        rw [hr] at h
        simp only [Option.some.injEq] at h
        subst h
        have := ih ms' hr
        simp only [List.cons.sizeOf_spec, Option.some.sizeOf_spec]
        omega

/-- `HasDisallowedMessage` (app/decorators/msg_filter_template.go:37-59).  `blocked` are the names of
`mfd.blockedTypes`. -/
def hasDisallowed (blocked : List String) : List Msg → Bool
  | [] => false
  | .exec inner :: rest =>
    match _h : getMessages inner with
    | none => true
    | some ms =>
      if hasDisallowed blocked ms then true
      else if blocked.any (fun b => messageName (.exec inner) == b) then true
      else hasDisallowed blocked rest
  | .plain name :: rest =>
    if blocked.any (fun b => messageName (.plain name) == b) then true
    else hasDisallowed blocked rest
termination_by msgs => sizeOf msgs
decreasing_by
  · have := getMessages_size inner ms _h
    simp only [List.cons.sizeOf_spec, Msg.exec.sizeOf_spec]
    omega
  · simp only [List.cons.sizeOf_spec, Msg.exec.sizeOf_spec]; omega
  · simp only [List.cons.sizeOf_spec, Msg.plain.sizeOf_spec]; omega

/-- What `AnteHandle` reports when it rejects (app/decorators/msg_filter_template.go:31). -/
structure Rejection where
  height : Int
deriving DecidableEq

/-- `AnteHandle` (app/decorators/msg_filter_template.go:28-35).  `next` runs in an arbitrary monad, so
whatever it does (state, events, gas) is its own; `getMsgs` is `tx.GetMsgs`, `height` is
`ctx.BlockHeight`. -/
def anteHandle {m : Type → Type} [Monad m] {Ctx Tx Err : Type} (blocked : List String)
    (getMsgs : Tx → List Msg) (height : Ctx → Int) (reject : Rejection → Err)
    (next : Ctx → Tx → Bool → m (Ctx × Option Err)) (ctx : Ctx) (tx : Tx) (simulate : Bool) : m (Ctx × Option Err) :=
  if hasDisallowed blocked (getMsgs tx) then pure (ctx, some (reject ⟨height ctx⟩))
  else next ctx tx simulate

/-! ## Specification -/

/-- `m` occurs in the list `msgs`, directly or inside any depth of exec wrapping. -/
inductive Occurs : List Msg → Msg → Prop
  | direct {msgs m} (h : m ∈ msgs) : Occurs msgs m
  | inside {msgs inner m sub} (h : Occurs msgs (.exec inner)) (hs : some sub ∈ inner) (e : m = sub) : Occurs msgs m

/-- Some exec message, at any depth, carries a message that does not unpack. -/
def Malformed (msgs : List Msg) : Prop := ∃ inner, Occurs msgs (.exec inner) ∧ none ∈ inner

/-! ## Proofs -/

theorem getMessages_none (inner : List (Option Msg)) : getMessages inner = none ↔ none ∈ inner := by
  induction inner with
  | nil => simp [getMessages]
  | cons o rest ih =>
    cases o with
    | none => simp [getMessages]
    | some m =>
      simp only [getMessages, List.mem_cons, reduceCtorEq, false_or]
      rw [← ih]
      cases getMessages rest <;> simp

theorem getMessages_mem (inner : List (Option Msg)) : ∀ ms, getMessages inner = some ms → ∀ m, m ∈ ms ↔ some m ∈ inner := by
  induction inner with
  | nil => intro ms h m; simp only [getMessages, Option.some.injEq] at h; subst h; simp
  | cons o rest ih =>
    intro ms h m
    cases o with
    | none => simp [getMessages] at h
    | some m0 =>
      simp only [getMessages] at h
      cases hr : getMessages rest with
      | none => rw [hr] at h; simp at h
      | some ms' =>
        rw [hr] at h
        simp only [Option.some.injEq] at h
        subst h
        rw [List.mem_cons, List.mem_cons, ih ms' hr m, Option.some.injEq]

theorem Occurs.mono {xs ys : List Msg} (h : ∀ m ∈ xs, Occurs ys m) {m : Msg} (ho : Occurs xs m) : Occurs ys m := by
  induction ho with
  | direct hm => exact h _ hm
  | inside _ hs e ih => exact .inside ih hs e

theorem occurs_cons (m : Msg) (rest : List Msg) (x : Msg) :
    Occurs (m :: rest) x ↔ Occurs [m] x ∨ Occurs rest x := by
  constructor
  · intro h
    induction h with
    | direct hm =>
      rcases List.mem_cons.mp hm with e | e
      · exact .inl (.direct (by rw [e]; simp))
      · exact .inr (.direct e)
    | inside _ hs e ih =>
      rcases ih with ih | ih
      · exact .inl (.inside ih hs e)
      · exact .inr (.inside ih hs e)
  · rintro (h | h)
    · exact h.mono (fun m hm => .direct (by rw [List.mem_singleton.mp hm]; simp))
    · exact h.mono (fun m hm => .direct (List.mem_cons_of_mem _ hm))

theorem occurs_plain (n : String) (x : Msg) : Occurs [.plain n] x ↔ x = .plain n := by
  constructor
  · intro h
    induction h with
    | direct hm => exact List.mem_singleton.mp hm
    | inside _ _ _ ih => cases ih
  · rintro rfl; exact .direct (by simp)

theorem occurs_exec (inner : List (Option Msg)) (ms : List Msg) (h : ∀ m, m ∈ ms ↔ some m ∈ inner) (x : Msg) :
    Occurs [.exec inner] x ↔ x = .exec inner ∨ Occurs ms x := by
  constructor
  · intro ho
    induction ho with
    | direct hm => exact .inl (List.mem_singleton.mp hm)
    | inside _ hs e ih =>
      subst e
      rcases ih with ih | ih
      · injection ih with ih; subst ih
        exact .inr (.direct ((h _).mpr hs))
      · exact .inr (.inside ih hs rfl)
  · rintro (rfl | ho)
    · exact .direct (by simp)
    · exact ho.mono (fun m hm => .inside (.direct (by simp)) ((h m).mp hm) rfl)

/-- **C45** the filter fires exactly when some message, directly or at any depth of exec wrapping, has
a blocked type, or some exec message at any depth cannot be unpacked. -/
theorem C45_filter_iff (blocked : List String) (msgs : List Msg) :
    hasDisallowed blocked msgs = true ↔
      (∃ m, Occurs msgs m ∧ messageName m ∈ blocked) ∨ Malformed msgs := by
  generalize hn : sizeOf msgs = n
  induction n using Nat.strongRecOn generalizing msgs with
  | _ n ih =>
    cases msgs with
    | nil =>
      rw [hasDisallowed]
      have no : ∀ m, ¬ Occurs [] m := by
        intro m h
        generalize hx : ([] : List Msg) = l at h
        induction h with
        | direct hm => subst hx; simp at hm
        | inside _ _ _ ih => exact ih
      simp [no, Malformed]
    | cons m rest =>
      have hrest : sizeOf rest < n := by rw [← hn]; simp only [List.cons.sizeOf_spec]; omega
      have h2 := ih _ hrest rest rfl
      have hb : (blocked.any (fun b => messageName m == b)) = true ↔ messageName m ∈ blocked := by
        rw [List.any_eq_true]
        constructor
        · rintro ⟨x, hx, e⟩; rw [eq_of_beq e]; exact hx
        · intro hx; exact ⟨_, hx, by simp⟩
      have hM : Malformed (m :: rest) ↔ Malformed [m] ∨ Malformed rest := by
        unfold Malformed
        constructor
        · rintro ⟨inner, ho, hi⟩
          rcases (occurs_cons m rest _).mp ho with h | h
          · exact .inl ⟨inner, h, hi⟩
          · exact .inr ⟨inner, h, hi⟩
        · rintro (⟨inner, ho, hi⟩ | ⟨inner, ho, hi⟩)
          · exact ⟨inner, (occurs_cons m rest _).mpr (.inl ho), hi⟩
          · exact ⟨inner, (occurs_cons m rest _).mpr (.inr ho), hi⟩
      have hE : (∃ x, Occurs (m :: rest) x ∧ messageName x ∈ blocked) ↔
          (∃ x, Occurs [m] x ∧ messageName x ∈ blocked) ∨ ∃ x, Occurs rest x ∧ messageName x ∈ blocked := by
        constructor
        · rintro ⟨x, ho, hx⟩
          rcases (occurs_cons m rest _).mp ho with h | h
          · exact .inl ⟨x, h, hx⟩
          · exact .inr ⟨x, h, hx⟩
        · rintro (⟨x, ho, hx⟩ | ⟨x, ho, hx⟩)
          · exact ⟨x, (occurs_cons m rest _).mpr (.inl ho), hx⟩
          · exact ⟨x, (occurs_cons m rest _).mpr (.inr ho), hx⟩
      rw [hM, hE]
      cases m with
      | plain name =>
        rw [hasDisallowed]
        have e1 : (∃ x, Occurs [.plain name] x ∧ messageName x ∈ blocked) ↔ messageName (.plain name) ∈ blocked := by
          constructor
          · rintro ⟨x, ho, hx⟩; rw [(occurs_plain name x).mp ho] at hx; exact hx
          · intro hx; exact ⟨_, .direct (by simp), hx⟩
        have e2 : ¬ Malformed [.plain name] := by
          rintro ⟨inner, ho, -⟩; cases (occurs_plain name _).mp ho
        by_cases hx : messageName (.plain name) ∈ blocked
        · rw [if_pos (hb.mpr hx)]; simp [e1, hx]
        · rw [if_neg (by rw [hb]; exact hx), h2, e1]
          constructor
          · rintro (h | h)
            · exact .inl (.inr h)
            · exact .inr (.inr h)
          · rintro ((h | h) | (h | h))
            · exact absurd h hx
            · exact .inl h
            · exact absurd h e2
            · exact .inr h
      | exec inner =>
        rw [hasDisallowed]
        cases hg : getMessages inner with
        | none =>
          have : Malformed [.exec inner] := ⟨inner, .direct (by simp), (getMessages_none inner).mp hg⟩
          simp [this]
        | some ms =>
          have hmem := getMessages_mem inner ms hg
          have hsz : sizeOf ms < n := by
            have := getMessages_size inner ms hg
            rw [← hn]
            simp only [List.cons.sizeOf_spec, Msg.exec.sizeOf_spec]
            omega
          have h1 := ih _ hsz ms rfl
          have e1 : (∃ x, Occurs [.exec inner] x ∧ messageName x ∈ blocked) ↔
              messageName (.exec inner) ∈ blocked ∨ ∃ x, Occurs ms x ∧ messageName x ∈ blocked := by
            constructor
            · rintro ⟨x, ho, hx⟩
              rcases (occurs_exec inner ms hmem x).mp ho with e | h
              · rw [e] at hx; exact .inl hx
              · exact .inr ⟨x, h, hx⟩
            · rintro (hx | ⟨x, ho, hx⟩)
              · exact ⟨_, .direct (by simp), hx⟩
              · exact ⟨x, (occurs_exec inner ms hmem x).mpr (.inr ho), hx⟩
          have e2 : Malformed [.exec inner] ↔ Malformed ms := by
            constructor
            · rintro ⟨i, ho, hi⟩
              rcases (occurs_exec inner ms hmem _).mp ho with e | h
              · injection e with e; subst e
                rw [(getMessages_none i).mpr hi] at hg; cases hg
              · exact ⟨i, h, hi⟩
            · rintro ⟨i, ho, hi⟩
              exact ⟨i, (occurs_exec inner ms hmem _).mpr (.inr ho), hi⟩
          rw [e1, e2]
          split
          · rename_i h0; cases h0
          rename_i ms' h0
          injection h0 with h0; subst h0
          by_cases hd : hasDisallowed blocked ms = true
          · rw [if_pos hd]
            rcases h1.mp hd with h | h
            · simp [h]
            · simp [h]
          · rw [if_neg hd]
            have hnd := (not_congr h1).mp hd
            by_cases hx : messageName (.exec inner) ∈ blocked
            · rw [if_pos (hb.mpr hx)]; simp [hx]
            · rw [if_neg (by rw [hb]; exact hx), h2]
              constructor
              · rintro (h | h)
                · exact .inl (.inr h)
                · exact .inr (.inr h)
              · rintro (((h | h) | h) | (h | h))
                · exact absurd h hx
                · exact absurd (.inl h) hnd
                · exact .inl h
                · exact absurd (.inr h) hnd
                · exact .inr h

section
variable {m : Type → Type} [Monad m] {Ctx Tx Err : Type} (blocked : List String)
    (getMsgs : Tx → List Msg) (height : Ctx → Int) (reject : Rejection → Err)
    (next : Ctx → Tx → Bool → m (Ctx × Option Err)) (ctx : Ctx) (tx : Tx) (simulate : Bool)

/-- **C45** a transaction with a blocked message at any depth is rejected with the current height, in
the unchanged context, and the next handler is not run: the result does not depend on it and has no
effect in whatever monad it lives in. -/
theorem C45_blocked_rejected (x : Msg) (ho : Occurs (getMsgs tx) x) (hx : messageName x ∈ blocked) :
    anteHandle blocked getMsgs height reject next ctx tx simulate = pure (ctx, some (reject ⟨height ctx⟩)) := by
  unfold anteHandle
  rw [if_pos ((C45_filter_iff _ _).mpr (.inl ⟨x, ho, hx⟩))]

/-- **C45** an exec message that cannot be unpacked is rejected too, at any depth. -/
theorem C45_malformed_rejected (h : Malformed (getMsgs tx)) :
    anteHandle blocked getMsgs height reject next ctx tx simulate = pure (ctx, some (reject ⟨height ctx⟩)) := by
  unfold anteHandle
  rw [if_pos ((C45_filter_iff _ _).mpr (.inr h))]

/-- **C45** every other transaction is passed on unchanged. -/
theorem C45_clean_passed (h : ∀ x, Occurs (getMsgs tx) x → messageName x ∉ blocked) (hm : ¬ Malformed (getMsgs tx)) :
    anteHandle blocked getMsgs height reject next ctx tx simulate = next ctx tx simulate := by
  unfold anteHandle
  rw [if_neg]
  intro hd
  rcases (C45_filter_iff _ _).mp hd with ⟨x, ho, hx⟩ | h'
  · exact h x ho hx
  · exact hm h'

end

/-! ## The hypotheses are met -/

/-- a blocked message wrapped twice -/
def wrapped : List Msg := [.plain "a", .exec [some (.plain "b"), some (.exec [some (.plain "bank.MsgSend")])]]

example : Occurs wrapped (.plain "bank.MsgSend") :=
  .inside (inner := [some (.plain "bank.MsgSend")])
    (.inside (inner := [some (.plain "b"), some (.exec [some (.plain "bank.MsgSend")])])
      (.direct (by simp [wrapped])) (by simp) rfl) (by simp) rfl

example : hasDisallowed ["bank.MsgSend"] wrapped = true ∧ hasDisallowed ["other"] wrapped = false ∧
    hasDisallowed ["other"] [.exec [none]] = true ∧ hasDisallowed [] wrapped = false := by
  refine ⟨?_, ?_, ?_, ?_⟩ <;> simp [wrapped, hasDisallowed, getMessages, messageName]

example : ∃ tx : List Msg, (∀ x, Occurs tx x → messageName x ∉ ["bank.MsgSend"]) ∧ ¬ Malformed tx ∧ tx ≠ [] := by
  refine ⟨[.plain "a"], ?_, ?_, by simp⟩
  · intro x hx; rw [(occurs_plain "a" x).mp hx]; decide
  · rintro ⟨i, ho, -⟩; cases (occurs_plain "a" _).mp ho

end Verif.App.MsgFilter
