import Verif.Mpc.Model
import Verif.Dkls.SignProps

/-! # Property C31: the protocol runner -/

set_option linter.unusedSectionVars false
set_option linter.unusedSimpArgs false

namespace Verif.Mpc
open Verif Verif.OT

/-! ### specification -/

/-- one turn of a party: it runs a step, or has none left and answers with the nil message -/
inductive Call (σ τ M : Type) where
  | first (f : Step σ M)
  | second (f : Step τ M)
  | idle

/-- the turns of a run: first party, second party, first party, … until neither has steps left -/
def calls {σ τ M : Type} : List (Step σ M) → List (Step τ M) → List (Call σ τ M)
  | [], [] => []
  | f :: fs, [] => .first f :: .idle :: calls fs []
  | [], s :: ss => .idle :: .second s :: calls [] ss
  | f :: fs, s :: ss => .first f :: .second s :: calls fs ss

/-- execute turns one after the other, each receiving the message produced by the one before; stop at the
first failure -/
def exec {σ τ M : Type} : List (Call σ τ M) → σ → τ → Option M → σ × τ × Verdict
  | [], a, b, _ => (a, b, .ok)
  | .idle :: cs, a, b, _ => exec cs a b none
  | .first f :: cs, a, b, m =>
    match f a m with
    | (a, .ok m) => exec cs a b m
    | (a, .panic) => (a, b, .panic)
    | (a, _) => (a, b, .errFirst)
  | .second f :: cs, a, b, m =>
    match f b m with
    | (b, .ok m) => exec cs a b m
    | (b, .panic) => (a, b, .panic)
    | (b, _) => (a, b, .errSecond)

/-- the steps never return the sentinel `ErrProtocolFinished` themselves -/
def NoSentinel {σ M : Type} (p : Party σ M) : Prop := ∀ f ∈ p.steps, ∀ s m, (f s m).2 ≠ .finished

section
variable {σ τ M : Type}

theorem next_cases (p : Party σ M) (m : Option M) :
    (p.complete = true ∧ p.next m = (p, .finished)) ∨
    (∃ f, p.complete = false ∧ p.steps[p.step]? = some f ∧
      ((∃ s m', f p.st m = (s, .ok m') ∧ p.next m = ({ p with st := s, step := p.step + 1 }, .ok m')) ∨
       (∃ s o, f p.st m = (s, o) ∧ (∀ m', o ≠ .ok m') ∧ p.next m = ({ p with st := s }, o)))) := by
  unfold Party.next
  cases hc : p.complete with
  | true => left; exact ⟨rfl, rfl⟩
  | false =>
    right
    have hl : p.step < p.steps.length := by
      unfold Party.complete at hc
      simpa using hc
    refine ⟨p.steps[p.step], rfl, List.getElem?_eq_getElem hl, ?_⟩
    rw [List.getElem?_eq_getElem hl]
    dsimp only
    rcases hf : p.steps[p.step] p.st m with ⟨s, o⟩
    cases o with
    | ok m' => left; exact ⟨s, m', rfl, rfl⟩
    | finished => right; exact ⟨s, _, rfl, by simp, rfl⟩
    | err => right; exact ⟨s, _, rfl, by simp, rfl⟩
    | panic => right; exact ⟨s, _, rfl, by simp, rfl⟩

theorem remaining_lt {p : Party σ M} (h : p.complete = false) (s : σ) :
    ({ p with st := s, step := p.step + 1 } : Party σ M).remaining + 1 = p.remaining := by
  unfold Party.complete at h
  have : p.step < p.steps.length := by simpa using h
  unfold Party.remaining
  simp only
  omega

/-- one turn either is finished (with the remaining number unchanged), or makes progress, or fails -/
theorem next_rem (p : Party σ M) (m : Option M) :
    (p.next m).2 = .err ∨ (p.next m).2 = .panic ∨
    ((p.next m).2 = .finished ∧ (p.next m).1.remaining = p.remaining) ∨
    (∃ m', (p.next m).2 = .ok m' ∧ (p.next m).1.remaining + 1 = p.remaining) := by
  rcases next_cases p m with ⟨-, h⟩ | ⟨f, hc, -, ⟨s, m', -, h⟩ | ⟨s, o, -, ho, h⟩⟩
  · rw [h]; simp
  · rw [h]
    exact Or.inr (Or.inr (Or.inr ⟨m', rfl, remaining_lt hc s⟩))
  · rw [h]
    cases o with
    | ok m' => exact absurd rfl (ho m')
    | finished => exact Or.inr (Or.inr (Or.inl ⟨rfl, rfl⟩))
    | err => exact Or.inl rfl
    | panic => exact Or.inr (Or.inl rfl)

theorem loop_enough (n k : Nat) (p : Party σ M) (q : Party τ M) (m : Option M) (a b : Bool)
    (h : p.remaining + q.remaining + (if a && b then 1 else 2) ≤ n) :
    loop (n + k) p q m a b = loop n p q m a b ∧ (loop n p q m a b).2.2 ≠ .running := by
  induction n generalizing p q m a b with
  | zero => split at h <;> omega
  | succ n ih =>
    rw [Nat.succ_add]
    unfold loop
    by_cases hab : (a && b) = true
    · simp only [hab, if_true]; exact ⟨trivial, by simp⟩
    · simp only [hab, Bool.false_eq_true, if_false]
      rw [if_neg hab] at h
      have h1 := next_rem p m
      rcases hp : p.next m with ⟨p', o⟩
      rw [hp] at h1
      rcases h1 with h1 | h1 | h1 | h1
      · simp only at h1; subst h1; exact ⟨rfl, by simp⟩
      · simp only at h1; subst h1; exact ⟨rfl, by simp⟩
      · obtain ⟨h1, hr⟩ := h1
        simp only at h1 hr
        subst h1
        dsimp only [Outcome.msg, Outcome.fin]
        have h2 := next_rem q none
        rcases hq : q.next none with ⟨q', o'⟩
        rw [hq] at h2
        rcases h2 with h2 | h2 | h2 | h2
        · simp only at h2; subst h2; exact ⟨rfl, by simp⟩
        · simp only at h2; subst h2; exact ⟨rfl, by simp⟩
        · obtain ⟨h2, hr2⟩ := h2
          simp only at h2 hr2
          subst h2
          exact ih p' q' _ _ _ (by simp only [Bool.and_self, if_true]; omega)
        · obtain ⟨m', h2, hr2⟩ := h2
          simp only at h2 hr2
          subst h2
          refine ih p' q' _ _ _ ?_
          simp only [Bool.and_false, Bool.false_and, Bool.and_self, Bool.false_eq_true, if_false]
          omega
      · obtain ⟨m1, h1, hr⟩ := h1
        simp only at h1 hr
        subst h1
        dsimp only [Outcome.msg, Outcome.fin]
        have h2 := next_rem q m1
        rcases hq : q.next m1 with ⟨q', o'⟩
        rw [hq] at h2
        rcases h2 with h2 | h2 | h2 | h2
        · simp only at h2; subst h2; exact ⟨rfl, by simp⟩
        · simp only at h2; subst h2; exact ⟨rfl, by simp⟩
        · obtain ⟨h2, hr2⟩ := h2
          simp only at h2 hr2
          subst h2
          refine ih p' q' _ _ _ ?_
          simp only [Bool.and_false, Bool.false_and, Bool.and_self, Bool.false_eq_true, if_false]
          omega
        · obtain ⟨m', h2, hr2⟩ := h2
          simp only at h2 hr2
          subst h2
          refine ih p' q' _ _ _ ?_
          simp only [Bool.and_false, Bool.false_and, Bool.and_self, Bool.false_eq_true, if_false]
          omega

/-- **C31** The runner terminates on every pair of step lists, also if steps fail, panic or return the sentinel
error: after at most (steps left of both) + 2 evaluations of the loop condition it has ended, and allowing
more does not change the outcome. -/
theorem C31_terminates (p : Party σ M) (q : Party τ M) (k : Nat) :
    loop (p.remaining + q.remaining + 2 + k) p q none false false = runProtocol p q ∧
    (runProtocol p q).2.2 ≠ .running :=
  loop_enough _ k p q none false false (by simp)

theorem drop_step {p : Party σ M} {f : Step σ M} (h : p.steps[p.step]? = some f) :
    p.steps.drop p.step = f :: p.steps.drop (p.step + 1) := by
  obtain ⟨hl, he⟩ := List.getElem?_eq_some_iff.1 h
  rw [List.drop_eq_getElem_cons hl, he]

theorem drop_complete {p : Party σ M} (h : p.complete = true) : p.steps.drop p.step = [] := by
  unfold Party.complete at h
  rw [List.drop_eq_nil_iff]
  simpa using h

theorem loop_exec (n : Nat) (p : Party σ M) (q : Party τ M) (m : Option M) (a b : Bool)
    (hp : NoSentinel p) (hq : NoSentinel q) (ha : a = true → q.complete = true) (hb : b = true → p.complete = true)
    (h : (loop n p q m a b).2.2 ≠ .running) :
    let r := loop n p q m a b
    (r.1.st, r.2.1.st, r.2.2) = exec (calls (p.steps.drop p.step) (q.steps.drop q.step)) p.st q.st m ∧
    r.1.steps = p.steps ∧ r.2.1.steps = q.steps ∧
    (r.2.2 = .ok → r.1.complete = true ∧ r.2.1.complete = true) := by
  induction n generalizing p q m a b with
  | zero => exact absurd rfl h
  | succ n ih =>
    unfold loop at h ⊢
    by_cases hab : (a && b) = true
    · simp only [hab, if_true]
      rw [Bool.and_eq_true] at hab
      rw [drop_complete (ha hab.1), drop_complete (hb hab.2)]
      refine ⟨by simp [calls, exec], by simp, by simp, fun _ => ⟨hb hab.2, ha hab.1⟩⟩
    · simp only [hab, Bool.false_eq_true, if_false] at h ⊢
      rcases next_cases p m with ⟨hc, hn⟩ | ⟨f, hc, hf, ⟨s, m', hs, hn⟩ | ⟨s, o, hs, ho, hn⟩⟩
      · -- first party finished
        rw [hn] at h ⊢
        dsimp only [Outcome.msg, Outcome.fin] at h ⊢
        rw [drop_complete hc]
        rcases next_cases q none with ⟨hc', hn'⟩ | ⟨f', hc', hf', ⟨s', m'', hs', hn'⟩ | ⟨s', o', hs', ho', hn'⟩⟩
        · rw [hn'] at h ⊢
          dsimp only at h ⊢
          obtain ⟨i1, i2, i3, i4⟩ := ih p q _ _ _ hp hq (fun _ => hc') (fun _ => hc) h
          rw [drop_complete hc, drop_complete hc'] at i1
          rw [drop_complete hc']
          exact ⟨i1.trans (by simp [calls, exec]), i2, i3, i4⟩
        · rw [hn'] at h ⊢
          dsimp only at h ⊢
          obtain ⟨i1, i2, i3, i4⟩ := ih p { q with st := s', step := q.step + 1 } _ _ _ hp hq (fun e => by cases e) (fun _ => hc) h
          rw [drop_complete hc] at i1
          rw [drop_step hf']
          refine ⟨?_, i2, i3, i4⟩
          rw [i1]
          simp only [calls, exec, hs']
        · rw [hn'] at h ⊢
          rw [drop_step hf']
          have hne := hq f' (List.mem_of_getElem? hf') q.st none
          rw [hs'] at hne
          cases o' with
          | ok m' => exact absurd rfl (ho' m')
          | finished => exact absurd rfl hne
          | err => simp only [calls, exec, hs']; exact ⟨trivial, trivial, trivial, fun h => by cases h⟩
          | panic => simp only [calls, exec, hs']; exact ⟨trivial, trivial, trivial, fun h => by cases h⟩
      · rw [hn] at h ⊢
        dsimp only [Outcome.msg, Outcome.fin] at h ⊢
        rw [drop_step hf]
        rcases next_cases q m' with ⟨hc', hn'⟩ | ⟨f', hc', hf', ⟨s', m'', hs', hn'⟩ | ⟨s', o', hs', ho', hn'⟩⟩
        · rw [hn'] at h ⊢
          dsimp only at h ⊢
          obtain ⟨i1, i2, i3, i4⟩ := ih { p with st := s, step := p.step + 1 } q _ _ _ hp hq (fun _ => hc') (fun e => by cases e) h
          rw [drop_complete hc'] at i1 ⊢
          refine ⟨?_, i2, i3, i4⟩
          rw [i1]
          simp only [calls, exec, hs]
        · rw [hn'] at h ⊢
          dsimp only at h ⊢
          obtain ⟨i1, i2, i3, i4⟩ := ih { p with st := s, step := p.step + 1 } { q with st := s', step := q.step + 1 } _ _ _ hp hq (fun e => by cases e) (fun e => by cases e) h
          rw [drop_step hf']
          refine ⟨?_, i2, i3, i4⟩
          rw [i1]
          simp only [calls, exec, hs, hs']
        · rw [hn'] at h ⊢
          rw [drop_step hf']
          have hne := hq f' (List.mem_of_getElem? hf') q.st m'
          rw [hs'] at hne
          cases o' with
          | ok m' => exact absurd rfl (ho' m')
          | finished => exact absurd rfl hne
          | err => simp only [calls, exec, hs, hs']; exact ⟨trivial, trivial, trivial, fun h => by cases h⟩
          | panic => simp only [calls, exec, hs, hs']; exact ⟨trivial, trivial, trivial, fun h => by cases h⟩
      · rw [hn] at h ⊢
        rw [drop_step hf]
        have hne := hp f (List.mem_of_getElem? hf) p.st m
        rw [hs] at hne
        cases o with
        | ok m' => exact absurd rfl (ho m')
        | finished => exact absurd rfl hne
        | err =>
          cases hl : q.steps.drop q.step <;> simp only [calls, exec, hs] <;> exact ⟨trivial, trivial, trivial, fun h => by cases h⟩
        | panic =>
          cases hl : q.steps.drop q.step <;> simp only [calls, exec, hs] <;> exact ⟨trivial, trivial, trivial, fun h => by cases h⟩

/-- **C31** The runner executes exactly the alternating turns of the two step lists, each step once and in order,
each turn receiving the message of the turn before (nil before the first, and after a party without steps left),
until the first failure, which decides the error returned.  It succeeds iff no step fails, and then both
parties are complete. -/
theorem C31_in_order (p : Party σ M) (q : Party τ M) (hp : NoSentinel p) (hq : NoSentinel q) :
    let r := runProtocol p q
    (r.1.st, r.2.1.st, r.2.2) = exec (calls (p.steps.drop p.step) (q.steps.drop q.step)) p.st q.st none ∧
    r.1.steps = p.steps ∧ r.2.1.steps = q.steps ∧
    (r.2.2 = .ok → r.1.complete = true ∧ r.2.1.complete = true) :=
  loop_exec _ p q none false false hp hq (fun h => by cases h) (fun h => by cases h) (C31_terminates p q 0).2

/-- the turns of two parties without pauses -/
def alternate : List (Step σ M) → List (Step τ M) → List (Call σ τ M)
  | [], _ => []
  | [f], [] => [.first f]
  | _ :: _ :: _, [] => []
  | f :: fs, s :: ss => .first f :: .second s :: alternate fs ss

/-- **C31** If the first party has as many steps as the second or one more (as in the three protocols), no message
is lost: every step but the very first receives the message returned by the other party's step before it. -/
theorem C31_no_pause (fs : List (Step σ M)) (ss : List (Step τ M))
    (h : fs.length = ss.length ∨ fs.length = ss.length + 1) :
    calls fs ss = alternate fs ss ++ (if fs.length = ss.length then [] else [.idle]) := by
  induction fs generalizing ss with
  | nil =>
    cases ss with
    | nil => simp [calls, alternate]
    | cons s ss => simp only [List.length_nil, List.length_cons] at h; omega
  | cons f fs ih =>
    cases ss with
    | nil =>
      have : fs = [] := by
        rcases h with h | h
        · cases h
        · exact List.length_eq_zero_iff.1 (by simpa using h)
      subst this
      simp [calls, alternate]
    | cons s ss =>
      simp only [List.length_cons] at h ⊢
      have := ih ss (by omega)
      simp only [calls, alternate]
      rw [this]
      simp

/-- **C31** With unequal numbers of steps the party with steps left is fed the nil message: the extra steps of the
second party all get nil. -/
theorem C31_extra_steps_get_nil (s : Step τ M) (ss : List (Step τ M)) (a : σ) (b : τ) (m : Option M) :
    exec (calls [] (s :: ss)) a b m = exec (.second s :: calls [] ss) a b none := by
  simp only [calls, exec]

end

/-- **C31** (corner case) A step that itself returns the sentinel makes the runner report success without that step
having succeeded: neither party is complete. -/
theorem C31_sentinel_from_step :
    let p : Party Unit Unit := ⟨[fun _ _ => ((), .finished)], 0, ()⟩
    (runProtocol p p).2.2 = .ok ∧ (runProtocol p p).1.complete = false := by
  constructor <;> rfl

/-- a run of 2 + 1 steps with counters as messages: 0, 1, 2 are passed on -/
example :
    let f : Step (List (Option Nat)) Nat := fun s m => (s ++ [m], .ok (some (m.getD 0 + 1)))
    let r := runProtocol ⟨[f, f], 0, []⟩ ⟨[f], 0, []⟩
    r.1.st = [none, some 2] ∧ r.2.1.st = [some 1] ∧ r.2.2 = .ok := by
  decide +kernel

/-- failing second party: the first party's second step is not run -/
example :
    let f : Step (List (Option Nat)) Nat := fun s m => (s ++ [m], .ok (some (m.getD 0 + 1)))
    let g : Step (List (Option Nat)) Nat := fun s m => (s ++ [m], .err)
    let r := runProtocol ⟨[f, f], 0, []⟩ ⟨[g], 0, []⟩
    r.1.st = [none] ∧ r.2.1.st = [some 1] ∧ r.2.2 = .errSecond := by
  decide +kernel

/-! ### the DKLs parties -/

section
variable {F G : Type} [Field F] [DecidableEq F] [AddCommGroup G] [DecidableEq G] [Module F G]

open Verif.Dkls

theorem step_ne_finished {σ M : Type} (f : σ → Option M → Res (σ × Option M)) (s : σ) (m : Option M) :
    (step f s m).2 ≠ .finished := by
  unfold step
  split <;> simp

theorem exec_first {σ τ M : Type} (f : σ → Option M → Res (σ × Option M)) (cs : List (Call σ τ M)) (a : σ) (b : τ)
    (m : Option M) :
    exec (.first (step f) :: cs) a b m = match f a m with
      | .ok (a, m) => exec cs a b m
      | .err => (a, b, .errFirst)
      | .panic => (a, b, .panic) := by
  simp only [exec, step]
  rcases f a m with ⟨a', m'⟩ | _ | _ <;> rfl

theorem exec_second {σ τ M : Type} (f : τ → Option M → Res (τ × Option M)) (cs : List (Call σ τ M)) (a : σ) (b : τ)
    (m : Option M) :
    exec (.second (step f) :: cs) a b m = match f b m with
      | .ok (b, m) => exec cs a b m
      | .err => (a, b, .errSecond)
      | .panic => (a, b, .panic) := by
  simp only [exec, step]
  rcases f b m with ⟨a', m'⟩ | _ | _ <;> rfl

theorem encode_ok (p : Payload F G) : encode version1 p = .ok (some ⟨version1, p⟩) := rfl
theorem decode_ok (p : Payload F G) : decode (some ⟨version1, p⟩) = .ok p := rfl

theorem result_ok {σ α : Type} {p : Party σ (Msg F G)} (h : p.complete = true) {o : σ → Option α} {x : α}
    (hx : o p.st = some x) : result p o version1 = .ok (some x) := by
  unfold result
  rw [h, hx]
  rfl

/-- how a run of two parties turns into a pair of results -/
theorem both_run {σ τ α β : Type} (p : Party σ (Msg F G)) (q : Party τ (Msg F G)) (hp : NoSentinel p) (hq : NoSentinel q)
    (oa : σ → Option α) (ob : τ → Option β) (R : Res (α × β))
    (h : match exec (calls (p.steps.drop p.step) (q.steps.drop q.step)) p.st q.st none with
      | (a, b, .ok) => ∃ x y, oa a = some x ∧ ob b = some y ∧ R = .ok (x, y)
      | (_, _, .panic) => R = .panic
      | (_, _, _) => R = .err) :
    both (runProtocol p q).2.2 (result (runProtocol p q).1 oa version1) (result (runProtocol p q).2.1 ob version1) = R := by
  obtain ⟨h1, -, -, h4⟩ := C31_in_order p q hp hq
  rw [← h1] at h
  have h5 := (C31_terminates p q 0).2
  rcases hr : runProtocol p q with ⟨p', q', v⟩
  rw [hr] at h h4 h5
  cases v with
  | ok =>
    obtain ⟨c1, c2⟩ := h4 rfl
    simp only at h
    obtain ⟨x, y, hx, hy, hR⟩ := h
    simp only at c1 c2 ⊢
    rw [result_ok c1 hx, result_ok c2 hy, hR]
    rfl
  | errFirst => exact h.symm
  | errSecond => exact h.symm
  | panic => exact h.symm
  | running => exact absurd rfl h5

/-- the same with the results in the other order -/
theorem both_run_swap {σ τ α β : Type} (p : Party σ (Msg F G)) (q : Party τ (Msg F G)) (hp : NoSentinel p) (hq : NoSentinel q)
    (oa : σ → Option α) (ob : τ → Option β) (R : Res (β × α))
    (h : match exec (calls (p.steps.drop p.step) (q.steps.drop q.step)) p.st q.st none with
      | (a, b, .ok) => ∃ x y, oa a = some x ∧ ob b = some y ∧ R = .ok (y, x)
      | (_, _, .panic) => R = .panic
      | (_, _, _) => R = .err) :
    both (runProtocol p q).2.2 (result (runProtocol p q).2.1 ob version1) (result (runProtocol p q).1 oa version1) = R := by
  obtain ⟨h1, -, -, h4⟩ := C31_in_order p q hp hq
  rw [← h1] at h
  have h5 := (C31_terminates p q 0).2
  rcases hr : runProtocol p q with ⟨p', q', v⟩
  rw [hr] at h h4 h5
  cases v with
  | ok =>
    obtain ⟨c1, c2⟩ := h4 rfl
    simp only at h
    obtain ⟨x, y, hx, hy, hR⟩ := h
    simp only at c1 c2 ⊢
    rw [result_ok c1 hx, result_ok c2 hy, hR]
    rfl
  | errFirst => exact h.symm
  | errSecond => exact h.symm
  | panic => exact h.symm
  | running => exact absurd rfl h5

theorem noSentinel_of {σ M : Type} (p : Party σ M) (h : ∀ f ∈ p.steps, ∃ g, f = step g) : NoSentinel p := by
  intro f hf s m
  obtain ⟨g, rfl⟩ := h f hf
  exact step_ne_finished g s m

theorem bobRound1_eq (s : Digest) : ∃ t, Dkg.bobRound1 s = (t, s) := ⟨_, rfl⟩

set_option maxRecDepth 20000 in
/-- **C31** `GenerateKss` through the step lists and the runner computes exactly the key generation of C28, with the
same outputs, errors and panics, for all randomness. -/
theorem C31_generateKss (E : OT.Env F G) (r : Dkg.Rand F) : generateKss E r = Dkg.run E r := by
  have e : generateKss E r =
      both (runProtocol (newBobDkg E r version1) (newAliceDkg E r version1)).2.2
        (result (runProtocol (newBobDkg E r version1) (newAliceDkg E r version1)).2.1 AliceDkg.output version1)
        (result (runProtocol (newBobDkg E r version1) (newAliceDkg E r version1)).1 BobDkg.output version1) := by
    unfold generateKss
    generalize runProtocol (newBobDkg E r version1) (newAliceDkg E r version1) = x
    rcases x with ⟨p, q, v⟩
    rfl
  rw [e]
  apply both_run_swap
  · apply noSentinel_of; intro f hf
    simp only [newBobDkg, List.mem_cons, List.not_mem_nil, or_false] at hf
    rcases hf with h | h | h | h | h <;> exact ⟨_, h⟩
  · apply noSentinel_of; intro f hf
    simp only [newAliceDkg, List.mem_cons, List.not_mem_nil, or_false] at hf
    rcases hf with h | h | h | h | h <;> exact ⟨_, h⟩
  · simp only [newBobDkg, newAliceDkg, List.drop_zero, calls, exec_first, exec_second, encode_ok, decode_ok, Res.bind_ok]
    unfold Dkg.run
    obtain ⟨t0, ht0⟩ := bobRound1_eq r.bobSeed
    rw [ht0]
    dsimp only
    rcases Dkg.aliceRound2 E r.bobSeed r.aliceSeed r.choices r.skA r.kA with ⟨a, m2⟩ | _ | _
    rotate_left
    · rfl
    · rfl
    simp only [Res.bind_ok, encode_ok, decode_ok]
    rcases Dkg.bobRound3 E t0 m2 r.skB r.kB with ⟨b, m3⟩ | _ | _
    rotate_left
    · rfl
    · rfl
    simp only [Res.bind_ok, encode_ok, decode_ok]
    rcases Dkg.aliceRound4 E a m3 with ⟨a, m4⟩ | _ | _
    rotate_left
    · rfl
    · rfl
    simp only [Res.bind_ok, encode_ok, decode_ok]
    rcases Dkg.bobRound5 E b m4 r.otSk r.otK with ⟨b, m5⟩ | _ | _
    rotate_left
    · rfl
    · rfl
    simp only [Res.bind_ok, encode_ok, decode_ok]
    rcases Dkg.aliceRound6 E a m5 r.pads with ⟨a, m6⟩ | _ | _
    rotate_left
    · rfl
    · rfl
    simp only [Res.bind_ok, encode_ok, decode_ok]
    rcases Dkg.bobRound7 E b m6 with ⟨b, m7⟩ | _ | _
    rotate_left
    · rfl
    · rfl
    simp only [Res.bind_ok, encode_ok, decode_ok]
    rcases Dkg.aliceRound8 E a m7 with ⟨a, m8⟩ | _ | _
    rotate_left
    · rfl
    · rfl
    simp only [Res.bind_ok, encode_ok, decode_ok]
    rcases Dkg.bobRound9 E b m8 with m9 | _ | _
    rotate_left
    · rfl
    · rfl
    simp only [Res.bind_ok, encode_ok, decode_ok]
    rcases Dkg.aliceRound10 E a m9 with _ | _ | _
    rotate_left
    · rfl
    · rfl
    simp only [Res.bind_ok, encode_ok, decode_ok]
    exact ⟨_, _, rfl, rfl, rfl⟩

theorem aliceRound1_eq (E : OT.Env F G) (s : F) : ∃ t, Refresh.aliceRound1 E s = (t, s) := ⟨_, rfl⟩

set_option maxRecDepth 20000 in
/-- **C31** `RunRefreshProtocol` computes exactly the refresh of C29. -/
theorem C31_runRefresh (E : OT.Env F G) (ks : AliceOutput F G × BobOutput F G) (r : Refresh.Rand F) :
    runRefresh E ks r = Refresh.run E ks.1 ks.2 r := by
  have e : runRefresh E ks r =
      both (runProtocol (newAliceRefresh E ks.1 r version1) (newBobRefresh E ks.2 r version1)).2.2
        (result (runProtocol (newAliceRefresh E ks.1 r version1) (newBobRefresh E ks.2 r version1)).1 AliceRefresh.output version1)
        (result (runProtocol (newAliceRefresh E ks.1 r version1) (newBobRefresh E ks.2 r version1)).2.1 BobRefresh.output version1) := by
    unfold runRefresh
    generalize runProtocol (newAliceRefresh E ks.1 r version1) (newBobRefresh E ks.2 r version1) = x
    rcases x with ⟨p, q, v⟩
    rfl
  rw [e]
  apply both_run
  · apply noSentinel_of; intro f hf
    simp only [newAliceRefresh, List.mem_cons, List.not_mem_nil, or_false] at hf
    rcases hf with h | h | h | h <;> exact ⟨_, h⟩
  · apply noSentinel_of; intro f hf
    simp only [newBobRefresh, List.mem_cons, List.not_mem_nil, or_false] at hf
    rcases hf with h | h | h <;> exact ⟨_, h⟩
  · simp only [newAliceRefresh, newBobRefresh, List.drop_zero, calls, exec_first, exec_second, encode_ok, decode_ok, Res.bind_ok]
    unfold Refresh.run
    obtain ⟨t0, ht0⟩ := aliceRound1_eq E r.aliceSeed
    rw [ht0]
    dsimp only
    rcases Refresh.bobRound2 E ks.2 r.aliceSeed r.bobSeed r.otSk r.otK with ⟨b, m2⟩ | _ | _
    rotate_left
    · rfl
    · rfl
    simp only [Res.bind_ok, encode_ok, decode_ok]
    rcases Refresh.aliceRound3 E ks.1 t0 m2 r.choices r.pads with ⟨a, m3⟩ | _ | _
    rotate_left
    · rfl
    · rfl
    simp only [Res.bind_ok, encode_ok, decode_ok]
    rcases Refresh.bobRound4 E b m3 with ⟨b, m4⟩ | _ | _
    rotate_left
    · rfl
    · rfl
    simp only [Res.bind_ok, encode_ok, decode_ok]
    rcases Refresh.aliceRound5 E a m4 with ⟨a, m5⟩ | _ | _
    rotate_left
    · rfl
    · rfl
    simp only [Res.bind_ok, encode_ok, decode_ok]
    rcases Refresh.bobRound6 E b m5 with m6 | _ | _
    rotate_left
    · rfl
    · rfl
    simp only [Res.bind_ok, encode_ok, decode_ok]
    rcases Refresh.aliceRound7 E a m6 with _ | _ | _
    rotate_left
    · rfl
    · rfl
    simp only [Res.bind_ok, encode_ok, decode_ok]
    exact ⟨_, _, rfl, rfl, rfl⟩

/-- the signing rounds with every message delivered unchanged -/
def signRun (E : SEnv F G) (ks : AliceOutput F G × BobOutput F G) (message : List UInt8) (r : SignRand F) : Res Sign.Signature := do
  let (b, m2) ← Sign.bobRound2 E ks.2 [] r.aliceSeed r.bobSeed r.kB r.gamma0 r.rnd0 r.gamma1 r.rnd1
  let m3 ← Sign.aliceRound3 E (Sign.aliceRound1 ks.1 [] r.aliceSeed).1 message m2 r.kPrime r.kSch r.phi r.hat0 r.hat1
  Sign.bobRound4 E b message m3

theorem signRound1_eq (o : AliceOutput F G) (h : List UInt8) (s : Digest) :
    Sign.aliceRound1 o h s = ((Sign.aliceRound1 o h s).1, s) := rfl

set_option maxRecDepth 20000 in
/-- **C31** `RunSignProtocol` computes exactly the signing of C30. -/
theorem C31_runSign (E : SEnv F G) (ks : AliceOutput F G × BobOutput F G) (message : List UInt8) (r : SignRand F) :
    runSign E ks message r = signRun E ks message r := by
  obtain ⟨h1, -, -, h4⟩ := C31_in_order (newAliceSign E ks.1 message r version1) (newBobSign E ks.2 message r version1)
    (by
      apply noSentinel_of; intro f hf
      simp only [newAliceSign, List.mem_cons, List.not_mem_nil, or_false] at hf
      rcases hf with h | h <;> exact ⟨_, h⟩)
    (by
      apply noSentinel_of; intro f hf
      simp only [newBobSign, List.mem_cons, List.not_mem_nil, or_false] at hf
      rcases hf with h | h <;> exact ⟨_, h⟩)
  unfold runSign
  revert h1 h4
  generalize runProtocol (newAliceSign E ks.1 message r version1) (newBobSign E ks.2 message r version1) = x
  rcases x with ⟨p, q, v⟩
  dsimp only
  intro h1 h4
  simp only [newAliceSign, newBobSign, List.drop_zero, calls, exec_first, exec_second, encode_ok, decode_ok, Res.bind_ok] at h1
  rw [signRound1_eq] at h1
  dsimp only at h1
  unfold signRun
  rcases hX : Sign.bobRound2 E ks.2 [] r.aliceSeed r.bobSeed r.kB r.gamma0 r.rnd0 r.gamma1 r.rnd1 with ⟨b, m2⟩ | _ | _
  rotate_left
  · simp only [hX, Res.bind_err, Res.bind_panic, Prod.mk.injEq] at h1; obtain ⟨-, -, rfl⟩ := h1; rfl
  · simp only [hX, Res.bind_err, Res.bind_panic, Prod.mk.injEq] at h1; obtain ⟨-, -, rfl⟩ := h1; rfl
  simp only [hX, Res.bind_ok, encode_ok, decode_ok] at h1 ⊢
  clear hX
  rcases hX : Sign.aliceRound3 E (Sign.aliceRound1 ks.1 [] r.aliceSeed).1 message m2 r.kPrime r.kSch r.phi r.hat0 r.hat1 with m3 | _ | _
  rotate_left
  · simp only [hX, Res.bind_err, Res.bind_panic, Prod.mk.injEq] at h1; obtain ⟨-, -, rfl⟩ := h1; rfl
  · simp only [hX, Res.bind_err, Res.bind_panic, Prod.mk.injEq] at h1; obtain ⟨-, -, rfl⟩ := h1; rfl
  simp only [hX, Res.bind_ok, encode_ok, decode_ok] at h1 ⊢
  clear hX
  rcases hX : Sign.bobRound4 E b message m3 with sig | _ | _
  rotate_left
  · simp only [hX, Res.bind_err, Res.bind_panic, Prod.mk.injEq] at h1; obtain ⟨-, -, rfl⟩ := h1; rfl
  · simp only [hX, Res.bind_err, Res.bind_panic, Prod.mk.injEq] at h1; obtain ⟨-, -, rfl⟩ := h1; rfl
  simp only [hX, Res.bind_ok, exec, Prod.mk.injEq] at h1
  obtain ⟨-, h2, rfl⟩ := h1
  obtain ⟨-, c⟩ := h4 rfl
  dsimp only
  rw [result_ok c (o := BobSign.output) (x := sig) (by rw [h2]; rfl)]
  rfl

/-- several refreshes through the runner -/
def runRefreshes (E : OT.Env F G) : AliceOutput F G × BobOutput F G → List (Refresh.Rand F) → Res (AliceOutput F G × BobOutput F G)
  | ks, [] => .ok ks
  | ks, r :: rs => do
    let ks ← runRefresh E ks r
    runRefreshes E ks rs

theorem runRefreshes_eq (E : OT.Env F G) (ks : AliceOutput F G × BobOutput F G) (rs : List (Refresh.Rand F)) :
    runRefreshes E ks rs = Refresh.runs E ks rs := by
  induction rs generalizing ks with
  | nil => rfl
  | cons r rs ih =>
    unfold runRefreshes Refresh.runs
    rw [C31_runRefresh]
    simp only [ih]

/-- **C31** The life cycle of a key: whatever the randomness, if key generation, any number of refreshes and a
signature all succeed, the signature verifies for the message under the public key that key generation gave
to Bob — it is not changed by refreshing. -/
theorem C31_lifecycle_sound (E : SEnv F G) (r : Dkg.Rand F) (rs : List (Refresh.Rand F)) (message : List UInt8)
    (sr : SignRand F) (ks ks' : AliceOutput F G × BobOutput F G) (sig : Sign.Signature)
    (_h1 : generateKss E.toMulEnv.toEnv r = .ok ks) (h2 : runRefreshes E.toMulEnv.toEnv ks rs = .ok ks')
    (h3 : runSign E ks' message sr = .ok sig) :
    Sign.ecdsaVerify E ks.2.publicKey (E.msgHash message) sig.R sig.S = true := by
  have hpk : ks'.2.publicKey = ks.2.publicKey := by
    rw [runRefreshes_eq] at h2
    clear h3 _h1
    induction rs generalizing ks with
    | nil => cases h2; rfl
    | cons r rs ih =>
      obtain ⟨⟨a1, b1⟩, e1, e2⟩ := Res.bind_eq_ok.1 h2
      obtain ⟨-, -, e3, -⟩ := Refresh.C29_success_preserves_key E.toMulEnv.toEnv ks.1 ks.2 r a1 b1 e1
      rw [ih (a1, b1) e2]
      exact e3
  rw [C31_runSign] at h3
  unfold signRun at h3
  obtain ⟨⟨b, m2⟩, h4, h3⟩ := Res.bind_eq_ok.1 h3
  obtain ⟨m3, -, h3⟩ := Res.bind_eq_ok.1 h3
  obtain ⟨_, _, _, _, _, _, _, _, _, _, _, hb, hh, _⟩ := Sign.bobRound2_inv E _ _ _ _ _ _ _ _ _ b m2 h4
  have := Sign.C30_output_verifies E b message m3 sig h3
  rwa [hb, hh, hpk] at this

theorem refreshes_complete (E : OT.Env F G) (hc : Schnorr.Canonical E.sc) (rs : List (Refresh.Rand F))
    (hrs : ∀ r ∈ rs, Refresh.Good E r ∧ ∃ k, k ≠ 0 ∧ Refresh.multiplier E r = some k)
    (ks : AliceOutput F G × BobOutput F G) (hm : Matching E ks.1 ks.2) :
    ∃ ks', runRefreshes E ks rs = .ok ks' ∧ Matching E ks'.1 ks'.2 ∧ ks'.1.publicKey = ks.1.publicKey ∧
      ks'.1.secretKeyShare * ks'.2.secretKeyShare = ks.1.secretKeyShare * ks.2.secretKeyShare := by
  induction rs generalizing ks with
  | nil => exact ⟨ks, rfl, hm, rfl, rfl⟩
  | cons r rs ih =>
    obtain ⟨hg, k, hk0, hk⟩ := hrs r (by simp)
    obtain ⟨a, b, h1, h2, h3, h4, -, -, h5⟩ := Refresh.C29_refresh E hc ks.1 ks.2 r hg k hk hk0
    obtain ⟨ks', i1, i2, i3, i4⟩ := ih (fun r hr => hrs r (by simp [hr])) (a, b) (h5 hm)
    refine ⟨ks', ?_, i2, by rw [i3, h4], ?_⟩
    · unfold runRefreshes
      rw [C31_runRefresh, h1, Res.bind_ok]
      exact i1
    · rw [i4]
      show a.secretKeyShare * b.secretKeyShare = _
      rw [h2, h3]
      field_simp

/-- **C31** The life cycle completes: for all randomness whose draws decode (see `Dkg.Good`, `Refresh.Good`,
`Sign.Decodes`) with nonzero refresh multipliers and nonces, key generation, any number of refreshes and the
signing protocol run to their end.  The public key is `skA·skB·G` throughout, and with the nonce `k` and
`s = (d + x(kG)·skA·skB)/k` a signature verifying under it is returned, except if `x(kG)` or `s` is zero. -/
theorem C31_lifecycle_complete (E : SEnv F G) (yodd : G → Bool) (hC : Sign.Curve E yodd) (r : Dkg.Rand F)
    (hg : Dkg.Good E.toMulEnv.toEnv r) (rs : List (Refresh.Rand F))
    (hrs : ∀ r ∈ rs, Refresh.Good E.toMulEnv.toEnv r ∧ ∃ k, k ≠ 0 ∧ Refresh.multiplier E.toMulEnv.toEnv r = some k)
    (message : List UInt8) (hD : Sign.Decodes E [] message) (sr : SignRand F) (hkB : sr.kB ≠ 0)
    (hkA : ∀ hR, Sign.hashPoint E (sr.kPrime • sr.kB • E.g) = .ok hR → hR + sr.kPrime ≠ 0) :
    ∃ ks ks' k d s, generateKss E.toMulEnv.toEnv r = .ok ks ∧ runRefreshes E.toMulEnv.toEnv ks rs = .ok ks' ∧
      ks.1.publicKey = (r.skA * r.skB) • E.g ∧ ks.2.publicKey = ks.1.publicKey ∧
      ks'.1.publicKey = ks.1.publicKey ∧ ks'.2.publicKey = ks.1.publicKey ∧
      k ≠ 0 ∧ E.sc.setBytes (E.msgHash message) = some d ∧ s * k = d + (E.xc (k • E.g) : F) * (r.skA * r.skB) ∧
      (E.xc (k • E.g) ≠ 0 → s ≠ 0 → ∃ sig, runSign E ks' message sr = .ok sig ∧
        sig.R = E.xc (k • E.g) ∧ sig.S < 2 ^ 255 ∧
        Sign.ecdsaVerify E ks.1.publicKey (E.msgHash message) sig.R sig.S = true) := by
  obtain ⟨a, b, h1, hm, ha, hb, -⟩ := Dkg.C28_honest E.toMulEnv.toEnv hC.can r hg
  obtain ⟨ks', h2, hm', hpk, hsk⟩ := refreshes_complete E.toMulEnv.toEnv hC.can rs hrs (a, b) hm
  obtain ⟨bob, m2, m3, h3, h4⟩ := Sign.C30_progress hC ks'.1 ks'.2 hm' [] message hD sr.aliceSeed sr.bobSeed sr.kB hkB
    sr.gamma0 sr.rnd0 sr.gamma1 sr.rnd1 sr.kPrime sr.kSch sr.phi sr.hat0 sr.hat1 hkA
  obtain ⟨k, d, s, hk, -, hd, hs, h5, -⟩ := Sign.C30_honest hC ks'.1 ks'.2 hm' [] message sr.aliceSeed sr.bobSeed sr.kB
    sr.gamma0 sr.rnd0 sr.gamma1 sr.rnd1 sr.kPrime sr.kSch sr.phi sr.hat0 sr.hat1 bob m2 m3 h3 h4
  refine ⟨(a, b), ks', k, d, s, by rw [C31_generateKss, h1], h2, ?_, hm.same.symm, hpk, ?_, hk, hd, ?_, ?_⟩
  · show a.publicKey = _
    rw [hm.key, ha, hb]
  · rw [← hm'.same, hpk]
  · rw [hs, hsk]
    show _ = d + _ * (r.skA * r.skB)
    rw [ha, hb]
  · intro x1 x2
    obtain ⟨sig, y1, y2, -, y3, y4, -⟩ := h5 x1 x2
    refine ⟨sig, ?_, y2, y3, by rw [← hpk]; exact y4⟩
    rw [C31_runSign]
    unfold signRun
    rw [h3, Res.bind_ok]
    dsimp only
    rw [h4, Res.bind_ok]
    exact y1

end
end Verif.Mpc
