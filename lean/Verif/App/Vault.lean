import Verif.Base.GoRes

/-
Model of the vault's credential list and authenticator counter
(internal/motr/models/credential.go, internal/motr/models/authenticator.go) and their properties
(C58, C59).
-/

set_option linter.unusedSectionVars false

namespace Verif.App.Vault

/-! ## Credentials -/

/-- internal/motr/models/credential.go:28-37 `Credential`: the identifier and everything else. -/
structure Credential where
  id : List UInt8
  rest : List UInt8
deriving DecidableEq

/-- A Go slice: the backing array (its length is the capacity) and the visible length. -/
structure Slice where
  arr : List Credential
  len : Nat
deriving DecidableEq

/-- The elements of a slice. -/
def Slice.toList (s : Slice) : List Credential := s.arr.take s.len

/-- Go's `append` of one element: in place when there is room, otherwise into a new array whose unused
tail `spare` the runtime chooses. -/
def Slice.push (s : Slice) (x : Credential) (spare : List Credential) : Slice :=
  if s.len < s.arr.length then ⟨s.arr.take s.len ++ x :: s.arr.drop (s.len + 1), s.len + 1⟩
  else ⟨s.arr.take s.len ++ x :: spare, s.len + 1⟩

/-- internal/motr/models/credential.go:73-73 `Credentials`: a map from origin to slice. -/
abbrev Credentials := String → Option Slice

/-- internal/motr/models/credential.go:76-78 `NewCredentials` -/
def newCredentials : Credentials := fun _ => none

/-- internal/motr/models/credential.go:81-91 `LinkCredential` -/
def link (c : Credentials) (origin : String) (x : Credential) (spare : List Credential) : Res Credentials :=
  if origin = "" then .err
  else
    let s := match c origin with
      | some s => s
      | none => ⟨[], 0⟩
    .ok (fun o => if o = origin then some (s.push x spare) else c o)

/-- internal/motr/models/credential.go:65-72, 97-107 `GetCredentials`: the descriptors are the
credentials themselves here; an unknown origin gives nil. -/
def getCredentials (c : Credentials) (origin : String) : Option (List Credential) :=
  match c origin with
  | none => none
  | some s => some s.toList

/-- `append(s[:i], s[i+1:]...)` (internal/motr/models/credential.go:116): slicing from `i+1` panics
when that is past the visible length; otherwise the tail moves down by one in the backing array. -/
def removeAt (s : Slice) (i : Nat) : Res Slice :=
  if i + 1 ≤ s.len then
    .ok ⟨s.arr.take i ++ (s.arr.take s.len).drop (i + 1) ++ s.arr.drop (s.len - 1), s.len - 1⟩
  else .panic

/-- The loop of `UnlinkCredential` (internal/motr/models/credential.go:114-118), from index `i` with
`k` iterations left: the range expression was evaluated once, so the loop runs over the original
length and reads the shared backing array. -/
def unlinkLoop (id : List UInt8) : Nat → Nat → Slice → Res Slice
  | _, 0, s => .ok s
  | i, k + 1, s => match s.arr[i]? with
    | none => .panic
    | some cred =>
      if cred.id = id then do
        let s' ← removeAt s i
        unlinkLoop id (i + 1) k s'
      else unlinkLoop id (i + 1) k s

/-- internal/motr/models/credential.go:107-116 `UnlinkCredential` -/
def unlink (c : Credentials) (origin : String) (id : List UInt8) : Res Credentials :=
  match c origin with
  | none => .ok c
  | some s => do
    let s' ← unlinkLoop id 0 s.len s
    .ok (fun o => if o = origin then some s' else c o)

/-- One call. -/
inductive Call where
  | link (origin : String) (x : Credential) (spare : List Credential)
  | unlink (origin : String) (id : List UInt8)

/-- A sequence of calls; a refused `LinkCredential` changes nothing. -/
def run (c : Credentials) : List Call → Res Credentials
  | [] => .ok c
  | .link o x sp :: rest => match link c o x sp with
    | .ok c' => run c' rest
    | .err => run c rest
    | .panic => .panic
  | .unlink o id :: rest => match unlink c o id with
    | .ok c' => run c' rest
    | .err => .err
    | .panic => .panic

/-! ### Specification -/

/-- What the calls should do: per origin a list of credentials in the order they were linked. -/
def specStep (f : String → List Credential) : Call → (String → List Credential)
  | .link o x _ => fun o' => if o' = o ∧ o ≠ "" then f o' ++ [x] else f o'
  | .unlink o id => fun o' => if o' = o then (f o').filter (fun x => decide (x.id ≠ id)) else f o'

/-- No credential is linked while one with the same id is linked for the same origin. -/
def Fresh (f : String → List Credential) : List Call → Prop
  | [] => True
  | .link o x sp :: rest => (o ≠ "" → ∀ y ∈ f o, y.id ≠ x.id) ∧ Fresh (specStep f (.link o x sp)) rest
  | .unlink o id :: rest => Fresh (specStep f (.unlink o id)) rest

/-- The credentials seen for an origin. -/
def visible (c : Credentials) (o : String) : List Credential := (getCredentials c o).getD []

/-! ### Proofs -/

/-- A slice as Go makes them. -/
def Slice.WF (s : Slice) : Prop := s.len ≤ s.arr.length

theorem push_spec (s : Slice) (h : s.WF) (x : Credential) (sp : List Credential) :
    (s.push x sp).WF ∧ (s.push x sp).toList = s.toList ++ [x] := by
  unfold Slice.WF at *
  unfold Slice.push Slice.toList
  have hl : (s.arr.take s.len).length = s.len := by rw [List.length_take]; omega
  split
  · refine ⟨by simp; omega, ?_⟩
    show (s.arr.take s.len ++ x :: s.arr.drop (s.len + 1)).take (s.len + 1) = _
    rw [List.take_append, List.take_of_length_le (by omega), hl,
      show s.len + 1 - s.len = 1 by omega]
    rfl
  · refine ⟨by simp; omega, ?_⟩
    show (s.arr.take s.len ++ x :: sp).take (s.len + 1) = _
    rw [List.take_append, List.take_of_length_le (by omega), hl,
      show s.len + 1 - s.len = 1 by omega]
    rfl

/-- no match from `i` on: the loop changes nothing -/
theorem unlinkLoop_none (id : List UInt8) (k : Nat) : ∀ (i : Nat) (s : Slice), i + k ≤ s.arr.length →
    (∀ j c, i ≤ j → j < i + k → s.arr[j]? = some c → c.id ≠ id) → unlinkLoop id i k s = .ok s := by
  induction k with
  | zero => intro i s _ _; rfl
  | succ k ih =>
    intro i s hl hn
    rw [unlinkLoop]
    have hi : i < s.arr.length := by omega
    rw [List.getElem?_eq_getElem hi]
    dsimp only
    rw [if_neg (hn i _ (by omega) (by omega) (List.getElem?_eq_getElem hi))]
    exact ih (i + 1) s (by omega) (fun j c h1 h2 h3 => hn j c (by omega) (by omega) h3)

theorem unlinkLoop_append (id : List UInt8) (a b : Nat) : ∀ (i : Nat) (s : Slice),
    unlinkLoop id i (a + b) s = (unlinkLoop id i a s >>= fun s' => unlinkLoop id (i + a) b s') := by
  induction a with
  | zero => intro i s; simp [unlinkLoop]
  | succ a ih =>
    intro i s
    rw [show a + 1 + b = (a + b) + 1 by omega, unlinkLoop, unlinkLoop]
    cases s.arr[i]? with
    | none => rfl
    | some c =>
      dsimp only
      split
      · cases removeAt s i with
        | ok s' =>
          simp only [Res.bind_ok]
          rw [ih, show i + 1 + a = i + (a + 1) by omega]
        | err => rfl
        | panic => rfl
      · rw [ih, show i + 1 + a = i + (a + 1) by omega]

/-- a slice whose visible part is `pre ++ x :: post` -/
theorem removeAt_spec (pre post sp : List Credential) (x : Credential) :
    removeAt ⟨pre ++ x :: post ++ sp, pre.length + 1 + post.length⟩ pre.length =
      .ok ⟨pre ++ post ++ ((pre ++ x :: post ++ sp).drop (pre.length + post.length)), pre.length + post.length⟩ := by
  unfold removeAt
  rw [if_pos (by simp)]
  have e1 : (pre ++ x :: post ++ sp).take pre.length = pre := by
    rw [List.append_assoc]; exact List.take_left' rfl
  have e2 : (pre ++ x :: post ++ sp).take (pre.length + 1 + post.length) = pre ++ x :: post :=
    List.take_left' (by simp; omega)
  have e3 : (pre ++ x :: post).drop (pre.length + 1) = post := by
    rw [List.drop_append, List.drop_of_length_le (by omega), show pre.length + 1 - pre.length = 1 by omega]
    rfl
  dsimp only
  rw [e1, e2, e3, show pre.length + 1 + post.length - 1 = pre.length + post.length by omega]

theorem getElem?_drop_last (pre post sp : List Credential) (x : Credential) (j : Nat) (c : Credential)
    (h1 : pre.length ≤ j) (h2 : j < pre.length + 1 + post.length)
    (h : (pre ++ post ++ ((pre ++ x :: post ++ sp).drop (pre.length + post.length)))[j]? = some c)
    (hx : j < pre.length + post.length ∨ post ≠ []) : c ∈ post := by
  by_cases hj : j < pre.length + post.length
  · rw [List.append_assoc, List.getElem?_append_right h1, List.getElem?_append_left (by omega)] at h
    exact List.mem_of_getElem? h
  · have hp : post ≠ [] := hx.resolve_left hj
    have : j = pre.length + post.length := by omega
    subst this
    rw [List.getElem?_append_right (by simp)] at h
    simp only [List.length_append, Nat.sub_self, List.getElem?_drop, Nat.add_zero] at h
    rw [List.append_assoc, List.getElem?_append_right (by omega), show pre.length + post.length - pre.length = post.length by omega] at h
    obtain ⟨y, ys, rfl⟩ := List.exists_cons_of_ne_nil hp
    rw [List.length_cons, List.cons_append, List.getElem?_cons_succ,
      List.getElem?_append_left (by simp)] at h
    exact List.mem_of_getElem? h

/-- **C58** (core step) unlinking from a slice in which the id occurs at most once. -/
theorem unlinkLoop_unique (id : List UInt8) (s : Slice) (hs : s.WF)
    (hu : s.toList.countP (fun x => decide (x.id = id)) ≤ 1) :
    ∃ s', unlinkLoop id 0 s.len s = .ok s' ∧ s'.WF ∧ s'.toList = s.toList.filter (fun x => decide (x.id ≠ id)) := by
  unfold Slice.WF at hs
  by_cases hm : ∃ x ∈ s.toList, x.id = id
  · obtain ⟨x, hx, hxi⟩ := hm
    obtain ⟨pre, post, hpp⟩ := List.append_of_mem hx
    have hlen : s.len = pre.length + 1 + post.length := by
      have := congrArg List.length hpp
      unfold Slice.toList at this
      rw [List.length_take] at this
      simp at this; omega
    have hcount : pre.countP (fun x => decide (x.id = id)) = 0 ∧ post.countP (fun x => decide (x.id = id)) = 0 := by
      rw [hpp, List.countP_append, List.countP_cons] at hu
      simp only [hxi, decide_true, if_true] at hu
      omega
    have hpre : ∀ y ∈ pre, y.id ≠ id := by
      intro y hy; have := List.countP_eq_zero.mp hcount.1 y hy; simpa using this
    have hpost : ∀ y ∈ post, y.id ≠ id := by
      intro y hy; have := List.countP_eq_zero.mp hcount.2 y hy; simpa using this
    obtain ⟨sp, harr⟩ : ∃ sp, s.arr = pre ++ x :: post ++ sp :=
      ⟨s.arr.drop s.len, by rw [← hpp]; exact (List.take_append_drop s.len s.arr).symm⟩
    obtain ⟨arr, len⟩ := s
    simp only at hlen harr
    subst hlen; subst harr
    have hsplit : pre.length + 1 + post.length = pre.length + (1 + post.length) := by omega
    have hgeti : (pre ++ x :: post ++ sp)[pre.length]? = some x := by
      rw [List.append_assoc, List.getElem?_append_right (Nat.le_refl _), Nat.sub_self]; rfl
    refine ⟨⟨pre ++ post ++ ((pre ++ x :: post ++ sp).drop (pre.length + post.length)), pre.length + post.length⟩, ?_, ?_, ?_⟩
    · dsimp only
      conv => lhs; arg 3; rw [hsplit]
      rw [unlinkLoop_append, unlinkLoop_none id pre.length 0]
      · rw [Res.bind_ok, Nat.zero_add, Nat.add_comm 1 post.length, unlinkLoop, hgeti]
        dsimp only
        rw [if_pos hxi, removeAt_spec, Res.bind_ok]
        apply unlinkLoop_none
        · simp; omega
        · intro j c h1 h2 h3
          by_cases hpe : post = []
          · subst hpe; simp at h2; omega
          · exact hpost c (getElem?_drop_last pre post sp x j c (by omega) (by omega) h3 (.inr hpe))
      · simp
      · intro j c _ h2 h3
        rw [List.append_assoc, List.getElem?_append_left (by omega)] at h3
        exact hpre c (List.mem_of_getElem? h3)
    · unfold Slice.WF; simp
    · rw [hpp]
      show (pre ++ post ++ _).take (pre.length + post.length) = _
      rw [List.take_left' (by simp), List.filter_append, List.filter_cons_of_neg (by simp [hxi])]
      rw [List.filter_eq_self.mpr (fun y hy => by simpa using hpre y hy),
        List.filter_eq_self.mpr (fun y hy => by simpa using hpost y hy)]
  · refine ⟨s, unlinkLoop_none id s.len 0 s (by omega) ?_, hs, ?_⟩
    · intro j c _ h2 h3 hc
      apply hm
      refine ⟨c, ?_, hc⟩
      unfold Slice.toList
      apply List.mem_of_getElem? (i := j)
      rw [List.getElem?_take, if_pos (by omega)]; exact h3
    · rw [List.filter_eq_self.mpr]
      intro y hy
      simp only [decide_eq_true_eq]
      intro e; exact hm ⟨y, hy, e⟩

/-- A well-formed credential map. -/
def WF (c : Credentials) : Prop := ∀ o s, c o = some s → s.WF

/-- **C58** `LinkCredential` refuses the empty origin; otherwise it adds the credential at the end of
that origin's list and leaves every other origin alone. -/
theorem C58_link (c : Credentials) (hc : WF c) (o : String) (x : Credential) (sp : List Credential) :
    (o = "" → link c o x sp = .err) ∧
    (o ≠ "" → ∃ c', link c o x sp = .ok c' ∧ WF c' ∧ getCredentials c' o = some (visible c o ++ [x]) ∧
      ∀ o', o' ≠ o → getCredentials c' o' = getCredentials c o') := by
  unfold link
  refine ⟨fun h => if_pos h, fun h => ?_⟩
  rw [if_neg h]
  refine ⟨_, rfl, ?_, ?_, ?_⟩
  · intro o' s hs
    dsimp only at hs
    split at hs
    · injection hs with hs; subst hs
      cases hco : c o with
      | none => exact (push_spec ⟨[], 0⟩ (by simp [Slice.WF]) x sp).1
      | some s0 => exact (push_spec s0 (hc o s0 hco) x sp).1
    · exact hc o' s hs
  · unfold getCredentials visible getCredentials
    dsimp only
    rw [if_pos rfl]
    cases hco : c o with
    | none => exact congrArg some (push_spec ⟨[], 0⟩ (by simp [Slice.WF]) x sp).2
    | some s0 => exact congrArg some (push_spec s0 (hc o s0 hco) x sp).2
  · intro o' ho'
    unfold getCredentials
    dsimp only
    rw [if_neg ho']

/-- **C58** `UnlinkCredential` removes exactly the credential with the given id and nothing else,
provided the origin holds at most one with that id (without that proviso it fails, see below). -/
theorem C58_unlink_partial (c : Credentials) (hc : WF c) (o : String) (id : List UInt8)
    (hu : (visible c o).countP (fun x => decide (x.id = id)) ≤ 1) :
    ∃ c', unlink c o id = .ok c' ∧ WF c' ∧
      getCredentials c' o = (getCredentials c o).map (List.filter (fun x => decide (x.id ≠ id))) ∧
      ∀ o', o' ≠ o → getCredentials c' o' = getCredentials c o' := by
  unfold unlink
  cases hco : c o with
  | none => exact ⟨c, rfl, hc, by simp [getCredentials, hco], fun _ _ => rfl⟩
  | some s =>
    have hu' : s.toList.countP (fun x => decide (x.id = id)) ≤ 1 := by
      have e : visible c o = s.toList := by simp [visible, getCredentials, hco]
      rw [← e]; exact hu
    obtain ⟨s', h1, h2, h3⟩ := unlinkLoop_unique id s (hc o s hco) hu'
    dsimp only
    rw [h1, Res.bind_ok]
    refine ⟨_, rfl, ?_, ?_, ?_⟩
    · intro o' t ht
      dsimp only at ht
      split at ht
      · injection ht with ht; subst ht; exact h2
      · exact hc o' t ht
    · simp [getCredentials, hco, h3]
    · intro o' ho'
      simp [getCredentials, ho']

/-- **C58** over a whole history: as long as no credential is linked twice for the same origin, the
vault never panics and shows, for every origin, exactly the credentials linked and not unlinked since,
in order. -/
theorem C58_history (calls : List Call) (c : Credentials) (hc : WF c) (f : String → List Credential)
    (hf : ∀ o, visible c o = f o) (hnd : ∀ o, (f o).Pairwise (fun x y => x.id ≠ y.id)) (hfr : Fresh f calls) :
    ∃ c', run c calls = .ok c' ∧ WF c' ∧ ∀ o, visible c' o = calls.foldl specStep f o := by
  induction calls generalizing c f with
  | nil => exact ⟨c, rfl, hc, hf⟩
  | cons call rest ih =>
    cases call with
    | link o x sp =>
      obtain ⟨h1, h2⟩ := hfr
      by_cases ho : o = ""
      · have e := (C58_link c hc o x sp).1 ho
        have es : specStep f (.link o x sp) = f := by
          funext o'; simp [specStep, ho]
        rw [es] at h2
        obtain ⟨c', g1, g2, g3⟩ := ih c hc f hf hnd h2
        refine ⟨c', ?_, g2, ?_⟩
        · rw [run, e]; exact g1
        · intro o'; rw [List.foldl_cons, es]; exact g3 o'
      · obtain ⟨c1, e1, w1, v1, v2⟩ := (C58_link c hc o x sp).2 ho
        have hv : ∀ o', visible c1 o' = specStep f (.link o x sp) o' := by
          intro o'
          by_cases h : o' = o
          · subst h; simp [specStep, visible, v1, ho]; rw [← hf o']; rfl
          · simp only [specStep, h, false_and, if_false]
            rw [← hf o', visible, v2 o' h]; rfl
        have hn' : ∀ o', (specStep f (.link o x sp) o').Pairwise (fun x y => x.id ≠ y.id) := by
          intro o'
          by_cases h : o' = o
          · subst h
            simp only [specStep, ne_eq, ho, not_false_eq_true, and_self, if_true]
            rw [List.pairwise_append]
            refine ⟨hnd o', by simp, ?_⟩
            intro a ha b hb
            rw [List.mem_singleton.mp hb]
            exact h1 ho a ha
          · simp only [specStep, h, false_and, if_false]; exact hnd o'
        obtain ⟨c', g1, g2, g3⟩ := ih c1 w1 _ hv hn' h2
        exact ⟨c', by rw [run, e1]; exact g1, g2, fun o' => by rw [List.foldl_cons]; exact g3 o'⟩
    | unlink o id =>
      have hcnt : (visible c o).countP (fun x => decide (x.id = id)) ≤ 1 := by
        rw [hf o]
        have := hnd o
        generalize f o = l at this
        induction l with
        | nil => simp
        | cons a l ihl =>
          rw [List.pairwise_cons] at this
          rw [List.countP_cons]
          by_cases ha : a.id = id
          · have : l.countP (fun x => decide (x.id = id)) = 0 := by
              rw [List.countP_eq_zero]
              intro b hb
              have := this.1 b hb
              simp only [decide_eq_true_eq]
              intro e; exact this (ha.trans e.symm)
            simp [this, ha]
          · have := ihl this.2
            simp [ha]; exact this
      obtain ⟨c1, e1, w1, v1, v2⟩ := C58_unlink_partial c hc o id hcnt
      have hv : ∀ o', visible c1 o' = specStep f (.unlink o id) o' := by
        intro o'
        by_cases h : o' = o
        · subst h
          simp only [specStep, if_true]
          rw [← hf o', visible, v1, visible]
          cases getCredentials c o' <;> simp
        · simp only [specStep, h, if_false]
          rw [← hf o', visible, v2 o' h]; rfl
      have hn' : ∀ o', (specStep f (.unlink o id) o').Pairwise (fun x y => x.id ≠ y.id) := by
        intro o'
        simp only [specStep]
        split
        · exact (hnd o').filter _
        · exact hnd o'
      obtain ⟨c', g1, g2, g3⟩ := ih c1 w1 _ hv hn' hfr
      exact ⟨c', by rw [run, e1]; exact g1, g2, fun o' => by rw [List.foldl_cons]; exact g3 o'⟩

/-- backing-array cells from the loop's original end on, and the last cell, are never overwritten -/
theorem unlinkLoop_panics (id : List UInt8) (x : Credential) (hx : x.id = id) (k : Nat) : ∀ (i : Nat) (s : Slice),
    s.len < i + k + 1 → i + k < s.arr.length → s.arr[i + k]? = some x → s.len ≤ s.arr.length →
    unlinkLoop id i (k + 1) s = .panic := by
  induction k with
  | zero =>
    intro i s h1 h2 h3 _
    rw [unlinkLoop]
    rw [Nat.add_zero] at h3
    rw [h3]
    dsimp only
    rw [if_pos hx, removeAt, if_neg (by omega)]
    rfl
  | succ k ih =>
    intro i s h1 h2 h3 h4
    rw [unlinkLoop, List.getElem?_eq_getElem (by omega)]
    dsimp only
    split
    · unfold removeAt
      split
      · rename_i hle
        rw [Res.bind_ok]
        have hl1 : (s.arr.take i ++ (s.arr.take s.len).drop (i + 1)).length = s.len - 1 := by
          simp; omega
        apply ih
        · dsimp only; omega
        · dsimp only; rw [List.length_append, hl1]; simp; omega
        · dsimp only
          rw [List.getElem?_append_right (by omega), hl1, List.getElem?_drop,
            show s.len - 1 + (i + 1 + k - (s.len - 1)) = i + (k + 1) by omega]
          exact h3
        · dsimp only; rw [List.length_append, hl1]; omega
      · rfl
    · exact ih (i + 1) s (by omega) (by omega) (by rw [show i + 1 + k = i + (k + 1) by omega]; exact h3) h4

theorem unlinkLoop_panics2 (id : List UInt8) (x : Credential) (hx : x.id = id) (k : Nat) : ∀ (i : Nat) (s : Slice),
    s.len = i + k + 1 → s.arr[i + k]? = some x → s.len ≤ s.arr.length →
    (∃ j c, i ≤ j ∧ j < i + k ∧ s.arr[j]? = some c ∧ c.id = id) →
    unlinkLoop id i (k + 1) s = .panic := by
  induction k with
  | zero => rintro i s _ _ _ ⟨j, c, h1, h2, -⟩; omega
  | succ k ih =>
    rintro i s h1 h3 h4 ⟨j, c, j1, j2, j3, j4⟩
    have hi : i < s.arr.length := by omega
    rw [unlinkLoop, List.getElem?_eq_getElem hi]
    dsimp only
    split
    · rw [removeAt, if_pos (by omega), Res.bind_ok]
      have hl1 : (s.arr.take i ++ (s.arr.take s.len).drop (i + 1)).length = s.len - 1 := by
        simp; omega
      apply unlinkLoop_panics id x hx
      · dsimp only; omega
      · dsimp only; rw [List.length_append, hl1]; simp; omega
      · dsimp only
        rw [List.getElem?_append_right (by omega), hl1, List.getElem?_drop,
          show s.len - 1 + (i + 1 + k - (s.len - 1)) = i + (k + 1) by omega]
        exact h3
      · dsimp only; rw [List.length_append, hl1]; omega
    · rename_i hne
      apply ih (i + 1) s (by omega) (by rw [show i + 1 + k = i + (k + 1) by omega]; exact h3) h4
      refine ⟨j, c, ?_, by omega, j3, j4⟩
      by_cases e : j = i
      · subst e
        rw [List.getElem?_eq_getElem hi] at j3
        injection j3 with j3
        rw [j3] at hne
        exact absurd j4 hne
      · omega

/-- **C58** (negation) if an origin holds two credentials with the same id and one of them is the last,
`UnlinkCredential` panics — and `LinkCredential` allows linking the same credential twice. -/
theorem C58_duplicate_panics (c : Credentials) (hc : WF c) (o : String) (x y : Credential)
    (pre mid : List Credential) (hxy : x.id = y.id) (hl : getCredentials c o = some (pre ++ x :: mid ++ [y])) :
    unlink c o x.id = .panic := by
  unfold unlink
  unfold getCredentials at hl
  cases hco : c o with
  | none => rw [hco] at hl; simp at hl
  | some s =>
    rw [hco] at hl
    simp only [Option.some.injEq] at hl
    dsimp only
    suffices h : unlinkLoop x.id 0 s.len s = .panic by rw [h]; rfl
    have hw := hc o s hco
    unfold Slice.WF at hw
    have hlen : s.len = pre.length + mid.length + 1 + 1 := by
      have := congrArg List.length hl
      unfold Slice.toList at this
      rw [List.length_take] at this
      simp at this; omega
    have hget : ∀ j, j < s.len → s.arr[j]? = (pre ++ x :: mid ++ [y])[j]? := by
      intro j hj
      rw [← hl, Slice.toList, List.getElem?_take, if_pos hj]
    conv => lhs; arg 3; rw [hlen]
    apply unlinkLoop_panics2 x.id y hxy.symm
    · omega
    · rw [hget _ (by omega), List.getElem?_append_right (by simp; omega)]
      simp
      rw [show pre.length + mid.length + 1 - (pre.length + (mid.length + 1)) = 0 by omega]; rfl
    · exact hw
    · refine ⟨pre.length, x, by omega, by omega, ?_, rfl⟩
      rw [hget _ (by omega), List.append_assoc, List.getElem?_append_right (Nat.le_refl _), Nat.sub_self]; rfl

/-- linking one credential twice, then unlinking it -/
def twice : List Call :=
  [.link "a.org" ⟨[1], []⟩ [], .link "a.org" ⟨[1], []⟩ [], .unlink "a.org" [1]]

/-- **C58** (negation) two public calls reach such a state: link a credential twice and unlinking it
crashes. -/
theorem C58_link_twice_unlink_panics : run newCredentials twice = .panic := by
  unfold twice
  rfl

/-- **C58** (negation) and when it does not crash it may leave a copy behind: with the same id linked
twice and another one after, one copy survives the unlink. -/
theorem C58_duplicate_survives : ∃ c c', run newCredentials [.link "a.org" ⟨[1], []⟩ [],
      .link "a.org" ⟨[1], []⟩ [], .link "a.org" ⟨[2], []⟩ []] = .ok c ∧ unlink c "a.org" [1] = .ok c' ∧
      visible c' "a.org" = [⟨[1], []⟩, ⟨[2], []⟩] :=
  ⟨_, _, rfl, rfl, rfl⟩

/-! ## Authenticator counter -/

/-- internal/motr/models/authenticator.go:6-11 `Authenticator`; the attachment and AAGUID are never
changed. -/
structure Authenticator where
  signCount : UInt32
  cloneWarning : Bool
deriving DecidableEq

/-- internal/motr/models/authenticator.go:36-44 `UpdateCounter` -/
def updateCounter (a : Authenticator) (authDataCount : UInt32) : Authenticator :=
  if authDataCount ≤ a.signCount ∧ (authDataCount ≠ 0 ∨ a.signCount ≠ 0) then { a with cloneWarning := true }
  else { a with signCount := authDataCount }

/-- WebAuthn's rule: the reported counter advanced, or counters are not in use (both zero). -/
def Advances (stored reported : UInt32) : Prop := stored < reported ∨ (stored = 0 ∧ reported = 0)

/-- **C59** one update follows the WebAuthn rule: an advancing counter is stored and raises no warning;
anything else raises the warning and leaves the counter. -/
theorem C59_update (a : Authenticator) (n : UInt32) :
    (Advances a.signCount n → updateCounter a n = ⟨n, a.cloneWarning⟩) ∧
    (¬ Advances a.signCount n → updateCounter a n = ⟨a.signCount, true⟩) := by
  unfold updateCounter Advances
  constructor
  · intro h
    rw [if_neg]
    rintro ⟨h1, h2⟩
    rcases h with h | ⟨h, h'⟩
    · exact absurd h (UInt32.not_lt.mpr h1)
    · rcases h2 with h2 | h2
      · exact h2 h'
      · exact h2 h
  · intro h
    rw [if_pos]
    refine ⟨UInt32.not_lt.mp (fun h' => h (.inl h')), ?_⟩
    by_cases h0 : n = 0
    · right; intro h1; exact h (.inr ⟨h1, h0⟩)
    · exact .inl h0

theorem advances_trans {a b c : UInt32} (h1 : Advances a b) (h2 : Advances b c) : Advances a c := by
  unfold Advances at *
  rcases h1 with h1 | ⟨rfl, rfl⟩
  · rcases h2 with h2 | ⟨rfl, rfl⟩
    · exact .inl (UInt32.lt_trans h1 h2)
    · exact .inl h1
  · exact h2

/-- **C59** over any history: the stored counter never goes down, the warning once raised stays, and
it is raised exactly when the reported counters (after the stored one) do not keep advancing. -/
theorem C59_history (a : Authenticator) (ns : List UInt32) :
    a.signCount ≤ (ns.foldl updateCounter a).signCount ∧
    (a.cloneWarning = true → (ns.foldl updateCounter a).cloneWarning = true) ∧
    (a.cloneWarning = false →
      ((ns.foldl updateCounter a).cloneWarning = false ↔ (a.signCount :: ns).Pairwise Advances)) ∧
    (∀ n ∈ ns, n ≤ (ns.foldl updateCounter a).signCount) := by
  induction ns generalizing a with
  | nil => simp
  | cons n ns ih =>
    rw [List.foldl_cons]
    by_cases h : Advances a.signCount n
    · rw [(C59_update a n).1 h]
      obtain ⟨i1, i2, i3, i4⟩ := ih ⟨n, a.cloneWarning⟩
      have hle : a.signCount ≤ n := by
        rcases h with h | ⟨h, h'⟩
        · exact UInt32.le_of_lt h
        · rw [h, h']; exact UInt32.le_refl 0
      refine ⟨UInt32.le_trans hle i1, i2, ?_, ?_⟩
      · intro hw
        rw [i3 hw, List.pairwise_cons (a := a.signCount)]
        constructor
        · intro hp
          refine ⟨?_, hp⟩
          intro m hm
          rcases List.mem_cons.mp hm with e | e
          · rw [e]; exact h
          · exact advances_trans h ((List.pairwise_cons.mp hp).1 m e)
        · exact fun hp => hp.2
      · intro m hm
        rcases List.mem_cons.mp hm with e | e
        · rw [e]; exact i1
        · exact i4 m e
    · rw [(C59_update a n).2 h]
      obtain ⟨i1, i2, i3, i4⟩ := ih ⟨a.signCount, true⟩
      refine ⟨i1, fun _ => i2 rfl, ?_, ?_⟩
      · intro _
        rw [i2 rfl]
        simp only [Bool.true_eq_false, false_iff]
        intro hp
        exact h ((List.pairwise_cons.mp hp).1 n (by simp))
      · intro m hm
        rcases List.mem_cons.mp hm with e | e
        · rw [e]
          exact UInt32.le_trans (UInt32.not_lt.mp (fun h' => h (.inl h'))) i1
        · exact i4 m e

/-- **C59** in particular a replay — the same nonzero counter reported twice, at any distance — always
leaves the warning raised. -/
theorem C59_replay (a : Authenticator) (pre mid post : List UInt32) (n : UInt32) (hn : n ≠ 0) :
    ((pre ++ n :: mid ++ n :: post).foldl updateCounter a).cloneWarning = true := by
  cases hw : a.cloneWarning with
  | true => exact (C59_history a _).2.1 hw
  | false =>
    cases hf : ((pre ++ n :: mid ++ n :: post).foldl updateCounter a).cloneWarning with
    | true => rfl
    | false =>
      have hp := ((C59_history a _).2.2.1 hw).mp hf
      have hp2 := (List.pairwise_cons.mp hp).2
      have h3 := (List.pairwise_append.mp hp2).2.2 n (by simp) n (by simp)
      rcases h3 with h3 | ⟨h3, -⟩
      · exact absurd h3 (UInt32.lt_irrefl n)
      · exact absurd h3 hn

/-! ## The hypotheses are met -/

example : WF newCredentials ∧ ∀ o, visible newCredentials o = [] := ⟨fun _ _ h => (nomatch h), fun _ => rfl⟩

example : Fresh (fun _ => []) [.link "a.org" ⟨[1], []⟩ [], .link "a.org" ⟨[2], []⟩ [], .unlink "a.org" [1],
    .link "a.org" ⟨[1], [9]⟩ []] := by
  simp [Fresh, specStep]

example : ∃ c, run newCredentials [.link "a.org" ⟨[1], []⟩ [⟨[], []⟩], .link "a.org" ⟨[2], []⟩ [], .unlink "a.org" [1],
    .link "" ⟨[2], []⟩ [], .link "a.org" ⟨[1], [9]⟩ []] = .ok c ∧ visible c "a.org" = [⟨[2], []⟩, ⟨[1], [9]⟩] :=
  ⟨_, rfl, rfl⟩

example : [0, 0, 3, 7].foldl updateCounter ⟨0, false⟩ = ⟨7, false⟩ ∧
    [5, 5].foldl updateCounter ⟨0, false⟩ = ⟨5, true⟩ := by decide

end Verif.App.Vault
