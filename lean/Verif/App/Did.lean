/-
Model of the x/did keeper: parameters, genesis and the message server, and its properties
(C46, C57).

The module store is a byte-keyed store.  Parameters live at one key, the three ORM tables at keys of
their own.  The parameter type and its codec are arbitrary; table rows are an id and opaque bytes.
-/

set_option linter.unusedSectionVars false

namespace Verif.App.Did

/-- The module's KV store (x/did/keeper/keeper.go:34-58: one `storeService` for both the parameter
item and the ORM tables). -/
abbrev Store := List UInt8 → Option (List UInt8)

/-- Writing one key. -/
def Store.set (s : Store) (k v : List UInt8) : Store := fun k' => if k' = k then some v else s k'

/-- The parameter codec (`codec.CollValue[types.Params]`, x/did/keeper/keeper.go:51), a dependency:
arbitrary here.  `enc p = none` is an encoding error. -/
structure Codec (P : Type) where
  enc : P → Option (List UInt8)
  dec : List UInt8 → Option P

/-- x/did/types/keys.go:9-12 `ParamsKey` -/
def paramsKey : List UInt8 := [0]

/-- A row of one of the tables: primary key `id` and the rest of the record
(proto/did/v1/state.proto:10-90). -/
structure Row where
  id : List UInt8
  body : List UInt8
deriving DecidableEq

/-- The store key of a row: `ORMModuleSchema`'s prefix and file id (x/did/types/keys.go:22-27), the
table id (proto/did/v1/state.proto:11-14, 42-45, 69-72) and index 0, then the primary key.  The layout
after the prefix is that of the ORM library. -/
def ormKey (table : UInt8) (id : List UInt8) : List UInt8 := [0, 1, table, 0] ++ id

/-- `Insert` of a table (api/did/v1/state.cosmos_orm.go:64-66, 208-210, 352-354): refused if the
primary key is present. -/
def insert (s : Store) (table : UInt8) (r : Row) : Store × Bool :=
  match s (ormKey table r.id) with
  | some _ => (s, false)
  | none => (s.set (ormKey table r.id) r.body, true)

variable {P : Type}

/-- `k.Params.Set` -/
def paramsSet (C : Codec P) (s : Store) (p : P) : Store × Bool :=
  match C.enc p with
  | none => (s, false)
  | some b => (s.set paramsKey b, true)

/-- `k.Params.Get`; `none` is an error (absent or undecodable) -/
def paramsGet (C : Codec P) (s : Store) : Option P := (s paramsKey).bind C.dec

/-- x/did/keeper/keeper.go:34-38 `NewKeeper`: an empty authority means the gov module account. -/
def newAuthority (govAddress authority : String) : String := if authority = "" then govAddress else authority

/-- The messages of the service.  `initController` carries the results of the three list getters called at
x/did/keeper/server.go:29,38,47, which are not defined in this repository: each returns a list and
whether it returned an error. -/
inductive Msg (P : Type) where
  | updateParams (authority : String) (params : P)
  | initController (assertions keyshares verifications : List Row × Bool)
  | authenticate

/-- How a handler ends. -/
inductive Status where
  | ok | err | panic
deriving DecidableEq

/-- The insertion loop (x/did/keeper/server.go:30-36 and its two copies 39-45, 48-54). -/
def insertAll (s : Store) (table : UInt8) : List Row → Store × Bool
  | [] => (s, true)
  | r :: rest => match insert s table r with
    | (s', false) => (s', false)
    | (s', true) => insertAll s' table rest

/-- one of the three blocks: the rows are inserted if the getter returned an error -/
def block (s : Store) (table : UInt8) (l : List Row × Bool) : Store × Bool :=
  if l.2 = true then insertAll s table l.1 else (s, true)

/-- x/did/keeper/server.go:25-56 `InitializeController` -/
def initController (s : Store) (a k v : List Row × Bool) : Store × Status :=
  match block s 1 a with
  | (s1, false) => (s1, .err)
  | (s1, true) => match block s1 2 k with
    | (s2, false) => (s2, .err)
    | (s2, true) => match block s2 4 v with
      | (s3, false) => (s3, .err)
      | (s3, true) => (s3, .ok)

/-- x/did/keeper/server.go:26-73: the message handlers. -/
def handle (C : Codec P) (authority : String) (s : Store) : Msg P → Store × Status
  | .updateParams a p =>
    if authority ≠ a then (s, .err)
    else match paramsSet C s p with
      | (s', true) => (s', .ok)
      | (s', false) => (s', .err)
  | .initController a k v => initController s a k v
  | .authenticate => (s, .panic)

/-- x/did/keeper/genesis.go:16-23 keeper `InitGenesis` (`Validate` always succeeds,
x/did/types/genesis.go:57-60). -/
def initGenesis (C : Codec P) (s : Store) (p : P) : Store × Bool := paramsSet C s p

/-- x/did/keeper/genesis.go:26-37 keeper `ExportGenesis`; `none` is the panic -/
def exportGenesis (C : Codec P) (s : Store) : Option P := paramsGet C s

/-- x/did/module.go:124-131 module `InitGenesis`: the genesis message is ignored; `none` is the panic -/
def moduleInitGenesis (C : Codec P) (dflt : P) (s : Store) (_message : List UInt8) : Option Store :=
  match paramsSet C s dflt with
  | (s', true) => some s'
  | (_, false) => none

/-- x/did/module.go:133-136 module `ExportGenesis`, with `marshal` the JSON codec -/
def moduleExportGenesis (C : Codec P) (marshal : P → List UInt8) (s : Store) : Option (List UInt8) :=
  (exportGenesis C s).map marshal

/-- A history: messages delivered one after the other.  After a handler that failed or panicked the
surrounding application may discard the handler's writes or not (the flag). -/
def run (C : Codec P) (authority : String) (s : Store) : List (Msg P × Bool) → Store
  | [] => s
  | (m, keep) :: rest =>
    let r := handle C authority s m
    run C authority (if r.2 = .ok ∨ keep = true then r.1 else s) rest

/-! ## Specification -/

/-- The parameter values that the authority set, in order: those of the `UpdateParams` messages whose
authority field is the module authority and whose parameters encode. -/
def authorised (C : Codec P) (authority : String) : List (Msg P × Bool) → List (List UInt8)
  | [] => []
  | (.updateParams a p, _) :: rest =>
    if a = authority then (C.enc p).toList ++ authorised C authority rest else authorised C authority rest
  | _ :: rest => authorised C authority rest

/-! ## Proofs -/

theorem ormKey_ne (t : UInt8) (id : List UInt8) : paramsKey ≠ ormKey t id := by simp [paramsKey, ormKey]

theorem insert_params (s : Store) (t : UInt8) (r : Row) : (insert s t r).1 paramsKey = s paramsKey := by
  unfold insert
  cases s (ormKey t r.id) with
  | some _ => rfl
  | none => simp only [Store.set]; rw [if_neg (ormKey_ne t r.id)]

theorem insertAll_params (s : Store) (t : UInt8) (l : List Row) : (insertAll s t l).1 paramsKey = s paramsKey := by
  induction l generalizing s with
  | nil => rfl
  | cons r rest ih =>
    have h := insert_params s t r
    unfold insertAll
    cases hi : insert s t r with
    | mk s' ok =>
      rw [hi] at h
      cases ok with
      | false => exact h
      | true => simp only; rw [ih]; exact h

theorem block_params (s : Store) (t : UInt8) (l : List Row × Bool) : (block s t l).1 paramsKey = s paramsKey := by
  unfold block
  split
  · exact insertAll_params s t l.1
  · rfl

theorem initController_params (s : Store) (a k v : List Row × Bool) : (initController s a k v).1 paramsKey = s paramsKey := by
  unfold initController
  have h1 := block_params s 1 a
  cases hb1 : block s 1 a with
  | mk s1 o1 =>
    rw [hb1] at h1
    cases o1 with
    | false => exact h1
    | true =>
      have h2 := block_params s1 2 k
      simp only
      cases hb2 : block s1 2 k with
      | mk s2 o2 =>
        rw [hb2] at h2
        cases o2 with
        | false => exact h2.trans h1
        | true =>
          have h3 := block_params s2 4 v
          simp only
          cases hb3 : block s2 4 v with
          | mk s3 o3 =>
            rw [hb3] at h3
            cases o3 <;> exact (h3.trans h2).trans h1

/-- **C46** one message changes the stored parameters only if it is an `UpdateParams` whose authority
field is the module authority; then exactly to the given value. -/
theorem C46_handle (C : Codec P) (authority : String) (s : Store) (m : Msg P) :
    (handle C authority s m).1 paramsKey = s paramsKey ∨
      ∃ p b, m = .updateParams authority p ∧ C.enc p = some b ∧
        (handle C authority s m).1 paramsKey = some b := by
  cases m with
  | updateParams a p =>
    rw [handle]
    by_cases h : authority = a
    · subst h
      rw [if_neg (by simp)]
      unfold paramsSet
      cases he : C.enc p with
      | none => exact .inl rfl
      | some b => exact .inr ⟨p, b, rfl, he, by simp [Store.set]⟩
    · rw [if_pos h]; exact .inl rfl
  | initController a k v => exact .inl (initController_params s a k v)
  | authenticate => exact .inl rfl

/-- **C46** `UpdateParams` from anyone else is an error that writes nothing at all. -/
theorem C46_other_refused (C : Codec P) (authority a : String) (s : Store) (p : P) (h : a ≠ authority) :
    handle C authority s (.updateParams a p) = (s, .err) := by
  rw [handle, if_pos (fun e => h e.symm)]

/-- **C46** after any history the stored parameters are those of the last `UpdateParams` of the
authority, or the initial ones if there was none — whatever else happened, whatever failed, and
whether or not the writes of failed messages are discarded. -/
theorem C46_history (C : Codec P) (authority : String) (s : Store) (hist : List (Msg P × Bool)) :
    (run C authority s hist) paramsKey =
      match (authorised C authority hist).getLast? with
      | some b => some b
      | none => s paramsKey := by
  induction hist generalizing s with
  | nil => rfl
  | cons x rest ih =>
    obtain ⟨m, keep⟩ := x
    rw [run, ih]
    cases m with
    | updateParams a p =>
      rw [authorised]
      by_cases ha : a = authority
      · subst ha
        rw [if_pos rfl]
        have hh : handle C a s (.updateParams a p) = match C.enc p with
            | none => (s, .err) | some b => (s.set paramsKey b, .ok) := by
          rw [handle, paramsSet, if_neg (by simp)]
          cases C.enc p <;> rfl
        rw [hh]
        cases C.enc p with
        | none => simp
        | some b =>
          simp only [true_or, if_true, Option.toList_some, List.singleton_append, List.getLast?_cons]
          cases hl : (authorised C a rest).getLast? with
          | none =>
            simp [Store.set]
          | some c =>
            simp
      · rw [if_neg ha, C46_other_refused C authority a s p ha]
        simp
    | initController a k v =>
      rw [authorised]
      have := initController_params s a k v
      have e : (if (handle C authority s (.initController a k v)).2 = .ok ∨ keep = true
          then (handle C authority s (.initController a k v)).1 else s) paramsKey = s paramsKey := by
        split
        · exact this
        · rfl
      rw [e]
      simp
    | authenticate =>
      rw [authorised]
      have e : (if (handle C authority s (Msg.authenticate (P := P))).2 = .ok ∨ keep = true
          then (handle C authority s (Msg.authenticate (P := P))).1 else s) paramsKey = s paramsKey := by
        split <;> rfl
      rw [e]
      simp

/-- **C46** the module always has an authority: leaving it out gives it to the governance account, so
nobody can act for the module by sending an empty authority. -/
theorem C46_authority_never_empty (gov authority : String) (h : gov ≠ "") :
    newAuthority gov authority ≠ "" ∧ (authority ≠ "" → newAuthority gov authority = authority) ∧
      newAuthority gov "" = gov := by
  unfold newAuthority
  refine ⟨?_, fun h' => if_neg h', if_pos rfl⟩
  split
  · exact h
  · assumption

/-- **C46** keeper-level genesis: exporting and importing into any other store restores the
parameters. -/
theorem C46_genesis_roundtrip (C : Codec P) (hC : ∀ p b, C.enc p = some b → C.dec b = some p)
    (he : ∀ p, ∃ b, C.enc p = some b) (s' : Store) (p : P) :
    ∃ s'', initGenesis C s' p = (s'', true) ∧ exportGenesis C s'' = some p ∧
      ∀ k, k ≠ paramsKey → s'' k = s' k := by
  obtain ⟨b, hb⟩ := he p
  refine ⟨s'.set paramsKey b, ?_, ?_, ?_⟩
  · unfold initGenesis paramsSet; rw [hb]
  · simp [exportGenesis, paramsGet, Store.set, hC p b hb]
  · intro k hk; simp [Store.set, hk]

/-- **C46** (the claim fails at module level) the module's `InitGenesis` ignores the genesis file: for
every message the parameters become the defaults. -/
theorem C46_module_genesis_ignored (C : Codec P) (hC : ∀ p b, C.enc p = some b → C.dec b = some p)
    (he : ∀ p, ∃ b, C.enc p = some b) (dflt : P) (s : Store) (message : List UInt8) :
    ∃ s', moduleInitGenesis C dflt s message = some s' ∧ exportGenesis C s' = some dflt := by
  obtain ⟨b, hb⟩ := he dflt
  refine ⟨s.set paramsKey b, ?_, ?_⟩
  · unfold moduleInitGenesis paramsSet; rw [hb]
  · simp [exportGenesis, paramsGet, Store.set, hC dflt b hb]

/-- **C46** (negation) so exporting and re-importing a chain through the module loses every parameter
change: a chain whose parameters are not the defaults exports them, and after the import has the
defaults. -/
theorem C46_module_genesis_loses (C : Codec P) (hC : ∀ p b, C.enc p = some b → C.dec b = some p)
    (he : ∀ p, ∃ b, C.enc p = some b) (dflt p : P) (hp : p ≠ dflt) (marshal : P → List UInt8) (s0 : Store) :
    ∃ s msg s', moduleExportGenesis C marshal s = some msg ∧ exportGenesis C s = some p ∧
      moduleInitGenesis C dflt s0 msg = some s' ∧ exportGenesis C s' ≠ some p := by
  obtain ⟨b, hb⟩ := he p
  have h1 : exportGenesis C (s0.set paramsKey b) = some p := by
    simp [exportGenesis, paramsGet, Store.set, hC p b hb]
  obtain ⟨s', hs, hs'⟩ := C46_module_genesis_ignored C hC he dflt s0 (marshal p)
  refine ⟨s0.set paramsKey b, marshal p, s', by rw [moduleExportGenesis, h1]; rfl, h1, hs, ?_⟩
  rw [hs']
  intro e; injection e with e; exact hp e.symm

/-! ### InitializeController (C57) -/

/-- **C57** (negation) a well-formed request — all three lists decode — is answered with success and
stores nothing: no assertion, keyshare or verification is inserted. -/
theorem C57_wellformed_stores_nothing (C : Codec P) (authority : String) (s : Store)
    (a k v : List Row) :
    handle C authority s (.initController (a, false) (k, false) (v, false)) = (s, .ok) := by
  simp [handle, initController, block]

/-- The rows of `l` are present in table `t`. -/
def Stored (s : Store) (t : UInt8) (l : List Row) : Prop := ∀ r ∈ l, s (ormKey t r.id) = some r.body

theorem ormKey_inj {t t' : UInt8} {i i' : List UInt8} (h : ormKey t i = ormKey t' i') : t = t' ∧ i = i' := by
  simpa [ormKey] using h

/-- other keys, and rows present before, are untouched by an insertion loop -/
theorem insertAll_keeps (t : UInt8) (l : List Row) (s : Store) (key b : List UInt8) (h : s key = some b) :
    (insertAll s t l).1 key = some b := by
  induction l generalizing s with
  | nil => exact h
  | cons r rest ih =>
    unfold insertAll
    have h' : (insert s t r).1 key = some b := by
      unfold insert
      cases hs : s (ormKey t r.id) with
      | some _ => exact h
      | none =>
        simp only [Store.set]
        rw [if_neg]
        · exact h
        · intro e; rw [e, hs] at h; cases h
    cases hi : insert s t r with
    | mk s' ok =>
      rw [hi] at h'
      cases ok with
      | false => exact h'
      | true => exact ih s' h'

theorem insertAll_stored (t : UInt8) (l : List Row) (s : Store) (h : (insertAll s t l).2 = true) :
    Stored (insertAll s t l).1 t l := by
  induction l generalizing s with
  | nil => intro r hr; simp at hr
  | cons r rest ih =>
    intro x hx
    unfold insertAll at h ⊢
    cases hi : insert s t r with
    | mk s' ok =>
      rw [hi] at h
      cases ok with
      | false => simp at h
      | true =>
        simp only at h ⊢
        rcases List.mem_cons.mp hx with e | e
        · subst e
          apply insertAll_keeps
          unfold insert at hi
          cases hs : s (ormKey t x.id) with
          | some _ => rw [hs] at hi; simp at hi
          | none =>
            rw [hs] at hi
            simp only [Prod.mk.injEq, and_true] at hi
            rw [← hi]; simp [Store.set]
        · exact ih s' h x e

/-- **C57** the condition is inverted: a list is stored exactly when its getter reported an error.  If
all three getters report an error and the call succeeds, every row they returned is stored. -/
theorem C57_stored_on_error (C : Codec P) (authority : String) (s s' : Store) (a k v : List Row)
    (h : handle C authority s (.initController (a, true) (k, true) (v, true)) = (s', .ok)) :
    Stored s' 1 a ∧ Stored s' 2 k ∧ Stored s' 4 v := by
  simp only [handle, initController, block, if_true] at h
  cases h1 : insertAll s 1 a with
  | mk s1 o1 =>
    rw [h1] at h
    cases o1 with
    | false => simp at h
    | true =>
      simp only at h
      cases h2 : insertAll s1 2 k with
      | mk s2 o2 =>
        rw [h2] at h
        cases o2 with
        | false => simp at h
        | true =>
          simp only at h
          cases h3 : insertAll s2 4 v with
          | mk s3 o3 =>
            rw [h3] at h
            cases o3 with
            | false => simp at h
            | true =>
              simp only [Prod.mk.injEq, and_true] at h
              subst h
              have e1 := insertAll_stored 1 a s (by rw [h1])
              have e2 := insertAll_stored 2 k s1 (by rw [h2])
              have e3 := insertAll_stored 4 v s2 (by rw [h3])
              rw [h1] at e1; rw [h2] at e2; rw [h3] at e3
              refine ⟨?_, ?_, e3⟩
              · intro r hr
                have := insertAll_keeps 4 v s2 (ormKey 1 r.id) r.body
                  (by
                    have := insertAll_keeps 2 k s1 (ormKey 1 r.id) r.body (e1 r hr)
                    rw [h2] at this; exact this)
                rw [h3] at this; exact this
              · intro r hr
                have := insertAll_keeps 4 v s2 (ormKey 2 r.id) r.body (e2 r hr)
                rw [h3] at this; exact this

/-- **C57** no message ever overwrites or removes a row that is already stored. -/
theorem C57_rows_permanent (C : Codec P) (authority : String) (hist : List (Msg P × Bool)) (s : Store)
    (t : UInt8) (r : Row) (h : s (ormKey t r.id) = some r.body) :
    run C authority s hist (ormKey t r.id) = some r.body := by
  induction hist generalizing s with
  | nil => exact h
  | cons x rest ih =>
    obtain ⟨m, keep⟩ := x
    rw [run]
    apply ih
    have hm : (handle C authority s m).1 (ormKey t r.id) = some r.body := by
      cases m with
      | updateParams a p =>
        rw [handle]
        split
        · exact h
        · unfold paramsSet
          cases C.enc p with
          | none => exact h
          | some b => simp only [Store.set]; rw [if_neg (fun e => ormKey_ne t r.id e.symm)]; exact h
      | initController a k v =>
        have hblk : ∀ (s : Store) (t' : UInt8) (l : List Row × Bool), s (ormKey t r.id) = some r.body →
            (block s t' l).1 (ormKey t r.id) = some r.body := by
          intro s t' l h
          unfold block
          split
          · exact insertAll_keeps t' l.1 s _ _ h
          · exact h
        show (initController s a k v).1 _ = _
        unfold initController
        have h1 := hblk s 1 a h
        cases hb1 : block s 1 a with
        | mk s1 o1 =>
          rw [hb1] at h1
          cases o1 with
          | false => exact h1
          | true =>
            have h2 := hblk s1 2 k h1
            simp only
            cases hb2 : block s1 2 k with
            | mk s2 o2 =>
              rw [hb2] at h2
              cases o2 with
              | false => exact h2
              | true =>
                have h3 := hblk s2 4 v h2
                simp only
                cases hb3 : block s2 4 v with
                | mk s3 o3 =>
                  rw [hb3] at h3
                  cases o3 <;> exact h3
      | authenticate => exact h
    split
    · exact hm
    · exact h

/-! ## The hypotheses are met -/

/-- a toy codec for one-byte parameters -/
def toyCodec : Codec UInt8 := ⟨fun p => some [p], fun b => b.head?⟩

example : (∀ p b, toyCodec.enc p = some b → toyCodec.dec b = some p) ∧ ∀ p, ∃ b, toyCodec.enc p = some b :=
  ⟨fun p b h => by simp only [toyCodec, Option.some.injEq] at h; subst h; rfl, fun p => ⟨[p], rfl⟩⟩

example : run toyCodec "gov" (fun _ => none)
    [(.updateParams "gov" 3, false), (.updateParams "mallory" 9, true), (.authenticate, true),
      (.initController ([⟨[7], [8]⟩], true) ([], false) ([], true), false)] paramsKey = some [3] := by
  decide +kernel

example : (handle toyCodec "gov" (fun _ => none)
    (.initController ([⟨[7], [8]⟩, ⟨[9], []⟩], true) ([⟨[7], [1]⟩], true) ([], true))).2 = .ok := by decide +kernel

example : (newAuthority "cosmos1gov" "") = "cosmos1gov" := by decide +kernel

end Verif.App.Did
