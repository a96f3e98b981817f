import Verif.Base.GoRes

/-
Model of `pkg/fs` (files, folders, loading from IPFS) over a small file-system semantics, and its
properties (C61, C62).

A path is the list of its components below the root (paths are absolute and clean, as `filepath.Join`
returns them).  The operating system's calls are modelled on a map from paths to entries; there are no
symbolic links, permissions or I/O failures other than those caused by the shape of the tree.
-/

set_option linter.unusedSectionVars false

namespace Verif.App.Fs

/-- An entry of the file system. -/
inductive Entry where
  | dir
  | file (data : List UInt8)
deriving DecidableEq

/-- A clean absolute path. -/
abbrev Path := List String

/-- The file system.  The root is a directory. -/
abbrev FS := Path → Option Entry

/-- the entry at a path; the root is always a directory -/
def at_ (s : FS) (p : Path) : Option Entry := if p = [] then some .dir else s p

/-- changing one entry -/
def upd (s : FS) (p : Path) (e : Option Entry) : FS := fun q => if q = p then e else s q

/-- `os.MkdirAll`: fails if the path or one of its ancestors is a file; makes all of them
directories. -/
def mkdirAll (s : FS) (p : Path) : Res FS :=
  if (List.range (p.length + 1)).all (fun i => match at_ s (p.take i) with | some (.file _) => false | _ => true) then
    .ok (fun q => if q.isPrefixOf p = true then some .dir else s q)
  else .err

/-- `os.Create` (open, create or truncate): fails on a directory and if the parent is not a
directory. -/
def create (s : FS) (p : Path) : Res FS :=
  match at_ s p with
  | some .dir => .err
  | _ => if at_ s p.dropLast = some .dir then .ok (upd s p (some (.file []))) else .err

/-- writing the whole contents of an open file -/
def fill (s : FS) (p : Path) (data : List UInt8) : FS := upd s p (some (.file data))

/-! ## Paths -/

/-- one component of a path given to `filepath.Join` -/
def cleanStep (p : Path) (c : String) : Path :=
  if c = "" ∨ c = "." then p else if c = ".." then p.dropLast else p ++ [c]

/-- pkg/fs/folder.go:125-127 `Join` (`filepath.Join`): the name is split at slashes and cleaned.  `parts`
is the name split at `/`. -/
def join (p : Path) (parts : List String) : Path := parts.foldl cleanStep p

/-! ## Files and folders -/

/-- pkg/fs/file.go:30-32 `File.Read`, pkg/fs/folder.go:89-91 `Folder.ReadFile` -/
def read (s : FS) (p : Path) : Res (List UInt8) :=
  match at_ s p with
  | some (.file d) => .ok d
  | _ => .err

/-- pkg/fs/file.go:35-37 `File.Write`, pkg/fs/folder.go:84-86 `Folder.WriteFile` -/
def write (s : FS) (p : Path) (data : List UInt8) : Res FS := do
  let s ← create s p
  .ok (fill s p data)

/-- pkg/fs/file.go:40-49 `File.Append`: opens for appending, creating the file if there is none -/
def append (s : FS) (p : Path) (data : List UInt8) : Res FS :=
  match at_ s p with
  | some .dir => .err
  | some (.file d) => .ok (fill s p (d ++ data))
  | none => if at_ s p.dropLast = some .dir then .ok (fill s p data) else .err

/-- pkg/fs/folder.go:136-151 `Folder.Touch` -/
def touch (s : FS) (p : Path) : Res FS :=
  match at_ s p with
  | none => create s p
  | some _ => .ok s

/-- pkg/fs/folder.go:94-112 `CopyFile`: the file system afterwards and whether an error was returned.
The source is read after the destination was created, that is truncated. -/
def copyFile (s : FS) (src dst : Path) : FS × Bool :=
  match at_ s src with
  | none => (s, false)
  | some _ => match create s dst with
    | .ok s' => match at_ s' src with
      | some (.file d) => (fill s' dst d, true)
      | _ => (s', false)
    | _ => (s, false)

/-! ## Loading from IPFS -/

/-- An IPFS node (`files.Node`): a file, a directory, or something else (a link).  Entry names come
split at slashes. -/
inductive Node where
  | file (data : List UInt8)
  | dir (entries : List (List String × Node))
  | other

mutual
/-- pkg/fs/folder.go:218-255 `LoadNodeInFolder`: the file system afterwards and whether it succeeded. -/
def load (s : FS) (p : Path) : Node → FS × Bool
  | .file data => match mkdirAll s p with
    | .ok s1 => match create s1 p with
      | .ok s2 => (fill s2 p data, true)
      | _ => (s1, false)
    | _ => (s, false)
  | .dir entries => match mkdirAll s p with
    | .ok s1 => loadEntries s1 p entries
    | _ => (s, false)
  | .other => match mkdirAll s p with
    | .ok s1 => (s1, false)
    | _ => (s, false)

/-- pkg/fs/folder.go:236-246: the entries of a directory, one after the other -/
def loadEntries (s : FS) (p : Path) : List (List String × Node) → FS × Bool
  | [] => (s, true)
  | (name, child) :: rest => match load s (join p name) child with
    | (s1, false) => (s1, false)
    | (s1, true) => loadEntries s1 p rest
end

mutual
/-- some file occurs in the node -/
def hasFile : Node → Bool
  | .file _ => true
  | .dir es => hasFileL es
  | .other => false
/-- some file occurs in the entries -/
def hasFileL : List (List String × Node) → Bool
  | [] => false
  | (_, n) :: rest => hasFile n || hasFileL rest
end

/-! ## Proofs -/

theorem mkdirAll_self (s s' : FS) (p : Path) (h : mkdirAll s p = .ok s') : at_ s' p = some .dir := by
  unfold mkdirAll at h
  split at h
  · injection h with h
    subst h
    unfold at_
    split
    · rfl
    · simp
  · cases h

/-- **C61** (negation) loading a file never works: whatever the file system, the folder is created
first and then cannot be opened as a file. -/
theorem C61_file_never_loads (s : FS) (p : Path) (data : List UInt8) : (load s p (.file data)).2 = false := by
  rw [load]
  cases h : mkdirAll s p with
  | ok s1 =>
    dsimp only
    unfold create
    rw [mkdirAll_self s s1 p h]
  | err => rfl
  | panic => rfl

mutual
theorem load_hasFile (s : FS) (p : Path) : ∀ n : Node, hasFile n = true → (load s p n).2 = false
  | .file data, _ => C61_file_never_loads s p data
  | .dir es, h => by
    rw [load]
    rw [hasFile] at h
    cases mkdirAll s p with
    | ok s1 => exact loadEntries_hasFile s1 p es h
    | err => rfl
    | panic => rfl
  | .other, h => by simp [hasFile] at h
theorem loadEntries_hasFile (s : FS) (p : Path) : ∀ es : List (List String × Node), hasFileL es = true →
    (loadEntries s p es).2 = false
  | [], h => by simp [hasFileL] at h
  | (name, child) :: rest, h => by
    rw [loadEntries]
    cases hl : load s (join p name) child with
    | mk s1 ok =>
      cases ok with
      | false => rfl
      | true =>
        dsimp only
        rw [hasFileL] at h
        cases hc : hasFile child with
        | true =>
          have := load_hasFile s (join p name) child hc
          rw [hl] at this; cases this
        | false =>
          rw [hc] at h
          exact loadEntries_hasFile s1 p rest (by simpa using h)
end

/-- **C61** (negation) so no folder that contains a file, at any depth, can be loaded back from IPFS:
the load fails for every node with a file in it, every target and every file system. -/
theorem C61_folder_with_file_never_loads (s : FS) (p : Path) (n : Node) (h : hasFile n = true) :
    (load s p n).2 = false := load_hasFile s p n h

/-- An entry name as directories have them: one plain component. -/
def PlainName (parts : List String) : Prop := ∃ c, parts = [c] ∧ c ≠ "" ∧ c ≠ "." ∧ c ≠ ".."

mutual
/-- every entry name in the node is plain -/
def Plain : Node → Prop
  | .file _ => True
  | .dir es => PlainL es
  | .other => True
/-- every entry name in the entries is plain -/
def PlainL : List (List String × Node) → Prop
  | [] => True
  | (name, n) :: rest => PlainName name ∧ Plain n ∧ PlainL rest
end

theorem join_plain (p : Path) (parts : List String) (h : PlainName parts) : ∃ c, join p parts = p ++ [c] := by
  obtain ⟨c, rfl, h1, h2, h3⟩ := h
  refine ⟨c, ?_⟩
  simp [join, cleanStep, h1, h2, h3]

/-- what `mkdirAll p` may change: ancestors of `p` and `p` itself -/
theorem mkdirAll_frame (s s' : FS) (p q : Path) (h : mkdirAll s p = .ok s') (hq : ¬ q <+: p) : s' q = s q := by
  unfold mkdirAll at h
  split at h
  · injection h with h
    subst h
    dsimp only
    rw [if_neg]
    rwa [List.isPrefixOf_iff_prefix]
  · cases h

theorem create_frame (s s' : FS) (p q : Path) (h : create s p = .ok s') (hq : q ≠ p) : s' q = s q := by
  unfold create at h
  split at h
  · cases h
  · split at h
    · injection h with h; subst h; simp [upd, hq]
    · cases h

mutual
theorem load_frame (p0 : Path) (q : Path) (h1 : ¬ q <+: p0) (h2 : ¬ p0 <+: q) :
    ∀ (n : Node) (s : FS) (p : Path), p0 <+: p → Plain n → (load s p n).1 q = s q
  | .file data, s, p, hp, _ => by
    have hqp : ¬ q <+: p := fun h => by
      rcases List.prefix_or_prefix_of_prefix h hp with h | h
      · exact h1 h
      · exact h2 h
    rw [load]
    cases hm : mkdirAll s p with
    | ok s1 =>
      dsimp only
      cases hc : create s1 p with
      | ok s2 =>
        have : q ≠ p := fun e => hqp (e ▸ List.prefix_refl _)
        simp only [fill, upd, if_neg this]
        rw [create_frame s1 s2 p q hc this, mkdirAll_frame s s1 p q hm hqp]
      | err => exact mkdirAll_frame s s1 p q hm hqp
      | panic => exact mkdirAll_frame s s1 p q hm hqp
    | err => rfl
    | panic => rfl
  | .dir es, s, p, hp, hn => by
    have hqp : ¬ q <+: p := fun h => by
      rcases List.prefix_or_prefix_of_prefix h hp with h | h
      · exact h1 h
      · exact h2 h
    rw [load]
    cases hm : mkdirAll s p with
    | ok s1 =>
      dsimp only
      rw [Plain] at hn
      rw [loadEntries_frame p0 q h1 h2 es s1 p hp hn, mkdirAll_frame s s1 p q hm hqp]
    | err => rfl
    | panic => rfl
  | .other, s, p, hp, _ => by
    have hqp : ¬ q <+: p := fun h => by
      rcases List.prefix_or_prefix_of_prefix h hp with h | h
      · exact h1 h
      · exact h2 h
    rw [load]
    cases hm : mkdirAll s p with
    | ok s1 => exact mkdirAll_frame s s1 p q hm hqp
    | err => rfl
    | panic => rfl
theorem loadEntries_frame (p0 : Path) (q : Path) (h1 : ¬ q <+: p0) (h2 : ¬ p0 <+: q) :
    ∀ (es : List (List String × Node)) (s : FS) (p : Path), p0 <+: p → PlainL es → (loadEntries s p es).1 q = s q
  | [], s, p, _, _ => by rw [loadEntries]
  | (name, child) :: rest, s, p, hp, hn => by
    rw [PlainL] at hn
    rw [loadEntries]
    obtain ⟨c, hc⟩ := join_plain p name hn.1
    have hl := load_frame p0 q h1 h2 child s (join p name)
      (by rw [hc]; exact hp.trans (List.prefix_append _ _)) hn.2.1
    cases hld : load s (join p name) child with
    | mk s1 ok =>
      rw [hld] at hl
      cases ok with
      | false => exact hl
      | true => dsimp only; rw [loadEntries_frame p0 q h1 h2 rest s1 p hp hn.2.2]; exact hl
end

/-- **C61** with plain entry names, loading touches nothing outside the target folder (and the
directories on the way to it). -/
theorem C61_stays_inside_partial (s : FS) (p : Path) (n : Node) (hn : Plain n) (q : Path)
    (h1 : ¬ q <+: p) (h2 : ¬ p <+: q) : (load s p n).1 q = s q :=
  load_frame p q h1 h2 n s p (List.prefix_refl _) hn

/-- a node received from the network whose directory has an entry `..` -/
def escaping : Node := .dir [([".."], .dir [([".."], .dir [(["planted"], .dir [])])])]

/-- **C61** (negation) entry names are not checked: a directory entry named `..` makes the load leave
the target folder, and create directories elsewhere, without an error. -/
theorem C61_escapes : ∃ (s : FS), (load s ["home", "vaults", "v"] escaping).2 = true ∧
    s ["home", "planted"] = none ∧ (load s ["home", "vaults", "v"] escaping).1 ["home", "planted"] = some .dir := by
  refine ⟨fun _ => none, ?_, rfl, ?_⟩ <;> decide +kernel

/-- **C61** the vault folder of a name lies inside the vaults folder when the name is plain, and need
not otherwise. -/
theorem C61_vault_path (root : Path) : (∀ name, PlainName name → root <+: join root name ∧ join root name ≠ root) ∧
    (root ≠ [] → ¬ root <+: join root ["..", "x"] ∨ root.getLast? = some "x") := by
  constructor
  · intro name h
    obtain ⟨c, hc⟩ := join_plain root name h
    rw [hc]
    exact ⟨List.prefix_append _ _, by simp⟩
  · intro hr
    have e : join root ["..", "x"] = root.dropLast ++ ["x"] := by simp [join, cleanStep]
    rw [e]
    by_cases hx : root.getLast? = some "x"
    · exact .inr hx
    · left
      intro hp
      have hl : (root.dropLast ++ ["x"]).length = root.length := by
        have := List.length_pos_iff.mpr hr
        simp; omega
      have := hp.eq_of_length hl.symm
      apply hx
      rw [this]; simp

/-! ### Copying and writing (C62) -/

/-- **C62** what was written is what is read, and no other path changes. -/
theorem C62_read_after_write (s s' : FS) (p : Path) (data : List UInt8) (h : write s p data = .ok s') :
    read s' p = .ok data ∧ ∀ q, q ≠ p → at_ s' q = at_ s q := by
  unfold write at h
  obtain ⟨s1, h1, h2⟩ := Res.bind_eq_ok.mp h
  injection h2 with h2
  subst h2
  have hp : p ≠ [] := by
    rintro rfl
    simp [create, at_] at h1
  refine ⟨by simp [read, at_, hp, fill, upd], ?_⟩
  intro q hq
  simp only [at_, fill, upd, if_neg hq]
  rw [create_frame s s1 p q h1 hq]

/-- **C62** appending adds to the end of what was there (nothing, if there was no file). -/
theorem C62_append (s s' : FS) (p : Path) (data : List UInt8) (h : append s p data = .ok s') :
    (∀ d, read s p = .ok d → read s' p = .ok (d ++ data)) ∧ (at_ s p = none → read s' p = .ok data) ∧
      ∀ q, q ≠ p → at_ s' q = at_ s q := by
  have hp : p ≠ [] := by
    rintro rfl
    simp [append, at_] at h
  unfold append at h
  cases ha : at_ s p with
  | none =>
    rw [ha] at h
    simp only at h
    split at h
    · injection h with h; subst h
      refine ⟨by intro d hd; simp [read, ha] at hd, by intro _; simp [read, at_, hp, fill, upd], ?_⟩
      intro q hq; simp [at_, fill, upd, hq]
    · cases h
  | some e =>
    rw [ha] at h
    cases e with
    | dir => cases h
    | file d0 =>
      simp only at h
      injection h with h; subst h
      refine ⟨?_, by simp, ?_⟩
      · intro d hd
        simp only [read, ha] at hd
        injection hd with hd; subst hd
        simp [read, at_, hp, fill, upd]
      · intro q hq; simp [at_, fill, upd, hq]

/-- **C62** `Touch` never changes an existing entry; it creates an empty file where there was none. -/
theorem C62_touch (s s' : FS) (p : Path) (h : touch s p = .ok s') :
    (at_ s p ≠ none → s' = s) ∧ (at_ s p = none → read s' p = .ok []) ∧ ∀ q, q ≠ p → at_ s' q = at_ s q := by
  unfold touch at h
  cases ha : at_ s p with
  | some e => rw [ha] at h; injection h with h; subst h; simp
  | none =>
    rw [ha] at h
    simp only at h
    have hp : p ≠ [] := by rintro rfl; simp [at_] at ha
    refine ⟨by simp, ?_, ?_⟩
    · intro _
      unfold create at h
      rw [ha] at h
      simp only at h
      split at h
      · injection h with h; subst h; simp [read, at_, hp, upd]
      · cases h
    · intro q hq
      simp only [at_]
      rw [create_frame s s' p q h hq]

/-- **C62** copying to a different path: on success the destination holds the source's contents and
nothing else has changed. -/
theorem C62_copy (s s' : FS) (src dst : Path) (hne : src ≠ dst) (h : copyFile s src dst = (s', true)) :
    ∃ d, read s src = .ok d ∧ read s' dst = .ok d ∧ ∀ q, q ≠ dst → at_ s' q = at_ s q := by
  unfold copyFile at h
  cases ha : at_ s src with
  | none => rw [ha] at h; simp at h
  | some e =>
    rw [ha] at h
    simp only at h
    cases hc : create s dst with
    | err => rw [hc] at h; simp at h
    | panic => rw [hc] at h; simp at h
    | ok s1 =>
      rw [hc] at h
      simp only at h
      have hd : dst ≠ [] := by rintro rfl; simp [create, at_] at hc
      have hs1 : at_ s1 src = at_ s src := by
        simp only [at_]; rw [create_frame s s1 dst src hc hne]
      rw [hs1, ha] at h
      cases e with
      | dir => simp at h
      | file d =>
        simp only [Prod.mk.injEq, and_true] at h
        subst h
        refine ⟨d, by simp [read, ha], by simp [read, at_, hd, fill, upd], ?_⟩
        intro q hq
        simp only [at_, fill, upd, if_neg hq]
        rw [create_frame s s1 dst q hc hq]

/-- **C62** (negation) copying a file onto itself reports success and empties the file. -/
theorem C62_copy_onto_itself_erases (s : FS) (p : Path) (d : List UInt8) (h : read s p = .ok d)
    (hpar : at_ s p.dropLast = some .dir) :
    ∃ s', copyFile s p p = (s', true) ∧ read s' p = .ok [] := by
  have ha : at_ s p = some (.file d) := by
    unfold read at h
    cases ha : at_ s p with
    | none => rw [ha] at h; cases h
    | some e =>
      rw [ha] at h
      cases e with
      | dir => cases h
      | file d' => injection h with h; rw [h]
  have hp : p ≠ [] := by rintro rfl; simp [at_] at ha
  have hc : create s p = .ok (upd s p (some (.file []))) := by
    unfold create; rw [ha]; simp only; rw [if_pos hpar]
  have h1 : at_ (upd s p (some (.file []))) p = some (.file []) := by simp [at_, hp, upd]
  refine ⟨fill (upd s p (some (.file []))) p [], ?_, by simp [read, at_, hp, fill, upd]⟩
  unfold copyFile
  rw [ha]
  simp only
  rw [hc]
  simp only
  rw [h1]

/-- **C62** (negation) a failed copy is not harmless either: copying a directory reports an error but
leaves the destination truncated or newly created. -/
theorem C62_failed_copy_truncates : ∃ s s' : FS, read s ["d", "b"] = .ok [1, 2] ∧
    copyFile s ["d", "sub"] ["d", "b"] = (s', false) ∧ read s' ["d", "b"] = .ok [] :=
  ⟨fun q => if q = ["d"] ∨ q = ["d", "sub"] then some .dir else if q = ["d", "b"] then some (.file [1, 2]) else none,
    _, rfl, rfl, rfl⟩

/-! ## The hypotheses are met -/

/-- a directory with one file -/
def oneFile : FS := fun q => if q = ["d"] then some .dir else if q = ["d", "a"] then some (.file [7]) else none

example : ∃ s', copyFile oneFile ["d", "a"] ["d", "b"] = (s', true) ∧ read s' ["d", "b"] = .ok [7] := ⟨_, rfl, rfl⟩
example : read oneFile ["d", "a"] = .ok [7] ∧ at_ oneFile ["d", "a"].dropLast = some .dir := ⟨rfl, rfl⟩
example : ∃ s' s'', write oneFile ["d", "b"] [1] = .ok s' ∧ append s' ["d", "b"] [2] = .ok s'' ∧
    read s'' ["d", "b"] = .ok [1, 2] := ⟨_, _, rfl, rfl, rfl⟩
example : ∃ s', touch oneFile ["d", "b"] = .ok s' := ⟨_, rfl⟩
example : Plain (.dir [(["a"], .dir []), (["b"], .file [])]) ∧ hasFile (.dir [(["a"], .dir []), (["b"], .file [])]) = true := by
  refine ⟨?_, rfl⟩
  simp only [Plain, PlainL, and_true, true_and]
  exact ⟨⟨"a", rfl, by decide, by decide, by decide⟩, ⟨"b", rfl, by decide, by decide, by decide⟩⟩
example : (load (fun _ => none) ["v"] (.dir [(["a"], .dir [])])).2 = true ∧
    (load (fun _ => none) ["v"] (.dir [(["a"], .dir [])])).1 ["v", "a"] = some .dir := by decide +kernel

end Verif.App.Fs
