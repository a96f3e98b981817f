import Verif.Base.GoRes

/-
Model of `pkg/did/identifier.go` (e-mail and phone DIDs) and its properties (C60).

Strings are their bytes.  BLAKE3 is an arbitrary function with 32-byte output.  `strings.EqualFold` is
ASCII case folding: one side is always `did:email:`/`did:phone:` followed by lower-case hex, and no
non-ASCII character folds to a letter occurring there.
-/

set_option linter.unusedSectionVars false

namespace Verif.App.Identifier

/-! ## Regular expressions -/

/-- The fragment of Go's regular expressions used here: one byte of a class, concatenation, and
bounded or unbounded repetition (`hi = none` is no upper bound). -/
inductive Re where
  | cls (p : UInt8 → Bool)
  | seq (a b : Re)
  | rep (a : Re) (lo : Nat) (hi : Option Nat)

/-- Whole-string matching (the expressions are anchored with `^` and `$`). -/
inductive Matches : Re → List UInt8 → Prop
  | cls {p b} (h : p b = true) : Matches (.cls p) [b]
  | seq {a b s t} (hs : Matches a s) (ht : Matches b t) : Matches (.seq a b) (s ++ t)
  | rep {a lo hi} (l : List (List UInt8)) (hm : ∀ s ∈ l, Matches a s) (hlo : lo ≤ l.length)
      (hhi : ∀ h, hi = some h → l.length ≤ h) : Matches (.rep a lo hi) l.flatten

/-- a letter -/
def alpha (b : UInt8) : Bool := (65 ≤ b.toNat && b.toNat ≤ 90) || (97 ≤ b.toNat && b.toNat ≤ 122)
/-- a decimal digit -/
def digit (b : UInt8) : Bool := 48 ≤ b.toNat && b.toNat ≤ 57
/-- exactly the byte `c` -/
def byte (c : UInt8) (b : UInt8) : Bool := b == c

/-- pkg/did/identifier.go:50 `[a-zA-Z0-9._%+\-]` -/
def localClass (b : UInt8) : Bool := alpha b || digit b || b == 46 || b == 95 || b == 37 || b == 43 || b == 45

/-- pkg/did/identifier.go:50 `[a-zA-Z0-9.\-]` -/
def domainClass (b : UInt8) : Bool := alpha b || digit b || b == 46 || b == 45

/-- pkg/did/identifier.go:50 `^[a-zA-Z0-9._%+\-]+@[a-zA-Z0-9.\-]+\.[a-zA-Z]{2,}$` -/
def emailRe : Re :=
  .seq (.rep (.cls localClass) 1 none) (.seq (.cls (byte 64)) (.seq (.rep (.cls domainClass) 1 none)
    (.seq (.cls (byte 46)) (.rep (.cls alpha) 2 none))))

/-- pkg/did/identifier.go:59 `^\+[1-9]\d{1,14}$` -/
def phoneRe : Re :=
  .seq (.cls (byte 43)) (.seq (.cls (fun b => 49 ≤ b.toNat && b.toNat ≤ 57)) (.rep (.cls digit) 1 (some 14)))

/-! ## DIDs -/

/-- lower-case hex digit -/
def hexDigit (n : Nat) : UInt8 := if n < 10 then UInt8.ofNat (48 + n) else UInt8.ofNat (87 + n)

/-- `hex.EncodeToString` -/
def hexEncode (b : List UInt8) : List UInt8 := b.flatMap (fun x => [hexDigit (x.toNat / 16), hexDigit (x.toNat % 16)])

/-- "did:email:" -/
def emailPrefix : List UInt8 := [100, 105, 100, 58, 101, 109, 97, 105, 108, 58]
/-- "did:phone:" -/
def phonePrefix : List UInt8 := [100, 105, 100, 58, 112, 104, 111, 110, 101, 58]

open Classical in
/-- pkg/did/identifier.go:47-53 `GetEmailDID` and 58-64 `GetPhoneDID`, with the expression and prefix
as parameters (the two bodies are the same). -/
noncomputable def getDID (hash : List UInt8 → List UInt8) (re : Re) (pre s : List UInt8) : Res (List UInt8) :=
  if Matches re s then .ok (pre ++ hexEncode (hash s)) else .err

/-- pkg/did/identifier.go:47-53 `GetEmailDID` -/
noncomputable def getEmailDID (hash : List UInt8 → List UInt8) (email : List UInt8) : Res (List UInt8) :=
  getDID hash emailRe emailPrefix email

/-- pkg/did/identifier.go:56-62 `GetPhoneDID` -/
noncomputable def getPhoneDID (hash : List UInt8 → List UInt8) (phone : List UInt8) : Res (List UInt8) :=
  getDID hash phoneRe phonePrefix phone

/-- ASCII lower case -/
def lower (b : UInt8) : UInt8 := if 65 ≤ b.toNat ∧ b.toNat ≤ 90 then UInt8.ofNat (b.toNat + 32) else b

/-- `strings.EqualFold` -/
def equalFold (s t : List UInt8) : Bool := s.map lower == t.map lower

/-- pkg/did/identifier.go:16-22 `EmailDID.Equals` -/
noncomputable def emailEquals (hash : List UInt8 → List UInt8) (e email : List UInt8) : Bool :=
  match getEmailDID hash email with
  | .ok other => equalFold e other
  | _ => false

/-- pkg/did/identifier.go:33-39 `PhoneDID.Equals` -/
noncomputable def phoneEquals (hash : List UInt8 → List UInt8) (p phone : List UInt8) : Bool :=
  match getPhoneDID hash phone with
  | .ok other => equalFold p other
  | _ => false

/-! ## Specification -/

/-- An e-mail address: a nonempty local part, `@`, a nonempty host part, a dot and a top-level domain
of at least two letters. -/
def IsEmail (s : List UInt8) : Prop :=
  ∃ l d t : List UInt8, s = l ++ [64] ++ d ++ [46] ++ t ∧ l ≠ [] ∧ (∀ b ∈ l, localClass b = true) ∧
    d ≠ [] ∧ (∀ b ∈ d, domainClass b = true) ∧ 2 ≤ t.length ∧ ∀ b ∈ t, alpha b = true

/-- An E.164 phone number: `+`, then 2 to 15 digits the first of which is not 0. -/
def IsPhone (s : List UInt8) : Prop :=
  ∃ n : List UInt8, s = 43 :: n ∧ 2 ≤ n.length ∧ n.length ≤ 15 ∧ (∀ b ∈ n, digit b = true) ∧ n.head? ≠ some 48

/-! ## Proofs -/

theorem matches_cls (p : UInt8 → Bool) (s : List UInt8) : Matches (.cls p) s ↔ ∃ b, s = [b] ∧ p b = true :=
  ⟨fun h => by cases h with | cls h => exact ⟨_, rfl, h⟩, fun ⟨_, e, h⟩ => e ▸ .cls h⟩

theorem matches_seq (a b : Re) (s : List UInt8) :
    Matches (.seq a b) s ↔ ∃ u v, s = u ++ v ∧ Matches a u ∧ Matches b v :=
  ⟨fun h => by cases h with | seq hs ht => exact ⟨_, _, rfl, hs, ht⟩, fun ⟨_, _, e, h1, h2⟩ => e ▸ .seq h1 h2⟩

theorem flatten_singletons (s : List UInt8) : (s.map (fun b => [b])).flatten = s := by
  induction s with
  | nil => rfl
  | cons b s ih => simp [ih]

theorem matches_rep_cls (p : UInt8 → Bool) (lo : Nat) (hi : Option Nat) (s : List UInt8) :
    Matches (.rep (.cls p) lo hi) s ↔ (∀ b ∈ s, p b = true) ∧ lo ≤ s.length ∧ ∀ h, hi = some h → s.length ≤ h := by
  constructor
  · intro h
    cases h with
    | rep l hm hlo hhi =>
      have hone : ∀ l : List (List UInt8), (∀ s ∈ l, Matches (.cls p) s) →
          l.flatten.length = l.length ∧ ∀ b ∈ l.flatten, p b = true := by
        intro l
        induction l with
        | nil => intro _; simp
        | cons x l ih =>
          intro hm
          obtain ⟨b, rfl, hb⟩ := (matches_cls p x).mp (hm x (by simp))
          have := ih (fun s hs => hm s (List.mem_cons_of_mem _ hs))
          refine ⟨by simp [this.1], ?_⟩
          intro c hc
          simp only [List.flatten_cons, List.singleton_append, List.mem_cons] at hc
          rcases hc with rfl | hc
          · exact hb
          · exact this.2 c hc
      have := hone l hm
      refine ⟨this.2, by omega, ?_⟩
      intro h e
      have := hhi h e
      omega
  · rintro ⟨h1, h2, h3⟩
    have := Matches.rep (a := .cls p) (lo := lo) (hi := hi) (s.map (fun b => [b]))
      (by
        intro t ht
        obtain ⟨b, hb, rfl⟩ := List.mem_map.mp ht
        exact .cls (h1 b hb))
      (by simpa using h2) (by simpa using h3)
    rwa [flatten_singletons] at this

/-- **C60** `GetEmailDID` accepts exactly the e-mail addresses of the grammar. -/
theorem C60_email_accepts (hash : List UInt8 → List UInt8) (s : List UInt8) :
    getEmailDID hash s = (open Classical in if IsEmail s then .ok (emailPrefix ++ hexEncode (hash s)) else .err) := by
  have : Matches emailRe s ↔ IsEmail s := by
    unfold emailRe IsEmail
    constructor
    · intro h
      obtain ⟨l, v, rfl, hl, h⟩ := (matches_seq _ _ _).mp h
      obtain ⟨a, v, rfl, ha, h⟩ := (matches_seq _ _ _).mp h
      obtain ⟨d, v, rfl, hd, h⟩ := (matches_seq _ _ _).mp h
      obtain ⟨c, t, rfl, hc, ht⟩ := (matches_seq _ _ _).mp h
      obtain ⟨a, rfl, ha'⟩ := (matches_cls _ _).mp ha
      obtain ⟨c, rfl, hc'⟩ := (matches_cls _ _).mp hc
      obtain ⟨l1, l2, -⟩ := (matches_rep_cls _ _ _ _).mp hl
      obtain ⟨d1, d2, -⟩ := (matches_rep_cls _ _ _ _).mp hd
      obtain ⟨t1, t2, -⟩ := (matches_rep_cls _ _ _ _).mp ht
      have ea : a = 64 := by simpa [byte] using ha'
      have ec : c = 46 := by simpa [byte] using hc'
      subst ea; subst ec
      refine ⟨l, d, t, by simp, ?_, l1, ?_, d1, t2, t1⟩
      · rintro rfl; simp at l2
      · rintro rfl; simp at d2
    · rintro ⟨l, d, t, rfl, l0, l1, d0, d1, t2, t1⟩
      rw [List.append_assoc, List.append_assoc, List.append_assoc]
      refine .seq ((matches_rep_cls _ _ _ _).mpr ⟨l1, List.length_pos_iff.mpr l0, by simp⟩)
        (.seq (.cls (by rfl)) (.seq ((matches_rep_cls _ _ _ _).mpr ⟨d1, List.length_pos_iff.mpr d0, by simp⟩)
          (.seq (.cls (by rfl)) ((matches_rep_cls _ _ _ _).mpr ⟨t1, t2, by simp⟩))))
  unfold getEmailDID getDID
  by_cases h : IsEmail s
  · rw [if_pos h, if_pos (this.mpr h)]
  · rw [if_neg h, if_neg (fun h' => h (this.mp h'))]

/-- **C60** `GetPhoneDID` accepts exactly the E.164 numbers of 2 to 15 digits. -/
theorem C60_phone_accepts (hash : List UInt8 → List UInt8) (s : List UInt8) :
    getPhoneDID hash s = (open Classical in if IsPhone s then .ok (phonePrefix ++ hexEncode (hash s)) else .err) := by
  have : Matches phoneRe s ↔ IsPhone s := by
    unfold phoneRe IsPhone
    constructor
    · intro h
      obtain ⟨a, v, rfl, ha, h⟩ := (matches_seq _ _ _).mp h
      obtain ⟨c, t, rfl, hc, ht⟩ := (matches_seq _ _ _).mp h
      obtain ⟨a, rfl, ha'⟩ := (matches_cls _ _).mp ha
      obtain ⟨c, rfl, hc'⟩ := (matches_cls _ _).mp hc
      obtain ⟨t1, t2, t3⟩ := (matches_rep_cls _ _ _ _).mp ht
      have t3 := t3 14 rfl
      have ea : a = 43 := by simpa [byte] using ha'
      subst ea
      simp only [Bool.and_eq_true, decide_eq_true_eq] at hc'
      refine ⟨c :: t, by simp, by simp; omega, by simp; omega, ?_, ?_⟩
      · intro b hb
        rcases List.mem_cons.mp hb with rfl | hb
        · unfold digit; simp only [Bool.and_eq_true, decide_eq_true_eq]; omega
        · exact t1 b hb
      · simp only [List.head?_cons, ne_eq, Option.some.injEq]
        rintro rfl
        simp at hc'
    · rintro ⟨n, rfl, n1, n2, n3, n4⟩
      cases n with
      | nil => simp at n1
      | cons c t =>
        have hd := n3 c (by simp)
        unfold digit at hd
        simp only [Bool.and_eq_true, decide_eq_true_eq] at hd
        have hc : c.toNat ≠ 48 := by
          intro e; apply n4
          simp only [List.head?_cons, Option.some.injEq]
          exact UInt8.toNat_inj.mp e
        have e : 43 :: c :: t = [43] ++ ([c] ++ t) := rfl
        rw [e]
        refine .seq (.cls rfl) (.seq (.cls ?_) ((matches_rep_cls _ _ _ _).mpr
          ⟨fun b hb => n3 b (List.mem_cons_of_mem _ hb), ?_, ?_⟩))
        · simp only [Bool.and_eq_true, decide_eq_true_eq]; omega
        · simp at n1; omega
        · intro h e; injection e with e; subst e; simp at n2; omega
  unfold getPhoneDID getDID
  by_cases h : IsPhone s
  · rw [if_pos h, if_pos (this.mpr h)]
  · rw [if_neg h, if_neg (fun h' => h (this.mp h'))]

/-- the hex digits are lower case and determine the nibble -/
theorem hexDigit_spec (n m : Nat) (hn : n < 16) (hm : m < 16) :
    lower (hexDigit n) = hexDigit n ∧ (hexDigit n = hexDigit m ↔ n = m) := by
  have : ∀ n m : Fin 16, lower (hexDigit n.1) = hexDigit n.1 ∧ (hexDigit n.1 = hexDigit m.1 ↔ n.1 = m.1) := by
    decide +kernel
  exact this ⟨n, hn⟩ ⟨m, hm⟩

/-- **C60** an identifier is the kind's prefix followed by the hash in lower-case hexadecimal, two digits per byte. -/
theorem C60_did_is_hex (hash : List UInt8 → List UInt8) (s did : List UInt8) :
    (getEmailDID hash s = .ok did → did.map (fun b => Char.ofNat b.toNat) = "did:email:".toList ++
      (hash s).flatMap fun x => ["0123456789abcdef".toList.getD (x.toNat / 16) '?',
        "0123456789abcdef".toList.getD (x.toNat % 16) '?']) ∧
    (getPhoneDID hash s = .ok did → did.map (fun b => Char.ofNat b.toNat) = "did:phone:".toList ++
      (hash s).flatMap fun x => ["0123456789abcdef".toList.getD (x.toNat / 16) '?',
        "0123456789abcdef".toList.getD (x.toNat % 16) '?']) := by
  have hdig : ∀ n : Fin 16, Char.ofNat (hexDigit n.1).toNat = "0123456789abcdef".toList.getD n.1 '?' := by decide +kernel
  have hhex : ∀ b : List UInt8, (hexEncode b).map (fun b => Char.ofNat b.toNat) =
      b.flatMap fun x => ["0123456789abcdef".toList.getD (x.toNat / 16) '?',
        "0123456789abcdef".toList.getD (x.toNat % 16) '?'] := by
    intro b
    rw [hexEncode, List.map_flatMap]
    congr 1
    funext x
    have := x.toNat_lt
    rw [List.map_cons, List.map_cons, List.map_nil, hdig ⟨x.toNat / 16, by omega⟩, hdig ⟨x.toNat % 16, by omega⟩]
  have hp1 : emailPrefix.map (fun b => Char.ofNat b.toNat) = "did:email:".toList := by decide +kernel
  have hp2 : phonePrefix.map (fun b => Char.ofNat b.toNat) = "did:phone:".toList := by decide +kernel
  constructor
  · intro h
    unfold getEmailDID getDID at h
    split at h
    · injection h with h; rw [← h, List.map_append, hp1, hhex]
    · cases h
  · intro h
    unfold getPhoneDID getDID at h
    split at h
    · injection h with h; rw [← h, List.map_append, hp2, hhex]
    · cases h

theorem hexEncode_lower (b : List UInt8) : (hexEncode b).map lower = hexEncode b := by
  induction b with
  | nil => rfl
  | cons x b ih =>
    have h1 := (hexDigit_spec (x.toNat / 16) 0 (by have := x.toNat_lt; omega) (by omega)).1
    have h2 := (hexDigit_spec (x.toNat % 16) 0 (by omega) (by omega)).1
    have e : hexEncode (x :: b) = hexDigit (x.toNat / 16) :: hexDigit (x.toNat % 16) :: hexEncode b := rfl
    rw [e, List.map_cons, List.map_cons, h1, h2, ih]

theorem hexEncode_inj (a b : List UInt8) (h : hexEncode a = hexEncode b) : a = b := by
  induction a generalizing b with
  | nil =>
    cases b with
    | nil => rfl
    | cons y b => simp [hexEncode] at h
  | cons x a ih =>
    cases b with
    | nil => simp [hexEncode] at h
    | cons y b =>
      have e1 : hexEncode (x :: a) = hexDigit (x.toNat / 16) :: hexDigit (x.toNat % 16) :: hexEncode a := rfl
      have e2 : hexEncode (y :: b) = hexDigit (y.toNat / 16) :: hexDigit (y.toNat % 16) :: hexEncode b := rfl
      rw [e1, e2] at h
      injection h with h1 h; injection h with h2 h
      have := x.toNat_lt
      have := y.toNat_lt
      have g1 := (hexDigit_spec _ _ (by omega) (by omega)).2.mp h1
      have g2 := (hexDigit_spec _ _ (by omega) (by omega)).2.mp h2
      rw [ih b h, UInt8.toNat_inj.mp (show x.toNat = y.toNat by omega)]

/-- comparison with a DID that `getDID` made, up to case -/
theorem equalFold_did (pre a b : List UInt8) :
    equalFold (pre ++ hexEncode a) (pre ++ hexEncode b) = true ↔ a = b := by
  unfold equalFold
  rw [beq_iff_eq, List.map_append, List.map_append, List.append_cancel_left_eq, hexEncode_lower, hexEncode_lower]
  exact ⟨hexEncode_inj a b, fun h => by rw [h]⟩

/-- **C60** an e-mail DID made for `x` equals `y` exactly when `y` is a valid address with the same
hash; a phone DID likewise. -/
theorem C60_equals_iff (hash : List UInt8 → List UInt8) (x y did : List UInt8) :
    (getEmailDID hash x = .ok did → (emailEquals hash did y = true ↔ IsEmail y ∧ hash x = hash y)) ∧
    (getPhoneDID hash x = .ok did → (phoneEquals hash did y = true ↔ IsPhone y ∧ hash x = hash y)) := by
  constructor
  · intro h
    rw [C60_email_accepts] at h
    unfold emailEquals
    rw [C60_email_accepts]
    by_cases hx : IsEmail x
    · rw [if_pos hx] at h
      injection h with h; subst h
      by_cases hy : IsEmail y
      · rw [if_pos hy]; simp only [hy, true_and]; exact equalFold_did _ _ _
      · rw [if_neg hy]; simp [hy]
    · rw [if_neg hx] at h; cases h
  · intro h
    rw [C60_phone_accepts] at h
    unfold phoneEquals
    rw [C60_phone_accepts]
    by_cases hx : IsPhone x
    · rw [if_pos hx] at h
      injection h with h; subst h
      by_cases hy : IsPhone y
      · rw [if_pos hy]; simp only [hy, true_and]; exact equalFold_did _ _ _
      · rw [if_neg hy]; simp [hy]
    · rw [if_neg hx] at h; cases h

/-- **C60** so every DID equals the address it was made from, and if it equals another address then
the two collide in the hash (in particular addresses are told apart by case). -/
theorem C60_equals_binding (hash : List UInt8 → List UInt8) (x y did : List UInt8)
    (h : getEmailDID hash x = .ok did) :
    emailEquals hash did x = true ∧
    (emailEquals hash did y = true → x = y ∨ (x ≠ y ∧ hash x = hash y)) := by
  have hx : IsEmail x := by
    rw [C60_email_accepts] at h
    by_cases hx : IsEmail x
    · exact hx
    · rw [if_neg hx] at h; cases h
  refine ⟨((C60_equals_iff hash x x did).1 h).mpr ⟨hx, rfl⟩, ?_⟩
  intro hy
  have := ((C60_equals_iff hash x y did).1 h).mp hy
  by_cases e : x = y
  · exact .inl e
  · exact .inr ⟨e, this.2⟩

/-- **C60** an e-mail DID never equals a phone number and a phone DID never equals an e-mail address:
DIDs of the two kinds differ, up to case too. -/
theorem C60_kinds_disjoint (hash : List UInt8 → List UInt8) (x y d e : List UInt8)
    (h : getEmailDID hash x = .ok d) (h' : getPhoneDID hash y = .ok e) :
    d ≠ e ∧ phoneEquals hash d y = false ∧ emailEquals hash e x = false := by
  have hd : d = emailPrefix ++ hexEncode (hash x) := by
    unfold getEmailDID getDID at h
    split at h
    · injection h with h; exact h.symm
    · cases h
  have he : e = phonePrefix ++ hexEncode (hash y) := by
    unfold getPhoneDID getDID at h'
    split at h'
    · injection h' with h'; exact h'.symm
    · cases h'
  have key : ∀ a b : List UInt8, ¬ ((emailPrefix ++ a).map lower = (phonePrefix ++ b).map lower) := by
    intro a b e
    rw [List.map_append, List.map_append] at e
    have := congrArg (fun l => l.take 5) e
    revert this
    show ¬ (_ = _)
    rw [List.take_append_of_le_length (by decide), List.take_append_of_le_length (by decide)]
    decide
  refine ⟨?_, ?_, ?_⟩
  · intro e'; rw [hd, he] at e'; exact key _ _ (congrArg _ e')
  · unfold phoneEquals; rw [h', he, hd]
    simp only [equalFold, beq_eq_false_iff_ne]
    exact key _ _
  · unfold emailEquals; rw [h, he, hd]
    simp only [equalFold, beq_eq_false_iff_ne]
    exact fun e => key _ _ e.symm

/-! ## The hypotheses are met -/

/-- "ab@c.io" -/
example : IsEmail [97, 98, 64, 99, 46, 105, 111] :=
  ⟨[97, 98], [99], [105, 111], rfl, by decide, by decide, by decide, by decide, by decide, by decide⟩

/-- "a@b.c": the top-level domain is too short -/
example : ¬ IsEmail [97, 64, 98, 46, 99] := by
  rintro ⟨l, d, t, e, l0, -, d0, -, t2, -⟩
  have := congrArg List.length e
  have h1 := List.length_pos_iff.mpr l0
  have h2 := List.length_pos_iff.mpr d0
  simp at this
  omega

/-- "+12" -/
example : IsPhone [43, 49, 50] := ⟨[49, 50], rfl, by decide, by decide, by decide, by decide⟩

/-- "+02" -/
example : ¬ IsPhone [43, 48, 50] := by
  rintro ⟨n, e, -, -, -, h⟩
  injection e with _ e
  subst e
  exact h rfl

end Verif.App.Identifier
