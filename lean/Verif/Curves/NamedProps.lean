import Verif.Curves.Named

/-! General facts about the named encodings, for any value types. -/

set_option linter.unusedSectionVars false

namespace Verif.Curves
open Verif

/-! ## Names -/

theorem lookup_name (k : Kind) : getCurveByName k.name = some k := by cases k <;> decide

theorem name_sep (k : Kind) : sep ∉ k.name := by cases k <;> decide

theorem name_length (k : Kind) : 5 ≤ k.name.length ∧ k.name.length ≤ 10 := by cases k <;> decide

theorem name_inj {k k' : Kind} (h : k.name = k'.name) : k = k' := by
  have := lookup_name k
  rw [h, lookup_name] at this
  exact (Option.some.inj this).symm

/-- The names under which a curve is found. -/
theorem lookup_iff (n : List UInt8) (k : Kind) :
    getCurveByName n = some k ↔ n = k.name ∨ (n = ascii "BLS12831" ∧ k = .b1) ∨ (n = ascii "BLS12377" ∧ k = .z1) := by
  constructor
  · intro h
    unfold getCurveByName at h
    by_cases h1 : n = ascii "secp256k1"
    · rw [if_pos h1] at h; cases h; exact Or.inl h1
    rw [if_neg h1] at h
    by_cases h2 : n = ascii "BLS12381G1"
    · rw [if_pos h2] at h; cases h; exact Or.inl h2
    rw [if_neg h2] at h
    by_cases h3 : n = ascii "BLS12381G2"
    · rw [if_pos h3] at h; cases h; exact Or.inl h3
    rw [if_neg h3] at h
    by_cases h4 : n = ascii "BLS12831"
    · rw [if_pos h4] at h; cases h; exact Or.inr (Or.inl ⟨h4, rfl⟩)
    rw [if_neg h4] at h
    by_cases h5 : n = ascii "P-256"
    · rw [if_pos h5] at h; cases h; exact Or.inl h5
    rw [if_neg h5] at h
    by_cases h6 : n = ascii "ed25519"
    · rw [if_pos h6] at h; cases h; exact Or.inl h6
    rw [if_neg h6] at h
    by_cases h7 : n = ascii "pallas"
    · rw [if_pos h7] at h; cases h; exact Or.inl h7
    rw [if_neg h7] at h
    by_cases h8 : n = ascii "BLS12377G1"
    · rw [if_pos h8] at h; cases h; exact Or.inl h8
    rw [if_neg h8] at h
    by_cases h9 : n = ascii "BLS12377G2"
    · rw [if_pos h9] at h; cases h; exact Or.inl h9
    rw [if_neg h9] at h
    by_cases h10 : n = ascii "BLS12377"
    · rw [if_pos h10] at h; cases h; exact Or.inr (Or.inr ⟨h10, rfl⟩)
    rw [if_neg h10] at h
    cases h
  · rintro (rfl | ⟨rfl, rfl⟩ | ⟨rfl, rfl⟩)
    · exact lookup_name k
    · decide
    · decide

theorem lookup_length {n : List UInt8} {k : Kind} (h : getCurveByName n = some k) : n.length ≤ 10 ∧ sep ∉ n := by
  rcases (lookup_iff n k).1 h with rfl | ⟨rfl, -⟩ | ⟨rfl, -⟩
  · exact ⟨(name_length k).2, name_sep k⟩
  · decide
  · decide

theorem takeWhile_sep {n r : List UInt8} (h : sep ∉ n) : (n ++ sep :: r).takeWhile (· ≠ sep) = n := by
  induction n with
  | nil => rfl
  | cons a n ih =>
    have ha : a ≠ sep := fun e => h (by rw [e]; exact List.mem_cons_self)
    rw [List.cons_append, List.takeWhile_cons, if_pos (by simpa using ha), ih (fun hc => h (List.mem_cons_of_mem _ hc))]

/-- What the name splitter accepts: a registered name, the separator, and any rest. -/
theorem splitName_ok {input : List UInt8} {k : Kind} {r : List UInt8} :
    splitName input = .ok (k, r) ↔ ∃ n, getCurveByName n = some k ∧ input = n ++ sep :: r := by
  constructor
  · intro h
    unfold splitName at h
    dsimp only at h
    generalize hi : (input.takeWhile (· ≠ sep)).length = i at h
    have ht : input.take i = input.takeWhile (· ≠ sep) := by
      rw [← hi]
      exact (List.prefix_iff_eq_take.1 (List.takeWhile_prefix _)).symm
    cases hc : getCurveByName (input.take i) with
    | none => rw [hc] at h; cases h
    | some k' =>
      rw [hc] at h
      dsimp only at h
      by_cases hl : i + 1 ≤ input.length
      · rw [if_pos hl] at h
        cases h
        refine ⟨_, hc, ?_⟩
        have hd : input.drop i = sep :: input.drop (i + 1) := by
          have hlt : i < input.length := hl
          rw [List.drop_eq_getElem_cons hlt]
          congr 1
          by_contra hne
          have h2 : input.takeWhile (· ≠ sep) = input.takeWhile (· ≠ sep) ++ (input.drop i).takeWhile (· ≠ sep) := by
            conv_lhs => rw [← List.take_append_drop i input, ht]
            rw [List.takeWhile_append_of_pos]
            · intro a ha
              exact (List.all_eq_true.1 (List.all_takeWhile (p := (· ≠ sep)) (l := input))) a ha
          have h3 := congrArg List.length h2
          rw [List.length_append, List.drop_eq_getElem_cons hlt, List.takeWhile_cons, if_pos (by simpa using hne)] at h3
          simp at h3
        rw [← hd, List.take_append_drop]
      · rw [if_neg hl] at h; cases h
  · rintro ⟨n, hn, rfl⟩
    unfold splitName
    dsimp only
    rw [takeWhile_sep (lookup_length hn).2, List.take_left, hn]
    dsimp only
    rw [if_pos (by rw [List.length_append, List.length_cons]; omega)]
    congr 2
    rw [show n ++ sep :: r = (n ++ [sep]) ++ r by simp, show n.length + 1 = (n ++ [sep]).length by simp, List.drop_left]

theorem splitName_name (k : Kind) (r : List UInt8) : splitName (k.name ++ sep :: r) = .ok (k, r) :=
  splitName_ok.2 ⟨_, lookup_name k, rfl⟩

/-- An input longer than every name does not run off its end. -/
theorem splitName_safe {input : List UInt8} (h : 10 < input.length) : splitName input ≠ .panic := by
  unfold splitName
  dsimp only
  generalize hi : (input.takeWhile (· ≠ sep)).length = i
  have hle : i ≤ input.length := by rw [← hi]; exact (List.takeWhile_prefix _).length_le
  cases hc : getCurveByName (input.take i) with
  | none => exact fun h => by cases h
  | some k =>
    have h1 := (lookup_length hc).1
    rw [List.length_take] at h1
    dsimp only
    rw [if_pos (by omega)]
    exact fun h => by cases h

/-! ## Hexadecimal -/

theorem u8_all {P : UInt8 → Prop} (h : ∀ n : Fin 256, P (UInt8.ofFin n)) (c : UInt8) : P c := by
  have := h c.toFin
  simpa using this

/-- Lower case of the letters `A` to `F`. -/
def lower (c : UInt8) : UInt8 := if 65 ≤ c ∧ c ≤ 70 then c + 32 else c

theorem undigit_digit : ∀ n : Fin 16, undigit (digit (UInt8.ofNat n)) = some (UInt8.ofNat n) := by decide

theorem undigit_some : ∀ c a : UInt8, undigit c = some a → a.toNat < 16 ∧ lower c = digit a := by
  intro c
  have : ∀ c : UInt8, ((undigit c).all fun a => decide (a.toNat < 16) && decide (lower c = digit a)) = true :=
    u8_all (by decide +kernel)
  intro a h
  have h2 := this c
  rw [h] at h2
  simpa using h2

theorem lower_digit : ∀ c : UInt8, ∀ n : Fin 16, lower c = digit (UInt8.ofNat n) → undigit c = some (UInt8.ofNat n) := by
  refine u8_all ?_
  decide +kernel

theorem nibbles : ∀ b : UInt8, (b >>> 4).toNat < 16 ∧ (b &&& 15).toNat < 16 ∧ ((b >>> 4) <<< 4) ||| (b &&& 15) = b := by
  refine u8_all ?_
  decide +kernel

theorem join_nibbles : ∀ m n : Fin 16, ((UInt8.ofNat m <<< 4) ||| UInt8.ofNat n) >>> 4 = UInt8.ofNat m ∧
    ((UInt8.ofNat m <<< 4) ||| UInt8.ofNat n) &&& 15 = UInt8.ofNat n := by decide +kernel

theorem ofNat_toNat' (a : UInt8) : UInt8.ofNat a.toNat = a := by simp

theorem hexEnc_cons (b : UInt8) (l : List UInt8) : hexEnc (b :: l) = digit (b >>> 4) :: digit (b &&& 15) :: hexEnc l := rfl

/-- What `hex.Decode` accepts: two digits of either case for each byte, no more bytes than there is room for. -/
theorem hexDec_ok {cap : Nat} {s l : List UInt8} : hexDec cap s = .ok l ↔ s.map lower = hexEnc l ∧ l.length ≤ cap := by
  induction l generalizing s cap with
  | nil =>
    constructor
    · intro h
      match s, cap with
      | [], _ => exact ⟨rfl, Nat.zero_le _⟩
      | [_], _ => simp [hexDec] at h
      | p :: q :: r, 0 =>
        unfold hexDec at h
        cases h1 : undigit p <;> cases h2 : undigit q <;> rw [h1] at h <;> try rw [h2] at h
        all_goals cases h
      | p :: q :: r, cap + 1 =>
        unfold hexDec at h
        cases h1 : undigit p <;> cases h2 : undigit q <;> rw [h1] at h <;> try rw [h2] at h
        any_goals cases h
        dsimp only at h
        cases h3 : hexDec cap r <;> rw [h3] at h <;> simp at h
    · rintro ⟨h, -⟩
      have : s = [] := List.map_eq_nil_iff.1 h
      rw [this]
      unfold hexDec
      rfl
  | cons b l ih =>
    constructor
    · intro h
      match s, cap with
      | [], _ => simp [hexDec] at h
      | [_], _ => simp [hexDec] at h
      | p :: q :: r, 0 =>
        unfold hexDec at h
        cases h1 : undigit p <;> cases h2 : undigit q <;> rw [h1] at h <;> try rw [h2] at h
        all_goals cases h
      | p :: q :: r, cap + 1 =>
        unfold hexDec at h
        cases h1 : undigit p <;> cases h2 : undigit q <;> rw [h1] at h <;> try rw [h2] at h
        any_goals cases h
        rename_i a c
        dsimp only at h
        cases h3 : hexDec cap r with
        | err => rw [h3] at h; simp at h
        | panic => rw [h3] at h; simp at h
        | ok l' =>
          rw [h3] at h
          simp at h
          obtain ⟨hb, rfl⟩ := h
          obtain ⟨e1, e2⟩ := ih.1 h3
          obtain ⟨ha, la⟩ := undigit_some _ _ h1
          obtain ⟨hc, lc⟩ := undigit_some _ _ h2
          have j := join_nibbles ⟨a.toNat, ha⟩ ⟨c.toNat, hc⟩
          simp only [ofNat_toNat'] at j
          refine ⟨?_, by rw [List.length_cons]; omega⟩
          rw [List.map_cons, List.map_cons, e1, la, lc, ← hb, hexEnc_cons, j.1, j.2]
    · rintro ⟨h, hl⟩
      match s, cap with
      | [], _ => cases h
      | [_], _ => unfold hexEnc at h; simp at h
      | p :: q :: r, 0 => simp at hl
      | p :: q :: r, cap + 1 =>
        rw [List.map_cons, List.map_cons] at h
        unfold hexEnc at h
        obtain ⟨e1, h⟩ := List.cons.inj h
        obtain ⟨e2, h⟩ := List.cons.inj h
        obtain ⟨n1, n2, n3⟩ := nibbles b
        have u1 := lower_digit p ⟨_, n1⟩ (by rw [e1]; simp only [ofNat_toNat'])
        have u2 := lower_digit q ⟨_, n2⟩ (by rw [e2]; simp only [ofNat_toNat'])
        simp only [ofNat_toNat'] at u1 u2
        unfold hexDec
        rw [u1, u2]
        dsimp only
        rw [(ih (cap := cap)).2 ⟨h, by rw [List.length_cons] at hl; omega⟩, Res.bind_ok, n3]

theorem length_hexEnc (l : List UInt8) : (hexEnc l).length = 2 * l.length := by
  induction l with
  | nil => rfl
  | cons b l ih => unfold hexEnc; rw [List.length_cons, List.length_cons, ih, List.length_cons]; omega

theorem lower_hexEnc (l : List UInt8) : (hexEnc l).map lower = hexEnc l := by
  have : ∀ d : Fin 16, lower (digit (UInt8.ofNat d)) = digit (UInt8.ofNat d) := by decide
  induction l with
  | nil => rfl
  | cons b l ih =>
    unfold hexEnc
    obtain ⟨n1, n2, -⟩ := nibbles b
    have h1 := this ⟨_, n1⟩
    have h2 := this ⟨_, n2⟩
    simp only [ofNat_toNat'] at h1 h2
    rw [List.map_cons, List.map_cons, ih, h1, h2]

theorem hexDec_enc {cap : Nat} {l : List UInt8} (h : l.length ≤ cap) : hexDec cap (hexEnc l) = .ok l :=
  hexDec_ok.2 ⟨lower_hexEnc l, h⟩

theorem hexEnc_inj {l l' : List UInt8} (h : hexEnc l = hexEnc l') : l = l' := by
  have h1 := hexDec_enc (Nat.le_max_left l.length l'.length)
  have h2 := hexDec_enc (Nat.le_max_right l.length l'.length)
  rw [h, h2] at h1
  exact (Res.ok.inj h1).symm

/-- With room for half of the digits, decoding does not panic. -/
theorem hexDec_safe {cap : Nat} {s : List UInt8} (h : s.length ≤ 2 * cap + 1) : hexDec cap s ≠ .panic := by
  induction cap generalizing s with
  | zero =>
    match s with
    | [] => simp [hexDec]
    | [_] => simp [hexDec]
    | p :: q :: r => simp at h
  | succ cap ih =>
    match s with
    | [] => simp [hexDec]
    | [_] => simp [hexDec]
    | p :: q :: r =>
      unfold hexDec
      cases h1 : undigit p <;> cases h2 : undigit q
      any_goals simp
      have := ih (s := r) (by simp at h; omega)
      cases h3 : hexDec cap r with
      | ok l => simp
      | err => simp
      | panic => exact absurd h3 this

/-- With more bytes than room, it does. -/
theorem hexDec_panic {cap : Nat} {l : List UInt8} (h : cap < l.length) : hexDec cap (hexEnc l) = .panic := by
  induction l generalizing cap with
  | nil => exact absurd h (Nat.not_lt_zero _)
  | cons b l ih =>
    unfold hexEnc hexDec
    obtain ⟨n1, n2, n3⟩ := nibbles b
    have u1 := undigit_digit ⟨_, n1⟩
    have u2 := undigit_digit ⟨_, n2⟩
    simp only [ofNat_toNat'] at u1 u2
    rw [u1, u2]
    match cap with
    | 0 => rfl
    | cap + 1 =>
      dsimp only
      rw [ih (by rw [List.length_cons] at h; omega)]
      rfl

theorem fit_of_length {n : Nat} {b : List UInt8} (h : b.length = n) : fit n b = b := by
  unfold fit
  rw [← h, List.take_length, Nat.sub_self]
  simp

theorem hexDec_length {cap : Nat} {s l : List UInt8} (h : hexDec cap s = .ok l) : s.length = 2 * l.length ∧ l.length ≤ cap := by
  obtain ⟨h1, h2⟩ := hexDec_ok.1 h
  refine ⟨?_, h2⟩
  have := congrArg List.length h1
  rwa [List.length_map, length_hexEnc] at this

/-! ## The forms -/

section
variable {O : Ops}

theorem scalarBin_ok {input : List UInt8} {s : Sc O} : scalarUnmarshalBinary O input = .ok s ↔
    38 ≤ input.length ∧ ∃ n r, getCurveByName n = some s.kind ∧ input = n ++ sep :: r ∧ O.sSet s.kind.sty r = .ok s.val := by
  have e38 : 32 + 1 + (ascii "P-256").length = 38 := by decide
  unfold scalarUnmarshalBinary
  rw [e38]
  by_cases hl : input.length < 38
  · rw [if_pos hl]
    constructor
    · intro h; cases h
    · rintro ⟨h, -⟩; omega
  rw [if_neg hl, Res.bind_eq_ok]
  constructor
  · rintro ⟨⟨k, r⟩, h1, h2⟩
    rw [Res.bind_eq_ok] at h2
    obtain ⟨v, h2, h3⟩ := h2
    cases h3
    obtain ⟨n, h4, h5⟩ := splitName_ok.1 h1
    exact ⟨by omega, n, r, h4, h5, h2⟩
  · rintro ⟨-, n, r, h1, h2, h3⟩
    obtain ⟨k, v⟩ := s
    refine ⟨(k, r), splitName_ok.2 ⟨n, h1, h2⟩, ?_⟩
    rw [Res.bind_eq_ok]
    exact ⟨v, h3, rfl⟩

theorem scalarText_ok {input : List UInt8} {s : Sc O} : scalarUnmarshalText O input = .ok s ↔
    70 ≤ input.length ∧ ∃ n d l, getCurveByName n = some s.kind ∧ input = n ++ sep :: d ∧ d.map lower = hexEnc l ∧ l.length ≤ 32 ∧
      O.sSet s.kind.sty (fit 32 l) = .ok s.val := by
  have e70 : 32 * 2 + (ascii "P-256").length + 1 = 70 := by decide
  unfold scalarUnmarshalText
  rw [e70]
  by_cases hl : input.length < 70
  · rw [if_pos hl]
    constructor
    · intro h; cases h
    · rintro ⟨h, -⟩; omega
  rw [if_neg hl, Res.bind_eq_ok]
  constructor
  · rintro ⟨⟨k, r⟩, h1, h2⟩
    rw [Res.bind_eq_ok] at h2
    obtain ⟨l, h2, h3⟩ := h2
    rw [Res.bind_eq_ok] at h3
    obtain ⟨v, h3, h4⟩ := h3
    cases h4
    obtain ⟨n, h4, h5⟩ := splitName_ok.1 h1
    obtain ⟨h6, h7⟩ := hexDec_ok.1 h2
    exact ⟨by omega, n, r, l, h4, h5, h6, h7, h3⟩
  · rintro ⟨-, n, d, l, h1, h2, h3, h4, h5⟩
    obtain ⟨k, v⟩ := s
    refine ⟨(k, d), splitName_ok.2 ⟨n, h1, h2⟩, ?_⟩
    rw [Res.bind_eq_ok]
    refine ⟨l, hexDec_ok.2 ⟨h3, h4⟩, ?_⟩
    rw [Res.bind_eq_ok]
    exact ⟨v, h5, rfl⟩

theorem scalarJson_ok {J : Json} {input : List UInt8} {s : Sc O} : scalarUnmarshalJson O J input = .ok s ↔
    ∃ n d l, J.unmarshal input = some (n, d) ∧ getCurveByName n = some s.kind ∧ d.map lower = hexEnc l ∧ O.sSet s.kind.sty l = .ok s.val := by
  unfold scalarUnmarshalJson
  cases hu : J.unmarshal input with
  | none =>
    dsimp only
    constructor
    · intro h; cases h
    · rintro ⟨_, _, _, h, -⟩; cases h
  | some m =>
    obtain ⟨n, d⟩ := m
    dsimp only
    cases hk : getCurveByName n with
    | none =>
      dsimp only
      constructor
      · intro h; cases h
      · rintro ⟨_, _, _, h, h2, -⟩; cases h; rw [hk] at h2; cases h2
    | some k =>
      dsimp only
      rw [Res.bind_eq_ok]
      constructor
      · rintro ⟨l, h1, h2⟩
        rw [Res.bind_eq_ok] at h2
        obtain ⟨v, h2, h3⟩ := h2
        cases h3
        exact ⟨n, d, l, rfl, hk, (hexDec_ok.1 h1).1, h2⟩
      · rintro ⟨n', d', l, h, h2, h3, h4⟩
        cases h
        obtain ⟨k', v⟩ := s
        rw [hk] at h2
        cases h2
        refine ⟨l, hexDec_ok.2 ⟨h3, ?_⟩, ?_⟩
        · have := congrArg List.length h3
          rw [List.length_map, length_hexEnc] at this
          omega
        · rw [Res.bind_eq_ok]
          exact ⟨v, h4, rfl⟩

theorem pointBin_ok {input : List UInt8} {p : Pt O} : pointUnmarshalBinary O input = .ok p ↔
    38 ≤ input.length ∧ ∃ n r, getCurveByName n = some p.kind ∧ input = n ++ sep :: r ∧ O.pDec p.kind r = .ok p.val := by
  have e38 : 32 + 1 + (ascii "P-256").length = 38 := by decide
  unfold pointUnmarshalBinary
  rw [e38]
  by_cases hl : input.length < 38
  · rw [if_pos hl]
    constructor
    · intro h; cases h
    · rintro ⟨h, -⟩; omega
  rw [if_neg hl, Res.bind_eq_ok]
  constructor
  · rintro ⟨⟨k, r⟩, h1, h2⟩
    rw [Res.bind_eq_ok] at h2
    obtain ⟨v, h2, h3⟩ := h2
    cases h3
    obtain ⟨n, h4, h5⟩ := splitName_ok.1 h1
    exact ⟨by omega, n, r, h4, h5, h2⟩
  · rintro ⟨-, n, r, h1, h2, h3⟩
    obtain ⟨k, v⟩ := p
    refine ⟨(k, r), splitName_ok.2 ⟨n, h1, h2⟩, ?_⟩
    rw [Res.bind_eq_ok]
    exact ⟨v, h3, rfl⟩

theorem pointText_ok {input : List UInt8} {p : Pt O} : pointUnmarshalText O input = .ok p ↔
    70 ≤ input.length ∧ ∃ n d l, getCurveByName n = some p.kind ∧ input = n ++ sep :: d ∧ d.map lower = hexEnc l ∧
      O.pDec p.kind l = .ok p.val := by
  have e70 : 32 * 2 + 1 + (ascii "P-256").length = 70 := by decide
  unfold pointUnmarshalText
  rw [e70]
  by_cases hl : input.length < 70
  · rw [if_pos hl]
    constructor
    · intro h; cases h
    · rintro ⟨h, -⟩; omega
  rw [if_neg hl, Res.bind_eq_ok]
  constructor
  · rintro ⟨⟨k, r⟩, h1, h2⟩
    dsimp only at h2
    rw [Res.bind_eq_ok] at h2
    obtain ⟨l, h2, h3⟩ := h2
    rw [Res.bind_eq_ok] at h3
    obtain ⟨v, h3, h4⟩ := h3
    cases h4
    obtain ⟨n, h4, h5⟩ := splitName_ok.1 h1
    obtain ⟨h6, h7⟩ := hexDec_ok.1 h2
    have h8 := (hexDec_length h2).1
    rw [fit_of_length (by omega)] at h3
    exact ⟨by omega, n, r, l, h4, h5, h6, h3⟩
  · rintro ⟨-, n, d, l, h1, h2, h3, h5⟩
    obtain ⟨k, v⟩ := p
    refine ⟨(k, d), splitName_ok.2 ⟨n, h1, h2⟩, ?_⟩
    dsimp only
    have h8 : d.length = 2 * l.length := by
      have := congrArg List.length h3
      rwa [List.length_map, length_hexEnc] at this
    rw [Res.bind_eq_ok]
    refine ⟨l, hexDec_ok.2 ⟨h3, by omega⟩, ?_⟩
    rw [fit_of_length (by omega), Res.bind_eq_ok]
    exact ⟨v, h5, rfl⟩

theorem pointJson_ok {J : Json} {input : List UInt8} {p : Pt O} : pointUnmarshalJson O J input = .ok p ↔
    ∃ n d l, J.unmarshal input = some (n, d) ∧ getCurveByName n = some p.kind ∧ d.map lower = hexEnc l ∧ O.pDec p.kind l = .ok p.val := by
  unfold pointUnmarshalJson
  cases hu : J.unmarshal input with
  | none =>
    dsimp only
    constructor
    · intro h; cases h
    · rintro ⟨_, _, _, h, -⟩; cases h
  | some m =>
    obtain ⟨n, d⟩ := m
    dsimp only
    cases hk : getCurveByName n with
    | none =>
      dsimp only
      constructor
      · intro h; cases h
      · rintro ⟨_, _, _, h, h2, -⟩; cases h; rw [hk] at h2; cases h2
    | some k =>
      dsimp only
      rw [Res.bind_eq_ok]
      constructor
      · rintro ⟨l, h1, h2⟩
        rw [Res.bind_eq_ok] at h2
        obtain ⟨v, h2, h3⟩ := h2
        cases h3
        exact ⟨n, d, l, rfl, hk, (hexDec_ok.1 h1).1, h2⟩
      · rintro ⟨n', d', l, h, h2, h3, h4⟩
        cases h
        obtain ⟨k', v⟩ := p
        rw [hk] at h2
        cases h2
        refine ⟨l, hexDec_ok.2 ⟨h3, ?_⟩, ?_⟩
        · have := congrArg List.length h3
          rw [List.length_map, length_hexEnc] at this
          omega
        · rw [Res.bind_eq_ok]
          exact ⟨v, h4, rfl⟩

end

end Verif.Curves
