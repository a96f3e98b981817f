import Verif.Curves.Bls377Point
import Verif.Curves.Bls377ScalarApi

/-! C118: the points of BLS12-377: group laws, encodings, coordinates, sums of products. -/

set_option linter.unusedSectionVars false

namespace Verif.B377

open Verif.Bytes Verif.Native
open Verif.Ec (fill)

/-! ## A group with such encodings -/

section Toy

/-- The flag of the compressed form. -/
def toyFlag (P : ZMod r) : UInt8 := if P.val = 0 then 0xC0 else if 2 * P.val < r then 0x80 else 0xA0
/-- Compressed: flag and value. -/
def toyEnc (P : ZMod r) : List UInt8 := toyFlag P :: natToBEfix 47 P.val
/-- Uncompressed: no flag but for zero. -/
def toyRaw (P : ZMod r) : List UInt8 := (if P.val = 0 then 0x40 else 0) :: natToBEfix 95 P.val

/-- What `set` accepts. -/
def ToyReads (b : List UInt8) (P : ZMod r) : Prop :=
  (48 ≤ b.length ∧ b.take 48 = toyEnc P) ∨ (2 * 48 ≤ b.length ∧ b.take (2 * 48) = toyRaw P) ∨
    (P = 0 ∧ 2 * 48 ≤ b.length ∧ b.take (2 * 48) = List.replicate (2 * 48) 0)

open Classical in
/-- The decoder. -/
noncomputable def toySet (b : List UInt8) : Option (ZMod r) := if h : ∃ P, ToyReads b P then some (Classical.choose h) else none

theorem head_take {n : Nat} (hn : 0 < n) (b : List UInt8) : (b.take n).headD 0 = b.headD 0 := by
  cases b with
  | nil => rw [List.take_nil]
  | cons a l => cases n with
    | zero => omega
    | succ n => rfl

theorem val_lt47 (P : ZMod r) : P.val < 256 ^ 47 := lt_trans (ZMod.val_lt P) (lt_trans r_lt (Nat.pow_lt_pow_right (by decide) (by decide)))
theorem val_lt95 (P : ZMod r) : P.val < 256 ^ 95 := lt_trans (ZMod.val_lt P) (lt_trans r_lt (Nat.pow_lt_pow_right (by decide) (by decide)))

theorem toyEnc_inj {P Q : ZMod r} (h : toyEnc P = toyEnc Q) : P = Q := by
  have := congrArg beToNat (List.cons.inj h).2
  rw [beToNat_natToBEfix, beToNat_natToBEfix, Nat.mod_eq_of_lt (val_lt47 P), Nat.mod_eq_of_lt (val_lt47 Q)] at this
  exact ZMod.val_injective r this

theorem toyRaw_inj {P Q : ZMod r} (h : toyRaw P = toyRaw Q) : P = Q := by
  have := congrArg beToNat (List.cons.inj h).2
  rw [beToNat_natToBEfix, beToNat_natToBEfix, Nat.mod_eq_of_lt (val_lt95 P), Nat.mod_eq_of_lt (val_lt95 Q)] at this
  exact ZMod.val_injective r this

theorem toyFlag_cases (P : ZMod r) : toyFlag P = 0xC0 ∨ toyFlag P = 0x80 ∨ toyFlag P = 0xA0 := by
  unfold toyFlag
  by_cases h : P.val = 0
  · rw [if_pos h]; exact Or.inl rfl
  · rw [if_neg h]
    by_cases h2 : 2 * P.val < r
    · rw [if_pos h2]; exact Or.inr (Or.inl rfl)
    · rw [if_neg h2]; exact Or.inr (Or.inr rfl)

theorem toyRaw_head (P : ZMod r) : (toyRaw P).headD 0 = 0x40 ∨ (toyRaw P).headD 0 = 0 := by
  show (if P.val = 0 then (0x40 : UInt8) else 0) = 0x40 ∨ (if P.val = 0 then (0x40 : UInt8) else 0) = 0
  by_cases h : P.val = 0
  · rw [if_pos h]; exact Or.inl rfl
  · rw [if_neg h]; exact Or.inr rfl

theorem zeros47 : natToBEfix 47 0 = List.replicate 47 0 := by decide +kernel
theorem zeros95 : natToBEfix 95 0 = List.replicate 95 0 := by decide +kernel

theorem toyRaw_ne (P : ZMod r) : toyRaw P ≠ List.replicate (2 * 48) 0 := by
  intro h
  have h : (if P.val = 0 then (0x40 : UInt8) else 0) :: natToBEfix 95 P.val = 0 :: List.replicate 95 0 := h
  obtain ⟨h1, h2⟩ := List.cons.inj h
  rw [← zeros95] at h2
  have := congrArg beToNat h2
  rw [beToNat_natToBEfix, beToNat_natToBEfix, Nat.mod_eq_of_lt (val_lt95 P), Nat.zero_mod] at this
  rw [if_pos this] at h1
  exact absurd h1 (by decide)

theorem toyReads_unique {b : List UInt8} {P Q : ZMod r} (hP : ToyReads b P) (hQ : ToyReads b Q) : P = Q := by
  have he : ∀ R, b.take 48 = toyEnc R → b.headD 0 = toyFlag R := fun R h => by
    rw [← head_take (n := 48) (by decide), h]; rfl
  have hr : ∀ R, b.take (2 * 48) = toyRaw R → b.headD 0 = 0x40 ∨ b.headD 0 = 0 := fun R h => by
    rw [← head_take (n := 2 * 48) (by decide), h]; exact toyRaw_head R
  have hz : b.take (2 * 48) = List.replicate (2 * 48) 0 → b.headD 0 = 0 := fun h => by
    rw [← head_take (n := 2 * 48) (by decide), h]; rfl
  have clash : ∀ R, (b.headD 0 = 0x40 ∨ b.headD 0 = 0) → b.headD 0 = toyFlag R → False := by
    intro R h1 h2
    rw [h2] at h1
    rcases toyFlag_cases R with h | h | h <;> rw [h] at h1 <;> exact absurd h1 (by decide)
  rcases hP with ⟨_, h1⟩ | ⟨_, h1⟩ | ⟨p0, _, h1⟩ <;> rcases hQ with ⟨_, h2⟩ | ⟨_, h2⟩ | ⟨q0, _, h2⟩
  · exact toyEnc_inj (h1.symm.trans h2)
  · exact (clash _ (hr _ h2) (he _ h1)).elim
  · exact (clash _ (Or.inr (hz h2)) (he _ h1)).elim
  · exact (clash _ (hr _ h1) (he _ h2)).elim
  · exact toyRaw_inj (h1.symm.trans h2)
  · exact absurd (h1.symm.trans h2) (toyRaw_ne P)
  · exact (clash _ (Or.inr (hz h1)) (he _ h2)).elim
  · exact absurd (h2.symm.trans h1) (toyRaw_ne Q)
  · rw [p0, q0]

/-- The contract can be met. -/
noncomputable def toyG : GLib (ZMod r) where
  size := 48
  size_pos := by decide
  gen := 1
  order P := by rw [nsmul_eq_mul, ZMod.natCast_self, zero_mul]
  gen_ne := one_ne_zero
  enc := toyEnc
  raw := toyRaw
  set := toySet
  len_enc P := by show (natToBEfix 47 P.val).length + 1 = 48; rw [length_natToBEfix]
  len_raw P := by show (natToBEfix 95 P.val).length + 1 = 2 * 48; rw [length_natToBEfix]
  enc_zero := by
    unfold toyEnc toyFlag
    rw [ZMod.val_zero, if_pos rfl, zeros47]
  raw_zero := by
    unfold toyRaw
    rw [ZMod.val_zero, if_pos rfl, zeros95]
  sign P hP := by
    have h0 : P.val ≠ 0 := fun h => hP ((ZMod.val_eq_zero P).1 h)
    have : NeZero P := ⟨hP⟩
    have hv := ZMod.val_lt P
    have hn : (-P).val = r - P.val := ZMod.val_neg_of_ne_zero P
    have hodd := r_odd
    show bit5 (toyFlag (-P) :: _) ≠ bit5 (toyFlag P :: _)
    unfold toyFlag
    rw [hn, if_neg h0, if_neg (by omega)]
    by_cases h : 2 * P.val < r
    · rw [if_pos h, if_neg (by omega)]
      show bit5 [0xA0] ≠ bit5 [0x80]
      decide
    · rw [if_neg h, if_pos (by omega)]
      show bit5 [0x80] ≠ bit5 [0xA0]
      decide
  raw_ne := toyRaw_ne
  set_iff b P := by
    show toySet b = some P ↔ ToyReads b P
    unfold toySet
    by_cases h : ∃ P, ToyReads b P
    · rw [dif_pos h]
      constructor
      · intro hh; rw [← Option.some.inj hh]; exact Classical.choose_spec h
      · intro hh; exact congrArg some (toyReads_unique (Classical.choose_spec h) hh)
    · rw [dif_neg h]
      exact ⟨fun hh => (by cases hh), fun hh => absurd ⟨P, hh⟩ h⟩

end Toy

section Points
variable {A : Type} [AddCommGroup A] (L : GLib A)

/-- **C118.** The operations on points of one group are those of the group; multiplication by a scalar is by the element of the field it stands
for, and turns the field's operations into the group's; `Neg` flips `IsNegative`; anything else as an argument gives nil, or false. -/
theorem C118_group {s : Sc} {a : ZMod r} (hs : Rep s a) (b : ZMod r) (P Q : A) :
    L.add P (some Q) = some (P + Q) ∧ L.sub P (some Q) = some (P - Q) ∧ L.double P = P + P ∧ P + L.neg P = 0 ∧
    (L.equal P (some Q) = true ↔ P = Q) ∧ (L.isIdentity P = true ↔ P = 0) ∧ L.isIdentity L.gen = false ∧
    (L.mul P (some s) = .ok (some (a.val • P))) ∧ ((a + b).val • P = a.val • P + b.val • P) ∧ ((a * b).val • P = a.val • (b.val • P)) ∧
    (P ≠ 0 → L.isNegative (L.neg P) = !L.isNegative P) ∧ L.isNegative 0 = false ∧
    L.add P none = none ∧ L.sub P none = none ∧ L.mul P none = .ok none ∧ L.equal P none = false := by
  have hmod : ∀ n : Nat, (n % r) • P = n • P := fun n => by
    conv_rhs => rw [← Nat.mod_add_div n r, add_nsmul, mul_nsmul, L.order, nsmul_zero, add_zero]
  refine ⟨rfl, rfl, rfl, add_neg_cancel P, @decide_eq_true_iff _ (Classical.propDecidable _),
    @decide_eq_true_iff _ (Classical.propDecidable _), ?_, ?_, ?_, ?_, ?_, ?_, rfl, rfl, rfl, rfl⟩
  · exact @decide_eq_false _ (Classical.propDecidable _) L.gen_ne
  · rw [rep_iff] at hs
    subst hs
    show Res.ok (some (((a.val : Nat) : Int) • P)) = _
    rw [natCast_zsmul]
  · rw [ZMod.val_add, hmod, add_nsmul]
  · rw [ZMod.val_mul, hmod, Nat.mul_comm, mul_nsmul]
  · intro hP
    have := L.sign P hP
    show bit5 (L.enc (-P)) = !bit5 (L.enc P)
    revert this
    cases bit5 (L.enc (-P)) <;> cases bit5 (L.enc P) <;> decide
  · show bit5 (L.enc 0) = false
    rw [L.enc_zero]
    show bit5 [0xC0] = false
    decide

/-- **C118.** A point has exactly one compressed form, and it is read back; the uncompressed form is read back. -/
theorem C118_encodings (b : List UInt8) (P : A) :
    (L.fromAffineCompressed b = .ok P ↔ b = L.toAffineCompressed P) ∧ (L.toAffineCompressed P).length = L.size ∧
    (L.toAffineUncompressed P).length = 2 * L.size ∧ L.fromAffineUncompressed (L.toAffineUncompressed P) = .ok P := by
  have hp := L.size_pos
  refine ⟨?_, L.len_enc P, L.len_raw P, ?_⟩
  · unfold GLib.fromAffineCompressed GLib.toAffineCompressed
    by_cases hl : b.length = L.size
    · rw [if_neg (not_not.2 hl)]
      have key : L.set b = some P ↔ b = L.enc P := by
        rw [L.set_iff, List.take_of_length_le (le_of_eq hl)]
        constructor
        · rintro (h | h | h)
          · exact h.2
          · omega
          · omega
        · intro h; exact Or.inl ⟨by omega, h⟩
      rw [← key]
      cases h : L.set b with
      | none => exact ⟨fun h => (by cases h), fun h => (by cases h)⟩
      | some Q => exact ⟨fun h => congrArg some (Res.ok.inj h), fun h => congrArg Res.ok (Option.some.inj h)⟩
    · rw [if_pos hl]
      exact ⟨fun h => (by cases h), fun h => absurd (h ▸ L.len_enc P) hl⟩
  · unfold GLib.fromAffineUncompressed GLib.toAffineUncompressed
    rw [if_neg (not_not.2 (L.len_raw P))]
    have : L.set (L.raw P) = some P := (L.set_iff _ _).2 (Or.inr (Or.inl ⟨by rw [L.len_raw], List.take_of_length_le (by rw [L.len_raw])⟩))
    rw [this]

/-- **C118, negation.** The uncompressed reader does not insist on the uncompressed form: a compressed point followed by anything of the right
length, and the string of zeros, are accepted. -/
theorem C118_uncompressed_violated (P : A) (junk : List UInt8) (hj : junk.length = L.size) :
    L.fromAffineUncompressed (L.toAffineCompressed P ++ junk) = .ok P ∧
    L.fromAffineUncompressed (List.replicate (2 * L.size) 0) = .ok 0 ∧ List.replicate (2 * L.size) 0 ≠ L.toAffineUncompressed 0 := by
  refine ⟨?_, ?_, fun h => L.raw_ne 0 h.symm⟩
  · have hl : (L.enc P ++ junk).length = 2 * L.size := by rw [List.length_append, L.len_enc, hj]; omega
    unfold GLib.fromAffineUncompressed GLib.toAffineCompressed
    rw [if_neg (not_not.2 hl)]
    have : L.set (L.enc P ++ junk) = some P := (L.set_iff _ _).2 (Or.inl ⟨by omega, List.take_left' (L.len_enc P)⟩)
    rw [this]
  · unfold GLib.fromAffineUncompressed
    rw [if_neg (not_not.2 (List.length_replicate ..))]
    have : L.set (List.replicate (2 * L.size) 0) = some 0 := (L.set_iff _ _).2 (Or.inr (Or.inr ⟨rfl, by rw [List.length_replicate],
      List.take_of_length_le (by rw [List.length_replicate])⟩))
    rw [this]

theorem fill_abs {n : Nat} {x : Int} (h : x.natAbs < 256 ^ n) : fill n (some x) = .ok (natToBEfix n x.natAbs) := by
  have := Ec.fill_lt (s := n) (x := (x.natAbs : Int)) (Int.natCast_nonneg _) (by exact_mod_cast h)
  rw [Int.toNat_natCast] at this
  rw [← this]
  unfold fill
  dsimp only
  rw [Int.natAbs_natCast]

theorem set_xy {x y : Int} (h0 : ¬ (x = 0 ∧ y = 0)) (hx : x.natAbs < 256 ^ L.size) (hy : y.natAbs < 256 ^ L.size) :
    L.setXY x y = match L.set (natToBEfix L.size x.natAbs ++ natToBEfix L.size y.natAbs) with
      | none => .err
      | some P => .ok P := by
  unfold GLib.setXY
  rw [if_neg h0, fill_abs hx, fill_abs hy]
  rfl

theorem fix_be {n : Nat} {b : List UInt8} (h : b.length = n) : natToBEfix n (beToNat b) = b := by
  rw [← h]; exact natToBEfix_beToNat b

/-- **C118.** `Set` of the coordinates of a point is the point; `Set` of two zeros is the identity. -/
theorem C118_set (P : A) : L.setXY (L.X P) (L.Y P) = .ok P ∧ L.setXY 0 0 = .ok 0 := by
  refine ⟨?_, if_pos ⟨rfl, rfl⟩⟩
  have hraw := L.len_raw P
  have l1 : ((L.raw P).take L.size).length = L.size := by rw [List.length_take]; omega
  have l2 : ((L.raw P).drop L.size).length = L.size := by rw [List.length_drop]; omega
  have hx : L.X P < 256 ^ L.size := l1 ▸ beToNat_lt _
  have hy : L.Y P < 256 ^ L.size := l2 ▸ beToNat_lt _
  have e1 : natToBEfix L.size (L.X P) = (L.raw P).take L.size := fix_be l1
  have e2 : natToBEfix L.size (L.Y P) = (L.raw P).drop L.size := fix_be l2
  have hz : natToBEfix L.size 0 = List.replicate L.size 0 := by
    have := fix_be (List.length_replicate (n := L.size) (a := (0 : UInt8)))
    have h0 := Hash.beToNat_zeros L.size []
    rw [List.append_nil] at h0
    rwa [h0] at this
  have h0 : ¬ ((L.X P : Int) = 0 ∧ (L.Y P : Int) = 0) := by
    rintro ⟨hx0, hy0⟩
    have hx0 : L.X P = 0 := by exact_mod_cast hx0
    have hy0 : L.Y P = 0 := by exact_mod_cast hy0
    rw [hx0, hz] at e1
    rw [hy0, hz] at e2
    apply L.raw_ne P
    rw [← List.take_append_drop L.size (L.raw P), ← e1, ← e2, Nat.two_mul, List.replicate_add]
  rw [set_xy L h0 (by rwa [Int.natAbs_natCast]) (by rwa [Int.natAbs_natCast]), Int.natAbs_natCast, Int.natAbs_natCast, e1, e2,
    List.take_append_drop]
  have : L.set (L.raw P) = some P := (L.set_iff _ _).2 (Or.inr (Or.inl ⟨by omega, List.take_of_length_le (by omega)⟩))
  rw [this]

/-- **C118, negation.** `Set` is not a function of the coordinates: signs are dropped, so that `(x, -y)` is the same point as `(x, y)` and not its
negative; and where the abscissa happens to carry a compressed point the ordinate is not looked at. -/
theorem C118_set_violated (P : A) (x y : Int) (hx : x.natAbs < 256 ^ L.size) (hy : y.natAbs < 256 ^ L.size) :
    L.setXY x (-y) = L.setXY x y ∧ L.setXY (-x) y = L.setXY x y ∧ L.setXY (beToNat (L.toAffineCompressed P)) y = .ok P := by
  refine ⟨?_, ?_, ?_⟩
  · by_cases h0 : x = 0 ∧ y = 0
    · rw [h0.1, h0.2, neg_zero]
    · rw [set_xy L h0 hx hy, set_xy L (by omega) hx (by rwa [Int.natAbs_neg]), Int.natAbs_neg]
  · by_cases h0 : x = 0 ∧ y = 0
    · rw [h0.1, h0.2, neg_zero]
    · rw [set_xy L h0 hx hy, set_xy L (by omega) (by rwa [Int.natAbs_neg]) hy, Int.natAbs_neg]
  · unfold GLib.toAffineCompressed
    have hl := L.len_enc P
    have he : natToBEfix L.size (beToNat (L.enc P)) = L.enc P := fix_be hl
    have hlt : beToNat (L.enc P) < 256 ^ L.size := by
      have := beToNat_lt (L.enc P)
      rwa [hl] at this
    have set2 : ∀ v, L.set (L.enc P ++ natToBEfix L.size v) = some P := fun v =>
      (L.set_iff _ _).2 (Or.inl ⟨by rw [List.length_append]; omega, List.take_left' hl⟩)
    by_cases h0 : (beToNat (L.enc P) : Int) = 0 ∧ y = 0
    · exfalso
      have hz : beToNat (L.enc P) = 0 := by exact_mod_cast h0.1
      rw [hz] at he
      have e0 : natToBEfix L.size 0 = List.replicate L.size 0 := by
        have := fix_be (List.length_replicate (n := L.size) (a := (0 : UInt8)))
        have h0 := Hash.beToNat_zeros L.size []
        rw [List.append_nil] at h0
        rwa [h0] at this
      rw [e0] at he
      by_cases hP : P = 0
      · rw [hP, L.enc_zero] at he
        have := L.size_pos
        obtain ⟨k, hk⟩ : ∃ k, L.size = k + 1 := ⟨L.size - 1, by omega⟩
        rw [hk, List.replicate_succ] at he
        exact absurd (List.cons.inj he).1 (by decide)
      · have hu := (L.set_iff (List.replicate (2 * L.size) 0) P).2 (Or.inl ⟨by rw [List.length_replicate]; omega, by
          rw [← he, List.take_replicate, Nat.min_eq_left (by omega)]⟩)
        have hv := (L.set_iff (List.replicate (2 * L.size) 0) 0).2 (Or.inr (Or.inr ⟨rfl, by rw [List.length_replicate],
          List.take_of_length_le (by rw [List.length_replicate])⟩))
        rw [hu] at hv
        exact hP (Option.some.inj hv)
    · rw [set_xy L h0 (by rwa [Int.natAbs_natCast]) hy, Int.natAbs_natCast, he, set2]

/-- **C118, negation.** The identity is not at the coordinates `(0, 0)` that `Set` maps to it: the flag of its encoding is read as part of the
abscissa. -/
theorem C118_identity_x_violated : L.X 0 = 0x40 * 256 ^ (L.size - 1) ∧ L.Y 0 = 0 ∧ L.X 0 ≠ 0 := by
  have hp := L.size_pos
  have hx : L.X 0 = 0x40 * 256 ^ (L.size - 1) := by
    unfold GLib.X
    rw [L.raw_zero]
    obtain ⟨k, hk⟩ : ∃ k, L.size = k + 1 := ⟨L.size - 1, by omega⟩
    rw [hk, List.take_succ_cons, List.take_replicate, Nat.min_eq_left (by omega)]
    have h0 := Hash.beToNat_zeros k []
    rw [List.append_nil] at h0
    show beToNat ([0x40] ++ List.replicate k 0) = _
    rw [beToNat_append, List.length_replicate, h0]
    rfl
  refine ⟨hx, ?_, ?_⟩
  · unfold GLib.Y
    rw [L.raw_zero]
    obtain ⟨k, hk⟩ : ∃ k, L.size = k + 1 := ⟨L.size - 1, by omega⟩
    rw [hk, List.drop_succ_cons, List.drop_replicate]
    have h0 := Hash.beToNat_zeros (2 * (k + 1) - 1 - k) []
    rwa [List.append_nil] at h0
  · rw [hx]
    exact Nat.mul_ne_zero (by decide) (Nat.pos_iff_ne_zero.1 (Nat.pow_pos (by decide)))

/-- **C118, negation.** `Set` of coordinates too large for the form panics instead of refusing. -/
theorem C118_set_panics_violated (x y : Int) (h : 256 ^ L.size ≤ x.natAbs) : L.setXY x y = .panic := by
  have hx : x ≠ 0 := by
    rintro rfl
    have : 0 < 256 ^ L.size := Nat.pow_pos (by decide)
    rw [Int.natAbs_zero] at h
    omega
  unfold GLib.setXY
  rw [if_neg (fun hh => hx hh.1)]
  have : fill L.size (some x) = .panic := by
    unfold fill fillBytes
    dsimp only
    rw [if_neg (by omega)]
  rw [this]
  rfl

end Points

/-! ## Sums of products -/

section Sums
variable {A B : Type} [AddCommGroup A] [AddCommGroup B]

/-- Which elements of the loops stand for which points of the first group. -/
def R1 (e : St A B) (P : A) : Prop := e = some (some (.inl P))
def R2 (e : St A B) (P : B) : Prop := e = some (some (.inr P))

theorem ok1 (z : A) : GOK (stOps (B := B) (.inl z)) R1 where
  zero := rfl
  add := by rintro e f P Q rfl rfl; rfl
  double := by rintro e P rfl; rfl

theorem ok2 (z : B) : GOK (stOps (A := A) (.inr z)) R2 where
  zero := rfl
  add := by rintro e f P Q rfl rfl; rfl
  double := by rintro e P rfl; rfl

theorem index_nat (v j : Nat) : index (v : Int) j = v / 2 ^ (6 * j) % 2 ^ 6 := by
  unfold index
  have : ((v : Int) / 2 ^ (6 * j)) % 64 = ((v / 2 ^ (6 * j) % 2 ^ 6 : Nat) : Int) := by push_cast; rfl
  rw [this, Int.toNat_natCast]

theorem buckets_spec {G : Type} [AddCommGroup G] {z : AnyPt A B} {R : St A B → G → Prop} (K : GOK (stOps z) R) (j : Nat)
    (l : List (St A B × G × Nat)) (hl : ∀ t ∈ l, R t.1 t.2.1) :
    ∃ Bs, List.Forall₂ R (buckets z (l.map fun t => (t.1, (t.2.2 : Int))) j) Bs ∧
      wsum Bs = (l.map fun t => (t.2.2 / 2 ^ (6 * j) % 2 ^ 6) • t.2.1).sum := by
  have gen : ∀ (l : List (St A B × G × Nat)), (∀ t ∈ l, R t.1 t.2.1) → ∀ (bs : List (St A B)) (Bs : List G), bs.length = 63 →
      List.Forall₂ R bs Bs →
      ∃ Bs', List.Forall₂ R ((l.map fun t => (t.1, (t.2.2 : Int))).foldl
        (fun bs t => if index t.2 j ≠ 0 then (stOps z).put bs (index t.2 j - 1) t.1 else bs) bs) Bs' ∧
        wsum Bs' = wsum Bs + (l.map fun t => (t.2.2 / 2 ^ (6 * j) % 2 ^ 6) • t.2.1).sum := by
    intro l
    induction l with
    | nil => intro _ bs Bs _ h; exact ⟨Bs, h, by rw [List.map_nil, List.sum_nil, add_zero]⟩
    | cons t l ih =>
      intro hl bs Bs hlen h
      have ht := hl t (List.mem_cons_self ..)
      have hl' := fun t h => hl t (List.mem_cons_of_mem _ h)
      rw [List.map_cons, List.foldl_cons, List.map_cons, List.sum_cons]
      have hi := index_nat t.2.2 j
      rw [← hi]
      have hlt : index t.2.2 j < 64 := by rw [hi]; exact Nat.mod_lt _ (by decide)
      dsimp only
      by_cases h0 : index (t.2.2 : Int) j = 0
      · rw [if_neg (not_not.2 h0), h0, zero_nsmul, zero_add]
        exact ih hl' bs Bs hlen h
      · rw [if_pos h0]
        obtain ⟨Bs1, h1, h2, _⟩ := put_spec K h (i := index (t.2.2 : Int) j - 1) (by rw [hlen]; omega) ht
        obtain ⟨Bs', h3, h4⟩ := ih hl' _ _ (by rw [put_length, hlen]) h1
        refine ⟨Bs', h3, ?_⟩
        rw [h4, h2, Nat.sub_add_cancel (by omega), add_assoc]
  obtain ⟨Bs, h1, h2⟩ := gen l hl _ _ (List.length_replicate ..) (replicate_zero (O := stOps z) 63 K.zero)
  exact ⟨Bs, h1, by rw [h2, wsum_zero, zero_add]⟩

set_option exponentiation.threshold 300 in
theorem r_lt258 : r < 2 ^ (6 * 43) :=
  lt_trans r_lt (by rw [show (256 : Nat) = 2 ^ 8 from rfl, ← pow_mul]; exact Nat.pow_lt_pow_right one_lt_two (by decide))

/-- The loops over points of one group, inserted by `inj`. -/
theorem pippenger_spec {G : Type} [AddCommGroup G] (inj : G → AnyPt A B) {R : St A B → G → Prop}
    (K : ∀ z, GOK (stOps (inj z)) R) (hR : ∀ e P, R e P ↔ e = some (some (inj P))) (l : List (G × Nat)) (hne : l ≠ [])
    (hl : ∀ t ∈ l, t.2 < 2 ^ (6 * 43)) :
    pippenger (l.map fun t => inj t.1) (l.map fun t => (t.2 : Int)) = some (some (inj (l.map fun t => t.2 • t.1).sum)) := by
  cases hc : l with
  | nil => exact absurd hc hne
  | cons t0 l0 =>
    rw [← hc]
    have e : pippenger (l.map fun t => inj t.1) (l.map fun t => (t.2 : Int)) =
        (stOps (inj t0.1)).combine 6 ((List.range' 0 43).map fun j => ((stOps (inj t0.1)).runSum
          (buckets (inj t0.1) (((l.map fun t => inj t.1).map fun p => some (some p)).zip (l.map fun t => (t.2 : Int))) j)).2) := by
      unfold pippenger
      rw [if_neg (by rw [List.length_map, List.length_map]; exact not_not.2 rfl)]
      rw [hc]
      rfl
    rw [e]
    have hz : (((l.map fun t => inj t.1).map fun p => (some (some p) : St A B)).zip (l.map fun t => (t.2 : Int))) =
        (l.map fun t => ((some (some (inj t.1)) : St A B), t.1, t.2)).map fun t => (t.1, (t.2.2 : Int)) := by
      rw [List.map_map, List.map_map, List.zip_map']
      rfl
    rw [hz]
    have key := combine_spec (K t0.1) 6 l (fun j => ((stOps (inj t0.1)).runSum (buckets (inj t0.1)
      ((l.map fun t => ((some (some (inj t.1)) : St A B), t.1, t.2)).map fun t => (t.1, (t.2.2 : Int))) j)).2) 43 0
      (fun j _ _ => by
        obtain ⟨Bs, h1, h2⟩ := buckets_spec (K t0.1) j (l.map fun t => ((some (some (inj t.1)) : St A B), t.1, t.2)) (fun t ht => by
          obtain ⟨u, -, rfl⟩ := List.mem_map.1 ht
          exact (hR _ _).2 rfl)
        have := (runSum_spec (K t0.1) h1).2
        rw [h2] at this
        exact Eq.mp (congrArg (R _) (congrArg List.sum (List.map_map))) this)
    rw [hR] at key
    refine key.trans (congrArg (fun P => some (some (inj P))) (congrArg List.sum (List.map_congr_left fun t ht => ?_)))
    rw [Nat.mul_zero, pow_zero, Nat.div_one, Nat.mod_eq_of_lt (hl t ht)]

theorem pointers_some (l : List Sc) : pointers (l.map some) = some l := by
  induction l with
  | nil => rfl
  | cons s l ih =>
    show (pointers (l.map some)).map (s :: ·) = _
    rw [ih]
    rfl

theorem mapM_some {α : Type} (l : List α) : (l.map some).mapM id = some l := by
  induction l with
  | nil => rfl
  | cons s l ih =>
    rw [List.map_cons, List.mapM_cons, ih]
    rfl

theorem sum_core {G : Type} [AddCommGroup G] (inj : G → AnyPt A B) {R : St A B → G → Prop}
    (K : ∀ z, GOK (stOps (inj z)) R) (hR : ∀ e P, R e P ↔ e = some (some (inj P))) (l : List (G × Sc × ZMod r)) (hne : l ≠ [])
    (hl : ∀ t ∈ l, Rep t.2.1 t.2.2) :
    sumOfProducts (l.map fun t => inj t.1) (l.map fun t => some t.2.1) = some (some (inj (l.map fun t => t.2.2.val • t.1).sum)) := by
  have e1 : (l.map fun t => some t.2.1) = (l.map fun t => t.2.1).map some := by rw [List.map_map]; rfl
  have e2 : (l.map fun t => t.2.1) = (l.map fun t => ((t.2.2.val : Nat) : Int)).map some := by
    rw [List.map_map]
    exact List.map_congr_left fun t ht => (rep_iff _ _).1 (hl t ht)
  have key := pippenger_spec inj K hR (l.map fun t => (t.1, t.2.2.val)) (fun h => hne (List.map_eq_nil_iff.1 h)) (fun t ht => by
    obtain ⟨u, -, rfl⟩ := List.mem_map.1 ht
    exact lt_trans (ZMod.val_lt u.2.2) r_lt258)
  rw [List.map_map, List.map_map, List.map_map] at key
  unfold sumOfProducts
  rw [e1, pointers_some]
  dsimp only
  rw [if_neg (by rw [List.length_map, List.length_map]; exact not_not.2 rfl), e2, mapM_some]
  exact key

/-- **C118.** `SumOfProducts` of any number of points of one group is `Σ kᵢ Pᵢ`, whatever point it is called on; lists of different lengths and
foreign scalars give nil. -/
theorem C118_sums (l : List (A × Sc × ZMod r)) (l' : List (B × Sc × ZMod r)) (hne : l ≠ []) (hne' : l' ≠ [])
    (hl : ∀ t ∈ l, Rep t.2.1 t.2.2) (hl' : ∀ t ∈ l', Rep t.2.1 t.2.2) :
    sumOfProducts (l.map fun t => (.inl t.1 : AnyPt A B)) (l.map fun t => some t.2.1) =
      some (some (.inl (l.map fun t => t.2.2.val • t.1).sum)) ∧
    sumOfProducts (l'.map fun t => (.inr t.1 : AnyPt A B)) (l'.map fun t => some t.2.1) =
      some (some (.inr (l'.map fun t => t.2.2.val • t.1).sum)) ∧
    (∀ (ps : List (AnyPt A B)) (ss : List Sc), ps.length ≠ ss.length → sumOfProducts ps (ss.map some) = some none) ∧
    (∀ (ps : List (AnyPt A B)) (ss : List Arg), none ∈ ss → sumOfProducts ps ss = some none) := by
  refine ⟨sum_core (fun P => .inl P) ok1 (fun _ _ => Iff.rfl) l hne hl, sum_core (fun P => .inr P) ok2 (fun _ _ => Iff.rfl) l' hne' hl', ?_, ?_⟩
  · intro ps ss h
    unfold sumOfProducts
    rw [pointers_some]
    exact if_pos h
  · intro ps ss h
    have : pointers ss = none := by
      induction ss with
      | nil => cases h
      | cons s ss ih =>
        cases s with
        | none => rfl
        | some s =>
          rcases List.mem_cons.1 h with h | h
          · cases h
          · show (pointers ss).map (s :: ·) = _
            rw [ih h]
            rfl
    unfold sumOfProducts
    rw [this]

/-- **C118, negation.** The sum of no products panics instead of being the identity. -/
theorem C118_empty_sum_violated : sumOfProducts ([] : List (AnyPt A B)) [] = none := rfl

/-- **C118, negation.** A sum over points of both groups is refused (by nil) or panics depending on the scalars: already in groups of two elements,
with the scalars `1, 1` it is nil, with `64, 64` it panics. -/
theorem C118_mixed_violated : ∀ P Q : ZMod 2,
    sumOfProducts [(.inl P : AnyPt (ZMod 2) (ZMod 2)), .inr Q] [some (some 1), some (some 1)] = some none ∧
    sumOfProducts [(.inl P : AnyPt (ZMod 2) (ZMod 2)), .inr Q] [some (some 64), some (some 64)] = none := by decide +kernel

example : sumOfProducts [(.inl (3 : ZMod r) : AnyPt (ZMod r) (ZMod r)), .inl 5] [some (some 2), some (some 7)] =
    some (some (.inl ([((2 : ZMod r).val • (3 : ZMod r)), ((7 : ZMod r).val • 5)].sum))) :=
  (C118_sums [((3 : ZMod r), some 2, (2 : ZMod r)), (5, some 7, 7)] [((3 : ZMod r), some 2, (2 : ZMod r))] (List.cons_ne_nil _ _)
    (List.cons_ne_nil _ _) (fun t ht => by
      rcases List.mem_cons.1 ht with rfl | ht
      · exact ⟨2, rfl, by decide, by decide +kernel, by norm_cast⟩
      · obtain rfl := List.mem_singleton.1 ht
        exact ⟨7, rfl, by decide, by decide +kernel, by norm_cast⟩) (fun t ht => by
      obtain rfl := List.mem_singleton.1 ht
      exact ⟨2, rfl, by decide, by decide +kernel, by norm_cast⟩)).1

end Sums

end Verif.B377
