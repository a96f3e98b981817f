import Verif.Curves.Bls377PointApi
import Mathlib.FieldTheory.Finite.GaloisField
import Mathlib.GroupTheory.Perm.Cycle.Type

/-! C119: the pairing of BLS12-377 and its target field. -/

set_option linter.unusedSectionVars false

namespace Verif.B377

open Verif.Bytes Verif.Native
open Verif.Ec (fill)

/-! ## The pairing -/

section Pairings
variable {A B F : Type} [AddCommGroup A] [AddCommGroup B] [Field F] (E : PLib A B F)

theorem e_zero_left (Q : B) : E.e 0 Q = 1 := by
  have h := E.add_left 0 0 Q
  rw [add_zero] at h
  exact mul_left_cancel₀ (E.ne 0 Q) (by rw [← h, mul_one])

theorem e_zero_right (P : A) : E.e P 0 = 1 := by
  have h := E.add_right P 0 0
  rw [add_zero] at h
  exact mul_left_cancel₀ (E.ne P 0) (by rw [← h, mul_one])

theorem e_nsmul_left (n : Nat) (P : A) (Q : B) : E.e (n • P) Q = E.e P Q ^ n := by
  induction n with
  | zero => rw [zero_nsmul, e_zero_left, pow_zero]
  | succ n ih => rw [succ_nsmul, E.add_left, ih, pow_succ]

theorem e_nsmul_right (n : Nat) (P : A) (Q : B) : E.e P (n • Q) = E.e P Q ^ n := by
  induction n with
  | zero => rw [zero_nsmul, e_zero_right, pow_zero]
  | succ n ih => rw [succ_nsmul, E.add_right, ih, pow_succ]

theorem smul_ne (L : GLib A) {a : ZMod r} (ha : a ≠ 0) {P : A} (hP : P ≠ 0) : a.val • P ≠ 0 := by
  intro h
  apply hP
  have hd : ¬ r ∣ a.val := fun hd => ha ((ZMod.val_eq_zero a).1 (Nat.eq_zero_of_dvd_of_lt hd (ZMod.val_lt a)))
  have hc : Nat.Coprime a.val r := ((Nat.Prime.coprime_iff_not_dvd fact_r.out).2 hd).symm
  have h1 := addOrderOf_dvd_of_nsmul_eq_zero h
  have h2 := addOrderOf_dvd_of_nsmul_eq_zero (L.order P)
  exact AddMonoid.addOrderOf_eq_one_iff.1 (Nat.eq_one_of_dvd_coprimes hc h1 h2)

theorem pairing_ne {P : A} {Q : B} (hP : P ≠ 0) (hQ : Q ≠ 0) : E.pairing P Q = some (E.e P Q) := by
  unfold PLib.pairing
  rw [if_neg (by rintro (h | h) <;> contradiction)]
  unfold PLib.pair
  rw [if_neg (List.cons_ne_nil _ _), List.map_singleton, List.prod_singleton]

/-- **C119.** On points other than the identity `Pairing` gives the same value from either side, never zero, bilinear: multiplying the points by
scalars raises the value to their product, and adding points multiplies the values.  Its value has the order of the scalars, and an argument of the
wrong group gives nil. -/
theorem C119_pairing (L : GLib A) (M : GLib B) {P P' : A} {Q : B} (hP : P ≠ 0) (hP' : P' ≠ 0) (hQ : Q ≠ 0) {a b : ZMod r} (ha : a ≠ 0)
    (hb : b ≠ 0) :
    ∃ v v' : F, v ≠ 0 ∧ v ^ r = 1 ∧
      E.pairing1 P (some (.inr Q)) = some v ∧ E.pairing2 Q (some (.inl P)) = some v ∧ E.pairing1 P' (some (.inr Q)) = some v' ∧
      E.pairing1 (a.val • P) (some (.inr (b.val • Q))) = some (v ^ (a * b).val) ∧
      (P + P' ≠ 0 → E.pairing1 (P + P') (some (.inr Q)) = some (v * v')) ∧
      E.pairing1 (-P) (some (.inr Q)) = some v⁻¹ ∧
      E.pairing1 P (some (.inl P')) = none ∧ E.pairing1 P none = none ∧ E.pairing2 Q (some (.inr Q)) = none ∧ E.pairing2 Q none = none := by
  have hr : E.e P Q ^ r = 1 := by rw [← e_nsmul_left, L.order, e_zero_left]
  refine ⟨E.e P Q, E.e P' Q, E.ne P Q, hr, pairing_ne E hP hQ, pairing_ne E hP hQ, pairing_ne E hP' hQ, ?_, ?_, ?_, rfl, rfl, rfl, rfl⟩
  · refine (pairing_ne E (smul_ne L ha hP) (smul_ne M hb hQ)).trans (congrArg some ?_)
    rw [e_nsmul_left, e_nsmul_right, ← pow_mul, ZMod.val_mul, Nat.mul_comm b.val]
    conv_lhs => rw [← Nat.div_add_mod (a.val * b.val) r, pow_add, pow_mul, hr, one_pow, one_mul]
  · intro h
    exact (pairing_ne E h hQ).trans (congrArg some (E.add_left P P' Q))
  · refine (pairing_ne E (neg_ne_zero.2 hP) hQ).trans (congrArg some (eq_inv_of_mul_eq_one_left ?_))
    rw [← E.add_left, neg_add_cancel, e_zero_left]

/-- The arguments of `MultiPairing` for a list of pairs. -/
def flat : List (A × B) → List (AnyPt A B)
  | [] => []
  | t :: l => .inl t.1 :: .inr t.2 :: flat l

theorem pairs_flat (l : List (A × B)) : pairs (flat l) = some l := by
  induction l with
  | nil => rfl
  | cons t l ih =>
    show (pairs (flat l)).map ((t.1, t.2) :: ·) = _
    rw [ih]
    rfl

/-- Only such lists are accepted. -/
theorem pairs_some : ∀ (n : Nat) (ps : List (AnyPt A B)) (l : List (A × B)), ps.length ≤ n → pairs ps = some l → ps = flat l
  | _, [], l, _, h => by
    have : [] = l := Option.some.inj h
    rw [← this]; rfl
  | 0, p :: ps, _, hn, _ => absurd hn (by simp)
  | n + 1, [.inl P], l, _, h => by cases h
  | n + 1, [.inr P], l, _, h => by cases h
  | n + 1, .inl P :: .inl Q :: ps, l, _, h => by cases h
  | n + 1, .inr P :: q :: ps, l, _, h => by cases h
  | n + 1, .inl P :: .inr Q :: ps, l, hn, h => by
    have h : (pairs ps).map ((P, Q) :: ·) = some l := h
    cases hp : pairs ps with
    | none => rw [hp] at h; cases h
    | some l' =>
      rw [hp] at h
      have : (P, Q) :: l' = l := Option.some.inj h
      have ih := pairs_some n ps l' (by rw [List.length_cons, List.length_cons] at hn; omega) hp
      rw [← this, ih]
      rfl

/-- **C119.** `MultiPairing` of pairs of points is the product of the pairings, a pair with the identity contributing one; it is one exactly when
the product is.  For a single pair of points other than the identity it agrees with `Pairing`.  It answers only when the arguments alternate between
the groups. -/
theorem C119_multi (l : List (A × B)) (hl : l ≠ []) :
    E.multiPairing (flat l) = some ((l.map fun t => E.e t.1 t.2).prod) ∧
    (∀ P Q, P ≠ 0 → Q ≠ 0 → E.multiPairing (flat [(P, Q)]) = E.pairing1 P (some (.inr Q))) ∧
    (∀ P Q, P = 0 ∨ Q = 0 → E.multiPairing (flat ((P, Q) :: l)) = E.multiPairing (flat l)) ∧
    (∀ P Q, E.multiPairing (flat [(P, Q), (-P, Q)]) = some 1) ∧
    (∀ ps v, E.multiPairing ps = some v → ∃ l', l' ≠ [] ∧ ps = flat l') := by
  have key : ∀ l : List (A × B), l ≠ [] → E.multiPairing (flat l) = some ((l.map fun t => E.e t.1 t.2).prod) := by
    intro l hl
    unfold PLib.multiPairing
    rw [pairs_flat]
    exact if_neg hl
  refine ⟨key l hl, ?_, ?_, ?_, ?_⟩
  · intro P Q hP hQ
    rw [key _ (List.cons_ne_nil _ _), List.map_singleton, List.prod_singleton]
    exact (pairing_ne E hP hQ).symm
  · intro P Q h
    rw [key _ (List.cons_ne_nil _ _), key l hl, List.map_cons, List.prod_cons]
    have : E.e P Q = 1 := by
      rcases h with rfl | rfl
      · exact e_zero_left E Q
      · exact e_zero_right E P
    show some (E.e P Q * _) = _
    rw [this, one_mul]
  · intro P Q
    rw [key _ (List.cons_ne_nil _ _), List.map_cons, List.map_singleton, List.prod_cons, List.prod_singleton]
    show some (E.e P Q * E.e (-P) Q) = _
    rw [← E.add_left, add_neg_cancel, e_zero_left]
  · intro ps v h
    unfold PLib.multiPairing at h
    cases hp : pairs ps with
    | none => rw [hp] at h; cases h
    | some l' =>
      rw [hp] at h
      refine ⟨l', ?_, pairs_some _ ps l' (le_refl _) hp⟩
      rintro rfl
      cases h

/-- **C119, negation.** `Pairing` with the identity is the zero of the field and not its one, so it is not bilinear: the pairing of `P + (-P)` with `Q`
is not the product of the pairings of `P` and `-P`, and `MultiPairing` of the same two points is one. -/
theorem C119_identity_violated {P : A} {Q : B} (hP : P ≠ 0) (hQ : Q ≠ 0) :
    E.pairing1 (P + -P) (some (.inr Q)) = some 0 ∧ (∃ v, E.pairing1 P (some (.inr Q)) = some v ∧ E.pairing1 (-P) (some (.inr Q)) = some v⁻¹ ∧ v * v⁻¹ ≠ 0) ∧
    E.multiPairing (flat [(P + -P, Q)]) = some 1 ∧ E.pairing2 (0 : B) (some (.inl P)) = some 0 := by
  refine ⟨?_, ⟨E.e P Q, pairing_ne E hP hQ, ?_, ?_⟩, ?_, if_pos (Or.inr rfl)⟩
  · rw [add_neg_cancel]
    exact if_pos (Or.inl rfl)
  · refine (pairing_ne E (neg_ne_zero.2 hP) hQ).trans (congrArg some (eq_inv_of_mul_eq_one_left ?_))
    rw [← E.add_left, neg_add_cancel, e_zero_left]
  · rw [mul_inv_cancel₀ (E.ne P Q)]
    exact one_ne_zero
  · rw [((C119_multi E [(P + -P, Q)] (List.cons_ne_nil _ _)).1), List.map_singleton, List.prod_singleton, add_neg_cancel]
    exact congrArg some (e_zero_left E Q)

/-- **C119, negation.** The product over no pairs is nil instead of one. -/
theorem C119_empty_violated : E.multiPairing [] = none := rfl

end Pairings

/-! ## The target field -/

section Gt
variable {F : Type} [Field F] (T : TLib F)

set_option exponentiation.threshold 400 in
theorem coord_lt' (x : F) (i : Fin 12) : T.coord x i < 256 ^ 48 := by
  have h : (2 : Nat) ^ 377 < 256 ^ 48 := by
    rw [show (256 : Nat) = 2 ^ 8 from rfl, ← pow_mul]
    exact Nat.pow_lt_pow_right one_lt_two (by decide)
  exact lt_trans (T.coord_lt x i) (lt_trans T.hp.2 h)

theorem finRange12 : List.finRange 12 = [0, 1, 2, 3, 4, 5, 6, 7, 8, 9, 10, 11] := by decide +kernel

theorem enc_list (x : F) : T.enc x = natToBEfix 48 (T.coord x 11) ++ (natToBEfix 48 (T.coord x 10) ++ (natToBEfix 48 (T.coord x 9) ++
    (natToBEfix 48 (T.coord x 8) ++ (natToBEfix 48 (T.coord x 7) ++ (natToBEfix 48 (T.coord x 6) ++ (natToBEfix 48 (T.coord x 5) ++
    (natToBEfix 48 (T.coord x 4) ++ (natToBEfix 48 (T.coord x 3) ++ (natToBEfix 48 (T.coord x 2) ++ (natToBEfix 48 (T.coord x 1) ++
    natToBEfix 48 (T.coord x 0))))))))))) := by
  rw [T.enc_eq, finRange12]
  simp only [List.map_cons, List.map_nil, List.flatten_cons, List.flatten_nil, List.append_nil]
  rfl

theorem enc_len (x : F) : (T.enc x).length = 576 := by
  rw [enc_list]
  simp only [List.length_append, length_natToBEfix]

theorem setBytes_enc (x : F) : T.setBytes (T.enc x) = .ok x := by
  unfold TLib.setBytes
  rw [T.set_enc]

/-- **C119.** The encoding of an element of the target field has 576 bytes and is read back, as bytes and as an integer; `SetBytesWide` of two
encodings is the sum of the elements; nothing of another length is read. -/
theorem C119_gt_bytes (x y : F) :
    (T.enc x).length = 576 ∧ T.setBytes (T.enc x) = .ok x ∧ T.setBigInt (T.bigInt x) = .ok x ∧ (T.enc x = T.enc y → x = y) ∧
    T.setBytesWide (T.enc x ++ T.enc y) = .ok (x + y) ∧ (∀ b, b.length ≠ 576 → T.setBytes b = .err) ∧
    (∀ b, b.length ≠ 1152 → T.setBytesWide b = .err) := by
  refine ⟨enc_len T x, setBytes_enc T x, ?_, ?_, ?_, ?_, fun b hb => if_pos hb⟩
  · unfold TLib.setBigInt TLib.bigInt
    have h : beToNat (T.enc x) < 256 ^ 576 := by
      have := beToNat_lt (T.enc x)
      rwa [enc_len] at this
    rw [fill_abs (by rwa [Int.natAbs_natCast]), Int.natAbs_natCast, fix_be (enc_len T x)]
    exact setBytes_enc T x
  · intro h
    have := T.set_enc x
    rw [h, T.set_enc] at this
    exact (Option.some.inj this).symm
  · have hl : (T.enc x ++ T.enc y).length = 1152 := by rw [List.length_append, enc_len, enc_len]
    unfold TLib.setBytesWide
    rw [if_neg (not_not.2 hl), hl]
    have h1 : (T.enc x ++ T.enc y).take (1152 / 2) = T.enc x := List.take_left' (enc_len T x)
    have h2 : (T.enc x ++ T.enc y).drop (1152 / 2) = T.enc y := List.drop_left' (enc_len T x)
    rw [h1, h2, setBytes_enc, setBytes_enc]
    rfl
  · intro b hb
    unfold TLib.setBytes
    rw [T.set_len b hb]

theorem or_zero (a b : UInt8) : a ||| b = 0 ↔ a = 0 ∧ b = 0 := by
  constructor
  · intro h
    have h' := congrArg UInt8.toBitVec h
    have h' : a.toBitVec ||| b.toBitVec = 0 := h'
    have := (BitVec.or_eq_zero_iff (x := a.toBitVec) (y := b.toBitVec)).1 h'
    exact ⟨UInt8.toBitVec_inj.1 this.1, UInt8.toBitVec_inj.1 this.2⟩
  · rintro ⟨rfl, rfl⟩; rfl

theorem foldl_or (l : List UInt8) : ∀ a : UInt8, (l.foldl (fun r b => r ||| b) a = 0 ↔ a = 0 ∧ ∀ b ∈ l, b = 0) := by
  induction l with
  | nil => intro a; simp
  | cons c l ih =>
    intro a
    rw [List.foldl_cons, ih, or_zero, List.forall_mem_cons, and_assoc]

theorem all_zero {l : List UInt8} : (∀ b ∈ l, b = 0) ↔ l = List.replicate l.length 0 := List.eq_replicate_length.symm

theorem fix_zero (v : Nat) (h : v < 256 ^ 48) : (∀ b ∈ natToBEfix 48 v, b = 0) ↔ v = 0 := by
  have hz : natToBEfix 48 0 = List.replicate 48 0 := by decide +kernel
  constructor
  · intro hb
    have := all_zero.1 hb
    rw [length_natToBEfix, ← hz] at this
    have := congrArg beToNat this
    rwa [beToNat_natToBEfix, beToNat_natToBEfix, Nat.mod_eq_of_lt h, Nat.zero_mod] at this
  · rintro rfl b hb
    rw [hz] at hb
    exact List.eq_of_mem_replicate hb

theorem enc_zero_iff (x : F) : (∀ b ∈ T.enc x, b = 0) ↔ x = 0 := by
  have h : (∀ b ∈ T.enc x, b = 0) ↔ ∀ i, T.coord x i = 0 := by
    rw [T.enc_eq]
    constructor
    · intro h i
      refine (fix_zero _ (coord_lt' T x i)).1 (fun b hb => h b (List.mem_flatten.2 ⟨_, List.mem_map.2 ⟨i.rev, List.mem_finRange _, rfl⟩, ?_⟩))
      rwa [Fin.rev_rev]
    · intro h b hb
      obtain ⟨l, hl, hb⟩ := List.mem_flatten.1 hb
      obtain ⟨i, -, rfl⟩ := List.mem_map.1 hl
      exact (fix_zero _ (coord_lt' T x i.rev)).2 (h _) b hb
  rw [h]
  constructor
  · intro h
    exact T.coord_inj _ _ (funext fun i => (h i).trans (T.coord_zero i).symm)
  · rintro rfl i; exact T.coord_zero i

theorem last_fix (v : Nat) (l : List UInt8) : (l ++ natToBEfix 48 v).getLastD 0 = UInt8.ofNat (v % 256) := by
  unfold natToBEfix
  show (l ++ (natToLE (47 + 1) v).reverse).getLastD 0 = _
  have : natToLE (47 + 1) v = UInt8.ofNat v :: natToLE 47 (v / 256) := rfl
  have hm : UInt8.ofNat (v % 256) = UInt8.ofNat v := UInt8.toNat_inj.1 (by simp)
  rw [hm, this, List.reverse_cons, ← List.append_assoc, List.getLastD_concat]

theorem enc_last (x : F) : (T.enc x).getLastD 0 = UInt8.ofNat (T.coord x 0 % 256) := by
  rw [enc_list]
  simp only [← List.append_assoc]
  exact last_fix _ _

theorem bit0 (v : Nat) : (UInt8.ofNat (v % 256) &&& 1 == 1) = decide (v % 2 = 1) ∧ (UInt8.ofNat (v % 256) &&& 1 == 0) = decide (v % 2 = 0) := by
  have key : ∀ w : Fin 256, (UInt8.ofNat w.val &&& 1 == 1) = decide (w.val % 2 = 1) ∧ (UInt8.ofNat w.val &&& 1 == 0) = decide (w.val % 2 = 0) := by
    decide +kernel
  have h := key ⟨v % 256, Nat.mod_lt _ (by decide)⟩
  have e : v % 256 % 2 = v % 2 := Nat.mod_mod_of_dvd _ (by decide)
  dsimp only at h
  rw [e] at h
  exact h

/-- **C119.** The operations on the target field are those of the field, with nil for an argument of another type; the tests say what the field says,
and parity is that of the first coordinate. -/
theorem C119_gt_field (x y z : F) :
    T.add x (some y) = some (x + y) ∧ T.sub x (some y) = some (x - y) ∧ T.mul x (some y) = some (x * y) ∧ T.div x (some y) = some (x / y) ∧
    T.mulAdd x (some y) (some z) = .ok (some (x * y + z)) ∧ T.neg x = -x ∧ T.square x = x ^ 2 ∧ T.cube x = x ^ 3 ∧ T.double x = 2 * x ∧
    (x ≠ 0 → T.mul x (some (T.invert x)) = some 1) ∧
    (T.isZero x = true ↔ x = 0) ∧ (T.isOne x = true ↔ x = 1) ∧ T.zero = some 0 ∧ T.one = 1 ∧
    (T.cmp x (some y) = 0 ↔ x = y) ∧ (T.cmp x (some y) = -2 ↔ x ≠ y) ∧
    T.isOdd x = decide (T.coord x 0 % 2 = 1) ∧ T.isEven x = decide (T.coord x 0 % 2 = 0) ∧
    T.add x none = none ∧ T.sub x none = none ∧ T.mul x none = none ∧ T.div x none = none ∧ T.cmp x none = -2 := by
  refine ⟨rfl, rfl, rfl, ?_, rfl, ?_, (pow_two x).symm, ?_, (two_mul x).symm, ?_, ?_, @decide_eq_true_iff _ (Classical.propDecidable _), ?_, rfl, ?_, ?_,
    ?_, ?_, rfl, rfl, rfl, rfl, rfl⟩
  · show some (y⁻¹ * x) = _
    rw [div_eq_mul_inv, mul_comm]
  · show (1 - 1) - x = -x
    rw [sub_self, zero_sub]
  · show x * x * x = _
    ring
  · intro h
    exact congrArg some (mul_inv_cancel₀ h)
  · unfold TLib.isZero
    rw [beq_iff_eq, foldl_or, ← enc_zero_iff T x]
    exact ⟨fun h => h.2, fun h => ⟨rfl, h⟩⟩
  · have h0 := (enc_zero_iff T (0 : F)).2 rfl
    have := all_zero.1 h0
    rw [enc_len] at this
    unfold TLib.zero
    rw [← this, T.set_enc]
  · classical
    show (if x = y then (0 : Int) else -2) = 0 ↔ _
    by_cases h : x = y
    · rw [if_pos h]; exact ⟨fun _ => h, fun _ => rfl⟩
    · rw [if_neg h]; exact ⟨fun hh => absurd hh (by decide), fun hh => absurd hh h⟩
  · classical
    show (if x = y then (0 : Int) else -2) = -2 ↔ _
    by_cases h : x = y
    · rw [if_pos h]; exact ⟨fun hh => absurd hh (by decide), fun hh => absurd h hh⟩
    · rw [if_neg h]; exact ⟨fun _ => h, fun _ => rfl⟩
  · unfold TLib.isOdd
    rw [enc_last]
    exact (bit0 _).1
  · unfold TLib.isEven
    rw [enc_last]
    exact (bit0 _).2

/-- **C119, negation.** `Invert` of zero reports no error and is zero; so is dividing by zero; `MulAdd` with a foreign factor panics where `Mul` is
nil. -/
theorem C119_gt_zero_violated (x : F) (z : Option F) : T.invert 0 = 0 ∧ T.div x (some 0) = some 0 ∧ T.mulAdd x none z = .panic := by
  refine ⟨_root_.inv_zero, ?_, rfl⟩
  show some ((0 : F)⁻¹ * x) = _
  rw [_root_.inv_zero, zero_mul]

/-- The string that `New(1)` reads. -/
theorem new_one_bytes : ((List.range 4).map (fun i => UInt8.ofNat (((1 : Int) / 256 ^ i) % 256).toNat) ++ List.replicate 572 (0 : UInt8)) =
    ((List.finRange 12).map fun i => natToBEfix 48 (if i.rev = 11 then 256 ^ 47 else 0)).flatten := by decide +kernel

/-- **C119, negation.** `New(1)` is not one: the four bytes of the integer are put at the wrong end, and the result is `2^376` in the last
coordinate. -/
theorem C119_gt_new_violated : ∃ y, T.new 1 = some y ∧ y ≠ T.one ∧ T.coord y 11 = 2 ^ 376 ∧ T.coord y 0 = 0 := by
  have hp : 256 ^ 47 < T.p := by
    have h : (256 : Nat) ^ 47 = 2 ^ 376 := by decide +kernel
    rw [h]; exact T.hp.1
  have h0 : 0 < T.p := by omega
  obtain ⟨y, hy⟩ := T.surj (fun i => if i = 11 then 256 ^ 47 else 0) (fun i => by
    by_cases h : i = 11
    · rw [if_pos h]; exact hp
    · rw [if_neg h]; exact h0)
  have e : T.new 1 = some y := by
    unfold TLib.new
    rw [new_one_bytes, ← T.set_enc y, T.enc_eq, hy]
  have e0 : T.coord y 0 = 0 := by rw [hy]; rfl
  refine ⟨y, e, ?_, ?_, e0⟩
  · intro h
    have := T.coord_one 0
    rw [show (1 : F) = y from h.symm, e0] at this
    exact absurd this (by decide)
  · rw [hy]
    show (256 : Nat) ^ 47 = 2 ^ 376
    decide +kernel

/-- **C119, negation.** `Random` draws the coordinates below the order of the scalars and not of the field, so most elements cannot be drawn: the
element with `r` as its first coordinate, for one. -/
theorem C119_gt_random_violated : ∃ y, ∀ draws : List Nat, draws.length = 12 → (∀ v ∈ draws, v < r) → T.random draws ≠ some y := by
  have hr : r < T.p := lt_trans (b := 2 ^ 376) (by decide +kernel) T.hp.1
  have h0 : 0 < T.p := by omega
  obtain ⟨y, hy⟩ := T.surj (fun i => if i = 11 then r else 0) (fun i => by
    by_cases h : i = 11
    · rw [if_pos h]; exact hr
    · rw [if_neg h]; exact h0)
  refine ⟨y, fun draws hd hv h => ?_⟩
  obtain ⟨x, hx⟩ := T.surj (fun i => draws.getD i.rev.val 0) (fun i => by
    have hi : i.rev.val < draws.length := by rw [hd]; exact i.rev.isLt
    rw [List.getD_eq_getElem _ _ hi]
    exact lt_trans (hv _ (List.getElem_mem hi)) hr)
  have e : T.random draws = some x := by
    unfold TLib.random
    rw [← T.set_enc x, T.enc_eq, hx]
    refine congrArg T.set (congrArg List.flatten ?_)
    refine List.ext_getElem (by rw [List.length_map, List.length_map, List.length_finRange, hd]) (fun n h1 h2 => ?_)
    rw [List.getElem_map, List.getElem_map, List.getElem_finRange]
    rw [List.length_map] at h1
    have hn : n < 12 := hd ▸ h1
    show natToBEfix 48 draws[n] = natToBEfix 48 (draws.getD (Fin.rev (Fin.rev (⟨n, hn⟩ : Fin 12))).val 0)
    rw [Fin.rev_rev]
    show natToBEfix 48 draws[n] = natToBEfix 48 (draws.getD n 0)
    rw [List.getD_eq_getElem _ _ h1]
  rw [e] at h
  have hxy : x = y := Option.some.inj h
  have h11 : draws.getD (Fin.rev (11 : Fin 12)).val 0 = r := by
    have := congrFun hx 11
    rw [hxy, hy] at this
    exact this.symm
  have hi : (Fin.rev (11 : Fin 12)).val < draws.length := by rw [hd]; exact (Fin.rev (11 : Fin 12)).isLt
  rw [List.getD_eq_getElem _ _ hi] at h11
  have := hv _ (List.getElem_mem hi)
  omega

end Gt

/-! ## The contract can be met -/

section Toy

instance fact_toyP : Fact Prime.toyP.Prime := ⟨Prime.prime_toyP⟩

/-- A field with `p^12` elements. -/
abbrev ToyF : Type := GaloisField Prime.toyP 12

noncomputable instance : Fintype ToyF := Fintype.ofFinite _

theorem toy_card : Nat.card ToyF = Prime.toyP ^ 12 := GaloisField.card Prime.toyP 12 (by decide)

theorem toyP_pos : 0 < Prime.toyP := fact_toyP.out.pos

/-- The coordinates of the zero and of the one. -/
def v0 : Fin 12 → Fin Prime.toyP := fun _ => ⟨0, toyP_pos⟩
def v1 : Fin 12 → Fin Prime.toyP := fun i => if i = 0 then ⟨1, fact_toyP.out.one_lt⟩ else ⟨0, toyP_pos⟩

theorem v01 : v0 ≠ v1 := by
  intro h
  have := congrArg Fin.val (congrFun h 0)
  exact absurd this (by show (0 : Nat) ≠ 1; decide)

theorem toy_equiv : ∃ f : ToyF ≃ (Fin 12 → Fin Prime.toyP), f 0 = v0 ∧ f 1 = v1 := by
  have hc : Nat.card ToyF = Nat.card (Fin 12 → Fin Prime.toyP) := by
    rw [toy_card, Nat.card_fun, Nat.card_fin, Nat.card_fin]
  obtain ⟨f0⟩ := Finite.card_eq.1 hc
  let f1 := f0.trans (Equiv.swap (f0 0) v0)
  have h1 : f1 0 = v0 := Equiv.swap_apply_left _ _
  let f2 := f1.trans (Equiv.swap (f1 1) v1)
  refine ⟨f2, ?_, Equiv.swap_apply_left _ _⟩
  show Equiv.swap (f1 1) v1 (f1 0) = v0
  rw [h1]
  exact Equiv.swap_apply_of_ne_of_ne (fun h => zero_ne_one (f1.injective (h1.trans h))) v01

theorem toy_bounds : 2 ^ 376 < Prime.toyP ∧ Prime.toyP < 2 ^ 377 := by decide +kernel

/-- Twelve blocks of 48 bytes determine the numbers. -/
theorem blocks_inj (c d : Fin 12 → Nat) (hc : ∀ i, c i < 256 ^ 48) (hd : ∀ i, d i < 256 ^ 48)
    (h : ((List.finRange 12).map fun i => natToBEfix 48 (c i.rev)).flatten = ((List.finRange 12).map fun i => natToBEfix 48 (d i.rev)).flatten) :
    c = d := by
  have gen : ∀ (l : List (Fin 12)), (l.map fun i => natToBEfix 48 (c i.rev)).flatten = (l.map fun i => natToBEfix 48 (d i.rev)).flatten →
      ∀ i ∈ l, c i.rev = d i.rev := by
    intro l
    induction l with
    | nil => intro _ i hi; cases hi
    | cons a l ih =>
      intro h i hi
      rw [List.map_cons, List.map_cons, List.flatten_cons, List.flatten_cons] at h
      obtain ⟨h1, h2⟩ := List.append_inj h (by rw [length_natToBEfix, length_natToBEfix])
      rcases List.mem_cons.1 hi with rfl | hi
      · have := congrArg beToNat h1
        rwa [beToNat_natToBEfix, beToNat_natToBEfix, Nat.mod_eq_of_lt (hc _), Nat.mod_eq_of_lt (hd _)] at this
      · exact ih h2 i hi
  funext i
  have := gen _ h i.rev (List.mem_finRange _)
  rwa [Fin.rev_rev] at this

open Classical in
/-- A target field with such an encoding. -/
noncomputable def toyT : TLib ToyF :=
  let f := Classical.choose toy_equiv
  let coord : ToyF → Fin 12 → Nat := fun x i => (f x i).val
  let enc : ToyF → List UInt8 := fun x => ((List.finRange 12).map fun i => natToBEfix 48 (coord x i.rev)).flatten
  have hf := Classical.choose_spec toy_equiv
  have hlt : ∀ x i, coord x i < Prime.toyP := fun x i => (f x i).isLt
  have hinj : ∀ x y, coord x = coord y → x = y := fun x y h => f.injective (funext fun i => Fin.ext (congrFun h i))
  have hlen : ∀ x, (enc x).length = 576 := fun x => by
    show (((List.finRange 12).map fun i => natToBEfix 48 (coord x i.rev)).flatten).length = 576
    rw [List.length_flatten, List.map_map]
    have : (List.length ∘ fun i : Fin 12 => natToBEfix 48 (coord x i.rev)) = fun _ => 48 := funext fun i => length_natToBEfix _ _
    rw [this]
    decide +kernel
  have h48 : ∀ v, v < Prime.toyP → v < 256 ^ 48 := fun v hv => lt_trans hv (by decide +kernel)
  { p := Prime.toyP
    hp := toy_bounds
    coord := coord
    coord_lt := hlt
    coord_inj := hinj
    enc := enc
    enc_eq := fun _ => rfl
    set := fun b => if h : ∃ x, enc x = b then some (Classical.choose h) else none
    set_enc := fun x => by
      have h : ∃ y, enc y = enc x := ⟨x, rfl⟩
      show (if h : ∃ y, enc y = enc x then some (Classical.choose h) else none) = some x
      rw [dif_pos h]
      exact congrArg some (hinj _ _ (blocks_inj _ _ (fun i => h48 _ (hlt _ i)) (fun i => h48 _ (hlt _ i)) (Classical.choose_spec h)))
    set_len := fun b hb => dif_neg (fun ⟨x, hx⟩ => hb (hx ▸ hlen x))
    surj := fun c hc => ⟨f.symm fun i => ⟨c i, hc i⟩, funext fun i => by
      show (f (f.symm fun i => ⟨c i, hc i⟩) i).val = c i
      rw [Equiv.apply_symm_apply]⟩
    coord_zero := fun i => by show (f 0 i).val = 0; rw [hf.1]; rfl
    coord_one := fun i => by
      show (f 1 i).val = _
      rw [hf.2]
      show (if i = 0 then (⟨1, _⟩ : Fin Prime.toyP) else ⟨0, _⟩).val = _
      by_cases h : i = 0
      · rw [if_pos h, if_pos h]
      · rw [if_neg h, if_neg h] }

theorem r_dvd : r ∣ Prime.toyP - 1 := by decide +kernel

/-- An element of the order of the scalars. -/
theorem exists_zeta : ∃ ζ : ToyFˣ, orderOf ζ = r := by
  classical
  have : Fact r.Prime := fact_r
  refine exists_prime_orderOf_dvd_card r ?_
  have h1 : Fintype.card ToyFˣ = Prime.toyP ^ 12 - 1 := by
    rw [Fintype.card_units, ← Nat.card_eq_fintype_card, toy_card]
  rw [h1]
  have h2 : Prime.toyP - 1 ∣ Prime.toyP ^ 12 - 1 := by
    have := Nat.sub_dvd_pow_sub_pow Prime.toyP 1 12
    rwa [one_pow] at this
  exact dvd_trans r_dvd h2

theorem pow_add_mod {ζ : ToyFˣ} {n : Nat} (h : orderOf ζ = n) (x y : Nat) : ζ ^ ((x + y) % n) = ζ ^ x * ζ ^ y := by
  rw [← h, pow_mod_orderOf, pow_add]

/-- A pairing of the groups of `toyG` into that field, with values of the order of the scalars. -/
noncomputable def toyE : PLib (ZMod r) (ZMod r) ToyF where
  e P Q := ((Classical.choose exists_zeta) ^ (P * Q).val : ToyFˣ)
  ne P Q := Units.ne_zero _
  add_left P P' Q := by
    rw [← Units.val_mul, add_mul, ZMod.val_add]
    exact congrArg Units.val (pow_add_mod (Classical.choose_spec exists_zeta) _ _)
  add_right P Q Q' := by
    rw [← Units.val_mul, mul_add, ZMod.val_add]
    exact congrArg Units.val (pow_add_mod (Classical.choose_spec exists_zeta) _ _)

/-- It is not degenerate. -/
theorem toyE_ne : toyE.e toyG.gen toyG.gen ≠ 1 := by
  have h := Classical.choose_spec exists_zeta
  intro h1
  have h1 : ((Classical.choose exists_zeta) ^ ((1 : ZMod r) * 1).val : ToyFˣ).val = 1 := h1
  rw [mul_one, ZMod.val_one, pow_one] at h1
  have : Classical.choose exists_zeta = 1 := Units.ext h1
  rw [this, orderOf_one] at h
  exact absurd h (by decide +kernel)

example : ∃ v : ToyF, toyE.pairing1 (toyG.gen) (some (.inr toyG.gen)) = some v ∧ v ≠ 1 ∧ v ^ r = 1 := by
  obtain ⟨v, _, -, hr, h, -⟩ := C119_pairing toyE toyG toyG toyG.gen_ne toyG.gen_ne toyG.gen_ne (a := 1) (b := 1) one_ne_zero one_ne_zero
  refine ⟨v, h, ?_, hr⟩
  have := (pairing_ne toyE toyG.gen_ne toyG.gen_ne).symm.trans h
  rw [← Option.some.inj this]
  exact toyE_ne

end Toy
end Verif.B377
