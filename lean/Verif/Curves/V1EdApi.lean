import Verif.Curves.V1Ed
import Verif.Curves.V1Feldman

/-!
# C112: the Ed25519 curve of the first generation of secret sharing

`num L P` is the integer a point is passed around as (its encoding, most significant byte first); the points of the prime order subgroup are
those with `ell • P = 0`.
-/

set_option linter.unusedSectionVars false

namespace Verif.V1Ed
open Verif.Bytes Verif.Ed
open Verif.Ec (Point)
open Verif.Ec.EdSc (ell)

variable {A : Type} [AddCommGroup A] {L : EdLib A}

/-- The integer of a point. -/
def num (L : EdLib A) (P : A) : Int := (beToNat (L.enc P) : Int)

theorem pad (n : Nat) (b : List UInt8) : beToNat (List.replicate n 0 ++ b) = beToNat b := by
  rw [← leToNat_reverse, List.reverse_append, List.reverse_replicate, Native.leToNat_append, Ec.EdSc.zeros, Nat.mul_zero, Nat.add_zero,
    leToNat_reverse]

/-- The bytes that reach the library. -/
theorem point_eq (L : EdLib A) (y : Int) :
    (y.natAbs < 256 ^ 32 → point L y = match L.dec (natToBEfix 32 y.natAbs) with | some P => .ok P | none => .err) ∧
    (256 ^ 32 ≤ y.natAbs → point L y = .panic) := by
  have hb : (Big.bytes y).length ≤ 32 ↔ y.natAbs < 256 ^ 32 := by
    unfold Big.bytes
    rw [length_natToBE, byteLen_le_iff]
  constructor
  · intro h
    have hl := hb.2 h
    have e : List.replicate (32 - (Big.bytes y).length) 0 ++ Big.bytes y = natToBEfix 32 y.natAbs := by
      refine beToNat_inj ?_ ?_
      · rw [List.length_append, List.length_replicate, length_natToBEfix]
        omega
      · rw [pad, beToNat_natToBEfix, Nat.mod_eq_of_lt h]
        exact beToNat_natToBE _
    unfold point
    dsimp only
    rw [if_neg (by omega), e]
    rfl
  · intro h
    unfold point
    dsimp only
    rw [if_pos (by by_contra hc; exact absurd (hb.1 (by omega)) (by omega))]

theorem num_lt (P : A) : (num L P).natAbs < 256 ^ 32 ∧ natToBEfix 32 (num L P).natAbs = L.enc P := by
  have h := beToNat_lt (L.enc P)
  rw [L.length_enc] at h
  have e : (num L P).natAbs = beToNat (L.enc P) := Int.natAbs_natCast _
  refine ⟨by rw [e]; exact h, ?_⟩
  rw [e]
  have := natToBEfix_beToNat (L.enc P)
  rwa [L.length_enc] at this

theorem point_num (P : A) : point L (num L P) = .ok P := by
  obtain ⟨h1, h2⟩ := num_lt (L := L) P
  rw [(point_eq L _).1 h1, h2, L.dec_enc]

theorem num_inj {P Q : A} (h : num L P = num L Q) : P = Q := by
  have := point_num (L := L) P
  rw [h, point_num] at this
  exact (Res.ok.inj this).symm

theorem num_four : num L L.four = 0 := by
  unfold num
  rw [L.enc_four]
  decide +kernel

theorem num_zero : num L 0 = 2 ^ 248 := by
  unfold num
  rw [L.enc_zero]
  decide +kernel

theorem out_eq (P : A) : out L P = (0, num L P) := rfl

theorem operand_num {P : A} (h : P ≠ L.four) : operand L (num L P) = .ok P := by
  unfold operand
  rw [if_neg (fun h0 => h (num_inj (L := L) (h0.trans num_four.symm))), point_num]
  rfl

/-- Nothing of the prime order subgroup has the encoding zero. -/
theorem ne_four {P : A} (h : ell • P = 0) : P ≠ L.four := by
  rintro rfl
  have h4 := L.four_order
  have : (1 : Nat) • L.four = 0 := by
    have e : (1 : Nat) = ell % 4 := by decide +kernel
    have hd : ell • L.four = (ell % 4) • L.four := by
      conv_lhs => rw [← Nat.mod_add_div ell 4, add_nsmul, mul_nsmul, h4, nsmul_zero, add_zero]
    rw [e, ← hd, h]
  rw [one_nsmul] at this
  exact L.four_ne (by rw [this, nsmul_zero])

/-! ## The curve -/

/-- **C112** `IsOnCurve` ignores the first coordinate and, up to 256 bits, accepts exactly the integers whose 32 bytes decode to a point; every
result of an operation is accepted -/
theorem C112_is_on_curve (x y : Int) :
    (y.natAbs < 2 ^ 256 → ∃ b, isOnCurve L x y = .ok b ∧ (b = true ↔ ∃ P, L.dec (natToBEfix 32 y.natAbs) = some P)) ∧
    ∀ P, isOnCurve L x (num L P) = .ok true := by
  have e' : (256 : Nat) ^ 32 = 2 ^ 256 := by norm_num
  constructor
  · intro h
    have := (point_eq L y).1 (by rw [e']; exact h)
    unfold isOnCurve
    rw [this]
    cases hd : L.dec (natToBEfix 32 y.natAbs) with
    | none => exact ⟨false, rfl, (fun hh => by cases hh), fun ⟨P, hP⟩ => by cases hP⟩
    | some P => exact ⟨true, rfl, fun _ => ⟨P, rfl⟩, fun _ => rfl⟩
  · intro P
    unfold isOnCurve
    rw [point_num]

/-- **C112** (negation of: `IsOnCurve` answers for all integers, and for a point only) it panics for every integer of more than 256 bits; it accepts
a point of the curve with any first coordinate, and the negative of its second -/
theorem C112_is_on_curve_violated (x y : Int) :
    (2 ^ 256 ≤ y.natAbs → isOnCurve L x y = .panic) ∧ (∀ P, isOnCurve L x (num L P) = .ok true ∧ isOnCurve L x (-num L P) = .ok true) := by
  have e' : (256 : Nat) ^ 32 = 2 ^ 256 := by norm_num
  refine ⟨fun h => ?_, fun P => ⟨(C112_is_on_curve x y).2 P, ?_⟩⟩
  · unfold isOnCurve
    rw [(point_eq L y).2 (by rw [e']; exact h)]
  · obtain ⟨h1, h2⟩ := num_lt (L := L) P
    unfold isOnCurve
    rw [(point_eq L _).1 (by rw [Int.natAbs_neg]; exact h1), Int.natAbs_neg, h2, L.dec_enc]

/-- **C112** `Add`, `Double` and `Neg` are the group operations for all pairs of points, whatever the first coordinates, except that `Add` and `Neg`
do not recognise the point with encoding zero, which is outside the subgroup -/
theorem C112_group_law (x1 x2 : Int) (P Q : A) :
    (P ≠ L.four → Q ≠ L.four → add L x1 (num L P) x2 (num L Q) = .ok (0, num L (P + Q))) ∧
    (P ≠ L.four → neg L x1 (num L P) = .ok (0, num L (-P))) ∧
    double L x1 (num L P) = .ok (0, num L (P + P)) ∧ (ell • P = 0 → P ≠ L.four) ∧ (num L P = num L Q ↔ P = Q) := by
  refine ⟨fun h1 h2 => ?_, fun h => ?_, ?_, ne_four, num_inj, fun h => by rw [h]⟩
  · unfold add
    rw [operand_num h1, operand_num h2]
    rfl
  · unfold neg
    rw [operand_num h]
    rfl
  · unfold double
    rw [point_num]
    rfl

/-- **C112** (negation of: zero is the neutral element, as in Go's interface) `Add` and `Neg` take the integer zero for the neutral element, but it is
the encoding of a point of order four, which is what `Double` and `ScalarMult` take it for: adding zero to itself and doubling it differ, and
twice zero is not zero; the neutral element is returned as `2²⁴⁸` -/
theorem C112_zero_violated (x : Int) :
    (∀ P, P ≠ L.four → add L x 0 x (num L P) = .ok (0, num L P)) ∧ add L x 0 x 0 = .ok (0, 2 ^ 248) ∧
    double L x 0 = .ok (0, num L (2 • L.four)) ∧ scalarMult L x 0 [2] = .ok (0, num L (2 • L.four)) ∧ num L (2 • L.four) ≠ 2 ^ 248 ∧
    2 • L.four ≠ 0 := by
  have h0 : operand L 0 = .ok 0 := by unfold operand; rw [if_pos rfl]
  have hp : point L 0 = .ok L.four := by rw [← num_four (L := L), point_num]
  refine ⟨fun P hP => ?_, ?_, ?_, ?_, ?_, L.four_ne⟩
  · unfold add
    rw [h0, operand_num hP, Res.bind_ok, Res.bind_ok, zero_add]
    rfl
  · unfold add
    rw [h0, Res.bind_ok, Res.bind_ok, add_zero, out_eq, num_zero]
  · unfold double
    rw [hp, two_nsmul]
    rfl
  · unfold scalarMult
    rw [hp, show scalar [2] = 2 by decide +kernel]
    rfl
  · intro h
    exact L.four_ne (num_inj (L := L) (h.trans num_zero.symm))

/-! ## Multiplication -/

theorem take64 (k : List UInt8) : leToNat (k.reverse.take 64 ++ List.replicate (64 - k.reverse.length) 0) = beToNat k % 256 ^ 64 := by
  rw [Native.leToNat_append, Ec.EdSc.zeros, Nat.mul_zero, Nat.add_zero]
  have h3 := Native.leToNat_append (k.reverse.take 64) (k.reverse.drop 64)
  rw [List.take_append_drop, leToNat_reverse] at h3
  by_cases h : k.reverse.length ≤ 64
  · rw [List.take_of_length_le h, leToNat_reverse]
    have h1 := beToNat_lt k
    rw [List.length_reverse] at h
    have h2 : (256 : Nat) ^ k.length ≤ 256 ^ 64 := Nat.pow_le_pow_right (by omega) h
    rw [Nat.mod_eq_of_lt (by omega)]
  · have h1 : (k.reverse.take 64).length = 64 := by rw [List.length_take]; omega
    have h2 := leToNat_lt (k.reverse.take 64)
    rw [h1] at h2 h3
    rw [h3, Nat.add_mul_mod_self_left, Nat.mod_eq_of_lt h2]

/-- The scalar used: the low 256 bits if they are below the order, and otherwise the low 512 bits reduced. -/
theorem scalar_spec (k : List UInt8) :
    scalar k = if beToNat k % 2 ^ 256 < ell then beToNat k % 2 ^ 256 else beToNat k % 2 ^ 512 % ell := by
  have e' : (256 : Nat) ^ 64 = 2 ^ 512 := by decide +kernel
  unfold scalar
  rw [Ec.EdSc.scalar_eq, show (Big.setBytes k).natAbs = beToNat k from Int.natAbs_natCast _]
  by_cases h : beToNat k % 2 ^ 256 < ell
  · rw [if_pos h, if_pos h]
  · rw [if_neg h, if_neg h]
    dsimp only
    rw [take64, e']

theorem scalar_small (k : List UInt8) (h : beToNat k < 2 ^ 256) : scalar k = beToNat k % ell := by
  rw [scalar_spec, Nat.mod_eq_of_lt h, Nat.mod_eq_of_lt (lt_trans h (Nat.pow_lt_pow_right (by decide) (by decide)))]
  split
  · next h2 => rw [Nat.mod_eq_of_lt h2]
  · rfl

/-- **C112** `ScalarMult` and `ScalarBaseMult` with a scalar of up to 256 bits, most significant byte first: the multiple by the residue modulo the order,
which on the prime order subgroup is the multiple; in general the scalar is the low 256 bits if they are below the order and the residue of the low
512 bits otherwise -/
theorem C112_scalar_mult (x : Int) (P : A) (k : List UInt8) :
    (beToNat k < 2 ^ 256 → scalarMult L x (num L P) k = .ok (0, num L ((beToNat k % ell) • P)) ∧
      (ell • P = 0 → scalarMult L x (num L P) k = .ok (0, num L (beToNat k • P))) ∧
      scalarBaseMult L k = .ok (0, num L (beToNat k • L.base))) ∧
    (2 ^ 256 ≤ beToNat k → beToNat k < 2 ^ 512 → ell ≤ beToNat k % 2 ^ 256 →
      scalarMult L x (num L P) k = .ok (0, num L ((beToNat k % ell) • P)) ∧ scalarBaseMult L k = .ok (0, num L (beToNat k • L.base))) := by
  have hm : ∀ P : A, scalarMult L x (num L P) k = .ok (0, num L (scalar k • P)) := by
    intro P
    unfold scalarMult
    rw [point_num]
    rfl
  have hb : scalarBaseMult L k = .ok (0, num L (scalar k • L.base)) := rfl
  constructor
  · intro h
    have e := scalar_small k h
    refine ⟨by rw [hm, e], fun hP => by rw [hm, e, mod_smul hP], by rw [hb, e, mod_smul L.base_order]⟩
  · intro _ h2 h3
    have e : scalar k = beToNat k % ell := by
      rw [scalar_spec, if_neg (by omega), Nat.mod_eq_of_lt h2]
    exact ⟨by rw [hm, e], by rw [hb, e, mod_smul L.base_order]⟩

/-- **C112** (negation of: the multiple for every scalar) when the low 256 bits of a scalar are below the order, everything above them is dropped: the
multiple of the base point by `2²⁵⁶` is returned as the neutral element -/
theorem C112_scalar_truncated_violated (k : List UInt8) :
    (beToNat k % 2 ^ 256 < ell → scalarBaseMult L k = .ok (0, num L ((beToNat k % 2 ^ 256) • L.base))) ∧
    scalarBaseMult L (1 :: List.replicate 32 0) = .ok (0, num L 0) ∧ num L ((2 ^ 256) • L.base) ≠ num L 0 ∧
    beToNat ((1 : UInt8) :: List.replicate 32 0) = 2 ^ 256 := by
  have hb : ∀ k, scalarBaseMult L k = .ok (0, num L (scalar k • L.base)) := fun _ => rfl
  refine ⟨fun h => by rw [hb, scalar_spec, if_pos h], ?_, fun h => ?_, by decide +kernel⟩
  · rw [hb, show scalar (1 :: List.replicate 32 0) = 0 by decide +kernel, zero_nsmul]
  · have h0 : (2 ^ 256) • L.base = 0 := num_inj h
    have ho : addOrderOf L.base = ell := addOrderOf_eq_prime L.base_order L.base_ne
    have hd := addOrderOf_dvd_of_nsmul_eq_zero h0
    rw [ho] at hd
    exact absurd hd (by decide +kernel)

/-- **C112** (negation of: `Hash` returns a point in the representation of the other methods) its second coordinate is the encoding read the other way
round: it is the integer of the point exactly if the encoding is a palindrome, which that of the base point is not -/
theorem C112_hash_violated (P : A) :
    (hashOut L P = (0, num L P) ↔ (L.enc P).reverse = L.enc P) ∧ hashOut L L.base ≠ (0, num L L.base) := by
  have e : ∀ P, hashOut L P = (0, num L P) ↔ (L.enc P).reverse = L.enc P := by
    intro P
    constructor
    · intro h
      have h2 : ((beToNat (L.enc P).reverse : Nat) : Int) = (beToNat (L.enc P) : Nat) := congrArg Prod.snd h
      exact beToNat_inj (List.length_reverse) (by exact_mod_cast h2)
    · intro h
      unfold hashOut
      rw [h]
      rfl
  refine ⟨e P, fun h => ?_⟩
  have h := (e _).1 h
  rw [L.enc_base] at h
  exact absurd h (by decide)

/-! ## Point objects and Feldman's verification -/

/-- The point object of a point, as the operations return it. -/
def ofPt (L : EdLib A) (a : Nat) (P : A) : Point := ⟨curve L a, some 0, some (num L P)⟩

theorem checked_of (a : Nat) (P : A) : Point.checked ⟨curve L a, some 0, some (num L P)⟩ = .ok (ofPt L a P) := by
  have hv : Point.isValid (ofPt L a P) = .ok true := by
    unfold Point.isValid Point.isOnCurve ofPt
    dsimp only
    rw [show (curve L a).isOnCurve 0 (num L P) = true by
      show (match isOnCurve L 0 (num L P) with | .ok b => b | _ => false) = true
      rw [(C112_is_on_curve 0 0).2 P]]
    rfl
  unfold Point.checked
  rw [show Point.isValid ⟨curve L a, some 0, some (num L P)⟩ = .ok true from hv]
  rfl

theorem ell_pos' : (0 : Int) < (ell : Int) := by decide +kernel

theorem reduce_l (a : Nat) (k : Int) :
    Ec.reduceModN (curve L a) k = .ok (k % (ell : Int)) ∧ beToNat (Big.bytes (k % (ell : Int))) = (k % (ell : Int)).toNat ∧
      (k % (ell : Int)).toNat < ell := by
  have h := Int.emod_nonneg k (ne_of_gt ell_pos')
  have h2 := Int.emod_lt_of_pos k ell_pos'
  refine ⟨?_, ?_, by omega⟩
  · unfold Ec.reduceModN Big.mod
    rw [show (curve L a).N.val = (ell : Int) from rfl, if_neg (ne_of_gt ell_pos')]
  · unfold Big.bytes
    rw [beToNat_natToBE]
    omega

theorem zsmul_l {P : A} (h : ell • P = 0) (k : Int) : (k % (ell : Int)).toNat • P = k • P := by
  have h0 := Int.emod_nonneg k (ne_of_gt ell_pos')
  rw [← natCast_zsmul, Int.toNat_of_nonneg h0]
  conv_rhs => rw [← Int.emod_add_mul_ediv k (ell : Int), add_zsmul, mul_zsmul', natCast_zsmul, h, smul_zero, add_zero]

/-- **C112** the point objects over this curve: `Add`, `Equals` and `NewScalarBaseMult` are right for all points of the prime order subgroup and
all integers, and so is `ScalarMult`; for a point outside the subgroup `ScalarMult` is the multiple by the residue -/
theorem C112_points (a : Nat) (P Q : A) (k : Int) (hP : ell • P = 0) (hQ : ell • Q = 0) :
    Point.add (some (ofPt L a P)) (some (ofPt L a Q)) = .ok (ofPt L a (P + Q)) ∧
    ((ofPt L a P).equals (some (ofPt L a Q)) = true ↔ P = Q) ∧
    Point.newScalarBaseMult (some (curve L a)) (some k) = .ok (ofPt L a (k • L.base)) ∧
    Point.scalarMult (some (ofPt L a P)) (some k) = .ok (ofPt L a (k • P)) ∧
    (∀ R : A, Point.scalarMult (some (ofPt L a R)) (some k) = .ok (ofPt L a ((k % (ell : Int)).toNat • R))) ∧
    (∀ R : A, (ofPt L a R).isBasePoint = true ↔ R = L.base) := by
  obtain ⟨h1, h2, h3⟩ := reduce_l (L := L) a k
  have hlt : (k % (ell : Int)).toNat < 2 ^ 256 := lt_trans h3 Ec.EdSc.ell_lt
  have hm : ∀ R : A, Point.scalarMult (some (ofPt L a R)) (some k) = .ok (ofPt L a ((k % (ell : Int)).toNat • R)) := by
    intro R
    unfold Point.scalarMult ofPt
    dsimp only
    rw [h1, Res.bind_ok]
    have e : (curve L a).scalarMult 0 (num L R) (Big.bytes (k % (ell : Int))) = .ok (0, num L ((k % (ell : Int)).toNat • R)) := by
      have := ((C112_scalar_mult (L := L) 0 R (Big.bytes (k % (ell : Int)))).1 (by rw [h2]; exact hlt)).1
      rw [h2, Nat.mod_eq_of_lt h3] at this
      exact this
    rw [e, Res.bind_ok]
    exact checked_of a _
  refine ⟨?_, ?_, ?_, by rw [hm, zsmul_l hP], hm, fun R => ?_⟩
  · unfold Point.add ofPt
    dsimp only
    rw [Ec.same_refl, if_neg (by decide)]
    rw [show (curve L a).add 0 (num L P) 0 (num L Q) = .ok (0, num L (P + Q)) from
      (C112_group_law 0 0 P Q).1 (ne_four hP) (ne_four hQ), Res.bind_ok]
    exact checked_of a _
  · unfold Point.equals ofPt
    dsimp only
    rw [Ec.same_refl, if_neg (by decide), Ec.cte_and]
    exact ⟨fun h => num_inj h.2, fun h => by rw [h]; exact ⟨rfl, rfl⟩⟩
  · unfold Point.newScalarBaseMult
    dsimp only
    rw [h1, Res.bind_ok]
    have e : (curve L a).scalarBaseMult (Big.bytes (k % (ell : Int))) = .ok (0, num L (k • L.base)) := by
      have := ((C112_scalar_mult (L := L) 0 L.base (Big.bytes (k % (ell : Int)))).1 (by rw [h2]; exact hlt)).2.2
      rw [h2, zsmul_l L.base_order] at this
      exact this
    rw [e, Res.bind_ok]
    exact checked_of a _
  · show (_ == 1) = true ↔ _
    refine Iff.trans (Ec.cte_and _ _ _ _) ?_
    exact ⟨fun h => num_inj (L := L) h.2, fun h => by rw [h]; exact ⟨rfl, rfl⟩⟩

theorem num_parity (P : A) : num L (-P) % 2 = num L P % 2 := by
  have key : ∀ l : List UInt8, l.length = 32 → (beToNat l) % 2 = (leToNat l) % 2 ^ 255 / 2 ^ 248 % 2 := by
    intro l hl
    obtain ⟨i, c, rfl⟩ : ∃ i c, l = i ++ [c] := by
      rcases List.eq_nil_or_concat' l with h | ⟨i, c, h⟩
      · rw [h] at hl; cases hl
      · exact ⟨i, c, h⟩
    have hi : i.length = 31 := by rw [List.length_append] at hl; exact Nat.succ.inj hl
    have h1 := leToNat_lt i
    have h2 := c.toNat_lt
    rw [beToNat_append, Native.leToNat_append, hi, show beToNat [c] = c.toNat by rw [← leToNat_reverse]; show c.toNat + 256 * 0 = _; omega,
      show leToNat [c] = c.toNat by show c.toNat + 256 * 0 = _; omega]
    rw [hi] at h1
    have e1 : (256 : Nat) ^ 31 = 2 ^ 248 := by norm_num
    have e2 : (256 : Nat) ^ [c].length = 256 := rfl
    rw [e1] at h1 ⊢
    rw [e2]
    omega
  have h := L.enc_neg P
  have e1 := key _ (L.length_enc P)
  have e2 := key _ (L.length_enc (-P))
  rw [h, ← e1] at e2
  unfold num
  omega

/-- **C112** (negation of: the predicates and `Neg` of point objects) `EcPoint.Neg` never returns the negative of a point of this curve; `IsIdentity`
refuses the neutral element and accepts a point of order four -/
theorem C112_points_violated (a : Nat) (P : A) :
    Point.neg (some (ofPt L a P)) ≠ .ok (ofPt L a (-P)) ∧ (ofPt L a (0 : A)).isIdentity = false ∧
    (ofPt L a L.four).isIdentity = true ∧ L.four ≠ 0 := by
  refine ⟨fun h => ?_, ?_, ?_, fun h => L.four_ne (by rw [h, nsmul_zero])⟩
  · unfold Point.neg ofPt Point.checked at h
    obtain ⟨v, -, h⟩ := Res.bind_eq_ok.1 h
    cases v with
    | false => cases h
    | true =>
      have h := Res.ok.inj h
      have hy : (curve L a).P.val - num L P = num L (-P) := Option.some.inj (congrArg Point.Y h)
      have hp := num_parity (L := L) P
      have ho : (curve L a).P.val % 2 = 1 := by
        show (0x7FFFFFFFFFFFFFFFFFFFFFFFFFFFFFFFFFFFFFFFFFFFFFFFFFFFFFFFFFFFFFED : Int) % 2 = 1
        decide +kernel
      generalize (curve L a).P.val = p at hy ho
      omega
  · refine Bool.eq_false_iff.2 fun h => ?_
    have := (Ec.cte_and _ _ _ _).1 h
    rw [num_zero] at this
    exact absurd this.2 (by decide)
  · refine (Ec.cte_and _ _ _ _).2 ⟨rfl, num_four⟩

open Classical in
/-- **C112** `Feldman.Verify` over this curve, with verifiers in the prime order subgroup: a share `(x, value)` is accepted exactly if
`value B = Q₀ + x Q₁ + x² Q₂ + …` -/
theorem C112_feldman (a t x : Nat) (value : Int) (Q0 : A) (Qs : List A) (hx : x < ell) (ht : t ≤ Qs.length + 1) (h0 : ell • Q0 = 0)
    (hQ : ∀ Q ∈ Qs, ell • Q = 0) :
    V1Bls.feldmanVerify (curve L a) t x value ((Q0 :: Qs).map (ofPt L a)) =
      .ok (decide (value • L.base = V1Bls.powSum (fun j => x ^ j) (Q0 :: Qs))) := by
  have hn : 0 < ell := Ec.EdSc.ell_pos
  have hk : ∀ (Q : A) (m : Nat), ell • Q = 0 → ell • (m • Q) = 0 := by
    intro Q m h
    rw [← mul_nsmul, Nat.mul_comm, mul_nsmul, h, nsmul_zero]
  have h := V1Bls.verify_spec (C := curve L a) (ofPt L a) hn rfl (fun Q : A => ell • Q = 0) (fun k => k) L.base L.base_order
    (fun Q R hQ hR => ⟨by rw [nsmul_add, hQ, hR, add_zero], (C112_points a Q R 0 hQ hR).1⟩) hk
    (fun Q R hQ hR => by rw [Bool.eq_iff_iff, decide_eq_true_eq]; exact (C112_points a Q R 0 hQ hR).2.1) value (value % (ell : Int)).toNat
    (by rw [zsmul_l L.base_order]; exact (C112_points a 0 0 value (nsmul_zero _) (nsmul_zero _)).2.2.1) t x hx Q0 Qs ht h0 hQ
    (by
      intro Q j _ hS
      have := (C112_points (L := L) a Q Q ((x ^ (j + 1) % ell : Nat) : Int) hS hS).2.2.2.1
      rw [natCast_zsmul] at this
      exact this)
  have hp : ∀ (e : Nat → Nat) (l : List A), (∀ Q ∈ l, ell • Q = 0) → V1Bls.powSum (fun j => e j % ell) l = V1Bls.powSum e l := by
    intro e l
    induction l generalizing e with
    | nil => intro _; rfl
    | cons Q l ih =>
      intro hl
      rw [V1Bls.powSum, V1Bls.powSum, mod_smul (hl Q (List.mem_cons_self ..)), ih (fun j => e (j + 1)) (fun Q' h' => hl Q' (List.mem_cons_of_mem _ h'))]
  have e : V1Bls.powSum (fun j => x ^ j) (Q0 :: Qs) = Q0 + V1Bls.powSum (fun j => x ^ (j + 1)) Qs := by rw [V1Bls.powSum, pow_zero, one_nsmul]
  rw [h, hp (fun j => x ^ (j + 1)) Qs hQ, zsmul_l L.base_order, e]

/-! ## A concrete case -/

/-- The contract is met, and the base point is a point of the subgroup other than the neutral one. -/
example : ell • toyEd.base = 0 ∧ toyEd.base ≠ 0 ∧ toyEd.four ≠ 0 :=
  ⟨toyEd.base_order, toyEd.base_ne, fun h => toyEd.four_ne (by rw [h, nsmul_zero])⟩

end Verif.V1Ed
