import Verif.Curves.EcPoint
import Verif.Core.Props

/-! # C109: the legacy points compute in the group of their curve -/

set_option linter.unusedSectionVars false
set_option maxRecDepth 20000

namespace Verif.Ec
open Verif.Bytes Verif.Native Verif.Native.Weier

theorem cte (x y : Int) : CoreMod.constantTimeEqByte (some x) (some y) = if x = y then 1 else 0 := by
  have h := (CoreMod.C40_in_eq (some x) (some y)).2
  have e : CoreMod.constantTimeEqByte (some x) (some y) = 0 ∨ CoreMod.constantTimeEqByte (some x) (some y) = 1 := by
    unfold CoreMod.constantTimeEqByte
    dsimp only
    split <;> split <;> decide
  unfold CoreMod.constantTimeEq at h
  by_cases hxy : x = y
  · rw [if_pos hxy]
    exact beq_iff_eq.1 (h.2 (by rw [hxy]))
  · rw [if_neg hxy]
    rcases e with e | e
    · exact e
    · exact absurd (Option.some.inj (h.1 (beq_iff_eq.2 e))) hxy

theorem cte_and (x y z w : Int) :
    ((CoreMod.constantTimeEqByte (some x) (some z) &&& CoreMod.constantTimeEqByte (some y) (some w)) == 1) = true ↔ x = z ∧ y = w := by
  rw [cte, cte]
  by_cases h1 : x = z <;> by_cases h2 : y = w <;> simp [h1, h2]

section
variable {p : Nat} [Fact p.Prime] {a b : ZMod p} {C : Curve} {n : Nat} {G : Pt a b}

theorem nz : NeZero p := ⟨(Fact.out : p.Prime).ne_zero⟩

theorem coords_range (Q : Pt a b) : 0 ≤ (coords Q).1 ∧ (coords Q).1 < p ∧ 0 ≤ (coords Q).2 ∧ (coords Q).2 < p := by
  have := nz (p := p)
  have h0 := Nat.pos_of_ne_zero this.out
  rcases Q with _ | ⟨x, y, h⟩
  · have h : (0 : Int) < p := by exact_mod_cast h0
    exact ⟨le_refl _, h, le_refl _, h⟩
  · exact ⟨Int.natCast_nonneg _, Int.ofNat_lt.2 (ZMod.val_lt x), Int.natCast_nonneg _, Int.ofNat_lt.2 (ZMod.val_lt y)⟩

theorem val_int (x : ZMod p) : (((x.val : Nat) : Int) : ZMod p) = x := by
  have := nz (p := p)
  rw [Int.cast_natCast, ZMod.natCast_zmod_val]

/-- The only point with coordinates `(0, 0)` is the neutral element. -/
theorem coords_zero (I : Is C n G) {Q : Pt a b} : coords Q = (0, 0) ↔ Q = 0 := by
  constructor
  · intro h
    by_contra hQ
    have := I.complete Q hQ
    rw [h] at this
    rw [I.origin] at this
    cases this
  · rintro rfl; rfl

theorem coords_inj (I : Is C n G) {Q R : Pt a b} (h : coords Q = coords R) : Q = R := by
  by_cases hQ : Q = 0
  · subst hQ
    exact ((coords_zero I).1 h.symm).symm
  by_cases hR : R = 0
  · subst hR
    exact (coords_zero I).1 h
  rcases Q with _ | ⟨x, y, hq⟩
  · exact absurd rfl hQ
  rcases R with _ | ⟨x', y', hr⟩
  · exact absurd rfl hR
  have h1 : ((x.val : Nat) : Int) = (x'.val : Nat) := congrArg Prod.fst h
  have h2 : ((y.val : Nat) : Int) = (y'.val : Nat) := congrArg Prod.snd h
  have := nz (p := p)
  have e1 := ZMod.val_injective p (Int.ofNat.inj h1)
  have e2 := ZMod.val_injective p (Int.ofNat.inj h2)
  subst e1 e2
  rfl

theorem valid_of (I : Is C n G) (Q : Pt a b) : (Point.of C Q).isValid = .ok true := by
  show (Res.ok (C.isOnCurve (coords Q).1 (coords Q).2 || _) : Res Bool) = .ok true
  congr 1
  by_cases hQ : Q = 0
  · subst hQ
    rw [Bool.or_eq_true]
    exact Or.inr ((cte_and _ _ _ _).2 ⟨rfl, rfl⟩)
  · rw [I.complete Q hQ]; rfl

theorem checked_of (I : Is C n G) (Q : Pt a b) : Point.checked (Point.of C Q) = .ok (Point.of C Q) := by
  unfold Point.checked
  rw [valid_of I]
  rfl

theorem checked_pair (I : Is C n G) (Q : Pt a b) : Point.checked ⟨C, some (coords Q).1, some (coords Q).2⟩ = .ok (Point.of C Q) :=
  checked_of I Q

theorem same_refl (C : Curve) (x y z w : Option Int) : Point.sameCurve ⟨C, x, y⟩ ⟨C, z, w⟩ = true := by
  simp [Point.sameCurve]

/-! ## Predicates -/

/-- **C109.** On point objects of a curve, `IsIdentity`, `IsBasePoint` and `Equals` say what their names say; every point object
is valid; and coordinates in range are valid exactly when they are those of a point. -/
theorem C109_predicates (I : Is C n G) (Q R : Pt a b) :
    ((Point.of C Q).isIdentity = true ↔ Q = 0) ∧ ((Point.of C Q).isBasePoint = true ↔ Q = G) ∧
    ((Point.of C Q).equals (some (Point.of C R)) = true ↔ Q = R) ∧ (Point.of C Q).equals none = false ∧
    (Point.of C Q).isValid = .ok true ∧
    (∀ x y : Int, 0 ≤ x → x < p → 0 ≤ y → y < p →
      ((⟨C, some x, some y⟩ : Point).isValid = .ok true ↔ ∃ S : Pt a b, (⟨C, some x, some y⟩ : Point) = Point.of C S) ∧
      ((⟨C, some x, some y⟩ : Point).isOnCurve = .ok true ↔ ∃ S : Pt a b, S ≠ 0 ∧ (⟨C, some x, some y⟩ : Point) = Point.of C S)) := by
  have key : ∀ x y : Int, 0 ≤ x → x < p → 0 ≤ y → y < p → C.isOnCurve x y = true → ∃ S : Pt a b, S ≠ 0 ∧ coords S = (x, y) := by
    intro x y h1 h2 h3 h4 h
    have hns := I.sound x y h1 h2 h3 (by omega) h
    refine ⟨.some _ _ hns, WeierstrassCurve.Affine.Point.some_ne_zero _, ?_⟩
    have := nz (p := p)
    have e : ∀ z : Int, 0 ≤ z → z < p → (((z : ZMod p).val : Nat) : Int) = z := by
      intro z hz1 hz2
      rw [ZMod.val_intCast, Int.emod_eq_of_lt hz1 hz2]
    exact Prod.ext (e x h1 h2) (e y h3 h4)
  refine ⟨?_, ?_, ?_, rfl, valid_of I Q, ?_⟩
  · show (_ == 1) = true ↔ _
    rw [← coords_zero I, Prod.ext_iff]
    exact cte_and _ _ _ _
  · show (_ == 1) = true ↔ _
    constructor
    · intro h
      have := (cte_and _ _ _ _).1 h
      exact coords_inj I ((Prod.ext this.1 this.2).trans I.base)
    · rintro rfl
      have := Prod.ext_iff.1 I.base
      exact (cte_and _ _ _ _).2 ⟨this.1.symm, this.2.symm⟩
  · unfold Point.equals Point.of
    dsimp only
    rw [same_refl]
    simp only [Bool.not_true, Bool.false_eq_true, if_false]
    rw [cte_and]
    constructor
    · intro h; exact coords_inj I (Prod.ext h.1 h.2)
    · rintro rfl; exact ⟨rfl, rfl⟩
  · intro x y h1 h2 h3 h4
    have hval : (⟨C, some x, some y⟩ : Point).isValid = .ok (C.isOnCurve x y || (⟨C, some x, some y⟩ : Point).isIdentity) := rfl
    have mk : ∀ S : Pt a b, coords S = (x, y) → (⟨C, some x, some y⟩ : Point) = Point.of C S := by
      intro S hS
      unfold Point.of
      rw [hS]
    have back : ∀ S : Pt a b, (⟨C, some x, some y⟩ : Point) = Point.of C S → coords S = (x, y) := by
      intro S hS
      have e1 := congrArg Point.X hS
      have e2 := congrArg Point.Y hS
      exact Prod.ext (Option.some.inj e1).symm (Option.some.inj e2).symm
    refine ⟨⟨fun h => ?_, ?_⟩, ⟨fun h => ?_, ?_⟩⟩
    · rw [hval] at h
      have h' := Res.ok.inj h
      rw [Bool.or_eq_true] at h'
      rcases h' with h' | h'
      · obtain ⟨S, -, hS⟩ := key x y h1 h2 h3 h4 h'
        exact ⟨S, mk S hS⟩
      · have h0 : x = 0 ∧ y = 0 := (cte_and _ _ _ _).1 h'
        exact ⟨0, mk 0 (Prod.ext h0.1.symm h0.2.symm)⟩
    · rintro ⟨S, hS⟩
      rw [hS]
      exact valid_of I S
    · obtain ⟨S, hS0, hS⟩ := key x y h1 h2 h3 h4 (Res.ok.inj h)
      exact ⟨S, hS0, mk S hS⟩
    · rintro ⟨S, hS0, hS⟩
      rw [hS]
      exact congrArg Res.ok (I.complete S hS0)

/-- **C109.** Points of curves that differ in any one of the parameters (compared by address: characteristic, order, coefficient, base point),
in the size or in the name are never equal, and adding them is an error. -/
theorem C109_curves_differ (u v : Point)
    (h : u.curve.P.addr ≠ v.curve.P.addr ∨ u.curve.N.addr ≠ v.curve.N.addr ∨ u.curve.B.addr ≠ v.curve.B.addr ∨
      u.curve.bitSize ≠ v.curve.bitSize ∨ u.curve.Gx.addr ≠ v.curve.Gx.addr ∨ u.curve.Gy.addr ≠ v.curve.Gy.addr ∨
      u.curve.name ≠ v.curve.name) :
    u.equals (some v) = false ∧ Point.add (some u) (some v) = .err := by
  have e : Point.sameCurve u v = false := by
    refine Bool.eq_false_iff.2 fun hs => ?_
    unfold Point.sameCurve at hs
    simp only [Bool.and_eq_true, beq_iff_eq] at hs
    obtain ⟨⟨⟨⟨⟨⟨h1, h2⟩, h3⟩, h4⟩, h5⟩, h6⟩, h7⟩ := hs
    rcases h with h | h | h | h | h | h | h
    · exact h h1
    · exact h h2
    · exact h h3
    · exact h h4
    · exact h h5
    · exact h h6
    · exact h h7
  constructor
  · unfold Point.equals
    dsimp only
    rw [e]
    rfl
  · unfold Point.add
    dsimp only
    rw [e]
    rfl

/-! ## The group operations -/

/-- **C109.** `Add` is the group law on all pairs of points, equal, opposite and neutral ones included. -/
theorem C109_add (I : Is C n G) (Q R : Pt a b) :
    Point.add (some (Point.of C Q)) (some (Point.of C R)) = .ok (Point.of C (Q + R)) := by
  unfold Point.add Point.of
  dsimp only
  rw [same_refl]
  simp only [Bool.not_true, Bool.false_eq_true, if_false]
  rw [I.add, Res.bind_ok]
  exact checked_pair I _

/-- A nil argument and points of distinct curves are errors, for all arguments. -/
theorem C109_errors (x : Option Point) (u v : Point) (k : Option Int) :
    Point.add none x = .err ∧ Point.add x none = .err ∧ (Point.sameCurve u v = false → Point.add (some u) (some v) = .err) ∧
    (Point.sameCurve u v = false → u.equals (some v) = false) ∧
    Point.neg none = .err ∧ Point.scalarMult none k = .err ∧ Point.scalarMult x none = .err ∧
    Point.newScalarBaseMult none k = .err ∧ (∀ C : Option Curve, Point.newScalarBaseMult C none = .err) := by
  refine ⟨rfl, by cases x <;> rfl, fun h => ?_, fun h => ?_, rfl, by cases k <;> rfl, by cases x <;> rfl, by cases k <;> rfl,
    fun C => by cases C <;> rfl⟩
  · unfold Point.add
    simp only [h]
    rfl
  · unfold Point.equals
    simp only [h]
    rfl

theorem no_two (I : Is C n G) {Q : Pt a b} (h : 2 • Q = 0) : Q = 0 := by
  have h1 := I.kills Q
  have h2 : n = 2 * (n / 2) + 1 := by have := I.odd; omega
  rw [h2, add_nsmul, one_nsmul, mul_comm, mul_nsmul, nsmul_zero_of h, zero_add] at h1
  exact h1
where
  nsmul_zero_of {Q : Pt a b} (h : 2 • Q = 0) {k : Nat} : 2 • (k • Q) = 0 := by
    rw [← mul_nsmul, mul_comm, mul_nsmul, h, nsmul_zero]

theorem coords_neg (I : Is C n G) {Q : Pt a b} (hQ : Q ≠ 0) : coords (-Q) = ((coords Q).1, (p : Int) - (coords Q).2) := by
  have := nz (p := p)
  rcases Q with _ | ⟨x, y, h⟩
  · exact absurd rfl hQ
  have hy : y ≠ 0 := by
    rintro rfl
    apply hQ
    apply no_two I
    rw [two_nsmul, ← eq_neg_iff_add_eq_zero, WeierstrassCurve.Affine.Point.neg_some]
    congr 1
    rw [negY_eq, neg_zero]
  have hz : NeZero y := ⟨hy⟩
  rw [WeierstrassCurve.Affine.Point.neg_some]
  refine Prod.ext rfl ?_
  show (((((curve a b).negY x y).val : Nat)) : Int) = (p : Int) - ((y.val : Nat) : Int)
  rw [negY_eq, ZMod.val_neg_of_ne_zero, Nat.cast_sub (ZMod.val_lt y).le]

/-- **C109.** `Neg` of a point other than the neutral element is its inverse. -/
theorem C109_neg_partial (I : Is C n G) (Q : Pt a b) (hQ : Q ≠ 0) :
    Point.neg (some (Point.of C Q)) = .ok (Point.of C (-Q)) := by
  unfold Point.neg Point.of
  dsimp only
  have h := checked_pair I (-Q)
  rw [coords_neg I hQ] at h
  rw [I.fieldP, h]
  unfold Point.of
  rw [coords_neg I hQ]

/-- **C109 fails for the neutral element**: `Neg` gives it the ordinate `P` and reports that the result is not on the curve. -/
theorem C109_neg_identity_violated (I : Is C n G) : Point.neg (some (Point.of C (0 : Pt a b))) = .err := by
  have hp : (0 : Int) < p := by exact_mod_cast (Fact.out : p.Prime).pos
  have hoff : C.isOnCurve 0 p = false := by
    by_contra h
    have hns := I.sound 0 p (le_refl _) hp hp.le (le_refl _) (by simpa using h)
    have h0 : ((p : Int) : ZMod p) = 0 := by rw [Int.cast_natCast, ZMod.natCast_self]
    rw [h0, Int.cast_zero] at hns
    have : coords (.some _ _ hns : Pt a b) = (0, 0) := by
      show ((((0 : ZMod p).val : Nat) : Int), (((0 : ZMod p).val : Nat) : Int)) = (0, 0)
      rw [ZMod.val_zero]; rfl
    exact absurd ((coords_zero I).1 this) (WeierstrassCurve.Affine.Point.some_ne_zero _)
  unfold Point.neg Point.of
  dsimp only
  rw [I.fieldP]
  unfold Point.checked Point.isValid Point.isOnCurve
  have e1 : (coords (0 : Pt a b)) = (0, 0) := rfl
  rw [e1]
  dsimp only
  rw [sub_zero, hoff]
  have e2 : (⟨C, some 0, some (p : Int)⟩ : Point).isIdentity = false := by
    rw [Bool.eq_false_iff]
    intro h
    have := ((cte_and _ _ _ _).1 h).2
    omega
  rw [Res.bind_ok, e2]
  rfl

theorem zsmul_mod (I : Is C n G) (k : Int) (Q : Pt a b) : (k % (n : Int)).toNat • Q = k • Q := by
  have hn : (n : Int) ≠ 0 := by have := I.odd; omega
  have h := Int.emod_nonneg k hn
  rw [← natCast_zsmul, Int.toNat_of_nonneg h]
  conv_rhs => rw [← Int.emod_add_mul_ediv k n, add_zsmul, mul_zsmul', natCast_zsmul, I.kills, smul_zero, add_zero]

theorem reduce (I : Is C n G) (k : Int) :
    reduceModN C k = .ok (k % (n : Int)) ∧ beToNat (Big.bytes (k % (n : Int))) = (k % (n : Int)).toNat ∧ (k % (n : Int)).toNat < n := by
  have hn : (n : Int) ≠ 0 := by have := I.odd; omega
  have h := Int.emod_nonneg k hn
  have h2 := Int.emod_lt_of_pos k (b := (n : Int)) (by omega)
  refine ⟨?_, ?_, by omega⟩
  · unfold reduceModN Big.mod
    rw [I.order, if_neg hn]
  · unfold Big.bytes
    rw [beToNat_natToBE]
    omega

/-- **C109.** `ScalarMult` and `NewScalarBaseMult`: the multiple for every integer `k`, negative ones and those beyond the group
order included. -/
theorem C109_scalar_mult (I : Is C n G) (Q : Pt a b) (k : Int) :
    Point.scalarMult (some (Point.of C Q)) (some k) = .ok (Point.of C (k • Q)) ∧
    Point.newScalarBaseMult (some C) (some k) = .ok (Point.of C (k • G)) := by
  obtain ⟨h1, h2, h3⟩ := reduce I k
  constructor
  · unfold Point.scalarMult Point.of
    dsimp only
    rw [h1, Res.bind_ok, I.mult Q _ (by rw [h2]; exact h3), Res.bind_ok, h2, zsmul_mod I]
    exact checked_pair I _
  · unfold Point.newScalarBaseMult
    dsimp only
    rw [h1, Res.bind_ok, I.multBase _ (by rw [h2]; exact h3), Res.bind_ok, h2, zsmul_mod I]
    exact checked_pair I _

/-- What is returned by `Add`, `Neg`, `ScalarMult`, `NewScalarBaseMult` and `PointFromBytesUncompressed` has passed `IsValid`,
for all arguments whatsoever. -/
theorem C109_results_valid (x y : Option Point) (k : Option Int) (D : Option Curve) (E : Curve) (l : List UInt8) (r : Point) :
    (Point.add x y = .ok r ∨ Point.neg x = .ok r ∨ Point.scalarMult x k = .ok r ∨ Point.newScalarBaseMult D k = .ok r ∨
      Point.fromBytes E l = .ok r) → r.isValid = .ok true := by
  have key : ∀ q r : Point, Point.checked q = .ok r → r.isValid = .ok true := by
    intro q r h
    unfold Point.checked at h
    obtain ⟨v, hv, h⟩ := Res.bind_eq_ok.1 h
    cases v with
    | false => cases h
    | true => cases h; exact hv
  rintro (h | h | h | h | h)
  · unfold Point.add at h
    split at h
    · split at h
      · cases h
      · split at h
        · obtain ⟨z, -, h⟩ := Res.bind_eq_ok.1 h
          exact key _ _ h
        · cases h
    · cases h
  · unfold Point.neg at h
    split at h
    · cases h
    · split at h
      · cases h
      · exact key _ _ h
  · unfold Point.scalarMult at h
    split at h
    · obtain ⟨z, -, h⟩ := Res.bind_eq_ok.1 h
      split at h
      · obtain ⟨z, -, h⟩ := Res.bind_eq_ok.1 h
        exact key _ _ h
      · cases h
    · cases h
  · unfold Point.newScalarBaseMult at h
    split at h
    · obtain ⟨z, -, h⟩ := Res.bind_eq_ok.1 h
      obtain ⟨z, -, h⟩ := Res.bind_eq_ok.1 h
      exact key _ _ h
    · cases h
  · unfold Point.fromBytes at h
    dsimp only at h
    split at h
    · cases h
    · exact key _ _ h

/-! ## Encodings -/

/-- The uncompressed encoding: both coordinates in `s` big-endian bytes. -/
def enc (s : Nat) (Q : Pt a b) : List UInt8 := natToBEfix s (coords Q).1.toNat ++ natToBEfix s (coords Q).2.toNat

theorem fill_lt {s : Nat} {x : Int} (h0 : 0 ≤ x) (h : x < (256 : Int) ^ s) : fill s (some x) = .ok (natToBEfix s x.toNat) := by
  unfold fill
  dsimp only
  have e : x.natAbs = x.toNat := by omega
  have : x.toNat < 256 ^ s := by
    have : ((x.toNat : Nat) : Int) < ((256 ^ s : Nat) : Int) := by push_cast; omega
    exact_mod_cast this
  unfold fillBytes
  rw [e, if_pos this]

theorem size_pow (I : Is C n G) : (p : Int) ≤ (256 : Int) ^ Point.fieldSize C := by
  have h := I.size
  have : (256 : Nat) ^ Point.fieldSize C = 2 ^ (8 * Point.fieldSize C) := by rw [pow_mul]; rfl
  have h2 : 2 ^ C.bitSize ≤ 2 ^ (8 * Point.fieldSize C) := by
    apply Nat.pow_le_pow_right (by omega)
    unfold Point.fieldSize
    omega
  have : p ≤ 256 ^ Point.fieldSize C := by omega
  exact_mod_cast this

theorem bytes_of (I : Is C n G) (Q : Pt a b) : (Point.of C Q).bytes = .ok (enc (Point.fieldSize C) Q) := by
  obtain ⟨h1, h2, h3, h4⟩ := coords_range Q
  have hs := size_pow I
  unfold Point.bytes Point.of
  dsimp only
  rw [fill_lt h1 (by omega), fill_lt h3 (by omega)]
  rfl

theorem length_enc (s : Nat) (Q : Pt a b) : (enc s Q).length = s * 2 := by
  unfold enc
  rw [List.length_append, length_natToBEfix, length_natToBEfix]
  omega

theorem read_fix {s : Nat} {x : Int} (h0 : 0 ≤ x) (h : x < (256 : Int) ^ s) : Big.setBytes (natToBEfix s x.toNat) = x := by
  unfold Big.setBytes
  have : x.toNat < 256 ^ s := by
    have : ((x.toNat : Nat) : Int) < ((256 ^ s : Nat) : Int) := by push_cast; omega
    exact_mod_cast this
  rw [beToNat_natToBEfix, Nat.mod_eq_of_lt this, Int.toNat_of_nonneg h0]

/-- **C109.** `Bytes` of a point is the two coordinates in field-size big-endian bytes, and `PointFromBytesUncompressed` reads it
back; distinct points have distinct encodings. -/
theorem C109_bytes_roundtrip (I : Is C n G) (Q : Pt a b) :
    (Point.of C Q).bytes = .ok (enc (Point.fieldSize C) Q) ∧
    Point.fromBytes C (enc (Point.fieldSize C) Q) = .ok (Point.of C Q) ∧
    (∀ R : Pt a b, (Point.of C R).bytes = (Point.of C Q).bytes → R = Q) := by
  have key : ∀ Q : Pt a b, Point.fromBytes C (enc (Point.fieldSize C) Q) = .ok (Point.of C Q) := by
    intro Q
    obtain ⟨h1, h2, h3, h4⟩ := coords_range Q
    have hs := size_pow I
    unfold Point.fromBytes
    rw [if_neg (fun h => h (length_enc _ _))]
    unfold enc
    rw [List.take_left' (length_natToBEfix _ _), List.drop_left' (length_natToBEfix _ _), read_fix h1 (by omega),
      read_fix h3 (by omega)]
    exact checked_pair I Q
  refine ⟨bytes_of I Q, key Q, fun R h => ?_⟩
  rw [bytes_of I, bytes_of I] at h
  have h1 := key R
  rw [Res.ok.inj h, key Q] at h1
  have := Res.ok.inj h1
  have e1 := congrArg Point.X this
  have e2 := congrArg Point.Y this
  exact coords_inj I (Prod.ext (Option.some.inj e1).symm (Option.some.inj e2).symm)

/-- **C109.** What `PointFromBytesUncompressed` accepts, for a curve that only accepts coordinates in range: exactly the
encodings of points, `0 … 0` for the neutral element included. -/
theorem C109_bytes_accepts (I : Is C n G) (S : Strict C) (l : List UInt8) (r : Point) :
    Point.fromBytes C l = .ok r ↔ ∃ Q : Pt a b, l = enc (Point.fieldSize C) Q ∧ r = Point.of C Q := by
  constructor
  · intro h
    have hv := C109_results_valid none none none none C l r (Or.inr (Or.inr (Or.inr (Or.inr h))))
    unfold Point.fromBytes at h
    dsimp only at h
    split at h
    · cases h
    rename_i hl
    have hl : l.length = Point.fieldSize C * 2 := Decidable.not_not.1 hl
    have hr : r = ⟨C, some (Big.setBytes (l.take (Point.fieldSize C))), some (Big.setBytes (l.drop (Point.fieldSize C)))⟩ := by
      unfold Point.checked at h
      obtain ⟨v, hv, h⟩ := Res.bind_eq_ok.1 h
      cases v with
      | false => cases h
      | true => exact (Res.ok.inj h).symm
    have h0 : (0 : Int) < p := by exact_mod_cast (Fact.out : p.Prime).pos
    have hrange : ∀ x y : Int, (⟨C, some x, some y⟩ : Point).isValid = .ok true → 0 ≤ x ∧ x < p ∧ 0 ≤ y ∧ y < p := by
      intro x y h
      have h : (C.isOnCurve x y || (⟨C, some x, some y⟩ : Point).isIdentity) = true := Res.ok.inj h
      rw [Bool.or_eq_true] at h
      rcases h with h | h
      · have := S x y h
        rw [I.fieldP] at this
        exact this
      · obtain ⟨rfl, rfl⟩ : x = 0 ∧ y = 0 := (cte_and _ _ _ _).1 h
        omega
    rw [hr] at hv
    obtain ⟨h1, h2, h3, h4⟩ := hrange _ _ hv
    obtain ⟨Q, hQ⟩ := (((C109_predicates I 0 0).2.2.2.2.2 _ _ h1 h2 h3 h4).1).1 hv
    refine ⟨Q, ?_, hr.trans hQ⟩
    have e1 := Option.some.inj (congrArg Point.X hQ)
    have e2 := Option.some.inj (congrArg Point.Y hQ)
    have back : ∀ m : List UInt8, m.length = Point.fieldSize C → natToBEfix (Point.fieldSize C) (Big.setBytes m).toNat = m := by
      intro m hm
      unfold Big.setBytes
      rw [Int.toNat_natCast, ← hm, natToBEfix_beToNat]
    unfold enc
    rw [← e1, ← e2, back _ (by rw [List.length_take]; omega), back _ (by rw [List.length_drop]; omega), List.take_append_drop]
  · rintro ⟨Q, rfl, rfl⟩
    exact (C109_bytes_roundtrip I Q).2.1

end

end Verif.Ec
