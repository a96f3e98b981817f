import Verif.Native.PallasApi

/-!
# `PointPallas.Set`, `IsNegative` and the `elliptic.Curve` interface of Pallas (`crypto/core/curves/pallas_curve.go`)
-/

set_option maxRecDepth 20000
set_option linter.unusedSectionVars false

namespace Verif.Native.Pallas
open Verif.Bytes Weier

/-- The point built from two integers at the head of `Add`, `Double` and `ScalarMult`
(crypto/core/curves/pallas_curve.go:107-113). -/
def ofInts (x y : Int) : Res EP := do
  let px ← elemOf x
  let py ← elemOf y
  .ok ⟨px, py, if Pasta.isZero px && Pasta.isZero py then Field.zero else Field.one PastaFp.params⟩

/-- `p.toAffine(); return p.x.BigInt(), p.y.BigInt()`. -/
def toInts (e : EP) : Int × Int := (Field.bigInt A (toAffine e).X, Field.bigInt A (toAffine e).Y)

/-- `PallasCurve.IsOnCurve` (crypto/core/curves/pallas_curve.go:97-104). -/
def curveIsOnCurve (x y : Int) : Res Bool := do
  let px ← elemOf x
  let py ← elemOf y
  .ok (isOnCurve ⟨px, py, Field.one PastaFp.params⟩)

/-- `PallasCurve.Add` (crypto/core/curves/pallas_curve.go:106-125). -/
def curveAdd (x1 y1 x2 y2 : Int) : Res (Int × Int) := do
  let e ← ofInts x1 y1
  let f ← ofInts x2 y2
  .ok (toInts (add e f))

/-- `PallasCurve.Double` (crypto/core/curves/pallas_curve.go:127-138). -/
def curveDouble (x1 y1 : Int) : Res (Int × Int) := do
  let e ← ofInts x1 y1
  .ok (toInts (double e))

/-- The scalar of `ScalarMult` and `ScalarBaseMult` (crypto/core/curves/pallas_curve.go:150-151): big-endian, any length. -/
def scalarOf (k : List UInt8) : Res L4 := Pasta.setBigInt pastaFq Field.zero (beToNat k : Int)

/-- `PallasCurve.ScalarMult` (crypto/core/curves/pallas_curve.go:140-155). -/
def curveScalarMult (bx bY : Int) (k : List UInt8) : Res (Int × Int) := do
  let e ← ofInts bx bY
  let sc ← scalarOf k
  .ok (toInts (mul e sc))

/-- `PallasCurve.ScalarBaseMult` (crypto/core/curves/pallas_curve.go:157-166). -/
def curveScalarBaseMult (k : List UInt8) : Res (Int × Int) := do
  let sc ← scalarOf k
  .ok (toInts (mul generator sc))

/-! ## Specification -/

/-- The affine coordinates of a point as integers; `(0, 0)` for the neutral element. -/
def aff : PP → Int × Int
  | .zero => (0, 0)
  | .some x y _ => ((x.val : Int), (y.val : Int))

/-- The coordinates avoid the interval the field decoder refuses. -/
def Coords (P : PP) : Prop := Accepted p (aff P).1.toNat ∧ Accepted p (aff P).2.toNat

theorem elem_ok (v : Int) (h : Accepted p (v % (p : Int)).toNat) : ∃ a, elemOf v = .ok a ∧ Rep p a (v : ZMod p) :=
  (C67_setBigInt_exact LF pastaFp_shape Field.zero v).1 h

theorem elem_bad (v : Int) (h : ¬ Accepted p (v % (p : Int)).toNat) : elemOf v = .ok Field.zero :=
  (C67_setBigInt_exact LF pastaFp_shape Field.zero v).2 h

/-- Whatever the integer, the code has an element: the residue, or zero when the residue is refused. -/
theorem elem_any (v : Int) : ∃ a w, elemOf v = .ok a ∧ Rep p a w ∧
    ((Accepted p (v % (p : Int)).toNat ∧ w = (v : ZMod p)) ∨ (¬ Accepted p (v % (p : Int)).toNat ∧ w = 0)) := by
  by_cases h : Accepted p (v % (p : Int)).toNat
  · obtain ⟨a, h1, h2⟩ := elem_ok v h
    exact ⟨a, _, h1, h2, Or.inl ⟨h, rfl⟩⟩
  · exact ⟨_, _, elem_bad v h, (C50_constants LP).2, Or.inr ⟨h, rfl⟩⟩

theorem eqn5 {x y : ZMod p} : (y ^ 2 = x ^ 3 + 0 * x + ((5 : Nat) : ZMod p)) ↔ y ^ 2 = x ^ 3 + 5 := by
  have : x ^ 3 + 0 * x + ((5 : Nat) : ZMod p) = x ^ 3 + 5 := by push_cast; ring
  rw [this]

theorem not_eqn_x0 {y : ZMod p} : ¬ y ^ 2 = (0 : ZMod p) ^ 3 + 5 := by
  intro h
  apply five_not_square
  refine ⟨y, ?_⟩
  rw [← pow_two, h]
  push_cast
  ring

theorem not_eqn_y0 {x : ZMod p} : ¬ (0 : ZMod p) ^ 2 = x ^ 3 + 5 := fun h => y_ne_zero noTwo (eqn5.2 h) rfl

/-- **C85.** `Set(x, y)` with `y ≠ 0`: the point with these coordinates (modulo `p`) when neither is refused and they satisfy the
equation, an error otherwise. -/
theorem C85_set (x y : Int) (hy : y ≠ 0) :
    (∀ e, set x y = .ok e → Accepted p (x % (p : Int)).toNat ∧ Accepted p (y % (p : Int)).toNat ∧
      ∃ h, ERep e (.some (x : ZMod p) (y : ZMod p) h)) ∧
    (Accepted p (x % (p : Int)).toNat → Accepted p (y % (p : Int)).toNat → (y : ZMod p) ^ 2 = (x : ZMod p) ^ 3 + 5 →
      ∃ e, set x y = .ok e) ∧
    set x y ≠ .panic := by
  obtain ⟨a, v, ha, ra, hv⟩ := elem_any x
  obtain ⟨c, w, hc, rc, hw⟩ := elem_any y
  have hoc := (onCurve_affine ra rc).trans eqn5
  have hs : set x y = if isOnCurve ⟨a, c, Field.one PastaFp.params⟩ = false then .err
      else .ok ⟨a, c, Field.one PastaFp.params⟩ := by
    unfold set
    rw [ha]
    dsimp only
    rw [if_neg hy, hc]
  rw [hs]
  by_cases ho : isOnCurve ⟨a, c, Field.one PastaFp.params⟩ = true
  · have he := hoc.1 ho
    rw [if_neg (by rw [ho]; decide)]
    rcases hv with ⟨hv, rfl⟩ | ⟨hv, rfl⟩
    swap
    · exact absurd he not_eqn_x0
    rcases hw with ⟨hw, rfl⟩ | ⟨hw, rfl⟩
    swap
    · exact absurd he not_eqn_y0
    refine ⟨fun e h => ⟨hv, hw, nonsing two noTwo (eqn5.2 he), ?_⟩, fun _ _ _ => ⟨_, rfl⟩, nofun⟩
    obtain rfl := Res.ok.inj h
    exact erep_affine ra rc _
  · rw [if_pos (by rw [← Bool.not_eq_true]; exact ho)]
    refine ⟨nofun, fun h1 h2 h3 => absurd (hoc.2 ?_) ho, nofun⟩
    rcases hv with ⟨-, rfl⟩ | ⟨hv, -⟩
    swap
    · exact absurd h1 hv
    rcases hw with ⟨-, rfl⟩ | ⟨hw, -⟩
    swap
    · exact absurd h2 hw
    exact h3

/-- **C85.** `Set(x, 0)`: the neutral element for `x = 0`, otherwise the point with abscissa `x` and an even ordinate if there is one
(and `x` is not refused), otherwise an error. -/
theorem C85_set_zero (x : Int) :
    (x = 0 → ∃ e, set x 0 = .ok e ∧ ERep e 0) ∧
    (x ≠ 0 → Accepted p (x % (p : Int)).toNat → IsSquare ((x : ZMod p) ^ 3 + 5) →
      ∃ e y h, set x 0 = .ok e ∧ ERep e (.some (x : ZMod p) y h) ∧ y.val % 2 = 0) ∧
    (x ≠ 0 → ¬ (Accepted p (x % (p : Int)).toNat ∧ IsSquare ((x : ZMod p) ^ 3 + 5)) → set x 0 = .err) := by
  obtain ⟨a, v, ha, ra, hv⟩ := elem_any x
  have hs : set x 0 = if x = 0 then .ok identity else fromCompressed (Field.bytes A a) := by
    unfold set
    rw [ha]
    dsimp only
    rw [if_pos rfl]
  have hb : Field.bytes A a = natToLE 32 v.val := C50_bytes LP ra
  have hlt : v.val < 2 ^ 255 := lt_trans (ZMod.val_lt v) p_lt
  have hle : leToNat (natToLE 32 v.val) = v.val := by
    rw [leToNat_natToLE, Nat.mod_eq_of_lt]
    have h32 := pow32
    have h31 := pow31
    omega
  have hm : leToNat (natToLE 32 v.val) % 2 ^ 255 = v.val := by rw [hle, Nat.mod_eq_of_lt hlt]
  have hd : leToNat (natToLE 32 v.val) / 2 ^ 255 = 0 := by rw [hle, Nat.div_eq_of_lt hlt]
  have hcast : v = ((leToNat (natToLE 32 v.val) % 2 ^ 255 : Nat) : ZMod p) := by rw [hm, ZMod.natCast_zmod_val]
  have key := C84_decompress (natToLE 32 v.val)
  refine ⟨fun h0 => ?_, fun h0 h1 h2 => ?_, fun h0 h1 => ?_⟩
  · rw [hs, if_pos h0]
    exact ⟨_, rfl, erep_identity⟩
  · rw [hs, if_neg h0, hb]
    rcases hv with ⟨hv, rfl⟩ | ⟨hv, -⟩
    swap
    · exact absurd h1 hv
    have hval : ((x : ZMod p)).val = (x % (p : Int)).toNat := by
      have := ZMod.val_intCast (n := p) x
      omega
    obtain ⟨y, h, e, k1, k2, k3⟩ := (key.2.2 _ rfl (by rw [hm, hval]; exact h1) hcast).2 h2
    exact ⟨e, y, h, k1, k2, by rw [k3, hd]⟩
  · rw [hs, if_neg h0, hb]
    rcases hv with ⟨hv, rfl⟩ | ⟨hv, rfl⟩
    · have hval : ((x : ZMod p)).val = (x % (p : Int)).toNat := by
        have := ZMod.val_intCast (n := p) x
        omega
      exact (key.2.2 _ rfl (by rw [hm, hval]; exact hv) hcast).1 (fun h => h1 ⟨hv, h⟩)
    · refine (key.2.2 _ rfl (by rw [hm, ZMod.val_zero]; exact Or.inl (by decide +kernel)) hcast).1 ?_
      rintro ⟨y, hy⟩
      exact not_eqn_x0 (y := y) (by rw [pow_two, hy])

/-- **C85.** `IsNegative` is the parity of the affine ordinate (the neutral element is not negative); of a point and its opposite
exactly one is negative, the neutral element excepted. -/
theorem C85_isNegative {e : EP} {P : PP} (he : ERep e P) :
    (isNegative e = true ↔ (aff P).2 % 2 = 1) ∧
    (P ≠ 0 → isNegative (neg e) = !isNegative e) := by
  have key : ∀ {e : EP} {P : PP}, ERep e P → (isNegative e = true ↔ (aff P).2 % 2 = 1) := by
    intro e P he
    obtain ⟨x, y, hx, hy, -, hc⟩ := affine_cases he
    have h1 : isNegative e = true ↔ y.val % 2 = 1 := by
      exact C67_isOdd LF hy
    rw [h1]
    rcases hc with ⟨rfl, rfl, rfl⟩ | ⟨h, rfl⟩
    · rw [ZMod.val_zero]
      show _ ↔ (0 : Int) % 2 = 1
      decide
    · show _ ↔ ((y.val : Nat) : Int) % 2 = 1
      omega
  refine ⟨key he, fun h0 => ?_⟩
  have k1 := key he
  have k2 := key (neg_spec he)
  cases P with
  | zero => exact absurd rfl h0
  | some x y h =>
    have hneg : (-(WeierstrassCurve.Affine.Point.some x y h) : PP) = .some x (-y) (nonsing two noTwo (by
        rw [neg_sq]; exact eqn_iff.1 h.1)) := by
      rw [WeierstrassCurve.Affine.Point.neg_some]
      congr 1
      rw [negY_eq]
    rw [hneg] at k2
    have e1 : (aff (.some x y h)).2 = (y.val : Int) := rfl
    have e2 : ∀ h', (aff (.some x (-y) h')).2 = ((-y).val : Int) := fun _ => rfl
    rw [e1] at k1
    rw [e2] at k2
    have y0 : y ≠ 0 := y_ne_zero noTwo (eqn_iff.1 h.1)
    have par := neg_parity odd y0
    rw [Bool.eq_iff_iff, k2, Bool.not_eq_true', ← Bool.not_eq_true, k1]
    omega

theorem aff_range (P : PP) : 0 ≤ (aff P).1 ∧ (aff P).1 < p ∧ 0 ≤ (aff P).2 ∧ (aff P).2 < p := by
  cases P with
  | zero => exact ⟨le_refl _, by decide +kernel, le_refl _, by decide +kernel⟩
  | some x y h =>
    have h1 := ZMod.val_lt x
    have h2 := ZMod.val_lt y
    exact ⟨Int.natCast_nonneg _, Int.ofNat_lt.2 h1, Int.natCast_nonneg _, Int.ofNat_lt.2 h2⟩

/-- The integers the code returns are the coordinates. -/
theorem toInts_spec {e : EP} {P : PP} (he : ERep e P) : toInts e = aff P := by
  obtain ⟨x, y, hx, hy, -, hc⟩ := affine_cases he
  have : toInts e = ((x.val : Int), (y.val : Int)) := by
    unfold toInts
    rw [C50_bigInt LP hx, C50_bigInt LP hy]
  rw [this]
  rcases hc with ⟨rfl, rfl, rfl⟩ | ⟨h, rfl⟩
  · rw [ZMod.val_zero]
    rfl
  · rfl

/-- The coordinates of a point, none of them refused, are read back as this point. -/
theorem ofInts_spec {P : PP} (hP : Coords P) : ∃ e, ofInts (aff P).1 (aff P).2 = .ok e ∧ ERep e P := by
  obtain ⟨r1, r2, r3, r4⟩ := aff_range P
  obtain ⟨h1, h2⟩ := hP
  obtain ⟨a, ha, ra⟩ := elem_ok (aff P).1 (by rw [Int.emod_eq_of_lt r1 r2]; exact h1)
  obtain ⟨c, hc, rc⟩ := elem_ok (aff P).2 (by rw [Int.emod_eq_of_lt r3 r4]; exact h2)
  unfold ofInts
  rw [ha, Res.bind_ok, hc, Res.bind_ok]
  have za := (C67_equal LF ra ra).2.1
  have zc := (C67_equal LF rc rc).2.1
  refine ⟨_, rfl, ?_⟩
  cases P with
  | zero =>
    have e1 : ((aff (.zero : PP)).1 : ZMod p) = 0 := Int.cast_zero
    have e2 : ((aff (.zero : PP)).2 : ZMod p) = 0 := Int.cast_zero
    rw [if_pos (by rw [za.2 e1, zc.2 e2]; rfl)]
    exact ⟨_, _, _, ra, rc, (C50_constants LP).2, Or.inl ⟨rfl, rfl⟩⟩
  | some x y h =>
    have e1 : ((aff (.some x y h : PP)).1 : ZMod p) = x := by
      show (((x.val : Nat) : Int) : ZMod p) = x
      rw [Int.cast_natCast, ZMod.natCast_zmod_val]
    have e2 : ((aff (.some x y h : PP)).2 : ZMod p) = y := by
      show (((y.val : Nat) : Int) : ZMod p) = y
      rw [Int.cast_natCast, ZMod.natCast_zmod_val]
    rw [e1] at ra za
    rw [e2] at rc zc
    rw [if_neg (by
      rw [Bool.and_eq_true, za, zc]
      exact fun hc => y_ne_zero noTwo (eqn_iff.1 h.1) hc.2)]
    exact erep_affine ra rc h

/-- **C85.** `IsOnCurve(x, y)` says yes exactly when neither coordinate (modulo `p`) is refused and they satisfy `y² = x³ + 5`. -/
theorem C85_isOnCurve (x y : Int) : ∃ r, curveIsOnCurve x y = .ok r ∧
    (r = true ↔ Accepted p (x % (p : Int)).toNat ∧ Accepted p (y % (p : Int)).toNat ∧ (y : ZMod p) ^ 2 = (x : ZMod p) ^ 3 + 5) := by
  obtain ⟨a, v, ha, ra, hv⟩ := elem_any x
  obtain ⟨c, w, hc, rc, hw⟩ := elem_any y
  have hoc := (onCurve_affine ra rc).trans eqn5
  unfold curveIsOnCurve
  rw [ha, Res.bind_ok, hc, Res.bind_ok]
  refine ⟨_, rfl, hoc.trans ?_⟩
  rcases hv with ⟨hv, rfl⟩ | ⟨hv, rfl⟩ <;> rcases hw with ⟨hw, rfl⟩ | ⟨hw, rfl⟩
  · exact ⟨fun h => ⟨hv, hw, h⟩, fun h => h.2.2⟩
  · exact ⟨fun h => absurd h not_eqn_y0, fun h => absurd h.2.1 hw⟩
  · exact ⟨fun h => absurd h not_eqn_x0, fun h => absurd h.1 hv⟩
  · exact ⟨fun h => absurd h not_eqn_x0, fun h => absurd h.1 hv⟩

/-- **C85.** `Add` and `Double` of the `elliptic.Curve` interface compute the group law on affine coordinates, `(0, 0)` standing
for the neutral element, for all points whose coordinates are not refused. -/
theorem C85_add_double {P Q : PP} (hP : Coords P) (hQ : Coords Q) :
    curveAdd (aff P).1 (aff P).2 (aff Q).1 (aff Q).2 = .ok (aff (P + Q)) ∧
    curveDouble (aff P).1 (aff P).2 = .ok (aff (P + P)) := by
  obtain ⟨e, he, re⟩ := ofInts_spec hP
  obtain ⟨f, hf, rf⟩ := ofInts_spec hQ
  constructor
  · unfold curveAdd
    rw [he, Res.bind_ok, hf, Res.bind_ok, toInts_spec (add_spec re rf)]
  · unfold curveDouble
    rw [he, Res.bind_ok, toInts_spec (double_spec re)]

theorem scalar_ok (k : List UInt8) (h : Accepted q (beToNat k % q)) : ∃ s, scalarOf k = .ok s ∧ Rep q s ((beToNat k : Nat) : ZMod q) := by
  obtain ⟨s, h1, h2⟩ := (C67_setBigInt_exact (F := pastaFq) LQ pastaFq_shape Field.zero (beToNat k : Int)).1 (by
    rw [← Int.natCast_mod, Int.toNat_natCast]; exact h)
  refine ⟨s, h1, ?_⟩
  rw [Int.cast_natCast] at h2
  exact h2

/-- **C85.** `ScalarMult` and `ScalarBaseMult` compute the multiple by the big-endian integer `k`, of any length, when `k mod q` is
not refused by the scalar decoder (and the coordinates are not). -/
theorem C85_scalarMult {P : PP} (hP : Coords P) (k : List UInt8) (hk : Accepted q (beToNat k % q)) :
    curveScalarMult (aff P).1 (aff P).2 k = .ok (aff (beToNat k • P)) ∧
    curveScalarBaseMult k = .ok (aff (beToNat k • G)) := by
  obtain ⟨e, he, re⟩ := ofInts_spec hP
  obtain ⟨s, hs, rs⟩ := scalar_ok k hk
  have red : ∀ R : PP, (((beToNat k : Nat) : ZMod q)).val • R = beToNat k • R := fun R => by
    rw [ZMod.val_natCast]
    conv_rhs => rw [← Nat.div_add_mod (beToNat k) q, add_smul, mul_comm, mul_smul, C83_order.2.1 R, smul_zero, zero_add]
  constructor
  · unfold curveScalarMult
    rw [he, Res.bind_ok, hs, Res.bind_ok, toInts_spec (C82_mul re rs), red]
  · unfold curveScalarBaseMult
    rw [hs, Res.bind_ok, toInts_spec (C82_mul C83_generator rs), red]

/-! ## Refutations -/

/-- **C85 (refutation).** `IsOnCurve` refuses the coordinates of a point of the curve. -/
theorem C85_on_curve_refused : ∃ P : PP, P ≠ 0 ∧ curveIsOnCurve (aff P).1 (aff P).2 = .ok false := by
  have he := eqn_of_nat (x := badX) (y := badY) (by decide +kernel)
  refine ⟨.some _ _ (nonsing two noTwo he), WeierstrassCurve.Affine.Point.some_ne_zero _, ?_⟩
  obtain ⟨r, hr, hi⟩ := C85_isOnCurve (aff (.some _ _ (nonsing two noTwo he))).1 (aff (.some _ _ (nonsing two noTwo he))).2
  rw [hr]
  congr 1
  rw [← Bool.not_eq_true, hi]
  intro h
  have h1 := h.1
  have hv : (aff (.some _ _ (nonsing two noTwo he))).1 = (badX : Int) := by
    show ((((badX : Nat) : ZMod p).val : Nat) : Int) = (badX : Int)
    rw [val_of_lt (by decide +kernel)]
  rw [hv] at h1
  revert h1
  unfold Accepted
  decide +kernel

/-- A scalar that the decoder refuses. -/
def badK : Nat := q - 0x8c46eb2100000001

/-- **C85 (refutation).** `ScalarBaseMult` of the scalar `q - 0x8c46eb2100000001`, which is not a multiple of the order, returns the
neutral element `(0, 0)`, and so does `ScalarMult` for every point whose coordinates are not refused. -/
theorem C85_scalar_dropped : badK % q ≠ 0 ∧ beToNat (natToLE 32 badK).reverse = badK ∧
    curveScalarBaseMult (natToLE 32 badK).reverse = .ok (0, 0) ∧
    badK • G ≠ 0 ∧
    ∀ P : PP, Coords P → curveScalarMult (aff P).1 (aff P).2 (natToLE 32 badK).reverse = .ok (0, 0) := by
  have hb : beToNat (natToLE 32 badK).reverse = badK := by decide +kernel
  have hs : scalarOf (natToLE 32 badK).reverse = .ok Field.zero := by
    unfold scalarOf
    rw [hb]
    refine (C67_setBigInt_exact (F := pastaFq) LQ pastaFq_shape Field.zero (badK : Int)).2 ?_
    rw [← Int.natCast_mod, Int.toNat_natCast]
    unfold Accepted
    decide +kernel
  have hz : Rep q Field.zero (0 : ZMod q) := (C50_constants LQ).2
  have hm : ∀ {e : EP} {P : PP}, ERep e P → toInts (mul e Field.zero) = (0, 0) := fun {e P} h => by
    rw [toInts_spec (C82_mul h hz), ZMod.val_zero, zero_smul]
    rfl
  have hne : badK % q ≠ 0 := by decide +kernel
  refine ⟨hne, hb, ?_, ?_, ?_⟩
  · unfold curveScalarBaseMult
    rw [hs, Res.bind_ok, hm C83_generator]
  · intro h
    have := (C83_order.2.2.2 G badK 0 (WeierstrassCurve.Affine.Point.some_ne_zero _)).1 (by rw [h, zero_smul])
    exact hne (by rw [this, Nat.zero_mod])
  · intro P hP
    obtain ⟨e, he, re⟩ := ofInts_spec hP
    unfold curveScalarMult
    rw [he, Res.bind_ok, hs, Res.bind_ok, hm re]

end Verif.Native.Pallas
