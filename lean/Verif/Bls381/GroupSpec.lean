import Verif.Bls381.Group

/-!
# The points of G1 and G2: what the functions compute

Proved once for every field whose operations are lawful, on a curve `y² = x³ + b` without points of order two.
-/

set_option linter.unusedSectionVars false

namespace Verif.Bls381
open Verif.Bytes Verif.Native Verif.Native.Weier

/-- The operations represent those of the field `K` through the relation `Rep`; `b` is the coefficient of the curve. -/
structure FOK {E K : Type} [_root_.Field K] [DecidableEq K] (O : FOps E) (Rep : E → K → Prop) (b : K) : Prop where
  unique : ∀ {a c : E} {x : K}, Rep a x → Rep c x → a = c
  value : ∀ {a : E} {x y : K}, Rep a x → Rep a y → x = y
  zero : Rep O.zero 0
  one : Rep O.one 1
  coeff : Rep O.b b
  add : ∀ {a c : E} {x y : K}, Rep a x → Rep c y → Rep (O.add a c) (x + y)
  sub : ∀ {a c : E} {x y : K}, Rep a x → Rep c y → Rep (O.sub a c) (x - y)
  mul : ∀ {a c : E} {x y : K}, Rep a x → Rep c y → Rep (O.mul a c) (x * y)
  square : ∀ {a : E} {x : K}, Rep a x → Rep (O.square a) (x * x)
  double : ∀ {a : E} {x : K}, Rep a x → Rep (O.double a) (x + x)
  neg : ∀ {a : E} {x : K}, Rep a x → Rep (O.neg a) (-x)
  mulBy3b : ∀ {a : E} {x : K}, Rep a x → Rep (O.mulBy3b a) (3 * b * x)
  isZero : ∀ {a : E} {x : K}, Rep a x → O.isZero a = if x = 0 then 1 else 0
  equal : ∀ {a c : E} {x y : K}, Rep a x → Rep c y → O.equal a c = if x = y then 1 else 0
  cmove0 : ∀ a c : E, O.cmove a c 0 = a
  cmove1 : ∀ a c : E, O.cmove a c 1 = c
  invert : ∀ {a : E} {x : K}, Rep a x → (x ≠ 0 → ∃ y, x * y = 1 ∧ Rep (O.invert a).1 y ∧ (O.invert a).2 = 1) ∧
    (x = 0 → (O.invert a).2 = 0)
  two : (2 : K) ≠ 0
  noTwo : NoTwo (0 : K) b

namespace P3

section
variable {K : Type} [_root_.Field K] [DecidableEq K]

/-- Homogeneous coordinates of a point of `y² = x³ + b`; the neutral element is `(0 : Y : 0)` with `Y ≠ 0`. -/
def H (b : K) (X Y Z : K) (P : Pt (0 : K) b) : Prop := PRep 0 b X Y Z P ∧ (Z = 0 → X = 0 ∧ Y ≠ 0)

variable {b : K}

theorem H.y_ne (n2 : NoTwo (0 : K) b) {X Y Z : K} {P : Pt (0 : K) b} (h : H b X Y Z P) : Y ≠ 0 := by
  by_cases hz : Z = 0
  · exact (h.2 hz).2
  · rcases h.1 with ⟨z, _⟩ | ⟨_, x, y, hn, rfl, hx, hy⟩
    · exact absurd z hz
    · rw [hy]
      exact mul_ne_zero (y_ne_zero n2 (eqn_iff.1 hn.1)) hz

theorem H.scale {X Y Z k : K} {P : Pt (0 : K) b} (hk : k ≠ 0) (h : H b X Y Z P) : H b (k * X) (k * Y) (k * Z) P := by
  obtain ⟨h1, h2⟩ := h
  refine ⟨?_, fun hz => ?_⟩
  · rcases h1 with ⟨z, r⟩ | ⟨z, x, y, h, r, hx, hy⟩
    · exact Or.inl ⟨by rw [z, mul_zero], r⟩
    · exact Or.inr ⟨mul_ne_zero hk z, x, y, h, r, by rw [hx]; ring, by rw [hy]; ring⟩
  · have hz' := (mul_eq_zero.1 hz).resolve_left hk
    obtain ⟨e, f⟩ := h2 hz'
    exact ⟨by rw [e, mul_zero], mul_ne_zero hk f⟩

/-- The curve equation holds for every representation. -/
theorem H.eqn {X Y Z : K} {P : Pt (0 : K) b} (h : H b X Y Z P) : Y ^ 2 * Z = X ^ 3 + b * Z ^ 3 := by
  by_cases hz : Z = 0
  · rw [hz, (h.2 hz).1]; ring
  · have := prep_eqn h.1 hz
    linear_combination this

/-- The complete sum, with the neutral element. -/
theorem H.add (two : (2 : K) ≠ 0) (n2 : NoTwo (0 : K) b) {X1 Y1 Z1 X2 Y2 Z2 : K} {P Q : Pt (0 : K) b}
    (h1 : H b X1 Y1 Z1 P) (h2 : H b X2 Y2 Z2 Q) :
    H b (addX 0 b X1 Y1 Z1 X2 Y2 Z2) (addY 0 b X1 Y1 Z1 X2 Y2 Z2) (addZ 0 b X1 Y1 Z1 X2 Y2 Z2) (P + Q) := by
  have y1 := h1.y_ne n2
  have y2 := h2.y_ne n2
  by_cases z1 : Z1 = 0
  · obtain ⟨x1, _⟩ := h1.2 z1
    have hP : P = 0 := (prep_isZero h1.1).1 z1
    have := h2.scale (mul_ne_zero (pow_ne_zero 2 y1) y2)
    rw [hP, zero_add, z1, x1]
    unfold addX addY addZ
    convert this using 1 <;> ring
  by_cases z2 : Z2 = 0
  · obtain ⟨x2, _⟩ := h2.2 z2
    have hQ : Q = 0 := (prep_isZero h2.1).1 z2
    have := h1.scale (mul_ne_zero (pow_ne_zero 2 y2) y1)
    rw [hQ, add_zero, z2, x2]
    unfold addX addY addZ
    convert this using 1 <;> ring
  have hs := Weier.add_spec two n2 h1.1 h2.1 z1 z2
  refine ⟨hs, fun hz => ?_⟩
  have h0 := (prep_isZero hs).1 hz
  rcases h1.1 with ⟨z, _⟩ | ⟨_, x, y, hn, rfl, hx, hy⟩
  · exact absurd z z1
  have hQ := eq_neg_of_add_eq_zero_right h0
  have hQ' : PRep 0 b x (-y) 1 Q := by
    rw [hQ]
    exact Weier.neg_spec (Or.inr ⟨one_ne_zero, x, y, hn, rfl, (mul_one _).symm, (mul_one _).symm⟩)
  rcases h2.1 with ⟨z, _⟩ | ⟨_, x', y', hn', rfl, hx', hy'⟩
  · exact absurd z z2
  rcases hQ' with ⟨z, _⟩ | ⟨_, x'', y'', hn'', e, ex, ey⟩
  · exact absurd z one_ne_zero
  injection e with e1 e2
  rw [mul_one] at ex ey
  have a1 : x' = x := by rw [e1, ex]
  have a2 : y' = -y := by rw [e2, ey]
  subst a1 a2
  have hd := add_double two n2 hn
  have eq := eqn_iff.1 hn.1
  have hyne := y_ne_zero n2 eq
  have key : addY 0 b x' y 1 x' y 1 ≠ 0 := by
    rcases hd with ⟨z, hz0⟩ | ⟨z, x3, y3, hn3, _, _, hy3⟩
    · exfalso
      have : addZ 0 b x' y 1 x' y 1 = 8 * y ^ 3 := by
        unfold addZ
        linear_combination (-6 * y) * eq
      rw [this] at z
      have h8 : (8 : K) = 2 ^ 3 := by norm_num
      rw [h8] at z
      exact mul_ne_zero (pow_ne_zero _ two) (pow_ne_zero _ hyne) z
    · rw [hy3]
      exact mul_ne_zero (y_ne_zero n2 (eqn_iff.1 hn3.1)) z
  subst hx hy hx' hy'
  constructor
  · unfold addX; ring
  · have : addY 0 b (x' * Z1) (y * Z1) Z1 (x' * Z2) (-y * Z2) Z2 = addY 0 b x' y 1 x' y 1 * (Z1 ^ 2 * Z2 ^ 2) := by
      unfold addY
      ring
    rw [this]
    exact mul_ne_zero key (mul_ne_zero (pow_ne_zero 2 z1) (pow_ne_zero 2 z2))

end

section
variable {E K : Type} [_root_.Field K] [DecidableEq K] {O : FOps E} {Rep : E → K → Prop} {b : K}

/-- The stored coordinates represent the point `P`. -/
def HRep (Rep : E → K → Prop) (b : K) (e : P3 E) (P : Pt (0 : K) b) : Prop :=
  ∃ X Y Z : K, Rep e.x X ∧ Rep e.y Y ∧ Rep e.z Z ∧ H b X Y Z P

variable (F : FOK O Rep b)
include F

theorem hrep_unique {e : P3 E} {P Q : Pt (0 : K) b} (hP : HRep Rep b e P) (hQ : HRep Rep b e Q) : P = Q := by
  obtain ⟨X, Y, Z, hX, hY, hZ, h⟩ := hP
  obtain ⟨X', Y', Z', hX', hY', hZ', h'⟩ := hQ
  obtain rfl := F.value hX hX'
  obtain rfl := F.value hY hY'
  obtain rfl := F.value hZ hZ'
  exact prep_unique h.1 h'.1

theorem identity_spec : HRep Rep b (identity O) 0 :=
  ⟨0, 1, 0, F.zero, F.one, F.zero, prep_zero _ _, fun _ => ⟨rfl, one_ne_zero⟩⟩

theorem isIdentity_spec {e : P3 E} {P : Pt (0 : K) b} (he : HRep Rep b e P) : isIdentity O e = if P = 0 then 1 else 0 := by
  obtain ⟨X, Y, Z, hX, hY, hZ, h⟩ := he
  unfold isIdentity
  rw [F.isZero hZ]
  exact if_congr (prep_isZero h.1) rfl rfl

theorem add_spec {e f : P3 E} {P Q : Pt (0 : K) b} (he : HRep Rep b e P) (hf : HRep Rep b f Q) :
    HRep Rep b (add O e f) (P + Q) := by
  obtain ⟨X1, Y1, Z1, hX1, hY1, hZ1, h1⟩ := he
  obtain ⟨X2, Y2, Z2, hX2, hY2, hZ2, h2⟩ := hf
  have t0 := F.mul hX1 hX2
  have t1 := F.mul hY1 hY2
  have t2 := F.mul hZ1 hZ2
  have t3 := F.sub (F.mul (F.add hX1 hY1) (F.add hX2 hY2)) (F.add t0 t1)
  have t4 := F.sub (F.mul (F.add hY1 hZ1) (F.add hY2 hZ2)) (F.add t1 t2)
  have y3 := F.mulBy3b (F.sub (F.mul (F.add hX1 hZ1) (F.add hX2 hZ2)) (F.add t0 t2))
  have t0' := F.add t0 (F.double t0)
  have t2' := F.mulBy3b t2
  have z3 := F.add t1 t2'
  have t1' := F.sub t1 t2'
  have rx := F.sub (F.mul t3 t1') (F.mul t4 y3)
  have ry := F.add (F.mul t1' z3) (F.mul y3 t0')
  have rz := F.add (F.mul z3 t4) (F.mul t0' t3)
  refine ⟨_, _, _, rx, ry, rz, ?_⟩
  convert h1.add F.two F.noTwo h2 using 1
  · unfold addX; ring
  · unfold addY; ring
  · unfold addZ; ring

theorem double_spec {e : P3 E} {P : Pt (0 : K) b} (he : HRep Rep b e P) : HRep Rep b (double O e) (P + P) := by
  have hid := isIdentity_spec F he
  by_cases h0 : P = 0
  · rw [if_pos h0] at hid
    unfold double
    dsimp only
    rw [hid, F.cmove1, F.cmove1, F.cmove1, h0, add_zero]
    exact identity_spec F
  · rw [if_neg h0] at hid
    unfold double
    dsimp only
    rw [hid, F.cmove0, F.cmove0, F.cmove0]
    obtain ⟨X, Y, Z, hX, hY, hZ, h⟩ := he
    have t0 := F.square hY
    have z8 := F.double (F.double (F.double t0))
    have t2 := F.mulBy3b (F.square hZ)
    have t0' := F.sub t0 (F.add t2 (F.double t2))
    have rx := F.double (F.mul t0' (F.mul hX hY))
    have ry := F.add (F.mul t0' (F.add t0 t2)) (F.mul t2 z8)
    have rz := F.mul (F.mul hY hZ) z8
    refine ⟨_, _, _, rx, ry, rz, ?_⟩
    have eq := h.eqn
    convert h.add F.two F.noTwo h using 1
    · unfold addX; ring
    · unfold addY; linear_combination (18 * b * Z) * eq
    · unfold addZ; linear_combination (6 * Y) * eq

theorem neg_spec {e : P3 E} {P : Pt (0 : K) b} (he : HRep Rep b e P) : HRep Rep b (neg O e) (-P) := by
  have hid := isIdentity_spec F he
  unfold neg fneg
  by_cases h0 : P = 0
  · rw [hid, if_pos h0, show ((0 : UInt64) - (1 - 1)) = 0 from by decide, F.cmove0, h0, neg_zero]
    rw [h0] at he
    exact he
  · rw [hid, if_neg h0, show ((0 : UInt64) - (0 - 1)) = 1 from by decide, F.cmove1]
    obtain ⟨X, Y, Z, hX, hY, hZ, h⟩ := he
    refine ⟨_, _, _, hX, F.neg hY, hZ, Weier.neg_spec h.1, fun hz => ?_⟩
    exact absurd ((prep_isZero h.1).1 hz) h0

theorem sub_spec {e f : P3 E} {P Q : Pt (0 : K) b} (he : HRep Rep b e P) (hf : HRep Rep b f Q) :
    HRep Rep b (sub O e f) (P - Q) := by
  rw [sub_eq_add_neg]
  exact add_spec F he (neg_spec F hf)

theorem opsOK : GOK (ops O) (HRep Rep b) := ⟨identity_spec F, add_spec F, double_spec F⟩

theorem multiply_spec {e : P3 E} {P : Pt (0 : K) b} (he : HRep Rep b e P) (v : Nat) (hv : v < 2 ^ 256) :
    HRep Rep b (multiply O e (natToLE 32 v)) (v • P) := gmulBytes_spec (opsOK F) he v hv

theorem cmove_zero (e f : P3 E) : cmove O e f 0 = e := by
  unfold cmove
  rw [F.cmove0, F.cmove0, F.cmove0]

theorem cmove_one (e f : P3 E) : cmove O e f 1 = f := by
  unfold cmove
  rw [F.cmove1, F.cmove1, F.cmove1]

theorem mulByXLoop_spec (n : Nat) : ∀ (x : UInt64) (r t : P3 E) (R T : Pt (0 : K) b), x.toNat < 2 ^ n → HRep Rep b r R →
    HRep Rep b t T → HRep Rep b (mulByXLoop O n x r t) (R + (2 * x.toNat) • T) := by
  induction n with
  | zero =>
    intro x r t R T hx hr ht
    have : x.toNat = 0 := by rw [pow_zero] at hx; omega
    rw [this, Nat.mul_zero, zero_nsmul, add_zero]
    exact hr
  | succ n ih =>
    intro x r t R T hx hr ht
    unfold mulByXLoop
    by_cases h0 : x = 0
    · rw [if_pos h0, h0]
      have : (0 : UInt64).toNat = 0 := rfl
      rw [this, Nat.mul_zero, zero_nsmul, add_zero]
      exact hr
    · rw [if_neg h0]
      dsimp only
      have hd := double_spec F ht
      have hs := add_spec F hr hd
      have hsh : (x >>> 1).toNat = x.toNat / 2 := by
        rw [UInt64.toNat_shiftRight, show (1 : UInt64).toNat % 64 = 1 from rfl, Nat.shiftRight_eq_div_pow, pow_one]
      have hand : (x &&& 1).toNat = x.toNat % 2 := by
        rw [UInt64.toNat_and, show (1 : UInt64).toNat = 2 ^ 1 - 1 from rfl, Nat.and_two_pow_sub_one_eq_mod, pow_one]
      have hlt : (x >>> 1).toNat < 2 ^ n := by rw [hsh]; rw [pow_succ] at hx; omega
      rcases Nat.mod_two_eq_zero_or_one x.toNat with hb | hb
      · have e : x &&& 1 = 0 := UInt64.toNat_inj.1 (by rw [hand, hb]; rfl)
        rw [e, cmove_zero F]
        have h := ih _ _ _ _ _ hlt hr hd
        rw [hsh, ← two_nsmul, ← mul_nsmul] at h
        have : 2 * (2 * (x.toNat / 2)) = 2 * x.toNat := by omega
        rwa [this] at h
      · have e : x &&& 1 = 1 := UInt64.toNat_inj.1 (by rw [hand, hb]; rfl)
        rw [e, cmove_one F]
        have h := ih _ _ _ _ _ hlt hs hd
        rw [hsh, ← two_nsmul, ← mul_nsmul, add_assoc, ← add_nsmul] at h
        have : 2 + 2 * (2 * (x.toNat / 2)) = 2 * x.toNat := by omega
        rwa [this] at h

/-- `MulByX` multiplies by the parameter `-0xd201000000010000` of the curve. -/
theorem mulByX_spec {e : P3 E} {P : Pt (0 : K) b} (he : HRep Rep b e P) : HRep Rep b (mulByX O e) (-((0xd201000000010000 : Nat) • P)) := by
  have h := mulByXLoop_spec F 64 ((0xd201000000010000 : UInt64) >>> 1) _ _ _ _ (by decide) (identity_spec F) he
  have := neg_spec F h
  rw [zero_add, show 2 * ((0xd201000000010000 : UInt64) >>> 1).toNat = 0xd201000000010000 from by decide] at this
  exact this

theorem equal_spec {e f : P3 E} {P Q : Pt (0 : K) b} (he : HRep Rep b e P) (hf : HRep Rep b f Q) :
    equal O e f = if P = Q then 1 else 0 := by
  obtain ⟨X1, Y1, Z1, hX1, hY1, hZ1, h1, -⟩ := he
  obtain ⟨X2, Y2, Z2, hX2, hY2, hZ2, h2, -⟩ := hf
  unfold equal
  dsimp only
  rw [F.isZero hZ1, F.isZero hZ2, F.equal (F.mul hX1 hZ2) (F.mul hX2 hZ1), F.equal (F.mul hY1 hZ2) (F.mul hY2 hZ1)]
  rcases h1 with ⟨z1, rfl⟩ | ⟨z1, x1, y1, n1, rfl, hx1, hy1⟩ <;> rcases h2 with ⟨z2, rfl⟩ | ⟨z2, x2, y2, n2, rfl, hx2, hy2⟩
  · rw [if_pos z1, if_pos z2, if_pos rfl]
    split <;> split <;> decide
  · rw [if_pos z1, if_neg z2, if_neg (WeierstrassCurve.Affine.Point.some_ne_zero _).symm]
    split <;> split <;> decide
  · rw [if_neg z1, if_pos z2, if_neg (WeierstrassCurve.Affine.Point.some_ne_zero _)]
    split <;> split <;> decide
  · rw [if_neg z1, if_neg z2]
    have ex : X1 * Z2 = X2 * Z1 ↔ x1 = x2 := by
      rw [hx1, hx2]
      constructor
      · intro h
        exact mul_right_cancel₀ (mul_ne_zero z1 z2) (by linear_combination h)
      · rintro rfl; ring
    have ey : Y1 * Z2 = Y2 * Z1 ↔ y1 = y2 := by
      rw [hy1, hy2]
      constructor
      · intro h
        exact mul_right_cancel₀ (mul_ne_zero z1 z2) (by linear_combination h)
      · rintro rfl; ring
    have ep : (WeierstrassCurve.Affine.Point.some x1 y1 n1 : Pt (0 : K) b) = .some x2 y2 n2 ↔ x1 = x2 ∧ y1 = y2 := by
      constructor
      · intro h
        injection h with h1 h2
        exact ⟨h1, h2⟩
      · rintro ⟨rfl, rfl⟩; rfl
    rw [if_congr ex rfl rfl, if_congr ey rfl rfl, if_congr ep rfl rfl]
    by_cases hx : x1 = x2 <;> by_cases hy : y1 = y2
    · rw [if_pos hx, if_pos hy, if_pos ⟨hx, hy⟩]; decide
    · rw [if_pos hx, if_neg hy, if_neg (fun h => hy h.2)]; decide
    · rw [if_neg hx, if_pos hy, if_neg (fun h => hx h.1)]; decide
    · rw [if_neg hx, if_neg hy, if_neg (fun h => hx h.1)]; decide

/-- The affine coordinates: `(x, y, 1)`, and three zeros for the neutral element. -/
theorem toAffine_spec {e : P3 E} {P : Pt (0 : K) b} (he : HRep Rep b e P) :
    (P = 0 → toAffine O e = ⟨O.zero, O.zero, O.zero⟩) ∧
    (∀ x y h, P = .some x y h → Rep (toAffine O e).x x ∧ Rep (toAffine O e).y y ∧ (toAffine O e).z = O.one ∧
      HRep Rep b (toAffine O e) P) := by
  obtain ⟨X, Y, Z, hX, hY, hZ, h, -⟩ := he
  have hi := F.invert hZ
  constructor
  · intro h0
    have z := (prep_isZero h).2 h0
    unfold toAffine
    dsimp only
    rw [hi.2 z, F.cmove0, F.cmove0, F.cmove0]
  · rintro x y hn rfl
    rcases h with ⟨_, hc⟩ | ⟨z, x', y', n', e', hx, hy⟩
    · exact absurd hc (WeierstrassCurve.Affine.Point.some_ne_zero _)
    injection e' with e1 e2
    subst e1 e2
    obtain ⟨w, hw, hr, hf⟩ := hi.1 z
    have ax : Rep (toAffine O e).x x := by
      unfold toAffine
      dsimp only
      rw [hf, F.cmove1]
      have := F.mul hX hr
      rwa [hx, mul_assoc, hw, mul_one] at this
    have ay : Rep (toAffine O e).y y := by
      unfold toAffine
      dsimp only
      rw [hf, F.cmove1]
      have := F.mul hY hr
      rwa [hy, mul_assoc, hw, mul_one] at this
    have az : (toAffine O e).z = O.one := by
      unfold toAffine
      dsimp only
      rw [hf, F.cmove1]
    refine ⟨ax, ay, az, x, y, 1, ax, ay, az ▸ F.one, Or.inr ⟨one_ne_zero, x, y, hn, rfl, (mul_one _).symm, (mul_one _).symm⟩, fun h => ?_⟩
    exact absurd h one_ne_zero

omit F in
theorem flag_iff (p : Prop) [Decidable p] : ((if p then 1 else 0 : UInt64) = 1) ↔ p := by
  by_cases h : p
  · rw [if_pos h]; exact ⟨fun _ => h, fun _ => rfl⟩
  · rw [if_neg h]; exact ⟨fun e => absurd e (by decide), fun e => absurd e h⟩

/-- `IsOnCurve` on coordinates that represent field elements: the point equation, or three zeros apart from `y`. -/
theorem isOnCurve_spec {e : P3 E} {X Y Z : K} (hX : Rep e.x X) (hY : Rep e.y Y) (hZ : Rep e.z Z) :
    isOnCurve O e = 1 ↔ (∃ P : Pt (0 : K) b, HRep Rep b e P) ∨ (X = 0 ∧ Y = 0 ∧ Z = 0) := by
  unfold isOnCurve
  dsimp only
  rw [F.equal (F.mul (F.square hY) hZ) (F.add (F.mul (F.square hX) hX) (F.mul (F.mul (F.square hZ) hZ) F.coeff))]
  rw [flag_iff]
  constructor
  · intro h
    by_cases z : Z = 0
    · have x0 : X = 0 := by
        rw [z] at h
        have : X ^ 3 = 0 := by linear_combination -h
        exact pow_eq_zero_iff (n := 3) (by decide) |>.1 this
      by_cases y0 : Y = 0
      · exact Or.inr ⟨x0, y0, z⟩
      · exact Or.inl ⟨0, X, Y, Z, hX, hY, hZ, Or.inl ⟨z, rfl⟩, fun _ => ⟨x0, y0⟩⟩
    · obtain ⟨P, hP⟩ := prep_of_eqn (a := 0) (b := b) F.two F.noTwo (X := X) (Y := Y) z (by linear_combination h)
      exact Or.inl ⟨P, X, Y, Z, hX, hY, hZ, hP, fun hz => absurd hz z⟩
  · rintro (⟨P, X', Y', Z', hX', hY', hZ', hP⟩ | ⟨rfl, rfl, rfl⟩)
    · obtain rfl := F.value hX hX'
      obtain rfl := F.value hY hY'
      obtain rfl := F.value hZ hZ'
      linear_combination hP.eqn
    · ring

omit F in
theorem drop_put (bs : List (P3 E)) (i : Nat) (e : P3 E) (O' : GOps (P3 E)) :
    (O'.put bs i e).drop 1 = if i = 0 then bs.drop 1 else O'.put (bs.drop 1) (i - 1) e := by
  cases bs with
  | nil => cases i <;> simp [GOps.put]
  | cons b bs =>
    cases i with
    | zero => simp [GOps.put]
    | succ i => simp [GOps.put]

theorem buckets_spec (j : Nat) (hj : j < 64) (l : List (P3 E × Pt (0 : K) b × Nat)) (hl : ∀ t ∈ l, HRep Rep b t.1 t.2.1) :
    ∃ Bs, List.Forall₂ (HRep Rep b) ((buckets O (l.map fun t => (t.1, natToLE 32 t.2.2)) j).drop 1) Bs ∧
      wsum Bs = (l.map fun t => (t.2.2 / 2 ^ (4 * j) % 2 ^ 4) • t.2.1).sum := by
  have gen : ∀ (l : List (P3 E × Pt (0 : K) b × Nat)), (∀ t ∈ l, HRep Rep b t.1 t.2.1) → ∀ (bs : List (P3 E)) (Bs : List (Pt (0 : K) b)),
      bs.length = 16 → List.Forall₂ (HRep Rep b) (bs.drop 1) Bs →
      ∃ Bs', List.Forall₂ (HRep Rep b) (((l.map fun t => (t.1, natToLE 32 t.2.2)).foldl
        (fun bs t => (ops O).put bs (nibble t.2 j).toNat t.1) bs).drop 1) Bs' ∧
        wsum Bs' = wsum Bs + (l.map fun t => (t.2.2 / 2 ^ (4 * j) % 2 ^ 4) • t.2.1).sum := by
    intro l
    induction l with
    | nil => intro _ bs Bs _ h; exact ⟨Bs, h, by rw [List.map_nil, List.sum_nil, add_zero]⟩
    | cons t l ih =>
      intro hl bs Bs hlen h
      have ht := hl t (List.mem_cons_self ..)
      have hl' := fun t h => hl t (List.mem_cons_of_mem _ h)
      rw [List.map_cons, List.foldl_cons, List.map_cons, List.sum_cons]
      have hi : (nibble (natToLE 32 t.2.2) j).toNat = t.2.2 / 2 ^ (4 * j) % 2 ^ 4 := by
        have := nibble_spec t.2.2 j hj
        rw [show (16 : Nat) = 2 ^ 4 from rfl, ← pow_mul] at this
        exact this
      rw [← hi]
      have hlt : (nibble (natToLE 32 t.2.2) j).toNat < 16 := by rw [hi]; exact Nat.mod_lt _ (by decide)
      dsimp only
      generalize (nibble (natToLE 32 t.2.2) j).toNat = i at hlt
      have hd := drop_put bs i t.1 (ops O)
      by_cases h0 : i = 0
      · rw [if_pos h0] at hd
        rw [← hd] at h
        obtain ⟨Bs', h3, h4⟩ := ih hl' _ _ (by rw [put_length, hlen]) h
        refine ⟨Bs', h3, ?_⟩
        rw [h4, h0, zero_nsmul, zero_add]
      · rw [if_neg h0] at hd
        obtain ⟨Bs1, h1, h2, _⟩ := put_spec (opsOK F) h (i := i - 1) (by rw [List.length_drop, hlen]; omega) ht
        rw [← hd] at h1
        obtain ⟨Bs', h3, h4⟩ := ih hl' _ _ (by rw [put_length, hlen]) h1
        refine ⟨Bs', h3, ?_⟩
        rw [h4, h2, Nat.sub_add_cancel (by omega), add_assoc]
  obtain ⟨Bs, h1, h2⟩ := gen l hl _ _ (List.length_replicate ..) (by
    rw [List.drop_replicate]
    exact replicate_zero (O := ops O) (16 - 1) (identity_spec F))
  exact ⟨Bs, h1, by rw [h2, wsum_zero, zero_add]⟩

set_option exponentiation.threshold 300 in
theorem sumOfProducts_spec (l : List (P3 E × Pt (0 : K) b × Nat)) (hl : ∀ t ∈ l, HRep Rep b t.1 t.2.1 ∧ t.2.2 < 2 ^ 256) :
    ∃ e, sumOfProducts O (l.map (·.1)) (l.map fun t => natToLE 32 t.2.2) = some e ∧
      HRep Rep b e ((l.map fun t => t.2.2 • t.2.1).sum) := by
  unfold sumOfProducts
  rw [if_neg (by simp)]
  refine ⟨_, rfl, ?_⟩
  have hz : (l.map (·.1)).zip (l.map fun t => natToLE 32 t.2.2) = l.map (fun t => (t.1, natToLE 32 t.2.2)) := List.zip_map'
  rw [hz]
  have key := combine_spec (opsOK F) 4 (l.map fun t => t.2)
    (fun j => ((ops O).runSum ((buckets O (l.map (fun t => (t.1, natToLE 32 t.2.2))) j).drop 1)).2) 64 0
    (fun j _ hj => by
      obtain ⟨Bs, h1, h2⟩ := buckets_spec F j (by omega) l (fun t ht => (hl t ht).1)
      have := (runSum_spec (opsOK F) h1).2
      rw [h2] at this
      rw [List.map_map]
      exact this)
  rw [List.map_map] at key
  have he : (l.map fun t => t.2.2 • t.2.1) =
      l.map ((fun t : Pt (0 : K) b × Nat => (t.2 / 2 ^ (4 * 0) % 2 ^ (4 * 64)) • t.1) ∘ fun t => t.2) := by
    refine List.map_congr_left fun t ht => ?_
    simp only [Function.comp_apply]
    rw [Nat.mul_zero, pow_zero, Nat.div_one, Nat.mod_eq_of_lt]
    exact (hl t ht).2
  rw [he]
  exact key

omit F in
theorem sumOfProducts_none (points : List (P3 E)) (scalars : List (List UInt8)) :
    sumOfProducts O points scalars = none ↔ points.length ≠ scalars.length := by
  unfold sumOfProducts
  by_cases h : points.length = scalars.length
  · rw [if_neg (by simpa using h)]; simp [h]
  · rw [if_pos h]; simp [h]

end

end P3

end Verif.Bls381
