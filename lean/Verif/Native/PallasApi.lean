import Verif.Native.Pallas
import Verif.Native.PointApi

/-!
# Pallas points: encodings, `Set`, and the `elliptic.Curve` interface
(`crypto/core/curves/pallas_curve.go`)
-/

set_option maxRecDepth 20000
set_option linter.unusedSectionVars false

namespace Verif.Native.Pallas
open Verif.Bytes Weier

/-- `rhsPallas` (crypto/core/curves/pallas_curve.go:972-976). -/
def rhsPallas (x : L4) : L4 :=
  let x2 := A.square x
  let x3 := A.mul x x2
  A.add x3 b

/-- `ToAffineCompressed` (crypto/core/curves/pallas_curve.go:898-909). -/
def toCompressed (e : EP) : List UInt8 :=
  let p1 := toAffine e
  let x := Field.bytes A p1.X
  let x := x.set 31 (x.getD 31 0 ||| (((Field.bytes A p1.Y).headD 0 &&& 1) <<< 7))
  if isIdentity p1 then List.replicate 32 0 else x

/-- `ToAffineUncompressed` (crypto/core/curves/pallas_curve.go:911-917). -/
def toUncompressed (e : EP) : List UInt8 :=
  let p1 := toAffine e
  Field.bytes A p1.X ++ Field.bytes A p1.Y

/-- `FromAffineCompressed` (crypto/core/curves/pallas_curve.go:919-947). -/
def fromCompressed (bytes : List UInt8) : Res EP :=
  if bytes.length ≠ 32 then .err
  else
    let sign := (bytes.getD 31 0 >>> 7) &&& 1
    let input := bytes.set 31 (bytes.getD 31 0 &&& 0x7F)
    match Pasta.setBytes pastaFp input with
    | .ok x =>
      let rhs := rhsPallas x
      let rs := Pasta.sqrt pastaFp rhs
      if rs.2 = false then .err
      else
        let y := if ((Field.bytes A rs.1).headD 0 &&& 1) ≠ sign then A.neg rs.1 else rs.1
        let e : EP := ⟨x, y, Field.one PastaFp.params⟩
        if isOnCurve e = false then .err else .ok e
    | .err => .err
    | .panic => .panic

/-- `FromAffineUncompressed` (crypto/core/curves/pallas_curve.go:949-969). -/
def fromUncompressed (bytes : List UInt8) : Res EP :=
  if bytes.length ≠ 64 then .err
  else
    match Pasta.setBytes pastaFp (bytes.take 32) with
    | .ok x =>
      match Pasta.setBytes pastaFp (bytes.drop 32) with
      | .ok y =>
        let e : EP := ⟨x, y, Field.one PastaFp.params⟩
        if isOnCurve e = false then .err else .ok e
      | .err => .err
      | .panic => .panic
    | .err => .err
    | .panic => .panic

/-- `new(fp.Fp).SetBigInt(v)`: the receiver starts as zero. -/
def elemOf (v : Int) : Res L4 := Pasta.setBigInt pastaFp Field.zero v

/-- `PointPallas.Set` (crypto/core/curves/pallas_curve.go:576-594). -/
def set (x y : Int) : Res EP :=
  match elemOf x with
  | .ok xElem =>
    if y = 0 then
      if x = 0 then .ok identity else fromCompressed (Field.bytes A xElem)
    else
      match elemOf y with
      | .ok yElem =>
        let value : EP := ⟨xElem, yElem, Field.one PastaFp.params⟩
        if isOnCurve value = false then .err else .ok value
      | .err => .err
      | .panic => .panic
  | .err => .err
  | .panic => .panic

/-- `PointPallas.IsNegative` (crypto/core/curves/pallas_curve.go:524-526) through `Y`
(crypto/core/curves/pallas_curve.go:1000-1004). -/
def isNegative (e : EP) : Bool := Pasta.isOdd pastaFp (toAffine e).Y

/-! ## Specification -/

/-- The encoding: 255 bits of the abscissa and the parity of the ordinate, little-endian. -/
def enc (x y : ZMod p) : List UInt8 := natToLE 32 (x.val + 2 ^ 255 * (y.val % 2))

instance : NeZero p := ⟨by decide +kernel⟩
instance : NeZero q := ⟨by decide +kernel⟩

theorem p_lt : p < 2 ^ 255 := by decide +kernel

theorem pow31 : (2 : Nat) ^ 255 = 128 * 256 ^ 31 := by decide +kernel
theorem pow32 : (256 : Nat) ^ 32 = 256 * 256 ^ 31 := by decide +kernel

theorem split31 (bs : List UInt8) (h : bs.length = 32) : bs = bs.take 31 ++ [bs.getD 31 0] := by
  conv_lhs => rw [← List.take_append_drop 31 bs]
  congr 1
  rw [List.drop_eq_getElem_cons (by omega), List.drop_of_length_le (by omega), List.getD_eq_getElem?_getD,
    List.getElem?_eq_getElem (by omega), Option.getD_some]

theorem set31 (bs : List UInt8) (h : bs.length = 32) (w : UInt8) : bs.set 31 w = bs.take 31 ++ [w] := by
  conv_lhs => rw [split31 bs h]
  have hl : (bs.take 31).length = 31 := by rw [List.length_take]; omega
  rw [List.set_append_right _ _ (by omega), hl]
  rfl

theorem le31 (bs : List UInt8) (h : bs.length = 31) (w : UInt8) : leToNat (bs ++ [w]) = leToNat bs + 256 ^ 31 * w.toNat := by
  rw [leToNat_append, h]
  simp [leToNat]

theorem u8_all {P : UInt8 → Prop} (h : ∀ n : Fin 256, P (UInt8.ofNat n.val)) (w : UInt8) : P w := by
  have := h ⟨w.toNat, w.toNat_lt⟩
  rwa [UInt8.ofNat_toNat] at this

theorem hi_bit (w : UInt8) : ((w >>> 7) &&& 1).toNat = w.toNat / 128 ∧ (w &&& 0x7f).toNat = w.toNat % 128 := by
  exact u8_all (P := fun w => ((w >>> 7) &&& 1).toNat = w.toNat / 128 ∧ (w &&& 0x7f).toNat = w.toNat % 128) (by decide +kernel) w

theorem or_sign (w : UInt8) (hw : w.toNat < 128) (v : Nat) :
    (w ||| ((UInt8.ofNat v &&& 1) <<< 7)).toNat = w.toNat + 128 * (v % 2) := by
  have h1 : UInt8.ofNat v &&& 1 = UInt8.ofNat (v % 2) := by
    apply UInt8.toNat.inj
    rw [parity_byte]
    have := Nat.mod_lt v (by decide : 2 > 0)
    rw [UInt8.toNat_ofNat']
    omega
  rw [h1]
  have gen : ∀ w : UInt8, w.toNat < 128 → (w ||| ((UInt8.ofNat 0) <<< 7)).toNat = w.toNat + 128 * 0 ∧
      (w ||| ((UInt8.ofNat 1) <<< 7)).toNat = w.toNat + 128 * 1 :=
    u8_all (P := fun w : UInt8 => w.toNat < 128 → (w ||| ((UInt8.ofNat 0) <<< 7)).toNat = w.toNat + 128 * 0 ∧
      (w ||| ((UInt8.ofNat 1) <<< 7)).toNat = w.toNat + 128 * 1) (by decide +kernel)
  rcases Nat.mod_two_eq_zero_or_one v with h | h <;> rw [h]
  · exact (gen w hw).1
  · exact (gen w hw).2

/-- Masking the sign bit and reading it. -/
theorem mask_spec (bs : List UInt8) (h : bs.length = 32) :
    leToNat (bs.set 31 (bs.getD 31 0 &&& 0x7F)) = leToNat bs % 2 ^ 255 ∧
    ((bs.getD 31 0 >>> 7) &&& 1).toNat = leToNat bs / 2 ^ 255 := by
  have hl : (bs.take 31).length = 31 := by rw [List.length_take]; omega
  have hlt := leToNat_lt (bs.take 31)
  rw [hl] at hlt
  have hb := le31 _ hl (bs.getD 31 0)
  rw [← split31 bs h] at hb
  rw [set31 bs h, le31 _ hl, (hi_bit _).2, (hi_bit _).1, hb, pow31]
  generalize leToNat (bs.take 31) = t at hlt
  generalize (bs.getD 31 0).toNat = w
  generalize (256 : Nat) ^ 31 = m at hlt
  have hw : w = 128 * (w / 128) + w % 128 := by omega
  have hr : w % 128 < 128 := Nat.mod_lt _ (by decide)
  have hlt2 : t + m * (w % 128) < 128 * m := by nlinarith
  have e : t + m * w = (t + m * (w % 128)) + 128 * m * (w / 128) := by
    conv_lhs => rw [hw]
    ring
  rw [e]
  constructor
  · rw [Nat.add_mul_mod_self_left, Nat.mod_eq_of_lt hlt2]
  · rw [Nat.add_mul_div_left _ _ (by omega), Nat.div_eq_of_lt hlt2, Nat.zero_add]

/-- Setting the sign bit. -/
theorem sign_spec (x v : Nat) (hx : x < 2 ^ 255) :
    (natToLE 32 x).set 31 ((natToLE 32 x).getD 31 0 ||| ((UInt8.ofNat v &&& 1) <<< 7)) = natToLE 32 (x + 2 ^ 255 * (v % 2)) := by
  have hlen : ∀ n, (natToLE 32 n).length = 32 := fun n => rfl
  have hg : ((natToLE 32 x).getD 31 0).toNat < 128 := by
    rw [natToLE_getD _ _ _ (by decide)]
    have := hx
    rw [pow31] at this
    have h1 : x / 256 ^ 31 < 128 := Nat.div_lt_of_lt_mul (by rw [Nat.mul_comm]; exact this)
    exact lt_of_le_of_lt (Nat.mod_le _ _) h1
  have hl : ((natToLE 32 x).take 31).length = 31 := by rw [List.length_take, hlen]; rfl
  apply leToNat_inj
  · rw [List.length_set, hlen, hlen]
  · rw [set31 _ (hlen x), le31 _ hl, or_sign _ hg, leToNat_natToLE]
    have hb := le31 _ hl ((natToLE 32 x).getD 31 0)
    rw [← split31 _ (hlen x), leToNat_natToLE] at hb
    have h32 := pow32
    have h31 := pow31
    have hv : v % 2 < 2 := Nat.mod_lt _ (by decide)
    have hm : x % 256 ^ 32 = x := Nat.mod_eq_of_lt (by omega)
    have hm' : (x + 2 ^ 255 * (v % 2)) % 256 ^ 32 = x + 2 ^ 255 * (v % 2) := Nat.mod_eq_of_lt (by
      rcases Nat.mod_two_eq_zero_or_one v with h | h <;> rw [h] <;> omega)
    rw [hm']
    rw [hm] at hb
    rw [h31]
    have : x + 128 * 256 ^ 31 * (v % 2) = (leToNat ((natToLE 32 x).take 31) + 256 ^ 31 * ((natToLE 32 x).getD 31 0).toNat) +
      128 * 256 ^ 31 * (v % 2) := by rw [← hb]
    rw [this]
    ring

theorem head_le (v : Nat) : (natToLE 32 v).headD 0 = UInt8.ofNat v := by
  apply UInt8.toNat.inj
  have := natToLE_getD 32 v 0 (by decide)
  rw [pow_zero, Nat.div_one] at this
  rw [UInt8.toNat_ofNat']
  exact this

theorem nib_parity (v : Nat) : ((natToLE 32 v).headD 0 &&& 1).toNat = v % 2 := by rw [head_le, parity_byte]

/-- The affine coordinates of the neutral element and of the others. -/
theorem affine_cases {e : EP} {P : PP} (he : ERep e P) :
    ∃ x y : ZMod p, Rep p (toAffine e).X x ∧ Rep p (toAffine e).Y y ∧ isIdentity (toAffine e) = false ∧
      ((P = 0 ∧ x = 0 ∧ y = 0) ∨ ∃ h, P = .some x y h) := by
  have key : Rep p (toAffine e).Z 1 → isIdentity (toAffine e) = false := fun h => by
    rw [← Bool.not_eq_true, isIdentity_iff h]
    exact one_ne_zero
  cases P with
  | zero =>
    obtain ⟨h1, h2, h3⟩ := (toAffine_spec he).1 rfl
    exact ⟨0, 0, h1, h2, key h3, Or.inl ⟨rfl, rfl, rfl⟩⟩
  | some x y h =>
    obtain ⟨h1, h2, h3⟩ := (toAffine_spec he).2 _ _ _ rfl
    exact ⟨x, y, h1, h2, key h3, Or.inr ⟨h, rfl⟩⟩

/-- **C84.** The encodings of a point: the abscissa with the parity of the ordinate in the top bit, and the two coordinates;
all zeros for the neutral element. -/
theorem C84_encode {e : EP} {P : PP} (he : ERep e P) :
    (P = 0 → toCompressed e = List.replicate 32 0 ∧ toUncompressed e = List.replicate 64 0) ∧
    (∀ x y h, P = .some x y h → toCompressed e = enc x y ∧ toUncompressed e = natToLE 32 x.val ++ natToLE 32 y.val) := by
  obtain ⟨x, y, hx, hy, hid, hc⟩ := affine_cases he
  have h1 : toCompressed e = enc x y := by
    unfold toCompressed enc
    dsimp only
    rw [hid, if_neg Bool.false_ne_true, C50_bytes LP hx, C50_bytes LP hy, head_le]
    exact sign_spec _ _ (lt_trans (ZMod.val_lt x) p_lt)
  have h2 : toUncompressed e = natToLE 32 x.val ++ natToLE 32 y.val := by
    unfold toUncompressed
    dsimp only
    rw [C50_bytes LP hx, C50_bytes LP hy]
  rw [h1, h2]
  rcases hc with ⟨rfl, rfl, rfl⟩ | ⟨h, rfl⟩
  · refine ⟨fun _ => ⟨?_, ?_⟩, fun x y h hc => absurd hc.symm (WeierstrassCurve.Affine.Point.some_ne_zero _)⟩
    · unfold enc
      rw [ZMod.val_zero]
      decide +kernel
    · rw [ZMod.val_zero]
      decide +kernel
  · refine ⟨fun hc => absurd hc (WeierstrassCurve.Affine.Point.some_ne_zero _), fun x' y' h' hc => ?_⟩
    injection hc with ex ey
    subst ex ey
    exact ⟨rfl, rfl⟩

theorem erep_affine {x y : L4} {vx vy : ZMod p} (hx : Rep p x vx) (hy : Rep p y vy)
    (h : (curve (0 : ZMod p) ((5 : Nat) : ZMod p)).Nonsingular vx vy) : ERep ⟨x, y, Field.one PastaFp.params⟩ (.some vx vy h) :=
  ⟨vx, vy, 1, hx, hy, (C50_constants LP).1, Or.inr ⟨one_ne_zero, _, _, _, rfl, by ring, by ring⟩⟩

theorem rhs_spec {x : L4} {v : ZMod p} (hx : Rep p x v) : Rep p (rhsPallas x) (v ^ 3 + 0 * v + ((5 : Nat) : ZMod p)) := by
  have := C50_add LP (C50_mul LP hx (C50_square LP hx)) rep_b
  have e : v * (v * v) + ((5 : Nat) : ZMod p) = v ^ 3 + 0 * v + ((5 : Nat) : ZMod p) := by ring
  rw [e] at this
  exact this

/-- An affine triple represents a point exactly when it satisfies the equation. -/
theorem onCurve_affine {x y : L4} {vx vy : ZMod p} (hx : Rep p x vx) (hy : Rep p y vy) :
    isOnCurve ⟨x, y, Field.one PastaFp.params⟩ = true ↔ vy ^ 2 = vx ^ 3 + 0 * vx + ((5 : Nat) : ZMod p) := by
  have h1 := (C50_constants LP).1
  rw [C82_isOnCurve (e := ⟨x, y, Field.one PastaFp.params⟩) hx hy h1]
  constructor
  · rintro ⟨P, X, Y, Z, hX, hY, hZ, j⟩
    obtain rfl := rep_value LP hx hX
    obtain rfl := rep_value LP hy hY
    obtain rfl := rep_value LP h1 hZ
    have := jrep_eqn j one_ne_zero
    rw [this]
    ring
  · intro h
    exact ⟨_, erep_affine hx hy (nonsing two noTwo h)⟩

/-- **C84.** What `FromAffineCompressed` accepts: 32 bytes, the low 255 bits in the set the field decoder accepts, and
`x³ + 5` a square; the result is the point with that abscissa whose ordinate has the parity of the top bit. -/
theorem C84_decompress (bs : List UInt8) :
    (bs.length ≠ 32 → fromCompressed bs = .err) ∧
    (¬ Accepted p (leToNat bs % 2 ^ 255) → fromCompressed bs = .err) ∧
    (∀ x : ZMod p, bs.length = 32 → Accepted p (leToNat bs % 2 ^ 255) → x = (leToNat bs % 2 ^ 255 : Nat) →
      (¬ IsSquare (x ^ 3 + 5) → fromCompressed bs = .err) ∧
      (IsSquare (x ^ 3 + 5) → ∃ y h e, fromCompressed bs = .ok e ∧ ERep e (.some x y h) ∧ y.val % 2 = leToNat bs / 2 ^ 255)) := by
  refine ⟨fun h => ?_, fun h => ?_, fun x hl ha hx => ?_⟩
  · unfold fromCompressed
    rw [if_pos h]
  · unfold fromCompressed
    split
    · rfl
    · rename_i hl
      have hl' : bs.length = 32 := not_not.1 hl
      dsimp only
      rw [(C67_setBytes_exact LF pastaFp_shape (bs.set 31 (bs.getD 31 0 &&& 0x7F)) (by rw [List.length_set, hl'])).2 (by
        rw [(mask_spec bs hl').1]; exact h)]
  · obtain ⟨a, ha1, ra⟩ := (C67_setBytes_exact LF pastaFp_shape (bs.set 31 (bs.getD 31 0 &&& 0x7F)) (by rw [List.length_set, hl])).1
      (by rw [(mask_spec bs hl).1]; exact ha)
    rw [(mask_spec bs hl).1, ← hx] at ra
    have hr := rhs_spec ra
    obtain ⟨-, -, -, -, -, -, hc3, -, ⟨g, hg1, hg2⟩, -⟩ := C67_instances
    obtain ⟨y, hy, hy1, hy2⟩ := C67_sqrt (F := pastaFp) LF hc3 hg1 hg2 hr
    have h5 : x ^ 3 + 0 * x + ((5 : Nat) : ZMod p) = x ^ 3 + 5 := by push_cast; ring
    rw [h5] at hy1 hy2
    unfold fromCompressed
    rw [if_neg (fun hc => hc hl)]
    dsimp only
    rw [ha1]
    dsimp only
    constructor
    · intro hn
      rw [if_pos (by rw [← Bool.not_eq_true]; exact fun hc => hn (hy2.1 hc))]
    · intro hs
      have ht := hy2.2 hs
      rw [if_neg (by rw [ht]; decide)]
      have ey : y ^ 2 = x ^ 3 + 0 * x + ((5 : Nat) : ZMod p) := by rw [h5, ← hy1.1 ht, pow_two]
      have en : (-y) ^ 2 = x ^ 3 + 0 * x + ((5 : Nat) : ZMod p) := by rw [neg_sq]; exact ey
      have y0 := y_ne_zero noTwo ey
      have hb : ((Field.bytes A (Pasta.sqrt pastaFp (rhsPallas a)).1).headD 0 &&& 1).toNat = y.val % 2 := by
        rw [C50_bytes LP hy, nib_parity]
      have hsg := (mask_spec bs hl).2
      have hs2 : leToNat bs / 2 ^ 255 < 2 := by
        have := leToNat_lt bs
        rw [hl, pow32] at this
        rw [pow31]
        exact Nat.div_lt_of_lt_mul (by omega)
      by_cases hc : ((Field.bytes A (Pasta.sqrt pastaFp (rhsPallas a)).1).headD (0 : UInt8) &&& (1 : UInt8) : UInt8) ≠ ((bs.getD 31 0 >>> 7) &&& 1 : UInt8)
      · rw [if_pos hc]
        have ry := C50_neg LP hy
        refine ⟨-y, nonsing two noTwo en, _, if_neg ?_, erep_affine ra ry _, ?_⟩
        · rw [Bool.not_eq_false]
          exact (onCurve_affine ra ry).2 en
        · have hne : y.val % 2 ≠ leToNat bs / 2 ^ 255 := fun h => hc (UInt8.toNat.inj (by rw [hb, hsg, h]))
          have := neg_parity odd y0
          omega
      · rw [if_neg hc]
        refine ⟨y, nonsing two noTwo ey, _, if_neg ?_, erep_affine ra hy _, ?_⟩
        · rw [Bool.not_eq_false]
          exact (onCurve_affine ra hy).2 ey
        · rw [← hb, not_not.1 hc, hsg]

/-- **C84.** What `FromAffineUncompressed` accepts: 64 bytes, both halves in the set the field decoder accepts, and the
coordinates on the curve; the result is that point. -/
theorem C84_uncompressed (bs : List UInt8) :
    (∀ e, fromUncompressed bs = .ok e → bs.length = 64 ∧ Accepted p (leToNat (bs.take 32)) ∧ Accepted p (leToNat (bs.drop 32)) ∧
      ∃ h, ERep e (.some (leToNat (bs.take 32) : ZMod p) (leToNat (bs.drop 32) : ZMod p) h)) ∧
    (bs.length = 64 → Accepted p (leToNat (bs.take 32)) → Accepted p (leToNat (bs.drop 32)) →
      (leToNat (bs.drop 32) : ZMod p) ^ 2 = (leToNat (bs.take 32) : ZMod p) ^ 3 + 5 → ∃ e, fromUncompressed bs = .ok e) ∧
    fromUncompressed bs ≠ .panic := by
  by_cases hl : bs.length = 64
  swap
  · have : fromUncompressed bs = .err := by unfold fromUncompressed; rw [if_pos hl]
    rw [this]
    exact ⟨nofun, fun h => absurd h hl, nofun⟩
  have l1 : (bs.take 32).length = 32 := by rw [List.length_take]; omega
  have l2 : (bs.drop 32).length = 32 := by rw [List.length_drop]; omega
  have s1 := C67_setBytes_exact LF pastaFp_shape _ l1
  have s2 := C67_setBytes_exact LF pastaFp_shape _ l2
  unfold fromUncompressed
  rw [if_neg (fun hc => hc hl)]
  by_cases a1 : Accepted p (leToNat (bs.take 32))
  swap
  · rw [s1.2 a1]
    exact ⟨nofun, fun _ h => absurd h a1, nofun⟩
  obtain ⟨x, hx, rx⟩ := s1.1 a1
  rw [hx]
  dsimp only
  by_cases a2 : Accepted p (leToNat (bs.drop 32))
  swap
  · rw [s2.2 a2]
    exact ⟨nofun, fun _ _ h => absurd h a2, nofun⟩
  obtain ⟨y, hy, ry⟩ := s2.1 a2
  rw [hy]
  dsimp only
  have hoc := onCurve_affine rx ry
  have h5 : (leToNat (bs.take 32) : ZMod p) ^ 3 + 0 * (leToNat (bs.take 32) : ZMod p) + ((5 : Nat) : ZMod p) =
    (leToNat (bs.take 32) : ZMod p) ^ 3 + 5 := by push_cast; ring
  by_cases ho : isOnCurve ⟨x, y, Field.one PastaFp.params⟩ = true
  · rw [if_neg (by rw [ho]; decide)]
    refine ⟨fun e he => ⟨hl, a1, a2, nonsing two noTwo (hoc.1 ho), ?_⟩, fun _ _ _ _ => ⟨_, rfl⟩, nofun⟩
    obtain rfl := Res.ok.inj he
    exact erep_affine rx ry _
  · rw [if_pos (by rw [← Bool.not_eq_true]; exact ho)]
    exact ⟨nofun, fun _ _ _ h => absurd (hoc.2 (by rw [h5]; exact h)) ho, nofun⟩

theorem enc_val (x y : ZMod p) : (enc x y).length = 32 ∧ leToNat (enc x y) % 2 ^ 255 = x.val ∧ leToNat (enc x y) / 2 ^ 255 = y.val % 2 := by
  have hx := lt_trans (ZMod.val_lt x) p_lt
  have hy : y.val % 2 < 2 := Nat.mod_lt _ (by decide)
  have : leToNat (enc x y) = x.val + 2 ^ 255 * (y.val % 2) := by
    unfold enc
    rw [leToNat_natToLE]
    apply Nat.mod_eq_of_lt
    have h32 := pow32
    have h31 := pow31
    rcases Nat.mod_two_eq_zero_or_one y.val with h | h <;> rw [h] <;> omega
  refine ⟨rfl, ?_, ?_⟩
  · rw [this, Nat.add_mul_mod_self_left, Nat.mod_eq_of_lt hx]
  · rw [this, Nat.add_mul_div_left _ _ (by decide), Nat.div_eq_of_lt hx, Nat.zero_add]

/-- **C84.** The compressed round trip holds for every point whose abscissa is not in the interval the field decoder refuses
(`[p - p₀, p - 2⁶³]`, `p₀` the low limb of `p`), and fails for every point whose abscissa is in it. -/
theorem C84_roundtrip {e : EP} {x y : ZMod p} {h} (he : ERep e (.some x y h)) :
    (Accepted p x.val → ∃ e', fromCompressed (toCompressed e) = .ok e' ∧ ERep e' (.some x y h)) ∧
    (¬ Accepted p x.val → fromCompressed (toCompressed e) = .err) ∧
    (Accepted p x.val → Accepted p y.val → ∃ e', fromUncompressed (toUncompressed e) = .ok e' ∧ ERep e' (.some x y h)) ∧
    (¬ (Accepted p x.val ∧ Accepted p y.val) → fromUncompressed (toUncompressed e) = .err) := by
  obtain ⟨ec, eu⟩ := (C84_encode he).2 x y h rfl
  rw [ec, eu]
  obtain ⟨v1, v2, v3⟩ := enc_val x y
  have ey := eqn_iff.1 h.1
  have h5 : x ^ 3 + 0 * x + ((5 : Nat) : ZMod p) = x ^ 3 + 5 := by push_cast; ring
  have hlv : ∀ v : ZMod p, leToNat (natToLE 32 v.val) = v.val := fun v => by
    rw [leToNat_natToLE, Nat.mod_eq_of_lt]
    have := lt_trans (ZMod.val_lt v) p_lt
    have h32 := pow32
    have h31 := pow31
    omega
  have hlen : (natToLE 32 x.val).length = 32 := rfl
  have htk : (natToLE 32 x.val ++ natToLE 32 y.val).take 32 = natToLE 32 x.val := List.take_left' hlen
  have hdp : (natToLE 32 x.val ++ natToLE 32 y.val).drop 32 = natToLE 32 y.val := List.drop_left' hlen
  refine ⟨fun ha => ?_, fun ha => ?_, fun ha hb => ?_, fun hn => ?_⟩
  · obtain ⟨y', h', e', h1, h2, h3⟩ := ((C84_decompress (enc x y)).2.2 x v1 (by rw [v2]; exact ha) (by
      rw [v2, ZMod.natCast_zmod_val])).2 ⟨y, by rw [← h5, ← ey, pow_two]⟩
    refine ⟨e', h1, ?_⟩
    have ey' := eqn_iff.1 h'.1
    have : y' = y := root_unique odd (by rw [ey, ey']) (by rw [h3, v3])
    subst this
    exact h2
  · exact (C84_decompress (enc x y)).2.1 (by rw [v2]; exact ha)
  · have key := C84_uncompressed (natToLE 32 x.val ++ natToLE 32 y.val)
    rw [htk, hdp, hlv, hlv] at key
    obtain ⟨e', he'⟩ := key.2.1 rfl ha hb (by
      rw [ZMod.natCast_zmod_val, ZMod.natCast_zmod_val, ey, h5])
    obtain ⟨-, -, -, h', hr⟩ := key.1 e' he'
    refine ⟨e', he', ?_⟩
    convert hr using 2 <;> rw [ZMod.natCast_zmod_val]
  · have key := C84_uncompressed (natToLE 32 x.val ++ natToLE 32 y.val)
    rw [htk, hdp, hlv, hlv] at key
    cases hc : fromUncompressed (natToLE 32 x.val ++ natToLE 32 y.val) with
    | ok e' => exact absurd ⟨(key.1 e' hc).2.1, (key.1 e' hc).2.2.1⟩ hn
    | err => rfl
    | panic => exact absurd hc key.2.2

/-! ## Refutations -/

/-- Euler's criterion, checked by the kernel. -/
theorem not_square {g : Nat} (hg : g % p ≠ 0) (h : Primes.pw p 300 g ((p - 1) / 2) 1 % p ≠ 1) : ¬ IsSquare (g : ZMod p) := by
  rintro ⟨y, hy⟩
  apply h
  have e := Primes.pw_spec p 300 g ((p - 1) / 2) 1 (by decide +kernel)
  have hy0 : y ≠ 0 := by
    rintro rfl
    rw [mul_zero, ZMod.natCast_eq_zero_iff] at hy
    exact hg (Nat.mod_eq_zero_of_dvd hy)
  rw [hy, ← pow_two, ← pow_mul, (by decide +kernel : 2 * ((p - 1) / 2) = p - 1), ZMod.pow_card_sub_one_eq_one hy0, Nat.cast_one, one_mul] at e
  have e' : ((Primes.pw p 300 g ((p - 1) / 2) 1 : Nat) : ZMod p) = ((1 : Nat) : ZMod p) := by rw [e, Nat.cast_one]
  have := (ZMod.natCast_eq_natCast_iff _ _ _).1 e'
  rw [Nat.ModEq] at this
  rw [this]
  decide +kernel

theorem five_not_square : ¬ IsSquare (((5 : Nat) : ZMod p)) := not_square (by decide +kernel) (by decide +kernel)

/-- **C84 (refutation).** The neutral element does not survive the round trip: both its encodings (all zeros) are refused. -/
theorem C84_identity_not_decodable {e : EP} (he : ERep e 0) :
    fromCompressed (toCompressed e) = .err ∧ fromUncompressed (toUncompressed e) = .err := by
  obtain ⟨h1, h2⟩ := (C84_encode he).1 rfl
  rw [h1, h2]
  have z32 : leToNat (List.replicate 32 (0 : UInt8)) = 0 := by decide +kernel
  have hacc : Accepted p 0 := Or.inl (by decide +kernel)
  constructor
  · refine ((C84_decompress _).2.2 0 rfl ?_ ?_).1 ?_
    · rw [z32]; exact hacc
    · rw [z32, Nat.zero_mod, Nat.cast_zero]
    · have : (0 : ZMod p) ^ 3 + 5 = ((5 : Nat) : ZMod p) := by push_cast; ring
      rw [this]
      exact five_not_square
  · have key := C84_uncompressed (List.replicate 64 0)
    have t1 : (List.replicate 64 (0 : UInt8)).take 32 = List.replicate 32 0 := rfl
    have t2 : (List.replicate 64 (0 : UInt8)).drop 32 = List.replicate 32 0 := rfl
    rw [t1, t2, z32] at key
    cases hc : fromUncompressed (List.replicate 64 0) with
    | ok e' =>
      obtain ⟨-, -, -, h, -⟩ := key.1 e' hc
      exact absurd (by rw [Nat.cast_zero]) (ne_origin h)
    | err => rfl
    | panic => exact absurd hc key.2.2

/-- A point whose abscissa is refused. -/
def badX : Nat := p - 0x992d30ed00000001
/-- Its ordinate. -/
def badY : Nat := 27209531781905878803814769098361938759540437287253558824618673664311033727708

theorem eqn_of_nat {x y : Nat} (h : y ^ 2 % p = (x ^ 3 + 5) % p) :
    ((y : Nat) : ZMod p) ^ 2 = ((x : Nat) : ZMod p) ^ 3 + 0 * ((x : Nat) : ZMod p) + ((5 : Nat) : ZMod p) := by
  have := (ZMod.natCast_eq_natCast_iff _ _ _).2 h
  rw [Nat.cast_pow, Nat.cast_add, Nat.cast_pow] at this
  rw [zero_mul, add_zero]
  exact this

theorem val_of_lt {x : Nat} (h : x < p) : ((x : Nat) : ZMod p).val = x := ZMod.val_natCast_of_lt h

/-- **C84 (refutation).** There is a point of the curve other than the neutral element whose encodings cannot be decoded. -/
theorem C84_point_not_decodable : ∃ (e : EP) (P : PP), ERep e P ∧ P ≠ 0 ∧
    fromCompressed (toCompressed e) = .err ∧ fromUncompressed (toUncompressed e) = .err := by
  have he := eqn_of_nat (x := badX) (y := badY) (by decide +kernel)
  have rx := C50_setLimbs LP (L4.ofNat badX)
  have ry := C50_setLimbs LP (L4.ofNat badY)
  rw [L4.val_ofNat _ (by decide +kernel)] at rx ry
  have hr := erep_affine rx ry (nonsing two noTwo he)
  have hv : ((badX : Nat) : ZMod p).val = badX := val_of_lt (by decide +kernel)
  have hn : ¬ Accepted p ((badX : Nat) : ZMod p).val := by
    rw [hv]
    unfold Accepted
    decide +kernel
  have key := C84_roundtrip hr
  exact ⟨_, _, hr, WeierstrassCurve.Affine.Point.some_ne_zero _, key.2.1 hn, key.2.2.2 (fun h => hn h.1)⟩

/-- A value above the modulus that is accepted. -/
def bigV : Nat := 2 ^ 254 + (2 ^ 63 + 1) * 2 ^ 128

/-- **C84 (refutation).** Decoding is not injective: two different strings decode to the same point. -/
theorem C84_two_encodings : ∃ (b c : List UInt8) (e e' : EP) (P : PP), b ≠ c ∧ fromCompressed b = .ok e ∧
    fromCompressed c = .ok e' ∧ ERep e P ∧ ERep e' P := by
  have he := eqn_of_nat (x := bigV - p) (y := 25859870304209744414995114864777761488217366422731322972140617518591786009367) (by decide +kernel)
  have hv : ((bigV : Nat) : ZMod p) = ((bigV - p : Nat) : ZMod p) := by
    rw [Nat.cast_sub (by decide +kernel), ZMod.natCast_self, sub_zero]
  have h5 : ((bigV - p : Nat) : ZMod p) ^ 3 + 0 * ((bigV - p : Nat) : ZMod p) + ((5 : Nat) : ZMod p) =
    ((bigV - p : Nat) : ZMod p) ^ 3 + 5 := by push_cast; ring
  have hsq : IsSquare (((bigV - p : Nat) : ZMod p) ^ 3 + 5) := ⟨_, by rw [← pow_two, he, h5]⟩
  have l1 : leToNat (natToLE 32 bigV) = bigV := by rw [leToNat_natToLE]; decide +kernel
  have l2 : leToNat (natToLE 32 (bigV - p)) = bigV - p := by rw [leToNat_natToLE]; decide +kernel
  have m1 : leToNat (natToLE 32 bigV) % 2 ^ 255 = bigV := by rw [l1]; decide +kernel
  have m2 : leToNat (natToLE 32 (bigV - p)) % 2 ^ 255 = bigV - p := by rw [l2]; decide +kernel
  obtain ⟨y, h, e, h1, h2, h3⟩ := ((C84_decompress (natToLE 32 bigV)).2.2 _ rfl (by
    rw [m1]; unfold Accepted; decide +kernel) (by rw [m1, hv])).2 hsq
  obtain ⟨y', h', e', h1', h2', h3'⟩ := ((C84_decompress (natToLE 32 (bigV - p))).2.2 _ rfl (by
    rw [m2]; unfold Accepted; decide +kernel) (by rw [m2])).2 hsq
  have d1 : leToNat (natToLE 32 bigV) / 2 ^ 255 = 0 := by rw [l1]; decide +kernel
  have d2 : leToNat (natToLE 32 (bigV - p)) / 2 ^ 255 = 0 := by rw [l2]; decide +kernel
  have : y' = y := root_unique odd (by rw [eqn_iff.1 h.1, eqn_iff.1 h'.1]) (by rw [h3, h3', d1, d2])
  subst this
  refine ⟨_, _, e, e', _, ?_, h1, h1', h2, h2'⟩
  intro hc
  have := congrArg leToNat hc
  rw [l1, l2] at this
  exact absurd this (by decide +kernel)

end Verif.Native.Pallas
