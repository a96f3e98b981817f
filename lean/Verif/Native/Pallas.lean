import Verif.Native.GroupAlg
import Verif.Native.Jacobian
import Verif.Native.Pasta
import Verif.Native.Curves

/-!
# The Pallas curve (`crypto/core/curves/pallas_curve.go`): group law, multiplication, multi-scalar multiplication, order

Points are stored in Jacobian coordinates over the field `pasta/fp`.  Methods that write into their receiver return the new
value; the receiver's coordinates are read before they are written, as in the code.
-/

set_option maxRecDepth 20000
set_option linter.unusedSectionVars false

namespace Verif.Native.Pallas
open Verif.Bytes Weier

/-- The modulus of the coordinates. -/
abbrev p : Nat := PastaFp.prime
/-- The modulus of the scalars. -/
abbrev q : Nat := PastaFq.prime

/-- The field operations of `pasta/fp`. -/
abbrev A : Arith := PastaFp.arith

/-- `three` (crypto/core/curves/pallas_curve.go:27). -/
def three : L4 := ⟨0x6b0ee5d0fffffff5, 0x86f76d2b99b14bd0, 0xfffffffffffffffe, 0x3fffffffffffffff⟩
/-- `eight` (crypto/core/curves/pallas_curve.go:28). -/
def eight : L4 := ⟨0x7387134cffffffe1, 0xd973797adfadd5a8, 0xfffffffffffffffb, 0x3fffffffffffffff⟩
/-- `b` (crypto/core/curves/pallas_curve.go:26). -/
def b : L4 := Field.setUint64 A 5

/-- `Identity` (crypto/core/curves/pallas_curve.go:731-736). -/
def identity : EP := ⟨Field.zero, Field.zero, Field.zero⟩

/-- `Generator` (crypto/core/curves/pallas_curve.go:738-743). -/
def generator : EP := ⟨Field.one PastaFp.params, ⟨0x2f474795455d409d, 0xb443b9b74b8255d9, 0x270c412f2c9a5d66, 0x8e00f71ba43dd6b⟩,
  Field.one PastaFp.params⟩

/-- `IsIdentity` (crypto/core/curves/pallas_curve.go:745-747). -/
def isIdentity (e : EP) : Bool := Pasta.isZero e.Z

/-- `Double` (crypto/core/curves/pallas_curve.go:749-776). -/
def double (other : EP) : EP :=
  if isIdentity other then other
  else
    let a := A.square other.X
    let b := A.square other.Y
    let c := A.square b
    let rx := A.add other.X b
    let ry := A.square rx
    let rz := A.sub ry a
    let rx := A.sub rz c
    let d := Field.double A rx
    let e := A.mul three a
    let f := A.square e
    let ry := Field.double A d
    let rx := A.sub f ry
    let ry := A.sub d rx
    let f := A.mul eight c
    let rz := A.mul e ry
    let ry := A.sub rz f
    let f := A.mul other.Y other.Z
    let rz := Field.double A f
    ⟨rx, ry, rz⟩

/-- `Neg` (crypto/core/curves/pallas_curve.go:778-783). -/
def neg (other : EP) : EP := ⟨other.X, A.neg other.Y, other.Z⟩

/-- `Add` (crypto/core/curves/pallas_curve.go:785-833). -/
def add (lhs rhs : EP) : EP :=
  if isIdentity lhs then rhs
  else if isIdentity rhs then lhs
  else
    let z1z1 := A.square lhs.Z
    let z2z2 := A.square rhs.Z
    let u1 := A.mul lhs.X z2z2
    let u2 := A.mul rhs.X z1z1
    let s1 := A.mul lhs.Y z2z2
    let s1 := A.mul s1 rhs.Z
    let s2 := A.mul rhs.Y z1z1
    let s2 := A.mul s2 lhs.Z
    if Pasta.equal u1 u2 then
      if Pasta.equal s1 s2 then double lhs else identity
    else
      let h := A.sub u2 u1
      let i := Field.double A h
      let i := A.square i
      let j := A.mul i h
      let r := A.sub s2 s1
      let r := Field.double A r
      let v := A.mul u1 i
      let x3 := A.square r
      let x3 := A.sub x3 j
      let x3 := A.sub x3 (Field.double A v)
      let s1 := A.mul s1 j
      let s1 := Field.double A s1
      let y3 := A.mul r (A.sub v x3)
      let y3 := A.sub y3 s1
      let z3 := A.add lhs.Z rhs.Z
      let z3 := A.square z3
      let z3 := A.sub z3 z1z1
      let z3 := A.sub z3 z2z2
      let z3 := A.mul z3 h
      ⟨x3, y3, z3⟩

/-- `Sub` (crypto/core/curves/pallas_curve.go:835-837). -/
def sub (lhs rhs : EP) : EP := add lhs (neg rhs)

/-- The operations the multiplication loops call. -/
def ops : GOps EP := ⟨identity, add, double⟩

/-- `Mul` (crypto/core/curves/pallas_curve.go:839-858). -/
def mul (point : EP) (scalar : L4) : EP := ops.mulBytes point (Field.bytes PastaFq.arith scalar)

/-- `toAffine` (crypto/core/curves/pallas_curve.go:880-896). -/
def toAffine (e : EP) : EP :=
  if isIdentity e then ⟨Field.zero, Field.zero, Field.one PastaFp.params⟩
  else
    let zInv3 := (Pasta.invert pastaFp e.Z).1
    let zInv2 := A.square zInv3
    let zInv3 := A.mul zInv3 zInv2
    ⟨A.mul e.X zInv2, A.mul e.Y zInv3, Field.one PastaFp.params⟩

/-- `Equal` (crypto/core/curves/pallas_curve.go:860-870). -/
def equal (e other : EP) : Bool :=
  let lhs := toAffine e
  let rhs := toAffine other
  Pasta.equal lhs.X rhs.X && Pasta.equal lhs.Y rhs.Y

/-- `IsOnCurve` (crypto/core/curves/pallas_curve.go:1006-1021). -/
def isOnCurve (e : EP) : Bool :=
  let z2 := A.square e.Z
  let z4 := A.square z2
  let z6 := A.mul z2 z4
  let x2 := A.square e.X
  let x3 := A.mul x2 e.X
  let lhs := A.square e.Y
  let rhs := Field.setUint64 A 5
  let rhs := A.mul rhs z6
  let rhs := A.add rhs x3
  Pasta.isZero e.Z || Pasta.equal lhs rhs

/-- The bucket index of a scalar in window `j` (crypto/core/curves/pallas_curve.go:1050): `Int64` keeps the low 64 bits, and
the mask is applied to them (the scalars are non-negative). -/
def index (s : Nat) (j : Nat) : Nat := 63 &&& ((s >>> (6 * j)) % 2 ^ 64)

/-- The buckets of window `j` (crypto/core/curves/pallas_curve.go:1045-1054). -/
def buckets (l : List (EP × Nat)) (j : Nat) : List EP :=
  l.foldl (fun bs t => if index t.2 j ≠ 0 then ops.put bs (index t.2 j - 1) t.1 else bs) (List.replicate 63 identity)

/-- `sumOfProductsPippengerPallas` (crypto/core/curves/pallas_curve.go:1030-1073); `none` is `nil`. -/
def pippenger (points : List EP) (scalars : List Nat) : Option EP :=
  if points.length ≠ scalars.length then none
  else
    let windows := (List.range' 0 (255 / 6 + 1)).map fun j => (ops.runSum (buckets (points.zip scalars) j)).2
    some (ops.combine 6 windows)

/-- `Ep.SumOfProducts` (crypto/core/curves/pallas_curve.go:982-992) on Pallas scalars. -/
def sumOfProducts (points : List EP) (scalars : List L4) : Option EP :=
  pippenger points (scalars.map fun s => (Field.bigInt PastaFq.arith s).toNat)

/-! ## Meaning -/

/-- The stored coordinates are reduced and are Jacobian coordinates of the point `P` of `y² = x³ + 5` over `ZMod p`. -/
def ERep (e : EP) (P : Pt (0 : ZMod p) ((5 : Nat) : ZMod p)) : Prop :=
  ∃ X Y Z : ZMod p, Rep p e.X X ∧ Rep p e.Y Y ∧ Rep p e.Z Z ∧ JRep 0 ((5 : Nat) : ZMod p) X Y Z P

/-- The group of points of Pallas. -/
abbrev PP := Pt (0 : ZMod p) ((5 : Nat) : ZMod p)

theorem LP : Lawful A PastaFp.params p := PastaFp.lawful
theorem LF : Lawful pastaFp.A pastaFp.P p := PastaFp.lawful
theorem LQ : Lawful PastaFq.arith PastaFq.params q := PastaFq.lawful

theorem rep_three : Rep p three ((3 : Nat) : ZMod p) := rep_of_powMod LP (by decide +kernel) (by decide +kernel)
theorem rep_eight : Rep p eight ((8 : Nat) : ZMod p) := rep_of_powMod LP (by decide +kernel) (by decide +kernel)
theorem rep_b : Rep p (Field.setUint64 A 5) ((5 : Nat) : ZMod p) := C50_setUint64 LP 5

theorem odd : p % 2 = 1 := by decide +kernel
theorem two : (2 : ZMod p) ≠ 0 := two_ne (by decide +kernel)

theorem noTwo : NoTwo (0 : ZMod p) ((5 : Nat) : ZMod p) :=
  noTwo_of_cube (by decide +kernel) (by decide +kernel) (by decide +kernel) (by decide +kernel)

theorem erep_unique {e : EP} {P Q : PP} (hP : ERep e P) (hQ : ERep e Q) : P = Q := by
  obtain ⟨X, Y, Z, hX, hY, hZ, h⟩ := hP
  obtain ⟨X', Y', Z', hX', hY', hZ', h'⟩ := hQ
  obtain rfl := rep_value LP hX hX'
  obtain rfl := rep_value LP hY hY'
  obtain rfl := rep_value LP hZ hZ'
  exact jrep_unique h h'

theorem erep_identity : ERep identity 0 :=
  ⟨0, 0, 0, (C50_constants LP).2, (C50_constants LP).2, (C50_constants LP).2, jrep_zero _ _⟩

theorem isIdentity_iff {e : EP} {Z : ZMod p} (hZ : Rep p e.Z Z) : isIdentity e = true ↔ Z = 0 := (C67_equal LF hZ hZ).2.1

theorem isIdentity_spec {e : EP} {P : PP} (he : ERep e P) : isIdentity e = true ↔ P = 0 := by
  obtain ⟨X, Y, Z, hX, hY, hZ, h⟩ := he
  exact (isIdentity_iff hZ).trans (jrep_isZero h)

theorem double_spec {e : EP} {P : PP} (he : ERep e P) : ERep (double e) (P + P) := by
  by_cases h0 : isIdentity e = true
  · have hP := (isIdentity_spec he).1 h0
    subst hP
    unfold double
    rw [if_pos h0, add_zero]
    exact he
  obtain ⟨X, Y, Z, hX, hY, hZ, h⟩ := he
  have hz : Z ≠ 0 := fun hz => h0 ((isIdentity_iff hZ).2 hz)
  unfold double
  rw [if_neg h0]
  have ha := C50_square LP hX
  have hb := C50_square LP hY
  have hc := C50_square LP hb
  have h1 := C50_add LP hX hb
  have h2 := C50_square LP h1
  have h3 := C50_sub LP h2 ha
  have h4 := C50_sub LP h3 hc
  have hd := C50_double LP h4
  have hee := C50_mul LP rep_three ha
  have hf := C50_square LP hee
  have h5 := C50_double LP hd
  have h6 := C50_sub LP hf h5
  have h7 := C50_sub LP hd h6
  have h8 := C50_mul LP rep_eight hc
  have h9 := C50_mul LP hee h7
  have h10 := C50_sub LP h9 h8
  have h11 := C50_mul LP hY hZ
  have h12 := C50_double LP h11
  refine ⟨_, _, _, h6, h10, h12, jdouble_spec two noTwo h hz ?_ ?_ ?_⟩
  · push_cast; ring
  · push_cast; ring
  · ring

theorem add_spec {e f : EP} {P Q : PP} (he : ERep e P) (hf : ERep f Q) : ERep (add e f) (P + Q) := by
  by_cases h0 : isIdentity e = true
  · have hP := (isIdentity_spec he).1 h0
    subst hP
    unfold add
    rw [if_pos h0, zero_add]
    exact hf
  by_cases h0' : isIdentity f = true
  · have hQ := (isIdentity_spec hf).1 h0'
    subst hQ
    unfold add
    rw [if_neg h0, if_pos h0', add_zero]
    exact he
  have hdbl := double_spec he
  obtain ⟨X1, Y1, Z1, hX1, hY1, hZ1, j1⟩ := he
  obtain ⟨X2, Y2, Z2, hX2, hY2, hZ2, j2⟩ := hf
  have z1 : Z1 ≠ 0 := fun hz => h0 ((isIdentity_iff hZ1).2 hz)
  have z2 : Z2 ≠ 0 := fun hz => h0' ((isIdentity_iff hZ2).2 hz)
  have zz1 := C50_square LP hZ1
  have zz2 := C50_square LP hZ2
  have u1 := C50_mul LP hX1 zz2
  have u2 := C50_mul LP hX2 zz1
  have s1 := C50_mul LP (C50_mul LP hY1 zz2) hZ2
  have s2 := C50_mul LP (C50_mul LP hY2 zz1) hZ1
  have eu := (C67_equal LF u1 u2).1
  have es := (C67_equal LF s1 s2).1
  unfold add
  rw [if_neg h0, if_neg h0']
  dsimp only
  split
  · next hu =>
    have hu' := eu.1 hu
    rcases j1 with ⟨zz, _⟩ | ⟨-, x1, y1, n1, rfl, hx1, hy1⟩
    · exact absurd zz z1
    rcases j2 with ⟨zz, _⟩ | ⟨-, x2, y2, n2, rfl, hx2, hy2⟩
    · exact absurd zz z2
    have hx : x1 = x2 := by
      rw [hx1, hx2] at hu'
      have : x1 * (Z1 ^ 2 * Z2 ^ 2) = x2 * (Z1 ^ 2 * Z2 ^ 2) := by linear_combination hu'
      exact mul_right_cancel₀ (mul_ne_zero (pow_ne_zero 2 z1) (pow_ne_zero 2 z2)) this
    subst hx
    have hyy : Y1 * (Z2 * Z2) * Z2 = Y2 * (Z1 * Z1) * Z1 ↔ y1 = y2 := by
      rw [hy1, hy2]
      constructor
      · intro h
        have : y1 * (Z1 ^ 3 * Z2 ^ 3) = y2 * (Z1 ^ 3 * Z2 ^ 3) := by linear_combination h
        exact mul_right_cancel₀ (mul_ne_zero (pow_ne_zero 3 z1) (pow_ne_zero 3 z2)) this
      · rintro rfl
        ring
    split
    · next hs =>
      have := hyy.1 (es.1 hs)
      subst this
      exact hdbl
    · next hs =>
      have hne : y1 ≠ y2 := fun h => hs (es.2 (hyy.2 h))
      have e1 := eqn_iff.1 n1.1
      have e2 := eqn_iff.1 n2.1
      have : (y1 - y2) * (y1 + y2) = 0 := by linear_combination e1 - e2
      rcases mul_eq_zero.1 this with h | h
      · exact absurd (sub_eq_zero.1 h) hne
      · have hy : y1 = -y2 := eq_neg_of_add_eq_zero_left h
        subst hy
        rw [WeierstrassCurve.Affine.Point.add_of_Y_eq rfl (by rw [negY_eq])]
        exact erep_identity
  · next hu =>
    have hne : X1 * Z2 ^ 2 ≠ X2 * Z1 ^ 2 := fun h => hu (eu.2 (by linear_combination h))
    have hh := C50_sub LP u2 u1
    have hi := C50_square LP (C50_double LP hh)
    have hj := C50_mul LP hi hh
    have hr := C50_double LP (C50_sub LP s2 s1)
    have hv := C50_mul LP u1 hi
    have hx3 := C50_sub LP (C50_sub LP (C50_square LP hr) hj) (C50_double LP hv)
    have hs1 := C50_double LP (C50_mul LP s1 hj)
    have hy3 := C50_sub LP (C50_mul LP hr (C50_sub LP hv hx3)) hs1
    have hz3 := C50_mul LP (C50_sub LP (C50_sub LP (C50_square LP (C50_add LP hZ1 hZ2)) zz1) zz2) hh
    refine ⟨_, _, _, hx3, hy3, hz3, jadd_spec j1 j2 z1 z2 two hne rfl rfl ?_ ?_ ?_⟩ <;> ring

theorem neg_spec {e : EP} {P : PP} (he : ERep e P) : ERep (neg e) (-P) := by
  obtain ⟨X, Y, Z, hX, hY, hZ, h⟩ := he
  exact ⟨_, _, _, hX, C50_neg LP hY, hZ, jneg_spec h⟩

/-- The operations implement the group. -/
theorem opsOK : GOK ops ERep := ⟨erep_identity, add_spec, double_spec⟩

/-- The affine coordinates the code computes. -/
theorem toAffine_spec {e : EP} {P : PP} (he : ERep e P) :
    (P = 0 → Rep p (toAffine e).X 0 ∧ Rep p (toAffine e).Y 0 ∧ Rep p (toAffine e).Z 1) ∧
    (∀ x y h, P = .some x y h → Rep p (toAffine e).X x ∧ Rep p (toAffine e).Y y ∧ Rep p (toAffine e).Z 1) := by
  have hid := isIdentity_spec he
  constructor
  · intro h0
    unfold toAffine
    rw [if_pos (hid.2 h0)]
    exact ⟨(C50_constants LP).2, (C50_constants LP).2, (C50_constants LP).1⟩
  · rintro x y h rfl
    obtain ⟨X, Y, Z, hX, hY, hZ, j⟩ := he
    have hn : ¬ isIdentity e = true := fun hc => WeierstrassCurve.Affine.Point.some_ne_zero _ (hid.1 hc)
    rcases j with ⟨_, hc⟩ | ⟨z, x', y', h', e', hx, hy⟩
    · exact absurd hc (WeierstrassCurve.Affine.Point.some_ne_zero _)
    · injection e' with ex ey
      subst ex ey
      unfold toAffine
      rw [if_neg hn]
      have hi := (C67_invert LF C67_instances.2.2.2.2.1 (by decide +kernel) hZ).1
      have h2 := C50_square LP hi
      have h3 := C50_mul LP hi h2
      have a1 := C50_mul LP hX h2
      have a2 := C50_mul LP hY h3
      refine ⟨?_, ?_, (C50_constants LP).1⟩
      · convert a1 using 1
        rw [hx]; field_simp
      · convert a2 using 1
        rw [hy]; field_simp

/-! ## The group law -/

/-- **C82.** `Add`, `Double`, `Neg`, `Sub`, `Identity` and `IsIdentity` are those of the group of points of `y² = x³ + 5`, for
all stored representations, including equal, opposite and neutral arguments. -/
theorem C82_group {e f : EP} {P Q : PP} (he : ERep e P) (hf : ERep f Q) :
    ERep (add e f) (P + Q) ∧ ERep (double e) (P + P) ∧ ERep (neg e) (-P) ∧ ERep (sub e f) (P - Q) ∧ ERep identity 0 ∧
    (isIdentity e = true ↔ P = 0) := by
  refine ⟨add_spec he hf, double_spec he, neg_spec he, ?_, erep_identity, isIdentity_spec he⟩
  rw [sub_eq_add_neg]
  exact add_spec he (neg_spec hf)

/-- No affine point has both coordinates zero, so the coordinates of the neutral element are unambiguous. -/
theorem ne_origin {x y : ZMod p} (h : (curve (0 : ZMod p) ((5 : Nat) : ZMod p)).Nonsingular x y) : y ≠ 0 :=
  y_ne_zero noTwo (eqn_iff.1 h.1)

/-- **C82.** `Equal` decides equality of points. -/
theorem C82_equal {e f : EP} {P Q : PP} (he : ERep e P) (hf : ERep f Q) : equal e f = true ↔ P = Q := by
  unfold equal
  dsimp only
  rw [Bool.and_eq_true]
  have a1 := toAffine_spec he
  have a2 := toAffine_spec hf
  cases P with
  | zero =>
    obtain ⟨hx, hy, _⟩ := a1.1 rfl
    cases Q with
    | zero =>
      obtain ⟨hx', hy', _⟩ := a2.1 rfl
      rw [(C67_equal LF hx hx').1, (C67_equal LF hy hy').1]
      simp
    | some x' y' h' =>
      obtain ⟨hx', hy', _⟩ := a2.2 _ _ _ rfl
      rw [(C67_equal LF hx hx').1, (C67_equal LF hy hy').1]
      exact ⟨fun h => absurd h.2.symm (ne_origin h'), fun h => absurd h.symm (WeierstrassCurve.Affine.Point.some_ne_zero _)⟩
  | some x y h =>
    obtain ⟨hx, hy, _⟩ := a1.2 _ _ _ rfl
    cases Q with
    | zero =>
      obtain ⟨hx', hy', _⟩ := a2.1 rfl
      rw [(C67_equal LF hx hx').1, (C67_equal LF hy hy').1]
      exact ⟨fun hc => absurd hc.2 (ne_origin h), fun hc => absurd hc (WeierstrassCurve.Affine.Point.some_ne_zero _)⟩
    | some x' y' h' =>
      obtain ⟨hx', hy', _⟩ := a2.2 _ _ _ rfl
      rw [(C67_equal LF hx hx').1, (C67_equal LF hy hy').1]
      constructor
      · rintro ⟨rfl, rfl⟩; rfl
      · intro hc
        injection hc with ex ey
        exact ⟨ex, ey⟩

/-- **C82.** `Mul` returns the multiple by the integer the scalar stands for, for every point and every scalar. -/
theorem C82_mul {e : EP} {P : PP} (he : ERep e P) {s : L4} {k : ZMod q} (hs : Rep q s k) : ERep (mul e s) (k.val • P) := by
  unfold mul
  rw [C50_bytes LQ hs]
  exact gmulBytes_spec opsOK he _ (lt_trans (ZMod.val_lt k) LQ.lt)

theorem index_spec (s j : Nat) : index s j = s / 2 ^ (6 * j) % 2 ^ 6 := by
  unfold index
  have h63 : (63 : Nat) = 2 ^ 6 - 1 := rfl
  rw [Nat.and_comm, h63, Nat.and_two_pow_sub_one_eq_mod, Nat.shiftRight_eq_div_pow,
    Nat.mod_mod_of_dvd _ (by decide : 2 ^ 6 ∣ 2 ^ 64)]

theorem buckets_spec (j : Nat) (l : List (EP × PP × Nat)) (hl : ∀ t ∈ l, ERep t.1 t.2.1) :
    ∃ Bs, List.Forall₂ ERep (buckets (l.map fun t => (t.1, t.2.2)) j) Bs ∧
      wsum Bs = (l.map fun t => (t.2.2 / 2 ^ (6 * j) % 2 ^ 6) • t.2.1).sum := by
  have gen : ∀ (l : List (EP × PP × Nat)), (∀ t ∈ l, ERep t.1 t.2.1) → ∀ (bs : List EP) (Bs : List PP), bs.length = 63 →
      List.Forall₂ ERep bs Bs →
      ∃ Bs', List.Forall₂ ERep ((l.map fun t => (t.1, t.2.2)).foldl
        (fun bs t => if index t.2 j ≠ 0 then ops.put bs (index t.2 j - 1) t.1 else bs) bs) Bs' ∧
        wsum Bs' = wsum Bs + (l.map fun t => (t.2.2 / 2 ^ (6 * j) % 2 ^ 6) • t.2.1).sum := by
    intro l
    induction l with
    | nil => intro _ bs Bs _ h; exact ⟨Bs, h, by rw [List.map_nil, List.sum_nil, add_zero]⟩
    | cons t l ih =>
      intro hl bs Bs hlen h
      have ht := hl t (List.mem_cons_self ..)
      have hl' := fun t h => hl t (List.mem_cons_of_mem _ h)
      rw [List.map_cons, List.foldl_cons, List.map_cons, List.sum_cons]
      have hi := index_spec t.2.2 j
      rw [← hi]
      have hlt : index t.2.2 j < 64 := by rw [hi]; exact Nat.mod_lt _ (by decide)
      dsimp only
      by_cases h0 : index t.2.2 j = 0
      · rw [if_neg (not_not.2 h0), h0, zero_nsmul, zero_add]
        exact ih hl' bs Bs hlen h
      · rw [if_pos h0]
        obtain ⟨Bs1, h1, h2, _⟩ := put_spec opsOK h (i := index t.2.2 j - 1) (by rw [hlen]; omega) ht
        obtain ⟨Bs', h3, h4⟩ := ih hl' _ _ (by rw [put_length, hlen]) h1
        refine ⟨Bs', h3, ?_⟩
        rw [h4, h2, Nat.sub_add_cancel (by omega), add_assoc]
  obtain ⟨Bs, h1, h2⟩ := gen l hl _ _ (List.length_replicate ..) (replicate_zero (O := ops) 63 erep_identity)
  exact ⟨Bs, h1, by rw [h2, wsum_zero, zero_add]⟩

theorem pippenger_spec (l : List (EP × PP × Nat)) (hl : ∀ t ∈ l, ERep t.1 t.2.1 ∧ t.2.2 < 2 ^ (6 * 43)) :
    ∃ e, pippenger (l.map (·.1)) (l.map (·.2.2)) = some e ∧ ERep e ((l.map fun t => t.2.2 • t.2.1).sum) := by
  unfold pippenger
  rw [if_neg (by simp)]
  refine ⟨_, rfl, ?_⟩
  have hz : (l.map (·.1)).zip (l.map fun t => t.2.2) = l.map (fun t => (t.1, t.2.2)) := List.zip_map'
  rw [hz]
  have key := combine_spec opsOK 6 (l.map fun t => t.2) (fun j => (ops.runSum (buckets (l.map (fun t => (t.1, t.2.2))) j)).2) 43 0
    (fun j _ _ => by
      obtain ⟨Bs, h1, h2⟩ := buckets_spec j l (fun t ht => (hl t ht).1)
      have := (runSum_spec opsOK h1).2
      rw [h2] at this
      rw [List.map_map]
      exact this)
  rw [List.map_map] at key
  have he : (l.map fun t => t.2.2 • t.2.1) =
      l.map ((fun t : PP × Nat => (t.2 / 2 ^ (6 * 0) % 2 ^ (6 * 43)) • t.1) ∘ fun t => t.2) := by
    refine List.map_congr_left fun t ht => ?_
    simp only [Function.comp_apply]
    rw [Nat.mul_zero, pow_zero, Nat.div_one, Nat.mod_eq_of_lt]
    exact (hl t ht).2
  rw [he]
  exact key

set_option exponentiation.threshold 300 in
theorem q_lt : q < 2 ^ (6 * 43) :=
  lt_trans (b := 2 ^ 256) (by decide +kernel) (Nat.pow_lt_pow_right (m := 256) (n := 6 * 43) one_lt_two (by decide))

theorem bigInt_toNat {A : Arith} {P : Params} {p : Nat} (L : Lawful A P p) [NeZero p] {a : L4} {x : ZMod p} (h : Rep p a x) :
    (Field.bigInt A a).toNat = x.val := by
  rw [C50_bigInt L h, Int.toNat_natCast]

theorem scalars_spec {A : Arith} {P : Params} {p : Nat} (L : Lawful A P p) [NeZero p] {α : Type} (f : α → L4)
    (g : α → ZMod p) (l : List α) (hl : ∀ t ∈ l, Rep p (f t) (g t)) :
    (l.map f).map (fun s => (Field.bigInt A s).toNat) = l.map (fun t => (g t).val) := by
  rw [List.map_map]
  refine List.map_congr_left fun t ht => ?_
  rw [Function.comp_apply]
  exact bigInt_toNat L (hl t ht)

/-- **C82.** `SumOfProducts` returns `Σ kᵢ Pᵢ` for any number of points and scalars, and `nil` exactly when the lengths
differ. -/
theorem C82_sumOfProducts (l : List (EP × PP × L4 × ZMod q)) (hl : ∀ t ∈ l, ERep t.1 t.2.1 ∧ Rep q t.2.2.1 t.2.2.2) :
    (∃ e, sumOfProducts (l.map (·.1)) (l.map (·.2.2.1)) = some e ∧ ERep e ((l.map fun t => t.2.2.2.val • t.2.1).sum)) ∧
    (∀ (points : List EP) (scalars : List L4), sumOfProducts points scalars = none ↔ points.length ≠ scalars.length) := by
  constructor
  · unfold sumOfProducts
    have hs := scalars_spec LQ (fun t => t.2.2.1) (fun t => t.2.2.2) l (fun t h => (hl t h).2)
    rw [hs]
    have key := pippenger_spec (l.map fun t => (t.1, t.2.1, t.2.2.2.val)) (fun t ht => by
      obtain ⟨u, hu, rfl⟩ := List.mem_map.1 ht
      exact ⟨(hl u hu).1, lt_trans (ZMod.val_lt u.2.2.2) q_lt⟩)
    simp only [List.map_map, Function.comp_def] at key
    exact key
  · intro points scalars
    unfold sumOfProducts pippenger
    rw [List.length_map]
    by_cases h : points.length = scalars.length
    · rw [if_neg (by simpa using h)]; simp [h]
    · rw [if_pos h]; simp [h]

theorem jeqn_iff {F : Type} [Field F] (X Y Z c : F) :
    Y * Y = c * (Z * Z * (Z * Z * (Z * Z))) + X * X * X ↔ Y ^ 2 = X ^ 3 + 0 * X * Z ^ 4 + c * Z ^ 6 := by
  constructor <;> intro h <;> linear_combination h

/-- **C82.** `IsOnCurve` is true exactly of the triples that represent a point. -/
theorem C82_isOnCurve {e : EP} {X Y Z : ZMod p} (hX : Rep p e.X X) (hY : Rep p e.Y Y) (hZ : Rep p e.Z Z) :
    isOnCurve e = true ↔ ∃ P : PP, ERep e P := by
  have h2 := C50_square LP hZ
  have h6 := C50_mul LP h2 (C50_square LP h2)
  have h3 := C50_mul LP (C50_square LP hX) hX
  have hl := C50_square LP hY
  have hr := C50_add LP (C50_mul LP rep_b h6) h3
  have : isOnCurve e = true ↔ Z = 0 ∨ Y ^ 2 = X ^ 3 + 0 * X * Z ^ 4 + ((5 : Nat) : ZMod p) * Z ^ 6 := by
    unfold isOnCurve
    dsimp only
    rw [Bool.or_eq_true, (C67_equal LF hZ hZ).2.1, (C67_equal LF hl hr).1]
    exact or_congr Iff.rfl (jeqn_iff X Y Z _)
  rw [this]
  constructor
  · intro h
    by_cases hz : Z = 0
    · subst hz
      exact ⟨0, X, Y, 0, hX, hY, hZ, jrep_zero _ _⟩
    · obtain ⟨P, hP⟩ := jrep_of_eqn two noTwo hz (h.resolve_left hz)
      exact ⟨P, X, Y, Z, hX, hY, hZ, hP⟩
  · rintro ⟨P, X', Y', Z', hX', hY', hZ', hP⟩
    obtain rfl := rep_value LP hX hX'
    obtain rfl := rep_value LP hY hY'
    obtain rfl := rep_value LP hZ hZ'
    by_cases hz : Z = 0
    · exact Or.inl hz
    · exact Or.inr (jrep_eqn hP hz)

/-! ## The order -/

/-- Ordinate of the base point with abscissa 1. -/
def gy : Nat := 12418654782883325593414442427049395787963493412651469444558597405572177144507

theorem on_curve : ((gy : Nat) : ZMod p) ^ 2 = ((1 : Nat) : ZMod p) ^ 3 + 0 * ((1 : Nat) : ZMod p) + ((5 : Nat) : ZMod p) := by
  have h : (gy ^ 2) % p = (1 ^ 3 + 5) % p := by decide +kernel
  have := (ZMod.natCast_eq_natCast_iff _ _ _).2 h
  rw [Nat.cast_pow, Nat.cast_add, Nat.cast_pow] at this
  rw [zero_mul, add_zero]
  exact this

/-- The base point of Pallas. -/
def G : PP := .some _ _ (nonsing two noTwo on_curve)

/-- **C83.** `Generator` is the base point `(1, gy)`. -/
theorem C83_generator : ERep generator G := by
  have h1 := (C50_constants LP).1
  refine ⟨1, (gy : ZMod p), 1, h1, rep_of_powMod LP (by decide +kernel) (by decide +kernel), h1, Or.inr ⟨one_ne_zero, _, _, _, rfl, ?_, ?_⟩⟩
  · rw [Nat.cast_one]; ring
  · ring

theorem order_G : q • G = 0 :=
  order_of_eval' 0 5 Nat.cast_zero rfl odd noTwo (by decide +kernel) (by decide +kernel)

/-- **C83.** Pallas has exactly `q` points, `q` the (prime) modulus of the scalar field: every point is a multiple of the
generator, is annihilated by `q`, and two scalars give the same multiple of a non-neutral point exactly when they are equal. -/
theorem C83_order :
    Nat.card PP = q ∧ (∀ P : PP, q • P = 0) ∧ (∀ P : PP, ∃ k : Nat, k < q ∧ P = k • G) ∧
    (∀ (P : PP) (i j : Nat), P ≠ 0 → (i • P = j • P ↔ i % q = j % q)) :=
  ⟨card_eq odd noTwo Fact.out (by decide +kernel) order_G (WeierstrassCurve.Affine.Point.some_ne_zero _),
    prime_order odd noTwo Fact.out (by decide +kernel) order_G (WeierstrassCurve.Affine.Point.some_ne_zero _)⟩

/-- **C83.** On the API: the multiples of a non-neutral point by two scalars are `Equal` exactly when the scalars are. -/
theorem C83_mul_injective {e : EP} {P : PP} (he : ERep e P) (h0 : isIdentity e = false) {s t : L4} {k l : ZMod q}
    (hs : Rep q s k) (ht : Rep q t l) : equal (mul e s) (mul e t) = true ↔ Pasta.equal s t = true := by
  have hP : P ≠ 0 := fun h => by rw [(isIdentity_spec he).2 h] at h0; exact absurd h0 (by decide)
  have hk := ZMod.val_lt k
  have hl := ZMod.val_lt l
  rw [C82_equal (C82_mul he hs) (C82_mul he ht), C83_order.2.2.2 P _ _ hP,
    (C67_equal (F := pastaFq) PastaFq.lawful hs ht).1, Nat.mod_eq_of_lt hk, Nat.mod_eq_of_lt hl]
  exact (ZMod.val_injective q).eq_iff

end Verif.Native.Pallas
