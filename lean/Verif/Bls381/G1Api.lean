import Verif.Bls381.G1Order
import Verif.Bls381.Wire

/-!
# G1 (crypto/core/curves/native/bls12381/g1.go): the properties

`Random` and `Hash` are in `G1Hash.lean`.
-/

set_option maxRecDepth 20000
set_option linter.unusedSectionVars false

namespace Verif.Bls381.G1
open Verif.Bytes Verif.Native Verif.Native.Weier P3

/-- `Generator` (crypto/core/curves/native/bls12381/g1.go:588-593). -/
def generator : Point := ⟨g1x, g1y, Fp.one⟩

/-- `Mul` (crypto/core/curves/native/bls12381/g1.go:708-711). -/
def mul (a : Point) (s : L4) : Point := multiply F a (Field.bytes Fq.impl.A s)

/-- `ClearCofactor` (crypto/core/curves/native/bls12381/g1.go:753-757). -/
def clearCofactor (a : Point) : Point :=
  let t := mulByX F a
  P3.sub F a t

/-- `BigInt` (crypto/core/curves/native/bls12381/g1.go:775-781). -/
def bigInt (g1 : Point) : Int × Int :=
  let t := toAffine F g1
  (Fp.bigInt t.x, Fp.bigInt t.y)

/-- `SetBigInt` (crypto/core/curves/native/bls12381/g1.go:785-803); the inner `none` is the error. -/
def setBigInt (x y : Int) : Res (Option Point) := do
  let xx ← Fp.setBigInt Fp.zero x
  let yy ← Fp.setBigInt Fp.zero y
  if Fp.isZero xx &&& Fp.isZero yy = 1 then return some (identity F)
  else
    let pp : Point := ⟨xx, yy, Fp.one⟩
    if (isOnCurve F pp &&& inCorrectSubgroup F pp) ||| (Fp.isZero xx &&& Fp.isZero yy) = 0 then return none
    else return some pp

/-- `GetX` (crypto/core/curves/native/bls12381/g1.go:934-938). -/
def getX (g1 : Point) : L6 := (toAffine F g1).x

/-- `GetY` (crypto/core/curves/native/bls12381/g1.go:941-945). -/
def getY (g1 : Point) : L6 := (toAffine F g1).y

/-- How G1 writes and reads a coordinate: `Bytes` and `SetBytes` with the bytes reversed, as in `ToCompressed` and `FromCompressed`
(crypto/core/curves/native/bls12381/g1.go:810-811, crypto/core/curves/native/bls12381/g1.go:840-847). -/
def codec : COps L6 where
  fo := F
  size := 48
  enc := fun a => (Fp.bytes a).reverse
  dec := fun l =>
    let r := Fp.setBytes Fp.zero l.reverse
    if r.2 = 1 then some r.1 else none

/-- The sign rule: the ordinate is the larger of itself and its negative. -/
abbrev Large (y : ZMod Fp.p) : Prop := (-y).val < y.val

theorem large_neg {x : ZMod Fp.p} (hx : x ≠ 0) : Large (-x) ↔ ¬ Large x := by
  unfold Large
  rw [neg_neg]
  have hne : (-x).val ≠ x.val := by
    intro h
    have e : -x = x := ZMod.val_injective _ h
    have : (2 : ZMod Fp.p) * x = 0 := by linear_combination -e
    exact (mul_ne_zero (two_ne (by decide +kernel)) hx) this
  omega

theorem enc_head_byte (v : Nat) (hv : v < Fp.p) : (natToLE 48 v).reverse.headD 0 &&& 0x1F = (natToLE 48 v).reverse.headD 0 := by
  rw [show (48 : Nat) = 47 + 1 from rfl, Fp.natToLE_add, List.reverse_append]
  have h32 : v / 256 ^ 47 < 32 := by
    have : v < 32 * 256 ^ 47 := lt_trans hv (by decide +kernel)
    exact (Nat.div_lt_iff_lt_mul (by positivity)).2 this
  generalize v / 256 ^ 47 = w at h32
  have : (natToLE 1 w).reverse = [UInt8.ofNat w] := rfl
  rw [this]
  change UInt8.ofNat w &&& 0x1F = UInt8.ofNat w
  have key : ∀ n : Fin 32, UInt8.ofNat n.val &&& 0x1F = UInt8.ofNat n.val := by decide +kernel
  exact key ⟨w, h32⟩

theorem COk : COK codec Fp.Rep ((4 : Nat) : ZMod Fp.p) Large where
  toFOK := FOk
  size := by decide
  enc_length := fun h => by
    change (Fp.bytes _).reverse.length = 48
    rw [List.length_reverse, Fp.bytes_spec h, length_natToLE]
  enc_head := fun {a x} h => by
    change (Fp.bytes a).reverse.headD 0 &&& 0x1F = (Fp.bytes a).reverse.headD 0
    rw [Fp.bytes_spec h]
    exact enc_head_byte _ (ZMod.val_lt x)
  dec_enc := fun {a x} h => by
    change (if (Fp.setBytes Fp.zero (Fp.bytes a).reverse.reverse).2 = 1 then some (Fp.setBytes Fp.zero (Fp.bytes a).reverse.reverse).1
      else none) = some a
    rw [List.reverse_reverse, Fp.bytes_roundtrip h, if_pos rfl]
  dec_some := fun {l a} hl h => by
    change (if (Fp.setBytes Fp.zero l.reverse).2 = 1 then some (Fp.setBytes Fp.zero l.reverse).1 else none) = some a at h
    have hl' : l.reverse.length = 48 := by rw [List.length_reverse]; exact hl
    by_cases hv : leToNat l.reverse < Fp.p
    · have hb := (Fp.C89_bytes Fp.zero_spec Fp.zero l.reverse hl').2.2.2.1 hv
      rw [if_pos hb.2.1] at h
      obtain rfl := Option.some.inj h
      refine ⟨⟨_, hb.1⟩, ?_⟩
      change (Fp.bytes _).reverse = l
      rw [hb.2.2, List.reverse_reverse]
    · rw [(Fp.C89_bytes Fp.zero_spec Fp.zero l.reverse hl').2.2.2.2 (by omega), if_neg (by decide)] at h
      cases h
  sqrt := fun {a x} h => by
    have := Fp.C89_sqrt a h
    exact ⟨this.1, fun hn => congrArg Prod.snd (this.2 hn)⟩
  lex := Fp.lexLargest_spec
  sign := large_neg

theorem sub_spec' {e : Point} {P : PP} (he : Rep e P) : inCorrectSubgroup F e = if Fq.q • P = 0 then 1 else 0 :=
  inCorrectSubgroup_spec COk he

theorem generator_rep : Rep generator G :=
  ⟨_, _, 1, Fp6.rep_check g1x 0x17f1d3a73197d7942695638c4fa9ac0fc3688c4f9774b905a14e3a3f171bac586c55e83ff97a1aeffb3af00adb22c6bb (by decide +kernel),
    Fp6.rep_check g1y 0x8b3f481e3aaa0f1a09e30ed741d8ae4fcf5e095d5d00af600db18cb2c04b3edd03cc744a2888ae40caa232946c5e7e1 (by decide +kernel),
    Fp.one_spec, Or.inr ⟨one_ne_zero, _, _, _, rfl, (mul_one _).symm, (mul_one _).symm⟩, fun h => absurd h one_ne_zero⟩

/-! ## The group -/

/-- **C94** the functions on stored points compute the group law of the curve, on every input, doubled and opposite points and the
neutral element included -/
theorem C94_group_law {e f : Point} {P Q : PP} (he : Rep e P) (hf : Rep f Q) :
    Rep (P3.add F e f) (P + Q) ∧ Rep (P3.sub F e f) (P - Q) ∧ Rep (P3.double F e) (P + P) ∧ Rep (P3.neg F e) (-P) ∧
      Rep (identity F) 0 ∧ (isIdentity F e = 1 ↔ P = 0) ∧ (P3.equal F e f = 1 ↔ P = Q) := by
  refine ⟨P3.add_spec FOk he hf, P3.sub_spec FOk he hf, P3.double_spec FOk he, P3.neg_spec FOk he, identity_spec FOk, ?_, ?_⟩
  · rw [isIdentity_spec FOk he, flag_iff]
  · rw [P3.equal_spec FOk he hf, flag_iff]

/-- **C94** `Mul` and `MulByX` compute the multiple -/
theorem C94_mul {e : Point} {P : PP} (he : Rep e P) {s : L4} {k : ZMod Fq.q} (hs : Native.Rep Fq.q s k) :
    Rep (mul e s) (k.val • P) ∧ Rep (mulByX F e) (-((0xd201000000010000 : Nat) • P)) := by
  refine ⟨?_, mulByX_spec FOk he⟩
  unfold mul
  rw [Fq.bytes_eq, C50_bytes (A := Fq.implFix.A) Fq.lawful hs]
  exact multiply_spec FOk he k.val (lt_of_lt_of_le (ZMod.val_lt k) (show Fq.q ≤ 2 ^ 256 by decide +kernel))

/-- **C94** `SumOfProducts` computes the sum of the products, for any number of points, and refuses exactly lists of different lengths -/
theorem C94_sum_of_products (l : List (Point × PP × L4 × ZMod Fq.q)) (hl : ∀ t ∈ l, Rep t.1 t.2.1 ∧ Native.Rep Fq.q t.2.2.1 t.2.2.2) :
    (∃ e, sumOfProducts F (l.map (·.1)) (l.map fun t => Field.bytes Fq.impl.A t.2.2.1) = some e ∧
      Rep e ((l.map fun t => t.2.2.2.val • t.2.1).sum)) ∧
    ∀ (points : List Point) (scalars : List (List UInt8)), sumOfProducts F points scalars = none ↔ points.length ≠ scalars.length := by
  refine ⟨?_, sumOfProducts_none⟩
  obtain ⟨e, h1, h2⟩ := sumOfProducts_spec FOk (l.map fun t => (t.1, t.2.1, t.2.2.2.val)) (fun t ht => by
    obtain ⟨u, hu, rfl⟩ := List.mem_map.1 ht
    exact ⟨(hl u hu).1, (show u.2.2.2.val < 2 ^ 256 from lt_of_lt_of_le (ZMod.val_lt _) (show Fq.q ≤ 2 ^ 256 by decide +kernel))⟩)
  refine ⟨e, ?_, ?_⟩
  · rw [List.map_map, List.map_map] at h1
    rw [← h1]
    congr 1
    refine List.map_congr_left fun t ht => ?_
    rw [Fq.bytes_eq, C50_bytes (A := Fq.implFix.A) Fq.lawful (hl t ht).2]
    rfl
  · rw [List.map_map] at h2
    exact h2

/-- **C94** the curve has `h q` points with `q` the prime order of the scalar field; the generator has order `q`; the points killed by
`q` are exactly the multiples of the generator; two scalars give the same multiple of a point of the subgroup, other than the neutral
element, exactly when they are equal modulo `q` -/
theorem C94_order :
    Nat.card PP = h1 * Fq.q ∧ addOrderOf G = Fq.q ∧ (∀ P : PP, Fq.q • P = 0 ↔ ∃ k : Nat, k < Fq.q ∧ P = k • G) ∧
      (∀ (P : PP) (i j : Nat), Fq.q • P = 0 → P ≠ 0 → (i • P = j • P ↔ i % Fq.q = j % Fq.q)) := by
  refine ⟨card, addOrder_G, fun P => ⟨torsion, ?_⟩, fun P i j h h0 => ?_⟩
  · rintro ⟨k, -, rfl⟩
    rw [← mul_nsmul, Nat.mul_comm, mul_nsmul, order_G, nsmul_zero]
  · have ho : addOrderOf P = Fq.q := addOrderOf_eq_prime h h0
    rw [nsmul_eq_nsmul_iff_modEq, ho]
    rfl

/-- **C94** `InCorrectSubgroup` accepts a point of the curve exactly if it is a multiple of the generator; the generator is accepted -/
theorem C94_subgroup {e : Point} {P : PP} (he : Rep e P) :
    (inCorrectSubgroup F e = 1 ↔ ∃ k : Nat, k < Fq.q ∧ P = k • G) ∧ Rep generator G ∧ inCorrectSubgroup F generator = 1 := by
  refine ⟨?_, generator_rep, ?_⟩
  · rw [sub_spec' he, flag_iff]
    exact C94_order.2.2.1 P
  · rw [sub_spec' generator_rep, if_pos order_G]

/-- **C94** `ClearCofactor` multiplies by `1 - x` and takes every point of the curve into the subgroup; on the subgroup it loses nothing -/
theorem C94_clear_cofactor {e : Point} {P : PP} (he : Rep e P) :
    Rep (clearCofactor e) (c1 • P) ∧ inCorrectSubgroup F (clearCofactor e) = 1 ∧ (Fq.q • P = 0 → P ≠ 0 → c1 • P ≠ 0) := by
  have h : Rep (clearCofactor e) (c1 • P) := by
    have := P3.sub_spec FOk he (mulByX_spec FOk he)
    rw [sub_neg_eq_add] at this
    rw [show c1 = 1 + 0xd201000000010000 from rfl, add_nsmul, one_nsmul]
    exact this
  have hq : Fq.q • c1 • P = 0 := by rw [← mul_nsmul]; exact exponent P
  refine ⟨h, by rw [sub_spec' h, if_pos hq], fun h1 h0 hc => ?_⟩
  have ho : addOrderOf P = Fq.q := addOrderOf_eq_prime h1 h0
  have hd := addOrderOf_dvd_of_nsmul_eq_zero hc
  rw [ho] at hd
  exact absurd hd (by decide +kernel)

/-- **C94** `IsOnCurve` accepts exactly the coordinates of points, and besides them three zeros -/
theorem C94_on_curve {e : Point} {X Y Z : ZMod Fp.p} (hX : Fp.Rep e.x X) (hY : Fp.Rep e.y Y) (hZ : Fp.Rep e.z Z) :
    isOnCurve F e = 1 ↔ (∃ P : PP, Rep e P) ∨ (X = 0 ∧ Y = 0 ∧ Z = 0) :=
  isOnCurve_spec FOk hX hY hZ

/-- **C94** `ToAffine`, `GetX` and `GetY` give the affine coordinates of a point -/
theorem C94_affine {e : Point} {x y : ZMod Fp.p} {n} (he : Rep e (.some x y n)) :
    Rep (toAffine F e) (.some x y n) ∧ Fp.Rep (getX e) x ∧ Fp.Rep (getY e) y ∧ (toAffine F e).z = Fp.one := by
  obtain ⟨a, b, c, d⟩ := (toAffine_spec FOk he).2 x y n rfl
  exact ⟨d, a, b, c⟩

/-- **C94** `ToAffine` of the neutral element is not a point: the three zeros represent none, yet pass `IsOnCurve` and `IsIdentity`, and
adding a point to them gives three zeros again -/
theorem C94_affine_identity_violated {e f : Point} {Q : PP} (he : Rep e 0) (hf : Rep f Q) :
    toAffine F e = ⟨Fp.zero, Fp.zero, Fp.zero⟩ ∧ (∀ R : PP, ¬ Rep (toAffine F e) R) ∧ isOnCurve F (toAffine F e) = 1 ∧
      isIdentity F (toAffine F e) = 1 ∧ P3.add F (toAffine F e) f = ⟨Fp.zero, Fp.zero, Fp.zero⟩ :=
  P3.affine_identity FOk he hf

/-! ## Encodings -/

/-- **C95** decoding the compressed form of a point of the subgroup gives back the point, and so does the uncompressed form; the sizes are
48 and 96 bytes -/
theorem C95_roundtrip {e : Point} {P : PP} (he : Rep e P) (hq : Fq.q • P = 0) :
    (∃ e', fromCompressed codec (toCompressed codec e) = some e' ∧ Rep e' P) ∧
    (∃ e', fromUncompressed codec (toUncompressed codec e) = some e' ∧ Rep e' P) ∧
    (toCompressed codec e).length = 48 ∧ (toUncompressed codec e).length = 96 :=
  ⟨compressed_roundtrip COk he hq, uncompressed_roundtrip COk he hq, length_toCompressed COk he, length_toUncompressed COk he⟩

/-- **C95** two points have the same compressed form exactly if they are equal, whatever their stored coordinates -/
theorem C95_injective {e f : Point} {P Q : PP} (he : Rep e P) (hf : Rep f Q) : toCompressed codec e = toCompressed codec f ↔ P = Q :=
  toCompressed_inj COk he hf

/-- **C95** every accepted 48-byte input has the compression flag set and decodes to a multiple of the generator; unless the infinity flag is
set the input is the one encoding of that point -/
theorem C95_compressed_sound {l : List UInt8} (hl : l.length = 48) {e : Point} (h : fromCompressed codec l = some e) :
    (l.headD 0 >>> 7) &&& 1 = 1 ∧ (∃ k : Nat, k < Fq.q ∧ Rep e (k • G)) ∧
      ((l.headD 0 >>> 6) &&& 1 ≠ 1 → toCompressed codec e = l ∧ ¬ Rep e 0) := by
  obtain ⟨h7, hc⟩ := fromCompressed_sound COk hl h
  refine ⟨h7, ?_⟩
  rcases hc with ⟨h6, rfl⟩ | ⟨h6, P, h0, hq, hP, ht⟩
  · refine ⟨⟨0, by decide +kernel, ?_⟩, fun hn => absurd h6 hn⟩
    rw [zero_nsmul]
    exact identity_spec FOk
  · obtain ⟨k, hk, rfl⟩ := torsion hq
    exact ⟨⟨k, hk, hP⟩, fun _ => ⟨ht, fun hc => h0 (hrep_unique FOk hP hc)⟩⟩

/-- **C95** every accepted 96-byte input decodes to a multiple of the generator; unless the infinity flag is set, the encoding of the point
is the input with the three top bits cleared -/
theorem C95_uncompressed_sound {l : List UInt8} (hl : l.length = 96) {e : Point} (h : fromUncompressed codec l = some e) :
    (∃ k : Nat, k < Fq.q ∧ Rep e (k • G)) ∧ ((l.headD 0 >>> 6) &&& 1 ≠ 1 → toUncompressed codec e = mask0 l ∧ ¬ Rep e 0) := by
  rcases fromUncompressed_sound COk hl h with ⟨h6, rfl⟩ | ⟨h6, P, h0, hq, hP, ht⟩
  · refine ⟨⟨0, by decide +kernel, ?_⟩, fun hn => absurd h6 hn⟩
    rw [zero_nsmul]
    exact identity_spec FOk
  · obtain ⟨k, hk, rfl⟩ := torsion hq
    exact ⟨⟨k, hk, hP⟩, fun _ => ⟨ht, fun hc => h0 (hrep_unique FOk hP hc)⟩⟩

/-- **C95** with the infinity flag set the rest of the input is not looked at: every such input decodes to the neutral element, so its encoding
is not unique; in the uncompressed form the compression flag and the sign bit are ignored -/
theorem C95_not_canonical_violated (c0 : UInt8) (tl : List UInt8) :
    ((c0 >>> 7) &&& 1 = 1 → (c0 >>> 6) &&& 1 = 1 → fromCompressed codec (c0 :: tl) = some (identity F)) ∧
    ((c0 >>> 6) &&& 1 = 1 → fromUncompressed codec (c0 :: tl) = some (identity F)) ∧
    ((c0 >>> 6) &&& 1 ≠ 1 → fromUncompressed codec (c0 :: tl) = fromUncompressed codec ((c0 &&& 0x1F) :: tl)) := by
  refine ⟨fun h7 h6 => ?_, fun h6 => ?_, fromUncompressed_flags COk c0 tl⟩
  · unfold fromCompressed
    dsimp only [List.headD_cons]
    rw [if_neg (by rw [h7]; exact fun h => h rfl), if_pos h6]
    rfl
  · unfold fromUncompressed
    dsimp only [List.headD_cons]
    rw [if_pos h6]
    rfl

/-- **C95** `BigInt` gives the affine coordinates as integers, `(0, 0)` for the neutral element -/
theorem C95_bigInt {e : Point} {P : PP} (he : Rep e P) :
    (P = 0 → bigInt e = (0, 0)) ∧ (∀ x y n, P = .some x y n → bigInt e = ((x.val : Int), (y.val : Int))) := by
  constructor
  · intro h0
    have ha : toAffine F e = ⟨Fp.zero, Fp.zero, Fp.zero⟩ := (toAffine_spec FOk he).1 h0
    unfold bigInt
    dsimp only
    rw [ha]
    dsimp only
    rw [Fp.bigInt_spec Fp.zero_spec, ZMod.val_zero]
    rfl
  · intro x y n hP
    obtain ⟨a, b, _, _⟩ := (toAffine_spec FOk he).2 x y n hP
    unfold bigInt
    dsimp only
    rw [Fp.bigInt_spec a, Fp.bigInt_spec b]

/-- **C95** `SetBigInt` never panics; it reduces both integers modulo `p`, gives the neutral element for two multiples of `p`, the point with
the reduced coordinates if that is a multiple of the generator, and an error otherwise -/
theorem C95_setBigInt (x y : Int) :
    (((x : ZMod Fp.p) = 0 ∧ (y : ZMod Fp.p) = 0) → setBigInt x y = .ok (some (identity F))) ∧
    (¬ ((x : ZMod Fp.p) = 0 ∧ (y : ZMod Fp.p) = 0) →
      (∀ n, Fq.q • (.some (x : ZMod Fp.p) (y : ZMod Fp.p) n : PP) = 0 → ∃ e, setBigInt x y = .ok (some e) ∧ Rep e (.some x y n)) ∧
      ((∀ n, Fq.q • (.some (x : ZMod Fp.p) (y : ZMod Fp.p) n : PP) ≠ 0) → setBigInt x y = .ok none)) := by
  obtain ⟨a, ea, ha⟩ := Fp.setBigInt_spec Fp.zero x
  obtain ⟨b, eb, hb⟩ := Fp.setBigInt_spec Fp.zero y
  have hz : (Fp.isZero a &&& Fp.isZero b) = if (x : ZMod Fp.p) = 0 ∧ (y : ZMod Fp.p) = 0 then 1 else 0 := by
    rw [(Fp.isZero_spec ha).1, (Fp.isZero_spec hb).1, Fp2.and_flags]
  unfold setBigInt
  rw [ea, Res.bind_ok, eb, Res.bind_ok, hz]
  constructor
  · intro h
    rw [if_pos h, if_pos rfl]
    rfl
  · intro h
    rw [if_neg h, if_neg (by decide)]
    dsimp only
    rw [UInt64.or_zero]
    have hon := isOnCurve_spec FOk (e := ⟨a, b, Fp.one⟩) ha hb Fp.one_spec
    constructor
    · intro n hq
      have hrep := affine_rep COk ha hb n
      have hrep' : Rep ⟨a, b, Fp.one⟩ (.some (x : ZMod Fp.p) (y : ZMod Fp.p) n) := hrep
      refine ⟨⟨a, b, Fp.one⟩, ?_, hrep'⟩
      rw [hon.2 (Or.inl ⟨_, hrep'⟩), sub_spec' hrep', if_pos hq, if_neg (by decide)]
      rfl
    · intro hn
      suffices isOnCurve F ⟨a, b, Fp.one⟩ &&& inCorrectSubgroup F ⟨a, b, Fp.one⟩ = 0 by
        rw [if_pos this]; rfl
      by_cases hc : isOnCurve F ⟨a, b, Fp.one⟩ = 1
      · rcases hon.1 hc with ⟨P, hP⟩ | ⟨_, _, h1⟩
        · cases P with
          | zero =>
            obtain ⟨X, Y, Z, _, _, hZ, hH, _⟩ := hP
            have := (prep_isZero hH).2 rfl
            subst this
            exact absurd (Fp.rep_value hZ Fp.one_spec) zero_ne_one
          | some x' y' n =>
            have hP' := hP
            obtain ⟨X, Y, Z, hX, hY, hZ, hH, _⟩ := hP
            rcases hH with ⟨_, h0⟩ | ⟨_, x2, y2, n2, e2, ex, ey⟩
            · exact absurd h0 (WeierstrassCurve.Affine.Point.some_ne_zero _)
            have hZ1 := Fp.rep_value hZ Fp.one_spec
            subst hZ1
            obtain ⟨f1, f2⟩ := (WeierstrassCurve.Affine.Point.some.injEq ..).mp e2
            rw [mul_one] at ex ey
            have ex' : x' = (x : ZMod Fp.p) := by rw [f1, ← ex]; exact Fp.rep_value hX ha
            have ey' : y' = (y : ZMod Fp.p) := by rw [f2, ← ey]; exact Fp.rep_value hY hb
            subst ex' ey'
            rw [sub_spec' hP', if_neg (hn n), UInt64.and_zero]
        · exact absurd h1 one_ne_zero
      · have : isOnCurve F ⟨a, b, Fp.one⟩ = 0 := by
          have := FOk.equal (FOk.mul (FOk.square hb) FOk.one)
            (FOk.add (FOk.mul (FOk.square ha) ha) (FOk.mul (FOk.mul (FOk.square FOk.one) FOk.one) FOk.coeff))
          change isOnCurve F ⟨a, b, Fp.one⟩ = _ at this
          rw [this] at hc ⊢
          split
          · next hh => rw [if_pos hh] at hc; exact absurd rfl hc
          · rfl
        rw [this, UInt64.zero_and]

/-! ## A concrete case -/

/-- The generator meets the hypotheses of the theorems above. -/
example : Rep generator G ∧ Fq.q • G = 0 ∧ G ≠ 0 := ⟨generator_rep, order_G, G_ne⟩
/-- A point outside the subgroup: `(0, 2)` has order 3. -/
example : Rep ⟨Fp.zero, Fp.double Fp.one, Fp.one⟩ p3 ∧ p3 ≠ 0 ∧ inCorrectSubgroup F ⟨Fp.zero, Fp.double Fp.one, Fp.one⟩ = 0 := by
  have h : Rep ⟨Fp.zero, Fp.double Fp.one, Fp.one⟩ p3 := by
    refine ⟨((0 : Nat) : ZMod Fp.p), ((2 : Nat) : ZMod Fp.p), 1, by rw [Nat.cast_zero]; exact Fp.zero_spec, ?_, Fp.one_spec,
      Or.inr ⟨one_ne_zero, _, _, _, rfl, (mul_one _).symm, (mul_one _).symm⟩, fun h => absurd h one_ne_zero⟩
    have := Fp.double_spec Fp.one_spec
    have e : (1 : ZMod Fp.p) + 1 = ((2 : Nat) : ZMod Fp.p) := by rw [Nat.cast_ofNat]; exact one_add_one_eq_two
    rw [e] at this
    exact this
  refine ⟨h, mkPt_ne, ?_⟩
  rw [sub_spec' h, if_neg]
  intro hq
  have : Fact (Nat.Prime 3) := ⟨Nat.prime_three⟩
  have ho : addOrderOf p3 = 3 := addOrderOf_eq_prime p3_order mkPt_ne
  have := addOrderOf_dvd_of_nsmul_eq_zero hq
  rw [ho] at this
  exact absurd this (by decide +kernel)

end Verif.Bls381.G1
