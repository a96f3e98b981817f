import Verif.Bls381.G2Order
import Verif.Bls381.G1Api

/-!
# G2 (crypto/core/curves/native/bls12381/g2.go): the properties

`Random` and `Hash` are not here.
-/

set_option maxRecDepth 20000
set_option exponentiation.threshold 1000
set_option linter.unusedSectionVars false

namespace Verif.Bls381.G2
open Verif.Bytes Verif.Native Verif.Native.Weier P3 Fp2

/-- `Generator` (crypto/core/curves/native/bls12381/g2.go:556-561). -/
def generator : Point := ⟨g2x, g2y, Fp2.one⟩

/-- `Mul` (crypto/core/curves/native/bls12381/g2.go:676-679). -/
def mul (a : Point) (s : L4) : Point := multiply F a (Field.bytes Fq.impl.A s)

/-- `GetX` (crypto/core/curves/native/bls12381/g2.go:930-934). -/
def getX (g2 : Point) : E2 := (toAffine F g2).x

/-- `GetY` (crypto/core/curves/native/bls12381/g2.go:937-941). -/
def getY (g2 : Point) : E2 := (toAffine F g2).y

/-- How G2 writes and reads a coordinate: imaginary part first, each part as in G1
(crypto/core/curves/native/bls12381/g2.go:783-786, crypto/core/curves/native/bls12381/g2.go:814-823,
crypto/core/curves/native/bls12381/g2.go:873-900). -/
def codec : COps E2 where
  fo := F
  size := 96
  enc := fun a => (Fp.bytes a.B).reverse ++ (Fp.bytes a.A).reverse
  dec := fun l =>
    let rb := Fp.setBytes Fp.zero (l.take 48).reverse
    let ra := Fp.setBytes Fp.zero (l.drop 48).reverse
    if rb.2 = 1 ∧ ra.2 = 1 then some ⟨ra.1, rb.1⟩ else none

/-- `BigInt` (crypto/core/curves/native/bls12381/g2.go:756-762): the point written is a fresh variable, not the receiver. -/
def bigInt (_g2 : Point) : Nat × Nat :=
  let t : Point := ⟨Fp2.zero, Fp2.zero, Fp2.zero⟩
  let out := toUncompressed codec t
  (beToNat (out.take 96), beToNat (out.drop 96))

/-- `SetBigInt` (crypto/core/curves/native/bls12381/g2.go:766-776); `FillBytes` writes the absolute value and panics if it does not
fit; the inner `none` is the error. -/
def setBigInt (x y : Int) : Res (Option Point) :=
  if x = 0 ∧ y = 0 then .ok (some (identity F))
  else
    match fillBytes 96 x.natAbs, fillBytes 96 y.natAbs with
    | some a, some b => .ok (fromUncompressed codec (a ++ b))
    | _, _ => .panic

/-- The sign rule: the imaginary part, or the real part if it is zero, is the larger of itself and its negative. -/
abbrev Large (y : K2) : Prop := (-y.im).val < y.im.val ∨ (y.im = 0 ∧ (-y.re).val < y.re.val)

theorem large_neg {x : K2} (hx : x ≠ 0) : Large (-x) ↔ ¬ Large x := by
  unfold Large
  rw [QuadraticAlgebra.im_neg, QuadraticAlgebra.re_neg]
  by_cases hi : x.im = 0
  · have hr : x.re ≠ 0 := fun h => hx ((ext_iff2 x 0).2 ⟨h, hi⟩)
    have := G1.large_neg hr
    unfold G1.Large at this
    simp only [hi, neg_zero, lt_self_iff_false, true_and, false_or]
    exact this
  · have := G1.large_neg hi
    unfold G1.Large at this
    have hi' : -x.im ≠ 0 := neg_ne_zero.2 hi
    simp only [hi, hi', false_and, or_false]
    exact this

theorem enc_spec {a : E2} {x : K2} (h : Rep2 a x) : codec.enc a = (natToLE 48 x.im.val).reverse ++ (natToLE 48 x.re.val).reverse := by
  change (Fp.bytes a.B).reverse ++ (Fp.bytes a.A).reverse = _
  rw [Fp.bytes_spec h.1, Fp.bytes_spec h.2]

theorem rev_length (a : L6) {x : ZMod Fp.p} (h : Fp.Rep a x) : (Fp.bytes a).reverse.length = 48 := by
  rw [List.length_reverse, Fp.bytes_spec h, length_natToLE]

/-- One component. -/
theorem comp {l : List UInt8} (hl : l.length = 48) (h : (Fp.setBytes Fp.zero l.reverse).2 = 1) :
    (∃ x, Fp.Rep (Fp.setBytes Fp.zero l.reverse).1 x) ∧ (Fp.bytes (Fp.setBytes Fp.zero l.reverse).1).reverse = l := by
  have hl' : l.reverse.length = 48 := by rw [List.length_reverse]; exact hl
  by_cases hv : leToNat l.reverse < Fp.p
  · have hb := (Fp.C89_bytes Fp.zero_spec Fp.zero l.reverse hl').2.2.2.1 hv
    exact ⟨⟨_, hb.1⟩, by rw [hb.2.2, List.reverse_reverse]⟩
  · rw [(Fp.C89_bytes Fp.zero_spec Fp.zero l.reverse hl').2.2.2.2 (by omega)] at h
    exact absurd h (by decide)

theorem COk : COK codec Rep2 bb Large where
  toFOK := FOk
  size := by decide
  enc_length := fun {a x} h => by
    change ((Fp.bytes a.B).reverse ++ (Fp.bytes a.A).reverse).length = 96
    rw [List.length_append, rev_length _ h.1, rev_length _ h.2]
  enc_head := fun {a x} h => by
    have hh := G1.COk.enc_head h.2
    change (Fp.bytes a.B).reverse.headD 0 &&& 0x1F = (Fp.bytes a.B).reverse.headD 0 at hh
    change ((Fp.bytes a.B).reverse ++ (Fp.bytes a.A).reverse).headD 0 &&& 0x1F = ((Fp.bytes a.B).reverse ++ (Fp.bytes a.A).reverse).headD 0
    have hl := rev_length _ h.2
    cases hc : (Fp.bytes a.B).reverse with
    | nil => rw [hc] at hl; cases hl
    | cons c t => rw [hc] at hh; exact hh
  dec_enc := fun {a x} h => by
    change (if (Fp.setBytes Fp.zero (((Fp.bytes a.B).reverse ++ (Fp.bytes a.A).reverse).take 48).reverse).2 = 1 ∧
        (Fp.setBytes Fp.zero (((Fp.bytes a.B).reverse ++ (Fp.bytes a.A).reverse).drop 48).reverse).2 = 1 then
      some (E2.mk (Fp.setBytes Fp.zero (((Fp.bytes a.B).reverse ++ (Fp.bytes a.A).reverse).drop 48).reverse).1
        (Fp.setBytes Fp.zero (((Fp.bytes a.B).reverse ++ (Fp.bytes a.A).reverse).take 48).reverse).1) else none) = some a
    rw [List.take_left' (rev_length _ h.2), List.drop_left' (rev_length _ h.2), List.reverse_reverse, List.reverse_reverse,
      Fp.bytes_roundtrip h.1, Fp.bytes_roundtrip h.2, if_pos ⟨rfl, rfl⟩]
  dec_some := fun {l a} hl h => by
    change (if (Fp.setBytes Fp.zero (l.take 48).reverse).2 = 1 ∧ (Fp.setBytes Fp.zero (l.drop 48).reverse).2 = 1 then
      some (E2.mk (Fp.setBytes Fp.zero (l.drop 48).reverse).1 (Fp.setBytes Fp.zero (l.take 48).reverse).1) else none) = some a at h
    have hl' : l.length = 96 := hl
    by_cases hv : (Fp.setBytes Fp.zero (l.take 48).reverse).2 = 1 ∧ (Fp.setBytes Fp.zero (l.drop 48).reverse).2 = 1
    · rw [if_pos hv] at h
      obtain rfl := Option.some.inj h
      obtain ⟨⟨xb, hb⟩, eb⟩ := comp (by rw [List.length_take, hl']; rfl) hv.1
      obtain ⟨⟨xa, ha⟩, ea⟩ := comp (by rw [List.length_drop, hl']) hv.2
      refine ⟨⟨⟨xa, xb⟩, ha, hb⟩, ?_⟩
      change (Fp.bytes _).reverse ++ (Fp.bytes _).reverse = l
      rw [eb, ea, List.take_append_drop]
    · rw [if_neg hv] at h
      cases h
  sqrt := fun {a x} h => by
    have := Fp2.sqrt_spec a h
    exact ⟨this.1, fun hn => congrArg Prod.snd (this.2 hn)⟩
  lex := Fp2.lexLargest_spec
  sign := large_neg

theorem sub_spec' {e : Point} {P : PP} (he : Rep e P) : inCorrectSubgroup F e = if Fq.q • P = 0 then 1 else 0 :=
  inCorrectSubgroup_spec COk he

theorem generator_rep : Rep generator G :=
  ⟨_, _, 1, g2x_rep, g2y_rep, Fp2.one_spec, Or.inr ⟨one_ne_zero, _, _, _, rfl, (mul_one _).symm, (mul_one _).symm⟩, fun h => absurd h one_ne_zero⟩

/-- `4 x² - 2 x - 1`, `x` the (negative) parameter. -/
abbrev kc : Nat := 4 * 0xd201000000010000 ^ 2 + 2 * 0xd201000000010000 - 1

theorem clear_G : clearHom G = kc • G := by
  have h' : clearHom G + (Fq.q - kc) • G = 0 := clear_rel _ 256 (by decide +kernel) (by decide +kernel)
  have e : (Fq.q - kc) • G + kc • G = 0 := by
    rw [← add_nsmul, Nat.sub_add_cancel (by decide +kernel), order_G]
  have e1 := eq_neg_of_add_eq_zero_left h'
  have e2 := eq_neg_of_add_eq_zero_right e
  rw [e1, e2]

theorem psi_G : psiHom G + (0xd201000000010000 : Nat) • G = 0 := psi_rel _ 64 (by decide +kernel) (by decide +kernel)

theorem frobHom_apply (x : K2) : frobHom x = x ^ Fp.p := frobenius_def ..

theorem frob_frob (x : K2) : frobHom (frobHom x) = x := by
  rw [frobHom_apply, frobHom_apply, ← pow_mul]
  exact Quad.frob2 p_mod4 x

theorem frob_el (a : Nat × Nat) (h : a.2 < Fp.p) : frobHom (Fp6.el Fp.p a) = Fp6.el Fp.p (a.1, Fp.p - a.2) := by
  rw [frobHom_apply, Quad.frob p_mod4]
  unfold Fp6.el
  dsimp only
  rw [cast_neg' _ h]

theorem fx : frobHom kx * kx = k2 := by
  rw [frob_el _ (by decide +kernel), el_mul]
  exact congrArg _ (by decide +kernel)

theorem fy : frobHom ky * ky = -1 := by
  rw [frob_el _ (by decide +kernel), el_mul, ← el_neg_one]
  exact congrArg _ (by decide +kernel)

theorem psi_some {x y : K2} (h) : psiHom (.some x y h) = .some (kx * frobHom x) (ky * frobHom y) (Twist.eqn psi_ok h) := rfl
theorem psi2_some {x y : K2} (h) : psi2Hom (.some x y h) = .some (k2 * x) (-1 * y) (Twist.eqn psi2_ok h) := rfl

theorem some_congr {x y x' y' : K2} (h) (h') (hx : x = x') (hy : y = y') : (.some x y h : PP) = .some x' y' h' := by
  subst hx hy
  rfl

theorem tri {R : Type*} [CommRing R] {a b c x : R} (h : b * a = c) : a * (b * x) = c * x := by rw [← h]; ring

theorem psi_psi (P : PP) : psiHom (psiHom P) = psi2Hom P := by
  cases P with
  | zero => exact (map_zero (psiHom.comp psiHom)).trans (map_zero psi2Hom).symm
  | some x y h =>
    rw [psi_some, psi_some, psi2_some]
    have e1 : kx * frobHom (kx * frobHom x) = k2 * x := by rw [map_mul, frob_frob]; exact tri fx
    have e2 : ky * frobHom (ky * frobHom y) = -1 * y := by rw [map_mul, frob_frob]; exact tri fy
    exact some_congr _ _ e1 e2

/-! ## The group -/

/-- **C96** the functions on stored points compute the group law of the curve, on every input, doubled and opposite points and the
neutral element included -/
theorem C96_group_law {e f : Point} {P Q : PP} (he : Rep e P) (hf : Rep f Q) :
    Rep (P3.add F e f) (P + Q) ∧ Rep (P3.sub F e f) (P - Q) ∧ Rep (P3.double F e) (P + P) ∧ Rep (P3.neg F e) (-P) ∧
      Rep (identity F) 0 ∧ (isIdentity F e = 1 ↔ P = 0) ∧ (P3.equal F e f = 1 ↔ P = Q) := by
  refine ⟨P3.add_spec FOk he hf, P3.sub_spec FOk he hf, P3.double_spec FOk he, P3.neg_spec FOk he, identity_spec FOk, ?_, ?_⟩
  · rw [isIdentity_spec FOk he, flag_iff]
  · rw [P3.equal_spec FOk he hf, flag_iff]

/-- **C96** `Mul` and `MulByX` compute the multiple -/
theorem C96_mul {e : Point} {P : PP} (he : Rep e P) {s : L4} {k : ZMod Fq.q} (hs : Native.Rep Fq.q s k) :
    Rep (mul e s) (k.val • P) ∧ Rep (mulByX F e) (-((0xd201000000010000 : Nat) • P)) := by
  refine ⟨?_, mulByX_spec FOk he⟩
  unfold mul
  rw [Fq.bytes_eq, C50_bytes (A := Fq.implFix.A) Fq.lawful hs]
  exact multiply_spec FOk he k.val (lt_of_lt_of_le (ZMod.val_lt k) (show Fq.q ≤ 2 ^ 256 by decide +kernel))

/-- **C96** `SumOfProducts` computes the sum of the products, for any number of points, and refuses exactly lists of different lengths -/
theorem C96_sum_of_products (l : List (Point × PP × L4 × ZMod Fq.q)) (hl : ∀ t ∈ l, Rep t.1 t.2.1 ∧ Native.Rep Fq.q t.2.2.1 t.2.2.2) :
    (∃ e, sumOfProducts F (l.map (·.1)) (l.map fun t => Field.bytes Fq.impl.A t.2.2.1) = some e ∧
      Rep e ((l.map fun t => t.2.2.2.val • t.2.1).sum)) ∧
    ∀ (points : List Point) (scalars : List (List UInt8)), sumOfProducts F points scalars = none ↔ points.length ≠ scalars.length := by
  refine ⟨?_, sumOfProducts_none⟩
  obtain ⟨e, h1, h2⟩ := sumOfProducts_spec FOk (l.map fun t => (t.1, t.2.1, t.2.2.2.val)) (fun t ht => by
    obtain ⟨u, hu, rfl⟩ := List.mem_map.1 ht
    exact ⟨(hl u hu).1, (show u.2.2.2.val < 2 ^ 256 from lt_of_lt_of_le (ZMod.val_lt _) (show Fq.q ≤ 2 ^ 256 by decide +kernel))⟩)
  refine ⟨e, ?_, ?_⟩
  · rw [List.map_map, List.map_map] at h1
    rw [← h1]
    congr 1
    refine List.map_congr_left fun t ht => ?_
    rw [Fq.bytes_eq, C50_bytes (A := Fq.implFix.A) Fq.lawful (hl t ht).2]
    rfl
  · rw [List.map_map] at h2
    exact h2

/-- **C96** the curve has `h q` points with `q` the prime order of the scalar field; the generator has order `q`; the points killed by
`q` are exactly the multiples of the generator; two scalars give the same multiple of a point of the subgroup, other than the neutral
element, exactly when they are equal modulo `q` -/
theorem C96_order :
    Nat.card PP = h2 * Fq.q ∧ addOrderOf G = Fq.q ∧ (∀ P : PP, Fq.q • P = 0 ↔ ∃ k : Nat, k < Fq.q ∧ P = k • G) ∧
      (∀ (P : PP) (i j : Nat), Fq.q • P = 0 → P ≠ 0 → (i • P = j • P ↔ i % Fq.q = j % Fq.q)) := by
  refine ⟨card, addOrder_G, fun P => ⟨torsion, ?_⟩, fun P i j h h0 => ?_⟩
  · rintro ⟨k, -, rfl⟩
    rw [← mul_nsmul, Nat.mul_comm, mul_nsmul, order_G, nsmul_zero]
  · have ho : addOrderOf P = Fq.q := addOrderOf_eq_prime h h0
    rw [nsmul_eq_nsmul_iff_modEq, ho]
    rfl

/-- **C96** `InCorrectSubgroup` accepts a point of the curve exactly if it is a multiple of the generator; the generator is accepted -/
theorem C96_subgroup {e : Point} {P : PP} (he : Rep e P) :
    (inCorrectSubgroup F e = 1 ↔ ∃ k : Nat, k < Fq.q ∧ P = k • G) ∧ Rep generator G ∧ inCorrectSubgroup F generator = 1 := by
  refine ⟨?_, generator_rep, ?_⟩
  · rw [sub_spec' he, flag_iff]
    exact C96_order.2.2.1 P
  · rw [sub_spec' generator_rep, if_pos order_G]

/-- **C96** `ClearCofactor` takes every point of the curve into the subgroup; on the subgroup it multiplies by `4 x² - 2 x - 1`, and loses
nothing -/
theorem C96_clear_cofactor {e : Point} {P : PP} (he : Rep e P) :
    (∃ Q : PP, Rep (clearCofactor e) Q ∧ (∃ k : Nat, k < Fq.q ∧ Q = k • G) ∧ (Fq.q • P = 0 → Q = kc • P ∧ (P ≠ 0 → Q ≠ 0))) ∧
      inCorrectSubgroup F (clearCofactor e) = 1 := by
  have h : Rep (clearCofactor e) (clearHom P) := clear_spec TOk he
  refine ⟨⟨_, h, torsion (clear_torsion P), fun hq => ?_⟩, by rw [sub_spec' h, if_pos (clear_torsion P)]⟩
  have hk : clearHom P = kc • P := by
    obtain ⟨j, -, rfl⟩ := torsion hq
    rw [map_nsmul, clear_G, ← mul_nsmul, ← mul_nsmul, Nat.mul_comm]
  refine ⟨hk, fun h0 hc => ?_⟩
  rw [hk] at hc
  have ho : addOrderOf P = Fq.q := addOrderOf_eq_prime hq h0
  have hd := addOrderOf_dvd_of_nsmul_eq_zero hc
  rw [ho] at hd
  exact absurd hd (by decide +kernel)

/-- **C96** the endomorphism is a homomorphism given by the Frobenius map, and its square is the second one; on the subgroup it is
multiplication by the parameter `x` -/
theorem C96_psi {e f : Point} {P Q : PP} (he : Rep e P) (hf : Rep f Q) :
    ∃ P' Q', Rep (psi TF e) P' ∧ Rep (psi TF f) Q' ∧ Rep (psi TF (P3.add F e f)) (P' + Q') ∧
      Rep (psi2 TF e) (psiHom P') ∧ Rep (psi TF (psi TF e)) (psiHom P') ∧ (Fq.q • P = 0 → P' + (0xd201000000010000 : Nat) • P = 0) := by
  refine ⟨psiHom P, psiHom Q, psi_spec TOk he, psi_spec TOk hf, ?_, ?_, psi_spec TOk (psi_spec TOk he), fun hq => ?_⟩
  · have := psi_spec TOk (P3.add_spec FOk he hf)
    rw [map_add] at this
    exact this
  · rw [psi_psi]
    exact psi2_spec TOk he
  · obtain ⟨j, -, rfl⟩ := torsion hq
    rw [map_nsmul, ← mul_nsmul, Nat.mul_comm, mul_nsmul, ← nsmul_add, psi_G, nsmul_zero]

/-- **C96** `IsOnCurve` accepts exactly the coordinates of points, and besides them three zeros -/
theorem C96_on_curve {e : Point} {X Y Z : K2} (hX : Rep2 e.x X) (hY : Rep2 e.y Y) (hZ : Rep2 e.z Z) :
    isOnCurve F e = 1 ↔ (∃ P : PP, Rep e P) ∨ (X = 0 ∧ Y = 0 ∧ Z = 0) :=
  isOnCurve_spec FOk hX hY hZ

/-- **C96** `ToAffine`, `GetX` and `GetY` give the affine coordinates of a point -/
theorem C96_affine {e : Point} {x y : K2} {n} (he : Rep e (.some x y n)) :
    Rep (toAffine F e) (.some x y n) ∧ Rep2 (getX e) x ∧ Rep2 (getY e) y ∧ (toAffine F e).z = Fp2.one := by
  obtain ⟨a, b, c, d⟩ := (toAffine_spec FOk he).2 x y n rfl
  exact ⟨d, a, b, c⟩

/-- **C96** `ToAffine` of the neutral element is not a point: the three zeros represent none, yet pass `IsOnCurve` and `IsIdentity`, and
adding a point to them gives three zeros again -/
theorem C96_affine_identity_violated {e f : Point} {Q : PP} (he : Rep e 0) (hf : Rep f Q) :
    toAffine F e = ⟨Fp2.zero, Fp2.zero, Fp2.zero⟩ ∧ (∀ R : PP, ¬ Rep (toAffine F e) R) ∧ isOnCurve F (toAffine F e) = 1 ∧
      isIdentity F (toAffine F e) = 1 ∧ P3.add F (toAffine F e) f = ⟨Fp2.zero, Fp2.zero, Fp2.zero⟩ :=
  P3.affine_identity FOk he hf

/-! ## Encodings -/

/-- **C97** decoding the compressed form of a point of the subgroup gives back the point, and so does the uncompressed form; the sizes are
96 and 192 bytes -/
theorem C97_roundtrip {e : Point} {P : PP} (he : Rep e P) (hq : Fq.q • P = 0) :
    (∃ e', fromCompressed codec (toCompressed codec e) = some e' ∧ Rep e' P) ∧
    (∃ e', fromUncompressed codec (toUncompressed codec e) = some e' ∧ Rep e' P) ∧
    (toCompressed codec e).length = 96 ∧ (toUncompressed codec e).length = 192 :=
  ⟨compressed_roundtrip COk he hq, uncompressed_roundtrip COk he hq, length_toCompressed COk he, length_toUncompressed COk he⟩

/-- **C97** two points have the same compressed form exactly if they are equal, whatever their stored coordinates -/
theorem C97_injective {e f : Point} {P Q : PP} (he : Rep e P) (hf : Rep f Q) : toCompressed codec e = toCompressed codec f ↔ P = Q :=
  toCompressed_inj COk he hf

/-- **C97** every accepted 96-byte input has the compression flag set and decodes to a multiple of the generator; unless the infinity flag is
set the input is the one encoding of that point -/
theorem C97_compressed_sound {l : List UInt8} (hl : l.length = 96) {e : Point} (h : fromCompressed codec l = some e) :
    (l.headD 0 >>> 7) &&& 1 = 1 ∧ (∃ k : Nat, k < Fq.q ∧ Rep e (k • G)) ∧
      ((l.headD 0 >>> 6) &&& 1 ≠ 1 → toCompressed codec e = l ∧ ¬ Rep e 0) := by
  obtain ⟨h7, hc⟩ := fromCompressed_sound COk hl h
  refine ⟨h7, ?_⟩
  rcases hc with ⟨h6, rfl⟩ | ⟨h6, P, h0, hq, hP, ht⟩
  · refine ⟨⟨0, by decide +kernel, ?_⟩, fun hn => absurd h6 hn⟩
    rw [zero_nsmul]
    exact identity_spec FOk
  · obtain ⟨k, hk, rfl⟩ := torsion hq
    exact ⟨⟨k, hk, hP⟩, fun _ => ⟨ht, fun hc => h0 (hrep_unique FOk hP hc)⟩⟩

/-- **C97** every accepted 192-byte input decodes to a multiple of the generator; unless the infinity flag is set, the encoding of the point
is the input with the three top bits cleared -/
theorem C97_uncompressed_sound {l : List UInt8} (hl : l.length = 192) {e : Point} (h : fromUncompressed codec l = some e) :
    (∃ k : Nat, k < Fq.q ∧ Rep e (k • G)) ∧ ((l.headD 0 >>> 6) &&& 1 ≠ 1 → toUncompressed codec e = mask0 l ∧ ¬ Rep e 0) := by
  rcases fromUncompressed_sound COk hl h with ⟨h6, rfl⟩ | ⟨h6, P, h0, hq, hP, ht⟩
  · refine ⟨⟨0, by decide +kernel, ?_⟩, fun hn => absurd h6 hn⟩
    rw [zero_nsmul]
    exact identity_spec FOk
  · obtain ⟨k, hk, rfl⟩ := torsion hq
    exact ⟨⟨k, hk, hP⟩, fun _ => ⟨ht, fun hc => h0 (hrep_unique FOk hP hc)⟩⟩

/-- **C97** with the infinity flag set the rest of the input is not looked at: every such input decodes to the neutral element, so its encoding
is not unique; in the uncompressed form the compression flag and the sign bit are ignored -/
theorem C97_not_canonical_violated (c0 : UInt8) (tl : List UInt8) :
    ((c0 >>> 7) &&& 1 = 1 → (c0 >>> 6) &&& 1 = 1 → fromCompressed codec (c0 :: tl) = some (identity F)) ∧
    ((c0 >>> 6) &&& 1 = 1 → fromUncompressed codec (c0 :: tl) = some (identity F)) ∧
    ((c0 >>> 6) &&& 1 ≠ 1 → fromUncompressed codec (c0 :: tl) = fromUncompressed codec ((c0 &&& 0x1F) :: tl)) := by
  refine ⟨fun h7 h6 => ?_, fun h6 => ?_, fromUncompressed_flags COk c0 tl⟩
  · unfold fromCompressed
    dsimp only [List.headD_cons]
    rw [if_neg (by rw [h7]; exact fun h => h rfl), if_pos h6]
    rfl
  · unfold fromUncompressed
    dsimp only [List.headD_cons]
    rw [if_pos h6]
    rfl

/-! ## Three zeros -/

theorem zeros_affine : toAffine F ⟨Fp2.zero, Fp2.zero, Fp2.zero⟩ = ⟨Fp2.zero, Fp2.zero, Fp2.zero⟩ :=
  P3.zeros_affine FOk

/-- Zero is not the abscissa and ordinate of a point. -/
theorem zeros_refused : fromUncompressed codec (List.replicate 192 0) = none := by
  cases h : fromUncompressed codec (List.replicate 192 0) with
  | none => rfl
  | some e =>
    exfalso
    rcases fromUncompressed_sound COk (by rw [List.length_replicate]; rfl) h with ⟨h6, _⟩ | ⟨_, P, h0, _, hP, ht⟩
    · exact absurd h6 (by decide)
    · cases P with
      | zero => exact h0 rfl
      | some x y n =>
        obtain ⟨a, c, ha, hc⟩ := coord_exists COk hP
        rw [toUncompressed_some COk hP ha hc] at ht
        have h5 : ∀ l : List UInt8, or0 (0x40 &&& (0 - 0)) l = l := fun l => by
          cases l with
          | nil => rfl
          | cons b l => exact congrArg (· :: l) (by rw [show (0x40 : UInt8) &&& (0 - 0) = 0 by decide, UInt8.or_zero])
        rw [h5] at ht
        have hla : (codec.enc a).length = 96 := COk.enc_length ha
        have e2 := congrArg (List.drop 96) ht
        rw [List.drop_left' hla] at e2
        have hz : codec.dec (codec.enc c) = codec.dec (codec.enc Fp2.zero) := by
          rw [e2, enc_spec Fp2.zero_spec, QuadraticAlgebra.im_zero, QuadraticAlgebra.re_zero, ZMod.val_zero]
          exact congrArg _ (by decide +kernel)
        rw [COk.dec_enc hc, COk.dec_enc Fp2.zero_spec] at hz
        obtain rfl := Option.some.inj hz
        have hy := rep2_value hc Fp2.zero_spec
        exact y_ne_zero noTwo (eqn_iff.1 n.1) hy

/-- **C97** `BigInt` does not look at the point: it gives the same two integers for every point, `SetBigInt` reads them as the neutral element, so
no other point survives the round trip -/
theorem C97_bigInt_constant_violated (e : Point) :
    bigInt e = (0x40 * 256 ^ 95, 0) ∧ setBigInt (bigInt e).1 (bigInt e).2 = .ok (some (identity F)) := by
  have h : bigInt e = (0x40 * 256 ^ 95, 0) := by
    have ha : toAffine F ⟨Fp2.zero, Fp2.zero, Fp2.zero⟩ = ⟨Fp2.zero, Fp2.zero, Fp2.zero⟩ := zeros_affine
    have hi : isIdentity F ⟨Fp2.zero, Fp2.zero, Fp2.zero⟩ = 1 := by
      have : isIdentity F ⟨Fp2.zero, Fp2.zero, Fp2.zero⟩ = if (0 : K2) = 0 then 1 else 0 := FOk.isZero FOk.zero
      rw [this, if_pos rfl]
    have ho : toUncompressed codec ⟨Fp2.zero, Fp2.zero, Fp2.zero⟩ = 0x40 :: List.replicate 191 0 := by
      change or0 (0x40 &&& (0 - (isIdentity F ⟨Fp2.zero, Fp2.zero, Fp2.zero⟩).toUInt8)) (codec.enc (toAffine F ⟨Fp2.zero, Fp2.zero, Fp2.zero⟩).x ++
        codec.enc (toAffine F ⟨Fp2.zero, Fp2.zero, Fp2.zero⟩).y) = _
      rw [ha, hi]
      change or0 _ (codec.enc Fp2.zero ++ codec.enc Fp2.zero) = _
      rw [enc_spec Fp2.zero_spec, QuadraticAlgebra.im_zero, QuadraticAlgebra.re_zero, ZMod.val_zero]
      decide +kernel
    change (beToNat ((toUncompressed codec ⟨Fp2.zero, Fp2.zero, Fp2.zero⟩).take 96), beToNat ((toUncompressed codec ⟨Fp2.zero, Fp2.zero, Fp2.zero⟩).drop 96)) = _
    rw [ho]
    decide +kernel
  refine ⟨h, ?_⟩
  rw [h]
  unfold setBigInt
  rw [if_neg (by decide +kernel), show fillBytes 96 (((0x40 * 256 ^ 95, 0) : Nat × Nat).1 : Int).natAbs = some (0x40 :: List.replicate 95 0) by decide +kernel,
    show fillBytes 96 (((0x40 * 256 ^ 95, 0) : Nat × Nat).2 : Int).natAbs = some (List.replicate 96 0) by decide +kernel]
  dsimp only
  rw [List.cons_append, (C97_not_canonical_violated 0x40 _).2.1 (by decide)]

/-- **C97** `SetBigInt` panics exactly if an integer does not fit 96 bytes; the result is otherwise that of the uncompressed form of the
absolute values, so an accepted pair gives a multiple of the generator -/
theorem C97_setBigInt (x y : Int) :
    (setBigInt x y = .panic ↔ 256 ^ 96 ≤ x.natAbs ∨ 256 ^ 96 ≤ y.natAbs) ∧
    (∀ e, setBigInt x y = .ok (some e) → ∃ k : Nat, k < Fq.q ∧ Rep e (k • G)) ∧
    (∀ {e : Point} {P : PP}, Rep e P → Fq.q • P = 0 →
      ∃ e', setBigInt (beToNat ((toUncompressed codec e).take 96)) (beToNat ((toUncompressed codec e).drop 96)) = .ok (some e') ∧ Rep e' P) := by
  refine ⟨?_, ?_, ?_⟩
  · unfold setBigInt
    by_cases h0 : x = 0 ∧ y = 0
    · rw [if_pos h0, h0.1, h0.2]
      constructor
      · intro h; cases h
      · intro h; revert h; decide +kernel
    rw [if_neg h0]
    unfold fillBytes
    by_cases hx : x.natAbs < 256 ^ 96
    · by_cases hy : y.natAbs < 256 ^ 96
      · rw [if_pos hx, if_pos hy]
        constructor
        · intro h; cases h
        · intro h; rcases h with h | h <;> omega
      · rw [if_pos hx, if_neg hy]
        exact ⟨fun _ => Or.inr (by omega), fun _ => rfl⟩
    · rw [if_neg hx]
      exact ⟨fun _ => Or.inl (by omega), fun _ => rfl⟩
  · intro e h
    unfold setBigInt at h
    by_cases h0 : x = 0 ∧ y = 0
    · rw [if_pos h0] at h
      obtain rfl := Option.some.inj (Res.ok.inj h)
      exact ⟨0, by decide +kernel, by rw [zero_nsmul]; exact identity_spec FOk⟩
    rw [if_neg h0] at h
    unfold fillBytes at h
    by_cases hx : x.natAbs < 256 ^ 96
    · by_cases hy : y.natAbs < 256 ^ 96
      · rw [if_pos hx, if_pos hy] at h
        exact (C97_uncompressed_sound (by rw [List.length_append, length_natToBEfix, length_natToBEfix]) (Res.ok.inj h)).1
      · rw [if_pos hx, if_neg hy] at h; cases h
    · rw [if_neg hx] at h; cases h
  · intro e P he hq
    obtain ⟨e', h1, h2⟩ := (C97_roundtrip he hq).2.1
    have hl := (C97_roundtrip he hq).2.2.2
    have ht : ((toUncompressed codec e).take 96).length = 96 := by rw [List.length_take, hl]; rfl
    have hd : ((toUncompressed codec e).drop 96).length = 96 := by rw [List.length_drop, hl]
    have fb : ∀ l : List UInt8, l.length = 96 → fillBytes 96 ((beToNat l : Nat) : Int).natAbs = some l := by
      intro l hl
      have hlt : beToNat l < 256 ^ 96 := by have := beToNat_lt l; rwa [hl] at this
      unfold fillBytes
      rw [Int.natAbs_natCast, if_pos hlt]
      have := natToBEfix_beToNat l
      rw [hl] at this
      rw [this]
    unfold setBigInt
    by_cases h0 : ((beToNat ((toUncompressed codec e).take 96) : Nat) : Int) = 0 ∧ ((beToNat ((toUncompressed codec e).drop 96) : Nat) : Int) = 0
    · exfalso
      have z : ∀ l : List UInt8, l.length = 96 → ((beToNat l : Nat) : Int) = 0 → l = List.replicate 96 0 := by
        intro l hl hz
        have h := natToBEfix_beToNat l
        have hz' : beToNat l = 0 := by omega
        rw [hl, hz'] at h
        rw [← h]
        decide +kernel
      have h3 : toUncompressed codec e = List.replicate 192 0 := by
        rw [← List.take_append_drop 96 (toUncompressed codec e), z _ ht h0.1, z _ hd h0.2]
        rfl
      rw [h3] at h1
      have h4 : fromUncompressed codec (List.replicate 192 0) = none := zeros_refused
      rw [h4] at h1
      cases h1
    · rw [if_neg h0, fb _ ht, fb _ hd]
      dsimp only
      rw [List.take_append_drop, h1]
      exact ⟨e', rfl, h2⟩

/-! ## A concrete case -/

/-- The generator meets the hypotheses of the theorems above. -/
example : Rep generator G ∧ Fq.q • G = 0 ∧ G ≠ 0 := ⟨generator_rep, order_G, G_ne⟩
/-- A point of the curve outside the subgroup: its order is 13. -/
example : p13 ≠ 0 ∧ Fq.q • p13 ≠ 0 := by
  refine ⟨mkPt_ne, fun hq => ?_⟩
  have : Fact (Nat.Prime 13) := ⟨Primes.prime_13⟩
  have ho : addOrderOf p13 = 13 := addOrderOf_eq_prime p13_order mkPt_ne
  have := addOrderOf_dvd_of_nsmul_eq_zero hq
  rw [ho] at this
  exact absurd this (by decide +kernel)

end Verif.Bls381.G2
