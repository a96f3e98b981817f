import Verif.Curves.EdReal
import Verif.Curves.EdSigApi

/-!
# `EdHashApi`: what the Ed25519 points promise
-/

set_option linter.unusedSectionVars false

namespace Verif.Ed25519
open Verif.Bytes Verif.Native
open Verif.Ec.EdSc (ell)

/-! ## Lemmas -/

theorem p_lt : p < 2 ^ 255 ∧ 2 ^ 256 = 256 ^ 32 ∧ p ≠ 0 := by decide +kernel

theorem comp_lt (P : Pnt) : P.2.val + 2 ^ 255 * (P.1.val % 2) < 256 ^ 32 ∧
    (P.2.val + 2 ^ 255 * (P.1.val % 2)) % 2 ^ 255 = P.2.val ∧ (P.2.val + 2 ^ 255 * (P.1.val % 2)) / 2 ^ 255 = P.1.val % 2 := by
  have h := ZMod.val_lt P.2
  have hp := p_lt
  have h2 : P.1.val % 2 < 2 := Nat.mod_lt _ (by norm_num)
  have e : (256 : Nat) ^ 32 = 2 ^ 255 + 2 ^ 255 := by norm_num
  refine ⟨?_, ?_, ?_⟩
  · rw [e]
    have : 2 ^ 255 * (P.1.val % 2) ≤ 2 ^ 255 * 1 := Nat.mul_le_mul_left _ (by omega)
    omega
  · rw [Nat.add_mul_mod_self_left, Nat.mod_eq_of_lt (by omega)]
  · rw [Nat.add_mul_div_left _ _ (by norm_num), Nat.div_eq_of_lt (by omega), Nat.zero_add]

theorem le_natToLE {v : Nat} (h : v < 256 ^ 32) : leToNat (natToLE 32 v) = v := by
  rw [leToNat_natToLE, Nat.mod_eq_of_lt h]

theorem on_ratio {x y : K} : OnCurve (x, y) ↔ x ^ 2 = (y ^ 2 - 1) / (edD * y ^ 2 + 1) := by
  rw [on_iff, eq_div_iff (den_y y)]

/-- What `SetBytes` of a point does: the second coordinate, and the first with the sign that is asked for. -/
theorem decode_spec (b : List UInt8) :
    (∀ P, fromAffineCompressed b = .ok P → b.length = 32 ∧ OnCurve P ∧ P.2 = feOfBytes b ∧ (P.1 = 0 ∨ P.1.val % 2 = leToNat b / 2 ^ 255)) ∧
    (∀ x, b.length = 32 → OnCurve (x, feOfBytes b) → ∃ P, fromAffineCompressed b = .ok P) ∧ fromAffineCompressed b ≠ .panic := by
  unfold fromAffineCompressed
  by_cases hl : b.length = 32
  · rw [if_neg (not_not.2 hl)]
    dsimp only
    obtain ⟨s1, s2, s3, -⟩ := sqrtRatio_spec (feOfBytes b ^ 2 - 1) (edD * feOfBytes b ^ 2 + 1) (den_y _)
    set s := sqrtRatio (feOfBytes b ^ 2 - 1) (edD * feOfBytes b ^ 2 + 1)
    by_cases hs : s.2 = true
    · rw [if_pos hs]
      refine ⟨?_, fun _ _ _ => ⟨_, rfl⟩, by simp⟩
      intro P hP
      have hP := (Res.ok.inj hP).symm
      subst hP
      have h3 := s3 (s1.1 hs)
      refine ⟨hl, ?_, rfl, ?_⟩
      · rw [on_iff]
        have : (if leToNat b / 2 ^ 255 = 1 then -s.1 else s.1) ^ 2 = s.1 ^ 2 := by
          split
          · rw [neg_sq]
          · rfl
        rw [this]
        linear_combination h3
      · have hb := leToNat_lt b
        rw [hl] at hb
        have hb1 : leToNat b / 2 ^ 255 < 2 := by
          rw [Nat.div_lt_iff_lt_mul (by norm_num)]
          have e : (256 : Nat) ^ 32 = 2 * 2 ^ 255 := by norm_num
          omega
        dsimp only
        by_cases h1 : leToNat b / 2 ^ 255 = 1
        · rw [if_pos h1]
          by_cases h0 : s.1 = 0
          · left; rw [h0, neg_zero]
          · right
            have := neg_parity h0
            have := Nat.mod_lt (-s.1).val (show 0 < 2 by norm_num)
            omega
        · rw [if_neg h1]
          right
          omega
    · rw [if_neg hs]
      refine ⟨fun P h => (by cases h), fun x _ hx => ?_, by simp⟩
      exfalso
      apply hs
      rw [s1, ← on_ratio.1 hx]
      exact ⟨x, by ring⟩
  · rw [if_pos hl]
    exact ⟨fun P h => (by cases h), fun x h => absurd h hl, by simp⟩

theorem decode_encode (P : Pnt) (h : OnCurve P) : fromAffineCompressed (toAffineCompressed P) = .ok P := by
  obtain ⟨h1, h2, h3⟩ := comp_lt P
  have hn : leToNat (toAffineCompressed P) = P.2.val + 2 ^ 255 * (P.1.val % 2) := le_natToLE h1
  have hy : feOfBytes (toAffineCompressed P) = P.2 := by
    unfold feOfBytes
    rw [hn, h2, ZMod.natCast_val, ZMod.cast_id', id]
  obtain ⟨d1, d2, -⟩ := decode_spec (toAffineCompressed P)
  obtain ⟨Q, hQ⟩ := d2 P.1 (length_natToLE _ _) (by rw [hy]; exact h)
  obtain ⟨-, g1, g2, g3⟩ := d1 Q hQ
  rw [hy] at g2
  rw [hn, h3] at g3
  have hx : Q.1 = P.1 := by
    have gc : OnCurve (Q.1, P.2) := by rw [← g2]; exact g1
    rcases g3 with g3 | g3
    · rw [g3]
      rcases same_y (x := Q.1) (x' := P.1) gc h with e | e
      · rw [e, g3]
      · rw [e, g3, neg_zero]
    · exact same_parity h gc g3
  exact hQ.trans (congrArg Res.ok (Prod.ext hx g2))

/-- `SetBytes` into a point of the curve. -/
def decE (b : List UInt8) : Option E :=
  match h : fromAffineCompressed b with
  | .ok P => some ⟨P, ((decode_spec b).1 P h).2.1⟩
  | _ => none

theorem decE_iff (b : List UInt8) (P : E) : decE b = some P ↔ fromAffineCompressed b = .ok P.1 := by
  unfold decE
  split
  · rename_i Q hQ
    constructor
    · intro h
      have := congrArg E.pt (Option.some.inj h)
      dsimp only at this
      exact hQ.trans (congrArg Res.ok this)
    · intro h
      exact congrArg some (E.ext (Res.ok.inj (hQ.symm.trans h)))
  · rename_i hn
    exact iff_of_false (fun h => by cases h) (fun h => hn _ h)

theorem zero_enc : toAffineCompressed (0 : E).1 = 1 :: List.replicate 31 0 := by
  have e1 : (1 : K).val = 1 := (ZMod.val_one_eq_one_mod p).trans (by decide +kernel)
  have e0 : (0 : K).val = 0 := ZMod.val_zero
  rw [coe_zero]
  unfold toAffineCompressed
  dsimp only
  rw [e1, e0]
  decide +kernel

theorem four_enc : toAffineCompressed four.1 = List.replicate 32 0 := by
  unfold toAffineCompressed four
  dsimp only
  rw [ZMod.val_natCast, ZMod.val_natCast]
  decide +kernel

theorem base_enc : toAffineCompressed base.1 = 0x58 :: List.replicate 31 0x66 := by
  unfold toAffineCompressed base
  dsimp only
  rw [ZMod.val_natCast, ZMod.val_natCast]
  decide +kernel

theorem neg_enc (P : E) : leToNat (toAffineCompressed (-P).1) % 2 ^ 255 = leToNat (toAffineCompressed P.1) % 2 ^ 255 := by
  unfold toAffineCompressed
  rw [le_natToLE (comp_lt _).1, le_natToLE (comp_lt _).1, (comp_lt _).2.1, (comp_lt _).2.1]
  rfl

/-- The contract of the library, met by the curve itself. -/
def lib : Ed.EdLib E where
  base := base
  enc P := toAffineCompressed P.1
  dec := decE
  length_enc _ := length_natToLE _ _
  dec_enc P := (decE_iff _ _).2 (decode_encode P.1 P.2)
  dec_length b _ h := ((decode_spec b).1 _ ((decE_iff _ _).1 h)).1
  kills := kills
  base_order := base_order
  base_ne := base_ne
  enc_zero := zero_enc
  four := four
  four_order := four_order
  four_ne := four_ne
  enc_four := four_enc
  enc_neg := neg_enc
  enc_base := base_enc

theorem mulByCofactor_coe (P : E) : mulByCofactor P.1 = (8 • P).1 := by
  have : 8 • P = (P + P) + (P + P) + ((P + P) + (P + P)) := by
    rw [show 8 = 4 * 2 by rfl, mul_nsmul, two_nsmul, show 4 = 2 * 2 by rfl, mul_nsmul, two_nsmul, two_nsmul]
  rw [this]
  rfl

/-! ## The group -/

/-- The points of the curve are a commutative group under the operations of the library, of order `8 ℓ` with a base point of prime order `ℓ`;
the denominators of the addition formulas never vanish. -/
theorem C114_group :
    Nat.card E = 8 * ell ∧ addOrderOf base = ell ∧ ell.Prime ∧
    (∀ P Q : E, (P + Q).1 = add P.1 Q.1 ∧ (-P).1 = neg P.1 ∧ (0 : E).1 = identity ∧
      1 + edD * P.1.1 * Q.1.1 * P.1.2 * Q.1.2 ≠ 0 ∧ 1 - edD * P.1.1 * Q.1.1 * P.1.2 * Q.1.2 ≠ 0) ∧
    ∀ P : E, (8 * ell) • P = 0 ∧ mulByCofactor P.1 = (8 • P).1 :=
  ⟨card_E, addOrderOf_eq_prime (hp := Verif.Ec.EdSc.fact_ell) base_order base_ne, Verif.Ec.EdSc.fact_ell.out,
    fun P Q => ⟨rfl, rfl, rfl, Edwards.complete good P.2 Q.2⟩, fun P => ⟨kills P, mulByCofactor_coe P⟩⟩

/-- The contract that C112 and C113 rest on is met by the curve itself, with the encodings of this package. -/
theorem C114_contract : ∃ L : Ed.EdLib E, L.base = base ∧ (∀ P : E, L.enc P = toAffineCompressed P.1) ∧
    ∀ (b : List UInt8) (P : E), L.dec b = some P ↔ fromAffineCompressed b = .ok P.1 := by
  exact ⟨lib, rfl, fun _ => rfl, decE_iff⟩

/-! ## Encodings -/

theorem fe (x : K) : feOfBytes (feBytes x) = x := by
  unfold feOfBytes feBytes
  have h := ZMod.val_lt x
  have hp := p_lt
  have e : (2 : Nat) ^ 256 = 2 ^ 255 * 2 := by norm_num
  rw [le_natToLE (by rw [← hp.2.1]; omega), Nat.mod_eq_of_lt (by omega), ZMod.natCast_val, ZMod.cast_id', id]

theorem hl (x : K) : (feBytes x).length = 32 := length_natToLE _ _

theorem hlen2 (x y : K) : (feBytes x ++ feBytes y).length = 64 := by rw [List.length_append, hl, hl]

theorem not_zeros {x y : K} (h : feBytes x ++ feBytes y = List.replicate 64 0) : x = 0 ∧ y = 0 := by
  have et : (feBytes x ++ feBytes y).take 32 = feBytes x := List.take_left' (hl _)
  have ed : (feBytes x ++ feBytes y).drop 32 = feBytes y := List.drop_left' (hl _)
  rw [h] at et ed
  have z : ((leToNat ((List.replicate 64 0).take 32) % 2 ^ 255 : Nat) : K) = 0 := by
    rw [show leToNat ((List.replicate 64 0).take 32) % 2 ^ 255 = 0 by decide +kernel, Nat.cast_zero]
  have z' : ((leToNat ((List.replicate 64 0).drop 32) % 2 ^ 255 : Nat) : K) = 0 := by
    rw [show leToNat ((List.replicate 64 0).drop 32) % 2 ^ 255 = 0 by decide +kernel, Nat.cast_zero]
  constructor
  · rw [← fe x, ← et]; exact z
  · rw [← fe y, ← ed]; exact z'

theorem origin_off : ¬ OnCurve (0, 0) := by
  intro h
  unfold OnCurve at h
  exact one_ne_zero (α := K) (by linear_combination -h)

theorem from_uncompressed (x y : K) (h : ¬ (x = 0 ∧ y = 0)) :
    fromAffineUncompressed (feBytes x ++ feBytes y) = if OnCurve (x, y) then .ok (x, y) else .err := by
  have et : (feBytes x ++ feBytes y).take 32 = feBytes x := List.take_left' (hl _)
  have ed : (feBytes x ++ feBytes y).drop 32 = feBytes y := List.drop_left' (hl _)
  unfold fromAffineUncompressed
  rw [if_neg (not_not.2 (hlen2 x y)), if_neg (fun hz => h (not_zeros hz)), et, ed, fe, fe]

theorem identity_on : OnCurve identity := Edwards.on_zero

theorem fec_err (b : List UInt8) : fromAffineCompressed b = .err ↔ b.length ≠ 32 ∨ ¬ ∃ x, OnCurve (x, feOfBytes b) := by
  obtain ⟨d1, d2, d3⟩ := decode_spec b
  constructor
  · intro he
    by_contra hc
    push Not at hc
    obtain ⟨hc1, x, hx⟩ := hc
    obtain ⟨Q, hQ⟩ := d2 x hc1 hx
    rw [he] at hQ
    cases hQ
  · intro hc
    cases hr : fromAffineCompressed b with
    | err => rfl
    | panic => exact absurd hr d3
    | ok Q =>
      obtain ⟨g1, g2, g3, -⟩ := d1 Q hr
      rcases hc with hc | hc
      · exact absurd g1 hc
      · exact absurd ⟨Q.1, by rw [← g3]; exact g2⟩ hc

theorem ok_ne_err {α : Type} {a : α} : (Res.ok a : Res α) ≠ .err := fun h => by cases h

theorem feu_err (b : List UInt8) : fromAffineUncompressed b = .err ↔
    b.length ≠ 64 ∨ (b ≠ List.replicate 64 0 ∧ ¬ OnCurve (feOfBytes (b.take 32), feOfBytes (b.drop 32))) := by
  unfold fromAffineUncompressed
  generalize List.replicate 64 (0 : UInt8) = z
  generalize identity = i
  dsimp only
  generalize (feOfBytes (b.take 32), feOfBytes (b.drop 32)) = Q
  by_cases hl : b.length = 64
  · rw [if_neg (not_not.2 hl)]
    by_cases hz : b = z
    · rw [if_pos hz]
      exact iff_of_false ok_ne_err (fun h => h.elim (fun h => h hl) (fun h => h.1 hz))
    · rw [if_neg hz]
      by_cases hc : OnCurve Q
      · rw [if_pos hc]
        exact iff_of_false ok_ne_err (fun h => h.elim (fun h => h hl) (fun h => h.2 hc))
      · rw [if_neg hc]
        exact iff_of_true rfl (Or.inr ⟨hz, hc⟩)
  · rw [if_pos hl]
    exact iff_of_true rfl (Or.inl hl)

theorem feu_on (b : List UInt8) (Q : Pnt) (hQ : fromAffineUncompressed b = .ok Q) : OnCurve Q := by
  have hi := identity_on
  revert hQ hi
  unfold fromAffineUncompressed
  generalize List.replicate 64 (0 : UInt8) = z
  generalize identity = i
  dsimp only
  generalize (feOfBytes (b.take 32), feOfBytes (b.drop 32)) = R
  intro hQ hi
  by_cases hl : b.length = 64
  · rw [if_neg (not_not.2 hl)] at hQ
    by_cases hz : b = z
    · rw [if_pos hz] at hQ
      rw [← Res.ok.inj hQ]; exact hi
    · rw [if_neg hz] at hQ
      by_cases hc : OnCurve R
      · rw [if_pos hc] at hQ
        rw [← Res.ok.inj hQ]; exact hc
      · rw [if_neg hc] at hQ
        cases hQ
  · rw [if_pos hl] at hQ
    cases hQ

theorem isOn (P : Pnt) (h : OnCurve P) : isOnCurve P = true := noError_of (decode_encode P h)

theorem feu_round (P : Pnt) (h : OnCurve P) : fromAffineUncompressed (toAffineUncompressed P) = .ok P := by
  have := from_uncompressed P.1 P.2 (fun hz => origin_off (by
    have e : P = (0, 0) := Prod.ext hz.1 hz.2
    rwa [← e]))
  exact this.trans (if_pos h)

/-- Compressed and uncompressed encodings of every point decode to it, whatever decodes is on the curve, and decoding fails exactly on the wrong
length or when there is no point with these coordinates. -/
theorem C114_encodings (P : Pnt) (h : OnCurve P) (b : List UInt8) :
    (toAffineCompressed P).length = 32 ∧ fromAffineCompressed (toAffineCompressed P) = .ok P ∧
    (toAffineUncompressed P).length = 64 ∧ fromAffineUncompressed (toAffineUncompressed P) = .ok P ∧ isOnCurve P = true ∧
    (∀ Q, fromAffineCompressed b = .ok Q ∨ fromAffineUncompressed b = .ok Q → OnCurve Q) ∧
    (fromAffineCompressed b = .err ↔ b.length ≠ 32 ∨ ¬ ∃ x, OnCurve (x, feOfBytes b)) ∧
    (fromAffineUncompressed b = .err ↔ b.length ≠ 64 ∨ (b ≠ List.replicate 64 0 ∧ ¬ OnCurve (feOfBytes (b.take 32), feOfBytes (b.drop 32)))) :=
  ⟨length_natToLE _ _, decode_encode P h, hlen2 _ _, feu_round P h, isOn P h,
    fun Q hQ => hQ.elim (fun h => ((decode_spec b).1 Q h).2.1) (feu_on b Q), fec_err b, feu_err b⟩

/-- "Every point has one encoding" is false: the neutral element has at least four 32-byte encodings, with the second coordinate not reduced or
the sign of zero set; and 64 zeros, which are not coordinates of a point, decode to the neutral element. -/
theorem C114_encodings_violated :
    (∀ v ∈ [1, p + 1, 1 + 2 ^ 255, p + 1 + 2 ^ 255], fromAffineCompressed (natToLE 32 v) = .ok identity) ∧
    natToLE 32 1 ≠ natToLE 32 (p + 1) ∧ natToLE 32 1 ≠ natToLE 32 (1 + 2 ^ 255) ∧
    fromAffineUncompressed (List.replicate 64 0) = .ok identity ∧ ¬ OnCurve (0, 0) := by
  refine ⟨?_, by decide +kernel, by decide +kernel, ?_, ?_⟩
  · intro v hv
    have hv1 : v < 256 ^ 32 ∧ (v % 2 ^ 255) % p = 1 := by
      have : ∀ v ∈ [1, p + 1, 1 + 2 ^ 255, p + 1 + 2 ^ 255], v < 256 ^ 32 ∧ (v % 2 ^ 255) % p = 1 := by decide +kernel
      exact this v hv
    have hy : feOfBytes (natToLE 32 v) = 1 := by
      unfold feOfBytes
      rw [le_natToLE hv1.1, ← Nat.cast_one (R := K), ZMod.natCast_eq_natCast_iff]
      show _ % p = 1 % p
      rw [hv1.2]
      decide +kernel
    obtain ⟨d1, d2, -⟩ := decode_spec (natToLE 32 v)
    obtain ⟨Q, hQ⟩ := d2 0 (length_natToLE _ _) (by rw [hy]; exact Edwards.on_zero)
    obtain ⟨-, g1, g2, -⟩ := d1 Q hQ
    rw [hy] at g2
    have g1' : OnCurve (Q.1, 1) := by rw [← g2]; exact g1
    rw [hQ]
    have : Q.1 = 0 := by
      rcases same_y (x := 0) (x' := Q.1) (y := 1) Edwards.on_zero g1' with e | e
      · exact e
      · rw [e, neg_zero]
    exact congrArg Res.ok (Prod.ext this g2)
  · unfold fromAffineUncompressed
    rw [if_neg (by simp), if_pos rfl]
  · exact origin_off

/-- `Set` takes coordinates other than zero modulo `p`, and accepts exactly those of points. -/
theorem C114_set (x y : Int) (hx : x ≠ 0) (hy : y ≠ 0) (h : ¬ ((x : K) = 0 ∧ (y : K) = 0)) :
    (OnCurve ((x : K), (y : K)) → set x y = .ok ((x : K), (y : K))) ∧ (¬ OnCurve ((x : K), (y : K)) → set x y = .err) := by
  have hb : ∀ z : Int, z ≠ 0 → Big.bytes z ≠ [] := by
    intro z hz hb
    have := congrArg beToNat hb
    unfold Big.bytes at this
    rw [beToNat_natToBE] at this
    exact hz (Int.natAbs_eq_zero.1 this)
  have e : set x y = if OnCurve ((x : K), (y : K)) then .ok ((x : K), (y : K)) else .err := by
    unfold set
    rw [if_neg (hb x hx), if_neg (hb y hy)]
    dsimp only
    rw [if_neg (by decide)]
    exact from_uncompressed _ _ h
  rw [e]
  exact ⟨fun h => if_pos h, fun h => if_neg h⟩

/-- "`Set` gives the point with these coordinates or an error" is false: one zero coordinate is enough for the neutral element, whatever the
other one is; so the points of order two and four, which have a zero coordinate, cannot be set. -/
theorem C114_set_violated :
    (∀ z : Int, set 0 z = .ok identity ∧ set z 0 = .ok identity) ∧
    OnCurve (0, -1) ∧ set 0 (-1) = .ok identity ∧ (0, (-1 : K)) ≠ identity := by
  have e : ∀ z : Int, set 0 z = .ok identity ∧ set z 0 = .ok identity := by
    intro z
    have h0 : Big.bytes 0 = [] := by decide +kernel
    unfold set
    rw [h0]
    constructor <;> dsimp only <;> by_cases hz : Big.bytes z = []
    · rw [if_pos rfl, if_pos hz, if_pos (by decide)]
    · rw [if_pos rfl, if_neg hz, if_pos (by decide)]
    · rw [if_pos rfl, if_pos hz, if_pos (by decide)]
    · rw [if_pos rfl, if_neg hz, if_pos (by decide)]
  refine ⟨e, ?_, (e _).1, ?_⟩
  · unfold OnCurve
    ring
  · intro h
    have := (Prod.mk.inj h).2
    exact two_ne (by linear_combination -this)

/-! ## The hash to the curve -/

/-- `sqrtRatio` says whether the quotient is a square and gives its even root, or the root of `sqrt(-1)` times it. -/
theorem C114_sqrt_ratio (u v : K) (hv : v ≠ 0) :
    ((sqrtRatio u v).2 = true ↔ IsSquare (u / v)) ∧ (sqrtRatio u v).1.val % 2 = 0 ∧
    (IsSquare (u / v) → (sqrtRatio u v).1 ^ 2 = u / v) ∧ (¬ IsSquare (u / v) → (sqrtRatio u v).1 ^ 2 = sqrtM1 * (u / v)) ∧ sqrtM1 ^ 2 = -1 := by
  obtain ⟨h1, h2, h3, h4⟩ := sqrtRatio_spec u v hv
  refine ⟨h1, h2, fun h => ?_, fun h => ?_, by rw [pow_two]; exact sqrtM1_sq⟩
  · rw [eq_div_iff hv, mul_comm]
    exact h3 h
  · rw [← mul_div_assoc, eq_div_iff hv, mul_comm, h4 h, mul_comm]

/-- The point with Montgomery abscissa `u`. -/
theorem edwards_of_mont {u : K} (hs : IsSquare (mont u)) (hu : u ≠ -1) : ∃ x, OnCurve (x, (u - 1) / (u + 1)) := by
  have h1 : u + 1 ≠ 0 := fun h => hu (eq_neg_of_add_eq_zero_left h)
  obtain ⟨v, hv⟩ := hs
  obtain ⟨s, hs⟩ := sq_negA2
  have hd := edD_mont
  have hA := A2_ne
  have hedD : edD = -(montA - 2) / (montA + 2) := by rw [eq_div_iff hA]; exact hd
  by_cases hu0 : u = 0
  · refine ⟨0, ?_⟩
    rw [on_iff, hu0]
    norm_num
  have hv0 : v ≠ 0 := by
    rintro rfl
    rw [mul_zero] at hv
    have hq : u ^ 2 + montA * u + 1 = 0 := by
      have : u * (u ^ 2 + montA * u + 1) = 0 := by
        unfold mont at hv
        linear_combination hv
      exact (mul_eq_zero.1 this).resolve_left hu0
    exact ns_disc ⟨2 * u + montA, by linear_combination -4 * hq⟩
  refine ⟨s * u / v, ?_⟩
  have hq : u ^ 2 + montA * u + 1 ≠ 0 := by
    intro hq
    apply hv0
    have : v * v = 0 := by
      rw [← hv]
      unfold mont
      linear_combination u * hq
    exact mul_self_eq_zero.1 this
  have hx2 : (s * u / v) ^ 2 = -(montA + 2) * u / (u ^ 2 + montA * u + 1) := by
    have hv2 : v ^ 2 = u * (u ^ 2 + montA * u + 1) := by
      rw [pow_two, ← hv]
      unfold mont
      ring
    rw [div_pow, hv2, mul_pow, pow_two s, ← hs, div_eq_div_iff (mul_ne_zero hu0 hq) hq]
    ring
  have hdy : edD * ((u - 1) / (u + 1)) ^ 2 + 1 = 4 * (u ^ 2 + montA * u + 1) / ((montA + 2) * (u + 1) ^ 2) := by
    rw [hedD]
    field_simp
    ring
  rw [on_iff, hx2, hdy]
  generalize u ^ 2 + montA * u + 1 = q at hq
  field_simp
  ring

/-- `Hash` never fails: with `r` the first 255 bits of the digest it takes the point of the Elligator map of RFC 9380 (6.7.1, with `Z = 2`),
gives its first coordinate the parity of bit 255 (unless that coordinate is zero) and multiplies by the cofactor, so the result is in the
subgroup of order `ℓ`. -/
theorem C114_hash (sha512 : List UInt8 → List UInt8) (hlen : ∀ m, (sha512 m).length = 64) (m : List UInt8) :
    ∃ (r u : K) (Q H : E), r = ((leToNat ((sha512 m).take 32) % 2 ^ 255 : Nat) : K) ∧
      (u = -486662 / (1 + 2 * r ^ 2) ∨ u = 486662 / (1 + 2 * r ^ 2) - 486662) ∧
      (IsSquare (mont (-486662 / (1 + 2 * r ^ 2))) → u = -486662 / (1 + 2 * r ^ 2)) ∧
      (¬ IsSquare (mont (-486662 / (1 + 2 * r ^ 2))) → u = 486662 / (1 + 2 * r ^ 2) - 486662) ∧
      IsSquare (mont u) ∧ Q.1.2 = (u - 1) / (u + 1) ∧ (Q.1.1 = 0 ∨ Q.1.1.val % 2 = leToNat ((sha512 m).take 32) / 2 ^ 255) ∧
      hash sha512 m = some H.1 ∧ H = 8 • Q ∧ ell • H = 0 := by
  set res := (sha512 m).take 32 with hres
  have hrl : res.length = 32 := by rw [hres, List.length_take, hlen]; rfl
  set r := feOfBytes res with hr
  have hs := elligator_square r
  have hu := elligator_ne r
  set u := elligatorEncode r with huu
  have hb := leToNat_lt res
  rw [hrl] at hb
  have hbit : leToNat res / 2 ^ 255 < 2 := by
    rw [Nat.div_lt_iff_lt_mul (by norm_num)]
    have e : (256 : Nat) ^ 32 = 2 * 2 ^ 255 := by norm_num
    omega
  have hy := ZMod.val_lt ((u - 1) * (u + 1)⁻¹)
  have hpl := p_lt
  have hv : ((u - 1) * (u + 1)⁻¹).val + 2 ^ 255 * (leToNat res / 2 ^ 255) < 256 ^ 32 := by
    have e : (256 : Nat) ^ 32 = 2 ^ 255 + 2 ^ 255 := by norm_num
    rw [e]
    have : 2 ^ 255 * (leToNat res / 2 ^ 255) ≤ 2 ^ 255 * 1 := Nat.mul_le_mul_left _ (by omega)
    omega
  have hfe : feOfBytes (natToLE 32 (((u - 1) * (u + 1)⁻¹).val + 2 ^ 255 * (leToNat res / 2 ^ 255))) = (u - 1) / (u + 1) := by
    unfold feOfBytes
    rw [le_natToLE hv, Nat.add_mul_mod_self_left, Nat.mod_eq_of_lt (by omega), ZMod.natCast_val, ZMod.cast_id', id, div_eq_mul_inv]
  have hbit2 : leToNat (natToLE 32 (((u - 1) * (u + 1)⁻¹).val + 2 ^ 255 * (leToNat res / 2 ^ 255))) / 2 ^ 255 = leToNat res / 2 ^ 255 := by
    rw [le_natToLE hv, Nat.add_mul_div_left _ _ (by norm_num), Nat.div_eq_of_lt (by omega), Nat.zero_add]
  obtain ⟨d1, d2, -⟩ := decode_spec (natToLE 32 (((u - 1) * (u + 1)⁻¹).val + 2 ^ 255 * (leToNat res / 2 ^ 255)))
  obtain ⟨x, hx⟩ := edwards_of_mont hs hu
  obtain ⟨Q, hQ⟩ := d2 x (length_natToLE _ _) (by rw [hfe]; exact hx)
  obtain ⟨-, g1, g2, g3⟩ := d1 Q hQ
  rw [hfe] at g2
  rw [hbit2] at g3
  obtain ⟨e1, e2⟩ := elligator_spec r
  rw [montA_val] at e1 e2
  have e2' : -(-486662 / (1 + 2 * r ^ 2)) - 486662 = 486662 / (1 + 2 * r ^ 2) - 486662 := by ring
  rw [e2'] at e2
  refine ⟨r, u, ⟨Q, g1⟩, 8 • ⟨Q, g1⟩, rfl, ?_, e1, e2, hs, g2, g3, ?_, rfl, ?_⟩
  · by_cases h : IsSquare (mont (-486662 / (1 + 2 * r ^ 2)))
    · exact Or.inl (e1 h)
    · exact Or.inr (e2 h)
  · unfold hash toEdwards
    dsimp only
    rw [← hres, ← hr, ← huu, if_neg hu, hQ]
    exact congrArg some (mulByCofactor_coe ⟨Q, g1⟩)
  · rw [← mul_nsmul]
    exact kills _

/-- Concrete case: Ed25519 signatures over the curve itself. -/
example : ∃ priv pub sig, EdSig.newKeyFromSeed (EdSig.rfc fun m => (m ++ List.replicate 64 7).take 64) lib (List.replicate 32 5) = .ok priv ∧
    EdSig.publicOf priv = .ok pub ∧ EdSig.sign (EdSig.rfc fun m => (m ++ List.replicate 64 7).take 64) lib priv [1, 2] = .ok sig ∧ sig.length = 64 ∧
    EdSig.verify (EdSig.rfc fun m => (m ++ List.replicate 64 7).take 64) lib pub [1, 2] sig = .ok true :=
  EdSig.C113_sign_verify (.rfc _ (fun m => by simp)) lib _ _ (by simp)

end Verif.Ed25519
