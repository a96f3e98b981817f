import Verif.Bls381.G2Nat
import Verif.Native.HashCurve
import Mathlib.FieldTheory.Finite.Basic

/-!
# Hashing to G1 and G2: what both share
(`crypto/core/curves/native/bls12381/g1.go`, `crypto/core/curves/native/bls12381/g2.go`)
-/

set_option maxRecDepth 20000
set_option linter.unusedSectionVars false

namespace Verif.Bls381
open Verif.Bytes Verif.Native Verif.Native.Weier Verif.Native.Sswu P3

/-! ## The isogeny map -/

section model
variable {E : Type} (O : FOps E)

/-- The coefficients of an isogeny, constant term first (crypto/core/curves/native/bls12381/g1.go:81-529,
crypto/core/curves/native/bls12381/g2.go:171-490). -/
structure IsoTab (E : Type) where
  xNum : List E
  xDen : List E
  yNum : List E
  yDen : List E

/-- The powers `xs[i]` of `isogenyMap` (crypto/core/curves/native/bls12381/g1.go:1094-1100,
crypto/core/curves/native/bls12381/g2.go:1093-1099).  The slice has as many entries as the longest table. -/
def isoPow (x : E) : Nat → E
  | 0 => O.one
  | 1 => x
  | 2 => O.square x
  | i + 3 => O.mul (isoPow x (i + 2)) x

/-- `computeKFp` and `computeKFp2` (crypto/core/curves/native/bls12381/g1.go:1118-1124,
crypto/core/curves/native/bls12381/g2.go:1116-1122). -/
def computeK (x : E) (k : List E) : E :=
  (k.zipIdx).foldl (fun out ki => O.add out (O.mul (isoPow O x ki.2) ki.1)) O.zero

/-- `isogenyMap` (crypto/core/curves/native/bls12381/g1.go:1092-1116, crypto/core/curves/native/bls12381/g2.go:1091-1114).  `Invert` of
zero leaves zero: in G1 because that is its result, in G2 because the receiver, a new point, is zero. -/
def isogenyMap (I : IsoTab E) (a : P3 E) : P3 E :=
  let xNum := computeK O a.x I.xNum
  let xDen := computeK O a.x I.xDen
  let yNum := computeK O a.x I.yNum
  let yDen := computeK O a.x I.yDen
  let x := (O.invert xDen).1
  let x := O.mul x xNum
  let y := (O.invert yDen).1
  let y := O.mul y yNum
  let y := O.mul y a.y
  ⟨x, y, O.one⟩

end model

/-- The 96-byte buffer whose first 64 bytes are the reversed piece (crypto/core/curves/native/bls12381/g1.go:565-569); the last 32 are
zero. -/
def wideBuf64 (piece : List UInt8) : List UInt8 := piece.reverse ++ List.replicate 32 0

/-! ## Specification -/

/-- SPEC: RFC 9380, section 5.3: `n` uniform bytes, for the fixed-length hash or the extendable-output function. -/
def uniformN (n : Nat) (h : Hasher) (msg dst : List UInt8) : List UInt8 :=
  match h.fn with
  | .xmd H => Hash.rfcExpand H msg dst n
  | .xof x => Hash.rfcXof x msg dst n

/-- SPEC: RFC 9380, section 5.2 with `L = 64`: the `i`-th piece of 64 bytes, big-endian, modulo `p`. -/
def piece64 (u : List UInt8) (i : Nat) : ZMod Fp.p := (beToNat ((u.drop (64 * i)).take 64) : ZMod Fp.p)

/-- The value at `x` of the polynomial with the given coefficients, constant term first. -/
def evk {K : Type} [_root_.Field K] (l : List K) (x : K) : K := l.foldr (fun c acc => c + x * acc) 0

theorem evk_nil {K : Type} [_root_.Field K] (x : K) : evk [] x = 0 := rfl
theorem evk_cons {K : Type} [_root_.Field K] (c : K) (l : List K) (x : K) : evk (c :: l) x = c + x * evk l x := rfl

/-! ## Facts -/

theorem expand_uniformN {h : Hasher} (hw : h.WF) (n : Nat) (hn : 1 ≤ n) (msg dst : List UInt8) (hd : dst.length ≤ 255) :
    h.expand msg dst n = .ok (uniformN n h msg dst) ∧ (uniformN n h msg dst).length = n := by
  obtain ⟨nm, fn⟩ := h
  cases fn with
  | xmd H =>
    have e : Hash.expandNative H msg dst n = .ok (Hash.rfcExpand H msg dst n) := by
      rw [Hash.C55_native_rfc H hw msg dst n hn, if_neg (by omega)]
    obtain ⟨out, ho, hl⟩ := Hash.C55_native_never_refuses H msg dst hw n hn
    rw [e] at ho
    obtain rfl := Res.ok.inj ho
    exact ⟨e, hl⟩
  | xof x =>
    refine ⟨?_, hw _ _⟩
    show Res.ok (Hash.expandXof x msg dst n) = _
    rw [Hash.C55_xof_rfc, if_neg (by omega)]
    rfl

theorem wide64 (piece : List UInt8) (h : piece.length = 64) : Fp.Rep (Fp.setBytesWide (wideBuf64 piece)) (beToNat piece : ZMod Fp.p) := by
  have := Fp.setBytesWide_spec (wideBuf64 piece) (by unfold wideBuf64; rw [List.length_append, List.length_reverse, h, List.length_replicate])
  have z : leToNat (List.replicate 32 (0 : UInt8)) = 0 := by decide
  have e : leToNat (wideBuf64 piece) = beToNat piece := by
    unfold wideBuf64
    rw [leToNat_append, z, mul_zero, add_zero, leToNat_reverse]
  rwa [e] at this

section
variable {E K : Type} [_root_.Field K] [DecidableEq K] {O : FOps E} {R : E → K → Prop} {b : K} (F : FOK O R b)
include F

theorem isoPow_spec' {x : E} {v : K} (hx : R x v) (i : Nat) : R (isoPow O x i) (v ^ i) := by
  induction i using isoPow.induct with
  | case1 => rw [isoPow, pow_zero]; exact F.one
  | case2 => rw [isoPow, pow_one]; exact hx
  | case3 => rw [isoPow, pow_two]; exact F.square hx
  | case4 i ih => rw [isoPow, pow_succ]; exact F.mul ih hx

theorem computeK_spec {x : E} {v : K} (hx : R x v) {k : List E} {c : List K} (hk : List.Forall₂ R k c) : R (computeK O x k) (evk c v) := by
  have key : ∀ {k : List E} {c : List K}, List.Forall₂ R k c → ∀ (o : E) (s : K) (i : Nat), R o s →
      R ((k.zipIdx i).foldl (fun out ki => O.add out (O.mul (isoPow O x ki.2) ki.1)) o) (s + v ^ i * evk c v) := by
    intro k c h
    induction h with
    | nil => intro o s i ho; rw [evk_nil, mul_zero, add_zero]; exact ho
    | cons h0 _ ih =>
      intro o s i ho
      rw [List.zipIdx_cons, List.foldl_cons]
      have := ih _ _ (i + 1) (F.add ho (F.mul (isoPow_spec' F hx i) h0))
      rw [evk_cons]
      convert this using 1
      ring
  have := key hk O.zero 0 0 F.zero
  rw [pow_zero, one_mul, zero_add] at this
  exact this

/-- The isogeny map on coordinates, also where a denominator vanishes. -/
theorem isogenyMap_spec (hinv : ∀ {a : E} {x : K}, R a x → R (O.invert a).1 x⁻¹) {I : IsoTab E} {nx dx ny dy : List K}
    (h1 : List.Forall₂ R I.xNum nx) (h2 : List.Forall₂ R I.xDen dx) (h3 : List.Forall₂ R I.yNum ny) (h4 : List.Forall₂ R I.yDen dy)
    {a : P3 E} {v w : K} (hx : R a.x v) (hy : R a.y w) :
    R (isogenyMap O I a).x (evk nx v / evk dx v) ∧ R (isogenyMap O I a).y (w * (evk ny v / evk dy v)) ∧ R (isogenyMap O I a).z 1 := by
  unfold isogenyMap
  dsimp only
  refine ⟨?_, ?_, F.one⟩
  · have := F.mul (hinv (computeK_spec F hx h2)) (computeK_spec F hx h1)
    rw [div_eq_mul_inv, mul_comm]
    exact this
  · have := F.mul (F.mul (hinv (computeK_spec F hx h4)) (computeK_spec F hx h3)) hy
    rw [div_eq_mul_inv]
    convert this using 1
    ring

end

/-! ## Squares in finite fields -/

section
variable {K : Type} [_root_.Field K]

/-- A non-square times a square other than zero is a non-square. -/
theorem nonsq_mul {z s : K} (hz : ¬ IsSquare z) (hs : s ≠ 0) : ¬ IsSquare (z * s ^ 2) := by
  rintro ⟨y, hy⟩
  apply hz
  refine ⟨y / s, ?_⟩
  field_simp
  linear_combination hy

/-- The product of two non-squares of a finite field is a square. -/
theorem nonsq_nonsq [Finite K] (h2 : (2 : K) ≠ 0) {a b : K} (ha : ¬ IsSquare a) (hb : ¬ IsSquare b) : IsSquare (a * b) := by
  have := Fintype.ofFinite K
  have hc : ringChar K ≠ 2 := by
    intro h
    apply h2
    have := ringChar.Nat.cast_ringChar (R := K)
    rw [h] at this
    exact_mod_cast this
  have a0 : a ≠ 0 := fun h => ha (h ▸ ⟨0, by ring⟩)
  have b0 : b ≠ 0 := fun h => hb (h ▸ ⟨0, by ring⟩)
  have e1 := (FiniteField.pow_dichotomy hc a0).resolve_left (fun h => ha ((FiniteField.isSquare_iff hc a0).2 h))
  have e2 := (FiniteField.pow_dichotomy hc b0).resolve_left (fun h => hb ((FiniteField.isSquare_iff hc b0).2 h))
  refine (FiniteField.isSquare_iff hc (mul_ne_zero a0 b0)).2 ?_
  rw [mul_pow, e1, e2]
  ring

variable [DecidableEq K]

/-- The image of the simplified SWU map is unique. -/
theorem swu_unique' {a b z : K} {sgn : K → Nat} (hs : ∀ y, y ≠ 0 → sgn (-y) ≠ sgn y) {u x y x' y' : K}
    (h : IsSwu a b z sgn u x y) (h' : IsSwu a b z sgn u x' y') : x = x' ∧ y = y' := by
  obtain ⟨h1, h2, h3⟩ := h
  obtain ⟨h1', h2', h3'⟩ := h'
  have hx : x = x' := by
    rcases h1 with ⟨k, rfl⟩ | ⟨k, rfl⟩ <;> rcases h1' with ⟨k', rfl⟩ | ⟨k', rfl⟩
    · rfl
    · exact absurd k k'
    · exact absurd k' k
    · rfl
  subst hx
  refine ⟨rfl, ?_⟩
  have hyy : (y - y') * (y + y') = 0 := by linear_combination h2 - h2'
  rcases mul_eq_zero.1 hyy with k | k
  · exact sub_eq_zero.1 k
  · have e : y = -y' := eq_neg_of_add_eq_zero_left k
    by_cases h0 : y' = 0
    · rw [e, h0, neg_zero]
    · have hy0 : y ≠ 0 := by rw [e]; exact neg_ne_zero.2 h0
      exact absurd (by rw [← e, h3.resolve_left hy0, h3'.resolve_left h0]) (hs y' h0)

end

/-- Euler's criterion in the base field, checked by the kernel. -/
theorem fp_not_square {g : Nat} (hg : g % Fp.p ≠ 0) (h : Primes.pw Fp.p 400 g ((Fp.p - 1) / 2) 1 % Fp.p ≠ 1 % Fp.p) :
    ¬ IsSquare (g : ZMod Fp.p) := by
  rintro ⟨y, hy⟩
  apply h
  have hlt : (Fp.p - 1) / 2 < 2 ^ 400 := by decide +kernel
  have h2 : 2 * ((Fp.p - 1) / 2) = Fp.p - 1 := by decide +kernel
  have e := Primes.pw_spec Fp.p 400 g ((Fp.p - 1) / 2) 1 hlt
  have hy0 : y ≠ 0 := by
    rintro rfl
    rw [mul_zero, ZMod.natCast_eq_zero_iff] at hy
    exact hg (Nat.mod_eq_zero_of_dvd hy)
  rw [hy, ← pow_two, ← pow_mul, h2, ZMod.pow_card_sub_one_eq_one hy0, Nat.cast_one, one_mul] at e
  have e' : ((Primes.pw Fp.p 400 g ((Fp.p - 1) / 2) 1 : Nat) : ZMod Fp.p) = ((1 : Nat) : ZMod Fp.p) := by rw [e, Nat.cast_one]
  exact (ZMod.natCast_eq_natCast_iff _ _ _).1 e'

/-! ## The same computation on two representations -/

section
variable {E E' K : Type} [_root_.Field K] [DecidableEq K] {O : FOps E} {O' : FOps E'} {R : E → K → Prop} {R' : E' → K → Prop} {b : K}

/-- Two stored elements that represent the same element. -/
def Same (R : E → K → Prop) (R' : E' → K → Prop) (a : E) (a' : E') : Prop := ∃ x, R a x ∧ R' a' x

/-- Two stored triples, on the curve or not, that represent the same triple. -/
structure Same3 (R : E → K → Prop) (R' : E' → K → Prop) (e : P3 E) (e' : P3 E') : Prop where
  x : Same R R' e.x e'.x
  y : Same R R' e.y e'.y
  z : Same R R' e.z e'.z

variable (F : FOK O R b) (F' : FOK O' R' b)
include F F'

theorem s_add {a c a' c'} (h : Same R R' a a') (k : Same R R' c c') : Same R R' (O.add a c) (O'.add a' c') := by
  obtain ⟨x, h1, h2⟩ := h; obtain ⟨y, k1, k2⟩ := k; exact ⟨_, F.add h1 k1, F'.add h2 k2⟩
theorem s_sub {a c a' c'} (h : Same R R' a a') (k : Same R R' c c') : Same R R' (O.sub a c) (O'.sub a' c') := by
  obtain ⟨x, h1, h2⟩ := h; obtain ⟨y, k1, k2⟩ := k; exact ⟨_, F.sub h1 k1, F'.sub h2 k2⟩
theorem s_mul {a c a' c'} (h : Same R R' a a') (k : Same R R' c c') : Same R R' (O.mul a c) (O'.mul a' c') := by
  obtain ⟨x, h1, h2⟩ := h; obtain ⟨y, k1, k2⟩ := k; exact ⟨_, F.mul h1 k1, F'.mul h2 k2⟩
theorem s_square {a a'} (h : Same R R' a a') : Same R R' (O.square a) (O'.square a') := by
  obtain ⟨x, h1, h2⟩ := h; exact ⟨_, F.square h1, F'.square h2⟩
theorem s_double {a a'} (h : Same R R' a a') : Same R R' (O.double a) (O'.double a') := by
  obtain ⟨x, h1, h2⟩ := h; exact ⟨_, F.double h1, F'.double h2⟩
theorem s_neg {a a'} (h : Same R R' a a') : Same R R' (O.neg a) (O'.neg a') := by
  obtain ⟨x, h1, h2⟩ := h; exact ⟨_, F.neg h1, F'.neg h2⟩
theorem s_mulBy3b {a a'} (h : Same R R' a a') : Same R R' (O.mulBy3b a) (O'.mulBy3b a') := by
  obtain ⟨x, h1, h2⟩ := h; exact ⟨_, F.mulBy3b h1, F'.mulBy3b h2⟩
theorem s_isZero {a a'} (h : Same R R' a a') : O.isZero a = O'.isZero a' := by
  obtain ⟨x, h1, h2⟩ := h; rw [F.isZero h1, F'.isZero h2]
theorem s_zero_flag {a a'} (h : Same R R' a a') : O.isZero a = 0 ∧ O'.isZero a' = 0 ∨ O.isZero a = 1 ∧ O'.isZero a' = 1 := by
  obtain ⟨x, h1, h2⟩ := h
  rw [F.isZero h1, F'.isZero h2]
  by_cases hx : x = 0
  · right; exact ⟨if_pos hx, if_pos hx⟩
  · left; exact ⟨if_neg hx, if_neg hx⟩
theorem s_equal {a c a' c'} (h : Same R R' a a') (k : Same R R' c c') : O.equal a c = O'.equal a' c' := by
  obtain ⟨x, h1, h2⟩ := h; obtain ⟨y, k1, k2⟩ := k; rw [F.equal h1 k1, F'.equal h2 k2]
theorem s_cmove {a c a' c'} (h : Same R R' a a') (k : Same R R' c c') {t : UInt64} (ht : t = 0 ∨ t = 1) :
    Same R R' (O.cmove a c t) (O'.cmove a' c' t) := by
  rcases ht with rfl | rfl
  · rw [F.cmove0, F'.cmove0]; exact h
  · rw [F.cmove1, F'.cmove1]; exact k
theorem s_zero : Same R R' O.zero O'.zero := ⟨0, F.zero, F'.zero⟩
theorem s_one : Same R R' O.one O'.one := ⟨1, F.one, F'.one⟩

theorem s3_identity : Same3 R R' (identity O) (identity O') := ⟨s_zero F F', s_one F F', s_zero F F'⟩

theorem s3_add {e f e' f'} (h : Same3 R R' e e') (k : Same3 R R' f f') : Same3 R R' (add O e f) (add O' e' f') := by
  have t0 := s_mul F F' h.x k.x
  have t1 := s_mul F F' h.y k.y
  have t2 := s_mul F F' h.z k.z
  have t3 := s_sub F F' (s_mul F F' (s_add F F' h.x h.y) (s_add F F' k.x k.y)) (s_add F F' t0 t1)
  have t4 := s_sub F F' (s_mul F F' (s_add F F' h.y h.z) (s_add F F' k.y k.z)) (s_add F F' t1 t2)
  have y3 := s_mulBy3b F F' (s_sub F F' (s_mul F F' (s_add F F' h.x h.z) (s_add F F' k.x k.z)) (s_add F F' t0 t2))
  have t0' := s_add F F' t0 (s_double F F' t0)
  have t2' := s_mulBy3b F F' t2
  have z3 := s_add F F' t1 t2'
  have t1' := s_sub F F' t1 t2'
  exact ⟨s_sub F F' (s_mul F F' t3 t1') (s_mul F F' t4 y3), s_add F F' (s_mul F F' t1' z3) (s_mul F F' y3 t0'),
    s_add F F' (s_mul F F' z3 t4) (s_mul F F' t0' t3)⟩

theorem s3_flag {e e'} (h : Same3 R R' e e') : isIdentity O e = isIdentity O' e' ∧ (isIdentity O e = 0 ∨ isIdentity O e = 1) := by
  unfold isIdentity
  rcases s_zero_flag F F' h.z with ⟨h1, h2⟩ | ⟨h1, h2⟩
  · exact ⟨by rw [h1, h2], Or.inl h1⟩
  · exact ⟨by rw [h1, h2], Or.inr h1⟩

theorem s3_double {e e'} (h : Same3 R R' e e') : Same3 R R' (double O e) (double O' e') := by
  obtain ⟨fl, fb⟩ := s3_flag F F' h
  have t0 := s_square F F' h.y
  have z8 := s_double F F' (s_double F F' (s_double F F' t0))
  have t2 := s_mulBy3b F F' (s_square F F' h.z)
  have t0' := s_sub F F' t0 (s_add F F' t2 (s_double F F' t2))
  unfold double
  dsimp only
  rw [← fl]
  refine ⟨?_, ?_, ?_⟩ <;> dsimp only
  · exact s_cmove F F' (s_double F F' (s_mul F F' t0' (s_mul F F' h.x h.y))) (s_zero F F') fb
  · exact s_cmove F F' (s_add F F' (s_mul F F' t0' (s_add F F' t0 t2)) (s_mul F F' t2 z8)) (s_one F F') fb
  · exact s_cmove F F' (s_mul F F' (s_mul F F' h.y h.z) z8) (s_zero F F') fb

theorem s3_neg {e e'} (h : Same3 R R' e e') : Same3 R R' (neg O e) (neg O' e') := by
  obtain ⟨fl, fb⟩ := s3_flag F F' h
  unfold neg fneg
  rw [← fl]
  refine ⟨h.x, s_cmove F F' h.y (s_neg F F' h.y) ?_, h.z⟩
  rcases fb with e | e <;> rw [e]
  · right; decide
  · left; decide

theorem s3_sub {e f e' f'} (h : Same3 R R' e e') (k : Same3 R R' f f') : Same3 R R' (sub O e f) (sub O' e' f') :=
  s3_add F F' h (s3_neg F F' k)

theorem s3_cmove {e f e' f'} (h : Same3 R R' e e') (k : Same3 R R' f f') {t : UInt64} (ht : t = 0 ∨ t = 1) :
    Same3 R R' (cmove O e f t) (cmove O' e' f' t) :=
  ⟨s_cmove F F' h.x k.x ht, s_cmove F F' h.y k.y ht, s_cmove F F' h.z k.z ht⟩

theorem s3_loop (n : Nat) : ∀ (x : UInt64) {r t r' t'}, Same3 R R' r r' → Same3 R R' t t' →
    Same3 R R' (mulByXLoop O n x r t) (mulByXLoop O' n x r' t') := by
  induction n with
  | zero => intro x r t r' t' hr ht; exact hr
  | succ n ih =>
    intro x r t r' t' hr ht
    unfold mulByXLoop
    by_cases h0 : x = 0
    · rw [if_pos h0, if_pos h0]; exact hr
    · rw [if_neg h0, if_neg h0]
      have hd := s3_double F F' ht
      have hb : x &&& 1 = 0 ∨ x &&& 1 = 1 := by
        have hand : (x &&& 1).toNat = x.toNat % 2 := by
          rw [UInt64.toNat_and, show (1 : UInt64).toNat = 2 ^ 1 - 1 from rfl, Nat.and_two_pow_sub_one_eq_mod, pow_one]
        rcases Nat.mod_two_eq_zero_or_one x.toNat with h | h
        · left; exact UInt64.toNat_inj.1 (by rw [hand, h]; rfl)
        · right; exact UInt64.toNat_inj.1 (by rw [hand, h]; rfl)
      exact ih _ (s3_cmove F F' hr (s3_add F F' hr hd) hb) hd

theorem s3_mulByX {e e'} (h : Same3 R R' e e') : Same3 R R' (mulByX O e) (mulByX O' e') :=
  s3_neg F F' (s3_loop F F' 64 _ (s3_identity F F') h)

theorem s3_onCurve {e e'} (h : Same3 R R' e e') : isOnCurve O e = isOnCurve O' e' := by
  have hb : Same R R' O.b O'.b := ⟨b, F.coeff, F'.coeff⟩
  unfold isOnCurve
  dsimp only
  have e1 := s_equal F F' (s_mul F F' (s_square F F' h.y) h.z)
    (s_add F F' (s_mul F F' (s_square F F' h.x) h.x) (s_mul F F' (s_mul F F' (s_square F F' h.z) h.z) hb))
  have e2 := (s3_flag F F' h).1
  first
  | rw [e1, e2]
  | rw [e1]

end

end Verif.Bls381
