import Verif.Bls381.PairSteps
import Verif.Bls381.AteK12

/-!
# The Miller loop (crypto/core/curves/native/bls12381/pairings.go:78-159)
-/

set_option linter.unusedSectionVars false
set_option maxRecDepth 20000

namespace Verif.Bls381.Pair
open Verif.Native Verif.Native.Weier WeierstrassCurve WeierstrassCurve.Affine

/-- The multiples of the point at which the lines are taken: for every remaining bit the tangent at `m` times the point, and if the bit is
one the line through twice that and the point; at the end one more tangent. -/
def stp : List UInt64 → ℕ → List (ℕ × ℕ)
  | [], m => [(m, m)]
  | x :: xs, m => if x = 1 then (m, m) :: (2 * m, 1) :: stp xs (2 * m + 1) else (m, m) :: stp xs (2 * m)

/-- The multiple reached. -/
def endM : List UInt64 → ℕ → ℕ
  | [], m => m
  | x :: xs, m => if x = 1 then endM xs (2 * m + 1) else endM xs (2 * m)

section prep
variable {K : Type} [Field K] [DecidableEq K] {b : K} {E : Type} {O : FOps E} {Rep : E → K → Prop} (F : FOK O Rep b)
  {q : P3 E} {xq yq : K} (hx : Rep q.x xq) (hy : Rep q.y yq) (hq : (curve 0 b).Nonsingular xq yq)

/-- The list of coefficients is the one for the multiples of the point. -/
def GoodList (Rep : E → K → Prop) (Q : Pt 0 b) (l : List (Coeffs E)) (s : List (ℕ × ℕ)) : Prop :=
  List.Forall₂ (fun co ij => Good Rep co (ij.1 • Q) (ij.2 • Q)) l s

include F hx hy

theorem ne_of_order {B m : ℕ} (hord : ∀ j, 0 < j → j < B → j • (.some xq yq hq : Pt 0 b) ≠ 0) (hm : 0 < m) (hb : 2 * m + 1 < B) :
    ∀ y' h', (2 * m) • (.some xq yq hq : Pt 0 b) ≠ .some xq y' h' := by
  intro y' h' e
  have h2 : y' = yq ∨ y' = -yq := by
    have e1 := eqn_iff.1 h'.1
    have e2 := eqn_iff.1 hq.1
    have : (y' - yq) * (y' + yq) = 0 := by linear_combination e1 - e2
    rcases mul_eq_zero.1 this with h | h
    · exact Or.inl (sub_eq_zero.1 h)
    · exact Or.inr (eq_neg_of_add_eq_zero_left h)
  rcases h2 with rfl | rfl
  · have e' : (2 * m - 1) • (.some xq y' hq : Pt 0 b) = 0 := by
      have : (2 * m - 1 + 1) • (.some xq y' hq : Pt 0 b) = .some xq y' hq := by rw [← e]; congr 1; omega
      rw [succ_nsmul] at this
      exact add_eq_right.1 this
    exact hord _ (by omega) (by omega) e'
  · have e' : (2 * m + 1) • (.some xq yq hq : Pt 0 b) = 0 := by
      rw [succ_nsmul, e]
      exact Point.add_of_Y_eq rfl (by rw [negY_eq])
    exact hord _ (by omega) (by omega) e'

theorem prep_tail {B : ℕ} (hord : ∀ j, 0 < j → j < B → j • (.some xq yq hq : Pt 0 b) ≠ 0) :
    ∀ (xs : List UInt64) (m : ℕ) (st : PrepSt E) (done : List (ℕ × ℕ)), st.found = 1 → 0 < m → (m + 1) * 2 ^ xs.length ≤ B →
      JR Rep st.c (m • (.some xq yq hq : Pt 0 b)) → GoodList Rep (.some xq yq hq) st.cfs done →
      GoodList Rep (.some xq yq hq) ((xs.foldl (prepStep O q) st).cfs ++ [(doublingStep O (xs.foldl (prepStep O q) st).c).1]) (done ++ stp xs m) := by
  intro xs
  induction xs with
  | nil =>
    intro m st done _ _ _ hj hg
    exact List.rel_append hg (.cons (doublingStep_spec F hj).1 .nil)
  | cons x xs ih =>
    intro m st done hf hm hb hj hg
    rw [List.length_cons, pow_succ] at hb
    have hp : 1 ≤ 2 ^ xs.length := Nat.one_le_two_pow
    obtain ⟨d1, d2⟩ := doublingStep_spec F hj
    rw [← two_nsmul, ← mul_nsmul'] at d2
    rw [List.foldl_cons]
    have hn0 : ¬ st.found = 0 := by rw [hf]; decide
    by_cases h1 : x = 1
    · have hb2 : 2 * m + 1 < B := by nlinarith
      obtain ⟨a1, a2⟩ := additionStep_spec F d2 hx hy hq (ne_of_order F hx hy hq hord hm hb2)
      have es : prepStep O q st x = ⟨st.found, (additionStep O (doublingStep O st.c).2 q).2,
          st.cfs ++ [(doublingStep O st.c).1] ++ [(additionStep O (doublingStep O st.c).2 q).1]⟩ := by
        unfold prepStep
        rw [if_neg hn0]
        dsimp only
        rw [if_pos h1]
      rw [es]
      have := ih (2 * m + 1) ⟨st.found, (additionStep O (doublingStep O st.c).2 q).2,
          st.cfs ++ [(doublingStep O st.c).1] ++ [(additionStep O (doublingStep O st.c).2 q).1]⟩ (done ++ [(m, m)] ++ [(2 * m, 1)]) hf (by omega)
          (by nlinarith) (by rw [succ_nsmul]; exact a2)
          (List.rel_append (List.rel_append hg (.cons d1 .nil)) (.cons (by rw [one_nsmul]; exact a1) .nil))
      rw [stp, if_pos h1]
      simpa using this
    · have es : prepStep O q st x = ⟨st.found, (doublingStep O st.c).2, st.cfs ++ [(doublingStep O st.c).1]⟩ := by
        unfold prepStep
        rw [if_neg hn0]
        dsimp only
        rw [if_neg h1]
      rw [es]
      have := ih (2 * m) ⟨st.found, (doublingStep O st.c).2, st.cfs ++ [(doublingStep O st.c).1]⟩ (done ++ [(m, m)]) hf (by omega)
          (by nlinarith) d2 (List.rel_append hg (.cons d1 .nil))
      rw [stp, if_neg h1]
      simpa using this

/-- The bits after the leading one. -/
def tailBits : List UInt64 := bits.drop 2

omit F hx hy in
theorem bits_eq : bits = 0 :: 1 :: tailBits := by decide +kernel

omit F hx hy in
theorem tail_length : tailBits.length = 62 := by decide +kernel

omit F hx hy in
theorem tail_end : endM tailBits 1 = 0x6900800000008000 := by decide +kernel

omit F hx hy in
theorem stp_length : (stp tailBits 1).length = 68 := by decide +kernel

theorem prepare_spec (gen : P3 E) (hz : Rep q.z 1) (hord : ∀ j, 0 < j → j < 2 ^ 64 → j • (.some xq yq hq : Pt 0 b) ≠ 0) :
    (prepare O gen q).identity = 0 ∧ GoodList Rep (.some xq yq hq) (prepare O gen q).coefficients (stp tailBits 1) := by
  have h0 : P3.isIdentity O q = 0 := by
    unfold P3.isIdentity
    rw [F.isZero hz, if_neg one_ne_zero]
  have hc : P3.cmove O q gen 0 = q := by
    unfold P3.cmove
    rw [F.cmove0, F.cmove0, F.cmove0]
  refine ⟨h0, ?_⟩
  unfold prepare
  dsimp only
  rw [h0, hc, bits_eq, List.foldl_cons, List.foldl_cons]
  have e1 : prepStep O q (prepStep O q ⟨0, q, []⟩ 0) 1 = ⟨1, q, []⟩ := by
    unfold prepStep
    rw [if_pos rfl]
    dsimp only
    rw [if_pos (by decide)]
    rfl
  rw [e1]
  have := prep_tail F hx hy hq hord tailBits 1 ⟨1, q, []⟩ [] rfl (by decide) (by rw [tail_length]; decide)
    ⟨_, _, _, hx, hy, hz, xq, yq, hq, one_nsmul _, one_ne_zero, by ring, by ring⟩ .nil
  rw [List.nil_append] at this
  exact this

end prep

/-! ## The target field -/

open Verif.Bls381.Fp2 (K2) in
open Verif.Bls381.Fp12 (K12) in
open Verif.Bls381.G2 (bb) in
/-- The operations compute in the fields. -/
structure MOK {F E G : Type} (M : MOps F E G) (R1 : F → ZMod Fp.p → Prop) (R2 : E → K2 → Prop) (R12 : G → K12 → Prop) : Prop where
  fo : FOK M.fo R2 bb
  scale : ∀ {a : E} {x : K2} {c : F} {w : ZMod Fp.p}, R2 a x → R1 c w → R2 (M.scale a c) (x * Ate.e2 w)
  isZero1 : ∀ {c : F} {w : ZMod Fp.p}, R1 c w → M.isZero1 c = if w = 0 then 1 else 0
  abd : ∀ {f : G} {x : K12} {c e d : E} {z s r : K2}, R12 f x → R2 c z → R2 e s → R2 d r →
    R12 (M.abd f c e d) (x * ⟨⟨z, s, 0⟩, ⟨0, r, 0⟩⟩)
  square : ∀ {f : G} {x : K12}, R12 f x → R12 (M.square f) (x * x)
  conj : ∀ {f : G} {x : K12}, R12 f x → R12 (M.conj f) ⟨x.re, -x.im⟩
  cmove0 : ∀ f g : G, M.cmove f g 0 = f

theorem line_elt {K : Type} [CommRing K] {ξ : K} {t : Cubic K ξ} (a l n x y : K) :
    (⟨⟨-(a * n), -(a * l) * x, 0⟩, ⟨0, a * y, 0⟩⟩ : QuadraticAlgebra (Cubic K ξ) t 0) =
      Ate.iota t a * (Ate.py t y - (Ate.iota t l * Ate.px t x + Ate.iota t n)) := by
  have e1 : (Ate.py t y).im = ⟨0, y, 0⟩ := rfl
  have e2 : (Ate.py t y).re = 0 := rfl
  have e3 : (Ate.px t x).im = 0 := rfl
  have e4 : (Ate.px t x).re = ⟨0, x, 0⟩ := rfl
  ext1
  · rw [Cyclo.qre, QuadraticAlgebra.re_sub, QuadraticAlgebra.re_add, Cyclo.qre, Ate.iota_im, Ate.iota_im, Ate.iota_re, Ate.iota_re, Ate.iota_re,
      e2, e3, e4]
    ext
    · simp
    · simp [mul_assoc]
    · simp
  · rw [Cyclo.qim, QuadraticAlgebra.im_sub, QuadraticAlgebra.im_add, Cyclo.qim, Ate.iota_im, Ate.iota_im, Ate.iota_re, Ate.iota_re, Ate.iota_im,
      e1, e3]
    ext
    · simp
    · simp
    · simp

section miller
open Verif.Bls381.Fp2 (K2)
open Verif.Bls381.Fp12 (K12)
open Verif.Bls381.G2 (bb)

variable {F E G : Type} {M : MOps F E G} {R1 : F → ZMod Fp.p → Prop} {R2 : E → K2 → Prop} {R12 : G → K12 → Prop} (H : MOK M R1 R2 R12)

/-- The stored element represents a field element whose power by the final exponent is `t`. -/
def FRep (R12 : G → K12 → Prop) (f : G) (t : Ate.U12) : Prop := ∃ y : K12, R12 f y ∧ y ≠ 0 ∧ y ^ Gt.finalExp = t.val

/-- The points of a pair. -/
structure Datum where
  x : ZMod Fp.p
  y : ZMod Fp.p
  h : (curve (0 : ZMod Fp.p) ((4 : ℕ) : ZMod Fp.p)).Nonsingular x y
  Q : G2.PP

include H

theorem ell_spec {f : G} {t : Ate.U12} (hf : FRep R12 f t) {co : Coeffs E} {A B : G2.PP} (hg : Good R2 co A B) {p : P3 F}
    {x y : ZMod Fp.p} (h : (curve (0 : ZMod Fp.p) ((4 : ℕ) : ZMod Fp.p)).Nonsingular x y) (hx : R1 p.x x) (hy : R1 p.y y) :
    FRep R12 (ell M f co p) (t * Ate.lvU (Ate.pnt h) A B) := by
  obtain ⟨z, hz, hz0, hzt⟩ := hf
  obtain ⟨a, β, c, ha, hb, hc, x₁, y₁, h₁, x₂, y₂, h₂, rfl, rfl, hxy, ha0, eβ, ec⟩ := hg
  have h1 := H.abd hz hc (H.scale hb hx) (H.scale ha hy)
  have e := line_elt (t := Fp12.vv) a ((curve 0 bb).slope x₁ x₂ y₁ y₂) (y₁ - (curve 0 bb).slope x₁ x₂ y₁ y₂ * x₁) (Ate.e2 x) (Ate.e2 y)
  rw [← eβ, ← ec] at e
  rw [e] at h1
  have hl := Ate.lvU_generic (Ate.pnt h) h₁ h₂ hxy
  have hn := (Ate.pnt h).line ((curve 0 bb).slope x₁ x₂ y₁ y₂) (y₁ - (curve 0 bb).slope x₁ x₂ y₁ y₂ * x₁)
  have hc1 := (Ate.pnt h).const a ha0
  have ha1 : Ate.io a ≠ 0 := fun h => ha0 ((map_eq_zero Ate.io).1 h)
  refine ⟨_, h1, ?_, ?_⟩
  · exact mul_ne_zero hz0 (mul_ne_zero ha1 hn)
  · have e5 : Ate.ey y - (Ate.io ((curve 0 bb).slope x₁ x₂ y₁ y₂) * Ate.ex x + Ate.io (y₁ - (curve 0 bb).slope x₁ x₂ y₁ y₂ * x₁)) =
        Ate.py Fp12.vv (Ate.e2 y) - (Ate.iota Fp12.vv ((curve 0 bb).slope x₁ x₂ y₁ y₂) * Ate.px Fp12.vv (Ate.e2 x) +
          Ate.iota Fp12.vv (y₁ - (curve 0 bb).slope x₁ x₂ y₁ y₂ * x₁)) := rfl
    have e6 : Ate.io a = Ate.iota Fp12.vv a := rfl
    rw [Ate.UG.val_mul, hl, e5, mul_pow, mul_pow, hzt]
    rw [e6] at hc1
    rw [hc1, one_mul]

/-- A pair with its coefficients represents the points. -/
structure Ent (R1 : F → ZMod Fp.p → Prop) (R2 : E → K2 → Prop) (S : List (ℕ × ℕ)) (p : PairOf F E × Prepared E) (d : Datum) : Prop where
  x : R1 p.1.g1.x d.x
  y : R1 p.1.g1.y d.y
  z : R1 p.1.g1.z 1
  id : p.2.identity = 0
  co : GoodList R2 d.Q p.2.coefficients S

omit H in
theorem getD_spec {α β : Type} {R : α → β → Prop} {l : List α} {s : List β} (h : List.Forall₂ R l s) (dflt : α) :
    ∀ {i : ℕ} {b : β}, s[i]? = some b → R (l.getD i dflt) b := by
  induction h with
  | nil => intro i b h; simp at h
  | cons hr _ ih =>
    intro i b h
    cases i with
    | zero => simp at h; subst h; simpa using hr
    | succ i => simp at h; simpa using ih h

/-- A product over a list. -/
def prodOf {D U : Type} [CommGroup U] (g : D → U) : List D → U
  | [] => 1
  | d :: ds => g d * prodOf g ds

omit H in
theorem prodOf_double {D U : Type} [CommGroup U] {f g h : D → U} (e : ∀ d, f d = g d ^ 2 * h d) (ds : List D) :
    prodOf f ds = prodOf g ds ^ 2 * prodOf h ds := by
  induction ds with
  | nil => simp [prodOf]
  | cons d ds ih => rw [prodOf, prodOf, prodOf, ih, e, mul_pow, mul_mul_mul_comm]

omit H in
theorem prodOf_mul {D U : Type} [CommGroup U] {f g h : D → U} (e : ∀ d, f d = g d * h d) (ds : List D) :
    prodOf f ds = prodOf g ds * prodOf h ds := by
  induction ds with
  | nil => simp [prodOf]
  | cons d ds ih => rw [prodOf, prodOf, prodOf, ih, e, mul_mul_mul_comm]

omit H in
theorem prodOf_cons {D U : Type} [CommGroup U] (f : D → U) (d : D) (ds : List D) (t : U) : t * prodOf f (d :: ds) = t * f d * prodOf f ds := by
  rw [prodOf, mul_assoc]

omit H in
theorem prodOf_pow {D U : Type} [CommGroup U] {f : D → U} {n : ℕ} (e : ∀ d, f d ^ n = 1) (ds : List D) : prodOf f ds ^ n = 1 := by
  induction ds with
  | nil => simp [prodOf]
  | cons d ds ih => rw [prodOf, mul_pow, ih, e, one_mul]

/-- The product of the values of the lines. -/
noncomputable def LV (ds : List Datum) (i j : ℕ) : Ate.U12 := prodOf (fun d => Ate.lvU (Ate.pnt d.h) (i • d.Q) (j • d.Q)) ds

/-- The product of the values of the Miller functions. -/
noncomputable def FF (ds : List Datum) (m : ℕ) : Ate.U12 := prodOf (fun d => Ate.mfU (Ate.pnt d.h) m d.Q) ds

omit H in
theorem FF_double (ds : List Datum) (m : ℕ) : FF ds (2 * m) = FF ds m ^ 2 * LV ds m m :=
  prodOf_double (fun _ => Ate.mfU_double _ _ _) ds

omit H in
theorem FF_succ (ds : List Datum) (m : ℕ) : FF ds (m + 1) = FF ds m * LV ds m 1 :=
  prodOf_mul (fun d => by rw [Ate.mfU_succ, one_nsmul]) ds

theorem ellAll_spec {S : List (ℕ × ℕ)} {ps : List (PairOf F E × Prepared E)} {ds : List Datum} (hp : List.Forall₂ (Ent R1 R2 S) ps ds)
    {i α β : ℕ} (hi : S[i]? = some (α, β)) : ∀ {f : G} {t : Ate.U12}, FRep R12 f t → FRep R12 (ellAll M ps i f) (t * LV ds α β) := by
  induction hp with
  | nil =>
    intro f t hf
    have : t * LV [] α β = t := by unfold LV prodOf; exact mul_one t
    rw [this]
    exact hf
  | @cons p d ps ds hpd _ ih =>
    intro f t hf
    have h1 := ell_spec H hf (getD_spec hpd.co ⟨M.fo.zero, M.fo.zero, M.fo.zero⟩ hi) d.h hpd.x hpd.y
    have hz : M.isZero1 p.1.g1.z ||| p.2.identity = 0 := by
      rw [H.isZero1 hpd.z, if_neg one_ne_zero, hpd.id]
      decide
    have h2 := ih h1
    have e1 : ellAll M (p :: ps) i f = ellAll M ps i (ell M f (p.2.coefficients.getD i ⟨M.fo.zero, M.fo.zero, M.fo.zero⟩) p.1.g1) := by
      unfold ellAll
      rw [List.foldl_cons]
      dsimp only
      rw [hz, H.cmove0]
    have e2 : t * LV (d :: ds) α β = t * Ate.lvU (Ate.pnt d.h) (α • d.Q) (β • d.Q) * LV ds α β := prodOf_cons _ d ds t
    rw [e1, e2]
    exact h2

theorem square_frep {f : G} {t : Ate.U12} (hf : FRep R12 f t) : FRep R12 (M.square f) (t ^ 2) := by
  obtain ⟨y, hy, h0, ht⟩ := hf
  refine ⟨y * y, H.square hy, mul_ne_zero h0 h0, ?_⟩
  rw [mul_pow, ht, Ate.UG.val_pow, pow_two]

theorem mil_tail {S : List (ℕ × ℕ)} {ps : List (PairOf F E × Prepared E)} {ds : List Datum} (hp : List.Forall₂ (Ent R1 R2 S) ps ds) :
    ∀ (xs : List UInt64) (m : ℕ) (st : MilSt G), st.found = 1 → S.drop st.cIdx = stp xs m → FRep R12 st.f (FF ds m ^ 2) →
      FRep R12 (ellAll M ps (xs.foldl (milStep M ps) st).cIdx (xs.foldl (milStep M ps) st).f) (FF ds (2 * endM xs m)) := by
  intro xs
  have idx : ∀ {i : ℕ} {a : ℕ × ℕ} {l : List (ℕ × ℕ)}, S.drop i = a :: l → S[i]? = some a ∧ S.drop (i + 1) = l := by
    intro i a l h
    constructor
    · have := congrArg (fun l => l[0]?) h
      simpa using this
    · have := congrArg (List.drop 1) h
      rw [List.drop_drop] at this
      exact this
  induction xs with
  | nil =>
    intro m st hf hs h
    have h1 := ellAll_spec H hp (idx hs).1 h
    rw [← FF_double] at h1
    exact h1
  | cons x xs ih =>
    intro m st hf hs h
    have hn0 : ¬ st.found = 0 := by rw [hf]; decide
    rw [List.foldl_cons, endM]
    rw [stp] at hs
    by_cases hx : x = 1
    · rw [if_pos hx] at hs ⊢
      obtain ⟨i1, s1⟩ := idx hs
      obtain ⟨i2, s2⟩ := idx s1
      have h1 := ellAll_spec H hp i1 h
      rw [← FF_double] at h1
      have h2 := ellAll_spec H hp i2 h1
      rw [← FF_succ] at h2
      have h3 := square_frep H h2
      have es : milStep M ps st x = ⟨M.square (ellAll M ps (st.cIdx + 1) (ellAll M ps st.cIdx st.f)), st.found, st.cIdx + 1 + 1⟩ := by
        unfold milStep
        rw [if_neg hn0]
        dsimp only
        rw [if_pos hx]
      rw [es]
      exact ih (2 * m + 1) _ hf s2 h3
    · rw [if_neg hx] at hs ⊢
      obtain ⟨i1, s1⟩ := idx hs
      have h1 := ellAll_spec H hp i1 h
      rw [← FF_double] at h1
      have h3 := square_frep H h1
      have es : milStep M ps st x = ⟨M.square (ellAll M ps st.cIdx st.f), st.found, st.cIdx + 1⟩ := by
        unfold milStep
        rw [if_neg hn0]
        dsimp only
        rw [if_neg hx]
      rw [es]
      exact ih (2 * m) _ hf s1 h3

omit H in
theorem p6_dvd : Fp.p ^ 6 = Fq.q * ((Fp.p ^ 6 + 1) / Fq.q) - 1 := by decide +kernel

omit H in
theorem p6_order {U : Type*} [Group U] {t : U} (ht : t ^ Fq.q = 1) : t ^ (Fp.p ^ 6) = t⁻¹ := by
  refine eq_inv_of_mul_eq_one_left ?_
  rw [← pow_succ]
  have e : Fp.p ^ 6 + 1 = Fq.q * ((Fp.p ^ 6 + 1) / Fq.q) := by decide +kernel
  rw [e, pow_mul, ht, one_pow]

theorem conj_frep {f : G} {t : Ate.U12} (hq : t ^ Fq.q = 1) (hf : FRep R12 f t) : FRep R12 (M.conj f) t⁻¹ := by
  obtain ⟨y, hy, h0, ht⟩ := hf
  have h1 := H.conj hy
  rw [← Cyclo.pp6 Gt.omega_sq Gt.frobsq y] at h1
  refine ⟨_, h1, pow_ne_zero _ h0, ?_⟩
  rw [← pow_mul, mul_comm, pow_mul, ht, ← Ate.UG.val_pow, p6_order hq]

end miller

end Verif.Bls381.Pair
