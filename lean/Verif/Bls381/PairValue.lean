import Verif.Bls381.PairMiller

/-!
# The value of the engine (crypto/core/curves/native/bls12381/pairings.go:31-117)
-/

set_option linter.unusedSectionVars false
set_option maxRecDepth 20000

namespace Verif.Bls381.Pair
open Verif.Native Verif.Native.Weier WeierstrassCurve WeierstrassCurve.Affine

section miller
open Verif.Bls381.Fp2 (K2)
open Verif.Bls381.Fp12 (K12)
open Verif.Bls381.G2 (bb)

variable {F E G : Type} {M : MOps F E G} {R1 : F → ZMod Fp.p → Prop} {R2 : E → K2 → Prop} {R12 : G → K12 → Prop} (H : MOK M R1 R2 R12)

theorem FF_one (ds : List Datum) : FF ds 1 = 1 := by
  unfold FF
  induction ds with
  | nil => rfl
  | cons d ds ih => rw [prodOf, ih, Ate.mfU_one, one_mul]

theorem FF_pow {m n : ℕ} (h : ∀ d : Datum, Ate.mfU (Ate.pnt d.h) m d.Q ^ n = 1) (ds : List Datum) : FF ds m ^ n = 1 := prodOf_pow h ds

theorem FF_ord (ds : List Datum) (m : ℕ) : FF ds m ^ Fq.q = 1 := by
  refine FF_pow ?_ ds
  intro d
  rw [Ate.mf_order' d.h]

include H in
theorem loop_spec {ps : List (PairOf F E × Prepared E)} {ds : List Datum} (hp : List.Forall₂ (Ent R1 R2 (stp tailBits 1)) ps ds) {f : G}
    (hf : R12 f 1) : FRep R12 (M.conj (ellAll M ps (bits.foldl (milStep M ps) ⟨f, 0, 0⟩).cIdx (bits.foldl (milStep M ps) ⟨f, 0, 0⟩).f))
      (FF ds Ate.nX)⁻¹ := by
  have e1 : milStep M ps (milStep M ps ⟨f, 0, 0⟩ 0) 1 = ⟨f, 1, 0⟩ := by
    unfold milStep
    rw [if_pos rfl]
    dsimp only
    rw [if_pos (by decide)]
    rfl
  rw [bits_eq, List.foldl_cons, List.foldl_cons, e1]
  have h0 : FRep R12 f (FF ds 1 ^ 2) := by
    refine ⟨1, hf, one_ne_zero, ?_⟩
    rw [FF_one, one_pow, one_pow, Ate.UG.val_one]
  have h := mil_tail H hp tailBits 1 ⟨f, 1, 0⟩ rfl (List.drop_zero ..) h0
  have e2 : 2 * endM tailBits 1 = Ate.nX := by rw [tail_end]
  rw [e2] at h
  exact conj_frep H (FF_ord _ _) h

end miller

open Verif.Bls381.Fp2 (K2 Rep2)
open Verif.Bls381.Fp12 (K12 E12 Rep12)

theorem mok : MOK ops Fp.Rep Rep2 Rep12 where
  fo := G2.FOk
  scale := fun ha hc => Fp2.mul0_spec ha hc
  isZero1 := fun h => (Fp.isZero_spec h).1
  abd := fun hf hc he hd => Fp12.mulByABD_spec hf hc he hd
  square := fun hf => Fp12.square_spec hf
  conj := fun hf => Fp12.conjugate_spec hf
  cmove0 := Fp12.cmove_zero

/-- A stored pair is the normal form of a point of the curve and of a nonzero point of the subgroup of the twist. -/
structure EntP (p : PairOf L6 Fp2.E2) (d : Datum) : Prop where
  x : Fp.Rep p.g1.x d.x
  y : Fp.Rep p.g1.y d.y
  z : Fp.Rep p.g1.z 1
  z2 : Rep2 p.g2.z 1
  q : ∃ x y h, d.Q = .some x y h ∧ Rep2 p.g2.x x ∧ Rep2 p.g2.y y
  ord : Fq.q • d.Q = 0

theorem small_order {Q : G2.PP} (hq : Fq.q • Q = 0) (h0 : Q ≠ 0) {j : ℕ} (hj : 0 < j) (hb : j < 2 ^ 64) : j • Q ≠ 0 := by
  intro h
  have h1 := addOrderOf_dvd_of_nsmul_eq_zero hq
  have h2 := addOrderOf_dvd_of_nsmul_eq_zero h
  rcases (Nat.dvd_prime Fq.fact_q.out).1 h1 with e | e
  · exact h0 (AddMonoid.addOrderOf_eq_one_iff.1 e)
  · rw [e] at h2
    have := Nat.le_of_dvd hj h2
    have : 2 ^ 64 ≤ Fq.q := by decide +kernel
    omega

theorem ent_of {p : PairOf L6 Fp2.E2} {d : Datum} (h : EntP p d) :
    Ent Fp.Rep Rep2 (stp tailBits 1) (p, prepare ops.fo ops.gen p.g2) d := by
  obtain ⟨x, y, hn, e, hx, hy⟩ := h.q
  have hs : ∀ j, 0 < j → j < 2 ^ 64 → j • (.some x y hn : G2.PP) ≠ 0 := by
    intro j h1 h2
    rw [← e]
    exact small_order h.ord (by rw [e]; exact Point.some_ne_zero hn) h1 h2
  obtain ⟨h1, h2⟩ := prepare_spec mok.fo hx hy hn ops.gen h.z2 hs
  exact ⟨h.x, h.y, h.z, h1, by rw [e]; exact h2⟩

theorem zip_ent {e : Engine} {ds : List Datum} (h : List.Forall₂ EntP e ds) :
    List.Forall₂ (Ent Fp.Rep Rep2 (stp tailBits 1)) (e.zip (computeCoeffs ops e)) ds := by
  induction h with
  | nil => exact .nil
  | cons h _ ih => exact .cons (ent_of h) ih

/-- The engine's value is `t`. -/
def EngRep (e : Engine) (t : Ate.U12) : Prop := ∃ ds, List.Forall₂ EntP e ds ∧ t = (FF ds Ate.nX)⁻¹

theorem pairing_spec {e : Engine} {t : Ate.U12} (h : EngRep e t) : Rep12 (pairing e) t.val := by
  obtain ⟨ds, hd, rfl⟩ := h
  have h1 := loop_spec mok (zip_ent hd) Fp12.one_spec
  obtain ⟨y, hy, h0, ht⟩ := h1
  have h2 := Gt.finalExponentiation_spec h0 hy (millerLoop ops e Gt.one (computeCoeffs ops e))
  rw [ht] at h2
  unfold pairing
  dsimp only
  by_cases hl : e.length = 0
  · rw [if_pos hl]
    have : e = [] := List.length_eq_zero_iff.1 hl
    subst this
    cases hd
    exact Fp12.one_spec
  · rw [if_neg hl]
    exact h2

theorem eng_nil : EngRep [] 1 := ⟨[], .nil, by unfold FF prodOf; exact inv_one.symm⟩

theorem prodOf_append {D U : Type} [CommGroup U] (f : D → U) (l m : List D) : prodOf f (l ++ m) = prodOf f l * prodOf f m := by
  induction l with
  | nil => rw [List.nil_append, prodOf, one_mul]
  | cons d l ih => rw [List.cons_append, prodOf, prodOf, ih, mul_assoc]

theorem FF_snoc (ds : List Datum) (d : Datum) (m : ℕ) : FF (ds ++ [d]) m = FF ds m * Ate.mfU (Ate.pnt d.h) m d.Q := by
  unfold FF
  rw [prodOf_append]
  refine congrArg _ ?_
  rw [prodOf, prodOf, mul_one]

/-- The value of one pair. -/
noncomputable def ee (P : G1.PP) (Q : G2.PP) : Ate.U12 := (Ate.pr P Q)⁻¹

theorem or_one_ne (a : UInt64) : 1 ||| a ≠ 0 := by
  intro h
  have h1 := congrArg UInt64.toNat h
  rw [UInt64.toNat_or] at h1
  have h2 : (1 : ℕ) ≤ 1 ||| a.toNat := Nat.left_le_or
  have h3 : (1 : UInt64).toNat = 1 := rfl
  have h4 : (0 : UInt64).toNat = 0 := rfl
  rw [h3, h4] at h1
  omega

theorem addPair_spec {e : Engine} {t : Ate.U12} (h : EngRep e t) {g1 : G1.Point} {g2 : G2.Point} {P : G1.PP} {Q : G2.PP} (h1 : G1.Rep g1 P)
    (h2 : G2.Rep g2 Q) (hq : Fq.q • Q = 0) : EngRep (addPair e g1 g2) (t * ee P Q) := by
  have a1 := P3.toAffine_spec G1.FOk h1
  have a2 := P3.toAffine_spec G2.FOk h2
  rcases P with _ | ⟨x, y, hn⟩
  · have e1 : P3.isIdentity G1.F (P3.toAffine G1.F g1) = 1 := by rw [a1.1 rfl]; decide +kernel
    have e2 : P3.isIdentity G1.F (P3.toAffine G1.F g1) ||| P3.isIdentity G2.F (P3.toAffine G2.F g2) ≠ 0 := by
      rw [e1]
      exact or_one_ne _
    unfold addPair
    dsimp only
    rw [if_neg e2]
    unfold ee
    rw [← Point.zero_def, Ate.pr_left_zero, inv_one, mul_one]
    exact h
  rcases Q with _ | ⟨x', y', hn'⟩
  · have e1 : P3.isIdentity G2.F (P3.toAffine G2.F g2) = 1 := by rw [a2.1 rfl]; decide +kernel
    have e2 : P3.isIdentity G1.F (P3.toAffine G1.F g1) ||| P3.isIdentity G2.F (P3.toAffine G2.F g2) ≠ 0 := by
      rw [e1, UInt64.or_comm]
      exact or_one_ne _
    unfold addPair
    dsimp only
    rw [if_neg e2]
    unfold ee
    rw [← Point.zero_def, Ate.pr_right_zero, inv_one, mul_one]
    exact h
  obtain ⟨r1, r2, r3, r4⟩ := a1.2 x y hn rfl
  obtain ⟨s1, s2, s3, s4⟩ := a2.2 x' y' hn' rfl
  have e1 := P3.isIdentity_spec G1.FOk r4
  have e2 := P3.isIdentity_spec G2.FOk s4
  rw [if_neg (Point.some_ne_zero hn)] at e1
  rw [if_neg (Point.some_ne_zero hn')] at e2
  have e3 : P3.isIdentity G1.F (P3.toAffine G1.F g1) ||| P3.isIdentity G2.F (P3.toAffine G2.F g2) = 0 := by rw [e1, e2]; decide
  unfold addPair
  dsimp only
  rw [if_pos e3]
  obtain ⟨ds, hd, rfl⟩ := h
  have z1 : Fp.Rep (P3.toAffine G1.F g1).z 1 := by rw [r3]; exact Fp.one_spec
  have z2 : Rep2 (P3.toAffine G2.F g2).z 1 := by rw [s3]; exact Fp2.one_spec
  have he : EntP ⟨P3.toAffine G1.F g1, P3.toAffine G2.F g2⟩ ⟨x, y, hn, .some x' y' hn'⟩ := by
    refine ⟨r1, r2, z1, z2, ⟨x', y', hn', rfl, s1, s2⟩, ?_⟩
    rw [hq]
  refine ⟨ds ++ [⟨x, y, hn, .some x' y' hn'⟩], List.rel_append hd (.cons he .nil), ?_⟩
  rw [FF_snoc, mul_inv]
  refine congrArg _ ?_
  unfold ee
  rw [Ate.pr_some]

end Verif.Bls381.Pair
