import Verif.Bls381.AteTower
import Verif.Bls381.G1Order
import Verif.Bls381.G2Api
import Verif.Bls381.Gt

/-!
# The ate pairing of BLS12-381

Mathematics behind `pairings.go`; no definition of the code is modelled here.
-/

set_option linter.unusedSectionVars false
set_option maxRecDepth 20000

namespace Verif.Bls381.Ate
open WeierstrassCurve WeierstrassCurve.Affine Verif.Native Verif.Native.Weier Verif.Bls381.Fp12
open Verif.Bls381.Fp2 (K2)
open Verif.Bls381.G2 (bb kx ky frobHom)

/-- The absolute value of the parameter of the curve. -/
abbrev nX : ℕ := 0xd201000000010000

/-- The field of the twist in the target field. -/
def io : K2 →+* K12 := iota vv

/-- The prime field in the field of the twist. -/
def e2 : ZMod Fp.p →+* K2 := algebraMap (ZMod Fp.p) K2

theorem e2_inj {x : ZMod Fp.p} : e2 x = 0 ↔ x = 0 := map_eq_zero e2

theorem bb_eq : bb = e2 ((4 : ℕ) : ZMod Fp.p) * Fp6.ξ := by
  unfold bb Fp6.el Fp6.ξ e2
  dsimp only
  ext
  · simp
  · simp

instance char12 : CharP K12 Fp.p := charP_of_injective_ringHom (f := io) io.injective Fp.p

theorem frob_e2 (x : ZMod Fp.p) : e2 x ^ Fp.p = e2 x := by
  rw [← map_pow, ZMod.pow_card]

theorem real_one {z : K12} (hz : z ≠ 0) (h : z.im = 0) : z ^ (Fp.p ^ 6 - 1) = 1 := by
  have e := Cyclo.pp6 Gt.omega_sq Gt.frobsq z
  rw [h, neg_zero] at e
  have e' : z ^ (Fp.p ^ 6) = z := e.trans (QuadraticAlgebra.ext rfl h.symm)
  apply mul_right_cancel₀ hz
  rw [← pow_succ, one_mul, Nat.sub_add_cancel (by decide +kernel)]
  exact e'

theorem fe_dvd : Gt.finalExp = (Fp.p ^ 6 - 1) * (Gt.finalExp / (Fp.p ^ 6 - 1)) := by decide +kernel

theorem real_kill {z : K12} (hz : z ≠ 0) (h : z.im = 0) : z ^ Gt.finalExp = 1 := by
  rw [fe_dvd, pow_mul, real_one hz h, one_pow]

theorem bb_nonsquare (y : K2) : y ^ 2 ≠ bb := by
  intro e
  have h := congrArg QuadraticAlgebra.norm e
  rw [Fp6.norm_pow, bb_eq, map_mul, Fp6.norm_xi] at h
  have h4 : QuadraticAlgebra.norm (e2 ((4 : ℕ) : ZMod Fp.p)) = 4 ^ 2 := by
    unfold e2
    rw [QuadraticAlgebra.norm_def]
    simp
    norm_num
  rw [h4] at h
  have four : (4 : ZMod Fp.p) ≠ 0 := by
    intro h
    have : ((4 : ℕ) : ZMod Fp.p) = 0 := by exact_mod_cast h
    rw [ZMod.natCast_eq_zero_iff] at this
    exact absurd this (by decide +kernel)
  have h3 : IsSquare (2 : ZMod Fp.p) := ⟨QuadraticAlgebra.norm y / 4, by field_simp; linear_combination -h⟩
  exact absurd ((ZMod.exists_sq_eq_two_iff (p := Fp.p) (by decide +kernel)).1 h3) (by decide +kernel)

/-- The point of evaluation. -/
def ex (x : ZMod Fp.p) : K12 := px vv (e2 x)
/-- The point of evaluation. -/
def ey (y : ZMod Fp.p) : K12 := py vv (e2 y)

theorem four_curve {x y : ZMod Fp.p} (h : (curve (0 : ZMod Fp.p) ((4 : ℕ) : ZMod Fp.p)).Nonsingular x y) :
    y ^ 2 = x ^ 3 + ((4 : ℕ) : ZMod Fp.p) := by
  have := eqn_iff.1 h.1
  rw [this, zero_mul, add_zero]

/-- Every point over the prime field is a point of evaluation. -/
theorem pnt {x y : ZMod Fp.p} (h : (curve (0 : ZMod Fp.p) ((4 : ℕ) : ZMod Fp.p)).Nonsingular x y) :
    Pnt io Gt.finalExp bb (ex x) (ey y) := by
  have e := congrArg e2 (four_curve h)
  rw [map_pow, map_add, map_pow] at e
  have hn := bb_nonsquare
  rw [bb_eq] at hn ⊢
  exact pnt_tower (t := vv) rfl e (fun h0 => y_ne_zero G1.noTwo (eqn_iff.1 h.1) (e2_inj.1 h0)) (fun z => real_kill) hn

theorem kx_eq : kx * Fp6.ξ ^ (2 * k6) = 1 := by
  rw [Fp6.xi_pow _ (by decide +kernel), G2.el_mul, ← G2.el_one]
  exact congrArg _ (by decide +kernel)

theorem ky_eq : ky * Fp6.ξ ^ (3 * k6) = 1 := by
  rw [Fp6.xi_pow _ (by decide +kernel), G2.el_mul, ← G2.el_one]
  exact congrArg _ (by decide +kernel)

theorem fixed (x y : ZMod Fp.p) : Fixed io (frobenius K12 Fp.p) kx ky (ex x) (ey y) :=
  fixed_tower (t := vv) rfl k6_eq (frobenius_def Fp.p) kx_eq ky_eq (frob_e2 x) (frob_e2 y)

theorem psi_torsion (A : G2.PP) (h : Fq.q • A = 0) : Twist.hom G2.psi_ok A + nX • A = 0 := by
  obtain ⟨k, -, rfl⟩ := G2.torsion h
  show G2.psiHom _ + _ = 0
  rw [map_nsmul, ← mul_nsmul, Nat.mul_comm, mul_nsmul, ← nsmul_add, G2.psi_G, nsmul_zero]

theorem setting : Setting io frobHom (frobenius K12 Fp.p) kx ky bb Gt.finalExp Fq.q nX Fp.p where
  tw := G2.psi_ok
  comm c := by
    show io (c ^ Fp.p) = io c ^ Fp.p
    rw [map_pow]
  pw z := frobenius_def _ z
  kill _ hz := Gt.finalExp_unity hz
  psi := psi_torsion
  dvd := by decide +kernel
  emb := ⟨(nX ^ 12 - 1) / Fq.q, by decide +kernel⟩
  cop := by decide +kernel

/-! ## The pairing -/

/-- The units of the target field. -/
abbrev U12 := UG K12

/-- The value of the pairing, up to inversion: the Miller function of `A` at `P`, after the final exponentiation. -/
noncomputable def pr : G1.PP → G2.PP → U12
  | .zero, _ => 1
  | .some _ _ h, A => mfU (pnt h) nX A

theorem pr_some {x y : ZMod Fp.p} (h) (A : G2.PP) : pr (.some x y h) A = mfU (pnt h) nX A := rfl

theorem pr_left_zero (A : G2.PP) : pr 0 A = 1 := rfl

theorem pr_right_zero (P : G1.PP) : pr P 0 = 1 := by
  rcases P with _ | ⟨x, y, h⟩
  · rfl
  · rw [pr_some, mfU_point_zero]

theorem mf_order' {x y : ZMod Fp.p} (h : (curve (0 : ZMod Fp.p) ((4 : ℕ) : ZMod Fp.p)).Nonsingular x y) (m : ℕ) (A : G2.PP) :
    mfU (pnt h) m A ^ Fq.q = 1 := mfU_ord setting (pnt h) m A

theorem pr_order (P : G1.PP) (A : G2.PP) : pr P A ^ Fq.q = 1 := by
  rcases P with _ | ⟨x, y, h⟩
  · rw [← Point.zero_def, pr_left_zero, one_pow]
  · rw [pr_some]
    generalize nX = m
    exact mf_order' h m A

theorem pr_add (P : G1.PP) {A B : G2.PP} (hA : Fq.q • A = 0) (hB : Fq.q • B = 0) : pr P (A + B) = pr P A * pr P B := by
  rcases P with _ | ⟨x, y, h⟩
  · exact (one_mul _).symm
  · rw [pr_some, pr_some, pr_some]
    exact mfU_add_left setting (pnt h) (fixed x y) hA hB

theorem neg_ns {x y : ZMod Fp.p} (h : (curve (0 : ZMod Fp.p) ((4 : ℕ) : ZMod Fp.p)).Nonsingular x y) :
    (curve (0 : ZMod Fp.p) ((4 : ℕ) : ZMod Fp.p)).Nonsingular x (-y) := by
  have := (nonsingular_neg (W' := curve (0 : ZMod Fp.p) ((4 : ℕ) : ZMod Fp.p)) x y).2 h
  rwa [negY_eq] at this

theorem ey_neg (y : ZMod Fp.p) : ey (-y) = -ey y := by
  unfold ey
  rw [map_neg, neg_py]

theorem mf_neg_pnt {x y : ZMod Fp.p} (h : (curve (0 : ZMod Fp.p) ((4 : ℕ) : ZMod Fp.p)).Nonsingular x y)
    (h' : (curve (0 : ZMod Fp.p) ((4 : ℕ) : ZMod Fp.p)).Nonsingular x (-y)) (A : G2.PP) : mfU (pnt h') nX A = (mfU (pnt h) nX A)⁻¹ := by
  have h1 := pnt h'
  have aux : ∀ {Y' : K12} (p' : Pnt io Gt.finalExp bb (ex x) Y'), Y' = -ey y → mfU p' nX A = (mfU (pnt h) nX A)⁻¹ := by
    intro Y' p' e
    subst e
    exact mfU_neg_right setting (pnt h) p' A
  exact aux (pnt h') (ey_neg y)

theorem add_pr (P Q : G1.PP) {A : G2.PP} (hA : Fq.q • A = 0) : pr (P + Q) A = pr P A * pr Q A := by
  rcases P with _ | ⟨x₁, y₁, h₁⟩
  · rw [← Point.zero_def, zero_add, pr_left_zero, one_mul]
  rcases Q with _ | ⟨x₂, y₂, h₂⟩
  · rw [← Point.zero_def, add_zero, pr_left_zero, mul_one]
  by_cases hxy : x₁ = x₂ ∧ y₁ = (curve (0 : ZMod Fp.p) ((4 : ℕ) : ZMod Fp.p)).negY x₂ y₂
  · rw [Point.add_of_Y_eq hxy.1 hxy.2, pr_left_zero]
    obtain ⟨e1, e2⟩ := hxy
    rw [negY_eq] at e2
    subst e1 e2
    rw [pr_some, pr_some, mf_neg_pnt h₂ h₁, inv_mul_cancel]
  · obtain ⟨x₃, y₃, h₃, e, c⟩ := coll_of_add h₁ h₂ hxy
    rw [e, pr_some, pr_some, pr_some]
    have c' : Coll (io bb) (ex x₁) (ey y₁) (ex x₂) (ey y₂) (ex x₃) (ey (-y₃)) (pw vv (e2 ((curve (0 : ZMod Fp.p) ((4 : ℕ) : ZMod Fp.p)).slope x₁ x₂ y₁ y₂)))
        (py vv (e2 (y₁ - (curve (0 : ZMod Fp.p) ((4 : ℕ) : ZMod Fp.p)).slope x₁ x₂ y₁ y₂ * x₁))) := by
      have := coll_tower (t := vv) rfl (c.map e2)
      rw [bb_eq]
      exact this
    have := mfU_add_right setting (pnt h₁) (pnt h₂) (pnt (neg_ns h₃)) (fixed _ _) (fixed _ _) (fixed _ _) c' hA
    rw [mf_neg_pnt h₃ (neg_ns h₃)] at this
    exact (mul_inv_eq_one.1 this).symm

theorem pr_nsmul (P : G1.PP) {A : G2.PP} (hA : Fq.q • A = 0) (j : ℕ) : pr P (j • A) = pr P A ^ j := by
  induction j with
  | zero => rw [zero_nsmul, pr_right_zero, pow_zero]
  | succ j ih => rw [succ_nsmul, pr_add P (by rw [nsmul_left_comm, hA, nsmul_zero]) hA, ih, pow_succ]

theorem nsmul_pr (P : G1.PP) {A : G2.PP} (hA : Fq.q • A = 0) (j : ℕ) : pr (j • P) A = pr P A ^ j := by
  induction j with
  | zero => rw [zero_nsmul, pr_left_zero, pow_zero]
  | succ j ih => rw [succ_nsmul, add_pr _ _ hA, ih, pow_succ]

theorem neg_pr (P : G1.PP) {A : G2.PP} (hA : Fq.q • A = 0) : pr (-P) A = (pr P A)⁻¹ := by
  refine eq_inv_of_mul_eq_one_left ?_
  rw [← add_pr _ _ hA, neg_add_cancel, pr_left_zero]

theorem pr_neg (P : G1.PP) {A : G2.PP} (hA : Fq.q • A = 0) : pr P (-A) = (pr P A)⁻¹ := by
  refine eq_inv_of_mul_eq_one_left ?_
  rw [← pr_add _ (by rw [smul_neg, hA, neg_zero]) hA, neg_add_cancel, pr_right_zero]

end Verif.Bls381.Ate
