import Mathlib.LinearAlgebra.Lagrange

/-!
# Interpolation at zero (specification-level helper)

No code is modelled here.  This file fixes the mathematical meaning of "Lagrange
interpolation at 0" used by several areas, and proves the fact everybody relies on.
-/

namespace Verif.Interp

open Polynomial Finset

variable {F : Type*} [Field F] {ι : Type*} [DecidableEq ι]

/-- The textbook Lagrange coefficient at `0`: `∏_{j ≠ i} x_j / (x_j - x_i)`. -/
def lagCoeff (s : Finset ι) (v : ι → F) (i : ι) : F :=
  (∏ j ∈ s.erase i, v j) / (∏ j ∈ s.erase i, (v j - v i))

theorem lagCoeff_eq_eval_basis (s : Finset ι) (v : ι → F) (i : ι) :
    lagCoeff s v i = (Lagrange.basis s v i).eval 0 := by
  unfold lagCoeff Lagrange.basis Lagrange.basisDivisor
  rw [Polynomial.eval_prod, ← Finset.prod_div_distrib]
  refine Finset.prod_congr rfl fun j _ => ?_
  simp only [eval_mul, eval_C, eval_sub, eval_X, zero_sub]
  rw [div_eq_mul_inv, ← neg_sub (v i) (v j), inv_neg]
  ring

/-- Interpolation at zero recovers the constant term of every polynomial of small degree. -/
theorem sum_lagCoeff_eval (s : Finset ι) (v : ι → F) (hv : Set.InjOn v s)
    (f : F[X]) (hf : f.degree < s.card) :
    ∑ i ∈ s, lagCoeff s v i * f.eval (v i) = f.eval 0 := by
  have h := Lagrange.eq_interpolate hv hf
  conv_rhs => rw [h, Lagrange.interpolate_apply, Polynomial.eval_finsetSum]
  refine Finset.sum_congr rfl fun i _ => ?_
  rw [eval_mul, eval_C, lagCoeff_eq_eval_basis, mul_comm]

theorem sum_lagCoeff_smul {M : Type*} [AddCommGroup M] [Module F M]
    (s : Finset ι) (v : ι → F) (hv : Set.InjOn v s)
    (f : F[X]) (hf : f.degree < s.card) (P : M) :
    ∑ i ∈ s, lagCoeff s v i • (f.eval (v i) • P) = f.eval 0 • P := by
  rw [← sum_lagCoeff_eval s v hv f hf, Finset.sum_smul]
  exact Finset.sum_congr rfl fun i _ => (smul_smul _ _ _)

end Verif.Interp
