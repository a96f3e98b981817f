import Mathlib.Algebra.Module.Basic
import Mathlib.Algebra.Field.Basic

/-! Facts about a curve group seen as a vector space over its scalar field, and point encodings. -/

namespace Verif

variable {F G : Type*} [Field F] [AddCommGroup G] [Module F G]

theorem smul_cancel_right {g : G} (hg : g ≠ 0) {a b : F} (h : a • g = b • g) : a = b := by
  have h1 : (a - b) • g = 0 := by rw [sub_smul, h, sub_self]
  by_contra hne
  have h2 : (a - b)⁻¹ • (a - b) • g = 0 := by rw [h1, smul_zero]
  rw [smul_smul, inv_mul_cancel₀ (sub_ne_zero.2 hne), one_smul] at h2
  exact hg h2

theorem smul_cancel_left {c : F} (hc : c ≠ 0) {a b : G} (h : c • a = c • b) : a = b := by
  have := congrArg (fun x => c⁻¹ • x) h
  simpa [smul_smul, inv_mul_cancel₀ hc] using this

/-- `Point.ToAffineCompressed` (core/curves/curve.go:97-150, interface `Point`): an injective encoding
of fixed length. -/
structure PointCodec (G : Type*) where
  enc : G → List UInt8
  len : Nat
  len_enc : ∀ P, (enc P).length = len
  inj : Function.Injective enc

end Verif
