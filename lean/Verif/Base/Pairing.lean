import Verif.Base.Group
import Verif.Base.Tactics

/-! The pairing used by the accumulator, BLS and BBS code, as an abstract interface:
`core/curves/curve.go:215-229` `PairingPoint` (`OtherGroup`, `Pairing`, `MultiPairing`) over two groups of
prime order that are vector spaces over the scalar field. -/

set_option linter.unusedSectionVars false

namespace Verif

/-- A bilinear map `G1 × G2 → GT` (core/curves/curve.go:261-266 `PairingPoint`) with the fixed
generators of the two groups.  That the BLS12-381 engine (native/bls12381/pairings.go) computes such a
map is proved separately (`C98_*`); `Verif.Bls381.Inst.pairing` is that instance. -/
structure Pairing (F G1 G2 GT : Type*) [Field F] [AddCommGroup G1] [Module F G1] [AddCommGroup G2]
    [Module F G2] [CommGroup GT] where
  e : G1 → G2 → GT
  g1 : G1
  g2 : G2
  add_left : ∀ A B Q, e (A + B) Q = e A Q * e B Q
  add_right : ∀ P A B, e P (A + B) = e P A * e P B
  smul_swap : ∀ (c : F) P Q, e (c • P) Q = e P (c • Q)
  /-- pairing with the `G2` generator kills no point of `G1` except the identity -/
  nondeg2 : ∀ P, e P g2 = 1 → P = 0
  /-- and symmetrically -/
  nondeg1 : ∀ Q, e g1 Q = 1 → Q = 0

namespace Pairing

variable {F G1 G2 GT : Type*} [Field F] [AddCommGroup G1] [Module F G1] [AddCommGroup G2]
    [Module F G2] [CommGroup GT] (E : Pairing F G1 G2 GT)

theorem zero_left (Q : G2) : E.e 0 Q = 1 := by
  have h := E.add_left 0 0 Q
  rw [add_zero] at h
  exact mul_eq_left.mp h.symm

theorem zero_right (P : G1) : E.e P 0 = 1 := by
  have h := E.add_right P 0 0
  rw [add_zero] at h
  exact mul_eq_left.mp h.symm

theorem neg_left (P : G1) (Q : G2) : E.e (-P) Q = (E.e P Q)⁻¹ := by
  apply eq_inv_of_mul_eq_one_left
  rw [← E.add_left, neg_add_cancel, E.zero_left]

theorem neg_right (P : G1) (Q : G2) : E.e P (-Q) = (E.e P Q)⁻¹ := by
  apply eq_inv_of_mul_eq_one_left
  rw [← E.add_right, neg_add_cancel, E.zero_right]

theorem e_g2_inj {A B : G1} : E.e A E.g2 = E.e B E.g2 ↔ A = B := by
  constructor
  · intro h
    have h1 : E.e (A - B) E.g2 = 1 := by
      rw [sub_eq_add_neg, E.add_left, E.neg_left, h, mul_inv_cancel]
    exact sub_eq_zero.mp (E.nondeg2 _ h1)
  · rintro rfl; rfl

theorem e_g1_inj {A B : G2} : E.e E.g1 A = E.e E.g1 B ↔ A = B := by
  constructor
  · intro h
    have h1 : E.e E.g1 (A - B) = 1 := by
      rw [sub_eq_add_neg, E.add_right, E.neg_right, h, mul_inv_cancel]
    exact sub_eq_zero.mp (E.nondeg1 _ h1)
  · rintro rfl; rfl

end Pairing

/-- A one-dimensional example: `e(a,b) = a·b` written multiplicatively. -/
def toyPairing (F : Type*) [Field F] : Pairing F F F (Multiplicative F) where
  e a b := Multiplicative.ofAdd (a * b)
  g1 := 1
  g2 := 1
  add_left a b q := by rw [← ofAdd_add, add_mul]
  add_right p a b := by rw [← ofAdd_add, mul_add]
  smul_swap c p q := by simp only [smul_eq_mul]; congr 1; ring
  nondeg2 p h := by simpa using h
  nondeg1 p h := by simpa using h

end Verif
