import Verif.Bls381.Cyclo

/-!
Arithmetic of the target field on naturals, for powers evaluated by the kernel.  No definition of the code is modelled here.
-/
set_option linter.unusedSectionVars false
namespace Verif.Bls381.Nat12

/-- Elements of the quadratic extension as pairs of naturals. -/
abbrev N2 := Nat × Nat

/-- Six coordinates, in the order of the powers of `w`: `w^0, w^2, w^4, w, w^3, w^5`. -/
structure N12 where
  a : N2
  b : N2
  c : N2
  d : N2
  e : N2
  f : N2
deriving DecidableEq

def add2 (m : Nat) (x y : N2) : N2 := ((x.1 + y.1) % m, (x.2 + y.2) % m)
def mul2 (m : Nat) (x y : N2) : N2 := ((x.1 * y.1 + (m - 1) * (x.2 * y.2)) % m, (x.1 * y.2 + x.2 * y.1) % m)
def xi2 (m : Nat) (x : N2) : N2 := ((x.1 + (m - 1) * x.2) % m, (x.1 + x.2) % m)

def mul12 (m : Nat) (x y : N12) : N12 :=
  let A := add2 m
  let M := mul2 m
  let X := xi2 m
  ⟨A (M x.a y.a) (X (A (A (M x.b y.c) (M x.c y.b)) (A (M x.d y.f) (A (M x.e y.e) (M x.f y.d))))),
   A (A (M x.a y.b) (M x.b y.a)) (A (M x.d y.d) (X (A (M x.c y.c) (A (M x.e y.f) (M x.f y.e))))),
   A (A (M x.a y.c) (A (M x.b y.b) (M x.c y.a))) (A (A (M x.d y.e) (M x.e y.d)) (X (M x.f y.f))),
   A (A (M x.a y.d) (M x.d y.a)) (X (A (A (M x.b y.f) (M x.c y.e)) (A (M x.e y.c) (M x.f y.b)))),
   A (A (A (M x.a y.e) (M x.b y.d)) (A (M x.d y.b) (M x.e y.a))) (X (A (M x.c y.f) (M x.f y.c))),
   A (A (A (M x.a y.f) (M x.b y.e)) (M x.c y.d)) (A (A (M x.d y.c) (M x.e y.b)) (M x.f y.a))⟩

/-- Square and multiply, low bit first. -/
def pw12 (m : Nat) : Nat → N12 → Nat → N12 → N12
  | 0, _, _, acc => acc
  | f + 1, b, e, acc => pw12 m f (mul12 m b b) (e / 2) (if e % 2 = 1 then mul12 m acc b else acc)

def one12 : N12 := ⟨(1, 0), (0, 0), (0, 0), (0, 0), (0, 0), (0, 0)⟩

section
variable {m : Nat} (hm : 0 < m)

/-- The element denoted by six pairs. -/
def el12 {ξ : QuadraticAlgebra (ZMod m) (-1) 0} {t : Cubic (QuadraticAlgebra (ZMod m) (-1) 0) ξ} (x : N12) :
    QuadraticAlgebra (Cubic (QuadraticAlgebra (ZMod m) (-1) 0) ξ) t 0 :=
  ⟨⟨Fp6.el m x.a, Fp6.el m x.b, Fp6.el m x.c⟩, ⟨Fp6.el m x.d, Fp6.el m x.e, Fp6.el m x.f⟩⟩

include hm

theorem el_mul2 (x y : N2) : Fp6.el m (mul2 m x y) = Fp6.el m x * Fp6.el m y := Fp6.el_mul m hm x y

omit hm in
theorem el_add2 (x y : N2) : Fp6.el m (add2 m x y) = Fp6.el m x + Fp6.el m y := by
  unfold Fp6.el add2
  ext
  · simp only [ZMod.natCast_mod, Nat.cast_add, QuadraticAlgebra.re_add]
  · simp only [ZMod.natCast_mod, Nat.cast_add, QuadraticAlgebra.im_add]

theorem el_xi2 (x : N2) : Fp6.el m (xi2 m x) = ⟨1, 1⟩ * Fp6.el m x := by
  have h : ((m - 1 : Nat) : ZMod m) = -1 := by
    rw [Nat.cast_sub hm, ZMod.natCast_self, zero_sub, Nat.cast_one]
  unfold Fp6.el xi2
  ext
  · simp only [ZMod.natCast_mod, Nat.cast_add, Nat.cast_mul, h, QuadraticAlgebra.re_mul]
    ring
  · simp only [ZMod.natCast_mod, Nat.cast_add, QuadraticAlgebra.im_mul]
    ring

theorem el12_mul {t : Cubic (QuadraticAlgebra (ZMod m) (-1) 0) ⟨1, 1⟩} (ht : t = Cubic.v) (x y : N12) :
    (el12 (mul12 m x y) : QuadraticAlgebra (Cubic (QuadraticAlgebra (ZMod m) (-1) 0) ⟨1, 1⟩) t 0) = el12 x * el12 y := by
  obtain ⟨c0, c1, c2, c3, c4, c5⟩ := Cyclo.coords ht (el12 x : QuadraticAlgebra (Cubic (QuadraticAlgebra (ZMod m) (-1) 0) ⟨1, 1⟩) t 0) (el12 y)
  ext1
  · ext1
    · rw [c0]; simp only [el12, mul12, el_mul2 hm, el_add2, el_xi2 hm]; ring
    · rw [c1]; simp only [el12, mul12, el_mul2 hm, el_add2, el_xi2 hm]; ring
    · rw [c2]; simp only [el12, mul12, el_mul2 hm, el_add2, el_xi2 hm]; ring
  · ext1
    · rw [c3]; simp only [el12, mul12, el_mul2 hm, el_add2, el_xi2 hm]; ring
    · rw [c4]; simp only [el12, mul12, el_mul2 hm, el_add2, el_xi2 hm]; ring
    · rw [c5]; simp only [el12, mul12, el_mul2 hm, el_add2]

theorem pw12_spec {t : Cubic (QuadraticAlgebra (ZMod m) (-1) 0) ⟨1, 1⟩} (ht : t = Cubic.v) (f : Nat) : ∀ b e acc, e < 2 ^ f →
    (el12 (pw12 m f b e acc) : QuadraticAlgebra (Cubic (QuadraticAlgebra (ZMod m) (-1) 0) ⟨1, 1⟩) t 0) = el12 acc * el12 b ^ e := by
  induction f with
  | zero =>
    intro b e acc he
    have : e = 0 := by simpa using he
    rw [this, pw12, pow_zero, mul_one]
  | succ f ih =>
    intro b e acc he
    rw [pw12, ih _ _ _ (by rw [pow_succ] at he; omega), el12_mul hm ht]
    by_cases h : e % 2 = 1
    · rw [if_pos h, el12_mul hm ht]
      conv_rhs => rw [show e = 2 * (e / 2) + 1 by omega, pow_succ, pow_mul, pow_two]
      ring
    · rw [if_neg h]
      conv_rhs => rw [show e = 2 * (e / 2) by omega, pow_mul, pow_two]

omit hm in
theorem el12_one {ξ : QuadraticAlgebra (ZMod m) (-1) 0} {t : Cubic (QuadraticAlgebra (ZMod m) (-1) 0) ξ} :
    (el12 one12 : QuadraticAlgebra (Cubic (QuadraticAlgebra (ZMod m) (-1) 0) ξ) t 0) = 1 := by
  have h1 : Fp6.el m (1, 0) = 1 := by
    unfold Fp6.el; ext
    · rw [QuadraticAlgebra.re_one]; exact Nat.cast_one
    · rw [QuadraticAlgebra.im_one]; exact Nat.cast_zero
  have h0 : Fp6.el m (0, 0) = 0 := by
    unfold Fp6.el; ext
    · rw [QuadraticAlgebra.re_zero]; exact Nat.cast_zero
    · rw [QuadraticAlgebra.im_zero]; exact Nat.cast_zero
  unfold el12 one12
  rw [h1, h0, Cyclo.one_coords]

end

end Verif.Bls381.Nat12
