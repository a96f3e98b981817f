import Verif.Base.Tactics
import Mathlib.Algebra.CharP.Lemmas
import Mathlib.Algebra.CharP.Algebra
import Mathlib.Algebra.Field.Basic

/-!
The cubic extension `K[v]/(v^3 - ξ)` of a field by a cube root of a non-cube.  No definition of the code is modelled here.
-/
namespace Verif.Bls381

/-- `c0 + c1·v + c2·v^2` with `v^3 = ξ`. -/
@[ext]
structure Cubic (K : Type*) (ξ : K) where
  c0 : K
  c1 : K
  c2 : K
deriving DecidableEq

namespace Cubic
variable {K : Type*} {ξ : K}

section ring
variable [CommRing K]

instance : Zero (Cubic K ξ) := ⟨⟨0, 0, 0⟩⟩
instance : One (Cubic K ξ) := ⟨⟨1, 0, 0⟩⟩
instance : Add (Cubic K ξ) := ⟨fun x y => ⟨x.c0 + y.c0, x.c1 + y.c1, x.c2 + y.c2⟩⟩
instance : Neg (Cubic K ξ) := ⟨fun x => ⟨-x.c0, -x.c1, -x.c2⟩⟩
instance : Sub (Cubic K ξ) := ⟨fun x y => ⟨x.c0 - y.c0, x.c1 - y.c1, x.c2 - y.c2⟩⟩
instance : Mul (Cubic K ξ) := ⟨fun x y =>
  ⟨x.c0 * y.c0 + ξ * (x.c1 * y.c2 + x.c2 * y.c1), x.c0 * y.c1 + x.c1 * y.c0 + ξ * (x.c2 * y.c2),
    x.c0 * y.c2 + x.c1 * y.c1 + x.c2 * y.c0⟩⟩

@[simp] theorem c0_zero : (0 : Cubic K ξ).c0 = 0 := rfl
@[simp] theorem c1_zero : (0 : Cubic K ξ).c1 = 0 := rfl
@[simp] theorem c2_zero : (0 : Cubic K ξ).c2 = 0 := rfl
@[simp] theorem c0_one : (1 : Cubic K ξ).c0 = 1 := rfl
@[simp] theorem c1_one : (1 : Cubic K ξ).c1 = 0 := rfl
@[simp] theorem c2_one : (1 : Cubic K ξ).c2 = 0 := rfl
@[simp] theorem c0_add (x y : Cubic K ξ) : (x + y).c0 = x.c0 + y.c0 := rfl
@[simp] theorem c1_add (x y : Cubic K ξ) : (x + y).c1 = x.c1 + y.c1 := rfl
@[simp] theorem c2_add (x y : Cubic K ξ) : (x + y).c2 = x.c2 + y.c2 := rfl
@[simp] theorem c0_sub (x y : Cubic K ξ) : (x - y).c0 = x.c0 - y.c0 := rfl
@[simp] theorem c1_sub (x y : Cubic K ξ) : (x - y).c1 = x.c1 - y.c1 := rfl
@[simp] theorem c2_sub (x y : Cubic K ξ) : (x - y).c2 = x.c2 - y.c2 := rfl
@[simp] theorem c0_neg (x : Cubic K ξ) : (-x).c0 = -x.c0 := rfl
@[simp] theorem c1_neg (x : Cubic K ξ) : (-x).c1 = -x.c1 := rfl
@[simp] theorem c2_neg (x : Cubic K ξ) : (-x).c2 = -x.c2 := rfl
@[simp] theorem c0_mul (x y : Cubic K ξ) : (x * y).c0 = x.c0 * y.c0 + ξ * (x.c1 * y.c2 + x.c2 * y.c1) := rfl
@[simp] theorem c1_mul (x y : Cubic K ξ) : (x * y).c1 = x.c0 * y.c1 + x.c1 * y.c0 + ξ * (x.c2 * y.c2) := rfl
@[simp] theorem c2_mul (x y : Cubic K ξ) : (x * y).c2 = x.c0 * y.c2 + x.c1 * y.c1 + x.c2 * y.c0 := rfl

instance : CommRing (Cubic K ξ) where
  add_assoc x y z := by ext <;> simp [add_assoc]
  zero_add x := by ext <;> simp
  add_zero x := by ext <;> simp
  add_comm x y := by ext <;> simp [add_comm]
  neg_add_cancel x := by ext <;> simp
  sub_eq_add_neg x y := by ext <;> simp [sub_eq_add_neg]
  mul_assoc x y z := by ext <;> simp <;> ring
  one_mul x := by ext <;> simp
  mul_one x := by ext <;> simp
  zero_mul x := by ext <;> simp
  mul_zero x := by ext <;> simp
  left_distrib x y z := by ext <;> simp <;> ring
  right_distrib x y z := by ext <;> simp <;> ring
  mul_comm x y := by ext <;> simp <;> ring
  nsmul := nsmulRec
  zsmul := zsmulRec

/-- The base ring inside the extension. -/
def emb : K →+* Cubic K ξ where
  toFun k := ⟨k, 0, 0⟩
  map_one' := rfl
  map_zero' := rfl
  map_mul' x y := by ext <;> simp
  map_add' x y := by ext <;> simp

@[simp] theorem c0_emb (k : K) : (emb k : Cubic K ξ).c0 = k := rfl
@[simp] theorem c1_emb (k : K) : (emb k : Cubic K ξ).c1 = 0 := rfl
@[simp] theorem c2_emb (k : K) : (emb k : Cubic K ξ).c2 = 0 := rfl

theorem emb_injective : Function.Injective (emb : K → Cubic K ξ) := fun x y h => by
  have := congrArg Cubic.c0 h
  exact this

/-- The adjoined cube root. -/
def v : Cubic K ξ := ⟨0, 1, 0⟩

theorem v_cubed : (v : Cubic K ξ) ^ 3 = emb ξ := by
  rw [pow_succ, pow_two]
  unfold v
  ext <;> simp

theorem split (x : Cubic K ξ) : x = emb x.c0 + emb x.c1 * v + emb x.c2 * (v * v) := by
  unfold v
  ext <;> simp

instance (p : Nat) [CharP K p] : CharP (Cubic K ξ) p := charP_of_injective_ringHom (f := (emb : K →+* Cubic K ξ)) emb_injective p

/-- the `p`-th power, for `p = 3k + 1` -/
theorem frob {p k : Nat} [Fact p.Prime] [CharP K p] (hk : p = 3 * k + 1) (x : Cubic K ξ) :
    x ^ p = ⟨x.c0 ^ p, x.c1 ^ p * ξ ^ k, x.c2 ^ p * (ξ ^ k * ξ ^ k)⟩ := by
  have hv : (v : Cubic K ξ) ^ p = emb (ξ ^ k) * v := by
    calc (v : Cubic K ξ) ^ p = v ^ (3 * k + 1) := congrArg (fun n => (v : Cubic K ξ) ^ n) hk
      _ = emb (ξ ^ k) * v := by rw [pow_succ, pow_mul, v_cubed, map_pow]
  conv_lhs => rw [split x]
  rw [add_pow_char, add_pow_char, mul_pow, mul_pow, mul_pow, ← map_pow, ← map_pow, ← map_pow, hv]
  unfold v
  ext <;> simp [-map_pow]

/-- The norm. -/
def norm (x : Cubic K ξ) : K := x.c0 ^ 3 + ξ * x.c1 ^ 3 + ξ ^ 2 * x.c2 ^ 3 - 3 * ξ * x.c0 * x.c1 * x.c2

theorem norm_mul (x y : Cubic K ξ) : norm (x * y) = norm x * norm y := by
  unfold norm
  simp
  ring

/-- The adjugate: `x * adj x` is the norm. -/
def adj (x : Cubic K ξ) : Cubic K ξ :=
  ⟨x.c0 * x.c0 - x.c1 * x.c2 * ξ, x.c2 * x.c2 * ξ - x.c0 * x.c1, x.c1 * x.c1 - x.c0 * x.c2⟩

theorem mul_adj (x : Cubic K ξ) : x * adj x = emb (norm x) := by
  unfold adj
  ext
  · rw [c0_emb]; unfold norm; simp; ring
  · rw [c1_emb]; simp; ring
  · rw [c2_emb]; simp; ring

end ring

section field
variable [Field K]

/-- an element of norm zero is zero, as `ξ` is not a cube -/
theorem norm_eq_zero (hξ : ∀ t : K, t ^ 3 ≠ ξ) (x : Cubic K ξ) : norm x = 0 ↔ x = 0 := by
  have lin : ∀ a b : K, a ^ 3 + ξ * b ^ 3 = 0 → a = 0 ∧ b = 0 := by
    intro a b h
    by_cases hb : b = 0
    · refine ⟨?_, hb⟩
      rw [hb] at h
      have : a ^ 3 = 0 := by linear_combination h
      exact pow_eq_zero_iff (by norm_num) |>.1 this
    · exfalso
      refine hξ (-a / b) ?_
      field_simp
      linear_combination -h
  constructor
  · intro h
    have h2 : norm (x * ⟨-x.c1, x.c2, 0⟩) = 0 := by rw [norm_mul, h, zero_mul]
    have e : (x * ⟨-x.c1, x.c2, 0⟩ : Cubic K ξ).c2 = 0 := by simp; ring
    unfold norm at h2
    rw [e] at h2
    obtain ⟨k1, k2⟩ := lin (x * ⟨-x.c1, x.c2, 0⟩ : Cubic K ξ).c0 (x * ⟨-x.c1, x.c2, 0⟩ : Cubic K ξ).c1 (by linear_combination h2)
    simp at k1 k2
    by_cases hc : x.c2 = 0
    · unfold norm at h
      rw [hc] at h
      obtain ⟨k3, k4⟩ := lin x.c0 x.c1 (by linear_combination h)
      ext
      · exact k3
      · exact k4
      · exact hc
    · exfalso
      refine hξ (x.c1 / x.c2) ?_
      field_simp
      linear_combination (-x.c1) * k2 - x.c2 * k1
  · intro h
    rw [h]
    unfold norm
    simp

variable [hξ : Fact (∀ t : K, t ^ 3 ≠ ξ)]

instance : Inv (Cubic K ξ) := ⟨fun x => adj x * emb (norm x)⁻¹⟩

instance : Field (Cubic K ξ) where
  exists_pair_ne := ⟨0, 1, fun h => zero_ne_one (α := K) (congrArg Cubic.c0 h)⟩
  mul_inv_cancel x hx := by
    show x * (adj x * emb (norm x)⁻¹) = 1
    rw [← mul_assoc, mul_adj, ← map_mul, mul_inv_cancel₀ (fun h => hx ((norm_eq_zero hξ.out x).1 h)), map_one]
  inv_zero := by
    show adj 0 * emb (norm 0)⁻¹ = 0
    have : adj (0 : Cubic K ξ) = 0 := by unfold adj; ext <;> simp
    rw [this, zero_mul]
  nnqsmul := _
  nnqsmul_def := fun _ _ => rfl
  qsmul := _
  qsmul_def := fun _ _ => rfl

omit hξ in
theorem inv_def (x : Cubic K ξ) : x⁻¹ = adj x * emb (norm x)⁻¹ := rfl

theorem emb_ne (k : K) : (emb k : Cubic K ξ) = 0 ↔ k = 0 := by
  constructor
  · intro h; exact congrArg Cubic.c0 h
  · rintro rfl; exact map_zero _

end field

end Cubic

end Verif.Bls381
