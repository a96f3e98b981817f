import Verif.Bls381.Twist
import Mathlib.GroupTheory.QuotientGroup.Finite
import Mathlib.GroupTheory.Perm.Cycle.Type
import Mathlib.FieldTheory.Finite.Basic
import Mathlib.Data.ZMod.QuotientGroup

/-!
# Counting the points of a curve without points of order two over a finite field

The number of points is at most `2 |K| + 1`, odd, and a multiple of the order of every subgroup that is exhibited.  No definition of the
code is modelled here.
-/

set_option linter.unusedSectionVars false

namespace Verif.Bls381.Count
open Verif.Native Verif.Native.Weier

section
variable {K : Type} [_root_.Field K] [DecidableEq K] [Finite K] {b : K}

/-- A number for every element of a finite field. -/
noncomputable def num (x : K) : Nat := (Finite.equivFin K x).val

theorem num_inj {x y : K} (h : num x = num y) : x = y := (Finite.equivFin K).injective (Fin.ext h)

/-- The abscissa and which of an ordinate and its negative has the smaller number. -/
noncomputable def code : Pt (0 : K) b → Option (K × Bool)
  | .zero => none
  | .some x y _ => some (x, decide (num y < num (-y)))

theorem ne_neg (two : (2 : K) ≠ 0) {y : K} (hy : y ≠ 0) : y ≠ -y := by
  intro e
  have : (2 : K) * y = 0 := by linear_combination e
  exact (mul_ne_zero two hy) this

theorem code_injective (two : (2 : K) ≠ 0) (n2 : NoTwo (0 : K) b) : Function.Injective (code (b := b)) := by
  intro P Q h
  cases P with
  | zero =>
    cases Q with
    | zero => rfl
    | some x y hq => simp [code] at h
  | some x y hP =>
    cases Q with
    | zero => simp [code] at h
    | some x' y' hQ =>
      simp only [code, Option.some.injEq, Prod.mk.injEq, decide_eq_decide] at h
      obtain ⟨rfl, hy⟩ := h
      have e1 := eqn_iff.1 hP.1
      have e2 := eqn_iff.1 hQ.1
      have : (y - y') * (y + y') = 0 := by linear_combination e1 - e2
      rcases mul_eq_zero.1 this with h | h
      · have : y = y' := sub_eq_zero.1 h
        subst this
        rfl
      · exfalso
        have hy0 := y_ne_zero n2 e2
        have e : y = -y' := eq_neg_of_add_eq_zero_left h
        rw [e, neg_neg] at hy
        have hne : num y' ≠ num (-y') := fun h => ne_neg two hy0 (num_inj h)
        omega

theorem finite (two : (2 : K) ≠ 0) (n2 : NoTwo (0 : K) b) : Finite (Pt (0 : K) b) :=
  Finite.of_injective _ (code_injective two n2)

theorem card_le (two : (2 : K) ≠ 0) (n2 : NoTwo (0 : K) b) : Nat.card (Pt (0 : K) b) ≤ 2 * Nat.card K + 1 := by
  have := Nat.card_le_card_of_injective _ (code_injective two n2)
  rwa [Finite.card_option, Nat.card_prod, Nat.card_eq_fintype_card (α := Bool), Fintype.card_bool, Nat.mul_comm] at this

theorem not_even (two : (2 : K) ≠ 0) (n2 : NoTwo (0 : K) b) : Nat.card (Pt (0 : K) b) % 2 = 1 := by
  have := finite two n2
  by_contra hc
  have hd : 2 ∣ Nat.card (Pt (0 : K) b) := by omega
  have : Fact (Nat.Prime 2) := ⟨Nat.prime_two⟩
  obtain ⟨P, hP⟩ := exists_prime_addOrderOf_dvd_card' 2 hd
  have h2 : P + P = 0 := by
    have := addOrderOf_nsmul_eq_zero P
    rwa [hP, two_nsmul] at this
  have hne : P ≠ 0 := by
    rintro rfl
    simp at hP
  cases P with
  | zero => exact hne rfl
  | some x y h =>
    have e : (.some x y h : Pt (0 : K) b) = -(.some x y h) := eq_neg_of_add_eq_zero_left h2
    rw [WeierstrassCurve.Affine.Point.neg_some] at e
    injection e with _ ey
    rw [negY_eq] at ey
    exact ne_neg two (y_ne_zero n2 (eqn_iff.1 h.1)) ey

/-- A multiple `n` of which three exceed the bound is the order. -/
theorem card_eq (two : (2 : K) ≠ 0) (n2 : NoTwo (0 : K) b) {n : Nat} (hbig : 2 * Nat.card K + 1 < 3 * n)
    (hd : n ∣ Nat.card (Pt (0 : K) b)) : Nat.card (Pt (0 : K) b) = n := by
  obtain ⟨k, hk⟩ := hd
  have hle := card_le two n2
  have hodd := not_even two n2
  rw [hk] at hle hodd ⊢
  have hk3 : k < 3 := by
    by_contra hc
    have : n * 3 ≤ n * k := Nat.mul_le_mul_left _ (by omega)
    omega
  have : k ≠ 0 := by rintro rfl; simp at hodd
  have : k ≠ 2 := by rintro rfl; omega
  have : k = 1 := by omega
  rw [this, Nat.mul_one]

end

section
variable {G : Type} [AddCommGroup G] {l : Nat}

/-- The subgroup two elements of prime order generate. -/
theorem plane_in (hl : l.Prime) {P Q : G} (hP : l • P = 0) (hQ : l • Q = 0) (hP0 : P ≠ 0) (hind : ∀ k : Int, Q ≠ k • P) :
    ∃ S : AddSubgroup G, Nat.card S = l ^ 2 ∧ (∀ x ∈ S, l • x = 0) ∧ ∀ H : AddSubgroup G, P ∈ H → Q ∈ H → S ≤ H := by
  have : Fact l.Prime := ⟨hl⟩
  let f : ZMod l →+ G := ZMod.lift l ⟨zmultiplesHom G P, by rw [zmultiplesHom_apply, natCast_zsmul, hP]⟩
  let g : ZMod l →+ G := ZMod.lift l ⟨zmultiplesHom G Q, by rw [zmultiplesHom_apply, natCast_zsmul, hQ]⟩
  have hf : ∀ n : Int, f (n : ZMod l) = n • P := fun n => by rw [ZMod.lift_coe]; rfl
  have hg : ∀ n : Int, g (n : ZMod l) = n • Q := fun n => by rw [ZMod.lift_coe]; rfl
  have zdiv : ∀ {R : G}, l • R = 0 → R ≠ 0 → ∀ n : Int, n • R = 0 → (n : ZMod l) = 0 := by
    intro R hR hR0 n hn
    have ho : addOrderOf R = l := addOrderOf_eq_prime hR hR0
    rw [ZMod.intCast_zmod_eq_zero_iff_dvd, ← ho]
    exact addOrderOf_dvd_iff_zsmul_eq_zero.2 hn
  have hQ0 : Q ≠ 0 := fun h => hind 0 (by rw [h, zero_zsmul])
  have hinj : Function.Injective (f.coprod g) := by
    rw [injective_iff_map_eq_zero]
    rintro ⟨i, j⟩ h
    obtain ⟨i, rfl⟩ := ZMod.intCast_surjective i
    obtain ⟨j, rfl⟩ := ZMod.intCast_surjective j
    rw [AddMonoidHom.coprod_apply] at h
    dsimp only at h
    rw [hf, hg] at h
    have hj : (j : ZMod l) = 0 := by
      by_contra hj
      apply hind ((((-(j : ZMod l)⁻¹ * i : ZMod l)).val : Int))
      have e : ((j : ZMod l)⁻¹.val * j : Int) • Q = Q := by
        have h1 : ((((j : ZMod l)⁻¹.val * j - 1 : Int)) : ZMod l) = 0 := by
          rw [Int.cast_sub, Int.cast_mul, Int.cast_natCast, ZMod.natCast_zmod_val, inv_mul_cancel₀ hj, Int.cast_one, sub_self]
        rw [ZMod.intCast_zmod_eq_zero_iff_dvd] at h1
        obtain ⟨c, hc⟩ := h1
        have : ((j : ZMod l)⁻¹.val * j : Int) = c * l + 1 := by linarith
        rw [this, add_zsmul, one_zsmul, mul_zsmul, natCast_zsmul, hQ, zsmul_zero, zero_add]
      have e2 : j • Q = -(i • P) := eq_neg_of_add_eq_zero_right h
      rw [mul_zsmul, e2, ← neg_zsmul, ← mul_zsmul] at e
      rw [← e]
      have h3 : (((((j : ZMod l)⁻¹.val : Int) * -i) - ((-(j : ZMod l)⁻¹ * i : ZMod l).val : Int) : Int) : ZMod l) = 0 := by
        rw [Int.cast_sub, Int.cast_mul, Int.cast_natCast, Int.cast_natCast, ZMod.natCast_zmod_val, ZMod.natCast_zmod_val, Int.cast_neg]
        ring
      rw [ZMod.intCast_zmod_eq_zero_iff_dvd] at h3
      obtain ⟨c, hc⟩ := h3
      have : (((j : ZMod l)⁻¹.val : Int) * -i) = c * l + ((-(j : ZMod l)⁻¹ * i : ZMod l).val : Int) := by linarith
      rw [this, add_zsmul, mul_zsmul, natCast_zsmul, hP, zsmul_zero, zero_add]
    have hj' : j • Q = 0 := by
      rw [← hg, hj, map_zero]
    rw [hj', add_zero] at h
    have hi := zdiv hP hP0 i h
    rw [hi, hj]
    rfl
  refine ⟨(f.coprod g).range, ?_, ?_, ?_⟩
  · rw [← Nat.card_congr (AddMonoidHom.ofInjective hinj).toEquiv, Nat.card_prod, Nat.card_zmod, pow_two]
  · rintro x ⟨⟨i, j⟩, rfl⟩
    obtain ⟨i, rfl⟩ := ZMod.intCast_surjective i
    obtain ⟨j, rfl⟩ := ZMod.intCast_surjective j
    rw [AddMonoidHom.coprod_apply]
    dsimp only
    rw [hf, hg, nsmul_add, ← natCast_zsmul, ← natCast_zsmul (j • Q), ← mul_zsmul, ← mul_zsmul, mul_comm, mul_zsmul, mul_comm, mul_zsmul,
      natCast_zsmul, natCast_zsmul, hP, hQ, zsmul_zero, zsmul_zero, add_zero]
  · rintro H h1 h2 x ⟨⟨i, j⟩, rfl⟩
    obtain ⟨i, rfl⟩ := ZMod.intCast_surjective i
    obtain ⟨j, rfl⟩ := ZMod.intCast_surjective j
    rw [AddMonoidHom.coprod_apply]
    dsimp only
    rw [hf, hg]
    exact H.add_mem (H.zsmul_mem h1 _) (H.zsmul_mem h2 _)

theorem plane (hl : l.Prime) {P Q : G} (hP : l • P = 0) (hQ : l • Q = 0) (hP0 : P ≠ 0) (hind : ∀ k : Int, Q ≠ k • P) :
    ∃ S : AddSubgroup G, Nat.card S = l ^ 2 ∧ ∀ x ∈ S, l • x = 0 := by
  obtain ⟨S, h1, h2, -⟩ := plane_in hl hP hQ hP0 hind
  exact ⟨S, h1, h2⟩

theorem zsmul_zero_dvd (hl : l.Prime) {P : G} (hP : l • P = 0) (h0 : P ≠ 0) {k : Int} (hk : k • P = 0) : (l : Int) ∣ k := by
  have : Fact l.Prime := ⟨hl⟩
  have ho : addOrderOf P = l := addOrderOf_eq_prime hP h0
  rw [← ho]
  exact addOrderOf_dvd_iff_zsmul_eq_zero.2 hk

/-- No element of order `l ≡ 2 (mod 3)` is an eigenvector of an automorphism of order three. -/
theorem indep_two (hl : l.Prime) (h3 : l % 3 = 2) (phi : G →+ G) {P : G} (hP : l • P = 0) (h0 : P ≠ 0)
    (hsum : P + phi P + phi (phi P) = 0) (k : Int) : phi P ≠ k • P := by
  intro hk
  have : Fact l.Prime := ⟨hl⟩
  have e : (1 + k + k * k : Int) • P = 0 := by
    rw [hk, map_zsmul, hk] at hsum
    rw [add_zsmul, add_zsmul, one_zsmul, mul_zsmul]
    exact hsum
  have hd := (ZMod.intCast_zmod_eq_zero_iff_dvd _ l).2 (zsmul_zero_dvd hl hP h0 e)
  push_cast at hd
  generalize (k : ZMod l) = z at hd
  have hz3 : z ^ 3 = 1 := by linear_combination (z - 1) * hd
  have hz1 : z ≠ 1 := by
    rintro rfl
    have : ((3 : Nat) : ZMod l) = 0 := by push_cast; linear_combination hd
    rw [ZMod.natCast_eq_zero_iff] at this
    have := (Nat.prime_dvd_prime_iff_eq hl Nat.prime_three).1 this
    omega
  have hz0 : z ≠ 0 := by
    rintro rfl
    simp at hz3
  have ho : orderOf z = 3 := by
    have : Fact (Nat.Prime 3) := ⟨Nat.prime_three⟩
    exact orderOf_eq_prime hz3 hz1
  have hd3 : 3 ∣ l - 1 := ho ▸ orderOf_dvd_of_pow_eq_one (ZMod.pow_card_sub_one_eq_one hz0)
  have := hl.two_le
  omega

/-- Two eigenvectors with distinct eigenvalues. -/
theorem indep_one (hl : l.Prime) (phi : G →+ G) {P Q : G} (hQ : l • Q = 0) (h0 : Q ≠ 0) {r s : Nat}
    (hp : phi P = r • P) (hq : phi Q = s • Q) (hrs : r < s ∧ s < l) (k : Int) : Q ≠ k • P := by
  intro hk
  have e : ((s : Int) - r) • Q = 0 := by
    have h1 : phi Q = r • Q := by
      rw [hk, map_zsmul, hp, ← natCast_zsmul, ← natCast_zsmul, ← mul_zsmul, ← mul_zsmul, mul_comm]
    rw [sub_zsmul, natCast_zsmul, natCast_zsmul, ← h1, ← hq, add_neg_cancel]
  have := zsmul_zero_dvd hl hQ h0 e
  have := Int.le_of_dvd (by omega) this
  omega

/-- A subgroup whose index kills the group: multiplying by the index lands in the subgroup. -/
theorem index_nsmul_mem [Finite G] (S : AddSubgroup G) {n m : Nat} (hS : Nat.card S = n) (hG : Nat.card G = m * n) (g : G) :
    m • g ∈ S := by
  have hn : 0 < n := hS ▸ Nat.card_pos
  have hi : S.index = m := by
    have := S.index_mul_card
    rw [hS, hG] at this
    exact Nat.eq_of_mul_eq_mul_right hn this
  rw [← hi]
  exact AddSubgroup.nsmul_index_mem S g

/-- An element killed by a number prime to the index is in the subgroup. -/
theorem mem_of_coprime [Finite G] (S : AddSubgroup G) {n m : Nat} (hS : Nat.card S = n) (hG : Nat.card G = m * n) {g : G} {c : Nat}
    (hc : c • g = 0) (hcop : Nat.Coprime m c) : g ∈ S := by
  have h1 := index_nsmul_mem S hS hG g
  have h2 : c • g ∈ S := by rw [hc]; exact S.zero_mem
  have h3 := Nat.gcd_eq_gcd_ab m c
  rw [hcop] at h3
  have : g = (m.gcdA c) • (m • g) + (m.gcdB c) • (c • g) := by
    rw [← natCast_zsmul, ← natCast_zsmul, ← mul_zsmul, ← mul_zsmul, ← add_zsmul, mul_comm, mul_comm (m.gcdB c), ← h3]
    rw [Nat.cast_one, one_zsmul]
  rw [this]
  exact S.add_mem (S.zsmul_mem h1 _) (S.zsmul_mem h2 _)

end

end Verif.Bls381.Count
