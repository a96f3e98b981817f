import Verif.Sharing.Model
import Verif.Base.Interp

/-! Helper lemmas for the sharing model. -/

namespace Verif.Sharing

set_option linter.unusedSectionVars false
set_option linter.unusedSimpArgs false

open Polynomial Finset Verif.Interp

variable {F : Type*} [Field F] [DecidableEq F]

/-! ### Loops as products and sums -/

omit [DecidableEq F] in
theorem foldl_zipIdx_prod (h : F → F) (i : Nat) (xs : List F) (k : Nat) (a : F) :
    (xs.zipIdx k).foldl (fun acc p => if i = p.2 then acc else acc * h p.1) a
      = a * ∏ j ∈ range xs.length, if i = k + j then 1 else h (xs.getD j 0) := by
  induction xs generalizing k a with
  | nil => simp
  | cons x xs ih =>
    rw [List.zipIdx_cons, List.foldl_cons, ih, List.length_cons, Finset.prod_range_succ']
    have : ∀ j, k + 1 + j = k + (j + 1) := by intro j; omega
    simp only [List.getD_cons_succ, List.getD_cons_zero, Nat.add_zero, this]
    split <;> ring

theorem prod_erase_eq_ite {M : Type*} [CommMonoid M] (n i : Nat) (h : Nat → M) :
    (∏ j ∈ range n, if i = 0 + j then 1 else h j) = ∏ j ∈ (range n).erase i, h j := by
  rw [← Finset.prod_subset (Finset.erase_subset i (range n))]
  · refine Finset.prod_congr rfl fun j hj => ?_
    have := Finset.ne_of_mem_erase hj
    rw [if_neg]; omega
  · intro j hj hj'
    have : j = i := by
      by_contra hne
      exact hj' (Finset.mem_erase.2 ⟨hne, hj⟩)
    rw [if_pos]; omega

omit [DecidableEq F] in
theorem lagNum_eq (xs : List F) (i : Nat) :
    lagNum xs i = ∏ j ∈ (range xs.length).erase i, xs.getD j 0 := by
  unfold lagNum
  rw [foldl_zipIdx_prod (fun x => x) i xs 0 1, one_mul, prod_erase_eq_ite]

omit [DecidableEq F] in
theorem lagDen_eq (xs : List F) (i : Nat) (xi : F) :
    lagDen xs i xi = ∏ j ∈ (range xs.length).erase i, (xs.getD j 0 - xi) := by
  unfold lagDen
  rw [foldl_zipIdx_prod (fun x => x - xi) i xs 0 1, one_mul, prod_erase_eq_ite]

theorem getD_injOn {α : Type*} (xs : List α) (d : α) (h : xs.Nodup) :
    Set.InjOn (fun j => xs.getD j d) (range xs.length : Finset Nat) := by
  intro i hi j hj hij
  simp only [Finset.coe_range, Set.mem_Iio] at hi hj
  simp only [List.getD_eq_getElem?_getD, List.getElem?_eq_getElem hi,
    List.getElem?_eq_getElem hj, Option.getD_some] at hij
  exact (List.Nodup.getElem_inj_iff h).1 hij

theorem foldlM_add {M α : Type*} [AddCommGroup M] (P : α → Prop) [DecidablePred P] (f : α → M)
    (l : List α) (a : M) (h : ∀ x ∈ l, ¬ P x) :
    l.foldlM (fun acc x => if P x then none else some (acc + f x)) a
      = some (a + (l.map f).sum) := by
  induction l generalizing a with
  | nil => simp
  | cons x l ih =>
    have hx : ¬ P x := h x (by simp)
    simp only [List.foldlM_cons, if_neg hx]
    change List.foldlM _ _ l = _
    rw [ih _ (fun y hy => h y (by simp [hy]))]
    simp [add_assoc]

theorem foldlM_add_none {M α : Type*} [AddCommGroup M] (P : α → Prop) [DecidablePred P] (f : α → M)
    (l : List α) (a : M) (h : ∃ x ∈ l, P x) :
    l.foldlM (fun acc x => if P x then none else some (acc + f x)) a = none := by
  induction l generalizing a with
  | nil => simp at h
  | cons x l ih =>
    by_cases hx : P x
    · simp [List.foldlM_cons, if_pos hx]
    · simp only [List.foldlM_cons, if_neg hx]
      obtain ⟨y, hy, hp⟩ := h
      rcases List.mem_cons.1 hy with rfl | hy
      · exact absurd hp hx
      · exact ih _ ⟨y, hy, hp⟩

theorem sum_map_zipIdx {α M : Type*} [AddCommGroup M] (f : α × Nat → M) (l : List α) (d : α)
    (k : Nat) :
    ((l.zipIdx k).map f).sum = ∑ j ∈ range l.length, f (l.getD j d, k + j) := by
  induction l generalizing k with
  | nil => simp
  | cons x l ih =>
    rw [List.zipIdx_cons, List.map_cons, List.sum_cons, ih, List.length_cons,
      Finset.sum_range_succ']
    have : ∀ j, k + 1 + j = k + (j + 1) := by intro j; omega
    simp only [List.getD_cons_succ, List.getD_cons_zero, Nat.add_zero, this]
    exact add_comm _ _

variable {M : Type*} [AddCommGroup M] [Module F M]

theorem lagDen_ne_zero {xs : List F} (h : xs.Nodup) {i : Nat} (hi : i < xs.length) :
    lagDen xs i (xs.getD i 0) ≠ 0 := by
  rw [lagDen_eq, Finset.prod_ne_zero_iff]
  intro j hj
  rw [Finset.mem_erase, Finset.mem_range] at hj
  intro h0
  apply hj.1
  exact getD_injOn xs 0 h (by simpa using hj.2) (by simpa using hi) (sub_eq_zero.1 h0)

/-- The Go interpolation loop is the textbook Lagrange sum when the abscissae are distinct. -/
theorem interpolate_eq (xs : List F) (ys : List M) (hl : xs.length = ys.length) (h : xs.Nodup) :
    interpolate xs ys = some (∑ i ∈ range xs.length,
      lagCoeff (range xs.length) (fun j => xs.getD j 0) i • ys.getD i 0) := by
  unfold interpolate
  have hzip : ∀ p ∈ (xs.zip ys).zipIdx, p.2 < xs.length ∧ p.1.1 = xs.getD p.2 0 := by
    rintro ⟨⟨x, y⟩, i⟩ hp
    rw [List.mem_zipIdx_iff_getElem?] at hp
    simp only at hp ⊢
    rw [List.getElem?_zip_eq_some] at hp
    have hlt : i < xs.length := by
      rcases List.getElem?_eq_some_iff.1 hp.1 with ⟨hh, _⟩; exact hh
    refine ⟨hlt, ?_⟩
    simp [List.getD_eq_getElem?_getD, hp.1]
  have := foldlM_add (M := M) (fun p : (F × M) × Nat => lagDen xs p.2 p.1.1 = 0)
    (fun p => (lagNum xs p.2 / lagDen xs p.2 p.1.1) • p.1.2) (xs.zip ys).zipIdx 0
    (by
      intro p hp
      obtain ⟨h1, h2⟩ := hzip p hp
      rw [h2]; exact lagDen_ne_zero h h1)
  simp only
  rw [this, zero_add, sum_map_zipIdx _ _ (0, 0) 0]
  congr 1
  have hlen : (xs.zip ys).length = xs.length := by simp [hl]
  rw [hlen]
  refine Finset.sum_congr rfl fun i hi => ?_
  have hi' : i < xs.length := by simpa using hi
  have e : (xs.zip ys).getD i (0, 0) = (xs.getD i 0, ys.getD i 0) := by
    have hy : i < ys.length := hl ▸ hi'
    simp [List.getD_eq_getElem?_getD, List.getElem?_eq_getElem, hi', hy, List.getElem?_zip_eq_some]
  simp only [e, Nat.zero_add]
  unfold lagCoeff
  rw [lagNum_eq, lagDen_eq]

/-- Interpolating values of a low-degree polynomial (times a fixed vector) gives its value at 0. -/
theorem interpolate_poly (xs : List F) (h : xs.Nodup) (f : F[X]) (hf : f.degree < xs.length)
    (P : M) :
    interpolate xs (xs.map fun x => f.eval x • P) = some (f.eval 0 • P) := by
  rw [interpolate_eq _ _ (by simp) h]
  congr 1
  rw [← sum_lagCoeff_smul (range xs.length) (fun j => xs.getD j 0) (getD_injOn xs 0 h) f
    (by simpa using hf) P]
  refine Finset.sum_congr rfl fun i hi => ?_
  have hi' : i < xs.length := by simpa using hi
  congr 1
  simp [List.getD_eq_getElem?_getD, hi']

/-- Interpolation fails when two abscissae coincide. -/
theorem interpolate_dup (xs : List F) (ys : List M) (hl : xs.length = ys.length)
    (h : ¬ xs.Nodup) : interpolate xs ys = none := by
  unfold interpolate
  rw [List.nodup_iff_injective_getElem] at h
  simp only [Function.Injective, not_forall] at h
  obtain ⟨i, j, hij, hne⟩ := h
  refine foldlM_add_none (M := M) (fun p : (F × M) × Nat => lagDen xs p.2 p.1.1 = 0)
    (fun p => (lagNum xs p.2 / lagDen xs p.2 p.1.1) • p.1.2) (xs.zip ys).zipIdx 0 ?_
  refine ⟨((xs[i], ys[(i : Nat)]'(hl ▸ i.2)), i), ?_, ?_⟩
  · rw [List.mem_zipIdx_iff_getElem?]
    simp only
    rw [List.getElem?_zip_eq_some]
    exact ⟨List.getElem?_eq_getElem i.2, List.getElem?_eq_getElem _⟩
  · rw [lagDen_eq, Finset.prod_eq_zero_iff]
    refine ⟨j, ?_, ?_⟩
    · rw [Finset.mem_erase, Finset.mem_range]
      exact ⟨fun h => hne (Fin.ext h.symm), j.2⟩
    · have : xs.getD j 0 = xs[j] := by simp [List.getD_eq_getElem?_getD]
      rw [this, sub_eq_zero]; exact hij.symm

/-! ### Polynomials given by coefficient lists -/

/-- The polynomial with the given coefficient list (lowest degree first). -/
noncomputable def polyOf : List F → F[X]
  | [] => 0
  | a :: r => C a + X * polyOf r

omit [DecidableEq F] in
theorem evaluate_eq (cs : List F) (x : F) : evaluate cs x = (polyOf cs).eval x := by
  fun_induction evaluate cs x with
  | case1 => simp [polyOf]
  | case2 => simp [polyOf]
  | case3 x a b r ih => rw [ih]; simp only [polyOf, eval_add, eval_C, eval_mul, eval_X]; ring

omit [DecidableEq F] in
theorem degree_polyOf_lt (cs : List F) : (polyOf cs).degree < cs.length := by
  induction cs with
  | nil => simp [polyOf]
  | cons a r ih =>
    unfold polyOf
    rw [List.length_cons]
    refine lt_of_le_of_lt (degree_add_le _ _) (max_lt ?_ ?_)
    · refine lt_of_le_of_lt degree_C_le ?_
      exact_mod_cast Nat.succ_pos _
    · by_cases h0 : polyOf r = 0
      · rw [h0, mul_zero, degree_zero]; exact WithBot.bot_lt_coe _
      · rw [degree_mul, degree_X, degree_eq_natDegree h0] at *
        have : (polyOf r).natDegree < r.length := by exact_mod_cast ih
        exact_mod_cast (by omega : 1 + (polyOf r).natDegree < r.length + 1)

omit [DecidableEq F] in
@[simp] theorem polyOf_eval_zero (a : F) (r : List F) : (polyOf (a :: r)).eval 0 = a := by
  simp [polyOf]

omit [DecidableEq F] in
theorem length_polyInit (a : F) (t : Nat) (rnd : Nat → F) (ht : 1 ≤ t) :
    (polyInit a t rnd).length = t := by
  simp [polyInit]; omega

/-! ### The validation loop -/

theorem validate_eq_some (c : Codec F) (s : Share) (v : F) :
    s.validate c = some v ↔ s.id ≠ 0 ∧ c.setBytes s.value = some v ∧ v ≠ 0 := by
  unfold Share.validate
  split
  · simp_all
  · split
    · simp_all
    · rename_i w hw
      split
      · constructor
        · simp
        · rintro ⟨_, h, h'⟩; rw [hw] at h; simp_all
      · constructor
        · rintro h; simp only [Option.some.injEq] at h; subst h; exact ⟨by assumption, hw, by assumption⟩
        · rintro ⟨_, h, h'⟩; rw [hw] at h; exact h

theorem checkShares_iff (s : Shamir) (c : Codec F) (l : List Share) (dups : List Nat) (r) :
    checkShares s c l dups = some r ↔
      (∀ sh ∈ l, sh.id ≤ s.limit ∧ sh.id ∉ dups) ∧ (l.map Share.id).Nodup ∧
      (∀ sh ∈ l, ∃ v, sh.validate c = some v) ∧
      r = l.map fun sh => (((sh.id : Nat) : F), (sh.validate c).getD 0) := by
  induction l generalizing dups r with
  | nil => simp [checkShares, eq_comm]
  | cons sh rest ih =>
    unfold checkShares
    cases hv : sh.validate c with
    | none => simp [hv]
    | some v =>
      simp only
      by_cases h1 : sh.id > s.limit
      · simp only [if_pos h1, reduceCtorEq, false_iff]
        rintro ⟨h, -⟩
        have := (h sh (by simp)).1; omega
      · rw [if_neg h1]
        by_cases h2 : sh.id ∈ dups
        · simp only [if_pos h2, reduceCtorEq, false_iff]
          rintro ⟨h, -⟩
          exact (h sh (by simp)).2 h2
        · rw [if_neg h2, Option.map_eq_some_iff]
          constructor
          · rintro ⟨a, ha, rfl⟩
            rw [ih] at ha
            obtain ⟨a1, a2, a3, a4⟩ := ha
            refine ⟨?_, ?_, ?_, ?_⟩
            · intro x hx
              rcases List.mem_cons.1 hx with rfl | hx
              · exact ⟨by omega, h2⟩
              · have := a1 x hx
                exact ⟨this.1, fun hh => this.2 (by simp [hh])⟩
            · rw [List.map_cons, List.nodup_cons]
              refine ⟨?_, a2⟩
              rw [List.mem_map]
              rintro ⟨x, hx, hxe⟩
              exact (a1 x hx).2 (by simp [hxe])
            · intro x hx
              rcases List.mem_cons.1 hx with rfl | hx
              · exact ⟨v, hv⟩
              · exact a3 x hx
            · simp [hv, a4]
          · rintro ⟨b1, b2, b3, b4⟩
            rw [List.map_cons, List.nodup_cons] at b2
            refine ⟨rest.map fun sh => (((sh.id : Nat) : F), (sh.validate c).getD 0), ?_, ?_⟩
            · rw [ih]
              refine ⟨?_, b2.2, fun x hx => b3 x (by simp [hx]), rfl⟩
              intro x hx
              have := b1 x (by simp [hx])
              refine ⟨this.1, ?_⟩
              rw [List.mem_cons, not_or]
              refine ⟨?_, this.2⟩
              intro e
              exact b2.1 (List.mem_map.2 ⟨x, hx, e⟩)
            · simp [hv, b4]

/-- Identifiers up to `B` are distinct, non-zero scalars (true of every supported curve order). -/
def SmallNonzero (F : Type*) [Field F] (B : Nat) : Prop := ∀ n : Nat, 0 < n → n ≤ B → (n : F) ≠ 0

omit [DecidableEq F] in
theorem SmallNonzero.inj {B : Nat} (h : SmallNonzero F B) {a b : Nat} (ha : a ≤ B) (hb : b ≤ B)
    (e : (a : F) = b) : a = b := by
  by_contra hne
  rcases Nat.lt_or_gt_of_ne hne with hlt | hlt
  · apply h (b - a) (by omega) (by omega)
    rw [Nat.cast_sub hlt.le, e, sub_self]
  · apply h (a - b) (by omega) (by omega)
    rw [Nat.cast_sub hlt.le, e, sub_self]

omit [DecidableEq F] in
theorem SmallNonzero.nodup_map {B : Nat} (h : SmallNonzero F B) {l : List Nat} (hl : l.Nodup)
    (hb : ∀ n ∈ l, n ≤ B) : (l.map fun n => ((n : Nat) : F)).Nodup := by
  apply List.Nodup.map_on _ hl
  intro a ha b hb' e
  exact h.inj (hb a ha) (hb b hb') e

/-! ### Commitments -/

section
variable {G : Type*} [AddCommGroup G] [Module F G]

omit [DecidableEq F] in
theorem commitEvalLoop_poly (x i : F) (rhs : G) (cs : List F) (g : G) :
    commitEvalLoop x i rhs (cs.map (· • g)) = rhs + (i * x * (polyOf cs).eval x) • g := by
  induction cs generalizing i rhs with
  | nil => simp [commitEvalLoop, polyOf]
  | cons a r ih =>
    simp only [List.map_cons, commitEvalLoop]
    rw [ih]
    simp only [polyOf, eval_add, eval_C, eval_mul, eval_X]
    rw [add_assoc, smul_smul, ← add_smul]
    congr 2; ring

omit [DecidableEq F] in
theorem commitEval_poly (x : F) (cs : List F) (g : G) :
    commitEval x (cs.map (· • g)) = (polyOf cs).eval x • g := by
  cases cs with
  | nil => simp [commitEval, polyOf]
  | cons a r =>
    simp only [List.map_cons, commitEval]
    rw [commitEvalLoop_poly]
    simp only [polyOf, eval_add, eval_C, eval_mul, eval_X, one_mul, add_smul]

omit [DecidableEq F] in
theorem commitEvalLoop_add (x i : F) (r1 r2 : G) (l1 l2 : List G) (h : l1.length = l2.length) :
    commitEvalLoop x i (r1 + r2) ((l1.zip l2).map fun p => p.1 + p.2)
      = commitEvalLoop x i r1 l1 + commitEvalLoop x i r2 l2 := by
  induction l1 generalizing i r1 r2 l2 with
  | nil => cases l2 with
    | nil => rfl
    | cons _ _ => simp at h
  | cons a l1 ih => cases l2 with
    | nil => simp at h
    | cons b l2 =>
      simp only [List.zip_cons_cons, List.map_cons, commitEvalLoop]
      rw [← ih _ _ _ _ (by simpa using h)]
      congr 1
      rw [smul_add]; abel

omit [DecidableEq F] in
theorem commitEval_pedersen (x : F) (cs ds : List F) (hl : cs.length = ds.length) (g h : G) :
    commitEval x ((cs.zip ds).map fun p => p.1 • g + p.2 • h)
      = (polyOf cs).eval x • g + (polyOf ds).eval x • h := by
  rw [← commitEval_poly, ← commitEval_poly]
  have e : ((cs.zip ds).map fun p => p.1 • g + p.2 • h)
      = (((cs.map (· • g)).zip (ds.map (· • h))).map fun p => p.1 + p.2) := by
    rw [List.zip_map, List.map_map]; rfl
  rw [e]
  cases cs with
  | nil => cases ds with
    | nil => simp [commitEval]
    | cons _ _ => simp at hl
  | cons a cs => cases ds with
    | nil => simp at hl
    | cons b ds =>
      simp only [List.map_cons, List.zip_cons_cons, commitEval]
      exact commitEvalLoop_add x 1 _ _ _ _ (by simpa using hl)
end

end Verif.Sharing
