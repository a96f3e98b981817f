import Verif.SharingV1.Model
import Verif.Sharing.Lemmas

/-! Helper lemmas for the legacy sharing package. -/

namespace Verif.SharingV1
open Polynomial Finset Verif.Interp Verif.Bytes
open Verif.Sharing (polyInit evaluate commitEval polyOf evaluate_eq getD_injOn degree_polyOf_lt
  length_polyInit)

set_option linter.unusedSectionVars false

variable {p : Nat} [hp : Fact p.Prime]

theorem nodup_coords {l : List (Share p)} (hlt : ∀ r ∈ l, r.id < p) (hnd : (l.map Share.id).Nodup) :
    (l.map fun r => ((r.id : Nat) : ZMod p)).Nodup := by
  have : (l.map fun r => ((r.id : Nat) : ZMod p)) = (l.map Share.id).map (fun n => ((n : Nat) : ZMod p)) := by
    rw [List.map_map]; rfl
  rw [this]
  refine List.Nodup.map_on ?_ hnd
  intro a ha b hb e
  obtain ⟨r, hr, rfl⟩ := List.mem_map.1 ha
  obtain ⟨q, hq, rfl⟩ := List.mem_map.1 hb
  rw [ZMod.natCast_eq_natCast_iff'] at e
  rwa [Nat.mod_eq_of_lt (hlt r hr), Nat.mod_eq_of_lt (hlt q hq)] at e

theorem coords_ok (s : Shamir) (l : List (Share p))
    (h : ∀ r ∈ l, 1 ≤ r.id ∧ r.id ≤ s.limit ∧ r.id < p) :
    coords s l = .ok (l.map fun r => (((r.id : Nat) : ZMod p), r.value)) := by
  induction l with
  | nil => rfl
  | cons r l ih =>
    have hr := h r (by simp)
    unfold coords
    rw [if_neg (by omega), if_neg (by omega), ih (fun q hq => h q (by simp [hq]))]
    rfl

theorem basis_fold_ok (xs : List (ZMod p)) (i : Nat) (l : List Nat) (b : ZMod p)
    (h : ∀ j ∈ l, j ≠ i → xs.getD j 0 - xs.getD i 0 ≠ 0) :
    l.foldlM (fun b j =>
      if i = j then Res.ok b
      else
        let denom := xs.getD j 0 - xs.getD i 0
        if denom = 0 then .err else .ok (b * (xs.getD j 0 / denom))) b
    = .ok (b * (l.map fun j => if i = j then 1 else xs.getD j 0 / (xs.getD j 0 - xs.getD i 0)).prod) := by
  induction l generalizing b with
  | nil => simp
  | cons j l ih =>
    rw [List.foldlM_cons]
    by_cases hij : i = j
    · rw [if_pos hij, Res.bind_ok, ih _ (fun k hk => h k (by simp [hk]))]
      simp [hij]
    · have := h j (by simp) (Ne.symm hij)
      simp only [if_neg hij, if_neg this, Res.bind_ok]
      rw [ih _ (fun k hk => h k (by simp [hk]))]
      simp [hij, mul_assoc]

theorem prod_list_range (n : Nat) (f : Nat → ZMod p) :
    ((List.range n).map f).prod = ∏ j ∈ range n, f j := by
  induction n with
  | zero => simp
  | succ n ih => rw [List.range_succ, List.map_append, List.prod_append, ih, Finset.prod_range_succ]; simp

theorem basis_ok (xs : List (ZMod p)) (h : xs.Nodup) (i : Nat) (hi : i < xs.length) :
    basis xs.length xs i = .ok (lagCoeff (range xs.length) (fun j => xs.getD j 0) i) := by
  unfold basis
  have inj := getD_injOn xs 0 h
  rw [basis_fold_ok xs i _ 1 (by
    intro j hj hne h0
    apply hne
    exact inj (by simpa using hj) (by simpa using hi) (sub_eq_zero.1 h0))]
  rw [one_mul, prod_list_range]
  congr 1
  unfold lagCoeff
  rw [← Finset.prod_div_distrib]
  rw [← Finset.prod_subset (Finset.erase_subset i (range xs.length))]
  · refine Finset.prod_congr rfl fun j hj => ?_
    rw [if_neg (Ne.symm (Finset.ne_of_mem_erase hj))]
  · intro j hj hj'
    have : j = i := by
      by_contra hne; exact hj' (Finset.mem_erase.2 ⟨hne, hj⟩)
    simp [this]

theorem fold_add_ok (g : Nat → Res (ZMod p)) (c : Nat → ZMod p) (y : Nat → ZMod p) (l : List Nat)
    (a : ZMod p) (h : ∀ i ∈ l, g i = .ok (c i)) :
    l.foldlM (fun acc i => g i >>= fun b => Res.ok (acc + y i * b)) a
      = .ok (a + (l.map fun i => y i * c i).sum) := by
  induction l generalizing a with
  | nil => simp
  | cons i l ih =>
    rw [List.foldlM_cons, h i (by simp), Res.bind_ok, Res.bind_ok, ih _ (fun j hj => h j (by simp [hj]))]
    simp [add_assoc]

theorem sum_list_range {M : Type*} [AddCommMonoid M] (n : Nat) (f : Nat → M) :
    ((List.range n).map f).sum = ∑ j ∈ range n, f j := by
  induction n with
  | zero => simp
  | succ n ih => rw [List.range_succ, List.map_append, List.sum_append, ih, Finset.sum_range_succ]; simp

theorem interpolate_ok (xs ys : List (ZMod p)) (hl : xs.length = ys.length) (h : xs.Nodup) :
    interpolate xs.length xs ys = .ok (∑ i ∈ range xs.length,
      lagCoeff (range xs.length) (fun j => xs.getD j 0) i * ys.getD i 0) := by
  unfold interpolate
  rw [if_neg (by omega)]
  rw [fold_add_ok (fun i => basis xs.length xs i)
    (fun i => lagCoeff (range xs.length) (fun j => xs.getD j 0) i) (fun i => ys.getD i 0) _ _
    (fun i hi => basis_ok xs h i (by simpa using hi)), zero_add, sum_list_range]
  congr 1
  exact Finset.sum_congr rfl fun i _ => mul_comm _ _

theorem interpolate_poly (xs : List (ZMod p)) (h : xs.Nodup) (f : (ZMod p)[X])
    (hf : f.degree < xs.length) :
    interpolate xs.length xs (xs.map fun x => f.eval x) = .ok (f.eval 0) := by
  rw [interpolate_ok _ _ (by simp) h]
  congr 1
  rw [← sum_lagCoeff_eval (range xs.length) (fun j => xs.getD j 0) (getD_injOn xs 0 h) f
    (by simpa using hf)]
  refine Finset.sum_congr rfl fun i hi => ?_
  have hi' : i < xs.length := by simpa using hi
  simp [List.getD_eq_getElem?_getD, hi']

theorem basis_fold_err (xs : List (ZMod p)) (i : Nat) (l : List Nat) (b : ZMod p)
    (h : ∃ j ∈ l, j ≠ i ∧ xs.getD j 0 - xs.getD i 0 = 0) :
    l.foldlM (fun b j =>
      if i = j then Res.ok b
      else
        let denom := xs.getD j 0 - xs.getD i 0
        if denom = 0 then .err else .ok (b * (xs.getD j 0 / denom))) b = .err := by
  induction l generalizing b with
  | nil => simp at h
  | cons j l ih =>
    rw [List.foldlM_cons]
    obtain ⟨k, hk, hne, h0⟩ := h
    by_cases hij : i = j
    · rw [if_pos hij, Res.bind_ok]
      refine ih _ ⟨k, ?_, hne, h0⟩
      rcases List.mem_cons.1 hk with rfl | hk
      · exact absurd hij.symm hne
      · exact hk
    · simp only [if_neg hij]
      by_cases hd : xs.getD j 0 - xs.getD i 0 = 0
      · rw [if_pos hd]; rfl
      · rw [if_neg hd, Res.bind_ok]
        refine ih _ ⟨k, ?_, hne, h0⟩
        rcases List.mem_cons.1 hk with rfl | hk
        · exact absurd h0 hd
        · exact hk

theorem basis_ne_panic (t : Nat) (xs : List (ZMod p)) (i : Nat) :
    basis t xs i = .err ∨ ∃ b, basis t xs i = .ok b := by
  by_cases h : ∃ j ∈ List.range t, j ≠ i ∧ xs.getD j 0 - xs.getD i 0 = 0
  · exact Or.inl (basis_fold_err xs i _ 1 h)
  · push Not at h
    exact Or.inr ⟨_, basis_fold_ok xs i _ 1 h⟩

theorem fold_add_err (g : Nat → Res (ZMod p)) (y : Nat → ZMod p) (l : List Nat)
    (hg : ∀ i, g i = .err ∨ ∃ b, g i = .ok b) (a : ZMod p) (h : ∃ i ∈ l, g i = .err) :
    l.foldlM (fun acc i => g i >>= fun b => Res.ok (acc + y i * b)) a = .err := by
  induction l generalizing a with
  | nil => simp at h
  | cons i l ih =>
    rw [List.foldlM_cons]
    rcases hg i with hi | ⟨b, hb⟩
    · rw [hi]; rfl
    · rw [hb, Res.bind_ok, Res.bind_ok]
      apply ih
      obtain ⟨k, hk, hke⟩ := h
      rcases List.mem_cons.1 hk with rfl | hk
      · rw [hb] at hke; cases hke
      · exact ⟨k, hk, hke⟩

theorem interpolate_dup (xs ys : List (ZMod p)) (hl : xs.length = ys.length) (h : ¬ xs.Nodup) :
    interpolate xs.length xs ys = .err := by
  unfold interpolate
  rw [if_neg (by omega)]
  rw [List.nodup_iff_injective_getElem] at h
  simp only [Function.Injective, not_forall] at h
  obtain ⟨i, j, hij, hne⟩ := h
  apply fold_add_err _ _ _ (basis_ne_panic _ _)
  refine ⟨i, by simp [i.2], ?_⟩
  apply basis_fold_err
  refine ⟨j, by simp [j.2], fun e => hne (Fin.ext e.symm), ?_⟩
  have h1 : xs.getD j 0 = xs[(j : Nat)] := by simp [List.getD_eq_getElem?_getD]
  have h2 : xs.getD i 0 = xs[(i : Nat)] := by simp [List.getD_eq_getElem?_getD]
  rw [h1, h2, hij, sub_self]

end Verif.SharingV1
