import Verif.FrostDkg.Model
import Verif.Sharing.Lemmas
import Verif.Base.Tactics
import Mathlib.Data.Finset.Basic
import Mathlib.Algebra.BigOperators.Group.Finset.Basic
import Mathlib.Order.Interval.Finset.Nat

/-! Helper lemmas for FROST DKG. -/

namespace Verif.FrostDkg
open Verif.Sharing Polynomial Finset

set_option linter.unusedSectionVars false

theorem lookup_of_mem {α : Type*} {l : List (Nat × α)} (hnd : (l.map Prod.fst).Nodup) {a : Nat} {b : α}
    (h : (a, b) ∈ l) : l.lookup a = some b := by
  induction l with
  | nil => simp at h
  | cons x l ih =>
    obtain ⟨k, v⟩ := x
    simp only [List.map_cons, List.nodup_cons] at hnd
    rw [List.lookup_cons]
    rcases List.mem_cons.1 h with e | e
    · cases e; simp
    · have hne : a ≠ k := by
        rintro rfl
        exact hnd.1 (List.mem_map.2 ⟨(a, b), e, rfl⟩)
      have hb : (a == k) = false := by simpa using hne
      rw [hb]
      exact ih hnd.2 e

theorem mem_of_lookup {α : Type*} {l : List (Nat × α)} {a : Nat} {b : α} (h : l.lookup a = some b) :
    (a, b) ∈ l := by
  induction l with
  | nil => simp at h
  | cons x l ih =>
    obtain ⟨k, v⟩ := x
    rw [List.lookup_cons] at h
    by_cases hk : a = k
    · subst hk; simp at h; subst h; simp
    · have hb : (a == k) = false := by simpa using hk
      rw [hb] at h
      exact List.mem_cons_of_mem _ (ih h)

theorem mapM_some {α β : Type*} (f : α → Option β) (h : α → β) (l : List α)
    (hl : ∀ x ∈ l, f x = some (h x)) : l.mapM f = some (l.map h) := by
  induction l with
  | nil => rfl
  | cons a l ih =>
    rw [List.mapM_cons, hl a (by simp), ih (fun x hx => hl x (by simp [hx]))]
    rfl

theorem forEach_ok {α : Type*} (f : α → Res Unit) (l : List α) :
    forEach f l = .ok () ↔ ∀ a ∈ l, f a = .ok () := by
  induction l with
  | nil => simp [forEach]
  | cons a l ih =>
    unfold forEach
    cases h : f a with
    | ok u => cases u; simp [ih, h]
    | err => simp [h]
    | panic => simp [h]

variable {F G : Type*} [Field F] [DecidableEq F] [AddCommGroup G] [Module F G] [DecidableEq G]

theorem addShares_ok (P : Params F G) (dp : Participant F G) (p2p : List (Nat × Share))
    (v : Nat → F) (bl : List (Nat × Bcast F G))
    (h : ∀ x ∈ bl, x.1 ≠ dp.id → ∃ sh, p2p.lookup x.1 = some sh ∧ P.sc.setBytes sh.value = some (v x.1))
    (acc : F) :
    addShares P dp p2p bl acc
      = .ok (acc + ((bl.map Prod.fst).map fun j => if j = dp.id then 0 else v j).sum) := by
  induction bl generalizing acc with
  | nil => simp [addShares]
  | cons x bl ih =>
    obtain ⟨j, b⟩ := x
    unfold addShares
    by_cases hj : j = dp.id
    · rw [if_pos hj, ih (fun x hx => h x (by simp [hx]))]
      simp [hj]
    · rw [if_neg hj]
      obtain ⟨sh, h1, h2⟩ := h (j, b) (by simp) hj
      simp only at h1 h2
      rw [h1]
      simp only [h2]
      rw [ih (fun x hx => h x (by simp [hx]))]
      simp [hj, add_assoc]

theorem addKeys_eq (dp : Participant F G) (bl : List (Nat × Bcast F G)) (A : Nat → G)
    (h : ∀ x ∈ bl, x.2.verifiers.headD 0 = A x.1) (acc : G) :
    addKeys dp bl acc = acc + ((bl.map Prod.fst).map fun j => if j = dp.id then 0 else A j).sum := by
  induction bl generalizing acc with
  | nil => simp [addKeys]
  | cons x bl ih =>
    obtain ⟨j, b⟩ := x
    unfold addKeys
    by_cases hj : j = dp.id
    · rw [if_pos hj, ih (fun x hx => h x (by simp [hx]))]
      simp [hj]
    · rw [if_neg hj, ih (fun x hx => h x (by simp [hx]))]
      have := h (j, b) (by simp)
      simp only at this
      rw [this]
      simp [hj, add_assoc]

/-- own value plus everybody else's is the sum over all participants -/
theorem sum_keys {M : Type*} [AddCommMonoid M] (n i : Nat) (hi : 1 ≤ i ∧ i ≤ n) (keys : List Nat)
    (hnd : keys.Nodup) (hk : ∀ j ∈ keys, 1 ≤ j ∧ j ≤ n) (hall : ∀ j, 1 ≤ j → j ≤ n → j ≠ i → j ∈ keys)
    (v : Nat → M) :
    v i + (keys.map fun j => if j = i then 0 else v j).sum = ∑ j ∈ Icc 1 n, v j := by
  rw [← List.sum_toFinset _ hnd]
  have hmem : i ∈ Icc 1 n := Finset.mem_Icc.2 hi
  rw [← Finset.add_sum_erase _ _ hmem]
  congr 1
  have hsub : (Icc 1 n).erase i ⊆ keys.toFinset := by
    intro j hj
    rw [Finset.mem_erase, Finset.mem_Icc] at hj
    exact List.mem_toFinset.2 (hall j hj.2.1 hj.2.2 hj.1)
  rw [← Finset.sum_subset hsub]
  · exact Finset.sum_congr rfl fun j hj => by rw [if_neg (Finset.ne_of_mem_erase hj)]
  · intro j hj hj'
    rw [if_pos]
    by_contra hne
    apply hj'
    have := hk j (List.mem_toFinset.1 hj)
    exact Finset.mem_erase.2 ⟨hne, Finset.mem_Icc.2 this⟩

/-- The broadcast an honest participant makes. -/
def honestBcast (P : Params F G) (id t : Nat) (ctx : UInt8) (s : F) (rnd : Nat → F) (k : F) : Bcast F G :=
  let ci := P.hash (pokMsg P id ctx (s • P.g) (k • P.g))
  ⟨(polyInit s t rnd).map (· • P.g), s * ci + k, ci⟩

/-- The share an honest participant deals to `j`. -/
noncomputable def honestShare (P : Params F G) (t : Nat) (s : F) (rnd : Nat → F) (j : Nat) : Share :=
  ⟨j, P.sc.toBytes ((polyOf (polyInit s t rnd)).eval ((j : Nat) : F))⟩

theorem shares_getElem (P : Params F G) (t n : Nat) (s : F) (rnd : Nat → F) (j : Nat) (hj : 1 ≤ j ∧ j ≤ n) :
    (getPolyAndShares ⟨t, n⟩ P.sc s rnd).1[j - 1]? = some (honestShare P t s rnd j) := by
  unfold getPolyAndShares honestShare
  simp only
  rw [List.getElem?_map, List.getElem?_range (by omega)]
  have : j - 1 + 1 = j := by omega
  simp only [Option.map_some, this, evaluate_eq]

theorem round1_honest (P : Params F G) (dp : Participant F G) (t n : Nat) (hr : dp.round = 1)
    (hs : dp.shamir = ⟨t, n⟩) (ho : dp.others.length + 1 ≤ n ∧ t ≤ dp.others.length + 1)
    (hoth : ∀ j ∈ dp.others, 1 ≤ j ∧ j ≤ n) (s : F) (hs0 : s ≠ 0) (rnd : Nat → F) (k : F) :
    round1 P dp none s rnd k = .ok
      ({ dp with verifiers := (polyInit s t rnd).map (· • P.g),
                 secretShares := (getPolyAndShares ⟨t, n⟩ P.sc s rnd).1, round := 2 },
        honestBcast P dp.id t dp.ctx s rnd k, dp.others.map fun j => (j, honestShare P t s rnd j)) := by
  unfold round1
  rw [if_neg (by simp [hr]), if_neg (by rw [hs]; simp only; omega)]
  simp only
  unfold feldmanSplit
  rw [if_neg hs0, hs]
  simp only
  have hm : dp.others.mapM (fun id => if id = 0 then none else
      ((getPolyAndShares ⟨t, n⟩ P.sc s rnd).1[id - 1]?).map (fun sh => (id, sh)))
      = some (dp.others.map fun j => (j, honestShare P t s rnd j)) := by
    apply mapM_some
    intro j hj
    have := hoth j hj
    rw [if_neg (by omega), shares_getElem P t n s rnd j this]
    rfl
  rw [hm]
  simp only
  have h1 : (getPolyAndShares ⟨t, n⟩ P.sc s rnd).2 = polyInit s t rnd := rfl
  rw [h1]
  rfl

end Verif.FrostDkg
