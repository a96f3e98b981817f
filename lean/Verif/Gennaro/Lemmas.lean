import Verif.Gennaro.Model
import Verif.FrostDkg.Lemmas
import Verif.SharingV1.Props

/-! Helper lemmas for the Gennaro DKG. -/

namespace Verif.Gennaro
open Verif.SharingV1 Verif.Bytes Verif.Sharing Polynomial Finset
open Verif.Sharing (polyInit evaluate commitEval)

set_option linter.unusedSectionVars false

abbrev VShamir := Verif.SharingV1.Shamir

variable {p : Nat} [hp : Fact p.Prime] {G : Type*} [AddCommGroup G] [Module (ZMod p) G] [DecidableEq G]

/-- The values one participant draws. -/
structure Draws (p : Nat) where
  secret : ZMod p
  blinding : ZMod p
  rnd : Nat → ZMod p
  rndB : Nat → ZMod p

/-- The dealt polynomial and its blinding companion. -/
noncomputable def Draws.f (d : Draws p) (t : Nat) : (ZMod p)[X] := polyOf (polyInit d.secret t d.rnd)
noncomputable def Draws.fB (d : Draws p) (t : Nat) : (ZMod p)[X] := polyOf (polyInit d.blinding t d.rndB)

/-- Commitments to the dealt polynomial. -/
def Draws.vers (g : G) (d : Draws p) (t : Nat) : List G := (polyInit d.secret t d.rnd).map (· • g)

/-- Result of an honest `Pedersen.Split`. -/
noncomputable def hres (g h : G) (t n : Nat) (d : Draws p) : PedersenResult p G :=
  { blinding := d.blinding
    blindingShares := (List.range n).map fun i => ⟨i + 1, (d.fB t).eval ((i + 1 : Nat) : ZMod p)⟩
    secretShares := (List.range n).map fun i => ⟨i + 1, (d.f t).eval ((i + 1 : Nat) : ZMod p)⟩
    blindedVerifiers := ((polyInit d.secret t d.rnd).zip (polyInit d.blinding t d.rndB)).map
      fun q => q.1 • g + q.2 • h
    verifiers := d.vers g t }

theorem split_honest (g h : G) (t n : Nat) (hpn : n < p) (d : Draws p)
    (hs : d.secret ≠ 0) (hb : d.blinding ≠ 0) :
    pedersenSplit g h ⟨t, n⟩ (natToBE d.secret.val) d.blinding d.rnd d.rndB = .ok (hres g h t n d) := by
  have hgs : ∀ (v : ZMod p) (rnd : Nat → ZMod p), v ≠ 0 →
      getSharesAndPolynomial ⟨t, n⟩ (natToBE v.val) rnd = .ok ((List.range n).map fun i => ⟨i + 1,
        (polyOf (polyInit v t rnd)).eval ((i + 1 : Nat) : ZMod p)⟩, polyInit v t rnd) := by
    intro v rnd hv
    have h1 : natToBE v.val ≠ [] := by rw [Ne, natToBE_eq_nil, ZMod.val_eq_zero]; exact hv
    unfold getSharesAndPolynomial
    simp only [h1, if_false, beToNat_natToBE, ZMod.val_lt, not_true, ZMod.natCast_zmod_val]
    rw [if_neg (by omega)]
    simp only [evaluate_eq]
  unfold SharingV1.pedersenSplit
  rw [hgs _ _ hs, hgs _ _ hb]
  rfl

theorem packets_honest (g h : G) (t n : Nat) (d : Draws p) (l : List Nat)
    (hl : ∀ j ∈ l, 1 ≤ j ∧ j ≤ n) :
    packets (hres g h t n d) l = some (l.map fun j =>
      (j, ⟨j, (d.f t).eval ((j : Nat) : ZMod p)⟩, ⟨j, (d.fB t).eval ((j : Nat) : ZMod p)⟩)) := by
  induction l with
  | nil => rfl
  | cons j l ih =>
    have hj := hl j (by simp)
    unfold packets
    rw [if_neg (by omega), ih (fun k hk => hl k (by simp [hk]))]
    have e : j - 1 + 1 = j := by omega
    have h1 : (hres g h t n d).secretShares[j - 1]? = some ⟨j, (d.f t).eval ((j : Nat) : ZMod p)⟩ := by
      simp only [hres]
      rw [List.getElem?_map, List.getElem?_range (by omega)]
      simp only [Option.map_some, e]
    have h2 : (hres g h t n d).blindingShares[j - 1]? = some ⟨j, (d.fB t).eval ((j : Nat) : ZMod p)⟩ := by
      simp only [hres]
      rw [List.getElem?_map, List.getElem?_range (by omega)]
      simp only [Option.map_some, e]
    rw [h1, h2]
    rfl

theorem pverify_honest (g h : G) (t n j : Nat) (ht : 2 ≤ t) (hj : j < p) (d : Draws p) :
    pedersenVerify g h ⟨t, n⟩ ⟨j, (d.f t).eval ((j : Nat) : ZMod p)⟩
      ⟨j, (d.fB t).eval ((j : Nat) : ZMod p)⟩ (hres g h t n d).blindedVerifiers = .ok true := by
  unfold SharingV1.pedersenVerify
  rw [if_neg (by simp [hres, polyInit]; omega), if_neg (by simp only; omega)]
  have : commitEval ((j : Nat) : ZMod p) (hres g h t n d).blindedVerifiers
      = (d.f t).eval ((j : Nat) : ZMod p) • g + (d.fB t).eval ((j : Nat) : ZMod p) • h := by
    simp only [hres]
    rw [commitEval_pedersen _ _ _ (by simp [polyInit])]; rfl
  simp [this]

theorem fverify_honest (g : G) (t n j : Nat) (ht : 2 ≤ t) (hj : j < p) (d : Draws p) :
    feldmanVerify g ⟨t, n⟩ ⟨j, (d.f t).eval ((j : Nat) : ZMod p)⟩ (d.vers g t) = .ok true := by
  unfold SharingV1.feldmanVerify
  rw [if_neg (by simp [Draws.vers, polyInit]; omega), if_neg (by simp only; omega)]
  have : commitEval ((j : Nat) : ZMod p) (d.vers g t) = (d.f t).eval ((j : Nat) : ZMod p) • g := by
    simp only [Draws.vers]
    rw [commitEval_poly]; rfl
  simp [this]

theorem round2Loop_ok (g h : G) (dp : Participant p G) (p2p : List (Nat × SharingV1.Share p × SharingV1.Share p))
    (X : Nat → SharingV1.Share p) (bl : List (Nat × List G))
    (hh : ∀ x ∈ bl, x.1 ≠ dp.id → x.1 ∈ dp.others ∧ ∃ R, p2p.lookup x.1 = some (X x.1, R) ∧
      pedersenVerify g h dp.shamir (X x.1) R x.2 = .ok true) (st : Nat → Option (SharingV1.Share p)) (sk : ZMod p) :
    round2Loop g h dp p2p bl st sk
      = (fun k => if k ∈ bl.map Prod.fst ∧ k ≠ dp.id then some (X k) else st k,
         .ok (sk + ((bl.map Prod.fst).map fun j => if j = dp.id then 0 else (X j).value).sum)) := by
  induction bl generalizing st sk with
  | nil => simp [round2Loop]
  | cons x bl ih =>
    obtain ⟨j, bvs⟩ := x
    have ih' := ih (fun y hy => hh y (by simp [hy]))
    unfold round2Loop
    by_cases hj : j = dp.id
    · rw [if_pos hj, ih']
      refine Prod.ext (funext fun k => ?_) (by simp [hj])
      by_cases hk : k = dp.id
      · simp [hk]
      · have hkj : k ≠ j := fun e => hk (e.trans hj)
        simp only [List.map_cons, List.mem_cons, hkj, false_or]
    · rw [if_neg hj]
      obtain ⟨hm, R, h1, h2⟩ := hh (j, bvs) (by simp) hj
      simp only at h1 h2 hm
      rw [h1]
      simp only [h2]
      rw [if_pos hm, ih']
      refine Prod.ext (funext fun k => ?_) (by simp [hj, add_assoc])
      by_cases hk : k = j
      · subst hk; simp [hj]
      · simp only [List.map_cons, List.mem_cons, hk, false_or, if_false]

theorem round3Loop_ok (g : G) (dp : Participant p G) (X : Nat → SharingV1.Share p) (V : Nat → List G) (A : Nat → G)
    (bl : List (Nat × List G))
    (hh : ∀ x ∈ bl, x.1 ≠ dp.id → x.1 ∈ dp.others ∧ dp.shares x.1 = some (X x.1) ∧ x.2 = V x.1 ∧
      (∃ r, V x.1 = A x.1 :: r) ∧ feldmanVerify g dp.shamir (X x.1) (V x.1) = .ok true)
    (st : Nat → List G) (pk : G) :
    round3Loop g dp bl st pk
      = (fun k => if k ∈ bl.map Prod.fst ∧ k ≠ dp.id then V k else st k,
         .ok (pk + ((bl.map Prod.fst).map fun j => if j = dp.id then 0 else A j).sum)) := by
  induction bl generalizing st pk with
  | nil => simp [round3Loop]
  | cons x bl ih =>
    obtain ⟨j, vs⟩ := x
    have ih' := ih (fun y hy => hh y (by simp [hy]))
    unfold round3Loop
    by_cases hj : j = dp.id
    · rw [if_pos hj, ih']
      refine Prod.ext (funext fun k => ?_) (by simp [hj])
      by_cases hk : k = dp.id
      · simp [hk]
      · have hkj : k ≠ j := fun e => hk (e.trans hj)
        simp only [List.map_cons, List.mem_cons, hkj, false_or]
    · rw [if_neg hj]
      obtain ⟨hm, h1, h2, ⟨r, h3⟩, h4⟩ := hh (j, vs) (by simp) hj
      simp only at h1 h2 hm h3 h4
      subst h2
      rw [if_neg (by simpa using hm), h1]
      simp only [h4]
      rw [h3]
      simp only
      rw [ih']
      refine Prod.ext (funext fun k => ?_) (by simp [hj, add_assoc])
      by_cases hk : k = j
      · subst hk; simp [hj, h3]
      · simp only [List.map_cons, List.mem_cons, hk, false_or, if_false]

theorem round4Inner_ok (j : Nat) (v : List G) (l : List Nat) (hl : ∀ k ∈ l, k < v.length) (w : G) :
    round4Inner (p := p) j v l w
      = .ok (w + (l.map fun k => ((j * (k + 1) : Nat) : ZMod p) • v.getD k 0).sum) := by
  induction l generalizing w with
  | nil => simp [round4Inner]
  | cons k l ih =>
    have hk := hl k (by simp)
    unfold round4Inner
    rw [List.getElem?_eq_getElem hk]
    simp only
    rw [ih (fun a ha => hl a (by simp [ha]))]
    simp [List.getD_eq_getElem?_getD, hk, add_assoc]

theorem foldr_bind_ok {α β : Type*} (f : α → Res β) (h : α → β) (l : List α) (hl : ∀ a ∈ l, f a = .ok (h a)) :
    l.foldr (fun j acc => (f j).bind fun w => acc.bind fun m => .ok ((j, w) :: m)) (.ok [])
      = .ok (l.map fun j => (j, h j)) := by
  induction l with
  | nil => rfl
  | cons a l ih =>
    rw [List.foldr_cons, ih (fun b hb => hl b (by simp [hb])), hl a (by simp)]
    rfl

theorem validIds_perm (n : Nat) (ids : List Nat) (h : ids.Perm ((List.range n).map (· + 1))) :
    validIds ids = true := by
  have hlen : ids.length = n := by simpa using h.length_eq
  unfold validIds
  rw [List.all_eq_true]
  intro i hi
  rw [decide_eq_true_eq, h.mem_iff]
  rw [hlen] at hi
  exact List.mem_map.2 ⟨i, hi, rfl⟩

end Verif.Gennaro
