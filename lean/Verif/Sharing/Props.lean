import Verif.Sharing.Lemmas
import Verif.Sharing.Codec
import Mathlib.Tactic.NormNum.Prime
import Mathlib.Tactic.FinCases

/-!
# Properties C01–C06 (package `crypto/sharing`)

`F` is the scalar field, `G` the curve group, `g` its generator.  `SmallNonzero F 255` says that the
numbers `1..255` are non-zero scalars, which every curve order in the repository satisfies.
-/

namespace Verif.Sharing

set_option linter.unusedSectionVars false

open Polynomial Finset Verif.Interp

variable {F : Type*} [Field F] [DecidableEq F]

/-! ## Specification -/

/-- Independent statement of which share lists a `(threshold, limit)` scheme should accept. -/
def WellFormed (c : Codec F) (threshold limit : Nat) (l : List Share) : Prop :=
  threshold ≤ l.length ∧
  (∀ sh ∈ l, 1 ≤ sh.id ∧ sh.id ≤ limit ∧ ∃ v : F, v ≠ 0 ∧ c.setBytes sh.value = some v) ∧
  (l.map Share.id).Nodup

theorem newShamir_eq_some {t n : Nat} {s : Shamir} (h : newShamir t n = some s) :
    s = ⟨t, n⟩ ∧ 2 ≤ t ∧ t ≤ n ∧ n ≤ 255 := by
  unfold newShamir at h
  split at h <;> try contradiction
  split at h <;> try contradiction
  split at h <;> try contradiction
  simp only [Option.some.injEq] at h
  exact ⟨h.symm, by omega, by omega, by omega⟩

/-! ## C02 -/

/-- **C02** `Combine` succeeds exactly on the well-formed share lists. -/
theorem C02_combine_isSome_iff (c : Codec F) (hF : SmallNonzero F 255) {t n : Nat} {s : Shamir}
    (hs : newShamir t n = some s) (l : List Share) :
    (combine s c l).isSome ↔ WellFormed c t n l := by
  obtain ⟨rfl, h2, htn, hn⟩ := newShamir_eq_some hs
  unfold combine WellFormed
  by_cases hlen : l.length < t
  · simp only [if_pos hlen, Option.isSome_none, Bool.false_eq_true, false_iff]
    rintro ⟨h, -⟩; omega
  · rw [if_neg hlen]
    cases hc : checkShares (F := F) ⟨t, n⟩ c l [] with
    | none =>
      simp only [Option.isSome_none, Bool.false_eq_true, false_iff]
      rintro ⟨-, h1, h3⟩
      have : checkShares (F := F) ⟨t, n⟩ c l []
          = some (l.map fun sh => (((sh.id : Nat) : F), (sh.validate c).getD 0)) := by
        rw [checkShares_iff]
        refine ⟨fun sh hsh => ⟨(h1 sh hsh).2.1, by simp⟩, h3, ?_, rfl⟩
        intro sh hsh
        obtain ⟨h4, _, v, hv, hv'⟩ := h1 sh hsh
        exact ⟨v, (validate_eq_some c sh v).2 ⟨by omega, hv', hv⟩⟩
      rw [hc] at this; cases this
    | some r =>
      rw [checkShares_iff] at hc
      obtain ⟨h1, h3, h4, rfl⟩ := hc
      have hnd : (l.map fun sh => ((sh.id : Nat) : F)).Nodup := by
        have := hF.nodup_map h3 (by
          intro m hm
          obtain ⟨sh, hsh, rfl⟩ := List.mem_map.1 hm
          have := (h1 sh hsh).1; simp only at this; omega)
        rwa [List.map_map] at this
      simp only
      rw [interpolate_eq _ _ (by simp) (by simpa [List.map_map, Function.comp_def] using hnd)]
      simp only [Option.isSome_some, true_iff]
      refine ⟨by omega, ?_, h3⟩
      intro sh hsh
      obtain ⟨v, hv⟩ := h4 sh hsh
      obtain ⟨a, b, d⟩ := (validate_eq_some c sh v).1 hv
      exact ⟨by omega, (h1 sh hsh).1, v, d, b⟩

/-- **C02** (value) whenever `Combine` accepts, the value returned is `f(0)` for *every* polynomial
`f` of degree below the number of supplied shares that passes through all of them. -/
theorem C02_combine_value (c : Codec F) (hF : SmallNonzero F 255) {t n : Nat} {s : Shamir}
    (hs : newShamir t n = some s) (l : List Share) (hwf : WellFormed c t n l)
    (f : F[X]) (hdeg : f.degree < l.length)
    (hf : ∀ sh ∈ l, c.setBytes sh.value = some (f.eval (sh.id : F))) :
    combine s c l = some (f.eval 0) := by
  obtain ⟨rfl, h2, htn, hn⟩ := newShamir_eq_some hs
  obtain ⟨w1, w2, w3⟩ := hwf
  unfold combine
  rw [if_neg (by simp only; omega)]
  have hval : ∀ sh ∈ l, sh.validate c = some (f.eval (sh.id : F)) := by
    intro sh hsh
    obtain ⟨a, b, v, hv, hv'⟩ := w2 sh hsh
    have := hf sh hsh
    rw [hv'] at this
    rw [validate_eq_some]
    exact ⟨by omega, hf sh hsh, by rw [← Option.some.inj this]; exact hv⟩
  have hc : checkShares (F := F) ⟨t, n⟩ c l []
      = some (l.map fun sh => (((sh.id : Nat) : F), (sh.validate c).getD 0)) := by
    rw [checkShares_iff]
    exact ⟨fun sh hsh => ⟨(w2 sh hsh).2.1, by simp⟩, w3, fun sh hsh => ⟨_, hval sh hsh⟩, rfl⟩
  rw [hc]
  simp only [List.map_map]
  have e : (l.map (Prod.snd ∘ fun sh => (((sh.id : Nat) : F), (sh.validate c).getD 0)))
      = (l.map (fun sh => ((sh.id : Nat) : F))).map (fun x => f.eval x • (1 : F)) := by
    rw [List.map_map]
    refine List.map_congr_left fun sh hsh => ?_
    simp [hval sh hsh]
  have e1 : (l.map (Prod.fst ∘ fun sh => (((sh.id : Nat) : F), (sh.validate c).getD 0)))
      = l.map (fun sh => ((sh.id : Nat) : F)) := rfl
  rw [e, e1, interpolate_poly _ _ f (by simpa using hdeg)]
  · simp
  · have := hF.nodup_map w3 (by
      intro m hm
      obtain ⟨sh, hsh, rfl⟩ := List.mem_map.1 hm
      have := (w2 sh hsh).2.1; omega)
    rwa [List.map_map] at this

/-! ## C01 -/

theorem mem_shares_iff (s : Shamir) (c : Codec F) (secret : F) (rnd : Nat → F) (sh : Share) :
    sh ∈ (getPolyAndShares s c secret rnd).1 ↔ 1 ≤ sh.id ∧ sh.id ≤ s.limit ∧
      sh.value = c.toBytes ((polyOf (polyInit secret s.threshold rnd)).eval ((sh.id : Nat) : F)) := by
  unfold getPolyAndShares
  simp only [List.mem_map, List.mem_range]
  constructor
  · rintro ⟨i, hi, rfl⟩
    exact ⟨by simp, by simp only; omega, by simp only [evaluate_eq]⟩
  · rintro ⟨h1, h2, h3⟩
    refine ⟨sh.id - 1, by omega, ?_⟩
    have : sh.id - 1 + 1 = sh.id := by omega
    rw [this, evaluate_eq, ← h3]

/-- **C01** Split deals shares with identifiers `1..n`; any at-least-`t` distinct dealt shares, in any
order, combine to the secret – except that an honest share whose value happens to be zero makes
`Combine` fail (it never returns a wrong secret). -/
theorem C01_split_combine (c : Codec F) (hF : SmallNonzero F 255) {t n : Nat} {s : Shamir}
    (hs : newShamir t n = some s) (secret : F) (hsec : secret ≠ 0) (rnd : Nat → F) :
    ∃ shares, split s c secret rnd = some shares ∧
      shares.map Share.id = (List.range n).map (· + 1) ∧
      ∀ sub : List Share, sub ⊆ shares → sub.Nodup → t ≤ sub.length →
        ((∀ sh ∈ sub, c.setBytes sh.value ≠ some 0) → combine s c sub = some secret) ∧
        ((∃ sh ∈ sub, c.setBytes sh.value = some 0) → combine s c sub = none) := by
  have hs' := hs
  obtain ⟨rfl, h2, htn, hn⟩ := newShamir_eq_some hs
  refine ⟨(getPolyAndShares ⟨t, n⟩ c secret rnd).1, by simp [split, hsec], ?_, ?_⟩
  · simp [getPolyAndShares, Function.comp_def]
  · intro sub hsub hnd hlen
    set f := polyOf (polyInit secret t rnd) with hf
    have hmem : ∀ sh ∈ sub, 1 ≤ sh.id ∧ sh.id ≤ n ∧ sh.value = c.toBytes (f.eval ((sh.id : Nat) : F)) :=
      fun sh hsh => (mem_shares_iff _ c secret rnd sh).1 (hsub hsh)
    have hval : ∀ sh ∈ sub, c.setBytes sh.value = some (f.eval ((sh.id : Nat) : F)) := by
      intro sh hsh; rw [(hmem sh hsh).2.2, c.rt]
    have hids : (sub.map Share.id).Nodup := by
      refine List.Nodup.map_on ?_ hnd
      intro a ha b hb hab
      have h1 := (hmem a ha).2.2
      have h2 := (hmem b hb).2.2
      rw [hab] at h1
      cases a; cases b; simp_all
    constructor
    · intro hnz
      have hwf : WellFormed c t n sub := by
        refine ⟨hlen, ?_, hids⟩
        intro sh hsh
        refine ⟨(hmem sh hsh).1, (hmem sh hsh).2.1, _, ?_, hval sh hsh⟩
        intro h0; apply hnz sh hsh; rw [hval sh hsh, h0]
      have hdeg : f.degree < sub.length := by
        have := degree_polyOf_lt (polyInit secret t rnd)
        rw [length_polyInit _ _ _ (by omega)] at this
        exact lt_of_lt_of_le this (by exact_mod_cast hlen)
      rw [C02_combine_value c hF hs' sub hwf f hdeg hval]
      simp [hf, polyInit]
    · rintro ⟨sh, hsh, h0⟩
      have := C02_combine_isSome_iff c hF hs' sub
      rw [← Option.not_isSome_iff_eq_none, this]
      rintro ⟨-, hw, -⟩
      obtain ⟨-, -, v, hv, hv'⟩ := hw sh hsh
      rw [h0] at hv'
      exact hv (Option.some.inj hv').symm

/-- **C01** (guard) the zero secret is the only one refused. -/
theorem C01_split_zero (c : Codec F) (s : Shamir) (secret : F) (rnd : Nat → F) :
    split s c secret rnd = none ↔ secret = 0 := by
  unfold split; split <;> simp_all

/-! ## C03 -/

theorem coeff_polyOf (cs : List F) (i : Nat) : (polyOf cs).coeff i = cs.getD i 0 := by
  induction cs generalizing i with
  | nil => simp [polyOf]
  | cons a r ih =>
    cases i with
    | zero => simp [polyOf]
    | succ i => simp [polyOf, coeff_X_mul, ih]

/-- random coefficients given by a vector of length `m` -/
def ofVec {m : Nat} (r : Fin m → F) : Nat → F := fun i => if h : i < m then r ⟨i, h⟩ else 0

theorem polyInit_ofVec_getD (secret : F) (t : Nat) (r : Fin (t - 1) → F) (i : Fin (t - 1)) :
    (polyInit secret t (ofVec r)).getD (i + 1) 0 = r i := by
  simp [polyInit, ofVec, List.getD_eq_getElem?_getD]

/-- **C03** Perfect secrecy: fix *any* secret and *any* `t-1` distinct identifiers.  As the dealer's
`t-1` random coefficients range over all vectors, the vector of those `t-1` share values ranges over
all vectors exactly once.  Hence any `t-1` shares are uniformly distributed, whatever the secret. -/
theorem C03_perfect_secrecy (hF : SmallNonzero F 255) {t n : Nat} {s : Shamir}
    (hs : newShamir t n = some s) (secret : F) (ids : Fin (t - 1) → Nat)
    (hinj : Function.Injective ids) (hrange : ∀ i, 1 ≤ ids i ∧ ids i ≤ n) :
    Function.Bijective (fun (r : Fin (t - 1) → F) (i : Fin (t - 1)) =>
      evaluate (polyInit secret t (ofVec r)) ((ids i : Nat) : F)) := by
  obtain ⟨rfl, h2, htn, hn⟩ := newShamir_eq_some hs
  -- the t points 0, ids 0, ids 1, ...
  let v : Option (Fin (t - 1)) → F := fun o => o.elim 0 (fun i => (ids i : F))
  have hv : Function.Injective v := by
    intro a b hab
    cases a with
    | none => cases b with
      | none => rfl
      | some j => exact absurd hab.symm (hF _ (hrange j).1 (le_trans (hrange j).2 hn))
    | some i => cases b with
      | none => exact absurd hab (hF _ (hrange i).1 (le_trans (hrange i).2 hn))
      | some j =>
        have := hF.inj (le_trans (hrange i).2 hn) (le_trans (hrange j).2 hn) hab
        rw [hinj this]
  have hcard : (Finset.univ : Finset (Option (Fin (t - 1)))).card = t := by
    rw [Finset.card_univ, Fintype.card_option, Fintype.card_fin]; omega
  constructor
  · intro r1 r2 h12
    have hp : polyOf (polyInit secret t (ofVec r1)) = polyOf (polyInit secret t (ofVec r2)) := by
      have d1 := degree_polyOf_lt (polyInit secret t (ofVec r1))
      have d2 := degree_polyOf_lt (polyInit secret t (ofVec r2))
      rw [length_polyInit _ _ _ (by omega)] at d1 d2
      refine Polynomial.eq_of_degrees_lt_of_eval_index_eq (s := Finset.univ) (v := v)
        (hv.injOn) (by rw [hcard]; exact d1) (by rw [hcard]; exact d2) ?_
      intro o _
      cases o with
      | none => simp [v, polyInit]
      | some i =>
        have := congrFun h12 i
        simp only [evaluate_eq] at this
        exact this
    funext i
    have := congrArg (fun p => p.coeff (i + 1)) hp
    simpa only [coeff_polyOf, polyInit_ofVec_getD] using this
  · intro obs
    let w : Option (Fin (t - 1)) → F := fun o => o.elim secret obs
    let f := Lagrange.interpolate Finset.univ v w
    have hfd : f.degree < t := by
      have := Lagrange.degree_interpolate_lt (s := Finset.univ) (v := v) w hv.injOn
      rwa [hcard] at this
    have hfe : ∀ o, f.eval (v o) = w o := fun o =>
      Lagrange.eval_interpolate_at_node (s := Finset.univ) w hv.injOn (Finset.mem_univ o)
    refine ⟨fun i => f.coeff (i + 1), ?_⟩
    have hp : polyOf (polyInit secret t (ofVec fun i : Fin (t - 1) => f.coeff (i + 1))) = f := by
      ext k
      rw [coeff_polyOf]
      cases k with
      | zero =>
        have := hfe none
        simp only [v, w, Option.elim] at this
        rw [← coeff_zero_eq_eval_zero] at this
        rw [this]; simp [polyInit]
      | succ k =>
        by_cases hk : k < t - 1
        · exact polyInit_ofVec_getD secret t _ ⟨k, hk⟩
        · have hz : f.coeff (k + 1) = 0 := by
            apply coeff_eq_zero_of_degree_lt
            refine lt_of_lt_of_le hfd ?_
            exact_mod_cast (by omega : t ≤ k + 1)
          rw [hz]
          simp [polyInit, List.getD_eq_getElem?_getD, hk]
    funext i
    show evaluate _ _ = obs i
    rw [evaluate_eq, hp]
    exact hfe (some i)

/-! ## C04 Feldman -/

section Feldman
variable {G : Type*} [AddCommGroup G] [Module F G] [DecidableEq G]

theorem smul_left_inj' {g : G} (hg : g ≠ 0) {a b : F} (h : a • g = b • g) : a = b := by
  have h1 : (a - b) • g = 0 := by rw [sub_smul, h, sub_self]
  by_contra hne
  have h2 : (a - b)⁻¹ • (a - b) • g = 0 := by rw [h1, smul_zero]
  rw [smul_smul, inv_mul_cancel₀ (sub_ne_zero.2 hne), one_smul] at h2
  exact hg h2

/-- **C04** For an honest dealing there is one polynomial `f` of degree `< t` with `f(0) = secret`
such that the dealt share of `i` is `f(i)`, and *any* share (from anybody) verifies iff it has a
non-zero identifier and its non-zero value is `f(id)`. -/
theorem C04_feldman_verify_iff (g : G) (hg : g ≠ 0) (c : Codec F) {t n : Nat} {s : Shamir}
    (hs : newShamir t n = some s) (secret : F) (rnd : Nat → F) (hsec : secret ≠ 0) :
    ∃ comm shares, feldmanSplit g s c secret rnd = some (comm, shares) ∧ comm.length = t ∧
      ∃ f : F[X], f.degree < t ∧ f.eval 0 = secret ∧
        (∀ i, 1 ≤ i → i ≤ n → (⟨i, c.toBytes (f.eval (i : F))⟩ : Share) ∈ shares) ∧
        (∀ sh ∈ shares, c.setBytes sh.value = some (f.eval (sh.id : F))) ∧
        ∀ sh : Share, feldmanVerify g c comm sh = true ↔
          sh.id ≠ 0 ∧ f.eval (sh.id : F) ≠ 0 ∧ c.setBytes sh.value = some (f.eval (sh.id : F)) := by
  obtain ⟨rfl, h2, htn, hn⟩ := newShamir_eq_some hs
  refine ⟨_, _, by simp [feldmanSplit, hsec]; exact ⟨rfl, rfl⟩, ?_, polyOf (polyInit secret t rnd), ?_,
    by simp [polyInit], ?_, ?_, ?_⟩
  · simp [getPolyAndShares, polyInit]; omega
  · have := degree_polyOf_lt (polyInit secret t rnd)
    rwa [length_polyInit _ _ _ (by omega)] at this
  · intro i h1 h3
    rw [mem_shares_iff]; exact ⟨h1, h3, rfl⟩
  · intro sh hsh
    rw [mem_shares_iff] at hsh
    rw [hsh.2.2, c.rt]
  · intro sh
    unfold feldmanVerify
    cases hv : sh.validate c with
    | none =>
      simp only [Bool.false_eq_true, false_iff]
      rintro ⟨h1, h3, h4⟩
      have := (validate_eq_some c sh _).2 ⟨h1, h4, h3⟩
      rw [hv] at this; cases this
    | some v =>
      simp only [getPolyAndShares, decide_eq_true_eq, commitEval_poly]
      obtain ⟨a, b, d⟩ := (validate_eq_some c sh v).1 hv
      constructor
      · intro h
        have := smul_left_inj' hg h
        subst this
        exact ⟨a, d, b⟩
      · rintro ⟨-, -, h⟩
        rw [b] at h
        rw [Option.some.inj h]

theorem commitEval_sum (x : F) (comm : List G) :
    commitEval x comm = ∑ j ∈ range comm.length, x ^ j • comm.getD j 0 := by
  have loop : ∀ (l : List G) (i : F) (r : G),
      commitEvalLoop x i r l = r + ∑ j ∈ range l.length, (i * x ^ (j + 1)) • l.getD j 0 := by
    intro l
    induction l with
    | nil => intro i r; simp [commitEvalLoop]
    | cons a l ih =>
      intro i r
      simp only [commitEvalLoop]
      rw [ih, List.length_cons, Finset.sum_range_succ']
      simp only [List.getD_cons_succ, List.getD_cons_zero, zero_add, pow_one]
      have : ∀ j, i * x * x ^ (j + 1) = i * x ^ (j + 1 + 1) := by intro j; ring
      simp only [this]
      abel
  cases comm with
  | nil => simp [commitEval]
  | cons a l =>
    simp only [commitEval]
    rw [loop, List.length_cons, Finset.sum_range_succ']
    simp only [List.getD_cons_succ, List.getD_cons_zero, pow_zero, one_smul, one_mul]
    abel

/-- Interpolating the committed values gives the first commitment. -/
theorem interpolate_commit (xs : List F) (hnd : xs.Nodup) (comm : List G)
    (hle : comm.length ≤ xs.length) :
    interpolate xs (xs.map fun x => commitEval x comm) = some (comm.getD 0 0) := by
  rw [interpolate_eq _ _ (by simp) hnd]
  congr 1
  have e : ∀ i ∈ range xs.length, (xs.map fun x => commitEval x comm).getD i 0
      = ∑ j ∈ range comm.length, (xs.getD i 0) ^ j • comm.getD j 0 := by
    intro i hi
    have hi' : i < xs.length := by simpa using hi
    rw [← commitEval_sum]
    simp [List.getD_eq_getElem?_getD, hi']
  rw [Finset.sum_congr rfl (fun i hi => by rw [e i hi, Finset.smul_sum])]
  rw [Finset.sum_comm]
  have e2 : ∀ j ∈ range comm.length,
      (∑ i ∈ range xs.length, lagCoeff (range xs.length) (fun j => xs.getD j 0) i
        • (xs.getD i 0) ^ j • comm.getD j 0) = (if j = 0 then comm.getD 0 0 else 0) := by
    intro j hj
    have hj' : j < comm.length := by simpa using hj
    have := sum_lagCoeff_smul (range xs.length) (fun j => xs.getD j 0) (getD_injOn xs 0 hnd)
      (X ^ j : F[X]) (by
        rw [degree_X_pow, Finset.card_range]; exact_mod_cast (by omega : j < xs.length))
        (comm.getD j 0)
    simp only [eval_pow, eval_X] at this
    rw [this]
    by_cases h0 : j = 0
    · subst h0; simp
    · simp [h0]
  rw [Finset.sum_congr rfl e2]
  cases comm with
  | nil => simp
  | cons a l => simp

/-- **C04** (malicious dealer) For *arbitrary* commitments, whatever the dealer did: if at least
`|comm|` shares all verify and `Combine` accepts them, the combined value is the discrete log of the
first commitment.  So any two such groups of participants recover the same secret. -/
theorem C04_accepted_shares_agree (g : G) (c : Codec F) (hF : SmallNonzero F 255)
    {t n : Nat} {s : Shamir} (hs : newShamir t n = some s) (comm : List G) (l : List Share)
    (hacc : ∀ sh ∈ l, feldmanVerify g c comm sh = true) (hlen : comm.length ≤ l.length)
    (v : F) (hv : combine s c l = some v) : v • g = comm.getD 0 0 := by
  have hwf := (C02_combine_isSome_iff c hF hs l).1 (by simp [hv])
  obtain ⟨rfl, h2, htn, hn⟩ := newShamir_eq_some hs
  obtain ⟨w1, w2, w3⟩ := hwf
  have hnd : (l.map fun sh => ((sh.id : Nat) : F)).Nodup := by
    have := hF.nodup_map w3 (by
      intro m hm
      obtain ⟨sh, hsh, rfl⟩ := List.mem_map.1 hm
      have := (w2 sh hsh).2.1; omega)
    rwa [List.map_map] at this
  have hvals : ∀ sh ∈ l, ∃ y, sh.validate c = some y ∧ y • g = commitEval ((sh.id : Nat) : F) comm := by
    intro sh hsh
    have := hacc sh hsh
    unfold feldmanVerify at this
    cases hy : sh.validate c with
    | none => simp [hy] at this
    | some y => simp only [hy, decide_eq_true_eq] at this; exact ⟨y, rfl, this⟩
  unfold combine at hv
  rw [if_neg (by simp only; omega)] at hv
  have hc : checkShares (F := F) ⟨t, n⟩ c l []
      = some (l.map fun sh => (((sh.id : Nat) : F), (sh.validate c).getD 0)) := by
    rw [checkShares_iff]
    exact ⟨fun sh hsh => ⟨(w2 sh hsh).2.1, by simp⟩, w3,
      fun sh hsh => by obtain ⟨y, hy, _⟩ := hvals sh hsh; exact ⟨y, hy⟩, rfl⟩
  rw [hc] at hv
  simp only [List.map_map] at hv
  have e1 : (l.map (Prod.fst ∘ fun sh => (((sh.id : Nat) : F), (sh.validate c).getD 0)))
      = l.map (fun sh => ((sh.id : Nat) : F)) := rfl
  rw [e1, interpolate_eq _ _ (by simp) hnd] at hv
  have hv' := Option.some.inj hv
  have hI := interpolate_commit (l.map fun sh => ((sh.id : Nat) : F)) hnd comm (by simpa using hlen)
  rw [interpolate_eq _ _ (by simp) hnd] at hI
  have hI' := Option.some.inj hI
  rw [← hI', ← hv', Finset.sum_smul]
  refine Finset.sum_congr rfl fun i hi => ?_
  have hi' : i < l.length := by simpa using hi
  rw [smul_assoc]
  congr 1
  have hm : l[i] ∈ l := List.getElem_mem hi'
  obtain ⟨y, hy, hy'⟩ := hvals _ hm
  simp [List.getD_eq_getElem?_getD, hi', hy, hy']

/-! ## C05 Pedersen -/

/-- **C05** (completeness) an honest secret share and the honest blinding share of the same
participant verify – unless one of the two honest values is the zero scalar, which `Validate`
refuses. -/
theorem C05_pedersen_complete (g h : G) (c : Codec F) {t n : Nat} {s : Shamir}
    (hs : newPedersen t n h = some s) (secret blinding : F) (rnd rndB : Nat → F) (i : Nat)
    (hi : i < n) :
    let r := pedersenSplit g h s c secret blinding rnd rndB
    ∃ sh bl, r.secretShares[i]? = some sh ∧ r.blindingShares[i]? = some bl ∧
      sh.id = i + 1 ∧ bl.id = i + 1 ∧
      (pedersenVerify g h c r.pedersen sh bl = true ↔
        c.setBytes sh.value ≠ some 0 ∧ c.setBytes bl.value ≠ some 0) := by
  have hs' : s = ⟨t, n⟩ := by
    unfold newPedersen at hs
    split at hs <;> try contradiction
    split at hs <;> try contradiction
    split at hs <;> try contradiction
    split at hs <;> try contradiction
    exact (Option.some.inj hs).symm
  subst hs'
  simp only [pedersenSplit, getPolyAndShares]
  refine ⟨_, _, by rw [List.getElem?_map, List.getElem?_range hi]; rfl,
    by rw [List.getElem?_map, List.getElem?_range hi]; rfl, rfl, rfl, ?_⟩
  simp only [c.rt, ne_eq, Option.some.injEq, evaluate_eq]
  unfold pedersenVerify Share.validate
  simp only [c.rt]
  generalize ((i + 1 : Nat) : F) = x
  by_cases h1 : eval x (polyOf (polyInit secret t rnd)) = 0
  · simp [h1]
  · by_cases h2 : eval x (polyOf (polyInit blinding t rndB)) = 0
    · simp [h1, h2]
    · simp only [h1, h2, if_false, not_false_eq_true, and_self, iff_true, decide_eq_true_eq,
        Nat.add_eq_zero_iff, one_ne_zero, and_false]
      rw [commitEval_pedersen _ _ _ (by simp [polyInit])]

/-- **C05** (the Feldman half of a Pedersen result) the secret shares and `feldman` commitments are what
`Feldman.Split` would have produced with the same randomness, and the blinding shares are a Shamir
sharing of the returned blinding – so `C01`, `C03` and `C04` apply to them. -/
theorem C05_pedersen_feldman (g h : G) (c : Codec F) (s : Shamir) (secret blinding : F)
    (rnd rndB : Nat → F) :
    let r := pedersenSplit g h s c secret blinding rnd rndB
    r.blinding = blinding ∧
    (secret ≠ 0 → feldmanSplit g s c secret rnd = some (r.feldman, r.secretShares)) ∧
    (blinding ≠ 0 → split s c blinding rndB = some r.blindingShares) := by
  refine ⟨rfl, fun hs => ?_, fun hb => ?_⟩
  · simp [feldmanSplit, hs, pedersenSplit]
  · simp [split, hb, pedersenSplit]

/-- **C05** (binding) two accepted pairs for one identifier with different secret values give the
discrete logarithm of `h` with respect to `g`. -/
theorem C05_pedersen_binding (g h : G) (hg : g ≠ 0) (c : Codec F) (comm : List G)
    (sh bl sh' bl' : Share) (hid : sh.id = sh'.id)
    (h1 : pedersenVerify g h c comm sh bl = true) (h2 : pedersenVerify g h c comm sh' bl' = true)
    (hne : c.setBytes sh.value ≠ c.setBytes sh'.value) :
    ∃ v v' b b', c.setBytes sh.value = some v ∧ c.setBytes sh'.value = some v' ∧
      c.setBytes bl.value = some b ∧ c.setBytes bl'.value = some b' ∧ b ≠ b' ∧
      h = ((v - v') / (b' - b)) • g := by
  have key : ∀ a b : Share, pedersenVerify g h c comm a b = true →
      ∃ v w, c.setBytes a.value = some v ∧ c.setBytes b.value = some w ∧
        v • g + w • h = commitEval ((a.id : Nat) : F) comm := by
    intro a b hab
    unfold pedersenVerify at hab
    cases ha : a.validate c with
    | none => simp [ha] at hab
    | some v =>
      cases hb : b.validate c with
      | none => simp [ha, hb] at hab
      | some w =>
        simp only [ha, hb, decide_eq_true_eq] at hab
        exact ⟨v, w, ((validate_eq_some _ _ _).1 ha).2.1, ((validate_eq_some _ _ _).1 hb).2.1, hab⟩
  obtain ⟨v, b, e1, e2, e3⟩ := key _ _ h1
  obtain ⟨v', b', f1, f2, f3⟩ := key _ _ h2
  rw [hid, ← f3] at e3
  have hvv : v ≠ v' := by
    intro hh; apply hne; rw [e1, f1, hh]
  have hlin : (v - v') • g = (b' - b) • h := by
    rw [sub_smul, sub_smul]
    rw [sub_eq_sub_iff_add_eq_add, e3]; abel
  have hbb : b ≠ b' := by
    intro hh
    rw [hh, sub_self, zero_smul] at hlin
    have : (v - v') • g = (0 : F) • g := by rw [hlin, zero_smul]
    exact hvv (sub_eq_zero.1 (smul_left_inj' hg this))
  refine ⟨v, v', b, b', e1, f1, e2, f2, hbb, ?_⟩
  rw [div_eq_inv_mul, ← smul_smul, hlin, smul_smul, inv_mul_cancel₀ (sub_ne_zero.2 (Ne.symm hbb)),
    one_smul]

/-- **C05** (what is *not* checked) the blinding share's own identifier plays no role beyond being
non-zero. -/
theorem C05_blind_id_unchecked (g h : G) (c : Codec F) (comm : List G) (sh bl : Share) (k : Nat)
    (hk : k ≠ 0) (hv : pedersenVerify g h c comm sh bl = true) :
    pedersenVerify g h c comm sh { bl with id := k } = true := by
  unfold pedersenVerify at *
  cases ha : sh.validate c with
  | none => simp [ha] at hv
  | some v =>
    cases hb : bl.validate c with
    | none => simp [ha, hb] at hv
    | some w =>
      have : ({ bl with id := k } : Share).validate c = some w := by
        rw [validate_eq_some] at *
        exact ⟨hk, hb.2⟩
      simp only [ha, hb, this] at *
      exact hv

/-! ## C06 -/

/-- **C06** `CombinePoints` is `Combine` in the exponent, on every input. -/
theorem C06_combinePoints (g : G) (c : Codec F) (hF : SmallNonzero F 255) {t n : Nat} {s : Shamir}
    (hs : newShamir t n = some s) (l : List Share) :
    combinePoints g s c l = (combine s c l).map (· • g) := by
  by_cases hsome : (combine s c l).isSome
  · have hwf := (C02_combine_isSome_iff c hF hs l).1 hsome
    obtain ⟨rfl, h2, htn, hn⟩ := newShamir_eq_some hs
    obtain ⟨w1, w2, w3⟩ := hwf
    have hnd : (l.map fun sh => ((sh.id : Nat) : F)).Nodup := by
      have := hF.nodup_map w3 (by
        intro m hm
        obtain ⟨sh, hsh, rfl⟩ := List.mem_map.1 hm
        have := (w2 sh hsh).2.1; omega)
      rwa [List.map_map] at this
    unfold combinePoints combine
    rw [if_neg (by simp only; omega), if_neg (by simp only; omega)]
    cases hc : checkShares (F := F) ⟨t, n⟩ c l [] with
    | none => simp
    | some r =>
      rw [checkShares_iff] at hc
      obtain ⟨h1, h3, h4, rfl⟩ := hc
      simp only
      have hnd' : ((l.map fun sh => (((sh.id : Nat) : F), (sh.validate c).getD 0)).map Prod.fst).Nodup := by
        simpa [List.map_map, Function.comp_def] using hnd
      rw [interpolate_eq _ _ (by simp) hnd', interpolate_eq _ _ (by simp) hnd']
      rw [Option.map_some]
      congr 1
      rw [Finset.sum_smul]
      refine Finset.sum_congr rfl fun i hi => ?_
      have hi' : i < l.length := by simpa using hi
      rw [smul_assoc]
      congr 1
      simp [List.getD_eq_getElem?_getD, hi']
  · have hnone : combine s c l = none := by simpa using hsome
    have hlen2 : s.threshold = t := by rw [(newShamir_eq_some hs).1]
    rw [hnone]
    unfold combinePoints
    unfold combine at hnone
    by_cases hlen : l.length < s.threshold
    · simp [hlen]
    · rw [if_neg hlen] at *
      cases hc : checkShares (F := F) s c l [] with
      | none => simp
      | some r =>
        exfalso
        rw [hc] at hnone
        rw [checkShares_iff] at hc
        obtain ⟨h1, h3, h4, rfl⟩ := hc
        obtain ⟨rfl, h2, htn, hn⟩ := newShamir_eq_some hs
        have hnd : (l.map fun sh => ((sh.id : Nat) : F)).Nodup := by
          have := hF.nodup_map h3 (by
            intro m hm
            obtain ⟨sh, hsh, rfl⟩ := List.mem_map.1 hm
            have := (h1 sh hsh).1; simp only at this; omega)
          rwa [List.map_map] at this
        simp only at hnone
        rw [interpolate_eq _ _ (by simp) (by simpa [List.map_map, Function.comp_def] using hnd)] at hnone
        cases hnone

end Feldman

theorem mapM_option_eq_some {α β : Type*} (f : α → Option β) (h : α → β) (l : List α)
    (hl : ∀ x ∈ l, f x = some (h x)) : l.mapM f = some (l.map h) := by
  induction l with
  | nil => rfl
  | cons a l ih =>
    rw [List.mapM_cons, hl a (by simp), ih (fun x hx => hl x (by simp [hx]))]
    rfl

/-- **C06** `LagrangeCoeffs` returns one coefficient per distinct identifier, and they interpolate
every polynomial of degree below the number of distinct identifiers at zero. -/
theorem C06_lagrangeCoeffs (hF : SmallNonzero F 255) (ids : List Nat) (hids : ∀ i ∈ ids, i ≤ 255) :
    ∃ l, lagrangeCoeffs F ids = some l ∧ l.map Prod.fst = ids.dedup ∧
      ∀ f : F[X], f.degree < ids.dedup.length →
        (l.map fun p => p.2 * f.eval ((p.1 : Nat) : F)).sum = f.eval 0 := by
  have hnd : (ids.dedup.map (fun n => ((n : Nat) : F))).Nodup :=
    hF.nodup_map (List.nodup_dedup ids) (fun m hm => hids m (List.mem_dedup.1 hm))
  set D := ids.dedup with hD
  set xs : List F := D.map (fun n => ((n : Nat) : F)) with hxs
  have hget : ∀ p ∈ D.zipIdx, p.2 < D.length ∧ D.getD p.2 0 = p.1 := by
    rintro ⟨a, i⟩ hp
    rw [List.mem_zipIdx_iff_getElem?] at hp
    obtain ⟨h1, h2⟩ := List.getElem?_eq_some_iff.1 hp
    exact ⟨h1, by simp [List.getD_eq_getElem?_getD, hp]⟩
  have hxget : ∀ i, i < D.length → xs.getD i 0 = ((D.getD i 0 : Nat) : F) := by
    intro i hi; simp [hxs, List.getD_eq_getElem?_getD, hi]
  have hxl : xs.length = D.length := by simp [hxs]
  refine ⟨D.zipIdx.map fun p => (p.1, lagNum xs p.2 / lagDen xs p.2 (p.1 : F)), ?_, ?_, ?_⟩
  · unfold lagrangeCoeffs
    apply mapM_option_eq_some
    rintro ⟨a, i⟩ hp
    obtain ⟨h1, h2⟩ := hget _ hp
    simp only at h1 h2
    have hd : lagDen xs i ((a : Nat) : F) ≠ 0 := by
      have := lagDen_ne_zero hnd (i := i) (by rw [hxl]; exact h1)
      rwa [hxget i h1, h2] at this
    simp only
    rw [if_neg hd]
  · rw [List.map_map]
    change D.zipIdx.map Prod.fst = D
    exact List.zipIdx_map_fst 0 D
  · intro f hf
    rw [List.map_map, sum_map_zipIdx _ _ 0 0]
    rw [← sum_lagCoeff_eval (range xs.length) (fun j => xs.getD j 0) (getD_injOn xs 0 hnd) f
      (by rw [Finset.card_range, hxl]; exact hf), hxl]
    refine Finset.sum_congr rfl fun i hi => ?_
    have hi' : i < D.length := by simpa using hi
    simp only [Function.comp_apply, Nat.zero_add]
    rw [hxget i hi', lagNum_eq, lagDen_eq, hxl]
    unfold lagCoeff
    beta_reduce
    rw [hxget i hi']

/-! ## Non-vacuity: the field of 257 elements with its two-byte big-endian codec -/

instance : Fact (Nat.Prime 257) := ⟨by norm_num⟩

/-- two-byte codec of `ZMod 257` -/
def codec257 : Codec (ZMod 257) := beCodec 257 2 (by norm_num)

theorem small257 : SmallNonzero (ZMod 257) 255 := by
  intro n h1 h2 h
  rw [ZMod.natCast_eq_zero_iff] at h
  exact absurd (Nat.le_of_dvd h1 h) (by omega)

example : newShamir 2 3 = some ⟨2, 3⟩ := rfl
/-- hypotheses of C01/C02/C03/C04/C06 are met, and the model computes: polynomial `7 + 100 x`. -/
example : split ⟨2, 3⟩ codec257 7 (fun _ => 100)
    = some [⟨1, [0, 107]⟩, ⟨2, [0, 207]⟩, ⟨3, [0, 50]⟩] := by decide +kernel
example : combine ⟨2, 3⟩ codec257 [⟨3, [0, 50]⟩, ⟨1, [0, 107]⟩] = some 7 := by decide +kernel
/-- duplicate identifiers, identifier zero, over-limit identifiers and too few shares are refused -/
example : combine ⟨2, 3⟩ codec257 [⟨3, [0, 50]⟩, ⟨3, [0, 50]⟩] = none
    ∧ combine ⟨2, 3⟩ codec257 [⟨0, [0, 50]⟩, ⟨3, [0, 50]⟩] = none
    ∧ combine ⟨2, 3⟩ codec257 [⟨4, [0, 50]⟩, ⟨3, [0, 50]⟩] = none
    ∧ combine ⟨2, 3⟩ codec257 [⟨3, [0, 50]⟩] = none := by decide +kernel
/-- the zero-share case of C01 does occur: `7 + 250 x` vanishes at `1`. -/
example : split ⟨2, 3⟩ codec257 7 (fun _ => 250)
    = some [⟨1, [0, 0]⟩, ⟨2, [0, 250]⟩, ⟨3, [0, 243]⟩] := by decide +kernel
/-- a Feldman dealing in the group `ZMod 257` with generator `1` -/
example : (feldmanSplit (G := ZMod 257) 1 ⟨2, 3⟩ codec257 7 (fun _ => 100)).map
      (fun r => r.2.map (feldmanVerify 1 codec257 r.1)) = some [true, true, true] := by
  decide +kernel
example : feldmanVerify (G := ZMod 257) 1 codec257 [7, 100] ⟨1, [0, 108]⟩ = false := by
  decide +kernel
/-- a Pedersen dealing with `h = 5·g` -/
example : pedersenVerify (G := ZMod 257) 1 5 codec257
      (pedersenSplit 1 5 ⟨2, 3⟩ codec257 7 11 (fun _ => 100) (fun _ => 3)).pedersen
      ⟨2, [0, 207]⟩ ⟨2, [0, 17]⟩ = true := by decide +kernel
example : (lagrangeCoeffs (ZMod 257) [1, 3]).map (List.map Prod.fst) = some [1, 3] := by
  decide +kernel

end Verif.Sharing
