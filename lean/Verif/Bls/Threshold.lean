import Verif.Bls.Props
import Verif.Sharing.Props
import Verif.Sharing.Codec

/-! C37: threshold BLS signatures. -/

set_option linter.unusedSectionVars false
set_option linter.unusedSimpArgs false

namespace Verif.Bls

open Finset Verif.Interp Verif.Sharing

variable {F P S GT CP CS : Type} [Field F] [DecidableEq F] [AddCommGroup P] [Module F P]
  [AddCommGroup S] [Module F S] [CommGroup GT] [DecidableEq GT]
variable (V : Env F P S GT CP CS)

/-! ### the loops -/

theorem basis_fold (i : Nat) (xi : F) (l : List F) (k : Nat) (b : F)
    (h : ∀ p ∈ l.zipIdx k, i ≠ p.2 → xi - p.1 ≠ 0) :
    (l.zipIdx k).foldlM (fun b p =>
      if i = p.2 then Res.ok b
      else if xi - p.1 = 0 then Res.err
      else Res.ok (b * (-p.1 * (xi - p.1)⁻¹))) b =
    .ok ((l.zipIdx k).foldl (fun acc p => if i = p.2 then acc else acc * (-p.1 * (xi - p.1)⁻¹)) b) := by
  induction l generalizing k b with
  | nil => rfl
  | cons x l ih =>
    rw [List.zipIdx_cons, List.foldlM_cons, List.foldl_cons]
    by_cases hi : i = k
    · simp only [hi, if_true, Res.bind_ok]
      have := ih (k + 1) b (fun p hp => h p (by rw [List.zipIdx_cons]; exact List.mem_cons_of_mem _ hp))
      rw [hi] at this
      exact this
    · have h0 := h (x, k) (by rw [List.zipIdx_cons]; exact List.mem_cons_self) hi
      simp only [if_neg hi, if_neg h0, Res.bind_ok]
      exact ih (k + 1) _ (fun p hp => h p (by rw [List.zipIdx_cons]; exact List.mem_cons_of_mem _ hp))

/-- The basis value computed by the inner loop is the textbook Lagrange coefficient. -/
theorem basisAt_eq (xs : List F) (h : xs.Nodup) (i : Nat) (hi : i < xs.length) :
    basisAt xs i (xs.getD i 0) = .ok (lagCoeff (range xs.length) (fun j => xs.getD j 0) i) := by
  rw [basisAt, basis_fold, foldl_zipIdx_prod (fun x => -x * (xs.getD i 0 - x)⁻¹) i xs 0 1, one_mul,
    prod_erase_eq_ite, lagCoeff, ← Finset.prod_div_distrib]
  · congr 1
    refine Finset.prod_congr rfl fun j _ => ?_
    rw [div_eq_mul_inv, ← neg_sub (xs.getD i 0), inv_neg]
    ring
  · rintro ⟨x, j⟩ hp hne h0
    rw [List.mem_zipIdx_iff_getElem?] at hp
    simp only at hp hne h0
    obtain ⟨hj, hx⟩ := List.getElem?_eq_some_iff.1 hp
    apply hne
    apply getD_injOn xs 0 h (by simpa using hi) (by simpa using hj)
    have e : xs.getD j 0 = x := by simp [List.getD_eq_getElem?_getD, hp]
    simp only [e]
    exact sub_eq_zero.mp h0

/-- partial signatures with known group elements -/
def mkPartials (l : List (UInt8 × S)) : List (Partial CS) := l.map fun x => ⟨x.1, V.sg.ι x.2⟩

theorem splitXY_ok (l : List (UInt8 × S)) (dup : List UInt8) (hn : (l.map Prod.fst).Nodup)
    (hd : ∀ x ∈ l, x.1 ∉ dup) :
    splitXY V (mkPartials V l) dup = .ok (l.map fun x => ((x.1.toNat : F), V.sg.ι x.2)) := by
  induction l generalizing dup with
  | nil => rfl
  | cons x l ih =>
    rw [List.map_cons, List.nodup_cons] at hn
    simp only [mkPartials, List.map_cons, splitXY, if_neg (hd x (by simp)), CurveGroup.inSub_ι,
      Bool.not_true, Bool.false_eq_true, if_false]
    have := ih (x.1 :: dup) hn.2 (by
      intro y hy hm
      rcases List.mem_cons.mp hm with h | h
      · exact hn.1 (h ▸ List.mem_map_of_mem hy)
      · exact hd y (by simp [hy]) h)
    rw [mkPartials] at this
    rw [this]; rfl

theorem splitXY_only (ps : List (Partial CS)) (dup : List UInt8) (r) (h : splitXY V ps dup = .ok r) :
    ∃ l, ps = mkPartials V l ∧ (l.map Prod.fst).Nodup ∧ ∀ x ∈ l, x.1 ∉ dup := by
  induction ps generalizing dup r with
  | nil => exact ⟨[], rfl, by simp, by simp⟩
  | cons p ps ih =>
    rw [splitXY] at h
    split at h
    · cases h
    rename_i h1
    split at h
    · cases h
    rename_i h2
    obtain ⟨r', h3, -⟩ := Res.bind_eq_ok.mp h
    obtain ⟨l, rfl, hn, hd⟩ := ih _ _ h3
    have h2' : V.sg.inSub p.signature = true := by simpa using h2
    obtain ⟨s, hs⟩ := (V.sg.inSub_iff _).mp h2'
    refine ⟨(p.identifier, s) :: l, ?_, ?_, ?_⟩
    · simp [mkPartials, hs]
    · rw [List.map_cons, List.nodup_cons]
      refine ⟨fun hm => ?_, hn⟩
      obtain ⟨x, hx, e⟩ := List.mem_map.mp hm
      exact hd x hx (by simp [e])
    · intro x hx hm
      rcases List.mem_cons.mp hx with rfl | hx
      · exact h1 hm
      · exact hd x hx (by simp [hm])

theorem outer_fold (f : (F × CS) × Nat → Res F) (c : (F × CS) × Nat → F) (g : CS → S)
    (l : List ((F × CS) × Nat)) (a : S) (hf : ∀ p ∈ l, f p = .ok (c p))
    (hg : ∀ p ∈ l, p.1.2 = V.sg.ι (g p.1.2)) :
    l.foldlM (fun sig p => do
      let b ← f p
      Res.ok (V.sg.add sig (V.sg.mul p.1.2 b))) (V.sg.ι a) =
    .ok (V.sg.ι (a + (l.map fun p => c p • g p.1.2).sum)) := by
  induction l generalizing a with
  | nil => simp
  | cons p l ih =>
    rw [List.foldlM_cons, hf p (by simp)]
    simp only [Res.bind_ok]
    have hp := hg p (by simp)
    rw [hp, V.sg.mul_ι, V.sg.add_ι]
    rw [ih _ (fun q hq => hf q (by simp [hq])) (fun q hq => hg q (by simp [hq]))]
    rw [List.map_cons, List.sum_cons, ← add_assoc]

/-- The Lagrange interpolation at zero of a list of (identifier, group element) pairs. -/
def lagSum (F : Type) [Field F] {S : Type} [AddCommGroup S] [Module F S] (l : List (UInt8 × S)) : S :=
  ∑ i ∈ range l.length,
    lagCoeff (range l.length) (fun j => (((l.map Prod.fst).getD j 0).toNat : F)) i •
      (l.map Prod.snd).getD i 0

theorem ids_nodup (hF : SmallNonzero F 255) (l : List (UInt8 × S)) (h : (l.map Prod.fst).Nodup) :
    (l.map fun x => ((x.1.toNat : Nat) : F)).Nodup := by
  have h1 : ((l.map Prod.fst).map UInt8.toNat).Nodup := by
    apply List.Nodup.map_on _ h
    intro a _ b _ e
    exact UInt8.toNat_inj.mp e
  have := hF.nodup_map h1 (by
    intro n hn
    obtain ⟨b, -, rfl⟩ := List.mem_map.mp hn
    have := b.toNat_lt; omega)
  simpa [List.map_map, Function.comp_def] using this

theorem combine_eq (hF : SmallNonzero F 255) (l : List (UInt8 × S)) (h2 : 2 ≤ l.length)
    (h255 : l.length ≤ 255) (hn : (l.map Prod.fst).Nodup) :
    combineSigs V (mkPartials V l) = .ok (V.sg.ι (lagSum F l)) := by
  have hlen : (mkPartials V l).length = l.length := by simp [mkPartials]
  rw [combineSigs, hlen, if_neg (by omega), if_neg (by omega),
    splitXY_ok V l [] hn (by simp)]
  simp only [Res.bind_ok]
  set xs : List F := l.map fun x => ((x.1.toNat : Nat) : F) with hxs
  have hxn : xs.Nodup := ids_nodup hF l hn
  have hxl : xs.length = l.length := by simp [hxs]
  have hfst : (l.map fun x => (((x.1.toNat : Nat) : F), V.sg.ι x.2)).map Prod.fst = xs := by
    simp [hxs, Function.comp_def]
  rw [hfst]
  have hmem : ∀ p ∈ (l.map fun x => (((x.1.toNat : Nat) : F), V.sg.ι x.2)).zipIdx,
      p.2 < xs.length ∧ p.1.1 = xs.getD p.2 0 ∧ ∃ s, p.1.2 = V.sg.ι s := by
    rintro ⟨⟨x, y⟩, i⟩ hp
    rw [List.mem_zipIdx_iff_getElem?] at hp
    simp only [List.getElem?_map, Option.map_eq_some_iff] at hp
    obtain ⟨a, ha, he⟩ := hp
    obtain ⟨hi, -⟩ := List.getElem?_eq_some_iff.1 ha
    simp only [Prod.mk.injEq] at he
    refine ⟨by rw [hxl]; exact hi, ?_, a.2, he.2.symm⟩
    simp [hxs, List.getD_eq_getElem?_getD, ha, he.1]
  have hinv : ∀ s : S, Function.invFun V.sg.ι (V.sg.ι s) = s :=
    Function.leftInverse_invFun V.sg.inj
  rw [outer_fold V _ (fun p => lagCoeff (range xs.length) (fun j => xs.getD j 0) p.2)
    (Function.invFun V.sg.ι) _ 0]
  · simp only [Res.bind_ok, CurveGroup.inSub_ι, Bool.not_true, Bool.false_eq_true, if_false, zero_add]
    congr 2
    rw [sum_map_zipIdx (fun p : (F × CS) × Nat => lagCoeff (range xs.length) (fun j => xs.getD j 0) p.2 •
      Function.invFun V.sg.ι p.1.2) _ (0, V.sg.ι 0) 0, lagSum]
    rw [hxl, List.length_map]
    refine Finset.sum_congr rfl fun i hi => ?_
    have hi' : i < l.length := by simpa using hi
    have hx : ∀ j, j < l.length → xs.getD j 0 = ((((l.map Prod.fst).getD j 0).toNat : Nat) : F) := by
      intro j hj
      simp [hxs, List.getD_eq_getElem?_getD, hj]
    congr 1
    · rw [zero_add, lagCoeff, lagCoeff]
      congr 1
      · refine Finset.prod_congr rfl fun j hj => ?_
        exact hx j (by simpa using (Finset.mem_erase.mp hj).2)
      · refine Finset.prod_congr rfl fun j hj => ?_
        rw [hx j (by simpa using (Finset.mem_erase.mp hj).2), hx i hi']
    · simp [List.getD_eq_getElem?_getD, hi', hinv]
  · intro p hp
    obtain ⟨h1, h3, -⟩ := hmem p hp
    rw [h3]
    exact basisAt_eq xs hxn p.2 h1
  · intro p hp
    obtain ⟨-, -, s, hs⟩ := hmem p hp
    rw [hs, hinv]

/-- **C37.** `CombineSignatures` succeeds exactly on 2 to 255 partial signatures with pairwise distinct
identifiers and all in the prime-order subgroup, and then returns their Lagrange interpolation at zero.
In particular duplicates are refused, and nothing else is checked. -/
theorem C37_combine_iff (hF : SmallNonzero F 255) (ps : List (Partial CS)) (r : CS) :
    combineSigs V ps = .ok r ↔
      ∃ l : List (UInt8 × S), ps = l.map (fun x => ⟨x.1, V.sg.ι x.2⟩) ∧ 2 ≤ l.length ∧ l.length ≤ 255 ∧
        (l.map Prod.fst).Nodup ∧ r = V.sg.ι (lagSum F l) := by
  constructor
  · intro h
    have h' := h
    rw [combineSigs] at h
    split at h
    · cases h
    rename_i h2
    split at h
    · cases h
    rename_i h3
    obtain ⟨xy, hxy, -⟩ := Res.bind_eq_ok.mp h
    obtain ⟨l, rfl, hn, -⟩ := splitXY_only V ps [] xy hxy
    have hlen : (mkPartials V l).length = l.length := by simp [mkPartials]
    rw [hlen] at h2 h3
    rw [combine_eq V hF l (by omega) (by omega) hn] at h'
    exact ⟨l, rfl, by omega, by omega, hn, (Res.ok.inj h').symm⟩
  · rintro ⟨l, rfl, h2, h3, hn, rfl⟩
    exact combine_eq V hF l h2 h3 hn

/-- **C37.** Repeated identifiers are refused. -/
theorem C37_duplicates_refused (hF : SmallNonzero F 255) (ps : List (Partial CS))
    (h : ¬ (ps.map Partial.identifier).Nodup) : ∀ r, combineSigs V ps ≠ .ok r := by
  intro r hr
  obtain ⟨l, rfl, -, -, hn, -⟩ := (C37_combine_iff V hF ps r).mp hr
  apply h
  simpa [List.map_map, Function.comp_def] using hn

/-- **C37.** When a key can be split: threshold at least 2 (the API's own check only excludes 0), at
most the number of shares, at most 255 shares, and a non-zero key.  The shares carry the identifiers
`1..n`. -/
theorem C37_thresholdize_iff (sk : F) (t n : Nat) (rnd : Nat → F) :
    ((∃ shares, thresholdize V sk t n rnd = .ok shares) ↔ 2 ≤ t ∧ t ≤ n ∧ n ≤ 255 ∧ sk ≠ 0) ∧
    ∀ shares, thresholdize V sk t n rnd = .ok shares →
      shares.map (fun s => s.identifier.toNat) = (List.range n).map (· + 1) := by
  have key : 2 ≤ t → t ≤ n → n ≤ 255 → sk ≠ 0 → thresholdize V sk t n rnd =
      .ok ((getPolyAndShares ⟨t, n⟩ V.sc sk rnd).1.map fun s => ⟨UInt8.ofNat s.id, s.value⟩) := by
    intro h1 h2 h3 h4
    rw [thresholdize, if_neg (by omega), if_neg (by omega), if_neg (by omega), if_neg (by omega)]
    have e1 : newShamir t n = some ⟨t, n⟩ := by
      rw [newShamir, if_neg (by omega), if_neg (by omega), if_neg (by omega)]
    rw [e1]
    simp [Res.ofOption, split, h4, getPolyAndShares]
  have only : ∀ shares, thresholdize V sk t n rnd = .ok shares →
      2 ≤ t ∧ t ≤ n ∧ n ≤ 255 ∧ sk ≠ 0 := by
    intro shares h
    rw [thresholdize] at h
    split at h; · cases h
    split at h; · cases h
    split at h; · cases h
    split at h; · cases h
    obtain ⟨s, h1, h2⟩ := Res.bind_eq_ok.mp h
    obtain ⟨sh, h3, -⟩ := Res.bind_eq_ok.mp h2
    have h1' : newShamir t n = some s := by
      cases e : newShamir t n with
      | none => rw [e] at h1; cases h1
      | some s' => rw [e] at h1; rw [Res.ok.inj h1]
    obtain ⟨-, a, b, c⟩ := newShamir_eq_some h1'
    refine ⟨a, b, c, ?_⟩
    rintro rfl
    rw [(C01_split_zero V.sc s 0 rnd).mpr rfl] at h3
    cases h3
  refine ⟨⟨fun ⟨s, h⟩ => only s h, fun ⟨a, b, c, d⟩ => ⟨_, key a b c d⟩⟩, ?_⟩
  intro shares h
  obtain ⟨a, b, c, d⟩ := only shares h
  rw [key a b c d] at h
  rw [← Res.ok.inj h]
  simp only [getPolyAndShares, List.map_map]
  apply List.map_congr_left
  intro i hi
  have := List.mem_range.mp hi
  simp only [Function.comp, UInt8.toNat_ofNat']
  omega

/-- **C37.** Any at-least-threshold many distinct shares, in any order, sign to partial signatures that
combine to exactly the signature the whole key produces – for every message, including when a share's
value happens to be zero. -/
theorem C37_threshold (hF : SmallNonzero F 255) (sk : F) (t n : Nat) (rnd : Nat → F)
    (shares : List KeyShare) (hs : thresholdize V sk t n rnd = .ok shares)
    (sub : List KeyShare) (hsub : sub ⊆ shares) (hnd : sub.Nodup) (hlen : t ≤ sub.length)
    (m dst : List UInt8) (hm : m ≠ []) :
    ∃ ps, sub.mapM (fun s => partialSign V dst s m) = .ok ps ∧
      combineSigs V ps = createSignature V sk (some m) dst := by
  obtain ⟨h2, htn, hn255, hsk⟩ := (C37_thresholdize_iff V sk t n rnd).1.mp ⟨shares, hs⟩
  set f := polyOf (polyInit sk t rnd) with hf
  have hmem : ∀ s ∈ shares, V.sc.setBytes s.value = some (f.eval ((s.identifier.toNat : Nat) : F)) ∧
      s.value = V.sc.toBytes (f.eval ((s.identifier.toNat : Nat) : F)) ∧
      1 ≤ s.identifier.toNat := by
    intro s hsm
    have hs' := hs
    rw [thresholdize, if_neg (by omega), if_neg (by omega), if_neg (by omega), if_neg (by omega)] at hs'
    have e1 : newShamir t n = some ⟨t, n⟩ := by
      rw [newShamir, if_neg (by omega), if_neg (by omega), if_neg (by omega)]
    rw [e1] at hs'
    simp only [Res.ofOption, Res.bind_ok, split, if_neg hsk] at hs'
    split at hs'
    · cases hs'
    rw [← Res.ok.inj hs'] at hsm
    obtain ⟨sh, hsh, rfl⟩ := List.mem_map.mp hsm
    obtain ⟨a, b, c⟩ := (mem_shares_iff ⟨t, n⟩ V.sc sk rnd sh).mp hsh
    have e : (UInt8.ofNat sh.id).toNat = sh.id := by
      simp only at b
      simp only [UInt8.toNat_ofNat']; omega
    simp only [e]
    refine ⟨?_, c, a⟩
    rw [c, V.sc.rt]
  have hids : (sub.map KeyShare.identifier).Nodup := by
    refine List.Nodup.map_on ?_ hnd
    intro a ha b hb hab
    have h1 := (hmem a (hsub ha)).2.1
    have h2 := (hmem b (hsub hb)).2.1
    rw [hab] at h1
    cases a; cases b; simp_all
  have hsub255 : sub.length ≤ 255 := by
    have h1 : (sub.map fun s => s.identifier.toNat - 1).Nodup := by
      refine List.Nodup.map_on ?_ hnd
      intro a ha b hb hab
      have h1 := (hmem a (hsub ha)).2.2
      have h2 := (hmem b (hsub hb)).2.2
      exact List.inj_on_of_nodup_map hids ha hb (UInt8.toNat_inj.mp (by omega))
    have h3 : (sub.map fun s => s.identifier.toNat - 1) ⊆ List.range 255 := by
      intro x hx
      obtain ⟨s, hs, rfl⟩ := List.mem_map.mp hx
      have := s.identifier.toNat_lt
      have := (hmem s (hsub hs)).2.2
      rw [List.mem_range]; omega
    have := (List.subperm_of_subset h1 h3).length_le
    simpa using this
  set l : List (UInt8 × S) :=
    sub.map fun s => (s.identifier, f.eval ((s.identifier.toNat : Nat) : F) • V.hash m dst) with hl
  refine ⟨mkPartials V l, ?_, ?_⟩
  · have hmap : ∀ q : List KeyShare, q ⊆ shares → q.mapM (fun s => partialSign V dst s m) =
        .ok (mkPartials V (q.map fun s =>
          (s.identifier, f.eval ((s.identifier.toNat : Nat) : F) • V.hash m dst))) := by
      intro q
      induction q with
      | nil => intro _; rfl
      | cons s q ih =>
        intro hq
        have hp := List.length_pos_iff.mpr hm
        rw [List.mapM_cons, ih (fun x hx => hq (by simp [hx])), partialSign, if_neg (by omega),
          (hmem s (hq (by simp))).1]
        simp only [Res.ofOption, Res.bind_ok, hashPt, V.sg.mul_ι, CurveGroup.inSub_ι, Bool.not_true,
          Bool.false_eq_true, if_false]
        rfl
    exact hmap sub hsub
  · have hll : l.length = sub.length := by simp [hl]
    have hln : (l.map Prod.fst).Nodup := by
      simpa [hl, List.map_map, Function.comp_def] using hids
    rw [combine_eq V hF l (by omega) (by omega) hln, createSignature_eq, if_neg hsk]
    congr 2
    have hdeg : f.degree < (range l.length).card := by
      have := degree_polyOf_lt (polyInit sk t rnd)
      rw [length_polyInit _ _ _ (by omega)] at this
      rw [card_range]
      exact lt_of_lt_of_le this (by rw [hll]; exact_mod_cast hlen)
    have hinj : Set.InjOn (fun j => ((((l.map Prod.fst).getD j 0).toNat : Nat) : F))
        (range l.length : Finset Nat) := by
      intro a ha b hb hab
      have := getD_injOn (l.map Prod.fst) 0 hln
      rw [List.length_map] at this
      apply this ha hb
      apply UInt8.toNat_inj.mp
      have x1 := ((l.map Prod.fst).getD a 0).toNat_lt
      have x2 := ((l.map Prod.fst).getD b 0).toNat_lt
      exact hF.inj (Nat.le_of_lt_succ x1) (Nat.le_of_lt_succ x2) hab
    have hsk' : f.eval 0 = sk := by simp [hf, polyInit]
    rw [lagSum, ← hsk', ← sum_lagCoeff_smul (range l.length) _ hinj f hdeg (V.hash m dst)]
    refine Finset.sum_congr rfl fun i hi => ?_
    have hi' : i < sub.length := by rw [← hll]; simpa using hi
    congr 1
    simp [hl, List.getD_eq_getElem?_getD, hi']

/-- **C37.** Whatever the other partial signatures are (identifiers non-zero and distinct), replacing
one of them by a different group element changes the combined signature: a wrong partial signature
never goes unnoticed by a later `Verify`. -/
theorem C37_tamper (hF : SmallNonzero F 255) (a b : List (UInt8 × S)) (i : UInt8) (s s' : S)
    (h2 : 2 ≤ (a ++ (i, s) :: b).length) (h255 : (a ++ (i, s) :: b).length ≤ 255)
    (hn : ((a ++ (i, s) :: b).map Prod.fst).Nodup) (h0 : ∀ x ∈ a ++ b, x.1 ≠ 0) (hne : s ≠ s') :
    ∃ r r', combineSigs V (mkPartials V (a ++ (i, s) :: b)) = .ok r ∧
      combineSigs V (mkPartials V (a ++ (i, s') :: b)) = .ok r' ∧ r ≠ r' := by
  have hfst : (a ++ (i, s') :: b).map Prod.fst = (a ++ (i, s) :: b).map Prod.fst := by simp
  have hlen : (a ++ (i, s') :: b).length = (a ++ (i, s) :: b).length := by simp
  refine ⟨_, _, combine_eq V hF _ h2 h255 hn,
    combine_eq V hF _ (by rw [hlen]; exact h2) (by rw [hlen]; exact h255) (by rw [hfst]; exact hn), ?_⟩
  intro he
  have he := V.sg.inj he
  rw [lagSum, lagSum, hfst, hlen] at he
  set N := (a ++ (i, s) :: b).length with hN
  set v : Nat → F := fun j => ((((a ++ (i, s) :: b).map Prod.fst).getD j 0).toNat : F) with hv
  have hk : a.length ∈ range N := by simp [hN]
  rw [← Finset.add_sum_erase _ _ hk, ← Finset.add_sum_erase _ _ hk] at he
  have hrest : ∀ j ∈ (range N).erase a.length,
      ((a ++ (i, s) :: b).map Prod.snd).getD j 0 = ((a ++ (i, s') :: b).map Prod.snd).getD j 0 := by
    intro j hj
    have hj' := (Finset.mem_erase.mp hj).1
    simp only [List.getD_eq_getElem?_getD, List.map_append, List.map_cons]
    rcases Nat.lt_or_gt_of_ne hj' with h | h
    · rw [List.getElem?_append_left (by simpa using h), List.getElem?_append_left (by simpa using h)]
    · rw [List.getElem?_append_right (by simp; omega), List.getElem?_append_right (by simp; omega)]
      obtain ⟨k, hk⟩ : ∃ k, j - (a.map Prod.snd).length = k + 1 := ⟨j - a.length - 1, by simp; omega⟩
      rw [hk, List.getElem?_cons_succ, List.getElem?_cons_succ]
  rw [Finset.sum_congr rfl (fun j hj => by rw [hrest j hj])] at he
  have he := add_right_cancel he
  have e1 : ((a ++ (i, s) :: b).map Prod.snd).getD a.length 0 = s := by
    simp [List.getD_eq_getElem?_getD, List.getElem?_append_right]
  have e2 : ((a ++ (i, s') :: b).map Prod.snd).getD a.length 0 = s' := by
    simp [List.getD_eq_getElem?_getD, List.getElem?_append_right]
  rw [e1, e2] at he
  have hc : lagCoeff (range N) v a.length ≠ 0 := by
    rw [lagCoeff]
    apply div_ne_zero
    · rw [Finset.prod_ne_zero_iff]
      intro j hj hz
      obtain ⟨hj1, hj2⟩ := Finset.mem_erase.mp hj
      have hjN : j < N := by simpa using hj2
      have hg : ((a ++ (i, s) :: b).map Prod.fst).getD j 0 ≠ 0 := by
        simp only [List.getD_eq_getElem?_getD, List.map_append, List.map_cons]
        have hNl : N = a.length + b.length + 1 := by simp [hN]; omega
        rcases Nat.lt_or_gt_of_ne hj1 with h | h
        · rw [List.getElem?_append_left (by simpa using h), List.getElem?_map,
            List.getElem?_eq_getElem h]
          exact h0 a[j] (by simp)
        · rw [List.getElem?_append_right (by simp; omega)]
          obtain ⟨k, hk⟩ : ∃ k, j - (a.map Prod.fst).length = k + 1 := ⟨j - a.length - 1, by simp; omega⟩
          rw [hk, List.getElem?_cons_succ, List.getElem?_map]
          have hkb : k < b.length := by simp at hk; omega
          rw [List.getElem?_eq_getElem hkb]
          exact h0 b[k] (by simp)
      have hpos : 0 < (((a ++ (i, s) :: b).map Prod.fst).getD j 0).toNat := by
        apply Nat.pos_of_ne_zero
        intro hz'
        exact hg (UInt8.toNat_inj.mp hz')
      have hlt := (((a ++ (i, s) :: b).map Prod.fst).getD j 0).toNat_lt
      exact hF _ hpos (by omega) hz
    · rw [Finset.prod_ne_zero_iff]
      intro j hj hz
      obtain ⟨hj1, hj2⟩ := Finset.mem_erase.mp hj
      apply hj1
      have := getD_injOn _ 0 hn
      rw [List.length_map] at this
      apply this hj2 hk
      apply UInt8.toNat_inj.mp
      have x1 := (((a ++ (i, s) :: b).map Prod.fst).getD j 0).toNat_lt
      have x2 := (((a ++ (i, s) :: b).map Prod.fst).getD a.length 0).toNat_lt
      exact hF.inj (Nat.le_of_lt_succ x1) (Nat.le_of_lt_succ x2) (sub_eq_zero.mp hz)
  apply hne
  rw [← sub_eq_zero] at he ⊢
  rw [← smul_sub] at he
  exact (smul_eq_zero.mp he).resolve_left hc

/-- Identifier `0` is not refused, and it takes over: a partial signature with identifier `0` is itself
the result, whatever the others are. -/
theorem C37_identifier_zero (hF : SmallNonzero F 255) (s : S) (b : List (UInt8 × S))
    (h1 : 1 ≤ b.length) (h254 : b.length ≤ 254) (hn : (((0 : UInt8), s) :: b |>.map Prod.fst).Nodup) :
    combineSigs V (mkPartials V ((0, s) :: b)) = .ok (V.sg.ι s) := by
  rw [combine_eq V hF _ (by simp; omega) (by simp; omega) hn]
  congr 2
  rw [lagSum]
  have hk : (0 : Nat) ∈ range (((0 : UInt8), s) :: b).length := by simp
  rw [← Finset.add_sum_erase _ _ hk]
  have hrest : ∀ j ∈ (range (((0 : UInt8), s) :: b).length).erase 0,
      lagCoeff (range (((0 : UInt8), s) :: b).length)
        (fun j => ((((((0 : UInt8), s) :: b).map Prod.fst).getD j 0).toNat : F)) j •
        ((((0 : UInt8), s) :: b).map Prod.snd).getD j 0 = 0 := by
    intro j hj
    have h0 : (0 : Nat) ∈ (range (((0 : UInt8), s) :: b).length).erase j :=
      Finset.mem_erase.mpr ⟨(Finset.mem_erase.mp hj).1.symm, hk⟩
    rw [lagCoeff, Finset.prod_eq_zero h0 (by simp), zero_div, zero_smul]
  rw [Finset.sum_eq_zero hrest, add_zero]
  have hc : lagCoeff (range (((0 : UInt8), s) :: b).length)
        (fun j => ((((((0 : UInt8), s) :: b).map Prod.fst).getD j 0).toNat : F)) 0 = 1 := by
    rw [lagCoeff]
    have : ∀ j, ((((((0 : UInt8), s) :: b).map Prod.fst).getD j 0).toNat : F) -
        ((((((0 : UInt8), s) :: b).map Prod.fst).getD 0 0).toNat : F) =
        ((((((0 : UInt8), s) :: b).map Prod.fst).getD j 0).toNat : F) := by intro j; simp
    simp only [this]
    apply div_self
    rw [Finset.prod_ne_zero_iff]
    intro j hj hz
    obtain ⟨hj1, hj2⟩ := Finset.mem_erase.mp hj
    apply hj1
    have := getD_injOn _ 0 hn
    rw [List.length_map] at this
    apply this hj2 hk
    apply UInt8.toNat_inj.mp
    have x1 := (((((0 : UInt8), s) :: b).map Prod.fst).getD j 0).toNat_lt
    refine hF.inj (Nat.le_of_lt_succ x1) (by simp) ?_
    rw [hz]; simp
  rw [hc, one_smul]; rfl

/-- **C37.** Key shares survive serialisation: 33 bytes, value first; only the all-zero encoding is
refused on the way back, and longer values crash the encoder. -/
theorem C37_keyshare_roundtrip (s : KeyShare) (h : s.value.length = 32) :
    ∃ b, s.marshal = .ok b ∧ b.length = 33 ∧
      (s.identifier ≠ 0 → KeyShare.unmarshal b = .ok s) := by
  refine ⟨s.value ++ [s.identifier], ?_, ?_, ?_⟩
  · rw [KeyShare.marshal, if_neg (by omega), h]; simp
  · simp [h]
  · intro hi
    rw [KeyShare.unmarshal, if_neg (by simp [h]), if_neg]
    · congr 1
      cases s with
      | mk i v =>
        simp only at h
        simp [List.getD_eq_getElem?_getD, List.getElem?_append_right, h, List.take_append_of_le_length,
          List.take_of_length_le]
    · intro hz
      apply hi
      have := congrArg (fun l => l.getD 32 0) hz
      simpa [List.getD_eq_getElem?_getD, List.getElem?_append_right, h, List.getElem?_replicate] using this

/-- **C37.** Decoding accepts exactly the 33-byte strings that are not all zero, and re-encoding gives
the bytes back. -/
theorem C37_keyshare_decode (b : List UInt8) :
    ((∃ s, KeyShare.unmarshal b = .ok s) ↔ b.length = 33 ∧ b ≠ List.replicate 33 0) ∧
    ∀ s, KeyShare.unmarshal b = .ok s → s.marshal = .ok b := by
  constructor
  · rw [KeyShare.unmarshal]
    by_cases h1 : b.length = 33
    · by_cases h2 : b = List.replicate 33 0
      · rw [if_neg (by simpa using h1), if_pos h2]; simp [h2]
      · rw [if_neg (by simpa using h1), if_neg h2]; exact ⟨fun _ => ⟨h1, h2⟩, fun _ => ⟨_, rfl⟩⟩
    · rw [if_pos h1]; simp [h1]
  · intro s h
    rw [KeyShare.unmarshal] at h
    split at h
    · cases h
    rename_i h1
    split at h
    · cases h
    have h1' : b.length = 33 := by simpa using h1
    rw [← Res.ok.inj h, KeyShare.marshal]
    have : (b.take 32).length = 32 := by simp [h1']
    rw [if_neg (by simp only [this]; omega)]
    simp only [this]
    congr 1
    have hd : b.drop 32 = [b.getD 32 0] := by
      apply List.ext_getElem?
      intro i
      rcases i with _ | i
      · simp [List.getD_eq_getElem?_getD, h1']
      · simp [h1']
    rw [← hd]
    simp

end Verif.Bls
