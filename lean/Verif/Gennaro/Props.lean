import Verif.Gennaro.Lemmas
import Verif.Sharing.Props

/-! # Properties C13, C14, C52 and C15 for the Gennaro DKG -/

namespace Verif.Gennaro
open Verif.SharingV1 Verif.Bytes Verif.Sharing Polynomial Finset
open Verif.Sharing (polyInit evaluate commitEval)

set_option linter.unusedSectionVars false

variable {p : Nat} [hp : Fact p.Prime] {G : Type*} [AddCommGroup G] [Module (ZMod p) G] [DecidableEq G]

/-- `bl` is a delivery, to participant `i`, of one message from every other participant (and possibly
its own): distinct senders among `1..n`, each entry being what `msg` says the sender sent. -/
def Delivered {α : Type*} (n i : Nat) (msg : Nat → α → Prop) (bl : List (Nat × α)) : Prop :=
  (bl.map Prod.fst).Nodup ∧ (∀ x ∈ bl, 1 ≤ x.1 ∧ x.1 ≤ n ∧ (x.1 ≠ i → msg x.1 x.2)) ∧
  ∀ j, 1 ≤ j → j ≤ n → j ≠ i → j ∈ bl.map Prod.fst

/-- Everything in an honest run, with the polynomial and the messages spelled out. -/
theorem honest_run (g h : G) (hg : g ≠ 0) (hh : h ≠ 0) (valid : Nat → Bool) {t n : Nat}
    (ht : 2 ≤ t) (htn : t ≤ n) (hpn : n < p) (others : Nat → List Nat)
    (hoth : ∀ i, 1 ≤ i → i ≤ n → (others i ++ [i]).Perm ((List.range n).map (· + 1)))
    (d : Nat → Draws p) (hd : ∀ i, 1 ≤ i → i ≤ n → (d i).secret ≠ 0 ∧ (d i).blinding ≠ 0)
    (hsum : ∑ j ∈ Icc 1 n, (d j).secret ≠ 0)
    (p1 : Nat → List (Nat × SharingV1.Share p × SharingV1.Share p))
    (hp1 : p1 = fun i => (others i).map fun j => (j, ⟨j, ((d i).f t).eval ((j : Nat) : ZMod p)⟩,
      ⟨j, ((d i).fB t).eval ((j : Nat) : ZMod p)⟩)) (b1 : Nat → List G)
    (hb1 : b1 = fun i => (hres g h t n (d i)).blindedVerifiers) :
    ∃ (dp0 dp1 : Nat → Participant p G),
      (∑ j ∈ Icc 1 n, (d j).f t).degree < t ∧
      (∑ j ∈ Icc 1 n, (d j).f t).eval 0 = ∑ j ∈ Icc 1 n, (d j).secret ∧
      ∀ i, 1 ≤ i → i ≤ n →
        newParticipant p h i t (others i) = some (dp0 i) ∧
        round1 g h valid (dp0 i) none (d i).secret (d i).blinding (d i).rnd (d i).rndB
          = (dp1 i, .ok (b1 i, p1 i)) ∧
        ∀ (bl : List (Nat × List G)) (pl : List (Nat × SharingV1.Share p × SharingV1.Share p)),
          Delivered n i (fun j m => m = b1 j) bl → Delivered n i (fun j m => (i, m) ∈ p1 j) pl →
          ∃ dp2, round2 g h (dp1 i) bl pl = (dp2, .ok ((d i).vers g t)) ∧
            ∀ vl : List (Nat × List G), Delivered n i (fun j m => m = (d j).vers g t) vl →
              ∃ dp3, round3 g dp2 vl = (dp3, .ok ((∑ j ∈ Icc 1 n, (d j).secret) • g,
                  ⟨i, (∑ j ∈ Icc 1 n, (d j).f t).eval ((i : Nat) : ZMod p)⟩)) ∧
                dp3.round = 4 ∧
                round4 dp3 = .ok ((i :: others i).map fun j => (j,
                  (∑ j ∈ Icc 1 n, (d j).secret) • g +
                    ((List.range t).map fun k => ((j * (k + 1) : Nat) : ZMod p) •
                      ((d j).vers g t).getD k 0).sum)) := by
  have hmem : ∀ i, 1 ≤ i → i ≤ n → ∀ j, j ∈ others i ↔ (1 ≤ j ∧ j ≤ n ∧ j ≠ i) := by
    intro i h1 h2 j
    have hP := hoth i h1 h2
    have hnd : (others i ++ [i]).Nodup := hP.nodup_iff.2
      ((List.nodup_range).map (fun a b hab => by simpa using hab))
    have hm := hP.mem_iff (a := j)
    have hni : i ∉ others i := by
      intro hi
      exact (List.nodup_append.1 hnd).2.2 i hi i (by simp) rfl
    simp only [List.mem_append, List.mem_singleton, List.mem_map, List.mem_range] at hm
    constructor
    · intro hj
      obtain ⟨a, ha, rfl⟩ := hm.1 (Or.inl hj)
      exact ⟨by omega, by omega, fun e => hni (e ▸ hj)⟩
    · rintro ⟨ha, hb, hc⟩
      exact (hm.2 ⟨j - 1, by omega, by omega⟩).resolve_right hc
  have hnodup : ∀ i, 1 ≤ i → i ≤ n → (others i).Nodup := by
    intro i h1 h2
    have hnd : (others i ++ [i]).Nodup := (hoth i h1 h2).nodup_iff.2
      ((List.nodup_range).map (fun a b hab => by simpa using hab))
    exact (List.nodup_append.1 hnd).1
  have hlen : ∀ i, 1 ≤ i → i ≤ n → (others i).length + 1 = n := by
    intro i h1 h2
    have := (hoth i h1 h2).length_eq
    simpa using this
  have hfdeg : ∀ j, ((d j).f t).degree < t := by
    intro j
    have := degree_polyOf_lt (polyInit (d j).secret t (d j).rnd)
    rwa [length_polyInit _ _ _ (by omega)] at this
  let dp0 : Nat → Participant p G := fun i =>
    { round := 1, id := i, shamir := ⟨t, n⟩, others := others i, shares := fun _ => none,
      vers := fun _ => [], skShare := none, vk := none, result := none }
  let dp1 : Nat → Participant p G := fun i =>
    { round := 2, id := i, shamir := ⟨t, n⟩, others := others i, shares := fun _ => none,
      vers := fun _ => [], skShare := none, vk := none, result := some (hres g h t n (d i)) }
  subst hp1 hb1
  refine ⟨dp0, dp1, ?_, ?_, ?_⟩
  · refine lt_of_le_of_lt (Polynomial.degree_sum_le _ _) ?_
    rw [Finset.sup_lt_iff (by exact_mod_cast WithBot.bot_lt_coe t)]
    exact fun j _ => hfdeg j
  · rw [Polynomial.eval_finsetSum]
    exact Finset.sum_congr rfl fun j _ => by simp [Draws.f, polyInit, polyOf]
  intro i hi1 hin
  have hol := hlen i hi1 hin
  refine ⟨?_, ?_, ?_⟩
  · unfold newParticipant
    rw [if_neg (by intro h0; rw [h0] at hol; simp at hol; omega),
      validIds_perm n _ (hoth i hi1 hin), if_neg (by simp), if_neg (by omega), if_neg (by omega),
      if_neg hh, List.Nodup.dedup (hnodup i hi1 hin), hol]
  · unfold round1
    rw [if_neg (by simp [dp0])]
    simp only [dp0]
    rw [split_honest g h t n hpn (d i) (hd i hi1 hin).1 (hd i hi1 hin).2]
    simp only
    rw [packets_honest g h t n (d i) (others i) (fun j hj => by
      have := (hmem i hi1 hin j).1 hj; omega)]
  intro bl pl ⟨hbnd, hbl, hball⟩ ⟨hpnd, hpl, hpall⟩
  have hlook : ∀ j, 1 ≤ j → j ≤ n → j ≠ i → pl.lookup j =
      some (⟨i, ((d j).f t).eval ((i : Nat) : ZMod p)⟩, ⟨i, ((d j).fB t).eval ((i : Nat) : ZMod p)⟩) := by
    intro j h1 h3 hne
    obtain ⟨⟨k, sh⟩, hx, hk⟩ := List.mem_map.1 (hpall j h1 h3 hne)
    simp only at hk; subst hk
    obtain ⟨-, -, hm⟩ := hpl _ hx
    obtain ⟨j', -, he⟩ := List.mem_map.1 (hm hne)
    simp only [Prod.mk.injEq] at he
    obtain ⟨rfl, rfl⟩ := he
    exact FrostDkg.lookup_of_mem hpnd hx
  -- some other participant exists
  obtain ⟨j0, hj0⟩ : ∃ j0, 1 ≤ j0 ∧ j0 ≤ n ∧ j0 ≠ i := by
    by_cases h1 : i = 1
    · exact ⟨2, by omega, by omega, by omega⟩
    · exact ⟨1, by omega, by omega, by omega⟩
  have hblne : bl ≠ [] := by
    rintro rfl; simpa using hball j0 hj0.1 hj0.2.1 hj0.2.2
  have hplne : pl ≠ [] := by
    rintro rfl; simpa using hpall j0 hj0.1 hj0.2.1 hj0.2.2
  have hown : (hres g h t n (d i)).secretShares[i - 1]?
      = some ⟨i, ((d i).f t).eval ((i : Nat) : ZMod p)⟩ := by
    simp only [hres]
    rw [List.getElem?_map, List.getElem?_range (by omega)]
    have e : i - 1 + 1 = i := by omega
    simp only [Option.map_some, e]
  let X : Nat → SharingV1.Share p := fun j => ⟨i, ((d j).f t).eval ((i : Nat) : ZMod p)⟩
  have hloop := round2Loop_ok g h (dp1 i) pl X bl (by
    intro x hx hne
    obtain ⟨h1, h3, hm⟩ := hbl x hx
    have hne' : x.1 ≠ i := hne
    refine ⟨(hmem i hi1 hin x.1).2 ⟨h1, h3, hne'⟩, _, hlook x.1 h1 h3 hne', ?_⟩
    rw [hm hne']
    exact pverify_honest g h t n i ht (by omega) (d x.1)) (dp1 i).shares
      (((d i).f t).eval ((i : Nat) : ZMod p))
  have hsk : ((d i).f t).eval ((i : Nat) : ZMod p) + ((bl.map Prod.fst).map fun j =>
      if j = i then 0 else (X j).value).sum = (∑ j ∈ Icc 1 n, (d j).f t).eval ((i : Nat) : ZMod p) := by
    rw [Polynomial.eval_finsetSum]
    exact FrostDkg.sum_keys n i ⟨hi1, hin⟩ _ hbnd (fun j hj => by
        obtain ⟨x, hx, rfl⟩ := List.mem_map.1 hj
        exact ⟨(hbl x hx).1, (hbl x hx).2.1⟩) hball
      (fun j => ((d j).f t).eval ((i : Nat) : ZMod p))
  let S2 : Nat → Option (SharingV1.Share p) := fun k => if k ∈ bl.map Prod.fst ∧ k ≠ i then some (X k) else none
  let dp2 : Participant p G :=
    { round := 3, id := i, shamir := ⟨t, n⟩, others := others i, shares := S2,
      vers := fun _ => [], skShare := some ((∑ j ∈ Icc 1 n, (d j).f t).eval ((i : Nat) : ZMod p)),
      vk := none, result := some (hres g h t n (d i)) }
  refine ⟨dp2, ?_, ?_⟩
  · unfold round2
    rw [if_neg (by simp [dp1]), if_neg (by push Not; exact ⟨hblne, hplne⟩)]
    simp only [dp1]
    rw [if_neg (by omega), hown]
    simp only
    have : round2Loop g h (dp1 i) pl bl (dp1 i).shares (((d i).f t).eval ((i : Nat) : ZMod p))
        = (S2, .ok ((∑ j ∈ Icc 1 n, (d j).f t).eval ((i : Nat) : ZMod p))) := by
      rw [hloop, ← hsk]
    simp only [dp1] at this
    rw [this]
    rfl
  intro vl ⟨hvnd, hvl, hvall⟩
  have hvlne : vl ≠ [] := by
    rintro rfl; simpa using hvall j0 hj0.1 hj0.2.1 hj0.2.2
  have hvcons : ∀ j, (d j).vers g t = (d j).secret • g :: ((List.range (t - 1)).map (d j).rnd).map (· • g) := by
    intro j; simp [Draws.vers, polyInit]
  have hloop3 := round3Loop_ok g dp2 X (fun j => (d j).vers g t) (fun j => (d j).secret • g) vl (by
    intro x hx hne
    obtain ⟨h1, h3, hm⟩ := hvl x hx
    have hne' : x.1 ≠ i := hne
    refine ⟨(hmem i hi1 hin x.1).2 ⟨h1, h3, hne'⟩, ?_, hm hne', ⟨_, hvcons x.1⟩, ?_⟩
    · show S2 x.1 = _
      simp only [S2]
      rw [if_pos ⟨hball x.1 h1 h3 hne', hne'⟩]
    · exact fverify_honest g t n i ht (by omega) (d x.1)) (fun _ => []) ((d i).secret • g)
  have hpk : (d i).secret • g + ((vl.map Prod.fst).map fun j =>
      if j = i then 0 else (d j).secret • g).sum = (∑ j ∈ Icc 1 n, (d j).secret) • g := by
    rw [Finset.sum_smul]
    exact FrostDkg.sum_keys n i ⟨hi1, hin⟩ _ hvnd (fun j hj => by
        obtain ⟨x, hx, rfl⟩ := List.mem_map.1 hj
        exact ⟨(hvl x hx).1, (hvl x hx).2.1⟩) hvall
      (fun j => (d j).secret • g)
  let V3 : Nat → List G := fun k => if k ∈ vl.map Prod.fst ∧ k ≠ i then (d k).vers g t else []
  have hloop3' : round3Loop g dp2 vl (fun _ => []) ((d i).secret • g)
      = (V3, .ok ((∑ j ∈ Icc 1 n, (d j).secret) • g)) := by
    rw [hloop3, ← hpk]
  let dp3 : Participant p G :=
    { round := 4, id := i, shamir := ⟨t, n⟩, others := others i, shares := S2,
      vers := V3, skShare := some ((∑ j ∈ Icc 1 n, (d j).f t).eval ((i : Nat) : ZMod p)),
      vk := some ((∑ j ∈ Icc 1 n, (d j).secret) • g), result := some (hres g h t n (d i)) }
  refine ⟨dp3, ?_, rfl, ?_⟩
  · unfold round3
    rw [if_neg (by simp [dp2]), if_neg hvlne]
    simp only [dp2]
    have hv : (hres g h t n (d i)).verifiers
        = (d i).secret • g :: ((List.range (t - 1)).map (d i).rnd).map (· • g) := hvcons i
    rw [hv]
    simp only
    simp only [dp2] at hloop3'
    rw [hloop3']
    simp only
    rw [if_neg (fun h0 => hsum (smul_cancel hg (by rw [h0, zero_smul])))]
  · unfold round4
    rw [if_neg (by simp [dp3])]
    simp only [dp3]
    refine foldr_bind_ok _ (fun j => (∑ j ∈ Icc 1 n, (d j).secret) • g +
        ((List.range t).map fun k => ((j * (k + 1) : Nat) : ZMod p) • ((d j).vers g t).getD k 0).sum) _ ?_
    intro j hj
    have hvlen : ∀ j, ((d j).vers g t).length = t := by
      intro j; simp [Draws.vers, polyInit]; omega
    have hl : (hres g h t n (d i)).verifiers.length = t := hvlen i
    have hsel : (if j = i then (hres g h t n (d i)).verifiers else V3 j) = (d j).vers g t := by
      by_cases hji : j = i
      · rw [if_pos hji, hji]; rfl
      · rw [if_neg hji]
        have := (hmem i hi1 hin j).1 ((List.mem_cons.1 hj).resolve_left hji)
        simp only [V3]
        rw [if_pos ⟨hvall j this.1 this.2.1 hji, hji⟩]
    rw [hsel, hl, round4Inner_ok _ _ _ (by intro k hk; rw [hvlen]; simpa using hk)]

/-- **C13** Honest run of `n` participants `1..n` with threshold `t`, any participant order and any map
iteration order: all rounds succeed for everyone; all output the verification key `(Σ secrets)·g`; the
secret shares are the values at `1..n` of one polynomial of degree `< t` with constant term
`Σ secrets`; and (`round4`) what the fourth round reports for participant `j` is
`vk + Σ_k (j·(k+1))·R_{j,k}`. -/
theorem C13_honest_run (g h : G) (hg : g ≠ 0) (hh : h ≠ 0) (valid : Nat → Bool) {t n : Nat}
    (ht : 2 ≤ t) (htn : t ≤ n) (hpn : n < p) (others : Nat → List Nat)
    (hoth : ∀ i, 1 ≤ i → i ≤ n → (others i ++ [i]).Perm ((List.range n).map (· + 1)))
    (d : Nat → Draws p) (hd : ∀ i, 1 ≤ i → i ≤ n → (d i).secret ≠ 0 ∧ (d i).blinding ≠ 0)
    (hsum : ∑ j ∈ Icc 1 n, (d j).secret ≠ 0) :
    ∃ (f : (ZMod p)[X]) (dp0 dp1 : Nat → Participant p G) (b1 : Nat → List G)
      (p1 : Nat → List (Nat × SharingV1.Share p × SharingV1.Share p)),
      f.degree < t ∧ f.eval 0 = ∑ j ∈ Icc 1 n, (d j).secret ∧
      ∀ i, 1 ≤ i → i ≤ n →
        newParticipant p h i t (others i) = some (dp0 i) ∧
        round1 g h valid (dp0 i) none (d i).secret (d i).blinding (d i).rnd (d i).rndB
          = (dp1 i, .ok (b1 i, p1 i)) ∧
        ∀ (bl : List (Nat × List G)) (pl : List (Nat × SharingV1.Share p × SharingV1.Share p)),
          Delivered n i (fun j m => m = b1 j) bl → Delivered n i (fun j m => (i, m) ∈ p1 j) pl →
          ∃ dp2, round2 g h (dp1 i) bl pl = (dp2, .ok ((d i).vers g t)) ∧
            ∀ vl : List (Nat × List G), Delivered n i (fun j m => m = (d j).vers g t) vl →
              ∃ dp3, round3 g dp2 vl = (dp3, .ok ((∑ j ∈ Icc 1 n, (d j).secret) • g,
                  ⟨i, f.eval ((i : Nat) : ZMod p)⟩)) ∧
                dp3.round = 4 ∧
                round4 dp3 = .ok ((i :: others i).map fun j => (j,
                  (∑ j ∈ Icc 1 n, (d j).secret) • g +
                    ((List.range t).map fun k => ((j * (k + 1) : Nat) : ZMod p) •
                      ((d j).vers g t).getD k 0).sum)) := by
  obtain ⟨dp0, dp1, h1, h2, h3⟩ := honest_run g h hg hh valid ht htn hpn others hoth d hd hsum _ rfl _ rfl
  exact ⟨_, dp0, dp1, _, _, h1, h2, h3⟩

/-- **C13** (caller-chosen secrets) a caller secret that is zero, not below the order or refused by the
scalar type makes `Round1` fail and leaves the round counter where it was; a good one is shared: the
broadcast is the Pedersen commitment of the sharing of exactly that value. -/
theorem C13_caller_secret (g h : G) (valid : Nat → Bool) (dp : Participant p G) (b : List UInt8)
    (sampled blinding : ZMod p) (rnd rndB : Nat → ZMod p) :
    ((valid (beToNat b) = false ∨ beToNat b = 0 ∨ p ≤ beToNat b) →
      (round1 g h valid dp (some b) sampled blinding rnd rndB).1.round = dp.round ∧
      ∀ o, (round1 g h valid dp (some b) sampled blinding rnd rndB).2 ≠ .ok o) ∧
    (∀ dp' bv pk, round1 g h valid dp (some b) sampled blinding rnd rndB = (dp', .ok (bv, pk)) →
      ∃ r, pedersenSplit g h dp.shamir b blinding rnd rndB = .ok r ∧ dp'.result = some r ∧
        bv = r.blindedVerifiers ∧ r.verifiers.head? = some (((beToNat b : Nat) : ZMod p) • g)) := by
  constructor
  · rintro (hv | hv | hv)
    · unfold round1
      split <;> simp [hv]
    · unfold round1
      split
      · simp
      · by_cases h2 : valid (beToNat b) = false
        · simp [h2]
        · simp [hv]
    · have hp : 0 < p := (Fact.out : p.Prime).pos
      have hspl : pedersenSplit g h dp.shamir b blinding rnd rndB = .err := by
        unfold SharingV1.pedersenSplit getSharesAndPolynomial
        by_cases hb : b = []
        · simp [hb, Verif.Res.bind]
        · simp [hb, Verif.Res.bind, hv]
      unfold round1
      split
      · simp
      · by_cases h2 : valid (beToNat b) = false
        · simp [h2]
        · have h3 : beToNat b ≠ 0 := by omega
          simp [h2, h3, hspl]
  · intro dp' bv pk hr
    unfold round1 at hr
    split at hr; · simp at hr
    by_cases h2 : valid (beToNat b) = false
    · simp [h2] at hr
    · by_cases h3 : beToNat b = 0
      · simp [h3] at hr
      · simp only [h2, h3, if_false] at hr
        cases hs : pedersenSplit g h dp.shamir b blinding rnd rndB with
        | err => simp [hs] at hr
        | panic => simp [hs] at hr
        | ok r =>
          simp only [hs] at hr
          cases hp : packets r dp.others with
          | none => simp [hp] at hr
          | some l =>
            simp only [hp] at hr
            rw [if_neg (by simp)] at hr
            simp only [Prod.mk.injEq, Verif.Res.ok.injEq] at hr
            obtain ⟨rfl, rfl, rfl⟩ := hr
            refine ⟨r, rfl, rfl, rfl, ?_⟩
            obtain ⟨-, hf, -⟩ := SharingV1.C09_pedersen_feldman g h dp.shamir b blinding rnd rndB r hs
            unfold SharingV1.feldmanSplit getSharesAndPolynomial at hf
            split at hf
            · rename_i x hx
              split at hx; · cases hx
              split at hx; · cases hx
              simp only at hx
              split at hx; · cases hx
              cases hx
              simp only [Verif.Res.ok.injEq, Prod.mk.injEq] at hf
              rw [← hf.1]
              simp [Verif.Sharing.polyInit]
            · cases hf
            · cases hf

/-- **C13** (reconstruction) any `t` of the secret shares of such a run combine, with the package's own
`Combine`, to the group secret. -/
theorem C13_reconstruct {t n : Nat} {s : VShamir} (hn : n < 2 ^ 32) (hpn : n < p)
    (hs : SharingV1.newShamir (t : Int) (n : Int) = some s) (f : (ZMod p)[X]) (hf : f.degree < t)
    (sub : List (SharingV1.Share p)) (hlen : sub.length = t)
    (hsub : ∀ r ∈ sub, 1 ≤ r.id ∧ r.id ≤ n ∧ r.value = f.eval ((r.id : Nat) : ZMod p))
    (hnd : (sub.map SharingV1.Share.id).Nodup) :
    SharingV1.combine s sub = .ok (natToBE (f.eval 0).val) :=
  (C07_combine_spec hn hpn hs sub [] hlen (fun r hr => ⟨(hsub r hr).1, (hsub r hr).2.1⟩)).2.2 hnd f hf
    (fun r hr => (hsub r hr).2.2)

/-! ## C14 -/

/-- **C14** (negation, finding) the public shares reported by the fourth round are *not* the secret
shares times the generator: on every curve of order at least 5 there is an honest 2-of-2 run in which
both participants agree, the secret share of participant 1 is `x₁` and participant 1's fourth round
reports for itself a point different from `x₁·g` (the code multiplies by `j·(k+1)` instead of `j^k` and only uses `j`'s own commitments). -/
theorem C14_public_shares_wrong (g h : G) (hg : g ≠ 0) (hh : h ≠ 0) (hp5 : 5 ≤ p) (valid : Nat → Bool) :
    ∃ (d : Nat → Draws p) (dp0 dp1 dp2 dp3 : Participant p G) (b1 b2 : List G)
      (p1 : List (Nat × SharingV1.Share p × SharingV1.Share p)) (x1 : ZMod p) (vk : G)
      (W : List (Nat × G)) (w : G),
      -- participant 1 runs all rounds against an honest participant 2
      newParticipant p h 1 2 [2] = some dp0 ∧
      round1 g h valid dp0 none (d 1).secret (d 1).blinding (d 1).rnd (d 1).rndB = (dp1, .ok (b1, p1)) ∧
      (∃ q0 q1 q1p s2 bl2, newParticipant p h 2 2 [1] = some q0 ∧
        round1 g h valid q0 none (d 2).secret (d 2).blinding (d 2).rnd (d 2).rndB = (q1, .ok (b2, q1p)) ∧
        (1, s2, bl2) ∈ q1p ∧
        (round2 g h dp1 [(2, b2)] [(2, s2, bl2)]) = (dp2, .ok ((d 1).vers g 2))) ∧
      round3 g dp2 [(2, (d 2).vers g 2)] = (dp3, .ok (vk, ⟨1, x1⟩)) ∧
      round4 dp3 = .ok W ∧ (1, w) ∈ W ∧ w ≠ x1 • g := by
  let D : Draws p := ⟨1, 1, fun _ => 1, fun _ => 1⟩
  have h2p : ((2 : Nat) : ZMod p) ≠ 0 := by
    intro h0
    rw [ZMod.natCast_eq_zero_iff] at h0
    have := Nat.le_of_dvd (by norm_num) h0
    omega
  have hsum : ∑ j ∈ Icc 1 2, ((fun _ => D) j : Draws p).secret = ((2 : Nat) : ZMod p) := by
    simp [D]
  obtain ⟨dp0, dp1, -, -, hrun⟩ := honest_run (t := 2) (n := 2) g h hg hh valid
    (by norm_num) (by norm_num) (by omega) (fun i => [3 - i])
    (by
      intro i h1 h2
      rcases (by omega : i = 1 ∨ i = 2) with rfl | rfl <;> decide)
    (fun _ => D) (by intro i _ _; exact ⟨one_ne_zero, one_ne_zero⟩) (by rw [hsum]; exact h2p) _ rfl _ rfl
  obtain ⟨e1, e2, e3⟩ := hrun 1 (by norm_num) (by norm_num)
  obtain ⟨q1, q2, -⟩ := hrun 2 (by norm_num) (by norm_num)
  obtain ⟨dp2, r2, r3⟩ := e3 [(2, (hres g h 2 2 D).blindedVerifiers)]
    [(2, ⟨1, (D.f 2).eval ((1 : Nat) : ZMod p)⟩, ⟨1, (D.fB 2).eval ((1 : Nat) : ZMod p)⟩)]
    (by
      refine ⟨by simp, by simp, ?_⟩
      intro j h1 h2 h3
      simp; omega)
    (by
      refine ⟨by simp, by simp, ?_⟩
      intro j h1 h2 h3
      simp; omega)
  obtain ⟨dp3, e5, -, e6⟩ := r3 [(2, D.vers g 2)] (by
      refine ⟨by simp, by simp, ?_⟩
      intro j h1 h2 h3
      simp; omega)
  refine ⟨fun _ => D, dp0 1, dp1 1, dp2, dp3, _, _, _, _, _, _, _, e1, e2,
    ⟨dp0 2, dp1 2, _, _, _, q1, q2, by simp, r2⟩, e5, e6, List.mem_map.2 ⟨1, by simp, rfl⟩, ?_⟩
  -- the secret share is 4, the reported point is 5·g
  rw [hsum]
  have hx : (∑ j ∈ Icc 1 2, D.f 2).eval ((1 : Nat) : ZMod p) = 4 := by
    rw [Polynomial.eval_finsetSum]
    simp [Draws.f, D, polyInit, polyOf]
    norm_num
  rw [hx]
  simp only [Draws.vers, polyInit, D, List.range_succ, List.range_zero, List.map_cons, List.map_nil,
    List.nil_append, List.cons_append, List.sum_cons, List.sum_nil]
  simp
  intro h0
  have h5 : (5 : ZMod p) • g = (4 : ZMod p) • g := by
    rw [← h0]; module
  have h10 := smul_cancel hg h5
  have : (1 : ZMod p) = 0 := by linear_combination h10
  exact one_ne_zero this

/-! ## C52: adversarial messages -/

theorem round2Loop_sound (g h : G) (dp : Participant p G)
    (p2p : List (Nat × SharingV1.Share p × SharingV1.Share p)) (bl : List (Nat × List G))
    (st st' : Nat → Option (SharingV1.Share p)) (sk sk' : ZMod p)
    (hl : round2Loop g h dp p2p bl st sk = (st', .ok sk')) :
    ∃ X : Nat → SharingV1.Share p,
      (∀ x ∈ bl, x.1 ≠ dp.id → x.1 ∈ dp.others ∧ ∃ R, p2p.lookup x.1 = some (X x.1, R) ∧
        pedersenVerify g h dp.shamir (X x.1) R x.2 = .ok true) := by
  have key : ∀ x ∈ bl, x.1 ≠ dp.id → x.1 ∈ dp.others ∧ ∃ Y R, p2p.lookup x.1 = some (Y, R) ∧
        pedersenVerify g h dp.shamir Y R x.2 = .ok true := by
    induction bl generalizing st sk with
    | nil => simp
    | cons y bl ih =>
      obtain ⟨j, bvs⟩ := y
      unfold round2Loop at hl
      intro x hx hne
      by_cases hj : j = dp.id
      · rw [if_pos hj] at hl
        rcases List.mem_cons.1 hx with rfl | hx
        · exact absurd hj hne
        · exact ih _ _ hl x hx hne
      · rw [if_neg hj] at hl
        cases hlk : p2p.lookup j with
        | none => rw [hlk] at hl; simp at hl
        | some XR =>
          obtain ⟨Y, R⟩ := XR
          rw [hlk] at hl
          simp only at hl
          cases hv : pedersenVerify g h dp.shamir Y R bvs with
          | err => simp [hv] at hl
          | panic => simp [hv] at hl
          | ok b =>
            cases b with
            | false => simp [hv] at hl
            | true =>
              rw [hv] at hl
              simp only at hl
              split at hl
              · rename_i hm
                rcases List.mem_cons.1 hx with rfl | hx
                · exact ⟨hm, Y, R, hlk, hv⟩
                · exact ih _ _ hl x hx hne
              · simp at hl
  refine ⟨fun j => ((p2p.lookup j).map Prod.fst).getD ⟨0, 0⟩, ?_⟩
  intro x hx hne
  obtain ⟨a, Y, R, b, c⟩ := key x hx hne
  refine ⟨a, R, ?_, ?_⟩
  · simp [b]
  · simpa [b] using c

theorem pverify_true {g h : G} {s : VShamir} {X R : SharingV1.Share p} {v : List G}
    (hv : pedersenVerify g h s X R v = .ok true) :
    s.threshold ≤ v.length ∧ X.id < p ∧ X.value • g + R.value • h
      = ∑ m ∈ range v.length, ((X.id : Nat) : ZMod p) ^ m • v.getD m 0 := by
  unfold SharingV1.pedersenVerify at hv
  split at hv; · cases hv
  split at hv; · cases hv
  rename_i h1 h2
  simp only [Verif.Res.ok.injEq, decide_eq_true_eq] at hv
  rw [commitEval_sum] at hv
  exact ⟨by omega, by omega, hv⟩

theorem fverify_true {g : G} {s : VShamir} {X : SharingV1.Share p} {v : List G}
    (hv : feldmanVerify g s X v = .ok true) :
    s.threshold ≤ v.length ∧ X.id < p ∧ X.value • g
      = ∑ m ∈ range v.length, ((X.id : Nat) : ZMod p) ^ m • v.getD m 0 := by
  unfold SharingV1.feldmanVerify at hv
  split at hv; · cases hv
  split at hv; · cases hv
  rename_i h1 h2
  simp only [Verif.Res.ok.injEq, decide_eq_true_eq] at hv
  rw [commitEval_sum] at hv
  exact ⟨by omega, by omega, hv⟩

/-- **C52** (second round) for arbitrary messages: if `Round2` succeeds, every peer's pair of shares
satisfies the Pedersen equation against that peer's commitments, at the identifier *inside the share*;
the stored shares are those received, and the secret share is the sum. -/
theorem C52_round2_sound_partial (g h : G) (dp dp' : Participant p G) (bl : List (Nat × List G))
    (pl : List (Nat × SharingV1.Share p × SharingV1.Share p)) (out : List G)
    (hr : round2 g h dp bl pl = (dp', .ok out)) :
    dp.round = 2 ∧ dp'.round = 3 ∧ ∃ (X : Nat → SharingV1.Share p) (own : SharingV1.Share p),
      (∀ x ∈ bl, x.1 ≠ dp.id → dp'.shares x.1 = some (X x.1) ∧
        ∃ R, pl.lookup x.1 = some (X x.1, R) ∧ dp.shamir.threshold ≤ x.2.length ∧
          (X x.1).value • g + R.value • h
            = ∑ m ∈ range x.2.length, (((X x.1).id : Nat) : ZMod p) ^ m • x.2.getD m 0) ∧
      (∃ res, dp.result = some res ∧ res.secretShares[dp.id - 1]? = some own ∧ out = res.verifiers) ∧
      dp'.skShare = some (own.value +
        ((bl.map Prod.fst).map fun j => if j = dp.id then 0 else (X j).value).sum) := by
  unfold round2 at hr
  split at hr; · simp at hr
  split at hr; · simp at hr
  rename_i h1 h2
  cases hres : dp.result with
  | none => rw [hres] at hr; simp at hr
  | some res =>
    rw [hres] at hr
    simp only at hr
    split at hr; · simp at hr
    cases ho : res.secretShares[dp.id - 1]? with
    | none => rw [ho] at hr; simp at hr
    | some own =>
      rw [ho] at hr
      simp only at hr
      rcases hl : round2Loop g h dp pl bl dp.shares own.value with ⟨st, r⟩
      rw [hl] at hr
      cases r with
      | err => simp at hr
      | panic => simp at hr
      | ok sk =>
        simp only [Prod.mk.injEq, Verif.Res.ok.injEq] at hr
        obtain ⟨rfl, rfl⟩ := hr
        obtain ⟨X, hX⟩ := round2Loop_sound g h dp pl bl _ _ _ _ hl
        have hok := round2Loop_ok g h dp pl X bl hX dp.shares own.value
        rw [hl] at hok
        simp only [Prod.mk.injEq, Verif.Res.ok.injEq] at hok
        refine ⟨by simpa using h1, rfl, X, own, ?_, ⟨res, rfl, ho, rfl⟩, ?_⟩
        · intro x hx hne
          obtain ⟨-, R, a, b⟩ := hX x hx hne
          obtain ⟨c, -, e⟩ := pverify_true b
          refine ⟨?_, R, a, c, e⟩
          show st x.1 = _
          rw [hok.1]
          simp only
          rw [if_pos ⟨List.mem_map.2 ⟨x, hx, rfl⟩, hne⟩]
        · show some sk = _
          rw [hok.2]

theorem round3Loop_sound (g : G) (dp : Participant p G) (bl : List (Nat × List G))
    (st st' : Nat → List G) (pk pk' : G) (hl : round3Loop g dp bl st pk = (st', .ok pk')) :
    (∀ x ∈ bl, x.1 ≠ dp.id → ∃ X R0 rest, dp.shares x.1 = some X ∧ x.2 = R0 :: rest ∧
        feldmanVerify g dp.shamir X x.2 = .ok true) ∧
      pk' = pk + (bl.map fun x => if x.1 = dp.id then 0 else x.2.getD 0 0).sum := by
  induction bl generalizing st pk with
  | nil => simp only [round3Loop, Prod.mk.injEq, Verif.Res.ok.injEq] at hl; simp [hl.2]
  | cons y bl ih =>
    obtain ⟨j, vs⟩ := y
    unfold round3Loop at hl
    by_cases hj : j = dp.id
    · rw [if_pos hj] at hl
      obtain ⟨a, b⟩ := ih _ _ hl
      refine ⟨?_, by simp [b, hj]⟩
      intro x hx hne
      rcases List.mem_cons.1 hx with rfl | hx
      · exact absurd hj hne
      · exact a x hx hne
    · rw [if_neg hj] at hl
      split at hl; · simp at hl
      cases hs : dp.shares j with
      | none =>
        rw [hs] at hl
        simp only at hl
        split at hl <;> simp at hl
      | some X =>
        rw [hs] at hl
        simp only at hl
        cases hv : feldmanVerify g dp.shamir X vs with
        | err => simp [hv] at hl
        | panic => simp [hv] at hl
        | ok b =>
          cases b with
          | false => simp [hv] at hl
          | true =>
            rw [hv] at hl
            simp only at hl
            cases vs with
            | nil => simp at hl
            | cons R0 rest =>
              simp only at hl
              obtain ⟨a, b⟩ := ih _ _ hl
              refine ⟨?_, by simp [b, hj, add_assoc]⟩
              intro x hx hne
              rcases List.mem_cons.1 hx with rfl | hx
              · exact ⟨X, R0, rest, hs, rfl, hv⟩
              · exact a x hx hne

/-- **C52** (third round) for arbitrary messages: if `Round3` succeeds, every peer's stored share lies on
the polynomial committed to by its Feldman commitments (at the identifier in the share), and the
verification key is the sum of all constant-term commitments and not the identity. -/
theorem C52_round3_sound_partial (g : G) (dp dp' : Participant p G) (bl : List (Nat × List G)) (pk : G)
    (sh : SharingV1.Share p) (hr : round3 g dp bl = (dp', .ok (pk, sh))) :
    dp.round = 3 ∧ dp'.round = 4 ∧ pk ≠ 0 ∧ sh.id = dp.id ∧ dp.skShare = some sh.value ∧
    (∀ x ∈ bl, x.1 ≠ dp.id → ∃ X, dp.shares x.1 = some X ∧ dp.shamir.threshold ≤ x.2.length ∧
      X.value • g = ∑ m ∈ range x.2.length, ((X.id : Nat) : ZMod p) ^ m • x.2.getD m 0) ∧
    ∃ res R0 rest, dp.result = some res ∧ res.verifiers = R0 :: rest ∧
      pk = R0 + (bl.map fun x => if x.1 = dp.id then 0 else x.2.getD 0 0).sum := by
  unfold round3 at hr
  split at hr; · simp at hr
  split at hr; · simp at hr
  rename_i h1 h2
  cases hres : dp.result with
  | none => simp [hres] at hr
  | some res =>
    cases hsk : dp.skShare with
    | none => simp [hres, hsk] at hr
    | some sk =>
      simp only [hres, hsk] at hr
      cases hv : res.verifiers with
      | nil => rw [hv] at hr; simp at hr
      | cons R0 rest =>
        rw [hv] at hr
        simp only at hr
        rcases hl : round3Loop g dp bl dp.vers R0 with ⟨st, r⟩
        rw [hl] at hr
        cases r with
        | err => simp at hr
        | panic => simp at hr
        | ok pk0 =>
          simp only at hr
          split at hr; · simp at hr
          rename_i hpk
          simp only [Prod.mk.injEq, Verif.Res.ok.injEq] at hr
          obtain ⟨rfl, rfl, rfl⟩ := hr
          obtain ⟨a, b⟩ := round3Loop_sound g dp bl _ _ _ _ hl
          refine ⟨by simpa using h1, rfl, hpk, rfl, rfl, ?_, res, R0, rest, rfl, hv, b⟩
          intro x hx hne
          obtain ⟨X, R, rs, c1, c2, c3⟩ := a x hx hne
          obtain ⟨d1, -, d3⟩ := fverify_true c3
          exact ⟨X, c1, d1, d3⟩

/-- **C52** (negation, finding) the identifier inside a received share is never compared with the
receiver's: on every curve of order at least 5, participant 1 of a 2-of-2 run accepts in `Round2` the
pair of shares that participant 2 dealt *to itself* (identifier 2), and ends with a secret share that is
not the value at 1 of the sum of the dealt polynomials. -/
theorem C52_foreign_share_accepted (g h : G) (hh : h ≠ 0) (hp5 : 5 ≤ p)
    (valid : Nat → Bool) :
    ∃ (d : Draws p) (dp0 dp1 dp2 : Participant p G) (b1 : List G)
      (p1 : List (Nat × SharingV1.Share p × SharingV1.Share p)) (out : List G) (x : ZMod p),
      newParticipant p h 1 2 [2] = some dp0 ∧
      round1 g h valid dp0 none d.secret d.blinding d.rnd d.rndB = (dp1, .ok (b1, p1)) ∧
      round2 g h dp1 [(2, b1)] [(2, ⟨2, (d.f 2).eval 2⟩, ⟨2, (d.fB 2).eval 2⟩)] = (dp2, .ok out) ∧
      dp2.skShare = some x ∧ x ≠ (d.f 2).eval 1 + (d.f 2).eval 1 := by
  let D : Draws p := ⟨1, 1, fun _ => 1, fun _ => 1⟩
  let dp1 : Participant p G :=
    { round := 2, id := 1, shamir := ⟨2, 2⟩, others := [2], shares := fun _ => none,
      vers := fun _ => [], skShare := none, vk := none, result := some (hres g h 2 2 D) }
  have h2v : ((2 : Nat) : ZMod p) = 2 := by norm_num
  have hver := pverify_honest g h 2 2 2 (le_refl 2) (by omega : 2 < p) D
  rw [h2v] at hver
  have hown : (hres g h 2 2 D).secretShares[1 - 1]? = some ⟨1, (D.f 2).eval ((1 : Nat) : ZMod p)⟩ := by
    simp [hres, List.range_succ]
  refine ⟨D, { dp1 with round := 1, result := none }, dp1,
    { dp1 with shares := fun k => if k = 2 then some ⟨2, (D.f 2).eval 2⟩ else none,
               skShare := some ((D.f 2).eval ((1 : Nat) : ZMod p) + (D.f 2).eval 2), round := 3 },
    (hres g h 2 2 D).blindedVerifiers,
    [2].map fun j => (j, ⟨j, (D.f 2).eval ((j : Nat) : ZMod p)⟩, ⟨j, (D.fB 2).eval ((j : Nat) : ZMod p)⟩),
    (hres g h 2 2 D).verifiers, _, ?_, ?_, ?_, rfl, ?_⟩
  · unfold newParticipant
    have hv : validIds ([2] ++ [1]) = true := by decide
    rw [if_neg (by simp), hv, if_neg (by simp), if_neg (by simp), if_neg (by simp), if_neg hh]
    rfl
  · unfold round1
    rw [if_neg (by simp)]
    simp only [dp1]
    have := split_honest g h 2 2 (by omega : 2 < p) D one_ne_zero one_ne_zero
    rw [this]
    simp only
    rw [packets_honest g h 2 2 D [2] (by simp)]
  · unfold round2
    rw [if_neg (by simp [dp1]), if_neg (by simp)]
    simp only [dp1]
    rw [if_neg (by simp), hown]
    simp only [round2Loop]
    rw [if_neg (by simp)]
    simp only [List.lookup_cons, BEq.rfl]
    rw [hver]
    simp
  · simp only [Draws.f, D, polyInit, polyOf, List.range_succ, List.range_zero, List.map_cons,
      List.map_nil, List.nil_append]
    simp
    intro h0
    have : (1 : ZMod p) = 0 := by linear_combination h0
    exact one_ne_zero this

/-! ## C15 (Gennaro participant) -/

theorem step_ok (g h : G) (valid : Nat → Bool) (dp : Participant p G) (c : Call p G) :
    (((stepCall g h valid dp c).2 = true → dp.round = c.number ∧
      (stepCall g h valid dp c).1.round = min 4 (c.number + 1))) ∧
    ((stepCall g h valid dp c).2 = false → (stepCall g h valid dp c).1.round = dp.round ∧
      (dp.round ≠ c.number → (stepCall g h valid dp c).1 = dp)) := by
  cases c with
  | round1 s sm b r rb =>
    simp only [stepCall, Call.number]
    unfold round1
    split
    · simp [Res.isOk]
    · rename_i hr
      have hr1 : dp.round = 1 := by simpa using hr
      have key : ∀ bytes : List UInt8, ∀ R : Participant p G × Verif.Res (List G × List (Nat × SharingV1.Share p × SharingV1.Share p)),
          R = (match pedersenSplit g h dp.shamir bytes b r rb with
            | .err => ({ dp with result := none }, .err)
            | .panic => (dp, .panic)
            | .ok rs =>
              match packets rs dp.others with
              | none => ({ dp with result := some rs }, .panic)
              | some pk => ({ dp with result := some rs, round := 2 }, .ok (rs.blindedVerifiers, pk))) →
          ((Res.isOk R.2 = true → dp.round = 1 ∧ R.1.round = min 4 (1 + 1)) ∧
            (Res.isOk R.2 = false → R.1.round = dp.round ∧ (dp.round ≠ 1 → R.1 = dp))) := by
        intro bytes R hR
        subst hR
        cases pedersenSplit g h dp.shamir bytes b r rb with
        | err => simp [Res.isOk, hr1]
        | panic => simp [Res.isOk, hr1]
        | ok rs =>
          simp only
          cases packets rs dp.others with
          | none => simp [Res.isOk, hr1]
          | some pk => simp [Res.isOk, hr1]
      cases s with
      | none => exact key _ _ rfl
      | some by' =>
        simp only
        split
        · simp [Res.isOk]
        · split
          · simp [Res.isOk]
          · exact key _ _ rfl
  | round2 b pk =>
    simp only [stepCall, Call.number]
    rcases hR : round2 g h dp b pk with ⟨dp', r⟩
    cases r with
    | ok out =>
      obtain ⟨a1, a2, -⟩ := C52_round2_sound_partial g h dp dp' b pk out hR
      simp [Res.isOk, a1, a2]
    | err =>
      simp only [Res.isOk]
      unfold round2 at hR
      split at hR
      · simp only [Prod.mk.injEq] at hR; obtain ⟨rfl, -⟩ := hR; simp
      · rename_i hr
        have hr2 : dp.round = 2 := by simpa using hr
        split at hR
        · simp only [Prod.mk.injEq] at hR; obtain ⟨rfl, -⟩ := hR; simp
        · split at hR
          · simp at hR
          · split at hR
            · simp at hR
            · split at hR
              · simp at hR
              · split at hR <;> simp only [Prod.mk.injEq] at hR
                · simp at hR
                · obtain ⟨rfl, -⟩ := hR; simp [hr2]
                · simp at hR
    | panic =>
      simp only [Res.isOk]
      unfold round2 at hR
      split at hR
      · simp at hR
      · rename_i hr
        have hr2 : dp.round = 2 := by simpa using hr
        split at hR
        · simp at hR
        · split at hR
          · simp only [Prod.mk.injEq] at hR; obtain ⟨rfl, -⟩ := hR; simp
          · split at hR
            · simp only [Prod.mk.injEq] at hR; obtain ⟨rfl, -⟩ := hR; simp
            · split at hR
              · simp only [Prod.mk.injEq] at hR; obtain ⟨rfl, -⟩ := hR; simp
              · split at hR <;> simp only [Prod.mk.injEq] at hR
                · simp at hR
                · simp at hR
                · obtain ⟨rfl, -⟩ := hR; simp [hr2]
  | round3 b =>
    simp only [stepCall, Call.number]
    rcases hR : round3 g dp b with ⟨dp', r⟩
    have hgen : (∃ o, r = .ok o) ∨ (dp'.round = dp.round ∧ (dp.round ≠ 3 → dp' = dp)) := by
      unfold round3 at hR
      split at hR
      · simp only [Prod.mk.injEq] at hR; obtain ⟨rfl, -⟩ := hR; simp
      · rename_i hr
        have hr3 : dp.round = 3 := by simpa using hr
        split at hR
        · simp only [Prod.mk.injEq] at hR; obtain ⟨rfl, -⟩ := hR; simp
        · split at hR
          · split at hR
            · simp only [Prod.mk.injEq] at hR; obtain ⟨rfl, -⟩ := hR; simp
            · split at hR
              · simp only [Prod.mk.injEq] at hR; obtain ⟨rfl, -⟩ := hR; simp [hr3]
              · simp only [Prod.mk.injEq] at hR; obtain ⟨rfl, -⟩ := hR; simp [hr3]
              · split at hR
                · simp only [Prod.mk.injEq] at hR; obtain ⟨rfl, -⟩ := hR; simp [hr3]
                · simp only [Prod.mk.injEq] at hR; exact Or.inl ⟨_, hR.2.symm⟩
          · simp only [Prod.mk.injEq] at hR; obtain ⟨rfl, -⟩ := hR; simp
    cases r with
    | ok out =>
      obtain ⟨a1, a2, -⟩ := C52_round3_sound_partial g dp dp' b out.1 out.2 hR
      simp [Res.isOk, a1, a2]
    | err => rcases hgen with ⟨o, ho⟩ | hgen <;> [cases ho; simpa [Res.isOk] using hgen]
    | panic => rcases hgen with ⟨o, ho⟩ | hgen <;> [cases ho; simpa [Res.isOk] using hgen]
  | round4 =>
    simp only [stepCall, Call.number]
    refine ⟨?_, by simp⟩
    intro hk
    unfold round4 at hk
    split at hk
    · simp [Res.isOk] at hk
    · rename_i hr
      have hr4 : dp.round = 4 := by simpa using hr
      simp [hr4]

/-- **C15** (Gennaro DKG) for every sequence of calls on a fresh participant: the successful calls of
rounds 1 to 3, in order, are a prefix of 1, 2, 3; round 4 (documented as idempotent) only succeeds after
all three; and a call for any other round than the current one leaves the object unchanged. -/
theorem C15_gennaro_rounds (g h : G) (valid : Nat → Bool) (id t : Nat) (others : List Nat)
    (dp : Participant p G) (hn : newParticipant p h id t others = some dp) (cs : List (Call p G)) :
    (∃ k m, k ≤ 3 ∧ ((runCalls g h valid dp cs).2.filter (·.2)).map Prod.fst
        = (List.range k).map (· + 1) ++ List.replicate m 4 ∧ (m ≠ 0 → k = 3)) ∧
    ∀ (dp' : Participant p G) (c : Call p G), dp'.round ≠ c.number →
      (stepCall g h valid dp' c) = (dp', false) := by
  refine ⟨?_, ?_⟩
  · have hr1 : dp.round = 1 := by
      unfold newParticipant at hn
      split at hn; · cases hn
      split at hn; · cases hn
      split at hn; · cases hn
      split at hn; · cases hn
      split at hn; · cases hn
      cases hn; rfl
    have key : ∀ (cs : List (Call p G)) (dp' : Participant p G), 1 ≤ dp'.round → dp'.round ≤ 4 →
        ∃ k m, dp'.round + k ≤ 4 ∧ ((runCalls g h valid dp' cs).2.filter (·.2)).map Prod.fst
          = (List.range k).map (· + dp'.round) ++ List.replicate m 4 ∧ (m ≠ 0 → dp'.round + k = 4) := by
      intro cs
      induction cs with
      | nil => intro dp' h1 h2; exact ⟨0, 0, by omega, by simp [runCalls], by simp⟩
      | cons c cs ih =>
        intro dp' h1 h2
        simp only [runCalls]
        obtain ⟨hok, hko⟩ := step_ok g h valid dp' c
        cases hb : (stepCall g h valid dp' c).2 with
        | false =>
          obtain ⟨hrd, -⟩ := hko hb
          obtain ⟨k, m, e1, e2, e3⟩ := ih (stepCall g h valid dp' c).1 (by omega) (by omega)
          refine ⟨k, m, by omega, ?_, by rw [← hrd]; exact e3⟩
          simp only [List.filter_cons, Bool.false_eq_true, if_false]
          rw [e2, hrd]
        | true =>
          obtain ⟨f1, f2⟩ := hok hb
          obtain ⟨k, m, e1, e2, e3⟩ := ih (stepCall g h valid dp' c).1 (by omega) (by omega)
          simp only [List.filter_cons, if_true, List.map_cons]
          rw [e2, f2]
          by_cases h4 : c.number = 4
          · rw [h4] at f2
            have hk : k = 0 := by omega
            subst hk
            refine ⟨0, m + 1, by omega, ?_, by omega⟩
            simp [h4, List.replicate_succ]
          · have hm : min 4 (c.number + 1) = c.number + 1 := by omega
            refine ⟨k + 1, m, by omega, ?_, by intro hm0; have := e3 hm0; omega⟩
            rw [List.range_succ_eq_map, List.map_cons, List.map_map, List.cons_append, hm, f1]
            congr 1
            · omega
            · congr 1
              refine List.map_congr_left fun a _ => ?_
              simp only [Function.comp]; omega
    obtain ⟨k, m, e1, e2, e3⟩ := key cs dp (by omega) (by omega)
    rw [hr1] at e1 e2 e3
    exact ⟨k, m, by omega, e2, fun hm => by have := e3 hm; omega⟩
  · intro dp' c hne
    obtain ⟨hok, hko⟩ := step_ok g h valid dp' c
    cases hb : (stepCall g h valid dp' c).2 with
    | true => exact absurd (hok hb).1 hne
    | false => exact Prod.ext ((hko hb).2 hne) hb

/-! ## Non-vacuity (field of 257 elements) -/

local instance fact257 : Fact (Nat.Prime 257) := ⟨by norm_num⟩

/-- hypotheses of `C13_honest_run` for a 2-of-3 run -/
example : (([2, 3] ++ [1] : List Nat).Perm ((List.range 3).map (· + 1))) ∧
    (([3, 1] ++ [2] : List Nat).Perm ((List.range 3).map (· + 1))) ∧
    (([1, 2] ++ [3] : List Nat).Perm ((List.range 3).map (· + 1))) := by decide

/-- participant 1 run against 2 and 3, with concrete values, through round 3: key 6·5, share 6+27 -/
example : (do
    let dp1 ← newParticipant 257 (3 : ZMod 257) 1 2 [2, 3]
    let dp2 ← newParticipant 257 (3 : ZMod 257) 2 2 [3, 1]
    let dp3 ← newParticipant 257 (3 : ZMod 257) 3 2 [1, 2]
    match round1 (5 : ZMod 257) 3 (fun _ => true) dp1 none 1 4 (fun _ => 8) (fun _ => 2),
      round1 (5 : ZMod 257) 3 (fun _ => true) dp2 none 2 5 (fun _ => 9) (fun _ => 7),
      round1 (5 : ZMod 257) 3 (fun _ => true) dp3 none 3 6 (fun _ => 10) (fun _ => 9) with
    | (dp1', .ok _), (_, .ok (b2, p2)), (_, .ok (b3, p3)) => do
      match round2 (5 : ZMod 257) 3 dp1' [(3, b3), (2, b2)] [(2, ← p2.lookup 1), (3, ← p3.lookup 1)] with
      | (dp1'', .ok _) =>
        match round3 (5 : ZMod 257) dp1'' [(2, [2 * 5, 9 * 5]), (3, [3 * 5, 10 * 5])] with
        | (_, .ok (vk, sh)) => some (vk, sh.id, sh.value)
        | _ => none
      | _ => none
    | _, _, _ => none) = some (6 * 5, 1, 6 + 27) := by decide +kernel

end Verif.Gennaro
