import Verif.FrostSign.Model
import Verif.FrostDkg.Lemmas
import Verif.Base.Interp
import Verif.Base.Tactics
import Verif.Schnorr.Props

/-! # Properties C16, C17 and C15 for FROST signing -/

namespace Verif.FrostSign
open Polynomial Finset Verif.Interp

set_option linter.unusedSectionVars false

variable {F G : Type*} [Field F] [DecidableEq F] [AddCommGroup G] [Module F G] [DecidableEq G]

/-! ## Helper lemmas -/

/-- the cosigner part of the hashed blob -/
def tailOf (P : Params F G) (dE : Nat → G × G) (S : List Nat) : List UInt8 :=
  S.flatMap fun j => UInt8.ofNat j :: (P.pc.enc (dE j).1 ++ P.pc.enc (dE j).2)

theorem blobTail_ok (P : Params F G) (inp : List (Nat × G × G)) (dE : Nat → G × G) (S : List Nat)
    (h : ∀ j ∈ S, inp.lookup j = some (dE j)) : blobTail P inp S = some (tailOf P dE S) := by
  induction S with
  | nil => rfl
  | cons j S ih =>
    unfold blobTail
    rw [h j (by simp), ih (fun k hk => h k (by simp [hk]))]
    simp [tailOf]

theorem commitLoop_ok (P : Params F G) (s : Signer F G) (msg : List UInt8) (inp l : List (Nat × G × G))
    (tl : List UInt8) (ht : blobTail P inp s.cosigners = some tl)
    (acc : List (Nat × G) × G × Option F) (hnd : (l.map Prod.fst).Nodup) :
    commitLoop P s msg inp l acc
      = some (acc.1 ++ l.map (fun x => (x.1, P.hash (UInt8.ofNat x.1 :: msg ++ tl) • x.2.2 + x.2.1)),
          acc.2.1 + (l.map fun x => P.hash (UInt8.ofNat x.1 :: msg ++ tl) • x.2.2 + x.2.1).sum,
          if s.id ∈ l.map Prod.fst then some (P.hash (UInt8.ofNat s.id :: msg ++ tl)) else acc.2.2) := by
  induction l generalizing acc with
  | nil => obtain ⟨a, b, c⟩ := acc; simp [commitLoop]
  | cons x l ih =>
    obtain ⟨a, b, c⟩ := acc
    obtain ⟨id, D, E⟩ := x
    unfold commitLoop blob
    simp only [ht, Option.map_some]
    rw [List.map_cons, List.nodup_cons] at hnd
    rw [ih _ hnd.2]
    by_cases hid : s.id = id
    · subst hid
      have h1 : s.id ∉ l.map Prod.fst := hnd.1
      simp only [List.map_cons, List.mem_cons, true_or, if_true, h1, if_false, List.append_assoc,
        List.singleton_append, List.sum_cons, add_assoc]
    · simp only [List.map_cons, List.mem_cons, hid, false_or, if_false, List.append_assoc,
        List.singleton_append, List.sum_cons, add_assoc]

theorem respLoop_ok (P : Params F G) (s : Signer F G) (c : F) (neg : Bool) (l : List (Nat × F × G))
    (h : ∀ x ∈ l, ∃ L Rj, s.lCoeffs.lookup x.1 = some L ∧ s.capRs.lookup x.1 = some Rj ∧
      x.2.1 • P.g = (c * L) • x.2.2 + (if neg then -Rj else Rj)) (z : F) :
    respLoop P s c neg l z = .ok (z + (l.map fun x => x.2.1).sum) := by
  induction l generalizing z with
  | nil => simp [respLoop]
  | cons x l ih =>
    obtain ⟨id, zj, vkj⟩ := x
    obtain ⟨L, Rj, h1, h2, h3⟩ := h (id, zj, vkj) (by simp)
    simp only at h1 h2 h3
    unfold respLoop
    rw [h1]
    simp only [h2]
    rw [if_neg (by simpa using h3), ih (fun y hy => h y (by simp [hy]))]
    simp [add_assoc]

theorem respLoop_sound (P : Params F G) (s : Signer F G) (c : F) (neg : Bool) (l : List (Nat × F × G))
    (z z' : F) (h : respLoop P s c neg l z = .ok z') :
    z' = z + (l.map fun x => x.2.1).sum ∧
    ∀ x ∈ l, ∃ L Rj, s.lCoeffs.lookup x.1 = some L ∧ s.capRs.lookup x.1 = some Rj ∧
      x.2.1 • P.g = (c * L) • x.2.2 + (if neg then -Rj else Rj) := by
  induction l generalizing z with
  | nil => simp only [respLoop, Res.ok.injEq] at h; simp [h]
  | cons x l ih =>
    obtain ⟨id, zj, vkj⟩ := x
    unfold respLoop at h
    cases h1 : s.lCoeffs.lookup id with
    | none => rw [h1] at h; cases h
    | some L =>
      rw [h1] at h
      simp only at h
      cases h2 : s.capRs.lookup id with
      | none => simp only [h2] at h; split at h <;> cases h
      | some Rj =>
        simp only [h2] at h
        by_cases h3 : zj • P.g = (c * L) • vkj + (if neg then -Rj else Rj)
        · rw [if_neg (by simpa using h3)] at h
          obtain ⟨a, b⟩ := ih _ h
          refine ⟨by rw [a]; simp [add_assoc], ?_⟩
          intro x hx
          rcases List.mem_cons.1 hx with rfl | hx
          · exact ⟨L, Rj, h1, h2, h3⟩
          · exact b x hx
        · rw [if_pos h3] at h
          cases h

theorem lookup_perm {α : Type*} (S : List Nat) (hS : S.Nodup) (v : Nat → α) (inp : List (Nat × α))
    (hp : inp.Perm (S.map fun j => (j, v j))) :
    (inp.map Prod.fst).Nodup ∧ inp.length = S.length ∧ (∀ j, j ∈ inp.map Prod.fst ↔ j ∈ S) ∧
    ∀ j ∈ S, inp.lookup j = some (v j) := by
  have hk : (inp.map Prod.fst).Perm S := by
    have := hp.map Prod.fst
    rw [List.map_map] at this
    simpa [Function.comp_def] using this
  have hnd : (inp.map Prod.fst).Nodup := hk.nodup_iff.2 hS
  refine ⟨hnd, by simpa using hk.length_eq, fun j => hk.mem_iff, ?_⟩
  intro j hj
  exact FrostDkg.lookup_of_mem hnd (hp.mem_iff.2 (List.mem_map.2 ⟨j, hj, rfl⟩))

/-! ## C16 -/

/-- **C16** Let `f` be the sharing polynomial, `S` a set of `|S| > deg f` cosigners in an agreed order,
`lc` their (correct) Lagrange coefficients.  If everybody is honest then – whatever the nonces, the
message, the hash, the challenge function, and the iteration order of the received maps – every cosigner
completes rounds 1, 2, 3 and all output the same `(R, z, c)`, and `(z, c)` verifies under the group key.
`hneg` is what the code relies on when it flips the nonces of a "negative" `R`: the challenge is the
same for `R` and `-R` (vacuous for Ed25519, where `IsNegative` is constantly false; true for the Mina
deriver, which hashes only the x-coordinate). -/
theorem C16_honest_signing (P : Params F G) (hg : P.g ≠ 0) (S : List Nat) (hS : S.Nodup) (hne : S ≠ [])
    (hinj : ∀ a ∈ S, ∀ b ∈ S, ((a : Nat) : F) = ((b : Nat) : F) → a = b)
    (f : F[X]) (hf : f.degree < S.length)
    (lc : Nat → List (Nat × F)) (hlc : ∀ i ∈ S, (lc i).Perm (S.map fun j =>
      (j, lagCoeff S.toFinset (fun k : Nat => (k : F)) j)))
    (dn en : Nat → F) (hnon : ∀ i ∈ S, dn i ≠ 0 ∧ en i ≠ 0) (msg : List UInt8) (hm : msg ≠ [])
    (hder : ∀ R, P.derive msg (f.eval 0 • P.g) R ≠ none)
    (hneg : ∀ R, P.isNeg R = true →
      P.derive msg (f.eval 0 • P.g) (-R) = P.derive msg (f.eval 0 • P.g) R) :
    ∃ (R : G) (z c : F) (zi : Nat → F), verify P (f.eval 0 • P.g) msg z c = true ∧
      ∀ i ∈ S, ∃ s0 s1 : Signer F G,
        newSigner (f.eval ((i : Nat) : F)) (f.eval ((i : Nat) : F) • P.g) (f.eval 0 • P.g) i S.length (lc i) S
          = some s0 ∧
        round1 P s0 (dn i) (en i) = (s1, .ok (dn i • P.g, en i • P.g)) ∧
        ∀ inp2 : List (Nat × G × G), inp2.Perm (S.map fun j => (j, dn j • P.g, en j • P.g)) →
          ∃ s2, round2 P s1 msg inp2 = (s2, .ok (zi i, f.eval ((i : Nat) : F) • P.g)) ∧
            ∀ inp3 : List (Nat × F × G), inp3.Perm (S.map fun j => (j, zi j, f.eval ((j : Nat) : F) • P.g)) →
              ∃ s3, round3 P s2 inp3 = (s3, .ok (R, z, c, msg)) := by
  set L : Nat → F := fun j => lagCoeff S.toFinset (fun k : Nat => (k : F)) j with hL
  set tl := tailOf P (fun j => (dn j • P.g, en j • P.g)) S with htl
  set r : Nat → F := fun j => P.hash (UInt8.ofNat j :: msg ++ tl) with hr
  set Rj : Nat → G := fun j => r j • en j • P.g + dn j • P.g with hRj
  set R : G := (S.map Rj).sum with hR
  obtain ⟨c, hc⟩ := Option.ne_none_iff_exists'.1 (hder R)
  set sg : F := if P.isNeg R then -1 else 1 with hsg
  set zi : Nat → F := fun i => L i * f.eval ((i : Nat) : F) * c + sg * en i * r i + sg * dn i with hzi
  set z : F := (S.map zi).sum with hz
  -- the interpolation identity
  have hint : (S.map fun j => L j * f.eval ((j : Nat) : F)).sum = f.eval 0 := by
    have h1 := sum_lagCoeff_eval S.toFinset (fun k : Nat => (k : F))
      (by intro a ha b hb hab; exact hinj a (List.mem_toFinset.1 ha) b (List.mem_toFinset.1 hb) hab) f
      (by rw [List.toFinset_card_of_nodup hS]; exact hf)
    rw [← h1, List.sum_toFinset _ hS]
  have hresp : ∀ j, zi j • P.g = (c * L j) • f.eval ((j : Nat) : F) • P.g
      + (if P.isNeg R then -(Rj j) else Rj j) := by
    intro j
    have : (if P.isNeg R then -(Rj j) else Rj j) = sg • Rj j := by
      simp only [hsg]; split <;> simp
    rw [this]
    simp only [hzi, hRj]
    module
  have hsums : ∀ T : List Nat, (T.map fun j => L j * f.eval ((j : Nat) : F) * c + sg * en j * r j + sg * dn j).sum
      • P.g = (c * (T.map fun j => L j * f.eval ((j : Nat) : F)).sum) • P.g + sg • (T.map Rj).sum := by
    intro T
    induction T with
    | nil => simp
    | cons a T ih =>
      simp only [List.map_cons, List.sum_cons]
      rw [add_smul, ih]
      simp only [hRj]
      module
  have hfin : z • P.g + (-c) • f.eval 0 • P.g = sg • R := by
    have := hsums S
    rw [hint] at this
    have hz' : z • P.g = (c * f.eval 0) • P.g + sg • R := this
    rw [hz']; module
  have hder' : P.derive msg (f.eval 0 • P.g) (z • P.g + (-c) • f.eval 0 • P.g) = some c := by
    rw [hfin]
    simp only [hsg]
    split
    · rename_i hn
      rw [neg_one_smul, hneg R hn, hc]
    · rw [one_smul, hc]
  refine ⟨R, z, c, zi, ?_, ?_⟩
  · unfold verify
    rw [if_neg hm, hder']
    simp
  intro i hi
  obtain ⟨-, hlcl, -, hlook⟩ := lookup_perm S hS L (lc i) (hlc i hi)
  refine ⟨{ skShare := f.eval ((i : Nat) : F), vkShare := f.eval ((i : Nat) : F) • P.g, vk := f.eval 0 • P.g, id := i, threshold := S.length, round := 1, lCoeffs := lc i, cosigners := S, smallD := none, smallE := none, commitments := none, msg := [], c := none, capRs := [], sumR := none },
    { skShare := f.eval ((i : Nat) : F), vkShare := f.eval ((i : Nat) : F) • P.g, vk := f.eval 0 • P.g, id := i, threshold := S.length, round := 2, lCoeffs := lc i, cosigners := S, smallD := some (dn i), smallE := some (en i), commitments := none, msg := [], c := none, capRs := [], sumR := none }, ?_, ?_, ?_⟩
  · unfold newSigner
    have h1 : lc i ≠ [] := by
      intro h0; rw [h0] at hlcl; exact hne (List.length_eq_zero_iff.1 hlcl.symm)
    have h2 : S.any (fun id => ((lc i).lookup id).isNone) = false := by
      rw [List.any_eq_false]
      intro j hj
      rw [hlook j hj]; simp
    rw [if_neg (by push Not; exact ⟨hne, h1⟩), if_neg (by simp), if_neg (by simpa using hlcl), h2]
    simp
  · unfold round1
    rw [if_neg (by simp)]
  intro inp2 hp2
  obtain ⟨hnd2, hlen2, hmem2, hlook2⟩ := lookup_perm S hS (fun j => (dn j • P.g, en j • P.g)) inp2 hp2
  have hnz : ∀ a : F, a ≠ 0 → a • P.g ≠ 0 := by
    intro a ha h0
    exact ha (smul_cancel_right hg (by rw [h0, zero_smul]))
  have hany : inp2.any (fun x => decide (x.2.1 = 0) || decide (x.2.2 = 0)) = false := by
    rw [List.any_eq_false]
    intro x hx
    obtain ⟨j, hj, rfl⟩ := List.mem_map.1 (hp2.mem_iff.1 hx)
    simp [hnz _ (hnon j hj).1, hnz _ (hnon j hj).2]
  have hRs : (inp2.map fun x => P.hash (UInt8.ofNat x.1 :: msg ++ tl) • x.2.2 + x.2.1).sum = R := by
    have h1 := (hp2.map fun x : Nat × G × G => P.hash (UInt8.ofNat x.1 :: msg ++ tl) • x.2.2 + x.2.1).sum_eq
    rw [h1, List.map_map]
    rfl
  let s2 : Signer F G := { skShare := f.eval ((i : Nat) : F), vkShare := f.eval ((i : Nat) : F) • P.g, vk := f.eval 0 • P.g, id := i, threshold := S.length, round := 3, lCoeffs := lc i, cosigners := S, smallD := some 0, smallE := some 0, commitments := some inp2, msg := msg, c := some c, capRs := inp2.map (fun x => (x.1, P.hash (UInt8.ofNat x.1 :: msg ++ tl) • x.2.2 + x.2.1)), sumR := some R }
  refine ⟨s2, ?_, ?_⟩
  · unfold round2
    simp only
    rw [if_neg (hnon i hi).1, if_neg (hnon i hi).2, if_neg hm, if_neg (by simp),
      if_neg (by simpa using hlen2), hany]
    simp only [Bool.false_eq_true, if_false]
    rw [commitLoop_ok P _ msg inp2 inp2 tl (blobTail_ok P inp2 _ S hlook2) _ hnd2]
    simp only [List.nil_append, zero_add]
    rw [hRs, if_pos ((hmem2 i).2 hi)]
    simp only [hc]
    rw [hlook i hi]
    simp only [s2]
    refine Prod.ext rfl ?_
    simp only [Res.ok.injEq, Prod.mk.injEq, and_true]
    simp only [hzi, hsg, hr]
    split <;> ring
  · intro inp3 hp3
    obtain ⟨hnd3, hlen3, hmem3, hlook3⟩ := lookup_perm S hS (fun j => (zi j, f.eval ((j : Nat) : F) • P.g)) inp3 hp3
    have hcap : ∀ j ∈ S, s2.capRs.lookup j = some (Rj j) := by
      intro j hj
      refine (lookup_perm S hS Rj s2.capRs ?_).2.2.2 j hj
      have h1 := hp2.map (fun x : Nat × G × G => (x.1, P.hash (UInt8.ofNat x.1 :: msg ++ tl) • x.2.2 + x.2.1))
      rw [List.map_map] at h1
      exact h1
    have hloop : respLoop P s2 c (P.isNeg R) inp3 0 = .ok z := by
      rw [respLoop_ok P s2 c (P.isNeg R) inp3 ?_ 0, zero_add]
      · have h1 := (hp3.map fun x : Nat × F × G => x.2.1).sum_eq
        rw [h1, List.map_map]
        rfl
      · intro x hx
        obtain ⟨j, hj, rfl⟩ := List.mem_map.1 (hp3.mem_iff.1 hx)
        exact ⟨L j, Rj j, hlook j hj, hcap j hj, hresp j⟩
    refine ⟨{ s2 with round := 4 }, ?_⟩
    unfold round3
    simp only [s2]
    rw [if_neg (by simp), if_neg hm, if_neg (by rw [hlen2, hlen3]; simp), if_neg (by simp),
      if_neg (by simpa using hlen3)]
    simp only [s2] at hloop
    rw [hloop]
    simp only [hder']
    simp

/-- **C16** (converse of the sign condition, finding) if a challenge function distinguishes `R` from
`-R`, a run in which the aggregated `R` counts as negative cannot succeed: the honest responses sum to a
`z` with `z·G − c·A = −R`, so round 3 fails whenever `derive(−R) ≠ derive(R)`. (With
`Ed25519ChallengeDeriver` on a curve whose points can be negative, such as k256.) -/
theorem C16_negative_R_fails (P : Params F G) (s : Signer F G) (inp : List (Nat × F × G)) (c : F) (R : G)
    (hc : s.c = some c) (hR : s.sumR = some R)
    (hz : (inp.map fun x => x.2.1).sum • P.g + (-c) • s.vk = -R)
    (hd : P.derive s.msg s.vk (-R) ≠ some c) : isOk (round3 P s inp).2 = false := by
  unfold round3
  cases s.smallD with
  | none => rfl
  | some d => cases s.smallE with
    | none => rfl
    | some e =>
      simp only
      split; · rfl
      split; · rfl
      cases s.commitments with
      | none => rfl
      | some cm =>
        simp only
        split; · rfl
        split; · rfl
        split; · rfl
        simp only [hc, hR]
        cases hl : respLoop P s c (P.isNeg R) inp 0 with
        | err => rfl
        | panic => rfl
        | ok z =>
          obtain ⟨hzz, -⟩ := respLoop_sound P s c _ inp 0 z hl
          rw [zero_add] at hzz
          simp only
          rw [hzz, hz]
          cases hdd : P.derive s.msg s.vk (-R) with
          | none => rfl
          | some c' =>
            simp only
            rw [if_pos (by intro h0; rw [h0] at hdd; exact hd hdd)]
            rfl

/-! ## C17 -/

theorem commitLoop_sound (P : Params F G) (s : Signer F G) (msg : List UInt8) (inp l : List (Nat × G × G))
    (Rs Rs' : List (Nat × G)) (R R' : G) (ri ri' : Option F)
    (h : commitLoop P s msg inp l (Rs, R, ri) = some (Rs', R', ri')) :
    ∃ r : Nat → F, Rs' = Rs ++ l.map (fun x => (x.1, r x.1 • x.2.2 + x.2.1)) ∧
      R' = R + (l.map fun x => r x.1 • x.2.2 + x.2.1).sum ∧
      (∀ x ∈ l, ∃ b, blob P x.1 msg inp s.cosigners = some b ∧ r x.1 = P.hash b) := by
  let r : Nat → F := fun j => ((blob P j msg inp s.cosigners).map P.hash).getD 0
  refine ⟨r, ?_⟩
  induction l generalizing Rs R ri with
  | nil => simp only [commitLoop, Option.some.injEq, Prod.mk.injEq] at h; simp [h.1, h.2.1]
  | cons x l ih =>
    obtain ⟨id, D, E⟩ := x
    unfold commitLoop at h
    cases hb : blob P id msg inp s.cosigners with
    | none => rw [hb] at h; cases h
    | some b =>
      rw [hb] at h
      obtain ⟨a1, a2, a3⟩ := ih _ _ _ h
      have hr : r id = P.hash b := by simp [r, hb]
      refine ⟨by rw [a1]; simp [hr], by rw [a2]; simp [hr, add_assoc], ?_⟩
      intro x hx
      rcases List.mem_cons.1 hx with rfl | hx
      · exact ⟨b, hb, hr⟩
      · exact a3 x hx

/-- **C17** (what success of round 2 means, for arbitrary commitments) exactly `threshold` commitments, none
of them the identity, a non-empty message; the stored `R_j` are `D_j + r_j·E_j` with `r_j` the hash of the
blob of *this* message and *these* commitments, `R` their sum and `c` the challenge of `R`; the nonces are
zeroised. -/
theorem C17_round2_sound_partial (P : Params F G) (s s' : Signer F G) (msg : List UInt8)
    (inp : List (Nat × G × G)) (z : F) (V : G) (h : round2 P s msg inp = (s', .ok (z, V))) :
    s.round = 2 ∧ s'.round = 3 ∧ msg ≠ [] ∧ inp.length = s.threshold ∧
    (∀ x ∈ inp, x.2.1 ≠ 0 ∧ x.2.2 ≠ 0) ∧ V = s.vkShare ∧ s'.msg = msg ∧ s'.commitments = some inp ∧
    s'.smallD = some 0 ∧ s'.smallE = some 0 ∧
    ∃ (r : Nat → F) (R : G) (c d e L : F), s.smallD = some d ∧ s.smallE = some e ∧ d ≠ 0 ∧ e ≠ 0 ∧
      (∀ x ∈ inp, ∃ b, blob P x.1 msg inp s.cosigners = some b ∧ r x.1 = P.hash b) ∧
      s'.capRs = inp.map (fun x => (x.1, r x.1 • x.2.2 + x.2.1)) ∧
      R = (inp.map fun x => r x.1 • x.2.2 + x.2.1).sum ∧ s'.sumR = some R ∧
      P.derive msg s.vk R = some c ∧ s'.c = some c ∧ s.lCoeffs.lookup s.id = some L := by
  unfold round2 at h
  cases hd : s.smallD with
  | none => rw [hd] at h; simp at h
  | some d => cases he : s.smallE with
    | none => rw [hd, he] at h; simp at h
    | some e =>
      rw [hd, he] at h
      simp only at h
      by_cases c1 : d = 0
      · simp [c1] at h
      by_cases c2 : e = 0
      · simp [c1, c2] at h
      by_cases c3 : msg = []
      · simp [c1, c2, c3] at h
      by_cases c4 : s.round = 2
      swap
      · simp [c1, c2, c3, c4] at h
      by_cases c5 : inp.length = s.threshold
      swap
      · simp [c1, c2, c3, c4, c5] at h
      by_cases c6 : (inp.any fun x => decide (x.2.1 = 0) || decide (x.2.2 = 0)) = true
      · rw [if_neg c1, if_neg c2, if_neg c3, if_neg (by simpa using c4), if_neg (by simpa using c5),
          if_pos c6] at h
        simp at h
      rw [if_neg c1, if_neg c2, if_neg c3, if_neg (by simpa using c4), if_neg (by simpa using c5),
        if_neg c6] at h
      cases hcl : commitLoop P { s with smallD := some d, smallE := some e, commitments := some inp } msg inp inp ([], 0, none) with
      | none => rw [hcl] at h; simp at h
      | some y =>
        obtain ⟨Rs, R, ri⟩ := y
        rw [hcl] at h
        simp only at h
        cases hc : P.derive msg s.vk R with
        | none => rw [hc] at h; simp at h
        | some c =>
          rw [hc] at h
          simp only at h
          cases hL : s.lCoeffs.lookup s.id with
          | none => rw [hL] at h; simp at h
          | some L =>
            rw [hL] at h
            simp only at h
            cases ri with
            | none => simp at h
            | some r0 =>
              simp only [Prod.mk.injEq, Res.ok.injEq] at h
              obtain ⟨rfl, rfl, rfl⟩ := h
              obtain ⟨r, a1, a2, a3⟩ := commitLoop_sound P _ msg inp inp _ _ _ _ _ _ hcl
              refine ⟨c4, rfl, c3, c5, ?_, rfl, rfl, rfl, rfl, rfl, r, R, c, d, e, L, rfl, rfl, c1, c2, a3,
                by simpa using a1, by simpa using a2, rfl, hc, rfl, rfl⟩
              intro x hx
              by_contra hcon
              apply c6
              rw [List.any_eq_true]
              refine ⟨x, hx, ?_⟩
              simp only [Bool.or_eq_true, decide_eq_true_eq]
              by_contra hno
              push Not at hno
              exact hcon hno

/-- **C17** (what success of round 3 means, for arbitrary responses) the output is the stored `R`, `c`
and message together with the sum of the responses; it verifies under the group key; every response
satisfies its equation for the verification share *sent along with it*. -/
theorem C17_round3_sound_partial (P : Params F G) (s s' : Signer F G) (inp : List (Nat × F × G))
    (R : G) (z c : F) (m : List UInt8) (h : round3 P s inp = (s', .ok (R, z, c, m))) :
    s.round = 3 ∧ s'.round = 4 ∧ s.c = some c ∧ s.sumR = some R ∧ s.msg = m ∧
    inp.length = s.threshold ∧ z = (inp.map fun x => x.2.1).sum ∧
    verify P s.vk m z c = true ∧
    ∀ x ∈ inp, ∃ L Rj, s.lCoeffs.lookup x.1 = some L ∧ s.capRs.lookup x.1 = some Rj ∧
      x.2.1 • P.g = (c * L) • x.2.2 + (if P.isNeg R then -Rj else Rj) := by
  unfold round3 at h
  cases hd : s.smallD with
  | none => simp [hd] at h
  | some d => cases he : s.smallE with
    | none => simp [hd, he] at h
    | some e =>
      simp only [hd, he] at h
      split at h; · simp at h
      split at h; · simp at h
      rename_i hz0 hmsg
      cases hcm : s.commitments with
      | none => simp [hcm] at h
      | some cm =>
        simp only [hcm] at h
        split at h; · simp at h
        split at h; · simp at h
        split at h; · simp at h
        rename_i h1 h2 h3
        cases hc : s.c with
        | none => simp [hc] at h
        | some c0 => cases hR : s.sumR with
          | none => simp [hc, hR] at h
          | some R0 =>
            simp only [hc, hR] at h
            cases hl : respLoop P s c0 (P.isNeg R0) inp 0 with
            | err => simp [hl] at h
            | panic => simp [hl] at h
            | ok z0 =>
              simp only [hl] at h
              cases hdd : P.derive s.msg s.vk (z0 • P.g + (-c0) • s.vk) with
              | none => rw [hdd] at h; simp at h
              | some c' =>
                rw [hdd] at h
                simp only at h
                split at h; · simp at h
                rename_i hcc
                simp only [Prod.mk.injEq, Res.ok.injEq] at h
                obtain ⟨rfl, rfl, rfl, rfl, rfl⟩ := h
                obtain ⟨a, b⟩ := respLoop_sound P s c0 _ inp 0 z0 hl
                refine ⟨by simpa using h2, rfl, rfl, rfl, rfl, by simpa using h3, by simpa using a, ?_, b⟩
                unfold verify
                rw [if_neg hmsg, hdd]
                simpa using hcc

/-- **C17** if cosigner `j` sends its genuine verification share `Y`, then its response is accepted only
if it is the unique scalar satisfying `z·G = c·L_j·Y ± R_j`: any other value makes round 3 fail. -/
theorem C17_bad_response_rejected_partial (P : Params F G) (hg : P.g ≠ 0) (s s' : Signer F G)
    (inp : List (Nat × F × G)) (out) (h : round3 P s inp = (s', .ok out)) (j : Nat) (zj : F) (Y : G)
    (hx : (j, zj, Y) ∈ inp) (zh c L : F) (R Rj : G) (hc : s.c = some c) (hR : s.sumR = some R)
    (hL : s.lCoeffs.lookup j = some L) (hRj : s.capRs.lookup j = some Rj)
    (hhonest : zh • P.g = (c * L) • Y + (if P.isNeg R then -Rj else Rj)) : zj = zh := by
  obtain ⟨R', z', c', m'⟩ := out
  obtain ⟨-, -, h1, h2, -, -, -, -, h3⟩ := C17_round3_sound_partial P s s' inp R' z' c' m' h
  rw [hc] at h1; rw [hR] at h2
  cases h1; cases h2
  obtain ⟨L', Rj', e1, e2, e3⟩ := h3 _ hx
  simp only at e1 e2 e3
  rw [hL] at e1; rw [hRj] at e2
  cases e1; cases e2
  exact smul_cancel_right hg (e3.trans hhonest.symm)

/-- **C17** even with false verification shares, responses whose *sum* deviates from the honest sum `zh`
are accepted only if the challenge function gives the same challenge for two different points – i.e. a
hash collision. -/
theorem C17_wrong_sum_needs_collision_partial (P : Params F G) (hg : P.g ≠ 0) (s s' : Signer F G)
    (inp : List (Nat × F × G)) (R : G) (z c : F) (m : List UInt8)
    (h : round3 P s inp = (s', .ok (R, z, c, m))) (zh : F)
    (hh : verify P s.vk m zh c = true) (hne : z ≠ zh) :
    ∃ R1 R2 : G, R1 ≠ R2 ∧ P.derive m s.vk R1 = some c ∧ P.derive m s.vk R2 = some c := by
  obtain ⟨-, -, -, -, -, -, -, hv, -⟩ := C17_round3_sound_partial P s s' inp R z c m h
  have key : ∀ w, verify P s.vk m w c = true → P.derive m s.vk (w • P.g + (-c) • s.vk) = some c := by
    intro w hw
    unfold verify at hw
    split at hw; · cases hw
    split at hw
    · cases hw
    · rename_i hd
      rw [hd]
      simpa using hw
  refine ⟨_, _, ?_, key z hv, key zh hh⟩
  intro he
  exact hne (smul_cancel_right hg (add_right_cancel he))

/-- **C17** (negation, finding) the verification share checked against is the one the cosigner itself
sends: from any accepted set of responses, two cosigners can shift their responses by `+δ` and `-δ`
(lying about their verification shares) and round 3 still succeeds with the same signature, so the
individual bad responses are not detected. -/
theorem C17_offsetting_accepted (P : Params F G) (s s' : Signer F G) (i j : Nat) (zi zj : F) (vi vj : G)
    (rest : List (Nat × F × G)) (R : G) (z c Li Lj : F) (m : List UInt8)
    (h : round3 P s ((i, zi, vi) :: (j, zj, vj) :: rest) = (s', .ok (R, z, c, m)))
    (hLi : s.lCoeffs.lookup i = some Li) (hLj : s.lCoeffs.lookup j = some Lj)
    (hc : c ≠ 0) (hi : Li ≠ 0) (hj : Lj ≠ 0) (δ : F) :
    round3 P s ((i, zi + δ, vi + (δ / (c * Li)) • P.g) :: (j, zj - δ, vj - (δ / (c * Lj)) • P.g) :: rest)
      = (s', .ok (R, z, c, m)) := by
  obtain ⟨-, -, h1, h2, -, -, -, -, h3⟩ := C17_round3_sound_partial P s s' _ R z c m h
  obtain ⟨L1, R1, a1, a2, a3⟩ := h3 (i, zi, vi) (by simp)
  obtain ⟨L2, R2, b1, b2, b3⟩ := h3 (j, zj, vj) (by simp)
  simp only at a1 a2 a3 b1 b2 b3
  rw [hLi] at a1; cases a1
  rw [hLj] at b1; cases b1
  have e1 : (c * Li) • (δ / (c * Li)) • P.g = δ • P.g := by
    rw [smul_smul, mul_div_cancel₀ _ (mul_ne_zero hc hi)]
  have e2 : (c * Lj) • (δ / (c * Lj)) • P.g = δ • P.g := by
    rw [smul_smul, mul_div_cancel₀ _ (mul_ne_zero hc hj)]
  have f1 : (zi + δ) • P.g = (c * Li) • (vi + (δ / (c * Li)) • P.g) + (if P.isNeg R then -R1 else R1) := by
    rw [smul_add, e1, add_smul, a3]; abel
  have f2 : (zj - δ) • P.g = (c * Lj) • (vj - (δ / (c * Lj)) • P.g) + (if P.isNeg R then -R2 else R2) := by
    rw [smul_sub, e2, sub_smul, b3]; abel
  have hsame : respLoop P s c (P.isNeg R)
      ((i, zi + δ, vi + (δ / (c * Li)) • P.g) :: (j, zj - δ, vj - (δ / (c * Lj)) • P.g) :: rest) 0
      = respLoop P s c (P.isNeg R) ((i, zi, vi) :: (j, zj, vj) :: rest) 0 := by
    simp only [respLoop, hLi, hLj, a2, b2]
    rw [if_neg (by simpa using f1), if_neg (by simpa using f2), if_neg (by simpa using a3),
      if_neg (by simpa using b3)]
    congr 1
    ring
  unfold round3 at h ⊢
  simp only [h1, h2] at h ⊢
  simp only [List.length_cons] at h ⊢
  rw [hsame]
  exact h

/-! ## C15 (FROST signer) -/

theorem step_ok (P : Params F G) (s : Signer F G) (c : Call F G) :
    (((stepCall P s c).2 = true → s.round = c.number ∧ (stepCall P s c).1.round = c.number + 1)) ∧
    ((stepCall P s c).2 = false → (stepCall P s c).1.round = s.round ∧
      (s.round ≠ c.number → (stepCall P s c).1 = s)) := by
  cases c with
  | round1 d e =>
    simp only [stepCall, Call.number]
    unfold round1
    split
    · simp [isOk]
    · rename_i h
      have : s.round = 1 := by simpa using h
      simp [isOk, this]
  | round2 m inp =>
    simp only [stepCall, Call.number]
    unfold round2
    cases s.smallD with
    | none => simp [isOk]
    | some d => cases s.smallE with
      | none => simp [isOk]
      | some e =>
        simp only
        split; · simp [isOk]
        split; · simp [isOk]
        split; · simp [isOk]
        split; · simp [isOk]
        rename_i hr
        have hr2 : s.round = 2 := by simpa using hr
        split; · simp [isOk]
        split; · simp [isOk]
        split
        · simp [isOk, hr2]
        · split
          · simp [isOk, hr2]
          · split
            · simp [isOk, hr2]
            · split
              · simp [isOk, hr2]
              · simp [isOk, hr2]
  | round3 inp =>
    simp only [stepCall, Call.number]
    rcases hR : round3 P s inp with ⟨s', r⟩
    cases r with
    | ok out =>
      obtain ⟨R, z, c, m⟩ := out
      obtain ⟨a, b, -⟩ := C17_round3_sound_partial P s s' inp R z c m hR
      simp [isOk, a, b]
    | err =>
      have : s' = s := by
        unfold round3 at hR
        split at hR
        · split at hR; · simp_all
          split at hR; · simp_all
          split at hR; · simp_all
          split at hR; · simp_all
          split at hR; · simp_all
          split at hR; · simp_all
          split at hR
          · split at hR
            · simp_all
            · simp_all
            · split at hR
              · simp_all
              · split at hR <;> simp_all
          · simp_all
        · simp_all
      simp [isOk, this]
    | panic =>
      have : s' = s := by
        unfold round3 at hR
        split at hR
        · split at hR; · simp_all
          split at hR; · simp_all
          split at hR; · simp_all
          split at hR; · simp_all
          split at hR; · simp_all
          split at hR; · simp_all
          split at hR
          · split at hR
            · simp_all
            · simp_all
            · split at hR
              · simp_all
              · split at hR <;> simp_all
          · simp_all
        · simp_all
      simp [isOk, this]

/-- **C15** (FROST signer) for every sequence of calls on a fresh signer the successful calls, in order,
are a prefix of round 1, 2, 3 – in particular at most one signature share is ever issued for the nonces,
which are zero afterwards – and a call for a round other than the current one leaves the object
unchanged. -/
theorem C15_frost_signer_rounds (P : Params F G) (sk : F) (vks vk : G) (id t : Nat)
    (lc : List (Nat × F)) (co : List Nat) (s : Signer F G) (h : newSigner sk vks vk id t lc co = some s)
    (cs : List (Call F G)) :
    ((runCalls P s cs).2.filter (·.2)).map Prod.fst <+: [1, 2, 3] ∧
    (∀ (s' : Signer F G) (c : Call F G), s'.round ≠ c.number → stepCall P s' c = (s', false)) ∧
    (∀ (s' s'' : Signer F G) (m : List UInt8) (inp : List (Nat × G × G)) (o),
      round2 P s' m inp = (s'', .ok o) → s''.smallD = some 0 ∧ s''.smallE = some 0) := by
  refine ⟨?_, ?_, ?_⟩
  · have hr1 : s.round = 1 := by
      unfold newSigner at h
      split at h; · cases h
      split at h; · cases h
      split at h; · cases h
      split at h; · cases h
      cases h; rfl
    have hnum : ∀ c : Call F G, 1 ≤ c.number ∧ c.number ≤ 3 := by
      intro c; cases c <;> simp [Call.number]
    have key : ∀ (cs : List (Call F G)) (s' : Signer F G), 1 ≤ s'.round → s'.round ≤ 4 →
        ∃ k, s'.round + k ≤ 4 ∧ ((runCalls P s' cs).2.filter (·.2)).map Prod.fst
          = (List.range k).map (· + s'.round) := by
      intro cs
      induction cs with
      | nil => intro s' h1 h2; exact ⟨0, by omega, by simp [runCalls]⟩
      | cons c cs ih =>
        intro s' h1 h2
        simp only [runCalls]
        obtain ⟨hok, hko⟩ := step_ok P s' c
        cases hb : (stepCall P s' c).2 with
        | false =>
          obtain ⟨hrd, -⟩ := hko hb
          obtain ⟨k, e1, e2⟩ := ih (stepCall P s' c).1 (by omega) (by omega)
          refine ⟨k, by omega, ?_⟩
          simp only [List.filter_cons, Bool.false_eq_true, if_false]
          rw [e2, hrd]
        | true =>
          obtain ⟨f1, f2⟩ := hok hb
          have := hnum c
          obtain ⟨k, e1, e2⟩ := ih (stepCall P s' c).1 (by omega) (by omega)
          refine ⟨k + 1, by omega, ?_⟩
          simp only [List.filter_cons, if_true, List.map_cons]
          rw [e2, f2, List.range_succ_eq_map, List.map_cons, List.map_map, f1]
          congr 1
          · omega
          · refine List.map_congr_left fun a _ => ?_
            simp only [Function.comp]; omega
    obtain ⟨k, e1, e2⟩ := key cs s (by omega) (by omega)
    rw [e2, hr1]
    rw [hr1] at e1
    rcases (by omega : k = 0 ∨ k = 1 ∨ k = 2 ∨ k = 3) with rfl | rfl | rfl | rfl <;> decide
  · intro s' c hne
    obtain ⟨hok, hko⟩ := step_ok P s' c
    cases hb : (stepCall P s' c).2 with
    | true => exact absurd (hok hb).1 hne
    | false => exact Prod.ext ((hko hb).2 hne) hb
  · intro s' s'' m inp o ho
    unfold round2 at ho
    split at ho
    · split at ho; · simp at ho
      split at ho; · simp at ho
      split at ho; · simp at ho
      split at ho; · simp at ho
      split at ho; · simp at ho
      split at ho; · simp at ho
      simp only at ho
      split at ho; · simp at ho
      split at ho; · simp at ho
      split at ho; · simp at ho
      split at ho; · simp at ho
      simp only [Prod.mk.injEq] at ho
      obtain ⟨rfl, -⟩ := ho
      exact ⟨rfl, rfl⟩
    · simp at ho

/-- **C15** (finding) calling round 3 on a fresh signer does not return an error: it panics. -/
theorem C15_frost_signer_round3_panics (P : Params F G) (sk : F) (vks vk : G) (id t : Nat)
    (lc : List (Nat × F)) (co : List Nat) (s : Signer F G) (h : newSigner sk vks vk id t lc co = some s)
    (inp : List (Nat × F × G)) : round3 P s inp = (s, .panic) := by
  unfold newSigner at h
  split at h; · cases h
  split at h; · cases h
  split at h; · cases h
  split at h; · cases h
  cases h
  rfl

/-! ## Non-vacuity: a 2-of-3 signing over `ZMod 257` -/

local instance fact257 : Fact (Nat.Prime 257) := ⟨by norm_num⟩

def toyParams : Params (ZMod 257) (ZMod 257) :=
  ⟨5, Verif.Schnorr.pc257, fun l => ((l.foldl (fun a b => a * 3 + b.toNat) 1 : Nat) : ZMod 257),
    fun m vk R => some (((m.foldl (fun a b => a * 3 + b.toNat) 1 : Nat) : ZMod 257) + vk * 7 + R * R * 3),
    fun R => decide (R.val % 2 = 1)⟩

/-- Lagrange coefficients at 0 of the cosigners 1 and 3 -/
def toyLc : List (Nat × ZMod 257) := [(3, 1 / (1 - 3)), (1, 3 / (3 - 1))]

/-- two cosigners, key polynomial `11 + 4·x`: both rounds and the final signature -/
def toyRun (d1 e1 d3 e3 δ : ZMod 257) : Option (ZMod 257 × ZMod 257 × Bool × Bool) := do
  let a ← newSigner (15 : ZMod 257) (15 * 5 : ZMod 257) (11 * 5) 1 2 toyLc [1, 3]
  let b ← newSigner (23 : ZMod 257) (23 * 5 : ZMod 257) (11 * 5) 3 2 toyLc [1, 3]
  match round1 toyParams a d1 e1, round1 toyParams b d3 e3 with
  | (a1, .ok ca), (b1, .ok cb) =>
    match round2 toyParams a1 [9, 9] [(1, ca), (3, cb)], round2 toyParams b1 [9, 9] [(3, cb), (1, ca)] with
    | (a2, .ok za), (b2, .ok zb) =>
      match round3 toyParams a2 [(1, za), (3, zb.1 + δ, zb.2)], round3 toyParams b2 [(3, zb), (1, za)] with
      | (_, .ok (_, z, c, m)), (_, .ok (_, z', c', _)) =>
        some (z, c, verify toyParams (11 * 5) m z c, decide (z = z' ∧ c = c'))
      | _, _ => none
    | _, _ => none
  | _, _ => none

example : ((toyRun 2 3 7 8 0).map fun x => (x.2.2.1, x.2.2.2)) = some (true, true) ∧
    ((toyRun 4 3 7 9 0).map fun x => (x.2.2.1, x.2.2.2)) = some (true, true) ∧
    toyRun 2 3 7 8 1 = none := by decide +kernel

/-- the hypothesis `hneg` holds for the toy challenge, and negative `R` do occur -/
example : (∀ m vk R, toyParams.derive m vk (-R) = toyParams.derive m vk R) ∧
    toyParams.isNeg 3 = true := by
  refine ⟨fun m vk R => ?_, by decide +kernel⟩
  simp [toyParams]

end Verif.FrostSign
