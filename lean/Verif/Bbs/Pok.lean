import Verif.Bbs.Blind

/-! C79: proofs of knowledge of a signature with selective disclosure. -/

set_option linter.unusedSectionVars false

namespace Verif.Bbs

open Verif
open Verif.OT (Ev Transcript idx)
open Verif.Bulletproof (msm)

variable {F G1 G2 GT : Type} [Field F] [DecidableEq F] [AddCommGroup G1] [Module F G1] [DecidableEq G1]
  [AddCommGroup G2] [Module F G2] [DecidableEq G2] [CommGroup GT] [DecidableEq GT]

/-! ### specification -/

/-- the message indices below `n` that are not revealed, in ascending order -/
def hiddenIdx (n : Nat) (revealed : List (Int × F)) : List Nat := unknown n (revealed.map Prod.fst)

/-- the first commitment a verifier recomputes: `c·(Ā − D) + p₀·A' + p₁·h₀` -/
def T1 (h0 : G1) (p : PokProof F G1) (c : F) : G1 :=
  c • (p.aBar - p.d) + p.proof1.1 • p.aPrime + p.proof1.2 • h0

/-- the statement's public part: `R = g₁ + Σ mᵢ·hᵢ` over the revealed messages -/
def revealedPoint (g1 : G1) (H : Int → G1) (revealed : List (Int × F)) : G1 :=
  g1 + (revealed.map fun q => q.2 • H (q.1 + 1)).sum

/-- the second commitment: `c·R − q₀·D + q₁·h₀ + Σ qⱼ·hⱼ` over the hidden messages -/
def T2 (g1 : G1) (H : Int → G1) (n : Nat) (revealed : List (Int × F)) (p : PokProof F G1) (c : F) : G1 :=
  c • revealedPoint g1 H revealed - (p.proof2.getD 0 0) • p.d + (p.proof2.getD 1 0) • H 0 +
    msm ((hiddenIdx n revealed).map fun (i : Nat) => H ((i : Int) + 1)) (p.proof2.drop 2)

/-- the messages the verifier's transcript receives, in order -/
def pokTranscript (V : Env F G1 G2) (t : Transcript) (aPrime aBar d t1 t2 : G1) (nonce : F) : Transcript :=
  t ++ [.append "A'" (V.cmp1 aPrime), .append "Abar" (V.cmp1 aBar), .append "D" (V.cmp1 d),
    .append "Proof1" (V.cmp1 t1), .append "Proof2" (V.cmp1 t2), .append "nonce" (V.bytes nonce)]

/-! ### lemmas -/

theorem idx_lt {α : Type} {l : List α} {i : Nat} (h : i < l.length) : idx l i = .ok l[i] := by
  unfold idx
  rw [List.getElem?_eq_getElem h]

theorem idx_ge {α : Type} {l : List α} {i : Nat} (h : l.length ≤ i) : idx l i = .panic := by
  unfold idx
  rw [List.getElem?_eq_none h]

theorem hiddenLoop_eq (V : Env F G1 G2) (g : Generators G1) (revealed : List (Int × F)) (proof2 : List F)
    (is : List Nat) (j : Nat) (hj : j ≤ proof2.length) :
    hiddenLoop V g revealed proof2 is j =
      if j + (is.filter fun (i : Nat) => !(revealed.map Prod.fst).contains (i : Int)).length ≤ proof2.length then
        .ok ((is.filter fun (i : Nat) => !(revealed.map Prod.fst).contains (i : Int)).map
            (fun (i : Nat) => g.get V (i + 1)),
          (proof2.drop j).take (is.filter fun (i : Nat) => !(revealed.map Prod.fst).contains (i : Int)).length)
      else .panic := by
  induction is generalizing j with
  | nil => simp [hiddenLoop, hj]
  | cons i is ih =>
    rw [hiddenLoop]
    by_cases hc : (revealed.map Prod.fst).contains (i : Int) = true
    · rw [if_pos hc, List.filter_cons_of_neg (by simpa using hc)]
      exact ih j hj
    · rw [if_neg hc, List.filter_cons_of_pos (by simpa using hc)]
      simp only [List.length_cons, List.map_cons]
      by_cases hlt : j < proof2.length
      · rw [idx_lt hlt, Res.bind_ok, ih (j + 1) (by omega)]
        split
        · rename_i h1
          rw [if_pos (by omega), Res.bind_ok]
          simp only []
          rw [List.drop_eq_getElem_cons hlt, List.take_succ_cons]
        · rename_i h1
          rw [if_neg (by omega)]
          rfl
      · rw [idx_ge (by omega), if_neg (by omega)]
        rfl

theorem getD_get {l : List F} {i : Nat} (h : i < l.length) : l.getD i 0 = l[i] := by
  rw [List.getD_eq_getElem?_getD, List.getElem?_eq_getElem h]
  rfl

theorem h0_eq {V : Env F G1 G2} {g : Generators G1} {H : Int → G1}
    (hH : ∀ i : Int, i ≤ g.length → g.get V i = some (H i)) : g.h0 = H 0 := by
  have := hH 0 (by omega)
  unfold Generators.get at this
  rw [if_pos le_rfl] at this
  injection this

theorem revealed_sop {V : Env F G1 G2} {g : Generators G1} {H : Int → G1}
    (hH : ∀ i : Int, i ≤ g.length → g.get V i = some (H i)) (P : G1) {revealed : List (Int × F)}
    (hr : ∀ q ∈ revealed, q.1 < g.length) :
    sop (some P :: revealed.map fun q => g.get V (q.1 + 1)) (1 :: revealed.map Prod.snd) =
      some (revealedPoint P H revealed) := by
  have e : (some P :: revealed.map fun q => g.get V (q.1 + 1)) =
      (P :: revealed.map fun q => H (q.1 + 1)).map some := by
    rw [List.map_cons, List.map_map]
    congr 1
    apply List.map_congr_left
    intro q hq
    have := hr q hq
    rw [hH _ (by omega)]
    rfl
  rw [e, sop_some (by simp), Bulletproof.msm_cons, one_smul]
  unfold revealedPoint msm
  congr 3
  induction revealed with
  | nil => rfl
  | cons q l ih =>
    simp only [List.map_cons, List.zipWith_cons_cons]
    rw [ih (fun q hq => hr q (by simp [hq]))]
    simp only [List.map_cons] at e
    injection e with _ e
    injection e with _ e
    rw [e]
    rfl

theorem hidden_points {V : Env F G1 G2} {g : Generators G1} {H : Int → G1}
    (hH : ∀ i : Int, i ≤ g.length → g.get V i = some (H i)) (revealed : List (Int × F)) :
    ((List.range g.length).filter fun (i : Nat) => !(revealed.map Prod.fst).contains (i : Int)).map
      (fun (i : Nat) => g.get V (i + 1)) =
    ((hiddenIdx g.length revealed).map fun (i : Nat) => H ((i : Int) + 1)).map some := by
  rw [List.map_map]
  unfold hiddenIdx unknown
  apply List.map_congr_left
  intro i hi
  rw [List.mem_filter, List.mem_range] at hi
  rw [hH _ (by omega)]
  rfl

theorem msm_take (ps : List G1) (a : List F) : msm ps (a.take ps.length) = msm ps a := by
  induction ps generalizing a with
  | nil => simp
  | cons p ps ih =>
    cases a with
    | nil => simp
    | cons x a =>
      rw [List.length_cons, List.take_succ_cons, Bulletproof.msm_cons, Bulletproof.msm_cons, ih]

/-- the outcome of the proof's `GetChallengeContribution` -/
theorem contribution_eq {V : Env F G1 G2} (E : Pairing F G1 G2 GT) {g : Generators G1} {H : Int → G1}
    (hH : ∀ i : Int, i ≤ g.length → g.get V i = some (H i)) (hN : ∀ i : Int, (g.length : Int) < i → g.get V i = none)
    (p : PokProof F G1) (revealed : List (Int × F)) (c : F) (t : Transcript) :
    p.contribution V E g revealed c t =
      if (∀ q ∈ revealed, q.1 < g.length) ∧ revealed.length ≤ g.length ∧
          2 + (hiddenIdx g.length revealed).length ≤ p.proof2.length then
        .ok (t ++ [.append "A'" (V.cmp1 p.aPrime), .append "Abar" (V.cmp1 p.aBar), .append "D" (V.cmp1 p.d),
          .append "Proof1" (V.cmp1 (T1 (H 0) p c)),
          .append "Proof2" (V.cmp1 (T2 E.g1 H g.length revealed p c))])
      else .panic := by
  have e1 : sop [some (p.aBar - p.d), some p.aPrime, some g.h0] [c, p.proof1.1, p.proof1.2] =
      some (T1 (H 0) p c) := by
    have := sop_some (ps := [p.aBar - p.d, p.aPrime, g.h0]) (a := [c, p.proof1.1, p.proof1.2]) rfl
    simp only [List.map_cons, List.map_nil] at this
    rw [this]
    unfold T1
    simp only [Bulletproof.msm_cons, Bulletproof.msm_nil, add_zero]
    rw [h0_eq hH, add_assoc]
  unfold PokProof.contribution
  simp only []
  rw [e1]
  simp only [deref, Res.bind_ok]
  by_cases h2 : revealed.length ≤ g.length
  swap
  · rw [if_pos (by omega), if_neg (fun h => h2 h.2.1)]
  rw [if_neg (by omega)]
  have hf : ((List.range g.length).filter fun (i : Nat) => !(revealed.map Prod.fst).contains (i : Int)) =
      hiddenIdx g.length revealed := rfl
  by_cases h3 : 2 + (hiddenIdx g.length revealed).length ≤ p.proof2.length
  swap
  · rw [if_neg (fun h => h3 h.2.2)]
    by_cases hl0 : 0 < p.proof2.length
    · rw [idx_lt hl0, Res.bind_ok]
      by_cases hl1 : 1 < p.proof2.length
      · rw [idx_lt hl1, Res.bind_ok, hiddenLoop_eq _ _ _ _ _ _ (by omega), if_neg (by rw [hf]; exact h3)]
        rfl
      · rw [idx_ge (by omega)]
        rfl
    · rw [idx_ge (by omega)]
      rfl
  rw [idx_lt (by omega : 0 < p.proof2.length), Res.bind_ok, idx_lt (by omega : 1 < p.proof2.length), Res.bind_ok,
    hiddenLoop_eq _ _ _ _ _ _ (by omega), if_pos (by rw [hf]; exact h3), Res.bind_ok]
  simp only []
  by_cases h1 : ∀ q ∈ revealed, q.1 < g.length
  swap
  · rw [if_neg (fun h => h1 h.1)]
    have : sop (some E.g1 :: revealed.map fun q => g.get V (q.1 + 1)) (1 :: revealed.map Prod.snd) = none := by
      apply sop_nil_point
      push Not at h1
      obtain ⟨q, hq, hlt⟩ := h1
      apply List.mem_cons_of_mem
      rw [List.mem_map]
      exact ⟨q, hq, hN _ (by omega)⟩
    rw [this]
    rfl
  rw [if_pos ⟨h1, h2, h3⟩, revealed_sop hH _ h1, hidden_points hH]
  simp only [Res.bind_ok]
  have e2 : (some (revealedPoint E.g1 H revealed) :: some (-p.d) :: some g.h0 ::
      ((hiddenIdx g.length revealed).map fun (i : Nat) => H ((i : Int) + 1)).map some) =
      (revealedPoint E.g1 H revealed :: (-p.d) :: g.h0 ::
        (hiddenIdx g.length revealed).map fun (i : Nat) => H ((i : Int) + 1)).map some := rfl
  have e3 : sop ((revealedPoint E.g1 H revealed :: (-p.d) :: g.h0 ::
      (hiddenIdx g.length revealed).map fun (i : Nat) => H ((i : Int) + 1)).map some)
      (c :: p.proof2[0] :: p.proof2[1] :: (p.proof2.drop 2).take (hiddenIdx g.length revealed).length) =
      some (T2 E.g1 H g.length revealed p c) := by
    rw [sop_some (by simp; omega), Bulletproof.msm_cons, Bulletproof.msm_cons, Bulletproof.msm_cons]
    have := msm_take ((hiddenIdx g.length revealed).map fun (i : Nat) => H ((i : Int) + 1)) (p.proof2.drop 2)
    rw [List.length_map] at this
    rw [this]
    unfold T2
    rw [getD_get (by omega : 0 < p.proof2.length), getD_get (by omega : 1 < p.proof2.length), h0_eq hH, smul_neg]
    congr 1
    abel
  rw [e2]
  erw [e3]
  simp only [Res.bind_ok]
  rw [List.append_assoc, List.append_assoc]
  rfl

/-- the outcome of `Verify` of a proof -/
theorem pokVerify_eq {V : Env F G1 G2} (E : Pairing F G1 G2 GT) {g : Generators G1} {H : Int → G1}
    (hH : ∀ i : Int, i ≤ g.length → g.get V i = some (H i)) (hN : ∀ i : Int, (g.length : Int) < i → g.get V i = none)
    (p : PokProof F G1) (revealed : List (Int × F)) (pk : G2) (nonce c : F) (t : Transcript) :
    p.verify V E revealed pk g nonce c t =
      if (∀ q ∈ revealed, q.1 < g.length) ∧ revealed.length ≤ g.length ∧
          2 + (hiddenIdx g.length revealed).length ≤ p.proof2.length then
        .ok (p.verifySigPok E pk && decide (c = V.chal (pokTranscript V t p.aPrime p.aBar p.d (T1 (H 0) p c)
          (T2 E.g1 H g.length revealed p c) nonce) "signature proof of knowledge"))
      else .panic := by
  unfold PokProof.verify
  rw [contribution_eq E hH hN]
  split
  · rw [Res.bind_ok]
    simp only []
    rw [List.append_assoc]
    rfl
  · rfl

theorem sigPok_iff (E : Pairing F G1 G2 GT) (p : PokProof F G1) (pk : G2) :
    p.verifySigPok E pk = true ↔ pk ≠ 0 ∧ p.aPrime ≠ 0 ∧ p.aBar ≠ 0 ∧ E.e p.aPrime pk = E.e p.aBar E.g2 := by
  unfold PokProof.verifySigPok
  simp only [Bool.and_eq_true, Bool.not_eq_true', decide_eq_false_iff_not, decide_eq_true_eq]
  rw [E.neg_right, mul_inv_eq_one]
  tauto

/-! ### C79 -/

/-- **C79** The exact outcome of `Verify` of a proof of knowledge, for generators `h₀ … h_length` (`Get`
returns nil above).  It panics exactly when a revealed index is not below the number of generators, when more
messages are revealed than there are generators, or when the proof carries fewer responses than two plus the
number of hidden messages.  Otherwise it accepts exactly when neither the key nor `A'` nor `Ā` is the identity,
`e(A', w) = e(Ā, g₂)`, and the challenge is the transcript's hash of `A', Ā, D`, the recomputed commitments
`T₁ = c·(Ā − D) + p₀·A' + p₁·h₀` and `T₂ = c·(g₁ + Σ mᵢ·hᵢ) − q₀·D + q₁·h₀ + Σ qⱼ·hⱼ`, and the nonce. -/
theorem C79_verify_exact {V : Env F G1 G2} (E : Pairing F G1 G2 GT) {g : Generators G1} {H : Int → G1}
    (hH : ∀ i : Int, i ≤ g.length → g.get V i = some (H i)) (hN : ∀ i : Int, (g.length : Int) < i → g.get V i = none)
    (p : PokProof F G1) (revealed : List (Int × F)) (pk : G2) (nonce c : F) (t : Transcript) :
    (p.verify V E revealed pk g nonce c t = .panic ↔
      ¬ ((∀ q ∈ revealed, q.1 < g.length) ∧ revealed.length ≤ g.length ∧
          2 + (hiddenIdx g.length revealed).length ≤ p.proof2.length)) ∧
    (p.verify V E revealed pk g nonce c t = .ok true ↔
      (∀ q ∈ revealed, q.1 < g.length) ∧ revealed.length ≤ g.length ∧
      2 + (hiddenIdx g.length revealed).length ≤ p.proof2.length ∧
      pk ≠ 0 ∧ p.aPrime ≠ 0 ∧ p.aBar ≠ 0 ∧ E.e p.aPrime pk = E.e p.aBar E.g2 ∧
      c = V.chal (t ++ [.append "A'" (V.cmp1 p.aPrime), .append "Abar" (V.cmp1 p.aBar), .append "D" (V.cmp1 p.d),
        .append "Proof1" (V.cmp1 (T1 (H 0) p c)),
        .append "Proof2" (V.cmp1 (T2 E.g1 H g.length revealed p c)),
        .append "nonce" (V.bytes nonce)]) "signature proof of knowledge") := by
  rw [pokVerify_eq E hH hN]
  split
  · rename_i h
    constructor
    · exact ⟨nofun, fun h' => absurd h h'⟩
    · rw [Res.ok.injEq, Bool.and_eq_true, sigPok_iff, decide_eq_true_eq]
      unfold pokTranscript
      tauto
  · rename_i h
    constructor
    · exact ⟨fun _ => h, fun _ => rfl⟩
    · constructor
      · exact nofun
      · rintro ⟨h1, h2, h3, _⟩
        exact absurd ⟨h1, h2, h3⟩ h

theorem init_gens {V : Env F G1 G2} {w : G2} {n : Int} {g : Generators G1} (h : Generators.init V w n = .ok g) :
    (∀ i : Int, i ≤ g.length → g.get V i = some ((fun _ => g.h0) i)) ∧
    (∀ i : Int, (g.length : Int) < i → g.get V i = none) := by
  have hl := (init_ok h).2.1
  refine ⟨fun i hi => ?_, fun i hi => ?_⟩
  · rw [get_eq h, if_pos (by omega)]
  · rw [get_eq h, if_neg (by omega)]

theorem getD_app {l : List F} {i : Nat} (m : List F) (h : i < l.length) : (l ++ m).getD i 0 = l.getD i 0 := by
  rw [List.getD_eq_getElem?_getD, List.getD_eq_getElem?_getD, List.getElem?_append_left h]

/-- **C79 (malleability)** Responses beyond the ones used are ignored: appending any scalars to an accepted
proof gives another accepted proof. -/
theorem C79_extra_responses {V : Env F G1 G2} (E : Pairing F G1 G2 GT) {w : G2} {n : Int} {g : Generators G1}
    (h : Generators.init V w n = .ok g) (p : PokProof F G1) (extra : List F) (revealed : List (Int × F)) (pk : G2)
    (nonce c : F) (t : Transcript) (hv : p.verify V E revealed pk g nonce c t = .ok true) :
    ({ p with proof2 := p.proof2 ++ extra } : PokProof F G1).verify V E revealed pk g nonce c t = .ok true := by
  obtain ⟨hH, hN⟩ := init_gens h
  rw [(C79_verify_exact E hH hN _ _ _ _ _ _).2] at hv ⊢
  obtain ⟨h1, h2, h3, h4, h5, h6, h7, h8⟩ := hv
  refine ⟨h1, h2, ?_, h4, h5, h6, h7, ?_⟩
  · show _ ≤ (p.proof2 ++ extra).length
    rw [List.length_append]
    omega
  · have : T2 E.g1 (fun _ => g.h0) g.length revealed { p with proof2 := p.proof2 ++ extra } c =
        T2 E.g1 (fun _ => g.h0) g.length revealed p c := by
      unfold T2
      simp only []
      rw [List.drop_append_of_le_length (by omega), getD_app _ (by omega), getD_app _ (by omega), ← msm_take _ (List.drop 2 p.proof2 ++ extra),
        ← msm_take _ (List.drop 2 p.proof2)]
      rw [List.take_append_of_le_length (by simp; omega)]
    rw [this]
    exact h8

/-! ### completeness -/

/-- the hidden messages, and the indices of the hidden messages, from index `i` on -/
def hidMsgs (ms : List (ProofMessage F)) : List F := (ms.filter ProofMessage.isHidden).map ProofMessage.message

theorem pokLoop_inv {V : Env F G1 G2} {w : G2} {n : Int} {g : Generators G1} (h : Generators.init V w n = .ok g)
    {ms : List (ProofMessage F)} {i : Nat} {b b' : Builder F G1} {secs secs' r : List F}
    (hi : i + ms.length ≤ g.length) (hp : pokLoop V g ms i b secs r = .ok (b', secs')) :
    ∃ rs, rs.length = (hidMsgs ms).length ∧
      b' = ⟨b.points ++ (List.replicate (hidMsgs ms).length g.h0).map some, b.scalars ++ rs⟩ ∧
      secs' = secs ++ hidMsgs ms := by
  have hl := (init_ok h).2.1
  induction ms generalizing i b secs r with
  | nil =>
    rw [pokLoop] at hp
    injection hp with hp
    simp only [Prod.mk.injEq] at hp
    obtain ⟨rfl, rfl⟩ := hp
    exact ⟨[], rfl, by simp [hidMsgs], by simp [hidMsgs]⟩
  | cons m ms ih =>
    rw [List.length_cons] at hi
    rw [pokLoop] at hp
    split at hp
    · rename_i hm
      rw [Res.bind_eq_ok] at hp
      obtain ⟨⟨bl, r1⟩, h1, hp⟩ := hp
      simp only [] at hp
      rw [Res.bind_eq_ok] at hp
      obtain ⟨b1, h2, hp⟩ := hp
      unfold Builder.commit at h2
      split at h2
      · exact nomatch h2
      rw [get_eq h, if_pos (by omega)] at h2
      injection h2 with h2
      subst h2
      obtain ⟨rs, h3, h4, h5⟩ := ih (by omega) hp
      have e : hidMsgs (m :: ms) = m.message :: hidMsgs ms := by
        unfold hidMsgs
        rw [List.filter_cons_of_pos hm]
        rfl
      refine ⟨bl :: rs, by rw [e]; simp [h3], ?_, ?_⟩
      · rw [h4, e, List.length_cons, List.replicate_succ]
        simp
      · rw [h5, e]
        simp
    · rename_i hm
      have e : hidMsgs (m :: ms) = hidMsgs ms := by
        unfold hidMsgs
        rw [List.filter_cons_of_neg hm]
      rw [e]
      exact ih (by omega) hp

/-- what a successful `NewPokSignature` has computed -/
theorem newPok_inv {V : Env F G1 G2} (E : Pairing F G1 G2 GT) {w : G2} {n : Int} {g : Generators G1}
    (h : Generators.init V w n = .ok g) {sig : Signature F G1} {ms : List (ProofMessage F)} {r : List F}
    {pok : Pok F G1} (hp : newPok V E sig g ms r = .ok pok) :
    (ms.length : Int) = n ∧ 1 ≤ ms.length ∧ ∃ r1 r2 a b a2 b2 : F, ∃ rs : List F, ∃ B : G1, r1 ≠ 0 ∧
      B = E.g1 + (sig.s + (ms.map ProofMessage.message).sum) • g.h0 ∧ rs.length = (hidMsgs ms).length ∧
      pok = { aPrime := r1 • sig.a, aBar := r1 • B - sig.e • r1 • sig.a, d := r1 • B + r2 • g.h0,
              proof1 := ⟨[some (r1 • sig.a), some g.h0], [a, b]⟩,
              proof2 := ⟨some (-(r1 • B + r2 • g.h0)) :: some g.h0 ::
                  (List.replicate (hidMsgs ms).length g.h0).map some, a2 :: b2 :: rs⟩,
              secrets1 := [sig.e, r2],
              secrets2 := r1⁻¹ :: (sig.s + r2 * r1⁻¹) :: hidMsgs ms } := by
  have hl := (init_ok h).2.1
  unfold newPok at hp
  split at hp
  · exact nomatch hp
  rename_i hlen
  rw [Res.bind_eq_ok] at hp
  obtain ⟨⟨r1, q1⟩, hr1, hp⟩ := hp
  simp only [] at hp
  rw [Res.bind_eq_ok] at hp
  obtain ⟨⟨r2, q2⟩, hr2, hp⟩ := hp
  simp only [] at hp
  have hr1' := getNonZero_ok hr1
  unfold invert at hp
  rw [if_neg hr1', Res.bind_ok] at hp
  by_cases hms : 1 ≤ ms.length
  swap
  · have : ms = [] := List.length_eq_zero_iff.mp (by omega)
    subst this
    exact nomatch hp
  rw [computeB_init E h _ (by simpa using hms) (by simp; omega), Res.bind_ok] at hp
  generalize hB : E.g1 + (sig.s + (ms.map ProofMessage.message).sum) • g.h0 = B at hp
  have ed : sop [some B, some g.h0] [r1, r2] = some (r1 • B + r2 • g.h0) := by
    have := sop_some (ps := [B, g.h0]) (a := [r1, r2]) rfl
    simp only [List.map_cons, List.map_nil] at this
    rw [this]
    simp
  rw [ed] at hp
  simp only [deref, Res.bind_ok] at hp
  rcases q2 with _ | ⟨a, q2⟩
  · exact nomatch hp
  rw [commitRandom_ok (by simp [Builder.new]), Res.bind_ok] at hp
  simp only [] at hp
  rcases q2 with _ | ⟨b, q2⟩
  · exact nomatch hp
  rw [commitRandom_ok (by simp [Builder.new]), Res.bind_ok] at hp
  simp only [] at hp
  rcases q2 with _ | ⟨a2, q2⟩
  · exact nomatch hp
  rw [commitRandom_ok (by simp [Builder.new]), Res.bind_ok] at hp
  simp only [] at hp
  rcases q2 with _ | ⟨b2, q2⟩
  · exact nomatch hp
  rw [commitRandom_ok (by simp [Builder.new]), Res.bind_ok] at hp
  simp only [] at hp
  rw [Res.bind_eq_ok] at hp
  obtain ⟨⟨p2, secs⟩, hloop, hp⟩ := hp
  obtain ⟨rs, h1, h2, h3⟩ := pokLoop_inv h (by omega) hloop
  injection hp with hp
  refine ⟨by omega, hms, r1, r2, a, b, a2, b2, rs, _, hr1', rfl, h1, ?_⟩
  rw [← hp, h2, h3]
  simp [Builder.new]

theorem hiddenIdx_length (ms : List (ProofMessage F)) (revealed : List (Int × F))
    (hp : revealed.Perm ((ms.zipIdx.filter fun mi => !mi.1.isHidden).map fun mi => ((mi.2 : Int), mi.1.message))) :
    (hiddenIdx ms.length revealed).length = (hidMsgs ms).length := by
  have hmem : ∀ i : Int, i ∈ revealed.map Prod.fst ↔ ∃ m, ∃ j : Nat, (m, j) ∈ ms.zipIdx ∧ m.isHidden = false ∧ (j : Int) = i := by
    intro i
    rw [(hp.map Prod.fst).mem_iff, List.map_map, List.mem_map]
    constructor
    · rintro ⟨⟨m, j⟩, hm, rfl⟩
      rw [List.mem_filter] at hm
      exact ⟨m, j, hm.1, by simpa using hm.2, rfl⟩
    · rintro ⟨m, j, hm, hh, rfl⟩
      exact ⟨(m, j), List.mem_filter.mpr ⟨hm, by simpa using hh⟩, rfl⟩
  have e1 : List.range ms.length = ms.zipIdx.map Prod.snd := by
    rw [List.zipIdx_map_snd, List.range_eq_range']
  unfold hiddenIdx unknown hidMsgs
  rw [e1, List.filter_map, List.length_map, List.length_map]
  have e2 : ms.filter ProofMessage.isHidden = (ms.zipIdx.filter (fun mi => mi.1.isHidden)).map Prod.fst := by
    have := List.filter_map (f := Prod.fst) (p := ProofMessage.isHidden) (l := ms.zipIdx)
    rw [List.zipIdx_map_fst] at this
    exact this
  rw [e2, List.length_map]
  congr 1
  apply List.filter_congr
  rintro ⟨m, j⟩ hm
  rw [Bool.eq_iff_iff]
  simp only [Function.comp, Bool.not_eq_true', List.contains_eq_mem, decide_eq_false_iff_not]
  rw [hmem]
  constructor
  · intro hn
    by_contra hh
    exact hn ⟨m, j, hm, by simpa using hh, rfl⟩
  · rintro hh ⟨m', j', hm', hh', hj⟩
    have hj' : j' = j := by exact_mod_cast hj
    subst hj'
    rw [List.mem_zipIdx_iff_getElem?] at hm hm'
    rw [hm] at hm'
    injection hm' with hm'
    simp only [] at hm' hh
    rw [hm', hh'] at hh
    exact nomatch hh

theorem revealed_sum (ms : List (ProofMessage F)) (revealed : List (Int × F))
    (hp : revealed.Perm ((ms.zipIdx.filter fun mi => !mi.1.isHidden).map fun mi => ((mi.2 : Int), mi.1.message))) :
    (revealed.map Prod.snd).sum + (hidMsgs ms).sum = (ms.map ProofMessage.message).sum := by
  rw [(hp.map Prod.snd).sum_eq, List.map_map]
  have e2 : ∀ q : ProofMessage F → Bool, (ms.zipIdx.filter fun mi => q mi.1).map Prod.fst = ms.filter q := by
    intro q
    have := List.filter_map (f := Prod.fst) (p := q) (l := ms.zipIdx)
    rw [List.zipIdx_map_fst] at this
    exact this.symm
  have e3 : (ms.zipIdx.filter fun mi => !mi.1.isHidden).map
      (Prod.snd ∘ fun mi : ProofMessage F × Nat => ((mi.2 : Int), mi.1.message)) =
      (ms.filter fun m => !m.isHidden).map ProofMessage.message := by
    rw [← e2 (fun m => !m.isHidden), List.map_map]
    rfl
  rw [e3]
  unfold hidMsgs
  rw [← List.sum_append, ← List.map_append]
  apply List.Perm.sum_eq
  apply List.Perm.map
  have := List.filter_append_perm (fun m : ProofMessage F => !m.isHidden) ms
  simpa using this

theorem msm_hidden_const (P : G1) (l : List Nat) (a : List F) (h : l.length = a.length) :
    msm (l.map fun (i : Nat) => (fun _ : Int => P) ((i : Int) + 1)) a = a.sum • P :=
  msm_const P _ a (by simp [h]) (fun q hq => by
    rw [List.mem_map] at hq
    obtain ⟨_, _, rfl⟩ := hq
    rfl)

theorem completeness_aux {V : Env F G1 G2} (E : Pairing F G1 G2 GT) {w : G2} {n : Int} {g : Generators G1}
    (h : Generators.init V w n = .ok g) (x : F) (sig : Signature F G1) (ms : List (ProofMessage F))
    (hsig : verify V E (publicKey E x) sig g (ms.map ProofMessage.message) = .ok ())
    {r : List F} {pok : Pok F G1} (hp : newPok V E sig g ms r = .ok pok) (t : Transcript) (nonce c : F)
    (hc : c = V.chal (pok.contribution V t ++ [.append "nonce" (V.bytes nonce)]) "signature proof of knowledge")
    (revealed : List (Int × F))
    (hr : revealed.Perm ((ms.zipIdx.filter fun mi => !mi.1.isHidden).map fun mi => ((mi.2 : Int), mi.1.message))) :
    ∃ proof, pok.generateProof c = .ok proof ∧
      proof.verify V E revealed (publicKey E x) g nonce c t = .ok true := by
  have hl := (init_ok h).2.1
  obtain ⟨hn, hms, r1, r2, a, b, a2, b2, rs, B, hr1, hB, hrs, rfl⟩ := newPok_inv E h hp
  have hpk : publicKey E x ≠ 0 := ((verify_iff E h _ _ _).mp hsig).2.2.1
  rw [C76_accepted_equation E h x hpk] at hsig
  obtain ⟨_, _, hA, hAB⟩ := hsig
  rw [← hB] at hAB
  have hx : x ≠ 0 := by
    rintro rfl
    exact hpk (zero_smul _ _)
  obtain ⟨hH, hN⟩ := init_gens h
  have hcnt := hiddenIdx_length ms revealed hr
  have hsum := revealed_sum ms revealed hr
  have hlen' : ms.length = g.length := by omega
  rw [hlen'] at hcnt
  unfold Pok.generateProof Builder.generateProof
  simp only []
  rw [if_neg (by simp), Res.bind_ok, if_neg (by simp [hrs]), Res.bind_ok]
  refine ⟨_, rfl, ?_⟩
  have hbar : r1 • B - sig.e • r1 • sig.a = x • r1 • sig.a := by
    rw [← hAB]
    module
  rw [(C79_verify_exact E hH hN _ _ _ _ _ _).2]
  refine ⟨?_, ?_, ?_, hpk, smul_ne_zero hr1 hA, ?_, ?_, ?_⟩
  · intro q hq
    have := hr.mem_iff.mp hq
    rw [List.mem_map] at this
    obtain ⟨⟨m, j⟩, hm, rfl⟩ := this
    have := List.snd_lt_add_of_mem_zipIdx (List.mem_of_mem_filter hm)
    simp only [] at this ⊢
    omega
  · rw [hr.length_eq, List.length_map]
    refine (List.length_filter_le _ _).trans ?_
    rw [List.length_zipIdx]
    omega
  · rw [hcnt]
    simp [hrs]
    omega
  · show r1 • B - sig.e • r1 • sig.a ≠ 0
    rw [hbar]
    exact smul_ne_zero hx (smul_ne_zero hr1 hA)
  · show E.e (r1 • sig.a) (x • E.g2) = E.e (r1 • B - sig.e • r1 • sig.a) E.g2
    rw [hbar, ← E.smul_swap]
  · refine hc.trans ?_
    congr 1
    unfold Pok.contribution
    simp only []
    rw [List.append_assoc]
    have e1 : Builder.contribution V ⟨[some (r1 • sig.a), some g.h0], [a, b]⟩ =
        V.cmp1 (a • r1 • sig.a + b • g.h0) := by
      have := sop_some (ps := [r1 • sig.a, g.h0]) (a := [a, b]) rfl
      simp only [List.map_cons, List.map_nil] at this
      unfold Builder.contribution
      simp only [this]
      simp
    have e2 : Builder.contribution V ⟨some (-(r1 • B + r2 • g.h0)) :: some g.h0 ::
        (List.replicate (hidMsgs ms).length g.h0).map some, a2 :: b2 :: rs⟩ =
        V.cmp1 (a2 • (-(r1 • B + r2 • g.h0)) + (b2 • g.h0 + rs.sum • g.h0)) := by
      have := sop_some (ps := (-(r1 • B + r2 • g.h0)) :: g.h0 :: List.replicate (hidMsgs ms).length g.h0)
        (a := a2 :: b2 :: rs) (by simp [hrs])
      rw [List.map_cons, List.map_cons] at this
      unfold Builder.contribution
      simp only [this]
      rw [Bulletproof.msm_cons, Bulletproof.msm_cons, msm_rep _ _ _ hrs.symm]
    rw [e1, e2]
    congr 1
    simp only [List.cons_append, List.nil_append, List.cons.injEq, Ev.append.injEq, true_and, and_true]
    refine ⟨?_, ?_⟩
    · congr 1
      unfold T1
      module
    · congr 1
      unfold T2 revealedPoint
      simp only [List.zipWith_cons_cons, List.getD_cons_zero, List.getD_cons_succ, List.drop_succ_cons, List.drop_zero]
      rw [msm_hidden_const _ _ _ (by rw [hcnt, List.length_zipWith]; omega), zipWith_mulAdd_sum _ _ _ hrs.symm]
      have e3 : (revealed.map fun q => q.2 • g.h0).sum = (revealed.map Prod.snd).sum • g.h0 := by
        clear hsum hcnt hr
        induction revealed with
        | nil => simp
        | cons q l ih => simp [ih, add_smul]
      rw [e3, hB, ← hsum]
      have hi : r1⁻¹ * r1 = 1 := inv_mul_cancel₀ hr1
      generalize (revealed.map Prod.snd).sum = u
      generalize (hidMsgs ms).sum = v
      have : (r1⁻¹ * c + a2) • (r1 • (E.g1 + (sig.s + (u + v)) • g.h0) + r2 • g.h0) =
          c • (E.g1 + (sig.s + (u + v)) • g.h0) + (r1⁻¹ * c * r2) • g.h0 +
          a2 • (r1 • (E.g1 + (sig.s + (u + v)) • g.h0) + r2 • g.h0) := by
        rw [add_smul, smul_add (r1⁻¹ * c), smul_smul, smul_smul]
        congr 3
        rw [mul_right_comm, hi, one_mul]
      rw [this]
      module

/-- Specification: the value a message stands for, whatever the holder does with it. -/
def signedValue : ProofMessage F → F
  | .revealed m | .proofSpecific m | .shared m _ => m

/-- Specification: what the verifier is told of a message: only the revealed ones. -/
def shown : ProofMessage F → Option F
  | .revealed m => some m
  | .proofSpecific _ | .shared _ _ => none

theorem shown_list (ms : List (ProofMessage F)) (k : Nat) :
    ((ms.zipIdx k).filterMap fun mi => (shown mi.1).map fun v => ((mi.2 : Int), v)) =
      ((ms.zipIdx k).filter fun mi => !mi.1.isHidden).map fun mi => ((mi.2 : Int), mi.1.message) := by
  induction ms generalizing k with
  | nil => rfl
  | cons m ms ih =>
    rw [List.zipIdx_cons]
    have ih' := ih (k + 1)
    rw [List.filterMap_cons, List.filter_cons]
    cases m with
    | revealed v => exact congrArg (List.cons _) ih'
    | proofSpecific v => exact ih'
    | shared v b => exact ih'

/-- **C79** Completeness.  A holder of an accepted signature runs `NewPokSignature`, draws the challenge from
the transcript after `GetChallengeContribution` and the nonce, and calls `GenerateProof`: the verifier, with the
same transcript, nonce and challenge and exactly the messages the holder marked as revealed, in any map order,
accepts. -/
theorem C79_completeness {V : Env F G1 G2} (E : Pairing F G1 G2 GT) {w : G2} {n : Int} {g : Generators G1}
    (h : Generators.init V w n = .ok g) (x : F) (sig : Signature F G1) (ms : List (ProofMessage F))
    (hsig : verify V E (publicKey E x) sig g (ms.map signedValue) = .ok ())
    {r : List F} {pok : Pok F G1} (hp : newPok V E sig g ms r = .ok pok) (t : Transcript) (nonce c : F)
    (hc : c = V.chal (pok.contribution V t ++ [.append "nonce" (V.bytes nonce)]) "signature proof of knowledge")
    (revealed : List (Int × F))
    (hr : revealed.Perm (ms.zipIdx.filterMap fun mi => (shown mi.1).map fun v => ((mi.2 : Int), v))) :
    ∃ proof, pok.generateProof c = .ok proof ∧
      proof.verify V E revealed (publicKey E x) g nonce c t = .ok true := by
  have e : (signedValue : ProofMessage F → F) = ProofMessage.message := by
    funext m
    cases m <;> rfl
  rw [e] at hsig
  rw [shown_list] at hr
  exact completeness_aux E h x sig ms hsig hp t nonce c hc revealed hr

/-- **C79** `NewPokSignature` refuses a number of messages other than the number of generators, and panics for
empty generators (when the reader yields the two non-zero scalars it draws first). -/
theorem C79_new_refuses (V : Env F G1 G2) (E : Pairing F G1 G2 GT) (sig : Signature F G1) (g : Generators G1)
    (ms : List (ProofMessage F)) (r : List F) :
    (ms.length ≠ g.length → newPok V E sig g ms r = .err) ∧
    (ms = [] → g.length = 0 → ∀ x y r1 r2, getNonZero r = .ok (x, r1) → getNonZero r1 = .ok (y, r2) →
      newPok V E sig g ms r = .panic) := by
  constructor
  · intro h
    unfold newPok
    rw [if_pos h]
  · rintro rfl h0 x y r1 r2 h1 h2
    unfold newPok
    rw [if_neg (by simp [h0]), h1, Res.bind_ok]
    simp only []
    rw [h2, Res.bind_ok]
    unfold invert
    rw [if_neg (getNonZero_ok h1)]
    rfl

theorem pokLoop_ok {V : Env F G1 G2} {g : Generators G1} {ms : List (ProofMessage F)} {i : Nat}
    {b : Builder F G1} {secs r : List F} (h1 : b.points.length + (hidMsgs ms).length ≤ 65536)
    (h2 : (hidMsgs ms).length ≤ r.length) : ∃ b' secs', pokLoop V g ms i b secs r = .ok (b', secs') := by
  induction ms generalizing i b secs r with
  | nil => exact ⟨_, _, rfl⟩
  | cons m ms ih =>
    rw [pokLoop]
    by_cases hm : m.isHidden = true
    · have e : hidMsgs (m :: ms) = m.message :: hidMsgs ms := by
        unfold hidMsgs
        rw [List.filter_cons_of_pos hm]
        rfl
      rw [e, List.length_cons] at h1 h2
      rw [if_pos hm]
      have hb : ∃ bl r1, m.blinding r = .ok (bl, r1) ∧ (hidMsgs ms).length ≤ r1.length := by
        cases m with
        | revealed m => exact nomatch hm
        | proofSpecific m =>
          cases r with
          | nil => simp at h2
          | cons x r => exact ⟨x, r, rfl, by simpa using h2⟩
        | shared m bl => exact ⟨bl, r, rfl, by omega⟩
      obtain ⟨bl, r1, hbl, hlen⟩ := hb
      rw [hbl, Res.bind_ok]
      simp only [Builder.commit]
      rw [if_neg (by omega), Res.bind_ok]
      exact ih (by simp only [List.length_append, List.length_cons, List.length_nil]; omega) hlen
    · have e : hidMsgs (m :: ms) = hidMsgs ms := by
        unfold hidMsgs
        rw [List.filter_cons_of_neg hm]
      rw [e] at h1 h2
      rw [if_neg hm]
      exact ih h1 h2

/-- **C79** `NewPokSignature` succeeds on as many messages as generators, at least one of them and at most 65534
hidden, from a reader that yields six scalars (the first two not zero) and one for every hidden message. -/
theorem C79_new_succeeds {V : Env F G1 G2} (E : Pairing F G1 G2 GT) {w : G2} {n : Int} {g : Generators G1}
    (h : Generators.init V w n = .ok g) (sig : Signature F G1) (ms : List (ProofMessage F))
    (hlen : (ms.length : Int) = n) (hn : 1 ≤ n) (hhid : (ms.filter ProofMessage.isHidden).length ≤ 65534)
    {r1 r2 a b a2 b2 : F} (hr1 : r1 ≠ 0) (hr2 : r2 ≠ 0) {rs : List F} (hrs : ms.length ≤ rs.length) :
    ∃ pok, newPok V E sig g ms (r1 :: r2 :: a :: b :: a2 :: b2 :: rs) = .ok pok := by
  have hl := (init_ok h).2.1
  have hc : (hidMsgs ms).length ≤ ms.length := by
    unfold hidMsgs
    rw [List.length_map]
    exact List.length_filter_le _ _
  have hc' : (hidMsgs ms).length ≤ 65534 := by
    unfold hidMsgs
    rw [List.length_map]
    exact hhid
  unfold newPok
  rw [if_neg (by omega)]
  have g1 : getNonZero (r1 :: r2 :: a :: b :: a2 :: b2 :: rs) = .ok (r1, r2 :: a :: b :: a2 :: b2 :: rs) := by
    rw [getNonZero, if_neg hr1]
  have g2 : getNonZero (r2 :: a :: b :: a2 :: b2 :: rs) = .ok (r2, a :: b :: a2 :: b2 :: rs) := by
    rw [getNonZero, if_neg hr2]
  rw [g1, Res.bind_ok]
  simp only []
  rw [g2, Res.bind_ok]
  simp only [invert]
  rw [if_neg hr1, Res.bind_ok, computeB_init E h _ (by simp; omega) (by simp; omega), Res.bind_ok]
  generalize E.g1 + (sig.s + (ms.map ProofMessage.message).sum) • g.h0 = B
  have ed : sop [some B, some g.h0] [r1, r2] = some (r1 • B + r2 • g.h0) := by
    have := sop_some (ps := [B, g.h0]) (a := [r1, r2]) rfl
    simp only [List.map_cons, List.map_nil] at this
    rw [this]
    simp
  rw [ed]
  simp only [deref, Res.bind_ok]
  rw [commitRandom_ok (by simp [Builder.new]), Res.bind_ok]
  simp only []
  rw [commitRandom_ok (by simp [Builder.new]), Res.bind_ok]
  simp only []
  rw [commitRandom_ok (by simp [Builder.new]), Res.bind_ok]
  simp only []
  rw [commitRandom_ok (by simp [Builder.new]), Res.bind_ok]
  simp only []
  obtain ⟨b', secs', e⟩ := pokLoop_ok (V := V) (g := g) (ms := ms) (i := 0)
    (b := ⟨Builder.new.points ++ [some (-(r1 • B + r2 • g.h0))] ++ [some g.h0], Builder.new.scalars ++ [a2] ++ [b2]⟩)
    (secs := [r1⁻¹, sig.s + r2 * r1⁻¹]) (r := rs) (by simp [Builder.new]; omega) (by omega)
  rw [e, Res.bind_ok]
  exact ⟨_, rfl⟩

/-- **C79** Special soundness.  Two accepted proofs with the same `A', Ā, D`, the same revealed messages and the
same recomputed commitments but different challenges give either a signature equation: `e`, `s`, a point
`A ≠ 0` and hidden messages with `(e + x)·A = g₁ + s·h₀ + Σ revealed mᵢ·hᵢ + Σ hidden mⱼ·hⱼ`, or a
relation `g₁ + s·h₀ + Σ revealed mᵢ·hᵢ + Σ hidden mⱼ·hⱼ = 0` between the generators. -/
theorem C79_extract {V V' : Env F G1 G2} (E : Pairing F G1 G2 GT) {g : Generators G1} {H : Int → G1}
    (hH : ∀ i : Int, i ≤ g.length → g.get V i = some (H i)) (hN : ∀ i : Int, (g.length : Int) < i → g.get V i = none)
    (hH' : ∀ i : Int, i ≤ g.length → g.get V' i = some (H i))
    (hN' : ∀ i : Int, (g.length : Int) < i → g.get V' i = none)
    (x : F) (p p' : PokProof F G1) (revealed : List (Int × F)) (nonce c c' : F) (t : Transcript)
    (hv : p.verify V E revealed (publicKey E x) g nonce c t = .ok true)
    (hv' : p'.verify V' E revealed (publicKey E x) g nonce c' t = .ok true)
    (hA : p'.aPrime = p.aPrime) (hB : p'.aBar = p.aBar) (hd : p'.d = p.d) (hne : c ≠ c')
    (h1 : T1 (H 0) p c = T1 (H 0) p' c')
    (h2 : T2 E.g1 H g.length revealed p c = T2 E.g1 H g.length revealed p' c') :
    ∃ s : F, ∃ hid : List F, hid.length = (hiddenIdx g.length revealed).length ∧
      ((∃ e : F, ∃ A : G1, A ≠ 0 ∧ (e + x) • A = E.g1 + s • H 0 +
          (revealed.map fun q => q.2 • H (q.1 + 1)).sum +
          msm ((hiddenIdx g.length revealed).map fun (i : Nat) => H ((i : Int) + 1)) hid) ∨
        E.g1 + s • H 0 + (revealed.map fun q => q.2 • H (q.1 + 1)).sum +
          msm ((hiddenIdx g.length revealed).map fun (i : Nat) => H ((i : Int) + 1)) hid = 0) := by
  obtain ⟨_, _, hl, _, hA0, _, hpair, _⟩ := (C79_verify_exact E hH hN _ _ _ _ _ _).2.mp hv
  obtain ⟨_, _, hl', _, _, _, _, _⟩ := (C79_verify_exact E hH' hN' _ _ _ _ _ _).2.mp hv'
  have hbar : x • p.aPrime = p.aBar := by
    unfold publicKey at hpair
    rw [← E.smul_swap, E.e_g2_inj] at hpair
    exact hpair
  have hδ : c - c' ≠ 0 := sub_ne_zero.mpr hne
  set hs := (hiddenIdx g.length revealed).map fun (i : Nat) => H ((i : Int) + 1) with hhs
  have hsl : hs.length = (hiddenIdx g.length revealed).length := by rw [hhs, List.length_map]
  set R := (revealed.map fun q => q.2 • H (q.1 + 1)).sum with hR
  unfold T1 at h1
  unfold T2 revealedPoint at h2
  rw [hA, hB, hd] at h1
  rw [hd, ← hhs, ← hR, ← msm_take hs (p.proof2.drop 2), ← msm_take hs (p'.proof2.drop 2)] at h2
  set q := (p.proof2.drop 2).take hs.length with hq
  set q' := (p'.proof2.drop 2).take hs.length with hq'
  have hql : q.length = hs.length := by rw [hq, List.length_take, List.length_drop]; omega
  have hql' : q'.length = hs.length := by rw [hq', List.length_take, List.length_drop]; omega
  -- the extracted values
  set δ := c - c' with hδdef
  set e := (p.proof1.1 - p'.proof1.1) * δ⁻¹ with he
  set r2 := (p.proof1.2 - p'.proof1.2) * δ⁻¹ with hr2
  set r3 := (p.proof2.getD 0 0 - p'.proof2.getD 0 0) * δ⁻¹ with hr3
  set s' := (p.proof2.getD 1 0 - p'.proof2.getD 1 0) * δ⁻¹ with hs'
  set hid := Bulletproof.mulScs δ⁻¹ (List.zipWith (· - ·) q q') with hhid
  have hhidl : hid.length = hs.length := by
    rw [hhid]
    unfold Bulletproof.mulScs
    rw [List.length_map, List.length_zipWith]
    omega
  have hmsm : msm hs hid = δ⁻¹ • (msm hs q - msm hs q') := by
    rw [hhid, Bulletproof.msm_mulScs, Bulletproof.msm_sub_right (by omega)]
  have hi : δ⁻¹ * δ = 1 := inv_mul_cancel₀ hδ
  have k1 : p.d = p.aBar + e • p.aPrime + r2 • H 0 := by
    have k : δ • p.d = δ • (p.aBar + e • p.aPrime + r2 • H 0) := by
      have e1 : δ * e = p.proof1.1 - p'.proof1.1 := by rw [he, mul_comm, mul_assoc, hi, mul_one]
      have e2 : δ * r2 = p.proof1.2 - p'.proof1.2 := by rw [hr2, mul_comm, mul_assoc, hi, mul_one]
      rw [smul_add, smul_add, smul_smul, smul_smul, e1, e2, hδdef]
      clear_value e r2 r3 s' hid δ hs R q q'
      rw [← sub_eq_zero] at h1 ⊢
      rw [← neg_eq_zero, ← h1]
      module
    have := congrArg (fun z => δ⁻¹ • z) k
    simpa only [smul_smul, hi, one_smul] using this
  have k2 : r3 • p.d = E.g1 + R + s' • H 0 + msm hs hid := by
    have k : δ • r3 • p.d = δ • (E.g1 + R + s' • H 0 + msm hs hid) := by
      have e1 : δ * r3 = p.proof2.getD 0 0 - p'.proof2.getD 0 0 := by rw [hr3, mul_comm, mul_assoc, hi, mul_one]
      have e2 : δ * s' = p.proof2.getD 1 0 - p'.proof2.getD 1 0 := by rw [hs', mul_comm, mul_assoc, hi, mul_one]
      rw [hmsm, smul_smul, smul_add, smul_add, smul_smul, smul_smul, e1, e2, mul_comm δ δ⁻¹, hi, one_smul, hδdef]
      clear_value e r2 r3 s' hid δ hs R q q'
      rw [← sub_eq_zero] at h2 ⊢
      rw [← neg_eq_zero, ← h2]
      module
    have := congrArg (fun z => δ⁻¹ • z) k
    simpa only [smul_smul, ← mul_assoc, hi, one_mul, one_smul] using this
  have k3 : (e + x) • r3 • p.aPrime = E.g1 + (s' - r2 * r3) • H 0 + R + msm hs hid := by
    have k4 : r3 • p.d = (e + x) • r3 • p.aPrime + (r2 * r3) • H 0 := by
      rw [k1, ← hbar]
      module
    rw [k4] at k2
    clear_value e r2 r3 s' hid δ hs R q q'
    rw [← sub_eq_zero] at k2 ⊢
    rw [← k2]
    module
  refine ⟨s' - r2 * r3, hid, by omega, ?_⟩
  by_cases h0 : r3 = 0
  · right
    rw [h0, zero_smul, smul_zero] at k3
    rw [h0]
    exact k3.symm
  · left
    exact ⟨e, r3 • p.aPrime, smul_ne_zero h0 hA0, k3⟩

/-- **C79 (negation: anything can be disclosed)** Because every generator is the same point, the holder of one
accepted signature can present an accepted proof in which *any* messages of its choice are revealed: it
changes `s` as in `C76_forgery` and runs the honest prover. -/
theorem C79_arbitrary_disclosure {V : Env F G1 G2} (E : Pairing F G1 G2 GT) {w : G2} {n : Int} {g : Generators G1}
    (h : Generators.init V w n = .ok g) (x : F) (sig : Signature F G1) (msgs : List F)
    (hsig : verify V E (publicKey E x) sig g msgs = .ok ())
    (claimed : List F) (hlen : (claimed.length : Int) = n) {r1 r2 a b a2 b2 : F} (hr1 : r1 ≠ 0)
    (hr2 : r2 ≠ 0) {rs : List F} (hrs : claimed.length ≤ rs.length) (t : Transcript) (nonce : F) :
    ∃ pok proof c,
      newPok V E { sig with s := sig.s + msgs.sum - claimed.sum } g (claimed.map .revealed)
        (r1 :: r2 :: a :: b :: a2 :: b2 :: rs) = .ok pok ∧
      pok.generateProof c = .ok proof ∧
      proof.verify V E (claimed.zipIdx.map fun mi => ((mi.2 : Int), mi.1)) (publicKey E x) g nonce c t = .ok true := by
  have hl := (init_ok h).2.1
  have hn1 : (1 : Int) ≤ n := by
    have := (verify_iff E h _ _ _).mp hsig
    omega
  have hmsg : (claimed.map ProofMessage.revealed).map ProofMessage.message = claimed := by
    rw [List.map_map]
    exact List.map_id _
  have hhid : ((claimed.map ProofMessage.revealed).filter ProofMessage.isHidden) = [] := by
    rw [List.filter_eq_nil_iff]
    intro m hm
    rw [List.mem_map] at hm
    obtain ⟨_, _, rfl⟩ := hm
    exact nofun
  obtain ⟨pok, hpok⟩ := C79_new_succeeds E h { sig with s := sig.s + msgs.sum - claimed.sum }
    (claimed.map .revealed) (by simpa using hlen) hn1 (by rw [hhid]; simp) (a := a) (b := b) (a2 := a2)
    (b2 := b2) hr1 hr2 (rs := rs) (by simpa using hrs)
  obtain ⟨proof, hgen, hver⟩ := completeness_aux E h x _ _
    (by rw [hmsg]; exact C76_forgery E h _ sig msgs claimed hsig (by omega) (by omega)) hpok t nonce _ rfl
    (claimed.zipIdx.map fun mi => ((mi.2 : Int), mi.1)) (by
      have e : (claimed.map ProofMessage.revealed).zipIdx =
          claimed.zipIdx.map fun mi => (ProofMessage.revealed mi.1, mi.2) := by
        rw [List.zipIdx_map]
        rfl
      rw [e, List.filter_map, List.map_map]
      have : (claimed.zipIdx.filter ((fun mi : ProofMessage F × Nat => !mi.1.isHidden) ∘
          fun mi => (ProofMessage.revealed mi.1, mi.2))) = claimed.zipIdx := by
        rw [List.filter_eq_self]
        intro _ _
        rfl
      rw [this]
      exact List.Perm.refl _)
  exact ⟨pok, proof, _, hpok, hgen, hver⟩

end Verif.Bbs
