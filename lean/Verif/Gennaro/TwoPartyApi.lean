import Verif.Gennaro.TwoParty
import Verif.Gennaro.Props

/-! # Property C122: distributed key generation between two parties -/

set_option linter.unusedSectionVars false

namespace Verif.Gennaro.TwoParty
open Verif Verif.SharingV1 Verif.Bytes Verif.Gennaro Finset Polynomial

variable {p : Nat} [hp : Fact p.Prime] {G : Type*} [AddCommGroup G] [Module (ZMod p) G] [DecidableEq G]

theorem validIds_pair (a b : Nat) : validIds [b, a] = true ↔ (a = 1 ∧ b = 2) ∨ (a = 2 ∧ b = 1) := by
  unfold validIds
  simp only [List.length_cons, List.length_nil, List.all_eq_true, List.mem_range, decide_eq_true_eq]
  constructor
  · intro h
    have h1 := h 0 (by omega)
    have h2 := h 1 (by omega)
    simp at h1 h2
    omega
  · rintro (⟨rfl, rfl⟩ | ⟨rfl, rfl⟩) x hx <;> have : x = 0 ∨ x = 1 := by omega
    all_goals rcases this with rfl | rfl <;> simp

/-- **C122** A party is created exactly if the identifiers are 1 and 2 (in either order) and the blinding generator,
given or drawn, is not the identity; the drawn one is `r·g`. -/
theorem C122_created (g : G) (id cp : Nat) (blind : Option G) (r : ZMod p) :
    newParticipant g id cp blind r ≠ none ↔
      ((id = 1 ∧ cp = 2) ∨ (id = 2 ∧ cp = 1)) ∧ blind.getD (r • g) ≠ 0 := by
  have e : newParticipant g id cp blind r ≠ none ↔
      Gennaro.newParticipant p (blind.getD (r • g)) id threshold [cp] ≠ none := by
    cases blind with
    | none =>
      unfold newParticipant newBlind
      dsimp only [Option.getD]
      cases Gennaro.newParticipant p (r • g) id threshold [cp] <;> simp
    | some b =>
      unfold newParticipant
      dsimp only [Option.getD]
      cases Gennaro.newParticipant p b id threshold [cp] <;> simp
  rw [e]
  unfold Gennaro.newParticipant
  rw [if_neg (by simp), show [cp] ++ [id] = [cp, id] from rfl]
  by_cases hv : validIds [cp, id] = true
  · rw [if_neg (by rw [hv]; simp), if_neg (by simp [threshold]), if_neg (by simp [threshold])]
    by_cases hb : blind.getD (r • g) = 0
    · rw [if_pos hb]; simp [hb]
    · rw [if_neg hb]; simpa [hb] using (validIds_pair id cp).1 hv
  · rw [if_pos (by simpa using hv)]
    simp only [ne_eq, not_true_eq_false, false_iff, not_and]
    intro h
    exact absurd ((validIds_pair id cp).2 h) hv

private theorem dl {α : Type*} (msg : Nat → α → Prop) (m : α) (hm : msg 2 m) : Delivered 2 1 msg [(2, m)] := by
  refine ⟨by simp, by simpa using hm, ?_⟩
  intro j a b c
  simp; omega

private theorem dr {α : Type*} (msg : Nat → α → Prop) (m : α) (hm : msg 1 m) : Delivered 2 2 msg [(1, m)] := by
  refine ⟨by simp, by simpa using hm, ?_⟩
  intro j a b c
  simp; omega

/-- **C122** The honest run.  For all scalars drawn with nonzero secrets, blindings and sum, and every common blinding
generator that is not the identity: both parties finish; they agree on the public key, the sum of the secrets times
the generator; and their shares `x₁, x₂` are the values at 1 and 2 of one line through the sum of the secrets, so that
`2·x₁ − x₂` is the secret key.  Nobody needs the other's secret: each gets the other's messages only. -/
theorem C122_honest (g h : G) (hg : g ≠ 0) (hh : h ≠ 0) (hp2 : 2 < p) (valid : Nat → Bool) (r1 r2 : ZMod p)
    (d1 d2 : Draws p) (h1 : d1.secret ≠ 0 ∧ d1.blinding ≠ 0) (h2 : d2.secret ≠ 0 ∧ d2.blinding ≠ 0)
    (hs : d1.secret + d2.secret ≠ 0) :
    ∃ (P Q P1 Q1 P2 Q2 P3 Q3 : Party p G) (a1 b1 : Round1Message p G) (a2 b2 : Round2Message G)
      (R S : DkgResult p G),
      newParticipant g 1 2 (some h) r1 = some P ∧ newParticipant g 2 1 (some h) r2 = some Q ∧
      round1 g valid P none d1.secret d1.blinding d1.rnd d1.rndB = (P1, .ok a1) ∧
      round1 g valid Q none d2.secret d2.blinding d2.rnd d2.rndB = (Q1, .ok b1) ∧
      round2 g P1 (some b1) = (P2, .ok a2) ∧ round2 g Q1 (some a1) = (Q2, .ok b2) ∧
      finalize g P2 (some b2) = (P3, .ok R) ∧ finalize g Q2 (some a2) = (Q3, .ok S) ∧
      R.publicKey = (d1.secret + d2.secret) • g ∧ S.publicKey = R.publicKey ∧
      R.secretShare.id = 1 ∧ S.secretShare.id = 2 ∧
      2 * R.secretShare.value - S.secretShare.value = d1.secret + d2.secret ∧
      (∃ f : (ZMod p)[X], f.degree < 2 ∧ f.eval 0 = d1.secret + d2.secret ∧
        R.secretShare.value = f.eval 1 ∧ S.secretShare.value = f.eval 2) ∧
      a1.blind = h ∧ b1.blind = h := by
  have hI : (Icc 1 2 : Finset Nat) = {1, 2} := by decide
  let d : Nat → Draws p := fun i => if i = 1 then d1 else d2
  have hsum : ∀ (M : Type _) [AddCommMonoid M] (F : Nat → M), ∑ j ∈ Icc 1 2, F j = F 1 + F 2 := by
    intro M _ F
    rw [hI, Finset.sum_pair (by decide)]
  obtain ⟨dp0, dp1, hdeg, hev, hrun⟩ := honest_run (t := 2) (n := 2) g h hg hh valid
    (by norm_num) (by norm_num) hp2 (fun i => [3 - i])
    (by
      intro i h1 h2
      rcases (by omega : i = 1 ∨ i = 2) with rfl | rfl <;> decide)
    d (by
      intro i hi1 hi2
      rcases (by omega : i = 1 ∨ i = 2) with rfl | rfl
      · exact h1
      · exact h2) (by rw [hsum]; exact hs) _ rfl _ rfl
  rw [hsum] at hdeg hev
  rw [hsum] at hev
  obtain ⟨u1, u2, u3⟩ := hrun 1 (by norm_num) (by norm_num)
  obtain ⟨v1, v2, v3⟩ := hrun 2 (by norm_num) (by norm_num)
  obtain ⟨dp2, p2e, p3⟩ := u3 [(2, (hres g h 2 2 d2).blindedVerifiers)]
    [(2, ⟨1, (d2.f 2).eval ((1 : Nat) : ZMod p)⟩, ⟨1, (d2.fB 2).eval ((1 : Nat) : ZMod p)⟩)]
    (dl _ _ rfl) (dl _ _ (List.mem_map.2 ⟨1, List.mem_singleton.2 rfl, rfl⟩))
  obtain ⟨dq2, q2e, q3⟩ := v3 [(1, (hres g h 2 2 d1).blindedVerifiers)]
    [(1, ⟨2, (d1.f 2).eval ((2 : Nat) : ZMod p)⟩, ⟨2, (d1.fB 2).eval ((2 : Nat) : ZMod p)⟩)]
    (dr _ _ rfl) (dr _ _ (List.mem_map.2 ⟨2, List.mem_singleton.2 rfl, rfl⟩))
  obtain ⟨dp3, p3e, -, p4⟩ := p3 [(2, d2.vers g 2)] (dl _ _ rfl)
  obtain ⟨dq3, q3e, -, q4⟩ := q3 [(1, d1.vers g 2)] (dr _ _ rfl)
  rw [hsum] at p3e q3e p4 q4
  rw [hsum] at p3e q3e
  obtain ⟨pub1, p5⟩ : ∃ pub, round4 dp3 = .ok pub := ⟨_, p4⟩
  obtain ⟨pub2, q5⟩ : ∃ pub, round4 dq3 = .ok pub := ⟨_, q4⟩
  refine ⟨⟨1, 2, dp0 1, h⟩, ⟨2, 1, dp0 2, h⟩, ⟨1, 2, dp1 1, h⟩, ⟨2, 1, dp1 2, h⟩, ⟨1, 2, dp2, h⟩, ⟨2, 1, dq2, h⟩,
    ⟨1, 2, dp3, h⟩, ⟨2, 1, dq3, h⟩,
    ⟨(hres g h 2 2 d1).blindedVerifiers, ⟨2, (d1.f 2).eval ((2 : Nat) : ZMod p)⟩, ⟨2, (d1.fB 2).eval ((2 : Nat) : ZMod p)⟩, h⟩,
    ⟨(hres g h 2 2 d2).blindedVerifiers, ⟨1, (d2.f 2).eval ((1 : Nat) : ZMod p)⟩, ⟨1, (d2.fB 2).eval ((1 : Nat) : ZMod p)⟩, h⟩,
    ⟨d1.vers g 2⟩, ⟨d2.vers g 2⟩, ⟨(d1.secret + d2.secret) • g, ⟨1, ((d1.f 2) + (d2.f 2)).eval ((1 : Nat) : ZMod p)⟩, pub1⟩,
    ⟨(d1.secret + d2.secret) • g, ⟨2, ((d1.f 2) + (d2.f 2)).eval ((2 : Nat) : ZMod p)⟩, pub2⟩, ?_, ?_, ?_, ?_, ?_, ?_, ?_, ?_, rfl, rfl, rfl, rfl, ?_,
    ⟨(d1.f 2) + (d2.f 2), hdeg, hev, ?_, ?_⟩, rfl, rfl⟩
  · unfold newParticipant
    rw [show threshold = 2 from rfl]
    dsimp only
    rw [show Gennaro.newParticipant p h 1 2 [2] = some (dp0 1) from u1]
  · unfold newParticipant
    rw [show threshold = 2 from rfl]
    dsimp only
    rw [show Gennaro.newParticipant p h 2 2 [1] = some (dp0 2) from v1]
  · unfold round1
    dsimp only
    rw [show Gennaro.round1 g h valid (dp0 1) none d1.secret d1.blinding d1.rnd d1.rndB = _ from u2]
    rfl
  · unfold round1
    dsimp only
    rw [show Gennaro.round1 g h valid (dp0 2) none d2.secret d2.blinding d2.rnd d2.rndB = _ from v2]
    rfl
  · unfold round2
    dsimp only
    rw [p2e]
    rfl
  · unfold round2
    dsimp only
    rw [q2e]
    rfl
  · unfold finalize
    dsimp only
    rw [p3e]
    dsimp only
    rw [p5]
    rfl
  · unfold finalize
    dsimp only
    rw [q3e]
    dsimp only
    rw [q5]
    rfl
  · show 2 * ((d1.f 2) + (d2.f 2)).eval ((1 : Nat) : ZMod p) - ((d1.f 2) + (d2.f 2)).eval ((2 : Nat) : ZMod p) = _
    have ed : ∀ D : Draws p, 2 * (D.f 2).eval ((1 : Nat) : ZMod p) - (D.f 2).eval ((2 : Nat) : ZMod p) = D.secret := by
      intro D
      simp [Draws.f, Verif.Sharing.polyInit, Verif.Sharing.polyOf, List.range_succ]
      ring
    rw [eval_add, eval_add, ← ed d1, ← ed d2]
    ring
  · show ((d1.f 2) + (d2.f 2)).eval ((1 : Nat) : ZMod p) = _
    rw [Nat.cast_one]
  · show ((d1.f 2) + (d2.f 2)).eval ((2 : Nat) : ZMod p) = _
    rw [Nat.cast_ofNat]

/-- **C122** Whatever the other party sends: if `Round2` accepts a message, the two shares in it satisfy the Pedersen
equation against the commitments in it — at the identifier *inside* the share, which nothing compares with the
receiver's — and the receiver's own secret share becomes the sum of its own and the received value. -/
theorem C122_round2_sound_partial (g : G) (P P' : Party p G) (m : Round1Message p G) (out : Round2Message G)
    (hne : P.counterPartyId ≠ P.embedded.id) (hr : round2 g P (some m) = (P', .ok out)) :
    m.secretShare.value • g + m.blindingShare.value • P.blind =
        ∑ k ∈ range m.verifiers.length, ((m.secretShare.id : Nat) : ZMod p) ^ k • m.verifiers.getD k 0 ∧
      P.embedded.shamir.threshold ≤ m.verifiers.length ∧
      P'.embedded.shares P.counterPartyId = some m.secretShare ∧
      ∃ own : Share p, P'.embedded.skShare = some (own.value + m.secretShare.value) ∧
        ∃ res, P.embedded.result = some res ∧ res.secretShares[P.embedded.id - 1]? = some own ∧
          out.verifiers = res.verifiers := by
  unfold round2 at hr
  dsimp only at hr
  rcases hx : Gennaro.round2 g P.blind P.embedded [(P.counterPartyId, m.verifiers)]
      [(P.counterPartyId, m.secretShare, m.blindingShare)] with ⟨dp, res⟩
  rw [hx] at hr
  dsimp only at hr
  cases res with
  | err => cases hr
  | panic => cases hr
  | ok bc =>
    cases hr
    obtain ⟨-, -, X, own, h1, ⟨res, h2, h3, h4⟩, h5⟩ := C52_round2_sound_partial g P.blind P.embedded dp _ _ bc hx
    obtain ⟨e1, R, e2, e3, e4⟩ := h1 (P.counterPartyId, m.verifiers) (by simp) hne
    have e2' : m.secretShare = X P.counterPartyId ∧ m.blindingShare = R := by
      simpa [List.lookup_cons] using e2
    rw [← e2'.1, ← e2'.2] at e4
    rw [← e2'.1] at e1
    refine ⟨e4, e3, e1, own, ?_, res, h2, h3, h4⟩
    rw [h5]
    simp [hne, ← e2'.1]

/-- **C122** Negated: the blinding generator in the counterparty's message is ignored, so nothing makes sure that the
two parties use the same one ("must be synchronized between counterparties"). -/
theorem C122_blind_ignored_violated (g : G) (P : Party p G) (m : Round1Message p G) (b : G) :
    round2 g P (some { m with blind := b }) = round2 g P (some m) := rfl

/-- **C122** Negated: a nil message is a panic in both rounds. -/
theorem C122_nil_message_violated (g : G) (P : Party p G) :
    (round2 g P none).2 = .panic ∧ (finalize g P none).2 = .panic := ⟨rfl, rfl⟩

/-! ### a concrete case -/

local instance fact257 : Fact (Nat.Prime 257) := ⟨by norm_num⟩

example : ∃ (R S : DkgResult 257 (ZMod 257)), R.publicKey = (8 : ZMod 257) • 1 ∧ S.publicKey = R.publicKey ∧
    2 * R.secretShare.value - S.secretShare.value = 3 + 5 := by
  obtain ⟨-, -, -, -, -, -, -, -, -, -, -, -, R, S, -, -, -, -, -, -, -, -, h1, h2, -, -, h3, -⟩ :=
    C122_honest (p := 257) (G := ZMod 257) 1 7 (by decide) (by decide) (by norm_num) (fun _ => true) 0 0
      ⟨3, 4, fun _ => 9, fun _ => 2⟩ ⟨5, 6, fun _ => 1, fun _ => 8⟩ ⟨by decide, by decide⟩ ⟨by decide, by decide⟩ (by decide)
  exact ⟨R, S, h1, h2, h3⟩

end Verif.Gennaro.TwoParty
