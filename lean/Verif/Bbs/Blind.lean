import Verif.Bbs.Props
import Mathlib.Data.List.Perm.Basic
import Mathlib.Algebra.BigOperators.Group.List.Basic
import Mathlib.Data.List.Sort

/-! C78: blind signatures. -/

set_option linter.unusedSectionVars false

namespace Verif.Bbs

open Verif
open Verif.OT (Ev Transcript idx)
open Verif.Bulletproof (msm)

variable {F G1 G2 GT : Type} [Field F] [DecidableEq F] [AddCommGroup G1] [Module F G1] [DecidableEq G1]
  [AddCommGroup G2] [Module F G2] [DecidableEq G2] [CommGroup GT] [DecidableEq GT]

/-! ### lemmas -/

/-- the generators of the listed indices -/
def pointsOf (V : Env F G1 G2) (g : Generators G1) (msgs : List (Int × F)) : List (Option G1) :=
  msgs.map fun p => g.get V (p.1 + 1)

theorem blindLoop_inv {V : Env F G1 G2} {g : Generators G1} {msgs : List (Int × F)} {b b' : Builder F G1}
    {pts pts' : List (Option G1)} {secs secs' r r' : List F}
    (h : blindLoop V g msgs b pts secs r = .ok (b', pts', secs', r')) :
    (∀ p ∈ msgs, 0 ≤ p.1 ∧ p.1 ≤ g.length) ∧
    (msgs = [] ∨ b.points.length + msgs.length ≤ 65536) ∧
    ∃ rs, r = rs ++ r' ∧ rs.length = msgs.length ∧
      b' = ⟨b.points ++ pointsOf V g msgs, b.scalars ++ rs⟩ ∧
      pts' = pts ++ pointsOf V g msgs ∧ secs' = secs ++ msgs.map Prod.snd := by
  induction msgs generalizing b pts secs r with
  | nil =>
    rw [blindLoop] at h
    injection h with h
    simp only [Prod.mk.injEq] at h
    obtain ⟨rfl, rfl, rfl, rfl⟩ := h
    refine ⟨by simp, Or.inl rfl, [], by simp, rfl, by simp [pointsOf], by simp [pointsOf], by simp⟩
  | cons p msgs ih =>
    obtain ⟨i, m⟩ := p
    rw [blindLoop] at h
    split at h
    · exact nomatch h
    rename_i hi
    unfold Builder.commitRandom at h
    split at h
    · exact nomatch h
    rename_i hlim
    cases r with
    | nil => exact nomatch h
    | cons x r =>
      simp only [draw, Res.bind_ok] at h
      obtain ⟨h1, h2, rs, h3, h4, h5, h6, h7⟩ := ih h
      refine ⟨?_, ?_, x :: rs, by rw [h3]; rfl, by simp [h4], ?_, ?_, ?_⟩
      · intro p hp
        rw [List.mem_cons] at hp
        rcases hp with rfl | hp
        · show 0 ≤ i ∧ i ≤ _
          omega
        · exact h1 p hp
      · right
        rcases h2 with rfl | h2
        · simp only [List.length_cons, List.length_nil]
          omega
        · simp only [List.length_append, List.length_cons, List.length_nil] at h2 ⊢
          omega
      · rw [h5]
        simp [pointsOf]
      · rw [h6]
        simp [pointsOf]
      · rw [h7]
        simp

theorem commitRandom_ok {b : Builder F G1} (h : b.points.length ≤ 65535) (p : Option G1) (x : F) (r : List F) :
    b.commitRandom p (x :: r) = .ok (⟨b.points ++ [p], b.scalars ++ [x]⟩, r) := by
  unfold Builder.commitRandom
  rw [if_neg (by omega)]
  rfl

theorem blindLoop_ok {V : Env F G1 G2} {g : Generators G1} {msgs : List (Int × F)} {b : Builder F G1}
    {pts : List (Option G1)} {secs rs r' : List F} (h1 : ∀ p ∈ msgs, 0 ≤ p.1 ∧ p.1 ≤ g.length)
    (h2 : b.points.length + msgs.length ≤ 65536) (h3 : rs.length = msgs.length) :
    blindLoop V g msgs b pts secs (rs ++ r') =
      .ok (⟨b.points ++ pointsOf V g msgs, b.scalars ++ rs⟩, pts ++ pointsOf V g msgs,
        secs ++ msgs.map Prod.snd, r') := by
  induction msgs generalizing b pts secs rs with
  | nil =>
    have : rs = [] := List.length_eq_zero_iff.mp h3
    subst this
    simp [blindLoop, pointsOf]
  | cons p msgs ih =>
    obtain ⟨i, m⟩ := p
    cases rs with
    | nil => simp at h3
    | cons x rs =>
      have := h1 (i, m) (by simp)
      simp only [List.length_cons] at h2 h3
      rw [blindLoop, if_neg (by simp only [] at this; omega)]
      simp only []
      rw [List.cons_append, commitRandom_ok (by omega), Res.bind_ok]
      simp only []
      rw [ih (fun p hp => h1 p (by simp [hp])) (by simp only [List.length_append, List.length_cons, List.length_nil]; omega)
        (by omega)]
      simp [pointsOf]

theorem pointsOf_some {V : Env F G1 G2} {w : G2} {n : Int} {g : Generators G1}
    (h : Generators.init V w n = .ok g) {msgs : List (Int × F)} (h1 : ∀ p ∈ msgs, p.1 < n) :
    pointsOf V g msgs = (List.replicate msgs.length g.h0).map some := by
  unfold pointsOf
  induction msgs with
  | nil => rfl
  | cons p msgs ih =>
    have := h1 p (by simp)
    rw [List.map_cons, get_eq h, if_pos (by omega), ih (fun p hp => h1 p (by simp [hp]))]
    rfl

theorem msm_rep (P : G1) (k : Nat) (a : List F) (h : k = a.length) :
    msm (List.replicate k P) a = a.sum • P :=
  msm_const P _ a (by simp [h]) (fun q hq => List.eq_of_mem_replicate hq)

/-- the messages a signer does not know, by index -/
def unknown (n : Nat) (known : List Int) : List Nat := (List.range n).filter fun (i : Nat) => !known.contains (i : Int)

/-- the outcome of `BlindSignatureContext.Verify` -/
theorem blindVerify_eq {V : Env F G1 G2} {g : Generators G1} {H : Nat → G1}
    (hH : ∀ i : Nat, i ≤ g.length → g.get V i = some (H i)) (c : BlindCtx F G1) (known : List Int) (nonce : F) :
    c.verify V known g nonce =
      if ∃ i ∈ known, i > g.length then .err
      else if c.proofs.length ≠ (unknown g.length known).length + 1 then .panic
      else if blindChallenge V (V.cmp1 (msm ((unknown g.length known).map (fun i => H (i + 1)) ++ [H 0]) c.proofs -
          c.challenge • c.commitment)) c.commitment nonce = c.challenge then .ok () else .err := by
  have e0 : (known.any fun i => decide (i > (g.length : Int))) = true ↔ ∃ i ∈ known, i > g.length := by
    simp
  unfold BlindCtx.verify
  by_cases h1 : ∃ i ∈ known, i > g.length
  · rw [if_pos (e0.mpr h1), if_pos h1]
  rw [if_neg (fun h => h1 (e0.mp h)), if_neg h1]
  have e1 : (((List.range g.length).filter fun (i : Nat) => !known.contains (i : Int)).map
      fun (i : Nat) => g.get V (i + 1)) ++ [g.get V 0, some c.commitment] =
      (((unknown g.length known).map (fun i => H (i + 1)) ++ [H 0]) ++ [c.commitment]).map some := by
    rw [List.map_append, List.map_append, List.map_map, List.append_assoc]
    congr 1
    · unfold unknown
      apply List.map_congr_left
      intro i hi
      rw [List.mem_filter, List.mem_range] at hi
      have := hH (i + 1) (by omega)
      rw [Nat.cast_add, Nat.cast_one] at this
      rw [this]
      rfl
    · have := hH 0 (by omega)
      rw [Nat.cast_zero] at this
      rw [this]
      rfl
  simp only [e1]
  by_cases h2 : c.proofs.length = (unknown g.length known).length + 1
  · rw [sop_some (by simp [h2]), if_neg (by omega)]
    simp only [deref, Res.bind_ok]
    rw [Bulletproof.msm_append (by simp [h2]), Bulletproof.msm_cons, Bulletproof.msm_nil, add_zero, neg_smul,
      ← sub_eq_add_neg]
  · rw [sop_mismatch (by simp; omega), if_pos h2]
    rfl

theorem unknown_length {n : Nat} {hidden known : List Int}
    (hp : (hidden ++ known).Perm ((List.range n).map fun (i : Nat) => (i : Int))) :
    (unknown n known).length = hidden.length := by
  have hnd : (hidden ++ known).Nodup :=
    hp.nodup_iff.mpr (List.Nodup.map (fun a b h => by simpa using h) List.nodup_range)
  have h1 : (((hidden ++ known).filter fun i => !known.contains i)).length = hidden.length := by
    rw [List.filter_append]
    have ha : hidden.filter (fun i => !known.contains i) = hidden := by
      rw [List.filter_eq_self]
      intro a ha
      have := List.disjoint_of_nodup_append hnd ha
      simpa using this
    have hb : known.filter (fun i => !known.contains i) = [] := by
      rw [List.filter_eq_nil_iff]
      intro a ha
      simp [ha]
    rw [ha, hb, List.append_nil]
  rw [(hp.filter _).length_eq, List.filter_map, List.length_map] at h1
  exact h1

/-! ### C78 -/

/-- **C78** The exact outcome of `BlindSignatureContext.Verify` for a signer that knows the messages with the
listed indices: an index above the number of generators is an error; a context whose number of proofs is not
one more than the number of unknown messages makes the call *panic*; otherwise it accepts exactly when the
challenge is the hash of `Σ proofⱼ·hⱼ − c·C` (over the unknown indices in ascending order and `h₀` last),
of the commitment `C` and of the nonce. -/
theorem C78_verify_exact {V : Env F G1 G2} {g : Generators G1} {H : Nat → G1}
    (hH : ∀ i : Nat, i ≤ g.length → g.get V i = some (H i)) (c : BlindCtx F G1) (known : List Int) (nonce : F) :
    (c.verify V known g nonce = .ok () ↔
      (∀ i ∈ known, i ≤ g.length) ∧
      c.proofs.length = ((List.range g.length).filter fun (i : Nat) => !known.contains (i : Int)).length + 1 ∧
      c.challenge = V.chal [.append "new blind signature" [],
        .append "random commitment" (V.cmp1 (msm (((List.range g.length).filter
          fun (i : Nat) => !known.contains (i : Int)).map (fun i => H (i + 1)) ++ [H 0]) c.proofs -
            c.challenge • c.commitment)),
        .append "blind commitment" (V.cmp1 c.commitment), .append "nonce" (V.bytes nonce)]
          "blind signature context challenge") ∧
    (c.verify V known g nonce = .panic ↔
      (∀ i ∈ known, i ≤ g.length) ∧
      c.proofs.length ≠ ((List.range g.length).filter fun (i : Nat) => !known.contains (i : Int)).length + 1) := by
  rw [blindVerify_eq hH]
  by_cases h1 : ∃ i ∈ known, i > g.length
  · rw [if_pos h1]
    have : ¬ ∀ i ∈ known, i ≤ (g.length : Int) := by
      intro h
      obtain ⟨i, hi, hg⟩ := h1
      have := h i hi
      omega
    constructor
    · exact ⟨nofun, fun h => absurd h.1 this⟩
    · exact ⟨nofun, fun h => absurd h.1 this⟩
  rw [if_neg h1]
  have h1' : ∀ i ∈ known, i ≤ (g.length : Int) := fun i hi => by
    by_contra hlt
    exact h1 ⟨i, hi, by omega⟩
  by_cases h2 : c.proofs.length ≠ (unknown g.length known).length + 1
  · rw [if_pos h2]
    constructor
    · exact ⟨nofun, fun h => absurd h.2.1 h2⟩
    · exact ⟨fun _ => ⟨h1', h2⟩, fun _ => rfl⟩
  rw [if_neg h2]
  have h2' : c.proofs.length = (unknown g.length known).length + 1 := by omega
  constructor
  · constructor
    · intro h
      split at h
      · rename_i h3
        exact ⟨h1', h2', h3.symm⟩
      · exact nomatch h
    · rintro ⟨_, _, h3⟩
      rw [if_pos]
      exact h3.symm
  · constructor
    · intro h
      split at h <;> exact nomatch h
    · rintro ⟨_, h3⟩
      exact absurd h3 h2

/-- **C78** The context: for hidden messages with indices below the number of generators (at most 65535 of
them, and a reader that yields a scalar for each, the blinding and one more), `NewBlindSignatureContext`
succeeds for *every* iteration order of the map, returns the drawn blinding, and commits to the messages:
`C = Σ mᵢ·hᵢ + blinding·h₀`. -/
theorem C78_new_context {V : Env F G1 G2} {w : G2} {n : Int} {g : Generators G1}
    (h : Generators.init V w n = .ok g) (hidden : List (Int × F)) (hi : ∀ p ∈ hidden, 0 ≤ p.1 ∧ p.1 < n)
    (hk : hidden.length ≤ 65535) (nonce : F) {rs r' : List F} (hrs : rs.length = hidden.length) (bl k : F) :
    ∃ ctx, newBlindCtx V hidden g nonce (rs ++ bl :: k :: r') = .ok (ctx, bl) ∧
      ctx.proofs.length = hidden.length + 1 ∧
      some ctx.commitment = sop (hidden.map (fun p => g.get V (p.1 + 1)) ++ [g.get V 0])
        (hidden.map Prod.snd ++ [bl]) ∧
      ctx.commitment = ((hidden.map Prod.snd).sum + bl) • g.h0 := by
  have hl := (init_ok h).2.1
  have h0 := get_eq h 0
  rw [if_pos (init_ok h).1] at h0
  have e : pointsOf V g hidden ++ [g.get V 0] = (List.replicate (hidden.length + 1) g.h0).map some := by
    rw [pointsOf_some h (fun p hp => (hi p hp).2), h0, List.replicate_succ', List.map_append]
    rfl
  have es : sop (pointsOf V g hidden ++ [g.get V 0]) (hidden.map Prod.snd ++ [bl]) =
      some (((hidden.map Prod.snd).sum + bl) • g.h0) := by
    rw [e, sop_some (by simp), msm_rep _ _ _ (by simp), List.sum_append]
    simp
  unfold newBlindCtx
  rw [blindLoop_ok (fun p hp => ⟨(hi p hp).1, by have := (hi p hp).2; omega⟩)
    (by simp only [Builder.new, List.length_nil]; omega) hrs, Res.bind_ok]
  simp only [draw, Res.bind_ok, Builder.new, List.nil_append]
  rw [commitRandom_ok (by simp [pointsOf]; omega), Res.bind_ok]
  simp only []
  rw [es]
  simp only [deref, Res.bind_ok, Builder.generateProof]
  rw [if_neg (by simp [hrs]), Res.bind_ok]
  refine ⟨_, rfl, ?_, ?_, rfl⟩
  · simp [hrs]
  · exact es.symm

theorem zipWith_mulAdd_sum (c : F) : ∀ (a b : List F), a.length = b.length →
    (List.zipWith (fun x y => x * c + y) a b).sum = a.sum * c + b.sum
  | [], [], _ => by simp
  | x :: a, y :: b, h => by
    rw [List.zipWith_cons_cons, List.sum_cons, zipWith_mulAdd_sum c a b (by simpa using h), List.sum_cons,
      List.sum_cons]
    ring
  | [], _ :: _, h => by simp at h
  | _ :: _, [], h => by simp at h

/-- what a successful `NewBlindSignatureContext` has computed -/
theorem newBlindCtx_inv {V : Env F G1 G2} {w : G2} {n : Int} {g : Generators G1}
    (h : Generators.init V w n = .ok g) {hidden : List (Int × F)} {nonce : F} {r : List F} {ctx : BlindCtx F G1}
    {bl : F} (hc : newBlindCtx V hidden g nonce r = .ok (ctx, bl)) (hi : ∀ p ∈ hidden, p.1 < n) :
    ∃ rs k, rs.length = hidden.length ∧ ctx.commitment = ((hidden.map Prod.snd).sum + bl) • g.h0 ∧
      ctx.challenge = blindChallenge V (V.cmp1 ((rs.sum + k) • g.h0)) ctx.commitment nonce ∧
      ctx.proofs = List.zipWith (fun sec sc => sec * ctx.challenge + sc) (hidden.map Prod.snd ++ [bl]) (rs ++ [k]) := by
  have h0 := get_eq h 0
  rw [if_pos (init_ok h).1] at h0
  have e : pointsOf V g hidden ++ [g.get V 0] = (List.replicate (hidden.length + 1) g.h0).map some := by
    rw [pointsOf_some h hi, h0, List.replicate_succ', List.map_append]
    rfl
  unfold newBlindCtx at hc
  rw [Res.bind_eq_ok] at hc
  obtain ⟨⟨b, pts, secs, r1⟩, hb, hc⟩ := hc
  obtain ⟨_, _, rs, h3, h4, h5, h6, h7⟩ := blindLoop_inv hb
  subst h5 h6 h7
  simp only [Builder.new, List.nil_append] at hc
  cases r1 with
  | nil => exact nomatch hc
  | cons bl' r1 =>
    simp only [draw, Res.bind_ok, Builder.commitRandom] at hc
    split at hc
    · exact nomatch hc
    cases r1 with
    | nil => exact nomatch hc
    | cons k r1 =>
      simp only [draw, Res.bind_ok] at hc
      rw [e, sop_some (by simp), msm_rep _ _ _ (by simp)] at hc
      simp only [deref, Res.bind_ok, Builder.generateProof] at hc
      rw [if_neg (by simp [h4]), Res.bind_ok] at hc
      injection hc with hc
      simp only [Prod.mk.injEq] at hc
      obtain ⟨rfl, rfl⟩ := hc
      refine ⟨rs, k, h4, ?_, ?_, ?_⟩
      · simp [List.sum_append]
      · simp only [Builder.contribution]
        rw [sop_some (by simp [h4]), msm_rep _ _ _ (by simp [h4])]
        simp [List.sum_append]
      · simp only [Builder.contribution]

/-- **C78** Completeness of the context: whatever the order in which the holder's map was visited, the signer
that knows exactly the remaining messages accepts the holder's context under the same nonce. -/
theorem C78_context_verifies {V : Env F G1 G2} {w : G2} {n : Int} {g : Generators G1}
    (h : Generators.init V w n = .ok g) (hidden : List (Int × F)) (known : List Int)
    (hp : (hidden.map Prod.fst ++ known).Perm ((List.range g.length).map fun (i : Nat) => (i : Int)))
    {nonce : F} {r : List F} {ctx : BlindCtx F G1} {bl : F}
    (hc : newBlindCtx V hidden g nonce r = .ok (ctx, bl)) : ctx.verify V known g nonce = .ok () := by
  have hl := (init_ok h).2.1
  have hin : ∀ i ∈ hidden.map Prod.fst ++ known, i < n := by
    intro i hi
    have := hp.mem_iff.mp hi
    rw [List.mem_map] at this
    obtain ⟨j, hj, rfl⟩ := this
    rw [List.mem_range] at hj
    omega
  obtain ⟨rs, k, h1, h2, h3, h4⟩ := newBlindCtx_inv h hc
    (fun p hp => hin p.1 (List.mem_append_left _ (List.mem_map_of_mem hp)))
  have hH : ∀ i : Nat, i ≤ g.length → g.get V i = some ((fun _ => g.h0) i) := fun i hi => by
    rw [get_eq h, if_pos (by omega)]
  have hu := unknown_length hp
  rw [List.length_map] at hu
  have hpl : ctx.proofs.length = hidden.length + 1 := by
    rw [h4, List.length_zipWith]
    simp [h1]
  rw [blindVerify_eq hH, if_neg, if_neg (by omega), if_pos]
  · have e : msm ((unknown g.length known).map (fun i => (fun _ => g.h0) (i + 1)) ++ [g.h0]) ctx.proofs =
        ctx.proofs.sum • g.h0 := by
      apply msm_const
      · simp [hpl, hu]
      · intro q hq
        rw [List.mem_append] at hq
        rcases hq with hq | hq
        · rw [List.mem_map] at hq
          obtain ⟨_, _, rfl⟩ := hq
          rfl
        · simpa using hq
    rw [e]
    have e2 : ctx.proofs.sum = ((hidden.map Prod.snd).sum + bl) * ctx.challenge + (rs.sum + k) := by
      rw [h4, zipWith_mulAdd_sum _ _ _ (by simp [h1])]
      simp [List.sum_append]
    have e3 : ctx.proofs.sum • g.h0 - ctx.challenge • ctx.commitment = (rs.sum + k) • g.h0 := by
      rw [e2, h2]
      module
    rw [e3]
    exact h3.symm
  · rintro ⟨i, hi, hgt⟩
    have := hin i (List.mem_append_right _ hi)
    omega

/-- the points and scalars of `ToBlindSignature`'s `B` -/
theorem blindB {V : Env F G1 G2} {w : G2} {n : Int} {g : Generators G1}
    (h : Generators.init V w n = .ok g) (C P : G1) (s : F) {known : List (Int × F)} (hi : ∀ p ∈ known, p.1 < n) :
    sop (some C :: some P :: g.get V 0 :: known.map fun p => g.get V (p.1 + 1))
      (1 :: 1 :: s :: known.map Prod.snd) = some (C + P + (s + (known.map Prod.snd).sum) • g.h0) := by
  have h0 := get_eq h 0
  rw [if_pos (init_ok h).1] at h0
  have e : (some C :: some P :: g.get V 0 :: known.map fun p => g.get V (p.1 + 1)) =
      (C :: P :: g.h0 :: List.replicate known.length g.h0).map some := by
    have := pointsOf_some h hi
    unfold pointsOf at this
    rw [this, h0]
    rfl
  rw [e, sop_some (by simp), Bulletproof.msm_cons, Bulletproof.msm_cons, Bulletproof.msm_cons,
    msm_rep _ _ _ (by simp), one_smul, one_smul, add_smul]
  congr 1
  abel

/-- what a successful `ToBlindSignature` has computed: `A = (e + x)⁻¹·(C + g₁ + s·h₀ + Σ mᵢ·hᵢ)`, with `e` and
`s` drawn from SHAKE256 over the secret key, the generators and the *known* messages in index order -/
theorem toBlind_inv {V : Env F G1 G2} (E : Pairing F G1 G2 GT) {w : G2} {n : Int} {g : Generators G1}
    (h : Generators.init V w n = .ok g) {ctx : BlindCtx F G1} {known : List (Int × F)}
    {sk nonce : F} {sig : Signature F G1} (hs : toBlindSignature V E ctx known sk g nonce = .ok sig)
    (hi : ∀ p ∈ known, p.1 < n) :
    sk ≠ 0 ∧ ctx.verify V ((known.map Prod.fst).mergeSort (fun a b => decide (a ≤ b))) g nonce = .ok () ∧
      sig.e + sk ≠ 0 ∧
      sig.a = (sig.e + sk)⁻¹ • (ctx.commitment + E.g1 + (sig.s + (known.map Prod.snd).sum) • g.h0) ∧
      ∃ r r', getNonZero (V.shake (V.bytes sk ++ ((List.replicate (g.length + 1) g.h0).flatMap V.unc1 ++
        (((known.map Prod.fst).mergeSort (fun a b => decide (a ≤ b))).map (lookup known)).flatMap V.bytes))) =
          .ok (sig.e, r) ∧ getNonZero r = .ok (sig.s, r') := by
  unfold toBlindSignature at hs
  split at hs
  · exact nomatch hs
  rename_i hsk
  split at hs
  · exact nomatch hs
  rw [Res.bind_eq_ok] at hs
  obtain ⟨u, hv, hs⟩ := hs
  rw [nonceData_ok h, Res.bind_ok, Res.bind_eq_ok] at hs
  obtain ⟨⟨e, r⟩, he, hs⟩ := hs
  simp only [] at hs
  rw [Res.bind_eq_ok] at hs
  obtain ⟨⟨s, r'⟩, hs', hs⟩ := hs
  simp only [] at hs
  unfold invert at hs
  split at hs
  · exact nomatch hs
  rename_i hne
  rw [Res.bind_ok, blindB h _ _ _ hi] at hs
  simp only [deref, Res.bind_ok] at hs
  injection hs with hs
  subst hs
  exact ⟨hsk, hv, hne, rfl, r, r', he, hs'⟩

/-- **C78** Completeness: the holder's messages are split into hidden and known ones by index; the holder makes
a context for the hidden ones (in any map order), the signer signs it with the known ones (in any map order),
the holder adds the blinding: the result is a signature that verifies on all the messages. -/
theorem C78_blind_sign_verify {V : Env F G1 G2} (E : Pairing F G1 G2 GT) {w : G2} {n : Int} {g : Generators G1}
    (h : Generators.init V w n = .ok g) (hn : 1 ≤ n) (msgs : List F) (hlen : (msgs.length : Int) = n)
    (hidden known : List (Int × F))
    (hp : (hidden ++ known).Perm (msgs.zipIdx.map fun mi => ((mi.2 : Int), mi.1)))
    {nonce sk : F} {r : List F} {ctx : BlindCtx F G1} {bl : F} {sig : Signature F G1}
    (hc : newBlindCtx V hidden g nonce r = .ok (ctx, bl))
    (hs : toBlindSignature V E ctx known sk g nonce = .ok sig) (hA : sig.a ≠ 0) :
    verify V E (publicKey E sk) (toUnblinded sig bl) g msgs = .ok () := by
  have hl := (init_ok h).2.1
  have hin : ∀ p ∈ hidden ++ known, p.1 < n := by
    intro p hp'
    have := hp.mem_iff.mp hp'
    rw [List.mem_map] at this
    obtain ⟨⟨m, j⟩, hj, rfl⟩ := this
    have := List.snd_lt_add_of_mem_zipIdx hj
    simp only [] at this ⊢
    omega
  have hsum : (hidden.map Prod.snd).sum + (known.map Prod.snd).sum = msgs.sum := by
    have := (hp.map Prod.snd).sum_eq
    rw [List.map_append, List.sum_append, List.map_map] at this
    rw [this]
    congr 1
    have : (Prod.snd ∘ fun mi : F × Nat => ((mi.2 : Int), mi.1)) = Prod.fst := rfl
    rw [this, List.zipIdx_map_fst]
  obtain ⟨rs, k, h1, h2, h3, h4⟩ := newBlindCtx_inv h hc (fun p hp' => hin p (List.mem_append_left _ hp'))
  obtain ⟨hsk, _, hne, ha, _⟩ := toBlind_inv E h hs (fun p hp' => hin p (List.mem_append_right _ hp'))
  rw [C76_accepted_equation E h sk (smul_ne_zero hsk (g2_ne E hA))]
  refine ⟨by omega, by omega, hA, ?_⟩
  show (sig.e + sk) • sig.a = E.g1 + (sig.s + bl + msgs.sum) • g.h0
  rw [ha, smul_smul, mul_inv_cancel₀ hne, one_smul, h2, ← hsum]
  module

/-- **C78** and the signer's call succeeds in an honest run: with a non-zero key and `e`, `s` the first two
non-zero draws, unless `e + x = 0`. -/
theorem C78_signer_succeeds {V : Env F G1 G2} (E : Pairing F G1 G2 GT) {w : G2} {n : Int} {g : Generators G1}
    (h : Generators.init V w n = .ok g) (hidden known : List (Int × F))
    (hp : (hidden.map Prod.fst ++ known.map Prod.fst).Perm ((List.range g.length).map fun (i : Nat) => (i : Int)))
    {nonce sk : F} {r : List F} {ctx : BlindCtx F G1} {bl : F}
    (hc : newBlindCtx V hidden g nonce r = .ok (ctx, bl)) (hsk : sk ≠ 0) {e s : F} {r1 r2 : List F}
    (he : getNonZero (V.shake (V.bytes sk ++ ((List.replicate (g.length + 1) g.h0).flatMap V.unc1 ++
        (((known.map Prod.fst).mergeSort (fun a b => decide (a ≤ b))).map (lookup known)).flatMap V.bytes))) =
          .ok (e, r1))
    (hs : getNonZero r1 = .ok (s, r2)) (hne : e + sk ≠ 0) :
    ∃ sig, toBlindSignature V E ctx known sk g nonce = .ok sig ∧ sig.e = e ∧ sig.s = s := by
  have hl := (init_ok h).2.1
  have hin : ∀ i ∈ hidden.map Prod.fst ++ known.map Prod.fst, i < n := by
    intro i hi
    have := hp.mem_iff.mp hi
    rw [List.mem_map] at this
    obtain ⟨j, hj, rfl⟩ := this
    rw [List.mem_range] at hj
    omega
  have hperm : (known.map Prod.fst).mergeSort (fun a b => decide (a ≤ b)) |>.Perm (known.map Prod.fst) :=
    List.mergeSort_perm _ _
  have hv := C78_context_verifies h hidden _ ((List.Perm.append_left _ hperm).trans hp) hc
  unfold toBlindSignature
  rw [if_neg hsk, if_neg]
  · simp only []
    rw [hv, Res.bind_ok, nonceData_ok h, Res.bind_ok, he, Res.bind_ok]
    simp only []
    rw [hs, Res.bind_ok]
    simp only [invert]
    rw [if_neg hne, Res.bind_ok, blindB h _ _ _
      (fun p hp' => hin p.1 (List.mem_append_right _ (List.mem_map_of_mem hp')))]
    exact ⟨_, rfl, rfl, rfl⟩
  · rw [List.any_eq_true]
    rintro ⟨p, hp', hgt⟩
    rw [decide_eq_true_eq] at hgt
    have := hin p.1 (List.mem_append_right _ (List.mem_map_of_mem hp'))
    omega

/-- **C78** Special soundness of the context: from two accepted contexts for the same commitment and the same
first message `Σ proofⱼ·hⱼ − c·C` with different challenges (two answers of one prover under two hash
functions) one computes an opening of the commitment: messages for the unknown generators and a blinding. -/
theorem C78_context_extract {V V' : Env F G1 G2} {g : Generators G1} {H : Nat → G1}
    (hH : ∀ i : Nat, i ≤ g.length → g.get V i = some (H i))
    (hH' : ∀ i : Nat, i ≤ g.length → g.get V' i = some (H i))
    (c c' : BlindCtx F G1) (known : List Int) (nonce : F)
    (hv : c.verify V known g nonce = .ok ()) (hv' : c'.verify V' known g nonce = .ok ())
    (hC : c'.commitment = c.commitment) (hne : c.challenge ≠ c'.challenge)
    (hR : msm ((unknown g.length known).map (fun i => H (i + 1)) ++ [H 0]) c.proofs - c.challenge • c.commitment =
      msm ((unknown g.length known).map (fun i => H (i + 1)) ++ [H 0]) c'.proofs - c'.challenge • c'.commitment) :
    ∃ ms : List F, ∃ bl : F, ms.length = (unknown g.length known).length ∧
      c.commitment = msm ((unknown g.length known).map fun i => H (i + 1)) ms + bl • H 0 := by
  have hl := ((C78_verify_exact hH c known nonce).1.mp hv).2.1
  have hl' := ((C78_verify_exact hH' c' known nonce).1.mp hv').2.1
  change c.proofs.length = (unknown g.length known).length + 1 at hl
  change c'.proofs.length = (unknown g.length known).length + 1 at hl'
  have hd : c.challenge - c'.challenge ≠ 0 := sub_ne_zero.mpr hne
  have e := Bulletproof.msm_mulScs ((unknown g.length known).map (fun i => H (i + 1)) ++ [H 0])
    (c.challenge - c'.challenge)⁻¹ (List.zipWith (· - ·) c.proofs c'.proofs)
  rw [Bulletproof.msm_sub_right (by omega)] at e
  rw [hC] at hR
  have e2 : msm ((unknown g.length known).map (fun i => H (i + 1)) ++ [H 0]) c.proofs -
      msm ((unknown g.length known).map (fun i => H (i + 1)) ++ [H 0]) c'.proofs =
      (c.challenge - c'.challenge) • c.commitment := by
    rw [sub_smul]
    rw [sub_eq_sub_iff_add_eq_add] at hR ⊢
    rw [hR]
    abel
  rw [e2, smul_smul, inv_mul_cancel₀ hd, one_smul] at e
  set sc := Bulletproof.mulScs (c.challenge - c'.challenge)⁻¹ (List.zipWith (· - ·) c.proofs c'.proofs) with hsc
  have hlen : sc.length = (unknown g.length known).length + 1 := by
    rw [hsc]
    unfold Bulletproof.mulScs
    rw [List.length_map, List.length_zipWith]
    omega
  have hne' : sc ≠ [] := by
    intro h
    rw [h] at hlen
    simp at hlen
  refine ⟨sc.dropLast, sc.getLast hne', by rw [List.length_dropLast]; omega, ?_⟩
  conv at e => lhs; rw [← List.dropLast_append_getLast hne']
  rw [Bulletproof.msm_append (by rw [List.length_map, List.length_dropLast]; omega), Bulletproof.msm_cons,
    Bulletproof.msm_nil, add_zero] at e
  exact e.symm

/-- **C78 (negation: reused randomness)** `e` and `s` of a blind signature depend only on the secret key, the
generators and the known messages, not on the commitment: two contexts signed with the same known messages get
the same `e` and `s`, so the difference of the two points is `(e + x)⁻¹·(C − C')`. -/
theorem C78_same_exponent {V : Env F G1 G2} (E : Pairing F G1 G2 GT) {w : G2} {n : Int} {g : Generators G1}
    (h : Generators.init V w n = .ok g) {c c' : BlindCtx F G1} {known : List (Int × F)} {sk nonce nonce' : F}
    {sig sig' : Signature F G1} (hi : ∀ p ∈ known, p.1 < n)
    (hs : toBlindSignature V E c known sk g nonce = .ok sig)
    (hs' : toBlindSignature V E c' known sk g nonce' = .ok sig') :
    sig'.e = sig.e ∧ sig'.s = sig.s ∧ sig.a - sig'.a = (sig.e + sk)⁻¹ • (c.commitment - c'.commitment) := by
  obtain ⟨_, _, _, ha, r, r', h1, h2⟩ := toBlind_inv E h hs hi
  obtain ⟨_, _, _, ha', r0, r0', h1', h2'⟩ := toBlind_inv E h hs' hi
  rw [h1] at h1'
  injection h1' with h1'
  injection h1' with e1 e2
  subst e2
  rw [h2] at h2'
  injection h2' with h2'
  injection h2' with e3 e4
  refine ⟨e1.symm, e3.symm, ?_⟩
  rw [ha, ha', ← e1, ← e3, ← smul_sub]
  congr 1
  abel

/-- **C78 (negation: remote crash)** a context that carries one proof too many (or any wrong number of them)
makes the signer's `ToBlindSignature` panic instead of returning an error. -/
theorem C78_signer_panics {V : Env F G1 G2} (E : Pairing F G1 G2 GT) {w : G2} {n : Int} {g : Generators G1}
    (h : Generators.init V w n = .ok g) (c : BlindCtx F G1) (known : List (Int × F)) (sk nonce : F) (hsk : sk ≠ 0)
    (hi : ∀ p ∈ known, p.1 ≤ n)
    (hl : c.proofs.length ≠ ((List.range g.length).filter
      fun (i : Nat) => !(known.map Prod.fst).contains (i : Int)).length + 1) :
    toBlindSignature V E c known sk g nonce = .panic := by
  have hln := (init_ok h).2.1
  have hH : ∀ i : Nat, i ≤ g.length → g.get V i = some ((fun _ => g.h0) i) := fun i hi => by
    rw [get_eq h, if_pos (by omega)]
  have hperm : ((known.map Prod.fst).mergeSort (fun a b => decide (a ≤ b))).Perm (known.map Prod.fst) :=
    List.mergeSort_perm _ _
  have hc : ∀ i : Int, ((known.map Prod.fst).mergeSort (fun a b => decide (a ≤ b))).contains i =
      (known.map Prod.fst).contains i := fun i => by
    rw [Bool.eq_iff_iff, List.contains_iff_mem, List.contains_iff_mem]
    exact hperm.mem_iff
  have hv : c.verify V ((known.map Prod.fst).mergeSort (fun a b => decide (a ≤ b))) g nonce = .panic := by
    rw [(C78_verify_exact hH c _ nonce).2]
    refine ⟨?_, ?_⟩
    · intro i hi'
      have := hperm.mem_iff.mp hi'
      rw [List.mem_map] at this
      obtain ⟨p, hp, rfl⟩ := this
      have := hi p hp
      omega
    · simp only [hc]
      exact hl
  unfold toBlindSignature
  rw [if_neg hsk, if_neg]
  · simp only []
    rw [hv]
    rfl
  · rw [List.any_eq_true]
    rintro ⟨p, hp', hgt⟩
    rw [decide_eq_true_eq] at hgt
    have := hi p hp'
    omega

/-- **C78 (negation: off-by-one)** the index check of `NewBlindSignatureContext` lets `i = length` through, for
which there is no generator: the call panics (with enough randomness and at most 65535 messages). -/
theorem C78_index_length_panics {V : Env F G1 G2} {w : G2} {n : Int} {g : Generators G1}
    (h : Generators.init V w n = .ok g) (hidden : List (Int × F)) (hi : ∀ p ∈ hidden, 0 ≤ p.1 ∧ p.1 ≤ n)
    (hbad : ∃ p ∈ hidden, p.1 = n) (hk : hidden.length ≤ 65535) (nonce : F) {rs r' : List F}
    (hrs : rs.length = hidden.length) (bl k : F) :
    newBlindCtx V hidden g nonce (rs ++ bl :: k :: r') = .panic := by
  have hl := (init_ok h).2.1
  have hnone : none ∈ pointsOf V g hidden ++ [g.get V 0] := by
    obtain ⟨p, hp, hpn⟩ := hbad
    apply List.mem_append_left
    unfold pointsOf
    rw [List.mem_map]
    refine ⟨p, hp, ?_⟩
    rw [get_eq h, if_neg (by omega)]
  unfold newBlindCtx
  rw [blindLoop_ok (fun p hp => ⟨(hi p hp).1, by have := (hi p hp).2; omega⟩)
    (by simp only [Builder.new, List.length_nil]; omega) hrs, Res.bind_ok]
  simp only [draw, Res.bind_ok, Builder.new, List.nil_append]
  rw [commitRandom_ok (by simp [pointsOf]; omega), Res.bind_ok]
  simp only []
  rw [sop_nil_point hnone]
  rfl

/-- **C78** indices below zero or above the number of generators are refused. -/
theorem C78_index_refused {V : Env F G1 G2} {w : G2} {n : Int} {g : Generators G1}
    (h : Generators.init V w n = .ok g) (hidden : List (Int × F)) (hbad : ∃ p ∈ hidden, p.1 < 0 ∨ n < p.1)
    (nonce : F) (r : List F) : newBlindCtx V hidden g nonce r = .err := by
  have hl := (init_ok h).2.1
  have key : ∀ (msgs : List (Int × F)) (b : Builder F G1) (pts : List (Option G1)) (secs r : List F),
      (∃ p ∈ msgs, p.1 < 0 ∨ n < p.1) → blindLoop V g msgs b pts secs r = .err := by
    intro msgs
    induction msgs with
    | nil =>
      rintro b pts secs r ⟨p, hp, _⟩
      simp at hp
    | cons q msgs ih =>
      obtain ⟨i, m⟩ := q
      rintro b pts secs r ⟨p, hp, hb⟩
      rw [blindLoop]
      split
      · rfl
      rename_i hi
      have hrest : ∃ p ∈ msgs, p.1 < 0 ∨ n < p.1 := by
        rw [List.mem_cons] at hp
        rcases hp with rfl | hp
        · simp only [] at hb
          omega
        · exact ⟨p, hp, hb⟩
      unfold Builder.commitRandom
      split
      · rfl
      cases r with
      | nil => rfl
      | cons x r =>
        simp only [draw, Res.bind_ok]
        exact ih _ _ _ _ hrest
  unfold newBlindCtx
  rw [key _ _ _ _ _ hbad]
  rfl

/-- **C78 (negation: the signer accepts negative indices)** for `ToBlindSignature` a known message under a
negative index is accepted and bound to the blinding generator, i.e. the resulting point is
`(e + x)⁻¹·(C + g₁ + (s + Σ m)·h₀)` with that message in the sum. -/
theorem C78_negative_index {V : Env F G1 G2} (E : Pairing F G1 G2 GT) {w : G2} {n : Int} {g : Generators G1}
    (h : Generators.init V w n = .ok g) {ctx : BlindCtx F G1} {known : List (Int × F)}
    {sk nonce : F} {sig : Signature F G1} (hs : toBlindSignature V E ctx known sk g nonce = .ok sig)
    (hi : ∀ p ∈ known, p.1 < n) :
    sig.a = (sig.e + sk)⁻¹ • (ctx.commitment + E.g1 + (sig.s + (known.map Prod.snd).sum) • g.h0) :=
  (toBlind_inv E h hs hi).2.2.2.1

end Verif.Bbs
