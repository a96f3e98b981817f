import Verif.Bls.Model
import Verif.Base.Tactics
import Mathlib.Algebra.BigOperators.Group.List.Basic
import Mathlib.Algebra.BigOperators.Group.List.Lemmas
import Mathlib.Algebra.Module.BigOperators

/-! C36: BLS signatures, aggregation, proofs of possession. -/

set_option linter.unusedSectionVars false

namespace Verif.Bls

variable {F P S GT CP CS : Type} [Field F] [DecidableEq F] [AddCommGroup P] [Module F P]
  [AddCommGroup S] [Module F S] [CommGroup GT] [DecidableEq GT]
variable (V : Env F P S GT CP CS)

namespace CurveGroup
variable {G C : Type} [AddCommGroup G] [Module F G] (K : CurveGroup F G C)
@[simp] theorem inSub_ι (g : G) : K.inSub (K.ι g) = true := (K.inSub_iff _).mpr ⟨g, rfl⟩
theorem isId_ι (g : G) : K.isId (K.ι g) = true ↔ g = 0 := by
  rw [K.isId_iff]; exact ⟨fun h => K.inj h, fun h => by rw [h]⟩
theorem isId_ι_false {g : G} (h : g ≠ 0) : K.isId (K.ι g) = false := by
  rw [← Bool.not_eq_true, K.isId_ι]; exact h
end CurveGroup

open Classical in
/-- The key of `sk`, where it exists. -/
theorem getPublicKey_eq (sk : F) :
    getPublicKey V sk = if sk • V.E.g1 = 0 then .err else .ok (V.kp.ι (sk • V.E.g1)) := by
  rw [getPublicKey, gen, V.kp.mul_ι]
  by_cases h : sk • V.E.g1 = 0
  · rw [if_pos h]
    simp [(V.kp.isId_ι (sk • V.E.g1)).mpr h]
  · rw [if_neg h]
    simp [V.kp.isId_ι_false h]

theorem createSignature_eq (sk : F) (m dst : List UInt8) :
    createSignature V sk (some m) dst =
      if sk = 0 then .err else .ok (V.sg.ι (sk • V.hash m dst)) := by
  simp only [createSignature, hashPt, V.sg.mul_ι]
  simp

/-- Verification under the key of `sk`, as a statement about group elements. -/
theorem verify_eq (sk : F) (hk : sk • V.E.g1 ≠ 0) (m dst : List UInt8) (s : S) (hs : s ≠ 0) :
    verifySignature V (V.kp.ι (sk • V.E.g1)) (some m) (V.sg.ι s) dst = .ok true ↔
      s = sk • V.hash m dst := by
  have hcomm : V.E.e (sk • V.E.g1) (V.hash m dst) = V.E.e V.E.g1 (sk • V.hash m dst) := V.E.smul_swap _ _ _
  simp only [verifySignature, hashPt, V.kp.isId_ι_false hk, V.sg.isId_ι_false hs, gen, V.neg_s_ι,
    V.neg_p_ι, V.pair_ι, CurveGroup.inSub_ι, V.E.neg_left, V.E.neg_right, hcomm]
  cases V.variant.minSig
  · simp only [Bool.false_eq_true, if_false, Bool.not_true, Bool.or_self, Res.ok.injEq,
      decide_eq_true_eq, mul_inv_eq_one, V.E.e_g1_inj]
    exact eq_comm
  · simp only [Bool.false_eq_true, if_false, Bool.not_true, Bool.or_self, Res.ok.injEq,
      decide_eq_true_eq, if_true]
    rw [mul_comm, mul_inv_eq_one, V.E.e_g1_inj]

/-- **C36.** Under the public key of `sk`, exactly one curve point verifies for a message: the one
`Sign` computes (and none at all if that one is the identity).  Points outside the prime-order subgroup
never verify. -/
theorem C36_verify_iff (sk : F) (pk : CP) (hpk : getPublicKey V sk = .ok pk) (m dst : List UInt8)
    (sig : CS) :
    basicVerify V dst pk (some m) sig = .ok true ↔
      basicSign V dst sk (some m) = .ok sig ∧ sig ≠ V.sg.ι 0 := by
  rw [getPublicKey_eq] at hpk
  split at hpk
  · cases hpk
  rename_i hk
  simp only [Res.ok.injEq] at hpk
  subst hpk
  have hsk : sk ≠ 0 := by rintro rfl; rw [zero_smul] at hk; exact hk rfl
  rw [basicSign, createSignature_eq, if_neg hsk, basicVerify]
  by_cases hin : V.sg.inSub sig = true
  · obtain ⟨s, rfl⟩ := (V.sg.inSub_iff sig).mp hin
    by_cases hs : s = 0
    · subst hs
      simp [verifySignature, V.kp.isId_ι_false hk, (V.sg.isId_ι (0 : S)).mpr rfl]
    · rw [verify_eq V sk hk m dst s hs]
      constructor
      · rintro rfl
        exact ⟨rfl, fun h => hs (V.sg.inj h)⟩
      · rintro ⟨h, -⟩
        exact (V.sg.inj (Res.ok.inj h)).symm
  · have hf : V.sg.inSub sig = false := by simpa using hin
    constructor
    · intro h
      simp [verifySignature, V.kp.isId_ι_false hk, hf] at h
    · rintro ⟨h, -⟩
      rw [← Res.ok.inj h, V.sg.inSub_ι] at hf
      cases hf

/-- **C36 (completeness).** What `Sign` produces verifies, for every non-zero key and every message that
does not hash to the identity. -/
theorem C36_complete (sk : F) (pk : CP) (hpk : getPublicKey V sk = .ok pk) (m dst : List UInt8)
    (hm : V.hash m dst ≠ 0) :
    ∃ sig, basicSign V dst sk (some m) = .ok sig ∧ basicVerify V dst pk (some m) sig = .ok true := by
  have hk := hpk
  rw [getPublicKey_eq] at hk
  split at hk
  · cases hk
  rename_i hk0
  have hsk : sk ≠ 0 := by rintro rfl; rw [zero_smul] at hk0; exact hk0 rfl
  refine ⟨V.sg.ι (sk • V.hash m dst), ?_, ?_⟩
  · rw [basicSign, createSignature_eq, if_neg hsk]
  · rw [C36_verify_iff V sk pk hpk]
    refine ⟨by rw [basicSign, createSignature_eq, if_neg hsk], fun h => ?_⟩
    exact (smul_ne_zero hsk hm) (V.sg.inj h)

/-- **C36 (uniqueness).** No two different signatures verify for the same key and message. -/
theorem C36_unique (sk : F) (pk : CP) (hpk : getPublicKey V sk = .ok pk) (m dst : List UInt8)
    (sig sig' : CS) (h : basicVerify V dst pk (some m) sig = .ok true)
    (h' : basicVerify V dst pk (some m) sig' = .ok true) : sig = sig' := by
  obtain ⟨h1, -⟩ := (C36_verify_iff V sk pk hpk m dst sig).mp h
  obtain ⟨h2, -⟩ := (C36_verify_iff V sk pk hpk m dst sig').mp h'
  rw [h1] at h2
  exact Res.ok.inj h2

/-- **C36.** The guards: signing fails exactly on the nil message or the zero key; the zero key has no
public key; verification never accepts a nil message, an identity key, an identity signature or a
signature outside the subgroup. -/
theorem C36_guards (sk : F) (m : Option (List UInt8)) (dst : List UInt8) (pk : CP) (sig : CS) :
    (basicSign V dst sk m = .err ↔ m = none ∨ sk = 0) ∧
    (getPublicKey V (0 : F) = .err) ∧
    (m = none ∨ pk = V.kp.ι 0 ∨ sig = V.sg.ι 0 ∨ V.sg.inSub sig = false →
      basicVerify V dst pk m sig = .err) := by
  refine ⟨?_, ?_, ?_⟩
  · rcases m with _ | m
    · simp [basicSign, createSignature]
    · rw [basicSign, createSignature_eq]
      by_cases h : sk = 0 <;> simp [h]
  · rw [getPublicKey_eq, if_pos (zero_smul _ _)]
  · intro h
    rcases m with _ | m
    · rfl
    rw [basicVerify, verifySignature]
    rcases h with h | h | h | h
    · cases h
    · rw [if_pos ((V.kp.isId_iff pk).mpr h)]
    · split
      · rfl
      · rw [if_pos (by rw [(V.sg.isId_iff sig).mpr h]; rfl)]
    · split
      · rfl
      · rw [if_pos (by rw [h]; simp)]

/-! ### aggregation -/

theorem foldlM_curve {G C : Type} [AddCommGroup G] [Module F G] (K : CurveGroup F G C) (l : List C) (a : G) (r : C) :
    l.foldlM (fun r s => if !K.inSub s then Res.err else Res.ok (K.add r s)) (K.ι a) = .ok r ↔
      ∃ gs : List G, l = gs.map K.ι ∧ r = K.ι (a + gs.sum) := by
  induction l generalizing a with
  | nil =>
    rw [List.foldlM_nil]
    constructor
    · intro h
      exact ⟨[], rfl, by simpa using (Res.ok.inj h).symm⟩
    · rintro ⟨gs, h1, h2⟩
      rw [eq_comm, List.map_eq_nil_iff] at h1
      subst h1
      rw [h2, List.sum_nil, add_zero]; rfl
  | cons c l ih =>
    rw [List.foldlM_cons]
    by_cases hin : K.inSub c = true
    · obtain ⟨g, rfl⟩ := (K.inSub_iff c).mp hin
      simp only [CurveGroup.inSub_ι, Bool.not_true, Bool.false_eq_true, if_false, Res.bind_ok,
        K.add_ι]
      rw [ih]
      constructor
      · rintro ⟨gs, rfl, rfl⟩
        exact ⟨g :: gs, rfl, by rw [List.sum_cons, add_assoc]⟩
      · rintro ⟨gs, h1, h2⟩
        rcases gs with _ | ⟨g', gs⟩
        · cases h1
        · simp only [List.map_cons, List.cons.injEq] at h1
          obtain ⟨h3, h4⟩ := h1
          have := K.inj h3
          subst this
          exact ⟨gs, h4, by rw [h2, List.sum_cons, add_assoc]⟩
    · have hf : K.inSub c = false := by simpa using hin
      simp only [hf, Bool.not_false, if_true, Res.bind_err]
      constructor
      · intro h; cases h
      · rintro ⟨gs, h1, -⟩
        rcases gs with _ | ⟨g', gs⟩
        · cases h1
        · simp only [List.map_cons, List.cons.injEq] at h1
          rw [h1.1, K.inSub_ι] at hf
          cases hf

theorem aggregateSignatures_iff (sigs : List CS) (r : CS) :
    aggregateSignatures V sigs = .ok r ↔
      sigs ≠ [] ∧ ∃ ss : List S, sigs = ss.map V.sg.ι ∧ r = V.sg.ι ss.sum := by
  rw [aggregateSignatures]
  by_cases h : sigs = []
  · subst h; simp
  · have : ¬ sigs.length < 1 := by
      have := List.length_pos_iff.mpr h; omega
    rw [if_neg this, foldlM_curve]
    simp only [zero_add]
    exact ⟨fun h' => ⟨h, h'⟩, fun h' => h'.2⟩

theorem aggregatePublicKeys_iff (pks : List CP) (r : CP) :
    aggregatePublicKeys V pks = .ok r ↔
      pks ≠ [] ∧ ∃ ps : List P, pks = ps.map V.kp.ι ∧ r = V.kp.ι ps.sum := by
  rw [aggregatePublicKeys]
  by_cases h : pks = []
  · subst h; simp
  · have : ¬ pks.length < 1 := by
      have := List.length_pos_iff.mpr h; omega
    rw [if_neg this, foldlM_curve]
    simp only [zero_add]
    exact ⟨fun h' => ⟨h, h'⟩, fun h' => h'.2⟩

theorem aggLoop_eq (dst : List UInt8) (sks : List F) (msgs : List (List UInt8))
    (hl : sks.length = msgs.length) (hk : ∀ sk ∈ sks, sk • V.E.g1 ≠ 0) (acc : GT) :
    aggLoop V dst ((sks.map fun sk => V.kp.ι (sk • V.E.g1)).zip msgs) acc =
      .ok (acc * V.E.e V.E.g1 ((sks.zip msgs).map fun x => x.1 • V.hash x.2 dst).sum) := by
  induction sks generalizing msgs acc with
  | nil =>
    simp only [List.map_nil, List.zip_nil_left, aggLoop, List.sum_nil, V.E.zero_right, mul_one]
  | cons sk sks ih =>
    rcases msgs with _ | ⟨m, msgs⟩
    · simp at hl
    · have h0 := hk sk (by simp)
      simp only [List.map_cons, List.zip_cons_cons, aggLoop, V.kp.isId_ι_false h0,
        CurveGroup.inSub_ι, Bool.not_true, Bool.or_self, Bool.false_eq_true, if_false, hashPt,
        V.pair_ι]
      rw [ih msgs (by simpa using hl) (fun s hs => hk s (by simp [hs]))]
      rw [List.sum_cons, V.E.add_right, V.E.smul_swap, mul_assoc]

theorem coreAggregateVerify_iff (dst : List UInt8) (sks : List F) (msgs : List (List UInt8))
    (hk : ∀ sk ∈ sks, sk • V.E.g1 ≠ 0) (s : S) :
    coreAggregateVerify V (V.sg.ι s) (sks.map fun sk => V.kp.ι (sk • V.E.g1)) msgs dst = .ok true ↔
      sks ≠ [] ∧ sks.length = msgs.length ∧
      s = ((sks.zip msgs).map fun x => x.1 • V.hash x.2 dst).sum := by
  rw [coreAggregateVerify]
  by_cases h1 : sks = []
  · subst h1; simp
  have h1' := List.length_pos_iff.mpr h1
  by_cases hl : sks.length = msgs.length
  · rw [if_neg (by rw [List.length_map]; omega), if_neg (by omega),
      if_neg (by rw [List.length_map]; omega), if_neg (by simp), aggLoop_eq V dst sks msgs hl hk]
    simp only [Res.bind_ok, Res.ok.injEq, decide_eq_true_eq, gen, V.neg_p_ι, V.pair_ι, one_mul,
      V.E.neg_left, mul_inv_eq_one, V.E.e_g1_inj]
    simp only [ne_eq, h1, not_false_eq_true, hl, true_and]
    exact eq_comm
  · constructor
    · intro h
      rw [if_neg (by rw [List.length_map]; omega)] at h
      split at h
      · cases h
      rw [if_pos (by rw [List.length_map]; exact hl)] at h
      cases h
    · rintro ⟨-, h, -⟩; exact absurd h hl

theorem allRowsUnique_iff (l seen : List (List UInt8)) :
    allRowsUnique l seen = true ↔ l.Nodup ∧ ∀ r ∈ l, r ∉ seen := by
  induction l generalizing seen with
  | nil => simp [allRowsUnique]
  | cons r l ih =>
    rw [allRowsUnique]
    split
    · rename_i h
      simp only [Bool.false_eq_true, false_iff]
      rintro ⟨-, h2⟩
      exact h2 r (by simp) h
    · rename_i h
      rw [ih, List.nodup_cons]
      constructor
      · rintro ⟨h1, h2⟩
        refine ⟨⟨fun hm => h2 r hm (by simp), h1⟩, ?_⟩
        intro x hx
        rcases List.mem_cons.mp hx with rfl | hx
        · exact h
        · exact fun hs => h2 x hx (by simp [hs])
      · rintro ⟨⟨h1, h2⟩, h3⟩
        refine ⟨h2, fun x hx hs => ?_⟩
        rcases List.mem_cons.mp hs with rfl | hs
        · exact h1 hx
        · exact h3 x (by simp [hx]) hs

/-- public keys of a list of secret keys -/
def keysOf (sks : List F) : List CP := sks.map fun sk => V.kp.ι (sk • V.E.g1)

/-- **C36.** `AggregateVerify` of the Basic and Pop schemes accepts exactly when the messages are
pairwise distinct, there are as many keys as messages (at least one), there is at least one signature,
all signatures lie in the subgroup, and the *sum* of the signatures is the sum of the honest ones. -/
theorem C36_aggregate_iff (dst : List UInt8) (sks : List F) (msgs : List (List UInt8))
    (sigs : List CS) (hk : ∀ sk ∈ sks, sk • V.E.g1 ≠ 0) :
    basicAggregateVerify V dst (keysOf V sks) msgs sigs = .ok true ↔
      msgs.Nodup ∧ sks ≠ [] ∧ sks.length = msgs.length ∧ sigs ≠ [] ∧
      ∃ ss : List S, sigs = ss.map V.sg.ι ∧
        ss.sum = ((sks.zip msgs).map fun x => x.1 • V.hash x.2 dst).sum := by
  rw [basicAggregateVerify]
  by_cases hu : allRowsUnique msgs [] = true
  · have hnd := ((allRowsUnique_iff msgs []).mp hu).1
    rw [if_neg (by simp [hu]), Res.bind_eq_ok]
    constructor
    · rintro ⟨asig, h1, h2⟩
      obtain ⟨a1, ss, a2, rfl⟩ := (aggregateSignatures_iff V sigs asig).mp h1
      obtain ⟨b1, b2, b3⟩ := (coreAggregateVerify_iff V dst sks msgs hk _).mp h2
      exact ⟨hnd, b1, b2, a1, ss, a2, b3⟩
    · rintro ⟨-, b1, b2, a1, ss, a2, b3⟩
      exact ⟨_, (aggregateSignatures_iff V sigs _).mpr ⟨a1, ss, a2, rfl⟩,
        (coreAggregateVerify_iff V dst sks msgs hk _).mpr ⟨b1, b2, b3⟩⟩
  · have hf : allRowsUnique msgs [] = false := by simpa using hu
    rw [if_pos (by simp [hf])]
    constructor
    · intro h; cases h
    · rintro ⟨h, -⟩
      exact absurd ((allRowsUnique_iff msgs []).mpr ⟨h, by simp⟩) hu

/-- **C36.** Honest signatures on pairwise distinct messages aggregate to something that verifies, for
any number of signers. -/
theorem C36_aggregate_complete (dst : List UInt8) (sks : List F) (msgs : List (List UInt8))
    (hk : ∀ sk ∈ sks, sk • V.E.g1 ≠ 0) (hne : sks ≠ []) (hl : sks.length = msgs.length)
    (hd : msgs.Nodup) :
    ∃ sigs, (sks.zip msgs).mapM (fun x => basicSign V dst x.1 (some x.2)) = .ok sigs ∧
      basicAggregateVerify V dst (keysOf V sks) msgs sigs = .ok true := by
  have hm : ∀ l : List (F × List UInt8), (∀ x ∈ l, x.1 ≠ 0) →
      l.mapM (fun x => basicSign V dst x.1 (some x.2)) =
        .ok ((l.map fun x => x.1 • V.hash x.2 dst).map V.sg.ι) := by
    intro l
    induction l with
    | nil => intro _; rfl
    | cons x l ih =>
      intro h
      rw [List.mapM_cons, ih (fun y hy => h y (by simp [hy])), basicSign, createSignature_eq,
        if_neg (h x (by simp))]
      rfl
  have hsk : ∀ x ∈ sks.zip msgs, x.1 ≠ 0 := by
    rintro ⟨a, b⟩ hx rfl
    apply hk 0 (List.of_mem_zip hx).1
    exact zero_smul _ _
  refine ⟨_, hm _ hsk, ?_⟩
  rw [C36_aggregate_iff V dst sks msgs _ hk]
  refine ⟨hd, hne, hl, ?_, _, rfl, rfl⟩
  have h1 := List.length_pos_iff.mpr hne
  apply List.length_pos_iff.mp
  simp only [List.length_map, List.length_zip]
  omega

/-- **C36.** Repeated messages are refused by the Basic and Pop schemes. -/
theorem C36_repeated_messages_refused (dst : List UInt8) (pks : List CP) (msgs : List (List UInt8))
    (sigs : List CS) (h : ¬ msgs.Nodup) : basicAggregateVerify V dst pks msgs sigs = .err := by
  rw [basicAggregateVerify, if_pos]
  have : allRowsUnique msgs [] ≠ true := fun hc => h ((allRowsUnique_iff msgs []).mp hc).1
  simpa using this

/-! ### message augmentation -/

/-- **C36.** The augmentation scheme is the basic scheme on `pk ‖ msg`: only the point `Sign` computes
verifies.  The minimal-pubkey-size variant refuses to sign the empty message, the other one does not. -/
theorem C36_aug_verify_iff (sk : F) (pk : CP) (hpk : getPublicKey V sk = .ok pk) (m dst : List UInt8)
    (hm : V.variant.minSig = true ∨ m ≠ []) (sig : CS) :
    augVerify V dst pk m sig = .ok true ↔ augSign V dst sk m = .ok sig ∧ sig ≠ V.sg.ι 0 := by
  have := C36_verify_iff V sk pk hpk (V.pkBytes pk ++ m) dst sig
  rw [augSign, hpk, if_neg (by
    rcases hm with hm | hm
    · simp [hm]
    · have := List.length_pos_iff.mpr hm
      simp; intro _; exact hm)]
  exact this

/-- **C36.** Aggregate verification of the augmentation scheme needs no distinctness: it accepts
exactly when the signatures sum to the honest ones on `pkᵢ ‖ msgᵢ`. -/
theorem C36_aug_aggregate_iff (dst : List UInt8) (sks : List F) (msgs : List (List UInt8))
    (sigs : List CS) (hk : ∀ sk ∈ sks, sk • V.E.g1 ≠ 0) :
    augAggregateVerify V dst (keysOf V sks) msgs sigs = .ok true ↔
      sks ≠ [] ∧ sks.length = msgs.length ∧ sigs ≠ [] ∧
      ∃ ss : List S, sigs = ss.map V.sg.ι ∧
        ss.sum = ((sks.zip msgs).map fun x =>
          x.1 • V.hash (V.pkBytes (V.kp.ι (x.1 • V.E.g1)) ++ x.2) dst).sum := by
  rw [augAggregateVerify]
  by_cases hl : sks.length = msgs.length
  · rw [if_neg (by simp [keysOf, hl]), Res.bind_eq_ok]
    have hdl : sks.length = (((keysOf V sks).zip msgs).map fun pm => V.pkBytes pm.1 ++ pm.2).length := by
      simp [keysOf, hl]
    have hz : ((sks.zip (((keysOf V sks).zip msgs).map fun pm => V.pkBytes pm.1 ++ pm.2)).map
        fun x => x.1 • V.hash x.2 dst) = ((sks.zip msgs).map fun x =>
          x.1 • V.hash (V.pkBytes (V.kp.ι (x.1 • V.E.g1)) ++ x.2) dst) := by
      clear hdl hk hl
      induction sks generalizing msgs with
      | nil => rfl
      | cons a sks ih =>
        rcases msgs with _ | ⟨m, msgs⟩
        · simp [keysOf]
        · have := ih msgs
          simp only [keysOf, List.map_cons, List.zip_cons_cons] at this ⊢
          rw [this]
    constructor
    · rintro ⟨asig, h1, h2⟩
      obtain ⟨a1, ss, a2, rfl⟩ := (aggregateSignatures_iff V sigs asig).mp h1
      obtain ⟨b1, b2, b3⟩ := (coreAggregateVerify_iff V dst sks _ hk _).mp h2
      rw [hz] at b3
      exact ⟨b1, hl, a1, ss, a2, b3⟩
    · rintro ⟨b1, b2, a1, ss, a2, b3⟩
      rw [← hz] at b3
      exact ⟨_, (aggregateSignatures_iff V sigs _).mpr ⟨a1, ss, a2, rfl⟩,
        (coreAggregateVerify_iff V dst sks _ hk _).mpr ⟨b1, hdl, b3⟩⟩
  · rw [if_pos (by simpa [keysOf] using hl)]
    constructor
    · intro h; cases h
    · rintro ⟨-, h, -⟩; exact absurd h hl

/-! ### proofs of possession and multi-signatures -/

/-- **C36.** A proof of possession verifies exactly if it is the one the key's owner computes. -/
theorem C36_pop_iff (sk : F) (pk : CP) (hpk : getPublicKey V sk = .ok pk) (popDst : List UInt8)
    (pop : CS) :
    popVerify V popDst pk pop = .ok true ↔ popProve V popDst sk = .ok pop ∧ pop ≠ V.sg.ι 0 := by
  rw [popProve, hpk]
  exact C36_verify_iff V sk pk hpk (V.pkBytes pk) popDst pop

/-- **C36.** The two domain separation tags of a Pop scheme are always different. -/
theorem C36_pop_tags (a b : List UInt8) (r : List UInt8 × List UInt8)
    (h : newSigPopWithDst a b = .ok r) : r = (a, b) ∧ a ≠ b := by
  rw [newSigPopWithDst] at h
  split at h
  · cases h
  · exact ⟨(Res.ok.inj h).symm, ‹_›⟩

/-- **C36.** `FastAggregateVerify` under the keys of `sks` accepts exactly one aggregate signature: the
sum of the honest ones on that message. -/
theorem C36_fast_iff (dst : List UInt8) (sks : List F) (hne : sks ≠ []) (hsum : sks.sum • V.E.g1 ≠ 0)
    (m : List UInt8) (sig : CS) :
    fastAggregateVerify V dst (keysOf V sks) (some m) sig = .ok true ↔
      sig = V.sg.ι ((sks.map fun sk => sk • V.hash m dst).sum) ∧ sig ≠ V.sg.ι 0 := by
  have hagg : aggregatePublicKeys V (keysOf V sks) = .ok (V.kp.ι (sks.sum • V.E.g1)) := by
    rw [aggregatePublicKeys_iff]
    refine ⟨by simpa [keysOf] using hne, sks.map (· • V.E.g1), by simp [keysOf], ?_⟩
    congr 1
    rw [List.sum_smul]
  have hpk : getPublicKey V sks.sum = .ok (V.kp.ι (sks.sum • V.E.g1)) := by
    rw [getPublicKey_eq, if_neg hsum]
  have hsk : sks.sum ≠ 0 := by intro h; rw [h, zero_smul] at hsum; exact hsum rfl
  rw [fastAggregateVerify, hagg]
  show basicVerify V dst (V.kp.ι (sks.sum • V.E.g1)) (some m) sig = .ok true ↔ _
  rw [C36_verify_iff V sks.sum _ hpk m dst sig, basicSign, createSignature_eq, if_neg hsk,
    ← List.sum_smul]
  constructor
  · rintro ⟨h1, h2⟩; exact ⟨(Res.ok.inj h1).symm, h2⟩
  · rintro ⟨h1, h2⟩; exact ⟨by rw [h1], h2⟩

/-- **C36.** Aggregating the constituent signatures first is the same as verifying their sum. -/
theorem C36_constituent (dst : List UInt8) (pks : List CP) (m : Option (List UInt8)) (ss : List S)
    (hs : ss ≠ []) :
    fastAggregateVerifyConstituent V dst pks m (ss.map V.sg.ι) =
      fastAggregateVerify V dst pks m (V.sg.ι ss.sum) := by
  have : aggregateSignatures V (ss.map V.sg.ι) = .ok (V.sg.ι ss.sum) :=
    (aggregateSignatures_iff V _ _).mpr ⟨by simpa using hs, ss, rfl, rfl⟩
  rw [fastAggregateVerifyConstituent, this]; rfl

/-- The caller must check proofs of possession: `FastAggregateVerify` itself accepts a forgery under an
honest key and an adversary's rogue key `x·g − pk`. -/
theorem C36_rogue_key (dst : List UInt8) (sk x : F) (m : List UInt8) (hx : x • V.E.g1 ≠ 0)
    (hm : V.hash m dst ≠ 0) :
    fastAggregateVerify V dst [V.kp.ι (sk • V.E.g1), V.kp.ι (x • V.E.g1 - sk • V.E.g1)] (some m)
      (V.sg.ι (x • V.hash m dst)) = .ok true := by
  have hx0 : x ≠ 0 := by rintro rfl; rw [zero_smul] at hx; exact hx rfl
  have hl : [V.kp.ι (sk • V.E.g1), V.kp.ι (x • V.E.g1 - sk • V.E.g1)] = keysOf V [sk, x - sk] := by
    simp [keysOf, sub_smul]
  have hs : ([sk, x - sk] : List F).sum = x := by simp
  rw [hl, C36_fast_iff V dst [sk, x - sk] (by simp) (by rw [hs]; exact hx)]
  refine ⟨?_, fun h => smul_ne_zero hx0 hm (V.sg.inj h)⟩
  congr 1
  rw [← List.sum_smul, hs]

end Verif.Bls
