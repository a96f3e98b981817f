import Verif.Bls381.SigHash

/-!
# C103: aggregation, augmented messages, proofs of possession and thresholds with the hash functions of the curve
(`crypto/signatures/bls/bls_sig`, `crypto/core/curves/native/bls12381`)
-/

set_option maxRecDepth 20000
set_option linter.unusedSectionVars false

namespace Verif.Bls381.Sig
open Verif.Bytes Verif.Native P3

/-! ## Keys in G1 -/

open Classical in
/-- The hash made total: the neutral element for the messages C102 does not cover. -/
noncomputable def patch2 (L : HashLib) (m d : List UInt8) : G2.Point :=
  if L.sha256.size ≤ 255 ∧ d.length ≤ 255 ∧ Good2 L m d then hash2 L m d else P3.identity G2.F

open Classical in
/-- The point it is a form of. -/
noncomputable def point2 (L : HashLib) (m d : List UInt8) : G2.PP :=
  if h : L.sha256.size ≤ 255 ∧ d.length ≤ 255 ∧ Good2 L m d then (hash2_spec h.1 h.2.1 h.2.2).choose else 0

theorem patch2_hash (L : HashLib) : Hash2 (patch2 L) (point2 L) := by
  constructor
  · intro m d
    unfold patch2 point2
    by_cases h : L.sha256.size ≤ 255 ∧ d.length ≤ 255 ∧ Good2 L m d
    · rw [if_pos h, dif_pos h]
      exact (hash2_spec h.1 h.2.1 h.2.2).choose_spec.2.1
    · rw [if_neg h, dif_neg h]
      exact P3.identity_spec G2.FOk
  · intro m d
    unfold point2
    by_cases h : L.sha256.size ≤ 255 ∧ d.length ≤ 255 ∧ Good2 L m d
    · rw [dif_pos h]
      exact (hash2_spec h.1 h.2.1 h.2.2).choose_spec.2.2
    · rw [dif_neg h, nsmul_zero]

theorem patch2_eq {L : HashLib} (hL : L.sha256.size ≤ 255) {m d : List UInt8} (hd : d.length ≤ 255) (hg : Good2 L m d) :
    hash2 L m d = patch2 L m d ∧ IsHash2 L m d (point2 L m d) := by
  have h : L.sha256.size ≤ 255 ∧ d.length ≤ 255 ∧ Good2 L m d := ⟨hL, hd, hg⟩
  unfold patch2 point2
  rw [if_pos h, dif_pos h]
  exact ⟨rfl, (hash2_spec h.1 h.2.1 h.2.2).choose_spec.1⟩

/-! The verifications depend on the hash of the messages they are given only -/

theorem aggLoop_congr2 {f g : List UInt8 → List UInt8 → G2.Point} {d : List UInt8} :
    ∀ (l : List (G1.Point × List UInt8)) (e : Pair.Engine), (∀ y ∈ l, f y.2 d = g y.2 d) → aggLoop (usual f) d l e = aggLoop (usual g) d l e
  | [], _, _ => rfl
  | (pk, m) :: l, e, h => by
    unfold aggLoop
    have e1 : (usual f).hash m d = (usual g).hash m d := h (pk, m) List.mem_cons_self
    have e2 := fun e => aggLoop_congr2 l e fun y hy => h y (List.mem_cons_of_mem _ hy)
    rw [e1, e2]
    rfl

theorem aggregate_congr2 {f g : List UInt8 → List UInt8 → G2.Point} {d : List UInt8} (pks : List G1.Point) {msgs : List (List UInt8)}
    (sigs : List G2.Point) (h : ∀ m ∈ msgs, f m d = g m d) :
    basicAggregateVerify (usual f) d pks msgs sigs = basicAggregateVerify (usual g) d pks msgs sigs := by
  have e := fun e => aggLoop_congr2 (pks.zip msgs) e fun y hy => h y.2 (List.of_mem_zip hy).2
  unfold basicAggregateVerify coreAggregateVerify
  rw [e]
  rfl

theorem fast_congr2 {f g : List UInt8 → List UInt8 → G2.Point} {m d : List UInt8} (pks : List G1.Point) (sig : G2.Point) (h : f m d = g m d) :
    fastAggregateVerify (usual f) d pks (some m) sig = fastAggregateVerify (usual g) d pks (some m) sig := by
  have e := fun pk => (only2 h ⟨0, 0, 0, 0⟩ pk sig).2
  unfold basicVerify at e
  unfold fastAggregateVerify
  simp only [e]
  rfl

theorem combine_congr2 (f g : List UInt8 → List UInt8 → G2.Point) (ps : List (Bls.Partial G2.Point)) :
    combineSigs (usual f) ps = combineSigs (usual g) ps := by
  have : ∀ (l : List (Bls.Partial G2.Point)) (dup : List UInt8), splitXY (usual f) l dup = splitXY (usual g) l dup := by
    intro l
    induction l with
    | nil => intro _; rfl
    | cons p l ih => intro dup; unfold splitXY; rw [ih]; rfl
  unfold combineSigs
  rw [this]
  rfl

theorem partial_congr2 {f g : List UInt8 → List UInt8 → G2.Point} {m d : List UInt8} (s : Bls.KeyShare) (h : f m d = g m d) :
    partialSign (usual f) d s m = partialSign (usual g) d s m := by
  have e1 : (usual f).hash m d = (usual g).hash m d := h
  unfold partialSign
  rw [e1]
  rfl

/-- **C103.** Keys in G1: a list of signatures on different messages verifies exactly if their sum is the sum of the keys' multiples of the
messages' points of RFC 9380, all signatures being in the subgroup. -/
theorem C103_usual_aggregate_partial {L : HashLib} (hL : L.sha256.size ≤ 255) {d : List UInt8} (hd : d.length ≤ 255) (xs : List Key1)
    {msgs : List (List UInt8)} (hg : ∀ m ∈ msgs, Good2 L m d) {sigs : List G2.Point} {Qs : List G2.PP} (hQ : List.Forall₂ G2.Rep sigs Qs) :
    basicAggregateVerify (usual (hash2 L)) d (xs.map Key1.pk) msgs sigs = .ok true ↔
      msgs.Nodup ∧ xs ≠ [] ∧ xs.length = msgs.length ∧ sigs ≠ [] ∧ (∀ Q ∈ Qs, Fq.q • Q = 0) ∧
      ∃ Ts, List.Forall₂ (fun m T => IsHash2 L m d T) msgs Ts ∧ Qs.sum = ((xs.zip Ts).map fun y => y.1.k.val • y.2).sum := by
  rw [aggregate_congr2 (g := patch2 L) _ _ fun m hm => (patch2_eq hL hd (hg m hm)).1, C100_usual_aggregate (patch2_hash L) xs msgs hQ d]
  have hT : List.Forall₂ (fun m T => IsHash2 L m d T) msgs (msgs.map fun m => point2 L m d) := by
    rw [List.forall₂_map_right_iff]
    exact List.forall₂_same.2 fun m hm => (patch2_eq hL hd (hg m hm)).2
  have hu : ∀ Ts, List.Forall₂ (fun m T => IsHash2 L m d T) msgs Ts → Ts = msgs.map fun m => point2 L m d := by
    intro Ts h
    clear hQ hT
    induction h with
    | nil => rfl
    | @cons m T l l' h1 _ ih =>
      rw [List.map_cons, ih fun m hm => hg m (List.mem_cons_of_mem _ hm),
        isHash2_unique h1 (patch2_eq hL hd (hg m List.mem_cons_self)).2]
  have hz : (xs.zip (msgs.map fun m => point2 L m d)).map (fun y => y.1.k.val • y.2) =
      (xs.zip msgs).map fun y => y.1.k.val • point2 L y.2 d := by
    rw [List.zip_map_right, List.map_map]
    rfl
  have : (∃ Ts, List.Forall₂ (fun m T => IsHash2 L m d T) msgs Ts ∧ Qs.sum = ((xs.zip Ts).map fun y => y.1.k.val • y.2).sum) ↔
      Qs.sum = ((xs.zip msgs).map fun y => y.1.k.val • point2 L y.2 d).sum := by
    constructor
    · rintro ⟨Ts, h1, h2⟩
      rw [h2, hu Ts h1, hz]
    · intro h
      exact ⟨_, hT, by rw [h, hz]⟩
  rw [this]

/-- **C103.** Keys in G1: one signature of several keys on one message verifies exactly if it is the sum of their multiples of the message's
point of RFC 9380. -/
theorem C103_usual_fast_aggregate_partial {L : HashLib} (hL : L.sha256.size ≤ 255) {m d : List UInt8} (hd : d.length ≤ 255) (hg : Good2 L m d)
    (xs : List Key1) (hne : xs ≠ []) (hsum : (xs.map Key1.k).sum ≠ 0) {sig : G2.Point} {Q : G2.PP} (hQ : G2.Rep sig Q) :
    fastAggregateVerify (usual (hash2 L)) d (xs.map Key1.pk) (some m) sig = .ok true ↔
      ∃ T, IsHash2 L m d T ∧ Q = (xs.map fun x => x.k.val • T).sum ∧ Q ≠ 0 := by
  have e := patch2_eq hL hd hg
  rw [fast_congr2 _ _ e.1, C100_usual_fast_aggregate (patch2_hash L) xs hne hsum m d hQ]
  constructor
  · exact fun h => ⟨_, e.2, h⟩
  · rintro ⟨T, h1, h2⟩
    rw [isHash2_unique e.2 h1]
    exact h2

/-- **C103.** Keys in G1: augmented signatures and proofs of possession are the key's multiple of the point of RFC 9380 of the encoded key
followed by the message, and of the encoded key. -/
theorem C103_usual_bound_partial {L : HashLib} (hL : L.sha256.size ≤ 255) {m d : List UInt8} (hd : d.length ≤ 255) (x : Key1) {sig : G2.Point}
    {Q : G2.PP} (hQ : G2.Rep sig Q) :
    (Good2 L (side1.enc x.pk ++ m) d → (augVerify (usual (hash2 L)) d x.pk m sig = .ok true ↔
      ∃ T, IsHash2 L (side1.enc x.pk ++ m) d T ∧ Q = x.k.val • T ∧ Q ≠ 0)) ∧
    (Good2 L (side1.enc x.pk) d → (popVerify (usual (hash2 L)) d x.pk sig = .ok true ↔
      ∃ T, IsHash2 L (side1.enc x.pk) d T ∧ Q = x.k.val • T ∧ Q ≠ 0)) :=
  ⟨fun hg => C103_usual_verify_partial hL hd hg x hQ, fun hg => C103_usual_verify_partial hL hd hg x hQ⟩

/-- **C103.** Keys in G1: any at-least-threshold many different shares of a key sign to partial signatures that combine to the key's multiple of
the message's point of RFC 9380, which verifies unless that point is the neutral element. -/
theorem C103_usual_threshold_partial {L : HashLib} (hL : L.sha256.size ≤ 255) {m d : List UInt8} (hd : d.length ≤ 255) (hg : Good2 L m d)
    (x : Key1) {t n : Nat} {rnd : Nat → ZMod Fq.q} {shares : List Bls.KeyShare} (hs : sharesOf x.k t n rnd = .ok shares) {sub : List Bls.KeyShare}
    (hsub : sub ⊆ shares) (hnd : sub.Nodup) (hlen : t ≤ sub.length) (hm : m ≠ []) :
    ∃ T ps sig, IsHash2 L m d T ∧ sub.mapM (fun s => partialSign (usual (hash2 L)) d s m) = .ok ps ∧ combineSigs (usual (hash2 L)) ps = .ok sig ∧
      G2.Rep sig (x.k.val • T) ∧ (T ≠ 0 → basicVerify (usual (hash2 L)) d x.pk (some m) sig = .ok true) := by
  have e := patch2_eq hL hd hg
  obtain ⟨ps, sig, h1, h2, h3, h4⟩ := C100_usual_threshold (patch2_hash L) x hs hsub hnd hlen m d hm
  refine ⟨_, ps, sig, e.2, ?_, ?_, h3, fun h0 => ?_⟩
  · have ef : (fun s => partialSign (usual (hash2 L)) d s m) = fun s => partialSign (usual (patch2 L)) d s m :=
      funext fun s => partial_congr2 s e.1
    rw [ef]
    exact h1
  · rw [combine_congr2 _ (patch2 L)]
    exact h2
  · rw [(only2 e.1 x.sk x.pk sig).2]
    exact h4 h0

/-! ## Keys in G2 -/

open Classical in
/-- The hash made total: the neutral element for the messages C101 does not cover. -/
noncomputable def patch1 (L : HashLib) (m d : List UInt8) : G1.Point :=
  if L.sha256.size ≤ 255 ∧ d.length ≤ 255 ∧ Good1 L m d then hash1 L m d else P3.identity G1.F

open Classical in
/-- The point it is a form of. -/
noncomputable def point1 (L : HashLib) (m d : List UInt8) : G1.PP :=
  if h : L.sha256.size ≤ 255 ∧ d.length ≤ 255 ∧ Good1 L m d then (hash1_spec h.1 h.2.1 h.2.2).choose else 0

theorem patch1_hash (L : HashLib) : Hash1 (patch1 L) (point1 L) := by
  constructor
  · intro m d
    unfold patch1 point1
    by_cases h : L.sha256.size ≤ 255 ∧ d.length ≤ 255 ∧ Good1 L m d
    · rw [if_pos h, dif_pos h]
      exact (hash1_spec h.1 h.2.1 h.2.2).choose_spec.2.1
    · rw [if_neg h, dif_neg h]
      exact P3.identity_spec G1.FOk
  · intro m d
    unfold point1
    by_cases h : L.sha256.size ≤ 255 ∧ d.length ≤ 255 ∧ Good1 L m d
    · rw [dif_pos h]
      exact (hash1_spec h.1 h.2.1 h.2.2).choose_spec.2.2
    · rw [dif_neg h, nsmul_zero]

theorem patch1_eq {L : HashLib} (hL : L.sha256.size ≤ 255) {m d : List UInt8} (hd : d.length ≤ 255) (hg : Good1 L m d) :
    hash1 L m d = patch1 L m d ∧ IsHash1 L m d (point1 L m d) := by
  have h : L.sha256.size ≤ 255 ∧ d.length ≤ 255 ∧ Good1 L m d := ⟨hL, hd, hg⟩
  unfold patch1 point1
  rw [if_pos h, dif_pos h]
  exact ⟨rfl, (hash1_spec h.1 h.2.1 h.2.2).choose_spec.1⟩

/-! The verifications depend on the hash of the messages they are given only -/

theorem aggLoop_congr1 {f g : List UInt8 → List UInt8 → G1.Point} {d : List UInt8} :
    ∀ (l : List (G2.Point × List UInt8)) (e : Pair.Engine), (∀ y ∈ l, f y.2 d = g y.2 d) → aggLoop (tiny f) d l e = aggLoop (tiny g) d l e
  | [], _, _ => rfl
  | (pk, m) :: l, e, h => by
    unfold aggLoop
    have e1 : (tiny f).hash m d = (tiny g).hash m d := h (pk, m) List.mem_cons_self
    have e2 := fun e => aggLoop_congr1 l e fun y hy => h y (List.mem_cons_of_mem _ hy)
    rw [e1, e2]
    rfl

theorem aggregate_congr1 {f g : List UInt8 → List UInt8 → G1.Point} {d : List UInt8} (pks : List G2.Point) {msgs : List (List UInt8)}
    (sigs : List G1.Point) (h : ∀ m ∈ msgs, f m d = g m d) :
    basicAggregateVerify (tiny f) d pks msgs sigs = basicAggregateVerify (tiny g) d pks msgs sigs := by
  have e := fun e => aggLoop_congr1 (pks.zip msgs) e fun y hy => h y.2 (List.of_mem_zip hy).2
  unfold basicAggregateVerify coreAggregateVerify
  rw [e]
  rfl

theorem fast_congr1 {f g : List UInt8 → List UInt8 → G1.Point} {m d : List UInt8} (pks : List G2.Point) (sig : G1.Point) (h : f m d = g m d) :
    fastAggregateVerify (tiny f) d pks (some m) sig = fastAggregateVerify (tiny g) d pks (some m) sig := by
  have e := fun pk => (only1 h ⟨0, 0, 0, 0⟩ pk sig).2
  unfold basicVerify at e
  unfold fastAggregateVerify
  simp only [e]
  rfl

theorem combine_congr1 (f g : List UInt8 → List UInt8 → G1.Point) (ps : List (Bls.Partial G1.Point)) :
    combineSigs (tiny f) ps = combineSigs (tiny g) ps := by
  have : ∀ (l : List (Bls.Partial G1.Point)) (dup : List UInt8), splitXY (tiny f) l dup = splitXY (tiny g) l dup := by
    intro l
    induction l with
    | nil => intro _; rfl
    | cons p l ih => intro dup; unfold splitXY; rw [ih]; rfl
  unfold combineSigs
  rw [this]
  rfl

theorem partial_congr1 {f g : List UInt8 → List UInt8 → G1.Point} {m d : List UInt8} (s : Bls.KeyShare) (h : f m d = g m d) :
    partialSign (tiny f) d s m = partialSign (tiny g) d s m := by
  have e1 : (tiny f).hash m d = (tiny g).hash m d := h
  unfold partialSign
  rw [e1]
  rfl

/-- **C103.** Keys in G2: a list of signatures on different messages verifies exactly if their sum is the sum of the keys' multiples of the
messages' points of RFC 9380, all signatures being in the subgroup. -/
theorem C103_tiny_aggregate_partial {L : HashLib} (hL : L.sha256.size ≤ 255) {d : List UInt8} (hd : d.length ≤ 255) (xs : List Key2)
    {msgs : List (List UInt8)} (hg : ∀ m ∈ msgs, Good1 L m d) {sigs : List G1.Point} {Qs : List G1.PP} (hQ : List.Forall₂ G1.Rep sigs Qs) :
    basicAggregateVerify (tiny (hash1 L)) d (xs.map Key2.pk) msgs sigs = .ok true ↔
      msgs.Nodup ∧ xs ≠ [] ∧ xs.length = msgs.length ∧ sigs ≠ [] ∧ (∀ Q ∈ Qs, Fq.q • Q = 0) ∧
      ∃ Ts, List.Forall₂ (fun m T => IsHash1 L m d T) msgs Ts ∧ Qs.sum = ((xs.zip Ts).map fun y => y.1.k.val • y.2).sum := by
  rw [aggregate_congr1 (g := patch1 L) _ _ fun m hm => (patch1_eq hL hd (hg m hm)).1, C100_tiny_aggregate (patch1_hash L) xs msgs hQ d]
  have hT : List.Forall₂ (fun m T => IsHash1 L m d T) msgs (msgs.map fun m => point1 L m d) := by
    rw [List.forall₂_map_right_iff]
    exact List.forall₂_same.2 fun m hm => (patch1_eq hL hd (hg m hm)).2
  have hu : ∀ Ts, List.Forall₂ (fun m T => IsHash1 L m d T) msgs Ts → Ts = msgs.map fun m => point1 L m d := by
    intro Ts h
    clear hQ hT
    induction h with
    | nil => rfl
    | @cons m T l l' h1 _ ih =>
      rw [List.map_cons, ih fun m hm => hg m (List.mem_cons_of_mem _ hm),
        isHash1_unique h1 (patch1_eq hL hd (hg m List.mem_cons_self)).2]
  have hz : (xs.zip (msgs.map fun m => point1 L m d)).map (fun y => y.1.k.val • y.2) =
      (xs.zip msgs).map fun y => y.1.k.val • point1 L y.2 d := by
    rw [List.zip_map_right, List.map_map]
    rfl
  have : (∃ Ts, List.Forall₂ (fun m T => IsHash1 L m d T) msgs Ts ∧ Qs.sum = ((xs.zip Ts).map fun y => y.1.k.val • y.2).sum) ↔
      Qs.sum = ((xs.zip msgs).map fun y => y.1.k.val • point1 L y.2 d).sum := by
    constructor
    · rintro ⟨Ts, h1, h2⟩
      rw [h2, hu Ts h1, hz]
    · intro h
      exact ⟨_, hT, by rw [h, hz]⟩
  rw [this]

/-- **C103.** Keys in G2: one signature of several keys on one message verifies exactly if it is the sum of their multiples of the message's
point of RFC 9380. -/
theorem C103_tiny_fast_aggregate_partial {L : HashLib} (hL : L.sha256.size ≤ 255) {m d : List UInt8} (hd : d.length ≤ 255) (hg : Good1 L m d)
    (xs : List Key2) (hne : xs ≠ []) (hsum : (xs.map Key2.k).sum ≠ 0) {sig : G1.Point} {Q : G1.PP} (hQ : G1.Rep sig Q) :
    fastAggregateVerify (tiny (hash1 L)) d (xs.map Key2.pk) (some m) sig = .ok true ↔
      ∃ T, IsHash1 L m d T ∧ Q = (xs.map fun x => x.k.val • T).sum ∧ Q ≠ 0 := by
  have e := patch1_eq hL hd hg
  rw [fast_congr1 _ _ e.1, C100_tiny_fast_aggregate (patch1_hash L) xs hne hsum m d hQ]
  constructor
  · exact fun h => ⟨_, e.2, h⟩
  · rintro ⟨T, h1, h2⟩
    rw [isHash1_unique e.2 h1]
    exact h2

/-- **C103.** Keys in G2: augmented signatures and proofs of possession are the key's multiple of the point of RFC 9380 of the encoded key
followed by the message, and of the encoded key. -/
theorem C103_tiny_bound_partial {L : HashLib} (hL : L.sha256.size ≤ 255) {m d : List UInt8} (hd : d.length ≤ 255) (x : Key2) {sig : G1.Point}
    {Q : G1.PP} (hQ : G1.Rep sig Q) :
    (Good1 L (side2.enc x.pk ++ m) d → (augVerify (tiny (hash1 L)) d x.pk m sig = .ok true ↔
      ∃ T, IsHash1 L (side2.enc x.pk ++ m) d T ∧ Q = x.k.val • T ∧ Q ≠ 0)) ∧
    (Good1 L (side2.enc x.pk) d → (popVerify (tiny (hash1 L)) d x.pk sig = .ok true ↔
      ∃ T, IsHash1 L (side2.enc x.pk) d T ∧ Q = x.k.val • T ∧ Q ≠ 0)) :=
  ⟨fun hg => C103_tiny_verify_partial hL hd hg x hQ, fun hg => C103_tiny_verify_partial hL hd hg x hQ⟩

/-- **C103.** Keys in G2: any at-least-threshold many different shares of a key sign to partial signatures that combine to the key's multiple of
the message's point of RFC 9380, which verifies unless that point is the neutral element. -/
theorem C103_tiny_threshold_partial {L : HashLib} (hL : L.sha256.size ≤ 255) {m d : List UInt8} (hd : d.length ≤ 255) (hg : Good1 L m d)
    (x : Key2) {t n : Nat} {rnd : Nat → ZMod Fq.q} {shares : List Bls.KeyShare} (hs : sharesOf x.k t n rnd = .ok shares) {sub : List Bls.KeyShare}
    (hsub : sub ⊆ shares) (hnd : sub.Nodup) (hlen : t ≤ sub.length) (hm : m ≠ []) :
    ∃ T ps sig, IsHash1 L m d T ∧ sub.mapM (fun s => partialSign (tiny (hash1 L)) d s m) = .ok ps ∧ combineSigs (tiny (hash1 L)) ps = .ok sig ∧
      G1.Rep sig (x.k.val • T) ∧ (T ≠ 0 → basicVerify (tiny (hash1 L)) d x.pk (some m) sig = .ok true) := by
  have e := patch1_eq hL hd hg
  obtain ⟨ps, sig, h1, h2, h3, h4⟩ := C100_tiny_threshold (patch1_hash L) x hs hsub hnd hlen m d hm
  refine ⟨_, ps, sig, e.2, ?_, ?_, h3, fun h0 => ?_⟩
  · have ef : (fun s => partialSign (tiny (hash1 L)) d s m) = fun s => partialSign (tiny (patch1 L)) d s m :=
      funext fun s => partial_congr1 s e.1
    rw [ef]
    exact h1
  · rw [combine_congr1 _ (patch1 L)]
    exact h2
  · rw [(only1 e.1 x.sk x.pk sig).2]
    exact h4 h0

end Verif.Bls381.Sig
