import Verif.Bls381.SigFull

/-!
# C100, C103: the augmented scheme and the proofs of possession, signing side and aggregates

`usual_bls.go`, `tiny_bls.go`: `SigAug.Sign`, `SigPop.PopProve` and `SigAug.AggregateVerify` on the stored BLS12-381 points.
-/

set_option maxRecDepth 20000
set_option exponentiation.threshold 1000
set_option linter.unusedSectionVars false

namespace Verif.Bls381.Sig
open Verif.Native Verif.Bytes Verif.Bls381.Inst Verif.Bls381.Pair

section
variable {hash : List UInt8 → List UInt8 → G2.Point} {H : List UInt8 → List UInt8 → G2.PP} (hh : Hash2 hash H)
include hh

omit hh in
theorem usual_enc (x : Key1) {h : List UInt8 → List UInt8 → sub2} {ok : G1.PP → Prop} (O : SchemeOK (usual hash) (envU h) G1.Rep G2.Rep ok) :
    (envU h).pkBytes ((envU h).kp.ι (x.k • (envU h).E.g1)) = side1.enc x.pk := by
  refine (O.bytes (a := x.pk) ?_).symm
  show G1.Rep x.pk (x.k • Inst.g1 : sub1).1
  rw [smul1]
  exact x.pub

/-- **C100** `Sign` of the augmented scheme signs the encoded public key followed by the message, and `PopProve` the encoded public key: both succeed
for every key, give `k` times the hash, and verify unless the hash is the neutral element.  The augmented scheme refuses the empty message. -/
theorem C100_usual_bound_sign (x : Key1) (m d : List UInt8) (hm : m ≠ []) :
    (∃ sig, augSign (usual hash) d x.sk m = .ok sig ∧ G2.Rep sig (x.k.val • H (side1.enc x.pk ++ m) d) ∧
      (H (side1.enc x.pk ++ m) d ≠ 0 → augVerify (usual hash) d x.pk m sig = .ok true)) ∧
    (∃ sig, popProve (usual hash) d x.sk = .ok sig ∧ G2.Rep sig (x.k.val • H (side1.enc x.pk) d) ∧
      (H (side1.enc x.pk) d ≠ 0 → popVerify (usual hash) d x.pk sig = .ok true)) := by
  obtain ⟨pk, hpk, hr⟩ := (C100_usual_public_key hh x.rep).1 x.ne
  have he : side1.enc pk = side1.enc x.pk := side1_ok.enc hr x.pub
  constructor
  · obtain ⟨sig, h1, h2, h3⟩ := C100_usual_sign hh x (side1.enc x.pk ++ m) d
    refine ⟨sig, ?_, h2, fun h0 => (h3 h0).1⟩
    unfold augSign
    rw [if_neg (by rw [Bool.and_eq_true, decide_eq_true_eq, List.length_eq_zero_iff]; exact fun h => hm h.2), hpk, Res.bind_ok]
    show createSignature (usual hash) x.sk (some (side1.enc pk ++ m)) d = _
    rw [he]
    exact h1
  · obtain ⟨sig, h1, h2, h3⟩ := C100_usual_sign hh x (side1.enc x.pk) d
    refine ⟨sig, ?_, h2, fun h0 => (h3 h0).1⟩
    unfold popProve
    rw [hpk, Res.bind_ok]
    show createSignature (usual hash) x.sk (some (side1.enc pk)) d = _
    rw [he]
    exact h1

/-- **C100** `AggregateVerify` of the augmented scheme, for any number of keys, messages and signatures in any stored form: it accepts exactly if there
are as many keys as messages and at least one, there is at least one signature, all signatures lie in the subgroup, and their sum is the sum of the
honest augmented signatures; equal messages are allowed -/
theorem C100_usual_aug_aggregate (xs : List Key1) (msgs : List (List UInt8)) {sigs : List G2.Point} {Qs : List G2.PP} (hQ : List.Forall₂ G2.Rep sigs Qs)
    (d : List UInt8) : augAggregateVerify (usual hash) d (xs.map Key1.pk) msgs sigs = .ok true ↔
      xs ≠ [] ∧ xs.length = msgs.length ∧ sigs ≠ [] ∧ (∀ Q ∈ Qs, Fq.q • Q = 0) ∧
      Qs.sum = ((xs.zip msgs).map fun y => y.1.k.val • H (side1.enc y.1.pk ++ y.2) d).sum := by
  obtain ⟨h, hH, O⟩ := usual_scheme hh
  rw [augAggregateVerify_ref O (usual_keys xs) hQ, Bls.C36_aug_aggregate_iff _ _ _ _ _ (usual_keys_ne xs)]
  have e1 : xs.map Key1.k ≠ [] ↔ xs ≠ [] := by simp
  have e2 : (xs.map Key1.k).length = xs.length := List.length_map _
  have e3 : Qs ≠ [] ↔ sigs ≠ [] := by
    have := hQ.length_eq
    rw [← List.length_pos_iff, ← List.length_pos_iff, this]
  have e4 : ((xs.zip msgs).map fun y => y.1.k.val • H (side1.enc y.1.pk ++ y.2) d) =
      (((xs.map Key1.k).zip msgs).map fun y =>
        y.1.val • H ((envU h).pkBytes ((envU h).kp.ι (y.1 • (envU h).E.g1)) ++ y.2) d) := by
    rw [List.zip_map_left, List.map_map]
    refine List.map_congr_left fun y _ => ?_
    show _ = y.1.k.val • H ((envU h).pkBytes ((envU h).kp.ι (y.1.k • (envU h).E.g1)) ++ y.2) d
    rw [usual_enc y.1 O]
  rw [e1, e2, e3, e4, ← usual_sum hH d (fun k m => (envU h).pkBytes ((envU h).kp.ι (k • (envU h).E.g1)) ++ m), ← usual_exists]
  refine and_congr_right fun _ => and_congr_right fun _ => and_congr_right fun _ => ?_
  refine exists_congr fun ss => and_congr_right fun _ => ?_
  exact Subtype.ext_iff

end

/-- **C103.** Keys in G1: `Sign` of the augmented scheme and `PopProve` give the key's multiple of the point of RFC 9380 of the encoded key followed
by the message, and of the encoded key, and both verify unless that point is the neutral element. -/
theorem C103_usual_bound_sign_partial {L : HashLib} (hL : L.sha256.size ≤ 255) {m d : List UInt8} (hd : d.length ≤ 255) (x : Key1) (hm : m ≠ []) :
    (Good2 L (side1.enc x.pk ++ m) d → ∃ T sig, IsHash2 L (side1.enc x.pk ++ m) d T ∧ augSign (usual (hash2 L)) d x.sk m = .ok sig ∧
      G2.Rep sig (x.k.val • T) ∧ (T ≠ 0 → augVerify (usual (hash2 L)) d x.pk m sig = .ok true)) ∧
    (Good2 L (side1.enc x.pk) d → ∃ T sig, IsHash2 L (side1.enc x.pk) d T ∧ popProve (usual (hash2 L)) d x.sk = .ok sig ∧
      G2.Rep sig (x.k.val • T) ∧ (T ≠ 0 → popVerify (usual (hash2 L)) d x.pk sig = .ok true)) := by
  obtain ⟨pk, hpk, hr⟩ := (C100_usual_public_key (patch2_hash L) x.rep).1 x.ne
  have he : side1.enc pk = side1.enc x.pk := side1_ok.enc hr x.pub
  have hpk2 : getPublicKey (usual (hash2 L)) x.sk = .ok pk := hpk
  constructor
  · intro hg
    have e := patch2_eq hL hd hg
    obtain ⟨⟨sig, h1, h2, h3⟩, -⟩ := C100_usual_bound_sign (patch2_hash L) x m d hm
    have e1 := (only2 e.1 x.sk x.pk sig).1
    have e2 := (only2 e.1 x.sk x.pk sig).2
    unfold basicSign at e1
    unfold basicVerify at e2
    refine ⟨_, sig, e.2, ?_, h2, fun h0 => ?_⟩
    · unfold augSign at h1 ⊢
      rw [if_neg (by rw [Bool.and_eq_true, decide_eq_true_eq, List.length_eq_zero_iff]; exact fun h => hm h.2), hpk, Res.bind_ok] at h1
      rw [if_neg (by rw [Bool.and_eq_true, decide_eq_true_eq, List.length_eq_zero_iff]; exact fun h => hm h.2), hpk2, Res.bind_ok]
      have h1' : createSignature (usual (patch2 L)) x.sk (some (side1.enc pk ++ m)) d = .ok sig := h1
      rw [he, ← e1, ← he] at h1'
      exact h1'
    · have h3' := h3 h0
      unfold augVerify at h3' ⊢
      have h3'' : verifySignature (usual (patch2 L)) x.pk (some (side1.enc x.pk ++ m)) sig d = .ok true := h3'
      rw [← e2] at h3''
      exact h3''
  · intro hg
    have e := patch2_eq hL hd hg
    obtain ⟨-, ⟨sig, h1, h2, h3⟩⟩ := C100_usual_bound_sign (patch2_hash L) x [0] d (by simp)
    have e1 := (only2 e.1 x.sk x.pk sig).1
    have e2 := (only2 e.1 x.sk x.pk sig).2
    unfold basicSign at e1
    unfold basicVerify at e2
    refine ⟨_, sig, e.2, ?_, h2, fun h0 => ?_⟩
    · unfold popProve at h1 ⊢
      rw [hpk, Res.bind_ok] at h1
      rw [hpk2, Res.bind_ok]
      have h1' : createSignature (usual (patch2 L)) x.sk (some (side1.enc pk)) d = .ok sig := h1
      rw [he, ← e1, ← he] at h1'
      exact h1'
    · have h3' := h3 h0
      unfold popVerify at h3' ⊢
      have h3'' : verifySignature (usual (patch2 L)) x.pk (some (side1.enc x.pk)) sig d = .ok true := h3'
      rw [← e2] at h3''
      exact h3''

section
variable {hash : List UInt8 → List UInt8 → G1.Point} {H : List UInt8 → List UInt8 → G1.PP} (hh : Hash1 hash H)
include hh

omit hh in
theorem tiny_enc (x : Key2) {h : List UInt8 → List UInt8 → sub1} {ok : G2.PP → Prop} (O : SchemeOK (tiny hash) (envT h) G2.Rep G1.Rep ok) :
    (envT h).pkBytes ((envT h).kp.ι (x.k • (envT h).E.g1)) = side2.enc x.pk := by
  refine (O.bytes (a := x.pk) ?_).symm
  show G2.Rep x.pk (x.k • Inst.g2 : sub2).1
  rw [smul2]
  exact x.pub

/-- **C100** `Sign` of the augmented scheme signs the encoded public key followed by the message, and `PopProve` the encoded public key: both succeed
for every key, give `k` times the hash, and verify unless the hash is the neutral element.   -/
theorem C100_tiny_bound_sign (x : Key2) (m d : List UInt8) :
    (∃ sig, augSign (tiny hash) d x.sk m = .ok sig ∧ G1.Rep sig (x.k.val • H (side2.enc x.pk ++ m) d) ∧
      (H (side2.enc x.pk ++ m) d ≠ 0 → augVerify (tiny hash) d x.pk m sig = .ok true)) ∧
    (∃ sig, popProve (tiny hash) d x.sk = .ok sig ∧ G1.Rep sig (x.k.val • H (side2.enc x.pk) d) ∧
      (H (side2.enc x.pk) d ≠ 0 → popVerify (tiny hash) d x.pk sig = .ok true)) := by
  obtain ⟨pk, hpk, hr⟩ := (C100_tiny_public_key hh x.rep).1 x.ne
  have he : side2.enc pk = side2.enc x.pk := side2_ok.enc hr x.pub
  constructor
  · obtain ⟨sig, h1, h2, h3⟩ := C100_tiny_sign hh x (side2.enc x.pk ++ m) d
    refine ⟨sig, ?_, h2, fun h0 => (h3 h0).1⟩
    unfold augSign
    rw [if_neg (by exact fun h => by cases h), hpk, Res.bind_ok]
    show createSignature (tiny hash) x.sk (some (side2.enc pk ++ m)) d = _
    rw [he]
    exact h1
  · obtain ⟨sig, h1, h2, h3⟩ := C100_tiny_sign hh x (side2.enc x.pk) d
    refine ⟨sig, ?_, h2, fun h0 => (h3 h0).1⟩
    unfold popProve
    rw [hpk, Res.bind_ok]
    show createSignature (tiny hash) x.sk (some (side2.enc pk)) d = _
    rw [he]
    exact h1

/-- **C100** `AggregateVerify` of the augmented scheme, for any number of keys, messages and signatures in any stored form: it accepts exactly if there
are as many keys as messages and at least one, there is at least one signature, all signatures lie in the subgroup, and their sum is the sum of the
honest augmented signatures; equal messages are allowed -/
theorem C100_tiny_aug_aggregate (xs : List Key2) (msgs : List (List UInt8)) {sigs : List G1.Point} {Qs : List G1.PP} (hQ : List.Forall₂ G1.Rep sigs Qs)
    (d : List UInt8) : augAggregateVerify (tiny hash) d (xs.map Key2.pk) msgs sigs = .ok true ↔
      xs ≠ [] ∧ xs.length = msgs.length ∧ sigs ≠ [] ∧ (∀ Q ∈ Qs, Fq.q • Q = 0) ∧
      Qs.sum = ((xs.zip msgs).map fun y => y.1.k.val • H (side2.enc y.1.pk ++ y.2) d).sum := by
  obtain ⟨h, hH, O⟩ := tiny_scheme hh
  rw [augAggregateVerify_ref O (tiny_keys xs) hQ, Bls.C36_aug_aggregate_iff _ _ _ _ _ (tiny_keys_ne xs)]
  have e1 : xs.map Key2.k ≠ [] ↔ xs ≠ [] := by simp
  have e2 : (xs.map Key2.k).length = xs.length := List.length_map _
  have e3 : Qs ≠ [] ↔ sigs ≠ [] := by
    have := hQ.length_eq
    rw [← List.length_pos_iff, ← List.length_pos_iff, this]
  have e4 : ((xs.zip msgs).map fun y => y.1.k.val • H (side2.enc y.1.pk ++ y.2) d) =
      (((xs.map Key2.k).zip msgs).map fun y =>
        y.1.val • H ((envT h).pkBytes ((envT h).kp.ι (y.1 • (envT h).E.g1)) ++ y.2) d) := by
    rw [List.zip_map_left, List.map_map]
    refine List.map_congr_left fun y _ => ?_
    show _ = y.1.k.val • H ((envT h).pkBytes ((envT h).kp.ι (y.1.k • (envT h).E.g1)) ++ y.2) d
    rw [tiny_enc y.1 O]
  rw [e1, e2, e3, e4, ← tiny_sum hH d (fun k m => (envT h).pkBytes ((envT h).kp.ι (k • (envT h).E.g1)) ++ m), ← tiny_exists]
  refine and_congr_right fun _ => and_congr_right fun _ => and_congr_right fun _ => ?_
  refine exists_congr fun ss => and_congr_right fun _ => ?_
  exact Subtype.ext_iff

end

/-- **C103.** Keys in G2: `Sign` of the augmented scheme and `PopProve` give the key's multiple of the point of RFC 9380 of the encoded key followed
by the message, and of the encoded key, and both verify unless that point is the neutral element. -/
theorem C103_tiny_bound_sign_partial {L : HashLib} (hL : L.sha256.size ≤ 255) {m d : List UInt8} (hd : d.length ≤ 255) (x : Key2) :
    (Good1 L (side2.enc x.pk ++ m) d → ∃ T sig, IsHash1 L (side2.enc x.pk ++ m) d T ∧ augSign (tiny (hash1 L)) d x.sk m = .ok sig ∧
      G1.Rep sig (x.k.val • T) ∧ (T ≠ 0 → augVerify (tiny (hash1 L)) d x.pk m sig = .ok true)) ∧
    (Good1 L (side2.enc x.pk) d → ∃ T sig, IsHash1 L (side2.enc x.pk) d T ∧ popProve (tiny (hash1 L)) d x.sk = .ok sig ∧
      G1.Rep sig (x.k.val • T) ∧ (T ≠ 0 → popVerify (tiny (hash1 L)) d x.pk sig = .ok true)) := by
  obtain ⟨pk, hpk, hr⟩ := (C100_tiny_public_key (patch1_hash L) x.rep).1 x.ne
  have he : side2.enc pk = side2.enc x.pk := side2_ok.enc hr x.pub
  have hpk2 : getPublicKey (tiny (hash1 L)) x.sk = .ok pk := hpk
  constructor
  · intro hg
    have e := patch1_eq hL hd hg
    obtain ⟨⟨sig, h1, h2, h3⟩, -⟩ := C100_tiny_bound_sign (patch1_hash L) x m d
    have e1 := (only1 e.1 x.sk x.pk sig).1
    have e2 := (only1 e.1 x.sk x.pk sig).2
    unfold basicSign at e1
    unfold basicVerify at e2
    refine ⟨_, sig, e.2, ?_, h2, fun h0 => ?_⟩
    · unfold augSign at h1 ⊢
      rw [if_neg (by exact fun h => by cases h), hpk, Res.bind_ok] at h1
      rw [if_neg (by exact fun h => by cases h), hpk2, Res.bind_ok]
      have h1' : createSignature (tiny (patch1 L)) x.sk (some (side2.enc pk ++ m)) d = .ok sig := h1
      rw [he, ← e1, ← he] at h1'
      exact h1'
    · have h3' := h3 h0
      unfold augVerify at h3' ⊢
      have h3'' : verifySignature (tiny (patch1 L)) x.pk (some (side2.enc x.pk ++ m)) sig d = .ok true := h3'
      rw [← e2] at h3''
      exact h3''
  · intro hg
    have e := patch1_eq hL hd hg
    obtain ⟨-, ⟨sig, h1, h2, h3⟩⟩ := C100_tiny_bound_sign (patch1_hash L) x [] d
    have e1 := (only1 e.1 x.sk x.pk sig).1
    have e2 := (only1 e.1 x.sk x.pk sig).2
    unfold basicSign at e1
    unfold basicVerify at e2
    refine ⟨_, sig, e.2, ?_, h2, fun h0 => ?_⟩
    · unfold popProve at h1 ⊢
      rw [hpk, Res.bind_ok] at h1
      rw [hpk2, Res.bind_ok]
      have h1' : createSignature (tiny (patch1 L)) x.sk (some (side2.enc pk)) d = .ok sig := h1
      rw [he, ← e1, ← he] at h1'
      exact h1'
    · have h3' := h3 h0
      unfold popVerify at h3' ⊢
      have h3'' : verifySignature (tiny (patch1 L)) x.pk (some (side2.enc x.pk)) sig d = .ok true := h3'
      rw [← e2] at h3''
      exact h3''

end Verif.Bls381.Sig
