import Verif.Bls381.SigApi
import Verif.Bls381.HashG2Api

/-!
# C103: BLS signatures with the hash functions of the curve
(`crypto/signatures/bls/bls_sig`, `crypto/core/curves/native/bls12381`)

C100 leaves the function from messages to points open; here it is the one of the code (C101, C102).
-/

set_option maxRecDepth 20000
set_option linter.unusedSectionVars false

namespace Verif.Bls381.Sig
open Verif.Bytes Verif.Native P3

/-- `new(bls12381.G2).Hash(native.EllipticPointHasherSha256(), msg, dst)` as called by `createSignature` and `verifySignature`
(signatures/bls/bls_sig/usual_bls_sig.go:181, 200), which use the result without a test.  The model's `hash` fails only where the
expansion does, which for a hash function of at most 255 bytes is never (`hash_total2`). -/
def hash2 (L : HashLib) (m d : List UInt8) : G2.Point :=
  match G2.hash (newHasher L .sha256) m d with
  | .ok e => e
  | _ => P3.identity G2.F

/-- The same in G1 (signatures/bls/bls_sig/tiny_bls_sig.go:180, 199). -/
def hash1 (L : HashLib) (m d : List UInt8) : G1.Point :=
  match G1.hash (newHasher L .sha256) m d with
  | .ok e => e
  | _ => P3.identity G1.F

/-- SPEC: the point of RFC 9380 for a message in G2: the sum of the images of its two field elements, with the cofactor cleared. -/
def IsHash2 (L : HashLib) (m d : List UInt8) (T : G2.PP) : Prop :=
  ∃ P Q, G2.IsMap (G2.elem (newHasher L .sha256) m d 0) P ∧ G2.IsMap (G2.elem (newHasher L .sha256) m d 1) Q ∧ T = G2.clearHom (P + Q)

/-- SPEC: the same in G1, where the cofactor is cleared by multiplying by `1 - x`. -/
def IsHash1 (L : HashLib) (m d : List UInt8) (T : G1.PP) : Prop :=
  ∃ P Q, G1.IsMap (G1.elem (newHasher L .sha256) m d 0) P ∧ G1.IsMap (G1.elem (newHasher L .sha256) m d 1) Q ∧
    T = 0xd201000000010001 • (P + Q)

/-- The message is one C102 covers. -/
def Good2 (L : HashLib) (m d : List UInt8) : Prop :=
  G2.elem (newHasher L .sha256) m d 0 ≠ 0 ∧ G2.elem (newHasher L .sha256) m d 1 ≠ 0

/-- The message is one C101 covers. -/
def Good1 (L : HashLib) (m d : List UInt8) : Prop :=
  ¬ G1.Exceptional (G1.elem (newHasher L .sha256) m d 0) ∧ ¬ G1.Exceptional (G1.elem (newHasher L .sha256) m d 1)

theorem sha_wf {L : HashLib} (hL : L.sha256.size ≤ 255) : (newHasher L .sha256).WF := hL

/-- The function never takes the second branch. -/
theorem hash_total2 {L : HashLib} (hL : L.sha256.size ≤ 255) (m d : List UInt8) : ∃ e, G2.hash (newHasher L .sha256) m d = .ok e := by
  obtain ⟨out, ho, -⟩ := Hash.C55_native_never_refuses L.sha256 m d hL 256 (by decide)
  have he : (newHasher L .sha256).expand m d 256 = .ok out := ho
  unfold G2.hash
  rw [he, Res.bind_ok]
  exact ⟨_, rfl⟩

theorem hash_total1 {L : HashLib} (hL : L.sha256.size ≤ 255) (m d : List UInt8) : ∃ e, G1.hash (newHasher L .sha256) m d = .ok e := by
  obtain ⟨out, ho, -⟩ := Hash.C55_native_never_refuses L.sha256 m d hL 128 (by decide)
  have he : (newHasher L .sha256).expand m d 128 = .ok out := ho
  unfold G1.hash
  rw [he, Res.bind_ok]
  exact ⟨_, rfl⟩

/-- The hash of the specification is unique. -/
theorem isHash2_unique {L : HashLib} {m d : List UInt8} {T T' : G2.PP} (h : IsHash2 L m d T) (h' : IsHash2 L m d T') : T = T' := by
  obtain ⟨P, Q, h1, h2, rfl⟩ := h
  obtain ⟨P', Q', h1', h2', rfl⟩ := h'
  rw [(G2.C102_g2_map_unique _).unique h1 h1', (G2.C102_g2_map_unique _).unique h2 h2']

theorem isHash1_unique {L : HashLib} {m d : List UInt8} {T T' : G1.PP} (h : IsHash1 L m d T) (h' : IsHash1 L m d T') : T = T' := by
  obtain ⟨P, Q, h1, h2, rfl⟩ := h
  obtain ⟨P', Q', h1', h2', rfl⟩ := h'
  rw [(G1.C101_g1_map_unique _).unique h1 h1', (G1.C101_g1_map_unique _).unique h2 h2']

theorem hash2_spec {L : HashLib} (hL : L.sha256.size ≤ 255) {m d : List UInt8} (hd : d.length ≤ 255) (hg : Good2 L m d) :
    ∃ T, IsHash2 L m d T ∧ G2.Rep (hash2 L m d) T ∧ Fq.q • T = 0 := by
  obtain ⟨e, P, Q, he, hP, hQ, hr, ⟨k, -, hk⟩, -⟩ := G2.C102_g2_hash_partial (sha_wf hL) m d hd hg.1 hg.2
  refine ⟨_, ⟨P, Q, hP, hQ, rfl⟩, ?_, ?_⟩
  · unfold hash2
    rw [he]
    exact hr
  · rw [hk, ← mul_nsmul, Nat.mul_comm, mul_nsmul, G2.order_G, nsmul_zero]

theorem hash1_spec {L : HashLib} (hL : L.sha256.size ≤ 255) {m d : List UInt8} (hd : d.length ≤ 255) (hg : Good1 L m d) :
    ∃ T, IsHash1 L m d T ∧ G1.Rep (hash1 L m d) T ∧ Fq.q • T = 0 := by
  obtain ⟨e, P, Q, he, hP, hQ, hr, hq, -⟩ := G1.C101_g1_hash_partial (sha_wf hL) m d hd hg.1 hg.2
  refine ⟨_, ⟨P, Q, hP, hQ, rfl⟩, ?_, hq⟩
  unfold hash1
  rw [he]
  exact hr

theorem only2 {f g : List UInt8 → List UInt8 → G2.Point} {m d : List UInt8} (h : f m d = g m d) (sk : L4) (pk : G1.Point) (sig : G2.Point) :
    basicSign (usual f) d sk (some m) = basicSign (usual g) d sk (some m) ∧
    basicVerify (usual f) d pk (some m) sig = basicVerify (usual g) d pk (some m) sig := by
  have e1 : (usual f).hash m d = (usual g).hash m d := h
  constructor
  · unfold basicSign createSignature
    dsimp only
    rw [e1]
    rfl
  · unfold basicVerify verifySignature
    dsimp only
    rw [e1]
    rfl

theorem only1 {f g : List UInt8 → List UInt8 → G1.Point} {m d : List UInt8} (h : f m d = g m d) (sk : L4) (pk : G2.Point) (sig : G1.Point) :
    basicSign (tiny f) d sk (some m) = basicSign (tiny g) d sk (some m) ∧
    basicVerify (tiny f) d pk (some m) sig = basicVerify (tiny g) d pk (some m) sig := by
  have e1 : (tiny f).hash m d = (tiny g).hash m d := h
  constructor
  · unfold basicSign createSignature
    dsimp only
    rw [e1]
    rfl
  · unfold basicVerify verifySignature
    dsimp only
    rw [e1]
    rfl

/-- **C103.** Keys in G1: a signature is accepted exactly if it is the key's multiple of the message's point of RFC 9380, other than the
neutral element; for every message with no zero field element and every tag of at most 255 bytes. -/
theorem C103_usual_verify_partial {L : HashLib} (hL : L.sha256.size ≤ 255) {m d : List UInt8} (hd : d.length ≤ 255) (hg : Good2 L m d)
    (x : Key1) {sig : G2.Point} {Q : G2.PP} (hQ : G2.Rep sig Q) :
    basicVerify (usual (hash2 L)) d x.pk (some m) sig = .ok true ↔ ∃ T, IsHash2 L m d T ∧ Q = x.k.val • T ∧ Q ≠ 0 := by
  obtain ⟨T, hT, hr, hq⟩ := hash2_spec hL hd hg
  have hh : Hash2 (fun _ _ => hash2 L m d) (fun _ _ => T) := ⟨fun _ _ => hr, fun _ _ => hq⟩
  rw [(only2 (f := hash2 L) (g := fun _ _ => hash2 L m d) rfl x.sk x.pk sig).2, C100_usual_verify hh x hQ m d]
  constructor
  · exact fun h => ⟨T, hT, h⟩
  · rintro ⟨T', hT', h⟩
    rw [isHash2_unique hT hT']
    exact h

/-- **C103.** Signing such a message gives that multiple; the signature verifies, also after encoding and decoding, unless the message's point is
the neutral element. -/
theorem C103_usual_sign_partial {L : HashLib} (hL : L.sha256.size ≤ 255) {m d : List UInt8} (hd : d.length ≤ 255) (hg : Good2 L m d) (x : Key1) :
    ∃ T sig, IsHash2 L m d T ∧ basicSign (usual (hash2 L)) d x.sk (some m) = .ok sig ∧ G2.Rep sig (x.k.val • T) ∧
      (T ≠ 0 → basicVerify (usual (hash2 L)) d x.pk (some m) sig = .ok true ∧
        ∃ sig', unmarshal side2 (side2.enc sig) = .ok sig' ∧ basicVerify (usual (hash2 L)) d x.pk (some m) sig' = .ok true) := by
  obtain ⟨T, hT, hr, hq⟩ := hash2_spec hL hd hg
  have hh : Hash2 (fun _ _ => hash2 L m d) (fun _ _ => T) := ⟨fun _ _ => hr, fun _ _ => hq⟩
  obtain ⟨sig, h1, h2, h3⟩ := C100_usual_sign hh x m d
  refine ⟨T, sig, hT, ?_, h2, fun h0 => ?_⟩
  · rw [(only2 (f := hash2 L) (g := fun _ _ => hash2 L m d) rfl x.sk x.pk sig).1]
    exact h1
  · obtain ⟨h4, sig', h5, h6⟩ := h3 h0
    refine ⟨?_, sig', h5, ?_⟩
    · rw [(only2 (f := hash2 L) (g := fun _ _ => hash2 L m d) rfl x.sk x.pk sig).2]
      exact h4
    · rw [(only2 (f := hash2 L) (g := fun _ _ => hash2 L m d) rfl x.sk x.pk sig').2]
      exact h6

/-- **C103.** Keys in G2, signatures in G1: the same for messages without exceptional field element. -/
theorem C103_tiny_verify_partial {L : HashLib} (hL : L.sha256.size ≤ 255) {m d : List UInt8} (hd : d.length ≤ 255) (hg : Good1 L m d)
    (x : Key2) {sig : G1.Point} {Q : G1.PP} (hQ : G1.Rep sig Q) :
    basicVerify (tiny (hash1 L)) d x.pk (some m) sig = .ok true ↔ ∃ T, IsHash1 L m d T ∧ Q = x.k.val • T ∧ Q ≠ 0 := by
  obtain ⟨T, hT, hr, hq⟩ := hash1_spec hL hd hg
  have hh : Hash1 (fun _ _ => hash1 L m d) (fun _ _ => T) := ⟨fun _ _ => hr, fun _ _ => hq⟩
  rw [(only1 (f := hash1 L) (g := fun _ _ => hash1 L m d) rfl x.sk x.pk sig).2, C100_tiny_verify hh x hQ m d]
  constructor
  · exact fun h => ⟨T, hT, h⟩
  · rintro ⟨T', hT', h⟩
    rw [isHash1_unique hT hT']
    exact h

/-- **C103.** Keys in G2, signatures in G1: signing. -/
theorem C103_tiny_sign_partial {L : HashLib} (hL : L.sha256.size ≤ 255) {m d : List UInt8} (hd : d.length ≤ 255) (hg : Good1 L m d) (x : Key2) :
    ∃ T sig, IsHash1 L m d T ∧ basicSign (tiny (hash1 L)) d x.sk (some m) = .ok sig ∧ G1.Rep sig (x.k.val • T) ∧
      (T ≠ 0 → basicVerify (tiny (hash1 L)) d x.pk (some m) sig = .ok true ∧
        ∃ sig', unmarshal side1 (side1.enc sig) = .ok sig' ∧ basicVerify (tiny (hash1 L)) d x.pk (some m) sig' = .ok true) := by
  obtain ⟨T, hT, hr, hq⟩ := hash1_spec hL hd hg
  have hh : Hash1 (fun _ _ => hash1 L m d) (fun _ _ => T) := ⟨fun _ _ => hr, fun _ _ => hq⟩
  obtain ⟨sig, h1, h2, h3⟩ := C100_tiny_sign hh x m d
  refine ⟨T, sig, hT, ?_, h2, fun h0 => ?_⟩
  · rw [(only1 (f := hash1 L) (g := fun _ _ => hash1 L m d) rfl x.sk x.pk sig).1]
    exact h1
  · obtain ⟨h4, sig', h5, h6⟩ := h3 h0
    refine ⟨?_, sig', h5, ?_⟩
    · rw [(only1 (f := hash1 L) (g := fun _ _ => hash1 L m d) rfl x.sk x.pk sig).2]
      exact h4
    · rw [(only1 (f := hash1 L) (g := fun _ _ => hash1 L m d) rfl x.sk x.pk sig').2]
      exact h6

/-! ## The hypotheses are met -/

/-- A hash function with a constant value. -/
def constHash (b : UInt8) : Hash.HashFn where
  h := fun _ => List.replicate 32 b
  size := 32
  block := 64
  len_h := fun _ => List.length_replicate
  size_pos := by decide

example : (HashLib.any (constHash 1)).sha256.size ≤ 255 ∧ Good2 (HashLib.any (constHash 1)) [1, 2] [3] := by
  have p (i : Nat) (hi : i < 4) : (List.drop (64 * i) (uniformN 256 (newHasher (HashLib.any (constHash 1)) .sha256) [1, 2] [3])).take 64 =
      List.replicate 64 1 := by
    have : ∀ i < 4, (List.drop (64 * i) (uniformN 256 (newHasher (HashLib.any (constHash 1)) .sha256) [1, 2] [3])).take 64 =
      List.replicate 64 1 := by decide +kernel
    exact this i hi
  have e (i : Nat) (hi : i < 2) : G2.elem (newHasher (HashLib.any (constHash 1)) .sha256) [1, 2] [3] i =
      Fp6.el Fp.p (beToNat (List.replicate 64 1), beToNat (List.replicate 64 1)) := by
    unfold G2.elem piece64
    rw [p _ (by omega), p _ (by omega)]
    rfl
  refine ⟨by decide, ?_, ?_⟩
  · rw [e 0 (by decide)]
    exact G2.el_ne_zero (by decide +kernel)
  · rw [e 1 (by decide)]
    exact G2.el_ne_zero (by decide +kernel)

example : (HashLib.any (constHash 0)).sha256.size ≤ 255 ∧ Good1 (HashLib.any (constHash 0)) [1, 2] [3] := by
  have p (i : Nat) (hi : i < 2) : (List.drop (64 * i) (uniformN 128 (newHasher (HashLib.any (constHash 0)) .sha256) [1, 2] [3])).take 64 =
      List.replicate 64 0 := by
    have : ∀ i < 2, (List.drop (64 * i) (uniformN 128 (newHasher (HashLib.any (constHash 0)) .sha256) [1, 2] [3])).take 64 =
      List.replicate 64 0 := by decide +kernel
    exact this i hi
  have e (i : Nat) (hi : i < 2) : G1.elem (newHasher (HashLib.any (constHash 0)) .sha256) [1, 2] [3] i = 0 := by
    unfold G1.elem piece64
    rw [p _ (by omega), show beToNat (List.replicate 64 0) = 0 by decide, Nat.cast_zero]
  refine ⟨by decide, ?_, ?_⟩
  · rw [e 0 (by decide)]
    exact G1.zero_ok
  · rw [e 1 (by decide)]
    exact G1.zero_ok

end Verif.Bls381.Sig
