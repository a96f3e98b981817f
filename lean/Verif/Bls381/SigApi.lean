import Verif.Bls381.SigRefine

/-!
# Properties of the BLS signatures over BLS12-381 (crypto/signatures/bls/bls_sig)

The signatures of `usual_bls_sig.go` and `tiny_bls_sig.go` on stored points, with the pairing engine.  The hash to the group of the signatures
is a parameter here, required to land in the subgroup of order `q`.
-/

set_option linter.unusedSectionVars false
set_option maxRecDepth 20000

namespace Verif.Bls381.Sig
open Verif.Native Verif.Bytes Verif.Bls381.Inst Verif.Bls381.Pair

/-! ## Specification -/

/-- `hash` is stored points of the function `H` into the subgroup of order `q` of G1. -/
structure Hash1 (hash : List UInt8 → List UInt8 → G1.Point) (H : List UInt8 → List UInt8 → G1.PP) : Prop where
  rep : ∀ m d, G1.Rep (hash m d) (H m d)
  sub : ∀ m d, Fq.q • H m d = 0

/-- The same for G2. -/
structure Hash2 (hash : List UInt8 → List UInt8 → G2.Point) (H : List UInt8 → List UInt8 → G2.PP) : Prop where
  rep : ∀ m d, G2.Rep (hash m d) (H m d)
  sub : ∀ m d, Fq.q • H m d = 0

/-- A stored key pair with keys in G1: the scalar, its value, which is not zero, and a stored form of that multiple of the generator. -/
structure Key1 where
  sk : L4
  k : ZMod Fq.q
  pk : G1.Point
  rep : Native.Rep Fq.q sk k
  ne : k ≠ 0
  pub : G1.Rep pk (k.val • G1.G)

/-- The same for G2. -/
structure Key2 where
  sk : L4
  k : ZMod Fq.q
  pk : G2.Point
  rep : Native.Rep Fq.q sk k
  ne : k ≠ 0
  pub : G2.Rep pk (k.val • G2.G)

/-! ## Lemmas -/

section
variable {KA SA P S CP CS : Type} [AddCommGroup P] [Module K P] [AddCommGroup S] [Module K S]
variable {W : Scheme KA SA} {V : Bls.Env K P S Ate.U12 CP CS} {RK : KA → CP → Prop} {RS : SA → CS → Prop} {ok : CP → Prop}
  (H : SchemeOK W V RK RS ok)
include H

theorem pub_ok {k : K} (hk : k • V.E.g1 ≠ 0) : Bls.getPublicKey V k = .ok (V.kp.ι (k • V.E.g1)) := by
  rw [Bls.getPublicKey_eq, if_neg hk]

theorem ok_ι (g : P) : ok (V.kp.ι g) := H.okSub ((V.kp.inSub_iff _).2 ⟨g, rfl⟩)

theorem verify_iff {k : K} (hk : k • V.E.g1 ≠ 0) {pk : KA} (hp : RK pk (V.kp.ι (k • V.E.g1))) {sig : SA} {q : CS} (hq : RS sig q) (m d : List UInt8) :
    verifySignature W pk (some m) sig d = .ok true ↔ q = V.sg.ι (k • V.hash m d) ∧ q ≠ V.sg.ι 0 := by
  rw [verifySignature_ref H hp (ok_ι H _) hq]
  have h := Bls.C36_verify_iff V k _ (pub_ok H hk) m d q
  have hk0 : k ≠ 0 := by rintro rfl; rw [zero_smul] at hk; exact hk rfl
  rw [Bls.basicSign, Bls.createSignature_eq, if_neg hk0] at h
  refine h.trans ?_
  constructor
  · rintro ⟨h1, h2⟩
    exact ⟨(Res.ok.inj h1).symm, h2⟩
  · rintro ⟨h1, h2⟩
    exact ⟨by rw [h1], h2⟩

theorem sign_rep {sk : L4} {k : K} (hs : Native.Rep Fq.q sk k) (hk : k ≠ 0) (m d : List UInt8) :
    ∃ sig, createSignature W sk (some m) d = .ok sig ∧ RS sig (V.sg.ι (k • V.hash m d)) := by
  have h := createSignature_ref H hs (some m) d
  rw [Bls.createSignature_eq, if_neg hk] at h
  exact h.ok_right

end

theorem ne1 {k : K} (h : k ≠ 0) : k • Inst.g1 ≠ 0 := by
  intro e
  have e' := congrArg Subtype.val e
  rw [smul1] at e'
  have hd : Fq.q ∣ k.val := by
    have := addOrderOf_dvd_of_nsmul_eq_zero (x := G1.G) e'
    rwa [G1.addOrder_G] at this
  exact h ((ZMod.val_eq_zero k).1 (Nat.eq_zero_of_dvd_of_lt hd (ZMod.val_lt k)))

theorem ne2 {k : K} (h : k ≠ 0) : k • Inst.g2 ≠ 0 := by
  intro e
  have e' := congrArg Subtype.val e
  rw [smul2] at e'
  have hd : Fq.q ∣ k.val := by
    have := addOrderOf_dvd_of_nsmul_eq_zero (x := G2.G) e'
    rwa [G2.addOrder_G] at this
  exact h ((ZMod.val_eq_zero k).1 (Nat.eq_zero_of_dvd_of_lt hd (ZMod.val_lt k)))

theorem small : Sharing.SmallNonzero K 255 := by
  intro n h0 hn e
  have hd : Fq.q ∣ n := (ZMod.natCast_eq_zero_iff n Fq.q).1 e
  have h255 : (255 : ℕ) < Fq.q := by decide +kernel
  exact absurd (Nat.le_of_dvd h0 hd) (by omega)

theorem zero_key {s : L4} (h : Native.Rep Fq.q s 0) : Scalar.isZero s = true := (Fq.C90_scalar_tests h h).1.2 rfl

/-! ## Theorems: secret keys -/

/-- **C100** a secret key is written as 32 bytes, big-endian, and reading accepts exactly the 32-byte big-endian numbers from 1 to `q - 1`; the two
are inverse to each other -/
theorem C100_secret_key (data : List UInt8) :
    (∀ sk, skUnmarshal data = .ok sk ↔ data.length = 32 ∧ 0 < beToNat data ∧ beToNat data < Fq.q ∧ Native.Rep Fq.q sk (beToNat data : ZMod Fq.q)) ∧
    (¬ (data.length = 32 ∧ 0 < beToNat data ∧ beToNat data < Fq.q) → skUnmarshal data = .err) ∧
    (∀ sk, skUnmarshal data = .ok sk → skMarshal sk = data) ∧
    (∀ (sk : L4) (k : ZMod Fq.q), Native.Rep Fq.q sk k → (skMarshal sk).length = 32 ∧ beToNat (skMarshal sk) = k.val ∧
      (k ≠ 0 → skUnmarshal (skMarshal sk) = .ok sk)) := by
  have hm : ∀ (sk : L4) (k : ZMod Fq.q), Native.Rep Fq.q sk k → skMarshal sk = natToBEfix 32 k.val := by
    intro sk k h
    unfold skMarshal natToBEfix
    rw [Fq.bytes_eq, C50_bytes (A := Fq.implFix.A) Fq.lawful h]
  have hzero : ∀ data : List UInt8, data = List.replicate data.length 0 ↔ beToNat data = 0 := by
    intro data
    constructor
    · intro h
      rw [h]
      generalize data.length = n
      have := beToNat_natToBEfix n 0
      have e : natToBEfix n 0 = List.replicate n 0 := by
        unfold natToBEfix
        have : ∀ n, natToLE n 0 = List.replicate n (0 : UInt8) := by
          intro n
          induction n with
          | zero => rfl
          | succ n ih => rw [natToLE, Nat.zero_div, ih]; rfl
        rw [this, List.reverse_replicate]
      rw [e, Nat.zero_mod] at this
      exact this
    · intro h
      have := natToBEfix_beToNat data
      rw [h] at this
      rw [← this]
      rw [length_natToBEfix]
      unfold natToBEfix
      have : ∀ n, natToLE n 0 = List.replicate n (0 : UInt8) := by
        intro n
        induction n with
        | zero => rfl
        | succ n ih => rw [natToLE, Nat.zero_div, ih]; rfl
      rw [this, List.reverse_replicate]
  have hu : ∀ data : List UInt8, (data.length = 32 ∧ 0 < beToNat data ∧ beToNat data < Fq.q →
      ∃ sk, skUnmarshal data = .ok sk ∧ Native.Rep Fq.q sk (beToNat data : ZMod Fq.q)) ∧
      (¬ (data.length = 32 ∧ 0 < beToNat data ∧ beToNat data < Fq.q) → skUnmarshal data = .err) := by
    intro data
    unfold skUnmarshal
    by_cases h32 : data.length = 32
    · rw [if_neg (not_not_intro h32)]
      obtain ⟨s1, s2⟩ := C50_setBytes Fq.lawful data.reverse (by rw [List.length_reverse, h32])
      rw [leToNat_reverse] at s1 s2
      have e : Field.setBytes Fq.impl.A Fq.impl.P data.reverse = Field.setBytes Fq.arithFix Fq.params data.reverse := by
        rw [Fq.e_P]
        exact Fq.setBytes_eq _
      rw [e]
      by_cases h0 : beToNat data = 0
      · rw [if_pos ((hzero data).2 h0)]
        exact ⟨fun h => absurd h.2.1 (by omega), fun _ => rfl⟩
      · rw [if_neg (fun h => h0 ((hzero data).1 h))]
        by_cases hlt : beToNat data < Fq.q
        · exact ⟨fun _ => s1 hlt, fun h => absurd ⟨h32, by omega, hlt⟩ h⟩
        · exact ⟨fun h => absurd h.2.2 hlt, fun _ => s2 (by omega)⟩
    · rw [if_pos h32]
      exact ⟨fun h => absurd h.1 h32, fun _ => rfl⟩
  have hiff : ∀ sk, skUnmarshal data = .ok sk ↔ data.length = 32 ∧ 0 < beToNat data ∧ beToNat data < Fq.q ∧ Native.Rep Fq.q sk (beToNat data : ZMod Fq.q) := by
    intro sk
    constructor
    · intro h
      by_cases hc : data.length = 32 ∧ 0 < beToNat data ∧ beToNat data < Fq.q
      · obtain ⟨sk', e, hr⟩ := (hu data).1 hc
        rw [e] at h
        obtain rfl := Res.ok.inj h
        exact ⟨hc.1, hc.2.1, hc.2.2, hr⟩
      · rw [(hu data).2 hc] at h
        cases h
    · rintro ⟨h1, h2, h3, h4⟩
      obtain ⟨sk', e, hr⟩ := (hu data).1 ⟨h1, h2, h3⟩
      rw [e, rep_unique Fq.lawful hr h4]
  refine ⟨hiff, (hu data).2, ?_, ?_⟩
  · intro sk h
    obtain ⟨h1, -, h3, h4⟩ := (hiff sk).1 h
    rw [hm sk _ h4, ZMod.val_natCast_of_lt h3]
    have := natToBEfix_beToNat data
    rw [h1] at this
    exact this
  · intro sk k h
    rw [hm sk k h]
    have hv : beToNat (natToBEfix 32 k.val) = k.val := by
      rw [beToNat_natToBEfix]
      exact Nat.mod_eq_of_lt (lt_of_lt_of_le (ZMod.val_lt k) (show Fq.q ≤ 256 ^ 32 by decide +kernel))
    refine ⟨length_natToBEfix _ _, hv, fun hk => ?_⟩
    obtain ⟨sk', e, hr⟩ := (hu (natToBEfix 32 k.val)).1 ⟨length_natToBEfix _ _, by
      rw [hv]; exact Nat.pos_of_ne_zero fun h0 => hk ((ZMod.val_eq_zero k).1 h0), by rw [hv]; exact ZMod.val_lt k⟩
    rw [hv, ZMod.natCast_zmod_val] at hr
    rw [e, rep_unique Fq.lawful hr h]


/-! ## Decoded points -/

/-- The shares of a key: signatures/bls/bls_sig/lib.go:161-208 `thresholdizeSecretKey` with the 32-byte big-endian scalars. -/
def sharesOf (k : ZMod Fq.q) (threshold total : Nat) (rnd : Nat → ZMod Fq.q) : Res (List Bls.KeyShare) :=
  if threshold > total then .err
  else if threshold = 0 then .err
  else if total ≤ 1 then .err
  else if total > 255 ∨ threshold > 255 then .err
  else do
    let sss ← Res.ofOption (Sharing.newShamir threshold total)
    let shares ← Res.ofOption (Sharing.split sss codecK k rnd)
    if shares.length ≠ total then Res.err
    else Res.ok (shares.map fun s => ⟨UInt8.ofNat s.id, s.value⟩)

theorem share_length {k : ZMod Fq.q} {t n : Nat} {rnd : Nat → ZMod Fq.q} {shares : List Bls.KeyShare} (hs : sharesOf k t n rnd = .ok shares) :
    ∀ s ∈ shares, s.value.length = 32 := by
  unfold sharesOf at hs
  split at hs
  · cases hs
  split at hs
  · cases hs
  split at hs
  · cases hs
  split at hs
  · cases hs
  obtain ⟨sss, h1, h2⟩ := Res.bind_eq_ok.mp hs
  obtain ⟨sh, h3, h4⟩ := Res.bind_eq_ok.mp h2
  split at h4
  · cases h4
  obtain rfl := Res.ok.inj h4
  intro s hsm
  obtain ⟨y, hy, rfl⟩ := List.mem_map.1 hsm
  have h3' : Sharing.split sss codecK k rnd = some sh := by
    cases e : Sharing.split sss codecK k rnd with
    | none => rw [e] at h3; cases h3
    | some s' => rw [e] at h3; rw [Res.ok.inj h3]
  unfold Sharing.split at h3'
  split at h3'
  · cases h3'
  obtain rfl := Option.some.inj h3'
  obtain ⟨-, -, hv⟩ := (Sharing.mem_shares_iff sss codecK k rnd y).mp hy
  rw [hv]
  exact length_natToBEfix _ _

/-- **C100** `UnmarshalBinary` of a point of 48 bytes in G1: what is accepted is a multiple of the generator other than the neutral element, and the input is its
one encoding; anything of another length is refused; the encoding of every such point is accepted -/
theorem C100_decode1 (b : List UInt8) :
    (∀ e, unmarshal side1 b = .ok e → ∃ k : ZMod Fq.q, k ≠ 0 ∧ G1.Rep e (k.val • G1.G) ∧ side1.enc e = b) ∧
    (b.length ≠ 48 → unmarshal side1 b = .err) ∧
    (∀ (e : G1.Point) (k : ZMod Fq.q), k ≠ 0 → G1.Rep e (k.val • G1.G) → ∃ e', unmarshal side1 (side1.enc e) = .ok e' ∧ G1.Rep e' (k.val • G1.G)) := by
  refine ⟨fun e h => ?_, fun h => ?_, fun e k hk hr => ?_⟩
  · unfold unmarshal at h
    by_cases hl : b.length = side1.size
    · rw [if_neg (not_not_intro hl)] at h
      cases hd : side1.dec b with
      | none => rw [hd] at h; cases h
      | some p =>
        rw [hd] at h
        dsimp only at h
        split at h
        · cases h
        rename_i hid
        obtain rfl := Res.ok.inj h
        obtain ⟨-, ⟨k, hk, hr⟩, hc⟩ := G1.C95_compressed_sound hl hd
        have hid' : ¬ P3.isIdentity G1.F p = 1 := hid
        rw [P3.isIdentity_spec G1.FOk hr, P3.flag_iff] at hid'
        refine ⟨(k : ZMod Fq.q), ?_, ?_, ?_⟩
        · intro h0
          have : k = 0 := Nat.eq_zero_of_dvd_of_lt ((ZMod.natCast_eq_zero_iff k Fq.q).1 h0) hk
          rw [this, zero_nsmul] at hid'
          exact hid' rfl
        · rw [ZMod.val_natCast_of_lt hk]
          exact hr
        · refine (hc ?_).1
          intro h6
          obtain ⟨-, hcase⟩ := P3.fromCompressed_sound G1.COk hl hd
          rcases hcase with ⟨-, rfl⟩ | ⟨h6', -⟩
          · exact hid' (P3.hrep_unique G1.FOk hr (P3.identity_spec G1.FOk))
          · exact h6' h6
    · rw [if_pos hl] at h
      cases h
  · unfold unmarshal
    exact if_pos h
  · have hq : Fq.q • k.val • G1.G = 0 := by rw [nsmul_left_comm, G1.order_G, nsmul_zero]
    have h0 : k.val • G1.G ≠ 0 := by
      intro hc
      have hd := addOrderOf_dvd_of_nsmul_eq_zero hc
      rw [G1.addOrder_G] at hd
      exact hk ((ZMod.val_eq_zero k).1 (Nat.eq_zero_of_dvd_of_lt hd (ZMod.val_lt k)))
    obtain ⟨⟨e', h1, h2⟩, -, hl, -⟩ := G1.C95_roundtrip hr hq
    refine ⟨e', ?_, h2⟩
    unfold unmarshal
    have hl' : (side1.enc e).length = side1.size := hl
    have e'' : side1.dec (side1.enc e) = some e' := h1
    rw [if_neg (not_not_intro hl'), e'']
    dsimp only
    rw [if_neg]
    show ¬ P3.isIdentity G1.F e' = 1
    rw [P3.isIdentity_spec G1.FOk h2, P3.flag_iff]
    exact h0

theorem decoded1 {b : List UInt8} {e : G1.Point} (h : unmarshal side1 b = .ok e) : ∃ k : ZMod Fq.q, k ≠ 0 ∧ G1.Rep e (k.val • G1.G) ∧ side1.enc e = b :=
  (C100_decode1 b).1 e h

/-- **C100** `UnmarshalBinary` of a point of 96 bytes in G2: what is accepted is a multiple of the generator other than the neutral element, and the input is its
one encoding; anything of another length is refused; the encoding of every such point is accepted -/
theorem C100_decode2 (b : List UInt8) :
    (∀ e, unmarshal side2 b = .ok e → ∃ k : ZMod Fq.q, k ≠ 0 ∧ G2.Rep e (k.val • G2.G) ∧ side2.enc e = b) ∧
    (b.length ≠ 96 → unmarshal side2 b = .err) ∧
    (∀ (e : G2.Point) (k : ZMod Fq.q), k ≠ 0 → G2.Rep e (k.val • G2.G) → ∃ e', unmarshal side2 (side2.enc e) = .ok e' ∧ G2.Rep e' (k.val • G2.G)) := by
  refine ⟨fun e h => ?_, fun h => ?_, fun e k hk hr => ?_⟩
  · unfold unmarshal at h
    by_cases hl : b.length = side2.size
    · rw [if_neg (not_not_intro hl)] at h
      cases hd : side2.dec b with
      | none => rw [hd] at h; cases h
      | some p =>
        rw [hd] at h
        dsimp only at h
        split at h
        · cases h
        rename_i hid
        obtain rfl := Res.ok.inj h
        obtain ⟨-, ⟨k, hk, hr⟩, hc⟩ := G2.C97_compressed_sound hl hd
        have hid' : ¬ P3.isIdentity G2.F p = 1 := hid
        rw [P3.isIdentity_spec G2.FOk hr, P3.flag_iff] at hid'
        refine ⟨(k : ZMod Fq.q), ?_, ?_, ?_⟩
        · intro h0
          have : k = 0 := Nat.eq_zero_of_dvd_of_lt ((ZMod.natCast_eq_zero_iff k Fq.q).1 h0) hk
          rw [this, zero_nsmul] at hid'
          exact hid' rfl
        · rw [ZMod.val_natCast_of_lt hk]
          exact hr
        · refine (hc ?_).1
          intro h6
          obtain ⟨-, hcase⟩ := P3.fromCompressed_sound G2.COk hl hd
          rcases hcase with ⟨-, rfl⟩ | ⟨h6', -⟩
          · exact hid' (P3.hrep_unique G2.FOk hr (P3.identity_spec G2.FOk))
          · exact h6' h6
    · rw [if_pos hl] at h
      cases h
  · unfold unmarshal
    exact if_pos h
  · have hq : Fq.q • k.val • G2.G = 0 := by rw [nsmul_left_comm, G2.order_G, nsmul_zero]
    have h0 : k.val • G2.G ≠ 0 := by
      intro hc
      have hd := addOrderOf_dvd_of_nsmul_eq_zero hc
      rw [G2.addOrder_G] at hd
      exact hk ((ZMod.val_eq_zero k).1 (Nat.eq_zero_of_dvd_of_lt hd (ZMod.val_lt k)))
    obtain ⟨⟨e', h1, h2⟩, -, hl, -⟩ := G2.C97_roundtrip hr hq
    refine ⟨e', ?_, h2⟩
    unfold unmarshal
    have hl' : (side2.enc e).length = side2.size := hl
    have e'' : side2.dec (side2.enc e) = some e' := h1
    rw [if_neg (not_not_intro hl'), e'']
    dsimp only
    rw [if_neg]
    show ¬ P3.isIdentity G2.F e' = 1
    rw [P3.isIdentity_spec G2.FOk h2, P3.flag_iff]
    exact h0

theorem decoded2 {b : List UInt8} {e : G2.Point} (h : unmarshal side2 b = .ok e) : ∃ k : ZMod Fq.q, k ≠ 0 ∧ G2.Rep e (k.val • G2.G) ∧ side2.enc e = b :=
  (C100_decode2 b).1 e h


/-! ## Theorems: keys in G1, signatures in G2 (`usual_bls_sig.go`) -/

section
variable {hash : List UInt8 → List UInt8 → G2.Point} {H : List UInt8 → List UInt8 → G2.PP} (hh : Hash2 hash H)
include hh

theorem usual_scheme : ∃ h : List UInt8 → List UInt8 → sub2, (∀ m d, (h m d).1 = H m d) ∧ SchemeOK (usual hash) (envU h) G1.Rep G2.Rep (fun _ => True) :=
  ⟨fun m d => ⟨H m d, mem_sub2.2 (hh.sub m d)⟩, fun _ _ => rfl, usual_ok hh.rep⟩

/-- **C100** `GetPublicKey` of a non-zero secret key gives that multiple of the generator, and fails for zero -/
theorem C100_usual_public_key {sk : L4} {k : ZMod Fq.q} (hs : Native.Rep Fq.q sk k) :
    (k ≠ 0 → ∃ pk, getPublicKey (usual hash) sk = .ok pk ∧ G1.Rep pk (k.val • G1.G)) ∧ (k = 0 → getPublicKey (usual hash) sk = .err) := by
  obtain ⟨h, hH, O⟩ := usual_scheme hh
  have r := getPublicKey_ref O hs
  constructor
  · intro hk
    rw [pub_ok O (ne1 hk)] at r
    obtain ⟨pk, e, hr⟩ := r.ok_right
    refine ⟨pk, e, ?_⟩
    have e2 := smul1 k Inst.g1
    have hr' : G1.Rep pk (k • Inst.g1 : sub1).1 := hr
    rw [e2] at hr'
    exact hr'
  · rintro rfl
    rw [Bls.getPublicKey_eq, if_pos (zero_smul _ _)] at r
    generalize getPublicKey (usual hash) sk = x at r
    cases r
    rfl

/-- **C100** the verification equation is decided by the pairing engine: under the public key of `k`, in any stored form, `Verify` accepts a
signature exactly if it is `k` times the hash of the message and not the neutral element -/
theorem C100_usual_verify (x : Key1) {sig : G2.Point} {Q : G2.PP} (hQ : G2.Rep sig Q) (m d : List UInt8) :
    basicVerify (usual hash) d x.pk (some m) sig = .ok true ↔ Q = x.k.val • H m d ∧ Q ≠ 0 := by
  obtain ⟨h, hH, O⟩ := usual_scheme hh
  have hp : G1.Rep x.pk ((envU h).kp.ι (x.k • (envU h).E.g1)) := by
    show G1.Rep x.pk (x.k • Inst.g1 : sub1).1
    rw [smul1]
    exact x.pub
  have r := verify_iff O (ne1 x.ne) hp hQ m d
  refine r.trans ?_
  show (Q = (x.k • h m d : sub2).1 ∧ Q ≠ 0) ↔ _
  rw [smul2, hH]

/-- **C100** signing with a non-zero key succeeds and gives `k` times the hash of the message; the signature verifies unless the message hashes to
the neutral element, in every stored form and also after being encoded and decoded again -/
theorem C100_usual_sign (x : Key1) (m d : List UInt8) :
    ∃ sig, basicSign (usual hash) d x.sk (some m) = .ok sig ∧ G2.Rep sig (x.k.val • H m d) ∧
      (H m d ≠ 0 → basicVerify (usual hash) d x.pk (some m) sig = .ok true ∧
        ∃ sig', unmarshal side2 (side2.enc sig) = .ok sig' ∧ basicVerify (usual hash) d x.pk (some m) sig' = .ok true) := by
  obtain ⟨h, hH, O⟩ := usual_scheme hh
  obtain ⟨sig, e, hr⟩ := sign_rep O x.rep x.ne m d
  have hr' : G2.Rep sig (x.k.val • H m d) := by
    rw [← hH, ← smul2]
    exact hr
  refine ⟨sig, e, hr', fun hne => ?_⟩
  have hq : Fq.q • x.k.val • H m d = 0 := by rw [nsmul_left_comm, hh.sub, nsmul_zero]
  have h0 : x.k.val • H m d ≠ 0 := by
    intro hc
    have ho : addOrderOf (H m d) = Fq.q := addOrderOf_eq_prime (hh.sub m d) hne
    have hd := addOrderOf_dvd_of_nsmul_eq_zero hc
    rw [ho] at hd
    exact x.ne ((ZMod.val_eq_zero x.k).1 (Nat.eq_zero_of_dvd_of_lt hd (ZMod.val_lt x.k)))
  refine ⟨(C100_usual_verify hh x hr' m d).2 ⟨rfl, h0⟩, ?_⟩
  obtain ⟨⟨sig', e', hs'⟩, -, hl, -⟩ := G2.C97_roundtrip hr' hq
  refine ⟨sig', ?_, (C100_usual_verify hh x hs' m d).2 ⟨rfl, h0⟩⟩
  unfold unmarshal
  have hl' : (side2.enc sig).length = side2.size := hl
  have e'' : side2.dec (side2.enc sig) = some sig' := e'
  rw [if_neg (not_not_intro hl'), e'']
  dsimp only
  rw [if_neg]
  show ¬ P3.isIdentity G2.F sig' = 1
  rw [P3.isIdentity_spec G2.FOk hs', P3.flag_iff]
  exact h0

/-- **C100** for a given key and message there is at most one signature as a byte string: two strings that decode and verify are equal -/
theorem C100_usual_unique_bytes (x : Key1) (m d : List UInt8) {b b' : List UInt8} {sig sig' : G2.Point} (hb : unmarshal side2 b = .ok sig)
    (hb' : unmarshal side2 b' = .ok sig') (hv : basicVerify (usual hash) d x.pk (some m) sig = .ok true)
    (hv' : basicVerify (usual hash) d x.pk (some m) sig' = .ok true) : b = b' := by
  obtain ⟨k, hk, hr, he⟩ := decoded2 hb
  obtain ⟨k', hk', hr', he'⟩ := decoded2 hb'
  have e := ((C100_usual_verify hh x hr m d).1 hv).1
  have e' := ((C100_usual_verify hh x hr' m d).1 hv').1
  rw [← he, ← he', side2_ok.enc hr (by rw [e, ← e']; exact hr')]

/-- **C100** what is refused: a nil message, the neutral element as key or signature, a signature outside the subgroup; nothing panics -/
theorem C100_usual_guards {pk : G1.Point} {P : G1.PP} (hP : G1.Rep pk P) {sig : G2.Point} {Q : G2.PP} (hQ : G2.Rep sig Q) (m : Option (List UInt8))
    (d : List UInt8) {sk : L4} {k : ZMod Fq.q} (hs : Native.Rep Fq.q sk k) :
    (m = none ∨ P = 0 ∨ Q = 0 ∨ Fq.q • Q ≠ 0 → basicVerify (usual hash) d pk m sig = .err) ∧
    (m ≠ none → P ≠ 0 → Q ≠ 0 → Fq.q • Q = 0 → ∃ b, basicVerify (usual hash) d pk m sig = .ok b) ∧
    (basicSign (usual hash) d sk m = .err ↔ m = none ∨ k = 0) := by
  have i1 : P3.isIdentity G1.F pk = 1 ↔ P = 0 := by rw [P3.isIdentity_spec G1.FOk hP, P3.flag_iff]
  have i2 : P3.isIdentity G2.F sig = 1 ↔ Q = 0 := by rw [P3.isIdentity_spec G2.FOk hQ, P3.flag_iff]
  have i3 : P3.inCorrectSubgroup G2.F sig = 0 ↔ Fq.q • Q ≠ 0 := by
    rw [G2.sub_spec' hQ]
    by_cases hq : Fq.q • Q = 0
    · rw [if_pos hq]; exact ⟨fun h => absurd h (by decide), fun h => absurd hq h⟩
    · rw [if_neg hq]; exact ⟨fun _ => hq, fun _ => rfl⟩
  refine ⟨?_, ?_, ?_⟩
  · intro hc
    cases m with
    | none => rfl
    | some m =>
      show (if P3.isIdentity G1.F pk = 1 then Res.err else if P3.isIdentity G2.F sig = 1 ∨ P3.inCorrectSubgroup G2.F sig = 0 then Res.err else _) = Res.err
      rcases hc with h | h | h | h
      · cases h
      · rw [if_pos (i1.2 h)]
      · rw [if_pos (Or.inl (i2.2 h))]; split <;> rfl
      · rw [if_pos (Or.inr (i3.2 h))]; split <;> rfl
  · intro hm h1 h2 h3
    cases m with
    | none => exact absurd rfl hm
    | some m =>
      refine ⟨check ((usual hash).verifyEngine pk (hash m d) sig), ?_⟩
      show (if P3.isIdentity G1.F pk = 1 then Res.err else if P3.isIdentity G2.F sig = 1 ∨ P3.inCorrectSubgroup G2.F sig = 0 then Res.err else _) = _
      rw [if_neg (by rw [i1]; exact h1), if_neg (by rw [i2, i3]; tauto)]
      rfl
  · cases m with
    | none => exact ⟨fun _ => Or.inl rfl, fun _ => rfl⟩
    | some m =>
      obtain ⟨h, hH, O⟩ := usual_scheme hh
      by_cases hk : k = 0
      · subst hk
        refine ⟨fun _ => Or.inr rfl, fun _ => ?_⟩
        show createSignature _ _ _ _ = _
        unfold createSignature
        dsimp only
        rw [if_pos (zero_key hs)]
      · obtain ⟨sig, e, -⟩ := sign_rep O hs hk m d
        have e' : basicSign (usual hash) d sk (some m) = .ok sig := e
        rw [e']
        refine ⟨fun h => (by cases h), fun h => ?_⟩
        rcases h with h | h
        · cases h
        · exact absurd h hk

omit hh in
theorem usual_keys {h : List UInt8 → List UInt8 → sub2} (xs : List Key1) : List.Forall₂ G1.Rep (xs.map Key1.pk) (Bls.keysOf (envU h) (xs.map Key1.k)) := by
  induction xs with
  | nil => exact .nil
  | cons x xs ih =>
    refine .cons ?_ ih
    show G1.Rep x.pk (x.k • Inst.g1 : sub1).1
    rw [smul1]
    exact x.pub

omit hh in
theorem usual_keys_ne {h : List UInt8 → List UInt8 → sub2} (xs : List Key1) : ∀ k ∈ xs.map Key1.k, k • (envU h).E.g1 ≠ 0 := by
  intro k hk
  obtain ⟨x, -, rfl⟩ := List.mem_map.1 hk
  exact ne1 x.ne

omit hh in
theorem usual_sum {h : List UInt8 → List UInt8 → sub2} {H : List UInt8 → List UInt8 → G2.PP} (hH : ∀ m d, (h m d).1 = H m d) (d : List UInt8)
    (f : K → List UInt8 → List UInt8) (l : List (K × List UInt8)) :
    ((l.map fun y => y.1 • h (f y.1 y.2) d).sum : sub2).1 = (l.map fun y => y.1.val • H (f y.1 y.2) d).sum := by
  induction l with
  | nil => rfl
  | cons y l ih =>
    rw [List.map_cons, List.map_cons, List.sum_cons, List.sum_cons, AddSubgroup.coe_add, ih, smul2, hH]

omit hh in
theorem usual_exists {Qs : List G2.PP} {T : G2.PP} :
    (∃ ss : List sub2, Qs = ss.map Subtype.val ∧ (ss.sum : sub2).1 = T) ↔ (∀ Q ∈ Qs, Fq.q • Q = 0) ∧ Qs.sum = T := by
  have hs : ∀ ss : List sub2, (ss.sum : sub2).1 = (ss.map Subtype.val).sum := by
    intro ss
    induction ss with
    | nil => rfl
    | cons a l ih => rw [List.sum_cons, List.map_cons, List.sum_cons, AddSubgroup.coe_add, ih]
  constructor
  · rintro ⟨ss, rfl, e⟩
    refine ⟨fun Q hQ => ?_, by rw [← hs]; exact e⟩
    obtain ⟨s, -, rfl⟩ := List.mem_map.1 hQ
    exact mem_sub2.1 s.2
  · rintro ⟨h1, h2⟩
    have : ∃ ss : List sub2, Qs = ss.map Subtype.val := by
      clear h2
      induction Qs with
      | nil => exact ⟨[], rfl⟩
      | cons a l ih =>
        obtain ⟨ss, e⟩ := ih fun Q hQ => h1 Q (List.mem_cons_of_mem _ hQ)
        exact ⟨⟨a, mem_sub2.2 (h1 a List.mem_cons_self)⟩ :: ss, by rw [List.map_cons, ← e]⟩
    obtain ⟨ss, rfl⟩ := this
    exact ⟨ss, rfl, by rw [hs]; exact h2⟩

/-- **C100** `AggregateVerify` of the basic scheme, for any number of keys, messages and signatures in any stored form: it accepts exactly if the
messages are pairwise different, there are as many keys as messages and at least one, there is at least one signature, all signatures lie in the
subgroup, and their sum is the sum of the honest signatures -/
theorem C100_usual_aggregate (xs : List Key1) (msgs : List (List UInt8)) {sigs : List G2.Point} {Qs : List G2.PP} (hQ : List.Forall₂ G2.Rep sigs Qs)
    (d : List UInt8) : basicAggregateVerify (usual hash) d (xs.map Key1.pk) msgs sigs = .ok true ↔
      msgs.Nodup ∧ xs ≠ [] ∧ xs.length = msgs.length ∧ sigs ≠ [] ∧ (∀ Q ∈ Qs, Fq.q • Q = 0) ∧
      Qs.sum = ((xs.zip msgs).map fun y => y.1.k.val • H y.2 d).sum := by
  obtain ⟨h, hH, O⟩ := usual_scheme hh
  rw [basicAggregateVerify_ref O (usual_keys xs) hQ, Bls.C36_aggregate_iff _ _ _ _ _ (usual_keys_ne xs)]
  have e1 : xs.map Key1.k ≠ [] ↔ xs ≠ [] := by simp
  have e2 : (xs.map Key1.k).length = xs.length := List.length_map _
  have e3 : Qs ≠ [] ↔ sigs ≠ [] := by
    have := hQ.length_eq
    rw [← List.length_pos_iff, ← List.length_pos_iff, this]
  have e4 : ((xs.zip msgs).map fun y => y.1.k.val • H y.2 d) = (((xs.map Key1.k).zip msgs).map fun y => y.1.val • H y.2 d) := by
    rw [List.zip_map_left, List.map_map]
    rfl
  rw [e1, e2, e3, e4, ← usual_sum hH d (fun _ m => m), ← usual_exists]
  refine and_congr_right fun _ => and_congr_right fun _ => and_congr_right fun _ => and_congr_right fun _ => ?_
  refine exists_congr fun ss => and_congr_right fun _ => ?_
  exact Subtype.ext_iff

/-- **C100** `FastAggregateVerify` on one message: under keys whose secret values do not sum to zero it accepts exactly the sum of the honest
signatures, unless that is the neutral element -/
theorem C100_usual_fast_aggregate (xs : List Key1) (hne : xs ≠ []) (hsum : (xs.map Key1.k).sum ≠ 0) (m d : List UInt8) {sig : G2.Point} {Q : G2.PP}
    (hQ : G2.Rep sig Q) : fastAggregateVerify (usual hash) d (xs.map Key1.pk) (some m) sig = .ok true ↔
      Q = (xs.map fun x => x.k.val • H m d).sum ∧ Q ≠ 0 := by
  obtain ⟨h, hH, O⟩ := usual_scheme hh
  rw [fastAggregateVerify_ref O (usual_keys xs) hQ, Bls.C36_fast_iff _ _ _ (by simpa using hne) (ne1 hsum)]
  have e : ∀ l : List K, ((l.map fun k => k • h m d).sum : sub2).1 = (l.map fun k => k.val • H m d).sum := by
    intro l
    induction l with
    | nil => rfl
    | cons y l ih => rw [List.map_cons, List.map_cons, List.sum_cons, List.sum_cons, AddSubgroup.coe_add, ih, smul2, hH]
  have e4 : (xs.map fun x => x.k.val • H m d) = ((xs.map Key1.k).map fun k => k.val • H m d) := by rw [List.map_map]; rfl
  rw [e4, ← e]
  rfl

/-- **C100** the augmented scheme and the proofs of possession: `Verify` accepts exactly the signature of the key's bytes followed by the message, and
the proof exactly if it is the signature of the key's bytes under the other tag -/
theorem C100_usual_bound (x : Key1) {sig : G2.Point} {Q : G2.PP} (hQ : G2.Rep sig Q) (m d : List UInt8) :
    (augVerify (usual hash) d x.pk m sig = .ok true ↔ Q = x.k.val • H (side1.enc x.pk ++ m) d ∧ Q ≠ 0) ∧
    (popVerify (usual hash) d x.pk sig = .ok true ↔ Q = x.k.val • H (side1.enc x.pk) d ∧ Q ≠ 0) :=
  ⟨C100_usual_verify hh x hQ (side1.enc x.pk ++ m) d, C100_usual_verify hh x hQ (side1.enc x.pk) d⟩

/-- **C100** any at-least-threshold many different shares of a key, in any order, sign to partial signatures that combine to the signature of the
whole key, which verifies unless the message hashes to the neutral element.  (`sharesOf` is the Shamir sharing of C01.) -/
theorem C100_usual_threshold (x : Key1) {t n : Nat} {rnd : Nat → ZMod Fq.q} {shares : List Bls.KeyShare}
    (hs : sharesOf x.k t n rnd = .ok shares) {sub : List Bls.KeyShare} (hsub : sub ⊆ shares) (hnd : sub.Nodup) (hlen : t ≤ sub.length)
    (m d : List UInt8) (hm : m ≠ []) :
    ∃ ps sig, sub.mapM (fun s => partialSign (usual hash) d s m) = .ok ps ∧ combineSigs (usual hash) ps = .ok sig ∧ G2.Rep sig (x.k.val • H m d) ∧
      (H m d ≠ 0 → basicVerify (usual hash) d x.pk (some m) sig = .ok true) := by
  obtain ⟨h, hH, O⟩ := usual_scheme hh
  have hs' : Bls.thresholdize (envU h) x.k t n rnd = .ok shares := hs
  obtain ⟨ps, hps, hc⟩ := Bls.C37_threshold (envU h) small x.k t n rnd shares hs' sub hsub hnd hlen m d hm
  have h32 : ∀ s ∈ sub, s.value.length = 32 := fun s hsm => share_length hs s (hsub hsm)
  have hrel : RelRes (List.Forall₂ (fun (a : Bls.Partial G2.Point) (c : Bls.Partial G2.PP) => a.identifier = c.identifier ∧ G2.Rep a.signature c.signature))
      (sub.mapM fun s => partialSign (usual hash) d s m) (sub.mapM fun s => Bls.partialSign (envU h) d s m) := by
    clear hsub hnd hlen hps
    induction sub with
    | nil => exact .ok .nil
    | cons s l ih =>
      rw [List.mapM_cons, List.mapM_cons]
      refine (partialSign_ref O d s (h32 s List.mem_cons_self) m).bind fun a c hac => ?_
      exact (ih fun s hs => h32 s (List.mem_cons_of_mem _ hs)).bind fun l l' hl => .ok (.cons hac hl)
  rw [hps] at hrel
  obtain ⟨ps', e1, hr⟩ := hrel.ok_right
  have hcr := combineSigs_ref O hr
  rw [hc, Bls.createSignature_eq, if_neg x.ne] at hcr
  obtain ⟨sig, e2, hsig⟩ := hcr.ok_right
  have hr' : G2.Rep sig (x.k.val • H m d) := by
    rw [← hH, ← smul2]
    exact hsig
  refine ⟨ps', sig, e1, e2, hr', fun hne => (C100_usual_verify hh x hr' m d).2 ⟨rfl, ?_⟩⟩
  intro hcz
  have ho : addOrderOf (H m d) = Fq.q := addOrderOf_eq_prime (hh.sub m d) hne
  have hd := addOrderOf_dvd_of_nsmul_eq_zero hcz
  rw [ho] at hd
  exact x.ne ((ZMod.val_eq_zero x.k).1 (Nat.eq_zero_of_dvd_of_lt hd (ZMod.val_lt x.k)))

end

/-! ## Theorems: keys in G2, signatures in G1 (`tiny_bls_sig.go`) -/

section
variable {hash : List UInt8 → List UInt8 → G1.Point} {H : List UInt8 → List UInt8 → G1.PP} (hh : Hash1 hash H)
include hh

theorem tiny_scheme : ∃ h : List UInt8 → List UInt8 → sub1, (∀ m d, (h m d).1 = H m d) ∧ SchemeOK (tiny hash) (envT h) G2.Rep G1.Rep (fun p => Fq.q • p = 0) :=
  ⟨fun m d => ⟨H m d, mem_sub1.2 (hh.sub m d)⟩, fun _ _ => rfl, tiny_ok hh.rep⟩

/-- **C100** `GetPublicKeyVt` of a non-zero secret key gives that multiple of the generator, and fails for zero -/
theorem C100_tiny_public_key {sk : L4} {k : ZMod Fq.q} (hs : Native.Rep Fq.q sk k) :
    (k ≠ 0 → ∃ pk, getPublicKey (tiny hash) sk = .ok pk ∧ G2.Rep pk (k.val • G2.G)) ∧ (k = 0 → getPublicKey (tiny hash) sk = .err) := by
  obtain ⟨h, hH, O⟩ := tiny_scheme hh
  have r := getPublicKey_ref O hs
  constructor
  · intro hk
    rw [pub_ok O (ne2 hk)] at r
    obtain ⟨pk, e, hr⟩ := r.ok_right
    refine ⟨pk, e, ?_⟩
    have e2 := smul2 k Inst.g2
    have hr' : G2.Rep pk (k • Inst.g2 : sub2).1 := hr
    rw [e2] at hr'
    exact hr'
  · rintro rfl
    rw [Bls.getPublicKey_eq, if_pos (zero_smul _ _)] at r
    generalize getPublicKey (tiny hash) sk = x at r
    cases r
    rfl

/-- **C100** the verification equation is decided by the pairing engine: under the public key of `k`, in any stored form, `Verify` accepts a
signature exactly if it is `k` times the hash of the message and not the neutral element -/
theorem C100_tiny_verify (x : Key2) {sig : G1.Point} {Q : G1.PP} (hQ : G1.Rep sig Q) (m d : List UInt8) :
    basicVerify (tiny hash) d x.pk (some m) sig = .ok true ↔ Q = x.k.val • H m d ∧ Q ≠ 0 := by
  obtain ⟨h, hH, O⟩ := tiny_scheme hh
  have hp : G2.Rep x.pk ((envT h).kp.ι (x.k • (envT h).E.g1)) := by
    show G2.Rep x.pk (x.k • Inst.g2 : sub2).1
    rw [smul2]
    exact x.pub
  have r := verify_iff O (ne2 x.ne) hp hQ m d
  refine r.trans ?_
  show (Q = (x.k • h m d : sub1).1 ∧ Q ≠ 0) ↔ _
  rw [smul1, hH]

/-- **C100** signing with a non-zero key succeeds and gives `k` times the hash of the message; the signature verifies unless the message hashes to
the neutral element, in every stored form and also after being encoded and decoded again -/
theorem C100_tiny_sign (x : Key2) (m d : List UInt8) :
    ∃ sig, basicSign (tiny hash) d x.sk (some m) = .ok sig ∧ G1.Rep sig (x.k.val • H m d) ∧
      (H m d ≠ 0 → basicVerify (tiny hash) d x.pk (some m) sig = .ok true ∧
        ∃ sig', unmarshal side1 (side1.enc sig) = .ok sig' ∧ basicVerify (tiny hash) d x.pk (some m) sig' = .ok true) := by
  obtain ⟨h, hH, O⟩ := tiny_scheme hh
  obtain ⟨sig, e, hr⟩ := sign_rep O x.rep x.ne m d
  have hr' : G1.Rep sig (x.k.val • H m d) := by
    rw [← hH, ← smul1]
    exact hr
  refine ⟨sig, e, hr', fun hne => ?_⟩
  have hq : Fq.q • x.k.val • H m d = 0 := by rw [nsmul_left_comm, hh.sub, nsmul_zero]
  have h0 : x.k.val • H m d ≠ 0 := by
    intro hc
    have ho : addOrderOf (H m d) = Fq.q := addOrderOf_eq_prime (hh.sub m d) hne
    have hd := addOrderOf_dvd_of_nsmul_eq_zero hc
    rw [ho] at hd
    exact x.ne ((ZMod.val_eq_zero x.k).1 (Nat.eq_zero_of_dvd_of_lt hd (ZMod.val_lt x.k)))
  refine ⟨(C100_tiny_verify hh x hr' m d).2 ⟨rfl, h0⟩, ?_⟩
  obtain ⟨⟨sig', e', hs'⟩, -, hl, -⟩ := G1.C95_roundtrip hr' hq
  refine ⟨sig', ?_, (C100_tiny_verify hh x hs' m d).2 ⟨rfl, h0⟩⟩
  unfold unmarshal
  have hl' : (side1.enc sig).length = side1.size := hl
  have e'' : side1.dec (side1.enc sig) = some sig' := e'
  rw [if_neg (not_not_intro hl'), e'']
  dsimp only
  rw [if_neg]
  show ¬ P3.isIdentity G1.F sig' = 1
  rw [P3.isIdentity_spec G1.FOk hs', P3.flag_iff]
  exact h0

/-- **C100** for a given key and message there is at most one signature as a byte string: two strings that decode and verify are equal -/
theorem C100_tiny_unique_bytes (x : Key2) (m d : List UInt8) {b b' : List UInt8} {sig sig' : G1.Point} (hb : unmarshal side1 b = .ok sig)
    (hb' : unmarshal side1 b' = .ok sig') (hv : basicVerify (tiny hash) d x.pk (some m) sig = .ok true)
    (hv' : basicVerify (tiny hash) d x.pk (some m) sig' = .ok true) : b = b' := by
  obtain ⟨k, hk, hr, he⟩ := decoded1 hb
  obtain ⟨k', hk', hr', he'⟩ := decoded1 hb'
  have e := ((C100_tiny_verify hh x hr m d).1 hv).1
  have e' := ((C100_tiny_verify hh x hr' m d).1 hv').1
  rw [← he, ← he', side1_ok.enc hr (by rw [e, ← e']; exact hr')]

/-- **C100** what is refused: a nil message, the neutral element as key or signature, a signature outside the subgroup; nothing panics -/
theorem C100_tiny_guards {pk : G2.Point} {P : G2.PP} (hP : G2.Rep pk P) {sig : G1.Point} {Q : G1.PP} (hQ : G1.Rep sig Q) (m : Option (List UInt8))
    (d : List UInt8) {sk : L4} {k : ZMod Fq.q} (hs : Native.Rep Fq.q sk k) :
    (m = none ∨ P = 0 ∨ Q = 0 ∨ Fq.q • Q ≠ 0 → basicVerify (tiny hash) d pk m sig = .err) ∧
    (m ≠ none → P ≠ 0 → Q ≠ 0 → Fq.q • Q = 0 → ∃ b, basicVerify (tiny hash) d pk m sig = .ok b) ∧
    (basicSign (tiny hash) d sk m = .err ↔ m = none ∨ k = 0) := by
  have i1 : P3.isIdentity G2.F pk = 1 ↔ P = 0 := by rw [P3.isIdentity_spec G2.FOk hP, P3.flag_iff]
  have i2 : P3.isIdentity G1.F sig = 1 ↔ Q = 0 := by rw [P3.isIdentity_spec G1.FOk hQ, P3.flag_iff]
  have i3 : P3.inCorrectSubgroup G1.F sig = 0 ↔ Fq.q • Q ≠ 0 := by
    rw [G1.sub_spec' hQ]
    by_cases hq : Fq.q • Q = 0
    · rw [if_pos hq]; exact ⟨fun h => absurd h (by decide), fun h => absurd hq h⟩
    · rw [if_neg hq]; exact ⟨fun _ => hq, fun _ => rfl⟩
  refine ⟨?_, ?_, ?_⟩
  · intro hc
    cases m with
    | none => rfl
    | some m =>
      show (if P3.isIdentity G2.F pk = 1 then Res.err else if P3.isIdentity G1.F sig = 1 ∨ P3.inCorrectSubgroup G1.F sig = 0 then Res.err else _) = Res.err
      rcases hc with h | h | h | h
      · cases h
      · rw [if_pos (i1.2 h)]
      · rw [if_pos (Or.inl (i2.2 h))]; split <;> rfl
      · rw [if_pos (Or.inr (i3.2 h))]; split <;> rfl
  · intro hm h1 h2 h3
    cases m with
    | none => exact absurd rfl hm
    | some m =>
      refine ⟨check ((tiny hash).verifyEngine pk (hash m d) sig), ?_⟩
      show (if P3.isIdentity G2.F pk = 1 then Res.err else if P3.isIdentity G1.F sig = 1 ∨ P3.inCorrectSubgroup G1.F sig = 0 then Res.err else _) = _
      rw [if_neg (by rw [i1]; exact h1), if_neg (by rw [i2, i3]; tauto)]
      rfl
  · cases m with
    | none => exact ⟨fun _ => Or.inl rfl, fun _ => rfl⟩
    | some m =>
      obtain ⟨h, hH, O⟩ := tiny_scheme hh
      by_cases hk : k = 0
      · subst hk
        refine ⟨fun _ => Or.inr rfl, fun _ => ?_⟩
        show createSignature _ _ _ _ = _
        unfold createSignature
        dsimp only
        rw [if_pos (zero_key hs)]
      · obtain ⟨sig, e, -⟩ := sign_rep O hs hk m d
        have e' : basicSign (tiny hash) d sk (some m) = .ok sig := e
        rw [e']
        refine ⟨fun h => (by cases h), fun h => ?_⟩
        rcases h with h | h
        · cases h
        · exact absurd h hk

omit hh in
theorem tiny_keys {h : List UInt8 → List UInt8 → sub1} (xs : List Key2) : List.Forall₂ G2.Rep (xs.map Key2.pk) (Bls.keysOf (envT h) (xs.map Key2.k)) := by
  induction xs with
  | nil => exact .nil
  | cons x xs ih =>
    refine .cons ?_ ih
    show G2.Rep x.pk (x.k • Inst.g2 : sub2).1
    rw [smul2]
    exact x.pub

omit hh in
theorem tiny_keys_ne {h : List UInt8 → List UInt8 → sub1} (xs : List Key2) : ∀ k ∈ xs.map Key2.k, k • (envT h).E.g1 ≠ 0 := by
  intro k hk
  obtain ⟨x, -, rfl⟩ := List.mem_map.1 hk
  exact ne2 x.ne

omit hh in
theorem tiny_sum {h : List UInt8 → List UInt8 → sub1} {H : List UInt8 → List UInt8 → G1.PP} (hH : ∀ m d, (h m d).1 = H m d) (d : List UInt8)
    (f : K → List UInt8 → List UInt8) (l : List (K × List UInt8)) :
    ((l.map fun y => y.1 • h (f y.1 y.2) d).sum : sub1).1 = (l.map fun y => y.1.val • H (f y.1 y.2) d).sum := by
  induction l with
  | nil => rfl
  | cons y l ih =>
    rw [List.map_cons, List.map_cons, List.sum_cons, List.sum_cons, AddSubgroup.coe_add, ih, smul1, hH]

omit hh in
theorem tiny_exists {Qs : List G1.PP} {T : G1.PP} :
    (∃ ss : List sub1, Qs = ss.map Subtype.val ∧ (ss.sum : sub1).1 = T) ↔ (∀ Q ∈ Qs, Fq.q • Q = 0) ∧ Qs.sum = T := by
  have hs : ∀ ss : List sub1, (ss.sum : sub1).1 = (ss.map Subtype.val).sum := by
    intro ss
    induction ss with
    | nil => rfl
    | cons a l ih => rw [List.sum_cons, List.map_cons, List.sum_cons, AddSubgroup.coe_add, ih]
  constructor
  · rintro ⟨ss, rfl, e⟩
    refine ⟨fun Q hQ => ?_, by rw [← hs]; exact e⟩
    obtain ⟨s, -, rfl⟩ := List.mem_map.1 hQ
    exact mem_sub1.1 s.2
  · rintro ⟨h1, h2⟩
    have : ∃ ss : List sub1, Qs = ss.map Subtype.val := by
      clear h2
      induction Qs with
      | nil => exact ⟨[], rfl⟩
      | cons a l ih =>
        obtain ⟨ss, e⟩ := ih fun Q hQ => h1 Q (List.mem_cons_of_mem _ hQ)
        exact ⟨⟨a, mem_sub1.2 (h1 a List.mem_cons_self)⟩ :: ss, by rw [List.map_cons, ← e]⟩
    obtain ⟨ss, rfl⟩ := this
    exact ⟨ss, rfl, by rw [hs]; exact h2⟩

/-- **C100** `AggregateVerify` of the basic scheme, for any number of keys, messages and signatures in any stored form: it accepts exactly if the
messages are pairwise different, there are as many keys as messages and at least one, there is at least one signature, all signatures lie in the
subgroup, and their sum is the sum of the honest signatures -/
theorem C100_tiny_aggregate (xs : List Key2) (msgs : List (List UInt8)) {sigs : List G1.Point} {Qs : List G1.PP} (hQ : List.Forall₂ G1.Rep sigs Qs)
    (d : List UInt8) : basicAggregateVerify (tiny hash) d (xs.map Key2.pk) msgs sigs = .ok true ↔
      msgs.Nodup ∧ xs ≠ [] ∧ xs.length = msgs.length ∧ sigs ≠ [] ∧ (∀ Q ∈ Qs, Fq.q • Q = 0) ∧
      Qs.sum = ((xs.zip msgs).map fun y => y.1.k.val • H y.2 d).sum := by
  obtain ⟨h, hH, O⟩ := tiny_scheme hh
  rw [basicAggregateVerify_ref O (tiny_keys xs) hQ, Bls.C36_aggregate_iff _ _ _ _ _ (tiny_keys_ne xs)]
  have e1 : xs.map Key2.k ≠ [] ↔ xs ≠ [] := by simp
  have e2 : (xs.map Key2.k).length = xs.length := List.length_map _
  have e3 : Qs ≠ [] ↔ sigs ≠ [] := by
    have := hQ.length_eq
    rw [← List.length_pos_iff, ← List.length_pos_iff, this]
  have e4 : ((xs.zip msgs).map fun y => y.1.k.val • H y.2 d) = (((xs.map Key2.k).zip msgs).map fun y => y.1.val • H y.2 d) := by
    rw [List.zip_map_left, List.map_map]
    rfl
  rw [e1, e2, e3, e4, ← tiny_sum hH d (fun _ m => m), ← tiny_exists]
  refine and_congr_right fun _ => and_congr_right fun _ => and_congr_right fun _ => and_congr_right fun _ => ?_
  refine exists_congr fun ss => and_congr_right fun _ => ?_
  exact Subtype.ext_iff

/-- **C100** `FastAggregateVerify` on one message: under keys whose secret values do not sum to zero it accepts exactly the sum of the honest
signatures, unless that is the neutral element -/
theorem C100_tiny_fast_aggregate (xs : List Key2) (hne : xs ≠ []) (hsum : (xs.map Key2.k).sum ≠ 0) (m d : List UInt8) {sig : G1.Point} {Q : G1.PP}
    (hQ : G1.Rep sig Q) : fastAggregateVerify (tiny hash) d (xs.map Key2.pk) (some m) sig = .ok true ↔
      Q = (xs.map fun x => x.k.val • H m d).sum ∧ Q ≠ 0 := by
  obtain ⟨h, hH, O⟩ := tiny_scheme hh
  rw [fastAggregateVerify_ref O (tiny_keys xs) hQ, Bls.C36_fast_iff _ _ _ (by simpa using hne) (ne2 hsum)]
  have e : ∀ l : List K, ((l.map fun k => k • h m d).sum : sub1).1 = (l.map fun k => k.val • H m d).sum := by
    intro l
    induction l with
    | nil => rfl
    | cons y l ih => rw [List.map_cons, List.map_cons, List.sum_cons, List.sum_cons, AddSubgroup.coe_add, ih, smul1, hH]
  have e4 : (xs.map fun x => x.k.val • H m d) = ((xs.map Key2.k).map fun k => k.val • H m d) := by rw [List.map_map]; rfl
  rw [e4, ← e]
  rfl

/-- **C100** the augmented scheme and the proofs of possession: `Verify` accepts exactly the signature of the key's bytes followed by the message, and
the proof exactly if it is the signature of the key's bytes under the other tag -/
theorem C100_tiny_bound (x : Key2) {sig : G1.Point} {Q : G1.PP} (hQ : G1.Rep sig Q) (m d : List UInt8) :
    (augVerify (tiny hash) d x.pk m sig = .ok true ↔ Q = x.k.val • H (side2.enc x.pk ++ m) d ∧ Q ≠ 0) ∧
    (popVerify (tiny hash) d x.pk sig = .ok true ↔ Q = x.k.val • H (side2.enc x.pk) d ∧ Q ≠ 0) :=
  ⟨C100_tiny_verify hh x hQ (side2.enc x.pk ++ m) d, C100_tiny_verify hh x hQ (side2.enc x.pk) d⟩

/-- **C100** any at-least-threshold many different shares of a key, in any order, sign to partial signatures that combine to the signature of the
whole key, which verifies unless the message hashes to the neutral element.  (`sharesOf` is the Shamir sharing of C01.) -/
theorem C100_tiny_threshold (x : Key2) {t n : Nat} {rnd : Nat → ZMod Fq.q} {shares : List Bls.KeyShare}
    (hs : sharesOf x.k t n rnd = .ok shares) {sub : List Bls.KeyShare} (hsub : sub ⊆ shares) (hnd : sub.Nodup) (hlen : t ≤ sub.length)
    (m d : List UInt8) (hm : m ≠ []) :
    ∃ ps sig, sub.mapM (fun s => partialSign (tiny hash) d s m) = .ok ps ∧ combineSigs (tiny hash) ps = .ok sig ∧ G1.Rep sig (x.k.val • H m d) ∧
      (H m d ≠ 0 → basicVerify (tiny hash) d x.pk (some m) sig = .ok true) := by
  obtain ⟨h, hH, O⟩ := tiny_scheme hh
  have hs' : Bls.thresholdize (envT h) x.k t n rnd = .ok shares := hs
  obtain ⟨ps, hps, hc⟩ := Bls.C37_threshold (envT h) small x.k t n rnd shares hs' sub hsub hnd hlen m d hm
  have h32 : ∀ s ∈ sub, s.value.length = 32 := fun s hsm => share_length hs s (hsub hsm)
  have hrel : RelRes (List.Forall₂ (fun (a : Bls.Partial G1.Point) (c : Bls.Partial G1.PP) => a.identifier = c.identifier ∧ G1.Rep a.signature c.signature))
      (sub.mapM fun s => partialSign (tiny hash) d s m) (sub.mapM fun s => Bls.partialSign (envT h) d s m) := by
    clear hsub hnd hlen hps
    induction sub with
    | nil => exact .ok .nil
    | cons s l ih =>
      rw [List.mapM_cons, List.mapM_cons]
      refine (partialSign_ref O d s (h32 s List.mem_cons_self) m).bind fun a c hac => ?_
      exact (ih fun s hs => h32 s (List.mem_cons_of_mem _ hs)).bind fun l l' hl => .ok (.cons hac hl)
  rw [hps] at hrel
  obtain ⟨ps', e1, hr⟩ := hrel.ok_right
  have hcr := combineSigs_ref O hr
  rw [hc, Bls.createSignature_eq, if_neg x.ne] at hcr
  obtain ⟨sig, e2, hsig⟩ := hcr.ok_right
  have hr' : G1.Rep sig (x.k.val • H m d) := by
    rw [← hH, ← smul1]
    exact hsig
  refine ⟨ps', sig, e1, e2, hr', fun hne => (C100_tiny_verify hh x hr' m d).2 ⟨rfl, ?_⟩⟩
  intro hcz
  have ho : addOrderOf (H m d) = Fq.q := addOrderOf_eq_prime (hh.sub m d) hne
  have hd := addOrderOf_dvd_of_nsmul_eq_zero hcz
  rw [ho] at hd
  exact x.ne ((ZMod.val_eq_zero x.k).1 (Nat.eq_zero_of_dvd_of_lt hd (ZMod.val_lt x.k)))

end

/-! ## Concrete cases -/

/-- A hash that always gives the generator. -/
theorem const1 : Hash1 (fun _ _ => G1.generator) (fun _ _ => G1.G) := ⟨fun _ _ => G1.generator_rep, fun _ _ => G1.order_G⟩
theorem const2 : Hash2 (fun _ _ => G2.generator) (fun _ _ => G2.G) := ⟨fun _ _ => G2.generator_rep, fun _ _ => G2.order_G⟩

theorem one_rep : Native.Rep Fq.q (Field.one Fq.impl.P) (1 : ZMod Fq.q) := by rw [Fq.e_P]; exact (C50_constants Fq.lawful).1

theorem five_rep : Native.Rep Fq.q (Field.setUint64 Fq.arithFix 5) ((5 : ℕ) : ZMod Fq.q) := C50_setUint64 Fq.lawful 5

theorem five_ne : ((5 : ℕ) : ZMod Fq.q) ≠ 0 := small 5 (by decide) (by decide)

/-- The key pair of the secret key 5, for both files. -/
theorem five1 : ∃ x : Key1, x.k = ((5 : ℕ) : ZMod Fq.q) := by
  obtain ⟨pk, -, h⟩ := (C100_usual_public_key const2 five_rep).1 five_ne
  exact ⟨⟨_, _, pk, five_rep, five_ne, h⟩, rfl⟩

theorem five2 : ∃ x : Key2, x.k = ((5 : ℕ) : ZMod Fq.q) := by
  obtain ⟨pk, -, h⟩ := (C100_tiny_public_key const1 five_rep).1 five_ne
  exact ⟨⟨_, _, pk, five_rep, five_ne, h⟩, rfl⟩

/-- The hypotheses of the theorems above are met: the signature of a message under the key 5 is produced, verifies, and five times the generator is
the only point that does. -/
example : ∃ (x : Key1) (sig : G2.Point), basicSign (usual fun _ _ => G2.generator) [1] x.sk (some [2, 3]) = .ok sig ∧
    basicVerify (usual fun _ _ => G2.generator) [1] x.pk (some [2, 3]) sig = .ok true ∧
    basicVerify (usual fun _ _ => G2.generator) [1] x.pk (some [2, 3]) G2.generator ≠ .ok true := by
  obtain ⟨x, hx⟩ := five1
  obtain ⟨sig, h1, h2, h3⟩ := C100_usual_sign const2 x [2, 3] [1]
  refine ⟨x, sig, h1, (h3 G2.G_ne).1, fun hc => ?_⟩
  obtain ⟨h4, -⟩ := (C100_usual_verify const2 x G2.generator_rep [2, 3] [1]).1 hc
  have e : x.k.val = 5 := by rw [hx]; exact ZMod.val_natCast_of_lt (by decide +kernel)
  rw [e] at h4
  have : 4 • G2.G = 0 := by
    have h5 : 4 • G2.G + G2.G = G2.G := by rw [← succ_nsmul]; exact h4.symm
    exact add_eq_right.1 h5
  have hd := addOrderOf_dvd_of_nsmul_eq_zero this
  rw [G2.addOrder_G] at hd
  exact absurd (Nat.le_of_dvd (by decide) hd) (by decide +kernel)

example : ∃ (x : Key2) (sig : G1.Point), basicSign (tiny fun _ _ => G1.generator) [1] x.sk (some [2, 3]) = .ok sig ∧
    basicVerify (tiny fun _ _ => G1.generator) [1] x.pk (some [2, 3]) sig = .ok true ∧
    basicVerify (tiny fun _ _ => G1.generator) [1] x.pk (some [2, 3]) G1.generator ≠ .ok true := by
  obtain ⟨x, hx⟩ := five2
  obtain ⟨sig, h1, h2, h3⟩ := C100_tiny_sign const1 x [2, 3] [1]
  refine ⟨x, sig, h1, (h3 G1.G_ne).1, fun hc => ?_⟩
  obtain ⟨h4, -⟩ := (C100_tiny_verify const1 x G1.generator_rep [2, 3] [1]).1 hc
  have e : x.k.val = 5 := by rw [hx]; exact ZMod.val_natCast_of_lt (by decide +kernel)
  rw [e] at h4
  have : 4 • G1.G = 0 := by
    have h5 : 4 • G1.G + G1.G = G1.G := by rw [← succ_nsmul]; exact h4.symm
    exact add_eq_right.1 h5
  have hd := addOrderOf_dvd_of_nsmul_eq_zero this
  rw [G1.addOrder_G] at hd
  exact absurd (Nat.le_of_dvd (by decide) hd) (by decide +kernel)

/-- Two of three shares of the key 5. -/
example : ∃ shares, sharesOf ((5 : ℕ) : ZMod Fq.q) 2 3 (fun _ => 7) = .ok shares ∧ shares.length = 3 := by
  refine ⟨_, rfl, ?_⟩
  rfl

end Verif.Bls381.Sig
