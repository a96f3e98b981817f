import Verif.Ted25519.KeyGen
import Verif.Ted25519.Props
import Verif.Curves.EdSigApi
import Verif.Curves.EdHashApi
import Mathlib.Algebra.Module.ZMod

/-! C116: threshold Ed25519 from key generation to the verified signature, on the curve itself. -/

set_option linter.unusedSectionVars false

namespace Verif.Ted25519

open Verif.SharingV1 Verif.Bytes
open Verif.Ed (EdLib)
open Verif.EdSig (rfc IsSuite secret clamped)
open Verif.Ec.EdSc (ell fact_ell clamp)
open Verif.Hash Verif.Kdf

variable {A : Type} [AddCommGroup A]

/-! ## The subgroup of prime order -/

/-- The points killed by the order. -/
def primeSub (A : Type) [AddCommGroup A] : AddSubgroup A where
  carrier := {P | ell • P = 0}
  add_mem' := fun {a b} ha hb => by
    show ell • (a + b) = 0
    rw [nsmul_add, show ell • a = 0 from ha, show ell • b = 0 from hb, add_zero]
  zero_mem' := nsmul_zero _
  neg_mem' := fun {a} ha => by
    show ell • (-a) = 0
    rw [neg_nsmul, show ell • a = 0 from ha, neg_zero]

abbrev Sub (A : Type) [AddCommGroup A] : Type := primeSub A

noncomputable instance : Module (ZMod ell) (Sub A) := AddCommGroup.zmodModule (fun P => Subtype.ext (by
  rw [AddSubgroup.coe_nsmul]; exact P.2))

noncomputable instance : DecidableEq (Sub A) := Classical.decEq _

open Classical in
/-- What `Model.lean` assumes of the curve and the hash, from an `EdLib` and SHA-512. -/
noncomputable def toParams (sha512 : List UInt8 → List UInt8) (L : EdLib A) : Params ell (Sub A) where
  g := ⟨L.base, L.base_order⟩
  enc P := L.enc P.1
  dec b :=
    match L.dec b with
    | none => none
    | some P => if h : ell • P = 0 then some ⟨P, h⟩ else none
  len_enc P := L.length_enc _
  dec_enc P := by
    rw [L.dec_enc]
    exact dif_pos P.2
  H b := (leToNat (sha512 b) : ZMod ell)

variable (sha512 : List UInt8 → List UInt8) (L : EdLib A)

theorem coe_smul (k : ZMod ell) (P : Sub A) : (k • P).1 = k.val • P.1 := by
  conv_lhs => rw [← ZMod.natCast_zmod_val k, Nat.cast_smul_eq_nsmul]
  exact AddSubgroup.coe_nsmul _ _ _

theorem ell253 : ell ≤ 2 ^ 253 := by decide +kernel
theorem ell256 : ell ≤ 256 ^ 32 := by decide +kernel

open Classical in
theorem dec_iff (b : List UInt8) (P : Sub A) : (toParams sha512 L).dec b = some P ↔ L.dec b = some P.1 := by
  show (match L.dec b with
    | none => none
    | some P => if h : ell • P = 0 then some ⟨P, h⟩ else none) = some P ↔ _
  cases h : L.dec b with
  | none => exact ⟨fun h => (by cases h), fun h => (by cases h)⟩
  | some Q =>
    dsimp only
    by_cases hq : ell • Q = 0
    · rw [dif_pos hq]
      exact ⟨fun h => congrArg some (congrArg Subtype.val (Option.some.inj h)), fun h => congrArg some (Subtype.ext (Option.some.inj h))⟩
    · rw [dif_neg hq]
      exact ⟨fun h => (by cases h), fun h => absurd (Option.some.inj h ▸ P.2) hq⟩

/-- The verification of `Model.lean` says yes only where that of the package does. -/
theorem verify_of {pub msg sig : List UInt8} (h : verify (toParams sha512 L) pub msg sig = .ok true) :
    EdSig.verify (rfc sha512) L pub msg sig = .ok true := by
  unfold verify at h
  by_cases h1 : pub.length ≠ 32
  · rw [if_pos h1] at h; cases h
  rw [if_neg h1] at h
  by_cases h2 : sig.length ≠ 64 ∨ (sig.getD 63 0) &&& 224 ≠ 0
  · rw [if_pos h2] at h; cases h
  rw [if_neg h2] at h
  cases hd : (toParams sha512 L).dec pub with
  | none => rw [hd] at h; cases h
  | some P =>
    rw [hd] at h
    dsimp only at h
    by_cases hc : leToNat (sig.drop 32) < ell
    · have hl : (sig.drop 32).length = 32 := by rw [List.length_drop]; omega
      have hcan : canonical (p := ell) (sig.drop 32) = some ((leToNat (sig.drop 32) : Nat) : ZMod ell) := if_pos ⟨hl, hc⟩
      rw [hcan] at h
      dsimp only at h
      have h := Res.ok.inj h
      rw [decide_eq_true_eq] at h
      refine ((EdSig.C113_verify (rfc sha512) L pub msg sig).2.1).2 ⟨by omega, hc, P.1, (dec_iff sha512 L _ _).1 hd, ?_⟩
      conv_lhs => rw [h]
      show L.enc _ = L.enc _
      refine congrArg L.enc ?_
      rw [AddSubgroup.coe_add, coe_smul, coe_smul, ZMod.val_natCast_of_lt hc, AddSubgroup.coe_neg, smul_neg, neg_add_eq_sub]
      show _ = _ - (leToNat (sha512 _) % ell) • P.1
      rw [Verif.Ed.mod_smul P.2]
      show _ - ((leToNat (sha512 _) : ZMod ell)).val • P.1 = _
      rw [ZMod.val_natCast, Verif.Ed.mod_smul P.2]
      rfl
    · have hcan : canonical (p := ell) (sig.drop 32) = none := if_neg (fun hh => hc hh.2)
      rw [hcan] at h
      cases h

theorem mapM_coeff (P : Params ell (Sub A)) (hP : P.g.1 = L.base) (poly : List (ZMod ell)) (v : List (Sub A)) (h : poly.mapM (coeffPoint P) = some v) :
    poly.mapM (coeffLib L) = some (v.map Subtype.val) := by
  have e : ∀ c, coeffLib L c = (coeffPoint P c).map Subtype.val := by
    intro c
    rw [coeffPoint_eq P ell256]
    unfold coeffLib
    rw [canonical_rev ell256]
    show some _ = some _
    rw [coe_smul, hP]
  induction poly generalizing v with
  | nil =>
    rw [List.mapM_nil] at h
    rw [← Option.some.inj h]
    rfl
  | cons c r ih =>
    rw [List.mapM_cons, coeffPoint_eq P ell256] at h
    rw [List.mapM_cons, e, coeffPoint_eq P ell256]
    cases hr : r.mapM (coeffPoint P) with
    | none => rw [hr] at h; cases h
    | some w =>
      rw [hr] at h
      rw [ih w hr, ← Option.some.inj h]
      rfl

theorem split_of {T N : Int} {sec : List UInt8} {rnd : Nat → ZMod ell} {comm : List (Sub A)} {shares : List (Share ell)}
    (h : splitKey (toParams sha512 L) T N sec rnd = .ok (comm, shares)) : splitLib L T N sec rnd = .ok (comm.map Subtype.val, shares) := by
  unfold splitKey at h
  unfold splitLib
  cases hs : newShamir T N with
  | none => rw [hs] at h; cases h
  | some s =>
    rw [hs] at h
    dsimp only at h ⊢
    cases hg : getSharesAndPolynomial s sec rnd with
    | err => rw [hg] at h; cases h
    | panic => rw [hg] at h; cases h
    | ok x =>
      obtain ⟨sh, poly⟩ := x
      rw [hg] at h
      rw [Res.bind_ok]
      dsimp only at h ⊢
      cases hm : poly.mapM (coeffPoint (toParams sha512 L)) with
      | none => rw [hm] at h; cases h
      | some v =>
        rw [hm] at h
        dsimp only at h
        rw [mapM_coeff L (toParams sha512 L) rfl poly v hm]
        dsimp only
        obtain ⟨rfl, rfl⟩ := Prod.mk.inj (Res.ok.inj h)
        rfl

/-! ## Clamped values -/

theorem clamped_ne {b : List UInt8} (h : b.length = 32) : clamped b ≠ 0 ∧ clamped b < ell := by
  obtain ⟨-, h8, h1, h2⟩ := Verif.Ec.C110_clamp b h
  unfold clamped
  have hb : 2 ^ 255 < 8 * ell := by decide +kernel
  have hpos : 0 < ell := by decide +kernel
  refine ⟨fun h0 => ?_, Nat.mod_lt _ hpos⟩
  have hd := Nat.dvd_of_mod_eq_zero h0
  have hc : Nat.Coprime 8 ell := by decide +kernel
  obtain ⟨k, hk⟩ := hc.mul_dvd_of_dvd_of_dvd h8 hd
  have hp : (0 : Nat) < 2 ^ 254 := by norm_num
  rcases Nat.eq_zero_or_pos k with rfl | hk0
  · omega
  · have : 8 * ell * 1 ≤ 8 * ell * k := Nat.mul_le_mul_left _ hk0
    omega

theorem mask_clamp (b : List UInt8) : EdSig.mask 127 b = clamp b := by
  unfold EdSig.mask clamp
  cases b with
  | nil => rfl
  | cons f r =>
    have e : r.getLastD 0 &&& 127 ||| 64 = r.getLastD 0 &&& 63 ||| 64 := by
      have : ∀ f : Fin 256, UInt8.ofFin f &&& 127 ||| 64 = UInt8.ofFin f &&& 63 ||| 64 := by decide +kernel
      exact this (r.getLastD 0).toFin
    dsimp only
    rw [e]

theorem expand_eq (seed : List UInt8) : expandSeed sha512 seed = clamp ((sha512 seed).take 32) := mask_clamp _

theorem natToBE_ne {v : Nat} (h : v ≠ 0) : natToBE v ≠ [] := by
  rw [Ne, natToBE_eq_nil]; exact h

/-! ## Keys and nonces -/

/-- `generateSharableKey` fails only with the generator; its public key is that of a single signer with the same seed, and the value to be shared
is that signer's secret scalar modulo the order, which is not zero. -/
theorem C116_key (hlen : ∀ m, (sha512 m).length = 64) (seed : List UInt8) (h : seed.length = 32) :
    generateSharableKey sha512 L none = .err ∧
    ∃ priv sec, EdSig.newKeyFromSeed (rfc sha512) L seed = .ok priv ∧
      generateSharableKey sha512 L (some seed) = .ok (priv.drop 32, sec) ∧
      beToNat sec = secret (rfc sha512) seed % ell ∧ beToNat sec ≠ 0 ∧ sec.length ≤ 32 ∧ priv.drop 32 = L.enc (beToNat sec • L.base) := by
  refine ⟨rfl, ?_⟩
  obtain ⟨priv, h1, h2, h3, h4, h5⟩ := (EdSig.C113_key_from_seed (IsSuite.rfc sha512 hlen) L seed).2.1 h
  have hg := h5
  unfold EdSig.generateKey at hg
  dsimp only at hg
  rw [h1, Res.bind_ok] at hg
  have hpub : (priv.drop 32).take 32 = L.enc (secret (rfc sha512) seed • L.base) := congrArg Prod.fst (Res.ok.inj hg)
  rw [List.take_of_length_le (by rw [List.length_drop]; omega)] at hpub
  have hl32 : ((sha512 seed).take 32).length = 32 := by rw [List.length_take, hlen]; rfl
  have hv : beToNat (expandSeed sha512 seed).reverse % ell = secret (rfc sha512) seed % ell := by
    rw [beToNat_reverse, expand_eq]
    rfl
  have hne := clamped_ne hl32
  have hne : secret (rfc sha512) seed % ell ≠ 0 ∧ secret (rfc sha512) seed % ell < ell := hne
  have hbe : beToNat (natToBE (secret (rfc sha512) seed % ell)) = secret (rfc sha512) seed % ell := beToNat_natToBE _
  refine ⟨priv, natToBE (secret (rfc sha512) seed % ell), h1, ?_, hbe, ?_, ?_, ?_⟩
  · unfold generateSharableKey
    rw [h5, Res.bind_ok]
    dsimp only
    rw [h3, Res.bind_ok, hv, hpub]
  · rw [hbe]; exact hne.1
  · rw [length_natToBE, byteLen_le_iff]
    exact lt_of_lt_of_le hne.2 ell256
  · rw [hbe, hpub, Verif.Ed.mod_smul L.base_order]

/-- `generateSharableNonce` fails only with the generator: otherwise the nonce is the clamped SHA-512 of 64 bytes that RFC 5869 derives from the
key share, the random bytes, the public key and the message. It is not zero. -/
theorem C116_nonce (sha256 : HashFn) (h256 : sha256.size = 32 ∧ sha256.block = 64) (hlen : ∀ m, (sha512 m).length = 64) (s : Share ell)
    (pub msg rand : List UInt8) :
    generateSharableNonce sha256 sha512 L s pub msg none = .err ∧
    ∃ sec, generateSharableNonce sha256 sha512 L s pub msg (some rand) = .ok (L.enc (beToNat sec • L.base), sec) ∧
      beToNat sec = leToNat (clamp ((sha512 (rfcHkdf sha256 (s.bytes ++ rand) (List.replicate 32 0) (nonceLabel ++ pub ++ msg) 64)).take 32)) % ell ∧
      beToNat sec ≠ 0 ∧ beToNat sec < ell ∧ sec.length ≤ 32 := by
  refine ⟨rfl, ?_⟩
  set seed := rfcHkdf sha256 (s.bytes ++ rand) (List.replicate 32 0) (nonceLabel ++ pub ++ msg) 64 with hseed
  have hl32 : ((sha512 seed).take 32).length = 32 := by rw [List.length_take, hlen]; rfl
  have hne := clamped_ne hl32
  set v := clamped ((sha512 seed).take 32) with hv
  have he : nonceElement sha256 sha512 s pub msg (some rand) = .ok v := by
    unfold nonceElement nonceSecret nonceInfo
    dsimp only
    rw [hkdfRead_spec sha256 (by rw [h256.1, h256.2]; decide), if_neg (by rw [h256.1]; decide), Res.bind_ok, h256.1]
  have hbe : beToNat (natToBE v) = v := beToNat_natToBE _
  refine ⟨natToBE v, ?_, by rw [hbe]; rfl, by rw [hbe]; exact hne.1, by rw [hbe]; exact hne.2, ?_⟩
  · unfold generateSharableNonce
    rw [he, Res.bind_ok]
    have hc := canonical_rev ell256 (v : ZMod ell)
    rw [ZMod.val_natCast_of_lt hne.2] at hc
    rw [hc]
    dsimp only
    rw [ZMod.val_natCast_of_lt hne.2, hbe]
  · rw [length_natToBE, byteLen_le_iff]
    exact lt_of_lt_of_le hne.2 ell256

/-- Two calls of `generateRandomHkdf` give the same input to HKDF only for the same key share, random bytes, public key and message. -/
theorem C116_nonce_inputs (s s' : Share ell) (hs : s.id < 2 ^ 32) (hs' : s'.id < 2 ^ 32) (rand rand' pub pub' msg msg' : List UInt8)
    (hr : rand.length = 32) (hr' : rand'.length = 32) (hp : pub.length = 32) (hp' : pub'.length = 32)
    (h1 : nonceSecret s rand = nonceSecret s' rand') (h2 : nonceInfo pub msg = nonceInfo pub' msg') :
    s.id = s'.id ∧ s.value = s'.value ∧ rand = rand' ∧ pub = pub' ∧ msg = msg' := by
  unfold nonceSecret at h1
  unfold nonceInfo at h2
  obtain ⟨e1, e2⟩ := List.append_inj' h1 (by rw [hr, hr'])
  rw [List.append_assoc, List.append_assoc] at h2
  obtain ⟨e3, e4⟩ := List.append_inj (List.append_cancel_left h2) (by rw [hp, hp'])
  unfold Share.bytes at e1
  obtain ⟨e5, e6⟩ := List.append_inj e1 (by rw [length_natToBEfix, length_natToBEfix])
  have b1 := congrArg beToNat e5
  rw [beToNat_natToBEfix, beToNat_natToBEfix, Nat.mod_eq_of_lt (by norm_num; omega), Nat.mod_eq_of_lt (by norm_num; omega)] at b1
  have b2 := congrArg beToNat e6
  rw [beToNat_natToBE, beToNat_natToBE] at b2
  exact ⟨b1, ZMod.val_injective _ b2, e2, e3, e4⟩

/-- The nonces are not uniform: fewer than half of the scalars can occur, whatever the shares, messages and random bytes. -/
theorem C116_nonce_uniform_violated (sha256 : HashFn) (hlen : ∀ m, (sha512 m).length = 64) :
    2 * Set.ncard {v : Nat | v < ell ∧ ∃ s pub msg rand, nonceElement sha256 sha512 s pub msg rand = .ok v} < ell := by
  have hsub : {v : Nat | v < ell ∧ ∃ s pub msg rand, nonceElement sha256 sha512 s pub msg rand = .ok v} ⊆
      ((Finset.range (2 ^ 251)).image fun k => (2 ^ 254 + 8 * k) % ell : Finset Nat) := by
    rintro v ⟨-, s, pub, msg, rand, h⟩
    cases rand with
    | none => cases h
    | some r =>
      unfold nonceElement at h
      dsimp only at h
      obtain ⟨seed, -, h⟩ := Res.bind_eq_ok.1 h
      have hl32 : ((sha512 seed).take 32).length = 32 := by rw [List.length_take, hlen]; rfl
      obtain ⟨-, ⟨j, hj⟩, h1, h2⟩ := Verif.Ec.C110_clamp _ hl32
      have e := Res.ok.inj h
      unfold clamped at e
      rw [Finset.coe_image, Set.mem_image]
      have a1 : (2 : Nat) ^ 254 = 8 * 2 ^ 251 := by norm_num
      have a2 : (2 : Nat) ^ 255 = 8 * 2 ^ 252 := by norm_num
      have a3 : (2 : Nat) ^ 252 = 2 ^ 251 + 2 ^ 251 := by norm_num
      refine ⟨j - 2 ^ 251, ?_, ?_⟩
      · rw [Finset.mem_coe, Finset.mem_range]; omega
      · rw [← e]
        refine congrArg (· % ell) ?_
        omega
  have h1 := Set.ncard_le_ncard hsub (Finset.finite_toSet _)
  rw [Set.ncard_coe_finset] at h1
  have h2 := (Finset.card_image_le (s := Finset.range (2 ^ 251)) (f := fun k => (2 ^ 254 + 8 * k) % ell))
  rw [Finset.card_range] at h2
  have h3 : 2 * 2 ^ 251 < ell := by decide +kernel
  omega

/-! ## Byte forms -/

/-- The bytes of a share read back as the share, and nothing else reads back as that share with as few bytes. -/
theorem C116_share_bytes (s : Share ell) (hs : s.id < 2 ^ 32) :
    keyShareFromBytes s.bytes = .ok s ∧ s.bytes.length ≤ 36 ∧
    ∀ b : List UInt8, keyShareFromBytes b = .ok s → ∃ n, b = s.bytes.take 4 ++ (List.replicate n 0 ++ s.bytes.drop 4) := by
  have hl4 : (natToBEfix 4 s.id).length = 4 := length_natToBEfix _ _
  have ht : s.bytes.take 4 = natToBEfix 4 s.id := List.take_left' hl4
  have hd : s.bytes.drop 4 = natToBE s.value.val := List.drop_left' hl4
  have hid : beToNat (natToBEfix 4 s.id) = s.id := by rw [beToNat_natToBEfix, Nat.mod_eq_of_lt (by norm_num; omega)]
  refine ⟨?_, ?_, ?_⟩
  · unfold keyShareFromBytes
    rw [if_neg (by unfold Share.bytes; rw [List.length_append, hl4]; omega), ht, hd, hid, beToNat_natToBE, if_pos (ZMod.val_lt _), ZMod.natCast_zmod_val]
  · unfold Share.bytes
    rw [List.length_append, hl4]
    have := natToBE_len ell256 s.value
    omega
  · intro b hb
    unfold keyShareFromBytes at hb
    by_cases h4 : b.length < 4
    · rw [if_pos h4] at hb; cases hb
    rw [if_neg h4] at hb
    by_cases hv : beToNat (b.drop 4) < ell
    · rw [if_pos hv] at hb
      have e := Res.ok.inj hb
      have e1 : beToNat (b.take 4) = s.id := congrArg Share.id e
      have e2 : ((beToNat (b.drop 4) : Nat) : ZMod ell) = s.value := congrArg Share.value e
      have e3 : s.value.val = beToNat (b.drop 4) := by rw [← e2, ZMod.val_natCast_of_lt hv]
      refine ⟨(b.drop 4).length - (natToBE s.value.val).length, ?_⟩
      rw [ht, hd]
      conv_lhs => rw [← List.take_append_drop 4 b]
      have hble : (natToBE s.value.val).length ≤ (b.drop 4).length := by
        rw [length_natToBE, byteLen_le_iff, e3]
        exact beToNat_lt _
      congr 1
      · refine beToNat_inj ?_ ?_
        · rw [hl4, List.length_take]; omega
        · rw [e1, hid]
      · refine beToNat_inj ?_ ?_
        · rw [List.length_append, List.length_replicate]; omega
        · rw [beToNat_append, beToNat_natToBE, e3]
          have : ∀ n, beToNat (List.replicate n 0) = 0 := by
            intro n
            rw [← leToNat_reverse, List.reverse_replicate]
            exact Verif.Ec.EdSc.zeros n
          rw [this]; omega
    · rw [if_neg hv] at hb; cases hb

/-- Commitments are read back from their encodings, and from these only. -/
theorem C116_commitments_bytes (c : List A) (b : List (List UInt8)) :
    commitmentsFromBytes L (commitmentsToBytes L c) = .ok c ∧ commitmentsFromBytes L b ≠ .panic ∧
    (commitmentsFromBytes L b = .ok c ↔ b.map L.dec = c.map some) := by
  have main : ∀ (b : List (List UInt8)) (c : List A), commitmentsFromBytes L b ≠ .panic ∧ (commitmentsFromBytes L b = .ok c ↔ b.map L.dec = c.map some) := by
    intro b
    induction b with
    | nil =>
      intro c
      refine ⟨fun h => (by cases h), ?_⟩
      cases c with
      | nil => exact ⟨fun _ => rfl, fun _ => rfl⟩
      | cons x r => exact ⟨fun h => (by cases h), fun h => (by cases h)⟩
    | cons a r ih =>
      intro c
      unfold commitmentsFromBytes publicKeyFromBytes
      by_cases hl : a.length ≠ 32
      · rw [if_pos hl]
        refine ⟨fun h => (by cases h), fun h => (by cases h), fun h => ?_⟩
        cases c with
        | nil => cases h
        | cons x r' => exact absurd (L.dec_length _ _ (List.cons.inj h).1) hl
      · rw [if_neg hl, Res.bind_ok]
        cases hd : L.dec a with
        | none =>
          dsimp only
          refine ⟨fun h => (by cases h), fun h => (by cases h), fun h => ?_⟩
          cases c with
          | nil => cases h
          | cons x r' =>
            have := (List.cons.inj h).1
            rw [hd] at this
            cases this
        | some P =>
          dsimp only
          constructor
          · cases hr : commitmentsFromBytes L r with
            | ok l => exact fun h => (by cases h)
            | err => exact fun h => (by cases h)
            | panic => exact absurd hr (ih []).1
          · constructor
            · intro h
              obtain ⟨l, h1, h2⟩ := Res.bind_eq_ok.1 h
              rw [← Res.ok.inj h2, List.map_cons, List.map_cons, hd, ((ih l).2.1 h1)]
            · intro h
              cases c with
              | nil => cases h
              | cons x r' =>
                rw [List.map_cons, List.map_cons, hd] at h
                obtain ⟨h1, h2⟩ := List.cons.inj h
                rw [(ih r').2.2 h2, Res.bind_ok, Option.some.inj h1]
  refine ⟨(main _ c).2.2 ?_, (main b c).1, (main b c).2⟩
  unfold commitmentsToBytes
  rw [List.map_map]
  exact List.map_congr_left fun P _ => L.dec_enc P

/-! ## From the keys to the signature -/

open Polynomial

theorem enc_smul (x : ZMod ell) : (toParams sha512 L).enc (x • (toParams sha512 L).g) = L.enc (x.val • L.base) := by
  show L.enc (x • (toParams sha512 L).g).1 = _
  rw [coe_smul]
  rfl

theorem sum_pubs (a : (ZMod ell)[X]) (l : List (ZMod ell)[X]) :
    (l.map fun r => L.enc ((r.eval 0).val • L.base)).foldlM (geAddLib L) (L.enc ((a.eval 0).val • L.base)) =
      .ok (L.enc (((a + l.sum).eval 0).val • L.base)) := by
  induction l generalizing a with
  | nil => rw [List.sum_nil, add_zero]; rfl
  | cons r l ih =>
    rw [List.map_cons, List.foldlM_cons]
    have e : geAddLib L (L.enc ((a.eval 0).val • L.base)) (L.enc ((r.eval 0).val • L.base)) = .ok (L.enc (((a + r).eval 0).val • L.base)) := by
      unfold geAddLib
      rw [L.dec_enc, L.dec_enc]
      dsimp only
      rw [eval_add, ← add_nsmul, ZMod.val_add, Verif.Ed.mod_smul L.base_order]
    rw [e, Res.bind_ok, ih, List.sum_cons, add_assoc]

theorem sum_shares (i : Nat) (a : (ZMod ell)[X]) (l : List (ZMod ell)[X]) :
    (l.map fun r => (⟨i, r.eval ((i : Nat) : ZMod ell)⟩ : Share ell)).foldlM Share.add ⟨i, a.eval ((i : Nat) : ZMod ell)⟩ =
      .ok ⟨i, (a + l.sum).eval ((i : Nat) : ZMod ell)⟩ := by
  induction l generalizing a with
  | nil => rw [List.sum_nil, add_zero]; rfl
  | cons r l ih =>
    rw [List.map_cons, List.foldlM_cons]
    have e : Share.add (⟨i, a.eval ((i : Nat) : ZMod ell)⟩ : Share ell) ⟨i, r.eval ((i : Nat) : ZMod ell)⟩ = .ok ⟨i, (a + r).eval ((i : Nat) : ZMod ell)⟩ := by
      unfold Share.add
      rw [if_neg (not_not.2 rfl), eval_add]
    rw [e, Res.bind_ok, ih, List.sum_cons, add_assoc]

theorem degree_sum {t : Nat} (l : List (ZMod ell)[X]) (h : ∀ r ∈ l, r.degree < t) : l.sum.degree < t := by
  induction l with
  | nil =>
    rw [List.sum_nil, degree_zero]
    exact WithBot.bot_lt_coe _
  | cons r l ih =>
    rw [List.sum_cons]
    exact lt_of_le_of_lt (degree_add_le _ _) (max_lt (h r (List.mem_cons_self ..)) (ih fun x hx => h x (List.mem_cons_of_mem _ hx)))

/-- A key is dealt, any number of dealers deal nonces for a message, the public nonces and the nonce shares are summed: any `t` or more parties
whose summed shares are not zero sign, and the aggregate is accepted by the package's `Verify` under the dealt public key. -/
theorem C116_end_to_end (sha256 : HashFn) (h256 : sha256.size = 32 ∧ sha256.block = 64) (hlen : ∀ m, (sha512 m).length = 64)
    {t n : Nat} (ht : 2 ≤ t) (htn : t ≤ n) (hn : n ≤ 255) (seed : List UInt8) (hseed : seed.length = 32) (kr : Nat → ZMod ell) :
    ∃ pub ks comm, generateSharedKey sha512 L t n (some seed) kr = .ok (pub, (List.range n).map ks, comm) ∧ (∀ i, (ks i).id = i + 1) ∧
      ∀ (msg : List UInt8) (D : Nat) (_ : 1 ≤ D) (of : Nat → Share ell) (rand : Nat → List UInt8) (nr : Nat → Nat → ZMod ell),
      ∃ (Rp : Nat → List UInt8) (ns : Nat → Nat → Share ell),
        (∀ d, ∃ c, generateSharedNonce sha256 sha512 L t n (of d) pub msg (some (rand d)) (nr d) = .ok (Rp d, (List.range n).map (ns d), c)) ∧
        ∃ (R : List UInt8) (nsum : Nat → Share ell), sumPubs L ((List.range D).map Rp) = .ok R ∧
          (∀ i, sumShares ((List.range D).map fun d => ns d i) = .ok (nsum i)) ∧
          ∀ idx : List Nat, idx.Nodup → t ≤ idx.length → (∀ i ∈ idx, i < n ∧ (ks i).value ≠ 0 ∧ (nsum i).value ≠ 0) →
            ∃ (σ : Nat → PartialSig) (sig : List UInt8),
              (∀ i ∈ idx, tSign (toParams sha512 L) msg (ks i) pub (nsum i) R = .ok (σ i)) ∧
              aggregate ell t n (idx.map σ) = .ok sig ∧ sig.take 32 = R ∧
              EdSig.verify (rfc sha512) L pub msg sig = .ok true := by
  have hpn : n < ell := lt_of_le_of_lt hn (by decide +kernel)
  have h32 : n < 2 ^ 32 := lt_of_le_of_lt hn (by norm_num)
  obtain ⟨-, priv, sec, -, h2, h3, h4, h5, h6⟩ := C116_key sha512 L hlen seed hseed
  have hlt : beToNat sec < ell := by rw [h3]; exact Nat.mod_lt _ (by decide +kernel)
  have hne : ∀ {s : List UInt8}, beToNat s ≠ 0 → s ≠ [] := fun h h0 => h (by rw [h0]; rfl)
  obtain ⟨f, comm, shares, d1, d2, d3, -, d5, -⟩ := C18_deal (toParams sha512 L) ell253 ht htn h32 hpn sec (hne h4) hlt kr
  refine ⟨priv.drop 32, fun i => ⟨i + 1, f.eval ((i + 1 : Nat) : ZMod ell)⟩, comm.map Subtype.val, ?_, fun _ => rfl, ?_⟩
  · unfold generateSharedKey
    rw [h2, Res.bind_ok]
    dsimp only
    rw [split_of sha512 L d1, Res.bind_ok, d5]
  intro msg D hD of rand nr
  have hnonce : ∀ d, ∃ (Rp : List UInt8) (r : (ZMod ell)[X]) (c : List A),
      generateSharedNonce sha256 sha512 L t n (of d) (priv.drop 32) msg (some (rand d)) (nr d) =
        .ok (Rp, (List.range n).map (fun i => (⟨i + 1, r.eval ((i + 1 : Nat) : ZMod ell)⟩ : Share ell)), c) ∧
      r.degree < t ∧ Rp = L.enc ((r.eval 0).val • L.base) := by
    intro d
    obtain ⟨-, nsec, e1, -, e2, e3, -⟩ := C116_nonce sha512 L sha256 h256 hlen (of d) (priv.drop 32) msg (rand d)
    obtain ⟨r, comm', shares', g1, g2, g3, -, g5, -⟩ := C18_deal (toParams sha512 L) ell253 ht htn h32 hpn nsec (hne e2) e3 (nr d)
    refine ⟨L.enc (beToNat nsec • L.base), r, comm'.map Subtype.val, ?_, g2, ?_⟩
    · unfold generateSharedNonce
      rw [e1, Res.bind_ok]
      dsimp only
      rw [split_of sha512 L g1, Res.bind_ok, g5]
    · rw [g3, ZMod.val_natCast_of_lt e3]
  choose Rp r c k1 k2 k3 using hnonce
  obtain ⟨m, rfl⟩ : ∃ m, D = m + 1 := ⟨D - 1, by omega⟩
  set rest : List (ZMod ell)[X] := (List.range m).map fun d => r (d + 1) with hrest
  set rs := r 0 + rest.sum with hrs
  have hdeg : rs.degree < t := by
    refine lt_of_le_of_lt (degree_add_le _ _) (max_lt (k2 0) (degree_sum _ ?_))
    intro x hx
    obtain ⟨d, -, rfl⟩ := List.mem_map.1 hx
    exact k2 _
  refine ⟨Rp, fun d i => ⟨i + 1, (r d).eval ((i + 1 : Nat) : ZMod ell)⟩, fun d => ⟨c d, k1 d⟩,
    L.enc ((rs.eval 0).val • L.base), fun i => ⟨i + 1, rs.eval ((i + 1 : Nat) : ZMod ell)⟩, ?_, ?_, ?_⟩
  · have e : (List.range (m + 1)).map Rp = L.enc (((r 0).eval 0).val • L.base) :: rest.map fun r => L.enc ((r.eval 0).val • L.base) := by
      rw [List.range_succ_eq_map, List.map_cons, List.map_map, k3 0, hrest, List.map_map]
      refine congrArg _ (List.map_congr_left fun d _ => ?_)
      exact k3 (d + 1)
    rw [e]
    exact sum_pubs L (r 0) rest
  · intro i
    have e : (List.range (m + 1)).map (fun d => (⟨i + 1, (r d).eval ((i + 1 : Nat) : ZMod ell)⟩ : Share ell)) =
        ⟨i + 1, (r 0).eval ((i + 1 : Nat) : ZMod ell)⟩ :: rest.map fun r => ⟨i + 1, r.eval ((i + 1 : Nat) : ZMod ell)⟩ := by
      rw [List.range_succ_eq_map, List.map_cons, List.map_map, hrest, List.map_map]
      rfl
    rw [e]
    exact sum_shares (i + 1) (r 0) rest
  · intro idx hnd hlen' hnz
    obtain ⟨σ, sig, a1, a2, a3, a4⟩ := C18_aggregate_verifies (toParams sha512 L) ell253 ht htn hn hpn f rs d2 hdeg (idx.map (· + 1))
      (hnd.map fun a b hab => by simpa using hab) (by rw [List.length_map]; exact hlen')
      (by
        intro j hj
        obtain ⟨i, hi, rfl⟩ := List.mem_map.1 hj
        have := (hnz i hi).1
        omega)
      (by
        intro j hj
        obtain ⟨i, hi, rfl⟩ := List.mem_map.1 hj
        exact (hnz i hi).2) msg
    have hA : (toParams sha512 L).enc (f.eval 0 • (toParams sha512 L).g) = priv.drop 32 := by
      rw [enc_smul, d3, ZMod.val_natCast_of_lt hlt, ← h6]
    have hR := enc_smul sha512 L (rs.eval 0)
    rw [hA] at a1 a3 a4
    rw [hR] at a1 a3
    refine ⟨fun i => σ (i + 1), sig, ?_, ?_, ?_, verify_of sha512 L a4⟩
    · intro i hi
      exact a1 (i + 1) (List.mem_map.2 ⟨i, hi, rfl⟩)
    · rw [List.map_map] at a2
      exact a2
    · rw [a3]
      exact List.take_left' (L.length_enc _)

/-- The curve itself meets the contract, and so does every statement above. -/
example (sha256 : HashFn) (h256 : sha256.size = 32 ∧ sha256.block = 64) (sha512 : List UInt8 → List UInt8) (hlen : ∀ m, (sha512 m).length = 64)
    (seed : List UInt8) (hseed : seed.length = 32) (kr : Nat → ZMod ell) :=
  C116_end_to_end sha512 Verif.Ed25519.lib sha256 h256 hlen (t := 2) (n := 3) (by decide) (by decide) (by decide) seed hseed kr

end Verif.Ted25519
