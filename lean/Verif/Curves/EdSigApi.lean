import Verif.Curves.EdSig
import Verif.Curves.EcScalarApi

/-!
# `EdSigApi`: what the Ed25519 signatures of the two packages promise
-/

set_option linter.unusedSectionVars false

namespace Verif.EdSig
open Verif.Bytes Verif.Ed
open Verif.Ec.EdSc (ell clamp)

variable {A : Type} [AddCommGroup A]

/-! ## Specification -/

/-- The two packages, with their hash functions. -/
inductive IsSuite : Suite → Prop
  | rfc (sha512 : List UInt8 → List UInt8) (h : ∀ m, (sha512 m).length = 64) : IsSuite (rfc sha512)
  | nem (keccak512 : List UInt8 → List UInt8) (h : ∀ m, (keccak512 m).length = 64) : IsSuite (nem keccak512)

/-- The secret scalar of a seed as RFC 8032, 5.1.5 has it: an integer, not reduced. -/
def secret (S : Suite) (seed : List UInt8) : Nat := leToNat (clamp ((S.hash (S.seedIn seed)).take 32))

/-- The challenge of RFC 8032, 5.1.6 and 5.1.7, not reduced. -/
def challenge (S : Suite) (R pub msg : List UInt8) : Nat := leToNat (S.hash (R ++ pub ++ msg))

/-! ## Lemmas -/

theorem IsSuite.length {S : Suite} (h : IsSuite S) (m : List UInt8) : (S.hash m).length = 64 := by
  cases h with
  | rfc f h => exact h m
  | nem f h => exact h m

theorem clamp_mask (m : UInt8) (hm : m = 127 ∨ m = 63) (b : List UInt8) : clamp (mask m b) = clamp b := by
  unfold mask clamp
  cases b with
  | nil => rfl
  | cons f r =>
    dsimp only
    have e1 : f &&& 248 &&& 248 = f &&& 248 := by
      have : ∀ f : Fin 256, UInt8.ofFin f &&& 248 &&& 248 = UInt8.ofFin f &&& 248 := by decide +kernel
      exact this f.toFin
    have e2 : ∀ g : UInt8, ((g &&& m ||| 64) &&& 63 ||| 64) = (g &&& 63 ||| 64) := by
      intro g
      have : ∀ g : Fin 256, ((UInt8.ofFin g &&& 127 ||| 64) &&& 63 ||| 64) = (UInt8.ofFin g &&& 63 ||| 64) ∧
          ((UInt8.ofFin g &&& 63 ||| 64) &&& 63 ||| 64) = (UInt8.ofFin g &&& 63 ||| 64) := by decide +kernel
      rcases hm with rfl | rfl
      · exact (this g.toFin).1
      · exact (this g.toFin).2
    rw [e1]
    simp [e2]

theorem IsSuite.gen {S : Suite} (h : IsSuite S) (b : List UInt8) : clamped (S.genMask b) = leToNat (clamp b) % ell := by
  cases h with
  | rfc f h => exact congrArg (fun x => leToNat x % ell) (clamp_mask 127 (Or.inl rfl) b)
  | nem f h => rfl

theorem IsSuite.sig {S : Suite} (h : IsSuite S) (b : List UInt8) : clamped (S.signMask b) = leToNat (clamp b) % ell := by
  cases h with
  | rfc f h => exact congrArg (fun x => leToNat x % ell) (clamp_mask 63 (Or.inr rfl) b)
  | nem f h => rfl

theorem ell_bound : ell < 2 ^ 253 ∧ 0 < ell := by decide +kernel

theorem read_back {v : Nat} (h : v < ell) : leToNat (natToLE 32 v) = v := by
  rw [leToNat_natToLE, Nat.mod_eq_of_lt]
  have e : (256 : Nat) ^ 32 = 2 ^ 256 := by norm_num
  have := ell_bound.1
  have : (2 : Nat) ^ 253 < 2 ^ 256 := by norm_num
  omega

/-- The three top bits of the last byte are clear when the value is below `2^253`. -/
theorem top_clear {b : List UInt8} (h : b.length = 32) (hv : leToNat b < ell) : (b.getD 31 0) &&& 224 = 0 := by
  have e : b = b.take 31 ++ [b.getD 31 0] := by
    have h1 : b.drop 31 = [b.getD 31 0] := by
      rw [List.drop_eq_getElem_cons (by omega), List.drop_eq_nil_of_le (by omega), List.getD_eq_getElem _ _ (by omega)]
    conv_lhs => rw [← List.take_append_drop 31 b, h1]
  rw [e] at hv
  rw [Verif.Native.leToNat_append, List.length_take, h] at hv
  set g := b.getD 31 0 with hg
  have hs : leToNat [g] = g.toNat := by show g.toNat + 256 * 0 = _; omega
  rw [hs] at hv
  have e31 : (256 : Nat) ^ min 31 32 = 2 ^ 248 := by decide +kernel
  rw [e31] at hv
  have := ell_bound.1
  have e253 : (2 : Nat) ^ 253 = 2 ^ 248 * 32 := by norm_num
  have hlt : g.toNat < 32 := by
    by_contra hc
    have : 2 ^ 248 * 32 ≤ 2 ^ 248 * g.toNat := Nat.mul_le_mul_left _ (by omega)
    omega
  have all : ∀ g : Fin 256, (UInt8.ofFin g).toNat < 32 → UInt8.ofFin g &&& 224 = 0 := by decide +kernel
  exact all g.toFin hlt

theorem getD_drop (sig : List UInt8) : sig.getD 63 0 = (sig.drop 32).getD 31 0 := by
  rw [List.getD_eq_getElem?_getD, List.getD_eq_getElem?_getD, List.getElem?_drop]

theorem base_smul_inj (L : EdLib A) {s t : Nat} (hs : s < ell) (ht : t < ell) (h : s • L.base = t • L.base) : s = t := by
  have ho : addOrderOf L.base = ell :=
    addOrderOf_eq_prime (hp := Verif.Ec.EdSc.fact_ell) L.base_order L.base_ne
  have := (nsmul_inj_mod (x := L.base)).1 h
  rw [ho, Nat.mod_eq_of_lt hs, Nat.mod_eq_of_lt ht] at this
  exact this

/-! ## Keys -/

/-- The private key of a seed is the seed with the encoded public key, the public key the multiple of the base point by the clamped first half of
the hash of the seed; another length is an error, and the seed and the public key are found again in the private key. -/
theorem C113_key_from_seed {S : Suite} (hS : IsSuite S) (L : EdLib A) (seed : List UInt8) :
    (seed.length ≠ 32 → newKeyFromSeed S L seed = .err) ∧
    (seed.length = 32 → ∃ priv, newKeyFromSeed S L seed = .ok priv ∧ priv.length = 64 ∧ seedOf priv = .ok seed ∧
      publicOf priv = .ok (L.enc (secret S seed • L.base)) ∧
      generateKey S L (some seed) = .ok (L.enc (secret S seed • L.base), priv)) ∧
    generateKey S L none = .err := by
  refine ⟨fun h => if_pos h, fun h => ?_, rfl⟩
  have e : newKeyFromSeed S L seed = .ok (seed ++ L.enc (secret S seed • L.base)) := by
    unfold newKeyFromSeed
    rw [if_neg (not_not.2 h)]
    dsimp only
    rw [IsSuite.gen hS, mod_smul L.base_order]
    rfl
  have hl := L.length_enc (secret S seed • L.base)
  have hd : (seed ++ L.enc (secret S seed • L.base)).drop 32 = L.enc (secret S seed • L.base) := by
    rw [← h, List.drop_left]
  have hlen : (seed ++ L.enc (secret S seed • L.base)).length = 64 := by rw [List.length_append, h, hl]
  refine ⟨_, e, hlen, ?_, ?_, ?_⟩
  · unfold seedOf
    rw [if_neg (by omega), ← h, List.take_left]
  · unfold publicOf
    rw [if_neg (by omega), hd, hl, List.take_of_length_le (le_of_eq hl)]
    exact congrArg Res.ok (List.append_nil _)
  · unfold generateKey
    dsimp only
    rw [e, Res.bind_ok, hd, List.take_of_length_le (le_of_eq hl)]

/-- The package for NEM computes the key that RFC 8032 has for the seed read backwards, with Keccak in place of SHA-512. -/
theorem C113_nem_seed (L : EdLib A) (H : List UInt8 → List UInt8) (hH : ∀ m, (H m).length = 64) (seed : List UInt8) (h : seed.length = 32) :
    ∃ p q, newKeyFromSeed (nem H) L seed = .ok p ∧ newKeyFromSeed (rfc H) L seed.reverse = .ok q ∧ publicOf p = publicOf q := by
  obtain ⟨p, h1, -, -, h2, -⟩ := (C113_key_from_seed (.nem H hH) L seed).2.1 h
  obtain ⟨q, h3, -, -, h4, -⟩ := (C113_key_from_seed (.rfc H hH) L seed.reverse).2.1 (by rw [List.length_reverse, h])
  exact ⟨p, q, h1, h3, by rw [h2, h4]; rfl⟩

/-! ## Verification -/

/-- `Verify` accepts exactly what RFC 8032 (without multiplication by the cofactor) accepts: lengths 32 and 64, a public key that decodes, a
second half below the order, and a first half that is the encoding of `s B - h P`.  It never panics. -/
theorem C113_verify (S : Suite) (L : EdLib A) (pub msg sig : List UInt8) :
    verify S L pub msg sig ≠ .panic ∧
    (verify S L pub msg sig = .ok true ↔ sig.length = 64 ∧ leToNat (sig.drop 32) < ell ∧ ∃ P, L.dec pub = some P ∧
      sig.take 32 = L.enc (leToNat (sig.drop 32) • L.base - (challenge S (sig.take 32) pub msg % ell) • P)) ∧
    (verify S L pub msg sig = .err ↔ ¬ (sig.length = 64 ∧ leToNat (sig.drop 32) < ell ∧ ∃ P, L.dec pub = some P)) := by
  by_cases hp : pub.length = 32
  · by_cases hl : sig.length = 64
    · by_cases hc : leToNat (sig.drop 32) < ell
      · have ht : (sig.getD 63 0) &&& 224 = 0 := by
          rw [getD_drop]
          exact top_clear (by rw [List.length_drop, hl]) hc
        have e : verify S L pub msg sig = (match L.dec pub with
            | none => .err
            | some P => .ok (decide (sig.take 32 = L.enc (leToNat (sig.drop 32) • L.base - (challenge S (sig.take 32) pub msg % ell) • P)))) := by
          unfold verify
          rw [if_neg (not_not.2 hp), if_neg (by rintro (h | h); exacts [h hl, h ht])]
          cases L.dec pub with
          | none => rfl
          | some P =>
            have e1 : canonical (sig.drop 32) = some (leToNat (sig.drop 32)) := if_pos hc
            dsimp only
            rw [e1]
            have e2 : wide (S.hash (sig.take 32 ++ pub ++ msg)) • (-P) + leToNat (sig.drop 32) • L.base =
                leToNat (sig.drop 32) • L.base - (challenge S (sig.take 32) pub msg % ell) • P := by
              rw [smul_neg, add_comm, ← sub_eq_add_neg]
              rfl
            dsimp only
            rw [e2]
        rw [e]
        cases hd : L.dec pub with
        | none => simp
        | some P => simp [hl, hc]
      · have e : verify S L pub msg sig = .err := by
          unfold verify
          rw [if_neg (not_not.2 hp)]
          split
          · rfl
          · have e1 : canonical (sig.drop 32) = none := if_neg hc
            cases L.dec pub with
            | none => rfl
            | some P => dsimp only; rw [e1]
        rw [e]
        simp only [reduceCtorEq, hc, false_and, and_false, ne_eq, not_false_eq_true, and_self]
    · have e : verify S L pub msg sig = .err := by
        unfold verify
        rw [if_neg (not_not.2 hp), if_pos (Or.inl hl)]
      rw [e]
      simp only [reduceCtorEq, hl, false_and, ne_eq, not_false_eq_true, and_self]
  · have hn : ∀ P, L.dec pub ≠ some P := fun P h => hp (L.dec_length _ _ h)
    have e : verify S L pub msg sig = .err := if_pos hp
    rw [e]
    simp [hn]

/-- For one key, message and first half there is at most one second half that is accepted: a signature cannot be altered by adding a multiple of
the order, nor in its top bits. -/
theorem C113_second_half_unique (S : Suite) (L : EdLib A) (pub msg sig sig' : List UInt8) (h : verify S L pub msg sig = .ok true)
    (h' : verify S L pub msg sig' = .ok true) (hR : sig.take 32 = sig'.take 32) : sig = sig' := by
  obtain ⟨h1, h2, P, h3, h4⟩ := (C113_verify S L pub msg sig).2.1.1 h
  obtain ⟨g1, g2, Q, g3, g4⟩ := (C113_verify S L pub msg sig').2.1.1 h'
  have hPQ : P = Q := Option.some.inj (h3.symm.trans g3)
  subst hPQ
  have e := L.enc_inj (h4.symm.trans (hR.trans g4))
  rw [hR] at e
  have e2 := base_smul_inj L h2 g2 (sub_left_inj.1 e)
  have e3 : sig.drop 32 = sig'.drop 32 := leToNat_inj (by rw [List.length_drop, List.length_drop, h1, g1]) e2
  rw [← List.take_append_drop 32 sig, ← List.take_append_drop 32 sig', hR, e3]

/-- Two accepted signatures with the same first half and different challenges give away the discrete logarithm of the public key, if it has one:
signatures are proofs of knowledge of it. -/
theorem C113_extraction (S : Suite) (L : EdLib A) (pub msg sig msg' sig' : List UInt8) (h : verify S L pub msg sig = .ok true)
    (h' : verify S L pub msg' sig' = .ok true) (hR : sig.take 32 = sig'.take 32)
    (hc : (challenge S (sig.take 32) pub msg : ZMod ell) ≠ challenge S (sig.take 32) pub msg') :
    ∃ P, L.dec pub = some P ∧ (ell • P = 0 → P = (((leToNat (sig.drop 32) : ZMod ell) - leToNat (sig'.drop 32)) /
      ((challenge S (sig.take 32) pub msg : ZMod ell) - challenge S (sig.take 32) pub msg')).val • L.base) := by
  obtain ⟨h1, h2, P, h3, h4⟩ := (C113_verify S L pub msg sig).2.1.1 h
  obtain ⟨g1, g2, Q, g3, g4⟩ := (C113_verify S L pub msg' sig').2.1.1 h'
  have hPQ : P = Q := Option.some.inj (h3.symm.trans g3)
  subst hPQ
  refine ⟨P, h3, fun hP => ?_⟩
  have e := L.enc_inj (h4.symm.trans (hR.trans g4))
  rw [← hR, mod_smul hP, mod_smul hP] at e
  set c := challenge S (sig.take 32) pub msg
  set c' := challenge S (sig.take 32) pub msg'
  set s := leToNat (sig.drop 32)
  set s' := leToNat (sig'.drop 32)
  have := Verif.Ec.EdSc.fact_ell
  set k := (((s : ZMod ell) - s') / ((c : ZMod ell) - c')).val with hk
  have hne : (c : ZMod ell) - c' ≠ 0 := sub_ne_zero.2 hc
  have hB : ((((c : ℤ) - c') * k - ((s : ℤ) - s')) : ℤ) • L.base = 0 := by
    have hd : (ell : ℤ) ∣ ((c : ℤ) - c') * k - ((s : ℤ) - s') := by
      rw [← ZMod.intCast_zmod_eq_zero_iff_dvd]
      push_cast
      rw [hk, ZMod.natCast_zmod_val, mul_div_cancel₀ _ hne, sub_self]
    obtain ⟨m, hm⟩ := hd
    rw [hm, mul_comm, mul_zsmul, natCast_zsmul, L.base_order, zsmul_zero]
  have hx : ((c : ℤ) - c') • (P - k • L.base) = 0 := by
    have e1 : ((c : ℤ) - c') • (k • L.base) = s • L.base - s' • L.base := by
      have e0 : ((s : ℤ) - s') • L.base = s • L.base - s' • L.base := by
        rw [sub_zsmul, natCast_zsmul, natCast_zsmul, ← sub_eq_add_neg]
      rw [← e0, ← natCast_zsmul (L.base) k, ← mul_zsmul]
      rw [sub_zsmul _ (((c : ℤ) - c') * k), ← sub_eq_add_neg] at hB
      exact sub_eq_zero.1 hB
    have e2 : c • P - c' • P = s • L.base - s' • L.base := by
      have h5 := sub_eq_zero.2 e
      have h6 : (c • P - c' • P) - (s • L.base - s' • L.base) = -(s • L.base - c • P - (s' • L.base - c' • P)) := by abel
      rw [h5, neg_zero] at h6
      exact sub_eq_zero.1 h6
    rw [smul_sub, e1, sub_zsmul, natCast_zsmul, natCast_zsmul, ← sub_eq_add_neg, e2, sub_self]
  have hl : (ell : ℤ) • (P - k • L.base) = 0 := by
    rw [smul_sub, natCast_zsmul, natCast_zsmul, hP, ← mul_nsmul, mul_comm, mul_nsmul, L.base_order, nsmul_zero, sub_zero]
  have hcop : IsCoprime ((c : ℤ) - c') (ell : ℤ) := by
    rw [Int.isCoprime_iff_gcd_eq_one, Int.gcd_comm]
    refine (Nat.Prime.coprime_iff_not_dvd (Verif.Ec.EdSc.fact_ell.out)).2 (fun hd => hne ?_)
    have : (ell : ℤ) ∣ (c : ℤ) - c' := Int.natCast_dvd.2 hd
    have := (ZMod.intCast_zmod_eq_zero_iff_dvd _ _).2 this
    push_cast at this
    exact this
  obtain ⟨a, b, hab⟩ := hcop
  have : P - k • L.base = 0 := by
    rw [← one_zsmul (P - k • L.base), ← hab, add_zsmul, mul_zsmul, mul_zsmul, hx, hl, zsmul_zero, zsmul_zero, add_zero]
  exact sub_eq_zero.1 this

/-! ## Signatures -/

/-- The explicit signature. -/
theorem sign_eq {S : Suite} (hS : IsSuite S) (L : EdLib A) (priv msg : List UInt8) (h : priv.length = 64) :
    ∃ r, r = leToNat (S.hash ((S.hash (S.seedIn (priv.take 32))).drop 32 ++ msg)) ∧
      sign S L priv msg = .ok (L.enc (r • L.base) ++
        natToLE 32 ((challenge S (L.enc (r • L.base)) (priv.drop 32) msg * secret S (priv.take 32) + r) % ell)) := by
  refine ⟨_, rfl, ?_⟩
  unfold sign
  rw [if_neg (not_not.2 h)]
  dsimp only
  rw [IsSuite.sig hS]
  unfold wide
  rw [mod_smul L.base_order]
  have e : ∀ x y z : Nat, (x % ell * (y % ell) + z % ell) % ell = (x * y + z) % ell := fun x y z => by
    rw [Nat.add_mod, Nat.mod_mod, ← Nat.mul_mod, ← Nat.add_mod]
  rw [e]
  rfl

/-- What `Verify` says to a signature made with the seed of a private key and whatever public key stands in its second half: it is accepted
exactly if the challenge cannot tell that public key from the one of the seed. -/
theorem C113_mixed_key {S : Suite} (hS : IsSuite S) (L : EdLib A) (priv msg : List UInt8) (h : priv.length = 64) (P : A)
    (hP : L.dec (priv.drop 32) = some P) :
    ∃ sig, sign S L priv msg = .ok sig ∧ sig.length = 64 ∧
      (verify S L (priv.drop 32) msg sig = .ok true ↔
        (challenge S (sig.take 32) (priv.drop 32) msg % ell) • (secret S (priv.take 32) • L.base - P) = 0) := by
  obtain ⟨r, hr, e⟩ := sign_eq hS L priv msg h
  have hlR := L.length_enc (r • L.base)
  set c := challenge S (L.enc (r • L.base)) (priv.drop 32) msg with hc
  set s := (c * secret S (priv.take 32) + r) % ell with hs
  have hsl : s < ell := Nat.mod_lt _ ell_bound.2
  have ht : (L.enc (r • L.base) ++ natToLE 32 s).take 32 = L.enc (r • L.base) := by
    conv_lhs => rw [← hlR, List.take_left]
  have hd : (L.enc (r • L.base) ++ natToLE 32 s).drop 32 = natToLE 32 s := List.drop_left' hlR
  have hlen : (L.enc (r • L.base) ++ natToLE 32 s).length = 64 := by rw [List.length_append, hlR, length_natToLE]
  refine ⟨_, e, hlen, ?_⟩
  rw [(C113_verify S L _ msg _).2.1, hd, ht, read_back hsl, ← hc]
  have hb : s • L.base = (c % ell) • (secret S (priv.take 32) • L.base) + r • L.base := by
    have hk : ell • (secret S (priv.take 32) • L.base) = 0 := by
      rw [← mul_nsmul, mul_comm, mul_nsmul, L.base_order, nsmul_zero]
    rw [hs, mod_smul L.base_order, add_nsmul, mul_comm c, mul_nsmul, mod_smul hk]
  constructor
  · rintro ⟨-, -, Q, hQ, hv⟩
    have hPQ : P = Q := Option.some.inj (hP.symm.trans hQ)
    subst hPQ
    have := L.enc_inj hv
    rw [hb] at this
    rw [smul_sub, sub_eq_zero]
    have h2 := sub_eq_zero.2 this
    have h3 : (c % ell) • P - (c % ell) • (secret S (priv.take 32) • L.base) =
        r • L.base - ((c % ell) • (secret S (priv.take 32) • L.base) + r • L.base - (c % ell) • P) := by abel
    exact (sub_eq_zero.1 (h3.trans h2)).symm
  · intro h0
    rw [smul_sub, sub_eq_zero] at h0
    refine ⟨hlen, hsl, P, hP, ?_⟩
    rw [hb, h0]
    exact congrArg L.enc (by abel)

/-- Every signature made with a generated key verifies, for every seed and message, in both packages; and signing is a function. -/
theorem C113_sign_verify {S : Suite} (hS : IsSuite S) (L : EdLib A) (seed msg : List UInt8) (h : seed.length = 32) :
    ∃ priv pub sig, newKeyFromSeed S L seed = .ok priv ∧ publicOf priv = .ok pub ∧ sign S L priv msg = .ok sig ∧ sig.length = 64 ∧
      verify S L pub msg sig = .ok true := by
  obtain ⟨priv, h1, h2, h3, h4, h5⟩ := (C113_key_from_seed hS L seed).2.1 h
  have hg := h5
  unfold generateKey at hg
  dsimp only at hg
  rw [h1, Res.bind_ok] at hg
  have hpub : (priv.drop 32).take 32 = L.enc (secret S seed • L.base) := congrArg Prod.fst (Res.ok.inj hg)
  have hd : priv.drop 32 = L.enc (secret S seed • L.base) := by
    rw [← hpub, List.take_of_length_le (by rw [List.length_drop, h2])]
  have ht : priv.take 32 = seed := by
    unfold seedOf at h3
    rw [if_neg (by omega)] at h3
    exact Res.ok.inj h3
  obtain ⟨sig, g1, g2, g3⟩ := C113_mixed_key hS L priv msg h2 (secret S seed • L.base) (by rw [hd, L.dec_enc])
  rw [hd, ht] at g3
  exact ⟨priv, _, sig, h1, h4, g1, g2, g3.2 (by rw [sub_self, smul_zero])⟩

/-- A private key of another length is refused, and so is a message said to be hashed already. -/
theorem C113_sign_errors (S : Suite) (L : EdLib A) (priv msg : List UInt8) (hashFunc : Nat) :
    (sign S L priv msg = .err ↔ priv.length ≠ 64) ∧ sign S L priv msg ≠ .panic ∧
    (hashFunc ≠ 0 → signer S L priv msg hashFunc = .err) ∧ signer S L priv msg 0 = sign S L priv msg := by
  refine ⟨?_, ?_, fun h => if_pos h, if_neg (not_not.2 rfl)⟩
  · unfold sign
    by_cases h : priv.length = 64 <;> simp [h]
  · unfold sign
    by_cases h : priv.length = 64 <;> simp [h]

/-! ## What does not hold -/

/-- "The commitment of a signature depends on the public key it is made for" is false: two private keys with the same seed and different second
halves sign a message with the same first half, and the two second halves give away the secret scalar as soon as the challenges differ. -/
theorem C113_public_half_violated {S : Suite} (hS : IsSuite S) (L : EdLib A) (p q msg : List UInt8) (hp : p.length = 64) (hq : q.length = 64)
    (hseed : p.take 32 = q.take 32) :
    ∃ R s t, R.length = 32 ∧ s.length = 32 ∧ t.length = 32 ∧ sign S L p msg = .ok (R ++ s) ∧ sign S L q msg = .ok (R ++ t) ∧
      ((challenge S R (p.drop 32) msg : ZMod ell) - challenge S R (q.drop 32) msg) * secret S (p.take 32) =
        (leToNat s : ZMod ell) - leToNat t ∧
      ((challenge S R (p.drop 32) msg : ZMod ell) ≠ challenge S R (q.drop 32) msg →
        (secret S (p.take 32) : ZMod ell) = ((leToNat s : ZMod ell) - leToNat t) /
          ((challenge S R (p.drop 32) msg : ZMod ell) - challenge S R (q.drop 32) msg)) := by
  obtain ⟨r, hr, e⟩ := sign_eq hS L p msg hp
  obtain ⟨r', hr', e'⟩ := sign_eq hS L q msg hq
  rw [← hseed] at hr' e'
  have : r' = r := hr'.trans hr.symm
  subst this
  have key : ((challenge S (L.enc (r' • L.base)) (p.drop 32) msg : ZMod ell) - challenge S (L.enc (r' • L.base)) (q.drop 32) msg) *
      secret S (p.take 32) =
      (leToNat (natToLE 32 ((challenge S (L.enc (r' • L.base)) (p.drop 32) msg * secret S (p.take 32) + r') % ell)) : ZMod ell) -
      leToNat (natToLE 32 ((challenge S (L.enc (r' • L.base)) (q.drop 32) msg * secret S (p.take 32) + r') % ell)) := by
    rw [read_back (Nat.mod_lt _ ell_bound.2), read_back (Nat.mod_lt _ ell_bound.2), ZMod.natCast_mod, ZMod.natCast_mod]
    push_cast
    ring
  refine ⟨_, _, _, L.length_enc _, length_natToLE _ _, length_natToLE _ _, e, e', key, fun hne => ?_⟩
  have := Verif.Ec.EdSc.fact_ell
  rw [eq_div_iff (sub_ne_zero.2 hne), mul_comm]
  exact key

/-- "A signature is for one message" is false for a public key of small order: with the key that encodes the neutral element, the same 64 bytes
verify for every message; and with a key of order eight for every message whose challenge is a multiple of eight. -/
theorem C113_small_order_violated (S : Suite) (L : EdLib A) (msg : List UInt8) :
    verify S L (1 :: List.replicate 31 0) msg (L.enc 0 ++ List.replicate 32 0) = .ok true ∧
    ∀ T : A, 8 • T = 0 → 8 ∣ challenge S (L.enc 0) (L.enc T) msg % ell →
      verify S L (L.enc T) msg (L.enc 0 ++ List.replicate 32 0) = .ok true := by
  have all : ∀ T : A, 8 • T = 0 → (challenge S (L.enc 0) (L.enc T) msg % ell) • T = 0 →
      verify S L (L.enc T) msg (L.enc 0 ++ List.replicate 32 0) = .ok true := by
    intro T hT h0
    have hl := L.length_enc 0
    have ht : (L.enc 0 ++ List.replicate 32 0).take 32 = L.enc 0 := by conv_lhs => rw [← hl, List.take_left]
    have hd : (L.enc 0 ++ List.replicate 32 (0 : UInt8)).drop 32 = List.replicate 32 0 := List.drop_left' hl
    have hz : leToNat (List.replicate 32 0) = 0 := by decide +kernel
    rw [(C113_verify S L _ msg _).2.1, hd, ht, hz]
    refine ⟨by rw [List.length_append, hl, List.length_replicate], ell_bound.2, T, L.dec_enc T, ?_⟩
    rw [h0, zero_smul, sub_zero]
  refine ⟨?_, fun T hT ⟨k, hk⟩ => all T hT (by rw [hk, mul_nsmul, hT, nsmul_zero])⟩
  have := all 0 (smul_zero _) (smul_zero _)
  rwa [L.enc_zero] at this ⊢

/-! ## Concrete cases -/

/-- The hypotheses are met: a suite, a library and a seed, and a signature that is accepted. -/
example : ∃ priv pub sig, newKeyFromSeed (nem fun m => (m ++ List.replicate 64 7).take 64) toyEd (List.replicate 32 5) = .ok priv ∧
    publicOf priv = .ok pub ∧ sign (nem fun m => (m ++ List.replicate 64 7).take 64) toyEd priv [1, 2] = .ok sig ∧ sig.length = 64 ∧
    verify (nem fun m => (m ++ List.replicate 64 7).take 64) toyEd pub [1, 2] sig = .ok true :=
  C113_sign_verify (.nem _ (fun m => by simp)) toyEd _ _ (by simp)

end Verif.EdSig
