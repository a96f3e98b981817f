import Verif.Bbs.Codec
import Verif.Bbs.Drbg
import Mathlib.Data.ZMod.Basic
import Mathlib.Algebra.Field.ZMod

/-! Concrete runs that meet the hypotheses of the theorems C76-C81: the toy pairing over `ZMod 257`. -/

set_option linter.unusedSectionVars false

namespace Verif.Bbs.Examples

open Verif Verif.Bbs Verif.Bytes
open Verif.Bulletproof (msm)
open Verif.OT (Ev Transcript idx)

local instance fact257 : Fact (Nat.Prime 257) := ⟨by norm_num⟩

abbrev Z := ZMod 257

def setBE (L : Nat) (b : List UInt8) : Option Z :=
  if b.length = L ∧ beToNat b < 257 then some (beToNat b : Z) else none

theorem setBE_rt (L : Nat) (hL : 257 ≤ 256 ^ L) (x : Z) : setBE L (natToBEfix L x.val) = some x := by
  have h : x.val < 257 := ZMod.val_lt x
  unfold setBE
  rw [beToNat_natToBEfix, Nat.mod_eq_of_lt (lt_of_lt_of_le h hL), if_pos ⟨length_natToBEfix _ _, h⟩,
    ZMod.natCast_zmod_val]

theorem setBE_canon (L : Nat) (hL : 257 ≤ 256 ^ L) (b : List UInt8) (x : Z) (h : setBE L b = some x) :
    natToBEfix L x.val = b := by
  unfold setBE at h
  split_ifs at h with hc
  have hx := (Option.some.inj h).symm
  subst hx
  rw [ZMod.val_natCast, Nat.mod_eq_of_lt hc.2]
  apply beToNat_inj
  · rw [length_natToBEfix, hc.1]
  · rw [beToNat_natToBEfix, Nat.mod_eq_of_lt (lt_of_lt_of_le hc.2 hL)]

/-- hashing, encodings and random numbers of the toy curve: `e = 3`, `s = 4` for every signature -/
def env : Env Z Z Z where
  hash1 b := (b.length : Z) + 7
  unc1 x := natToBEfix 96 x.val
  cmp1 x := natToBEfix 48 x.val
  dec1 := setBE 48
  unc2 x := natToBEfix 192 x.val
  cmp2 x := natToBEfix 96 x.val
  dec2 := setBE 96
  bytes x := natToBEfix 32 x.val
  setBytes := setBE 32
  shake _ := [0, 3, 0, 4]
  chal t _ := (t.length : Z) + 1

theorem env_enc : Enc env :=
  ⟨fun _ => length_natToBEfix _ _, fun _ => length_natToBEfix _ _, fun _ => length_natToBEfix _ _,
    setBE_rt 48 (by decide +kernel), setBE_rt 96 (by decide +kernel), setBE_rt 32 (by decide +kernel)⟩

theorem env_canon : Canon env :=
  ⟨setBE_canon 48 (by decide +kernel), setBE_canon 96 (by decide +kernel), setBE_canon 32 (by decide +kernel)⟩

abbrev E := toyPairing Z

abbrev pk : Z := publicKey E 5

/-- C77: three generators for the key of the secret 5. -/
theorem gens_ok : ∃ g, Generators.init env pk 3 = .ok g := by
  unfold Generators.init
  rw [if_neg (by decide)]
  exact ⟨_, rfl⟩

theorem h0_eq {g : Generators Z} (h : Generators.init env pk 3 = .ok g) : g.h0 = 208 := by
  obtain ⟨_, hl, _, h0⟩ := (C77_init env pk 3).2 g h
  rw [h0]
  show ((g.state.length : Nat) : Z) + 7 = 208
  rw [hl]
  decide

theorem length_eq {g : Generators Z} (h : Generators.init env pk 3 = .ok g) : g.length = 3 := by
  have := ((C77_init env pk 3).2 g h).1
  omega

/-- C77: a negative count is refused; all generators of one key are equal, above the count there is none. -/
example : Generators.init env pk (-1) = .err := ((C77_init env pk (-1)).1).mpr (by decide)
example {g : Generators Z} (h : Generators.init env pk 3 = .ok g) :
    g.get env 1 = some 208 ∧ g.get env 3 = some 208 ∧ g.get env 4 = none := by
  rw [C77_get_constant h, C77_get_constant h, C77_get_constant h, h0_eq h]
  exact ⟨rfl, rfl, rfl⟩

theorem draw1 {d : List UInt8} : getNonZero (env.shake d) = .ok (3, [0, 4]) := by
  show getNonZero ([0, 3, 0, 4] : List Z) = .ok (3, [0, 4])
  decide

theorem draw2 : getNonZero ([0, 4] : List Z) = .ok (4, []) := by decide

/-- C76: signing two of three possible messages succeeds, and the signature is accepted. -/
theorem signed {g : Generators Z} (h : Generators.init env pk 3 = .ok g) :
    ∃ sig, sign env E 5 g [10, 20] = .ok sig ∧ sig.e = 3 ∧ sig.s = 4 ∧ sig.a ≠ 0 ∧
      verify env E pk sig g [10, 20] = .ok () := by
  have hg := init_gens h
  have hv := C76_sign_value E h (H := fun _ => g.h0) (fun i hi => hg.1 i (by exact_mod_cast hi)) 5 [10, 20]
    (by decide) (by decide) (by decide) draw1 draw2
  rw [if_neg (by decide)] at hv
  have hA : ((3 + 5 : Z)⁻¹ • ((E).g1 + (4 : Z) • g.h0 +
      (List.zipWith (fun i m => m • g.h0) (List.range ([10, 20] : List Z).length) ([10, 20] : List Z)).sum)) ≠ 0 := by
    rw [h0_eq h]
    refine smul_ne_zero (inv_ne_zero (by decide)) ?_
    decide
  exact ⟨_, hv, rfl, rfl, hA, C76_sign_verify E h 5 _ hv hA⟩

/-- C76 (forgery): the signature on `[10, 20]` becomes one on `[1, 2, 3]`, and is one on `[15, 15]` as it is. -/
example {g : Generators Z} (h : Generators.init env pk 3 = .ok g) : ∃ sig : Signature Z Z,
    verify env E pk sig g [10, 20] = .ok () ∧
    verify env E pk { sig with s := 28 } g [1, 2, 3] = .ok () ∧ verify env E pk sig g [15, 15] = .ok () := by
  obtain ⟨sig, _, _, hs, _, hv⟩ := signed h
  have h1 := C76_forgery E h pk sig _ [1, 2, 3] hv (by decide) (by decide)
  have e : sig.s + ([10, 20] : List Z).sum - ([1, 2, 3] : List Z).sum = 28 := by
    rw [hs]
    decide
  rw [e] at h1
  exact ⟨sig, hv, h1, C76_same_sum E h pk sig _ [15, 15] hv (by decide) (by decide) (by decide)⟩

/-- C76: signing nothing, too much, or with the zero key is refused; every accepted list has the same sum. -/
example {g : Generators Z} (h : Generators.init env pk 3 = .ok g) :
    sign env E 5 g [] = .err ∧ sign env E 5 g [1, 2, 3, 4] = .err ∧ sign env E 0 g [1] = .err :=
  ⟨C76_sign_refuses _ _ _ _ _ (.inl rfl),
    C76_sign_refuses _ _ _ _ _ (.inr (.inl (by rw [length_eq h]; decide))),
    C76_sign_refuses _ _ _ _ _ (.inr (.inr rfl))⟩
example {g : Generators Z} (h : Generators.init env pk 3 = .ok g) (sig : Signature Z Z)
    (hv : verify env E pk sig g [10, 20] = .ok ()) : verify env E pk sig g [10, 21] ≠ .ok () := fun hv' => by
  have := C76_sum_binding E h (by rw [h0_eq h]; decide) pk sig _ _ hv hv'
  exact absurd this (by decide)

/-- C78: a context hiding messages 0 and 2, the signer knows message 1: the context verifies, the signer signs,
and the unblinded signature is accepted on the three messages. -/
theorem blind_run {g : Generators Z} (h : Generators.init env pk 3 = .ok g) : ∃ ctx sig,
    newBlindCtx env [(2, 30), (0, 10)] g 77 [41, 42, 43, 44] = .ok (ctx, 43) ∧
    ctx.verify env [1] g 77 = .ok () ∧
    toBlindSignature env E ctx [(1, 20)] 5 g 77 = .ok sig ∧ sig.a ≠ 0 ∧
    verify env E pk (toUnblinded sig 43) g [10, 20, 30] = .ok () := by
  have hl := length_eq h
  obtain ⟨ctx, hc, _, _, hC⟩ := C78_new_context h [(2, (30 : Z)), (0, 10)] (by decide) (by decide) 77 (rs := [41, 42])
    (r' := []) rfl 43 44
  have hv := C78_context_verifies h _ [1] (by rw [hl]; decide) hc
  obtain ⟨sig, hs, he, hs'⟩ := C78_signer_succeeds E h _ [(1, (20 : Z))] (by rw [hl]; decide) hc
    (sk := 5) (by decide) draw1 draw2 (by decide)
  have hA := C78_negative_index E h hs (by decide)
  have hA' : sig.a ≠ 0 := by
    rw [hA, hC, he, hs', h0_eq h]
    refine smul_ne_zero (inv_ne_zero (by decide)) ?_
    decide
  exact ⟨ctx, sig, hc, hv, hs, hA', C78_blind_sign_verify E h (by decide) [10, 20, 30] rfl _ _ (by decide) hc hs hA'⟩

/-- C78: with an index missing the signer panics; the index 3 makes the holder panic, 4 and -1 are refused. -/
example {g : Generators Z} (h : Generators.init env pk 3 = .ok g) (ctx : BlindCtx Z Z)
    (hc : ctx.proofs.length = 3) : toBlindSignature env E ctx [] 5 g 77 = .panic :=
  C78_signer_panics E h ctx [] 5 77 (by decide) (by decide) (by rw [length_eq h, hc]; decide)
example {g : Generators Z} (h : Generators.init env pk 3 = .ok g) :
    newBlindCtx env [(3, 30), (0, 10)] g 77 [41, 42, 43, 44] = .panic ∧
    newBlindCtx env [(4, 30)] g 77 [41, 42, 43, 44] = .err ∧
    newBlindCtx env [(-1, 30)] g 77 [41, 42, 43, 44] = .err :=
  ⟨C78_index_length_panics h [(3, (30 : Z)), (0, 10)] (by decide) ⟨_, List.mem_cons_self, rfl⟩ (by decide) 77
      (rs := [41, 42]) (r' := []) rfl 43 44,
    C78_index_refused h _ ⟨_, List.mem_cons_self, .inr (by decide)⟩ 77 _,
    C78_index_refused h _ ⟨_, List.mem_cons_self, .inl (by decide)⟩ 77 _⟩

/-- the toy curve with another challenge function -/
def env' : Env Z Z Z := { env with chal := fun t _ => (t.length : Z) + 2 }

/-- C78 (extraction): two answers to different challenges for the same commitments, opening it. -/
example {g : Generators Z} (h : Generators.init env pk 3 = .ok g) : ∃ ms : List Z, ∃ bl : Z,
    ms.length = 2 ∧ ((208 : Z) * 83 : Z) = msm [208, 208] ms + bl • (208 : Z) := by
  have hl := length_eq h
  have hg := init_gens h
  have h' : Generators.init env' pk 3 = .ok g := h
  have hg' := init_gens h'
  -- commitment `C = 30·h + 10·h + 43·h`, answers `secret·c + k` for `k = 41, 42, 44`
  have key := C78_context_extract (V := env) (V' := env') (g := g) (H := fun _ => 208)
    (fun i hi => by rw [hg.1 i (by exact_mod_cast hi), h0_eq h])
    (fun i hi => by rw [hg'.1 i (by exact_mod_cast hi), h0_eq h])
    ⟨208 * 83, 5, [10 * 5 + 41, 30 * 5 + 42, 43 * 5 + 44]⟩ ⟨208 * 83, 6, [10 * 6 + 41, 30 * 6 + 42, 43 * 6 + 44]⟩ [1] 77
    ((C78_verify_exact (H := fun _ => (208 : Z)) (fun i hi => by rw [hg.1 i (by exact_mod_cast hi), h0_eq h]) _ _ _).1.mpr
      ⟨by rw [hl]; decide, by rw [hl]; decide, by show (5 : Z) = (4 : Nat) + 1; decide⟩)
    ((C78_verify_exact (V := env') (H := fun _ => (208 : Z)) (fun i hi => by rw [hg'.1 i (by exact_mod_cast hi), h0_eq h]) _ _ _).1.mpr
      ⟨by rw [hl]; decide, by rw [hl]; decide, by show (6 : Z) = (4 : Nat) + 2; decide⟩)
    rfl (by decide) (by rw [hl]; decide)
  rw [hl] at key
  exact key

/-- C79: a proof that discloses message 1 of three and hides the others (one of them with a shared blinding). -/
example {g : Generators Z} (h : Generators.init env pk 3 = .ok g) : ∃ sig pok proof,
    verify env E pk sig g [10, 20, 30] = .ok () ∧
    newPok env E sig g [.proofSpecific 10, .revealed 20, .shared 30 99] [0, 2, 0, 3, 51, 52, 53, 54, 55, 56, 57] = .ok pok ∧
    pok.generateProof 7 = .ok proof ∧
    proof.verify env E [(1, 20)] pk g 77 7 [] = .ok true := by
  obtain ⟨ctx, sig, _, _, _, _, hv⟩ := blind_run h
  obtain ⟨pok, hp⟩ := C79_new_succeeds E h (toUnblinded sig 43)
    [.proofSpecific 10, .revealed 20, .shared 30 99] rfl (by decide) (by decide) (r1 := 2) (r2 := 3) (a := 51) (b := 52)
    (a2 := 53) (b2 := 54) (by decide) (by decide) (rs := [55, 56, 57]) (by decide)
  have hp' : newPok env E (toUnblinded sig 43) g [.proofSpecific 10, .revealed 20, .shared 30 99]
      [0, 2, 0, 3, 51, 52, 53, 54, 55, 56, 57] = .ok pok := by
    rw [← hp]
    rfl
  obtain ⟨proof, h1, h2⟩ := C79_completeness E h 5 (toUnblinded sig 43)
    [.proofSpecific 10, .revealed 20, .shared 30 99] hv hp' [] 77 7
    (by show (7 : Z) = (6 : Nat) + 1; decide) [(1, 20)] (by decide)
  exact ⟨_, pok, proof, hv, hp', h1, h2⟩

/-- C79 (negation): the holder of a signature on `[10, 20, 30]` proves the disclosure of `[1, 1, 1]`. -/
example {g : Generators Z} (h : Generators.init env pk 3 = .ok g) : ∃ proof c,
    PokProof.verify env E proof [(0, 1), (1, 1), (2, 1)] pk g 77 c [] = .ok true := by
  obtain ⟨ctx, sig, _, _, _, _, hv⟩ := blind_run h
  obtain ⟨_, proof, c, _, _, h3⟩ := C79_arbitrary_disclosure E h 5 _ _ hv [1, 1, 1] rfl (r1 := 2) (r2 := 3) (a := 51)
    (b := 52) (a2 := 53) (b2 := 54) (by decide) (by decide) (rs := [55, 56, 57]) (by decide) [] 77
  exact ⟨proof, c, h3⟩

/-- C79: proving with the wrong number of messages is refused, with no generators at all it panics. -/
example {g : Generators Z} (h : Generators.init env pk 3 = .ok g) (sig : Signature Z Z) :
    newPok env E sig g [.revealed 1] [1, 2, 3] = .err :=
  (C79_new_refuses env E sig g _ _).1 (by rw [length_eq h]; decide)
example : ∃ g, Generators.init env pk 0 = .ok g ∧ newPok env E ⟨1, 2, 3⟩ g [] [1, 2, 3] = .panic := by
  refine ⟨_, rfl, ?_⟩
  exact (C79_new_refuses env E _ _ _ _).2 rfl rfl 1 2 _ _ rfl rfl

/-- C81: the toy encodings have the sizes of BLS12-381 and are canonical; a context with one proof decodes. -/
example : BlindCtx.unmarshal env ⟨0, 0, []⟩ ((⟨7, 8, [9]⟩ : BlindCtx Z Z).marshal env) = .ok ⟨7, 8, [9]⟩ :=
  (C81_context env_enc ⟨0, 0, []⟩ ⟨7, 8, [9]⟩).2.1 (by decide)
example : PokProof.unmarshal env ⟨0, 0, 0, (0, 0), []⟩ ((⟨7, 8, 9, (1, 2), [3, 4, 5]⟩ : PokProof Z Z).marshal env) =
    .ok ⟨7, 8, 9, (1, 2), [3, 4, 5]⟩ :=
  (C81_proof env_enc _ _).2.1 (by decide)
example (data : List UInt8) (p : PokProof Z Z) (h : PokProof.unmarshal env ⟨0, 0, 0, (0, 0), []⟩ data = .ok p) :
    p.marshal env = data := ((C81_proof env_enc ⟨0, 0, 0, (0, 0), []⟩ p).2.2.2.2 env_canon data p h).1

/-- C80: a toy HMAC with two byte outputs; six bytes are three blocks, five bytes panic. -/
def mac : Drbg.Mac := fun k m => [UInt8.ofNat (beToNat k + 3 * beToNat m), UInt8.ofNat (beToNat m + 1)]

example : ∃ d', Drbg.read mac (Drbg.new mac 2 [1] [2] [3]) [0, 0, 0, 0, 0, 0] =
    .ok (6, Drbg.nistBlocks mac (Drbg.new mac 2 [1, 2] [] [3]).k 3 (Drbg.new mac 2 [1, 2] [] [3]).v, d') ∧ d'.count = 2 := by
  rw [Drbg.C80_seed_split mac 2 [1] [2] [3] [1, 2] [] [3] rfl]
  obtain ⟨d', h1, _, _, h4⟩ := Drbg.C80_read (size := 2) (hm := mac) (fun _ _ => rfl) (by decide)
    (Drbg.new mac 2 [1, 2] [] [3]) 3 (by decide) [0, 0, 0, 0, 0, 0] rfl
  exact ⟨d', h1, by rw [h4, (Drbg.C80_seed mac 2 _ _ _ ⟨[], [], 0⟩).2.1]⟩
example : Drbg.read mac (Drbg.new mac 2 [1] [2] [3]) [0, 0, 0, 0, 0] = .panic :=
  (Drbg.C80_read_other (size := 2) (fun _ _ => rfl) (by decide) _).2.1 _ (by decide)

end Verif.Bbs.Examples
