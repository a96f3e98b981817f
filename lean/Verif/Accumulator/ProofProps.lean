import Verif.Accumulator.MultiProps
import Verif.Base.Bytes

/-! C35 (zero-knowledge membership proofs) and C54 (serialised witnesses and deltas). -/

set_option linter.unusedSectionVars false

namespace Verif.Accumulator

universe u
variable {F G1 G2 GT : Type u} [Field F] [DecidableEq F] [AddCommGroup G1] [Module F G1]
  [DecidableEq G1] [AddCommGroup G2] [Module F G2] [DecidableEq G2] [CommGroup GT] [DecidableEq GT]

/-- The commitments the prover hashed, arranged as the verifier's final message. -/
def Committing.asFinal (m : Committing F G1 GT) : Final G1 GT :=
  ⟨m.accumulator, m.eC, m.tSigma, m.tRho, m.capRE, m.capRSigma, m.capRRho, m.capRDeltaSigma,
    m.capRDeltaRho⟩

theorem RE_collapse (E : Pairing F G1 G2 GT) (α : F) (A B : G1) :
    E.e A E.g2 * E.e B (getPublicKey E α) = E.e (A + α • B) E.g2 := by
  rw [getPublicKey, ← E.smul_swap, ← E.add_left]

theorem final_ext {a b : Final G1 GT} (h1 : a.accumulator = b.accumulator) (h2 : a.eC = b.eC)
    (h3 : a.tSigma = b.tSigma) (h4 : a.tRho = b.tRho) (h5 : a.capRE = b.capRE)
    (h6 : a.capRSigma = b.capRSigma) (h7 : a.capRRho = b.capRRho)
    (h8 : a.capRDeltaSigma = b.capRDeltaSigma) (h9 : a.capRDeltaRho = b.capRDeltaRho) : a = b := by
  cases a; cases b; simp_all

/-- **C35.** The verifier's recomputed values equal the prover's commitments for the challenge `c`
exactly when `c·((y+α)C − V) = 0`: for every witness, every randomness, every parameters. -/
theorem C35_finalize_iff (E : Pairing F G1 G2 GT) (w : Witness F G1) (V : G1) (pp : ProofParams G1)
    (α : F) (r : Rand F) (c : F) :
    finalize E ((newCommitting E w V pp (getPublicKey E α) r).genProof c) V pp (getPublicKey E α) c
      = (newCommitting E w V pp (getPublicKey E α) r).asFinal ↔
    c • ((w.y + α) • w.c - V) = 0 := by
  have hRE : (finalize E ((newCommitting E w V pp (getPublicKey E α) r).genProof c) V pp
      (getPublicKey E α) c).capRE = (newCommitting E w V pp (getPublicKey E α) r).capRE ↔
      c • ((w.y + α) • w.c - V) = 0 := by
    simp only [finalize, newCommitting, Committing.genProof, schnorr]
    rw [RE_collapse, ← E.add_left, RE_collapse, E.e_g2_inj, ← sub_eq_zero]
    have : ∀ A B : G1, A = B → (A = 0 ↔ B = 0) := fun A B h => by rw [h]
    apply this
    module
  constructor
  · intro h
    rw [← hRE, h]; rfl
  · intro h
    refine final_ext rfl rfl rfl rfl (hRE.mpr h) ?_ ?_ ?_ ?_
    · simp only [finalize, newCommitting, Committing.genProof, Committing.asFinal, schnorr]; module
    · simp only [finalize, newCommitting, Committing.genProof, Committing.asFinal, schnorr]; module
    · simp only [finalize, newCommitting, Committing.genProof, Committing.asFinal, schnorr]; module
    · simp only [finalize, newCommitting, Committing.genProof, Committing.asFinal, schnorr]; module

/-- **C35 (completeness).** With a verifying witness, the proof finalizes to the very commitments the
prover hashed, hence the verifier's `GetChallenge` returns the prover's challenge. -/
theorem C35_complete (E : Pairing F G1 G2 GT) (H : HashEnv F G1 GT) (w : Witness F G1) (V : G1)
    (pp : ProofParams G1) (α : F) (r : Rand F)
    (hw : verify E w (getPublicKey E α) V = true) :
    (finalize E ((newCommitting E w V pp (getPublicKey E α) r).genProof
      (H.hash ((newCommitting E w V pp (getPublicKey E α) r).challengeBytes H))) V pp
      (getPublicKey E α)
      (H.hash ((newCommitting E w V pp (getPublicKey E α) r).challengeBytes H))).getChallenge H
    = H.hash ((newCommitting E w V pp (getPublicKey E α) r).challengeBytes H) := by
  obtain ⟨-, -, -, -, h⟩ := (C33_verify_iff E w α V).mp hw
  rw [(C35_finalize_iff E w V pp α r _).mpr (by rw [h, sub_self, smul_zero])]
  rfl

theorem enc_append_inj {X : Type u} (K : PointCodec X) {a b : X} {s t : List UInt8}
    (h : K.enc a ++ s = K.enc b ++ t) : a = b ∧ s = t := by
  obtain ⟨h1, h2⟩ := List.append_inj h (by rw [K.len_enc, K.len_enc])
  exact ⟨K.inj h1, h2⟩

/-- **C35 (binding).** The hashed string determines all nine hashed values. -/
theorem C35_bytes_binding (H : HashEnv F G1 GT) (m m' : Final G1 GT) (h : m.bytes H = m'.bytes H) :
    m = m' := by
  simp only [Final.bytes, List.append_assoc] at h
  obtain ⟨h1, h⟩ := enc_append_inj _ h
  obtain ⟨h2, h⟩ := enc_append_inj _ h
  obtain ⟨h3, h⟩ := enc_append_inj _ h
  obtain ⟨h4, h⟩ := enc_append_inj _ h
  obtain ⟨h5, h⟩ := enc_append_inj _ h
  obtain ⟨h6, h⟩ := enc_append_inj _ h
  obtain ⟨h7, h⟩ := enc_append_inj _ h
  obtain ⟨h8, h⟩ := enc_append_inj _ h
  exact final_ext h1 h2 h3 h4 h5 h6 h7 h8 (H.pt.inj h)

/-- **C35.** Following the prover's algorithm with an *invalid* witness never convinces the verifier:
if the challenges nevertheless agree (and the challenge is not zero), two different strings have the
same hash. -/
theorem C35_invalid_witness_rejected (E : Pairing F G1 G2 GT) (H : HashEnv F G1 GT)
    (w : Witness F G1) (V : G1) (pp : ProofParams G1) (α : F) (r : Rand F)
    (hw : (w.y + α) • w.c ≠ V)
    (hc : H.hash ((newCommitting E w V pp (getPublicKey E α) r).challengeBytes H) ≠ 0)
    (hacc : (finalize E ((newCommitting E w V pp (getPublicKey E α) r).genProof
      (H.hash ((newCommitting E w V pp (getPublicKey E α) r).challengeBytes H))) V pp
      (getPublicKey E α)
      (H.hash ((newCommitting E w V pp (getPublicKey E α) r).challengeBytes H))).getChallenge H
      = H.hash ((newCommitting E w V pp (getPublicKey E α) r).challengeBytes H)) :
    ∃ b b' : List UInt8, b ≠ b' ∧ H.hash b = H.hash b' := by
  refine ⟨_, _, ?_, hacc⟩
  intro hb
  have hb' := C35_bytes_binding H _ (newCommitting E w V pp (getPublicKey E α) r).asFinal hb
  rw [C35_finalize_iff, smul_eq_zero, sub_eq_zero] at hb'
  exact hb'.elim hc hw

/-- **C35 (special soundness).** Two proofs with the same `E_C`, `T_σ`, `T_ρ` that finalize, under two
different challenges, to the same commitments yield a valid witness, by an explicit formula. -/
theorem C35_extract (E : Pairing F G1 G2 GT) (V : G1) (pp : ProofParams G1) (α : F)
    (p p' : MembershipProof F G1) (c c' : F) (hc : c ≠ c') (hx : pp.x ≠ 0) (hy : pp.y ≠ 0)
    (h : finalize E p V pp (getPublicKey E α) c = finalize E p' V pp (getPublicKey E α) c') :
    let y := (p.sY - p'.sY) / (c - c')
    let C := p.eC - (((p.sSigma - p'.sSigma) + (p.sRho - p'.sRho)) / (c - c')) • pp.z
    (y + α) • C = V := by
  have hd : c - c' ≠ 0 := sub_ne_zero.mpr hc
  simp only [finalize, Final.mk.injEq, true_and] at h
  obtain ⟨h1, h2, h3, h4, h5, h6, h7, h8⟩ := h
  rw [← h1] at h4
  rw [← h2] at h5 h7
  rw [← h3] at h6 h8
  have t1 : p.tSigma = ((p.sSigma - p'.sSigma) / (c - c')) • pp.x := by
    have e : (c - c') • p.tSigma = (p.sSigma - p'.sSigma) • pp.x := by
      rw [← sub_eq_zero] at h5 ⊢
      rw [← neg_eq_zero, ← h5]; module
    rw [div_eq_inv_mul, ← smul_smul, ← e, smul_smul, inv_mul_cancel₀ hd, one_smul]
  have t2 : p.tRho = ((p.sRho - p'.sRho) / (c - c')) • pp.y := by
    have e : (c - c') • p.tRho = (p.sRho - p'.sRho) • pp.y := by
      rw [← sub_eq_zero] at h6 ⊢
      rw [← neg_eq_zero, ← h6]; module
    rw [div_eq_inv_mul, ← smul_smul, ← e, smul_smul, inv_mul_cancel₀ hd, one_smul]
  have t3 : (p.sY - p'.sY) * ((p.sSigma - p'.sSigma) / (c - c')) = p.sDeltaSigma - p'.sDeltaSigma := by
    rw [t1] at h7
    have e : ((p.sY - p'.sY) * ((p.sSigma - p'.sSigma) / (c - c'))
        - (p.sDeltaSigma - p'.sDeltaSigma)) • pp.x = 0 := by
      rw [← sub_eq_zero] at h7
      rw [← h7]; module
    exact sub_eq_zero.mp ((smul_eq_zero.mp e).resolve_right hx)
  have t4 : (p.sY - p'.sY) * ((p.sRho - p'.sRho) / (c - c')) = p.sDeltaRho - p'.sDeltaRho := by
    rw [t2] at h8
    have e : ((p.sY - p'.sY) * ((p.sRho - p'.sRho) / (c - c'))
        - (p.sDeltaRho - p'.sDeltaRho)) • pp.y = 0 := by
      rw [← sub_eq_zero] at h8
      rw [← h8]; module
    exact sub_eq_zero.mp ((smul_eq_zero.mp e).resolve_right hy)
  rw [RE_collapse, RE_collapse, E.e_g2_inj, ← sub_eq_zero] at h4
  intro y C
  have key : (c - c') • ((y + α) • C - V) = 0 := by
    rw [← h4]
    have e1 : (c - c') * y = p.sY - p'.sY := by simp only [y]; field_simp
    have e2 : (c - c') * (((p.sSigma - p'.sSigma) + (p.sRho - p'.sRho)) / (c - c')) =
        (p.sSigma - p'.sSigma) + (p.sRho - p'.sRho) := by field_simp
    have e3 : ((c - c') * y) * (((p.sSigma - p'.sSigma) + (p.sRho - p'.sRho)) / (c - c')) =
        (p.sDeltaSigma - p'.sDeltaSigma) + (p.sDeltaRho - p'.sDeltaRho) := by
      rw [e1, ← t3, ← t4]; ring
    have expand : (c - c') • ((y + α) • C - V) =
        ((c - c') * y) • p.eC + (α * (c - c')) • p.eC
        - (((c - c') * y) * (((p.sSigma - p'.sSigma) + (p.sRho - p'.sRho)) / (c - c'))) • pp.z
        - (α * ((c - c') * (((p.sSigma - p'.sSigma) + (p.sRho - p'.sRho)) / (c - c')))) • pp.z
        - (c - c') • V := by
      simp only [C]; module
    rw [expand, e3, e2, e1]
    module
  exact sub_eq_zero.mp ((smul_eq_zero.mp key).resolve_left hd)

/-- **C35.** The three generators are hashes of three pairwise different strings that contain the
entropy and the public key. -/
theorem C35_params_inputs (hashG1 : List UInt8 → G1) (entropy pk : List UInt8) :
    ∃ mx my mz : List UInt8, newProofParams hashG1 entropy pk = ⟨hashG1 mx, hashG1 my, hashG1 mz⟩ ∧
      mx ≠ my ∧ my ≠ mz ∧ mx ≠ mz ∧
      mx.drop 32 = entropy ++ pk ∧ my.drop 32 = entropy ++ pk ∧ mz.drop 32 = entropy ++ pk := by
  refine ⟨0xFD :: (List.replicate 31 0xFF ++ (entropy ++ pk)),
    0xFE :: (List.replicate 31 0xFF ++ (entropy ++ pk)),
    0xFF :: (List.replicate 31 0xFF ++ (entropy ++ pk)), ?_, ?_, ?_, ?_, rfl, rfl, rfl⟩
  · simp only [newProofParams, List.append_assoc]; rfl
  all_goals
    intro h
    exact absurd (List.cons.inj h).1 (by decide)

/-! ### C54: serialisation -/

/-- The codec assumptions: fixed lengths and decoding inverts encoding
(core/curves/curve.go:237-259 `Point`, 33-95 `Scalar`). -/
structure CurveCodec.Lawful (K : CurveCodec F G1) : Prop where
  ptl : ∀ P, (K.ptEnc P).length = K.ptLen
  scl : ∀ s, (K.scEnc s).length = K.scLen
  ptr : ∀ P, K.ptDec (K.ptEnc P) = some P
  scr : ∀ s, K.scDec (K.scEnc s) = some s

/-- **C54.** A serialised witness (or delta) parses back to itself. -/
theorem C54_roundtrip (K : CurveCodec F G1) (hK : K.Lawful) (c : G1) (y : F) :
    parsePayload K (payload K c y) = .ok (c, y) := by
  rw [parsePayload, payload, if_neg (by rw [List.length_append, hK.ptl, hK.scl]; simp),
    ← hK.ptl c, List.take_left, List.drop_left, hK.ptr, hK.scr]
  rfl

/-- **C54.** Parsing accepts exactly the strings of the right length whose two parts decode; with
injective decoders there is one accepted string per value. -/
theorem C54_canonical (K : CurveCodec F G1) (v v' : List UInt8) (r : G1 × F)
    (hp : ∀ a b P, K.ptDec a = some P → K.ptDec b = some P → a = b)
    (hs : ∀ a b s, K.scDec a = some s → K.scDec b = some s → a = b)
    (h : parsePayload K v = .ok r) (h' : parsePayload K v' = .ok r) :
    v = v' ∧ v.length = K.ptLen + K.scLen := by
  have key : ∀ v, parsePayload K v = .ok r → v.length = K.ptLen + K.scLen ∧
      K.ptDec (v.take K.ptLen) = some r.1 ∧ K.scDec (v.drop K.ptLen) = some r.2 := by
    intro v h
    rw [parsePayload] at h
    split at h
    · cases h
    · rename_i hl
      rcases h1 : K.ptDec (v.take K.ptLen) with _ | P
      · rw [h1] at h; cases h
      rcases h2 : K.scDec (v.drop K.ptLen) with _ | s
      · rw [h1, h2] at h; cases h
      rw [h1, h2] at h
      simp only [Res.ofOption, Res.bind_ok, Res.ok.injEq] at h
      subst h
      exact ⟨not_not.mp hl, rfl, rfl⟩
  obtain ⟨a1, a2, a3⟩ := key v h
  obtain ⟨b1, b2, b3⟩ := key v' h'
  refine ⟨?_, a1⟩
  rw [← List.take_append_drop K.ptLen v, ← List.take_append_drop K.ptLen v', hp _ _ _ a2 b2,
    hs _ _ _ a3 b3]

/-! ### concrete cases -/

section Examples

local instance fact257 : Fact (Nat.Prime 257) := ⟨by norm_num⟩

abbrev K := ZMod 257
abbrev toyE : Pairing K K K (Multiplicative K) := toyPairing K

instance : DecidableEq (Multiplicative K) := inferInstanceAs (DecidableEq K)

/-- a history with a failing call (removal of `-α = 252`) in the middle; α = 5 -/
example : exec (5 : K) (1 : K) [.add 7, .remove 252, .update [3, 4] [7], .addElements [9], .remove 3] =
    ((9 : K) * 14, [.add 7, .update [3, 4] [7], .addElements [9], .remove 3]) := by decide +kernel

/-- a witness for 7 survives two epochs, one of them with several deletions, one without additions -/
example : (do
    let V0 := withElements toyE (5 : K) [7, 8, 9]
    let w ← newWitness (7 : K) V0 5
    let (V1, c1) ← update (5 : K) V0 [1, 2, 3] [8]
    let (V2, c2) ← update (5 : K) V1 [] [9, 2]
    let w' ← multiBatchUpdate w [some [1, 2, 3], some []] [some [8], some [9, 2]] [c1, c2]
    let w1 ← batchUpdate w (some [1, 2, 3]) (some [8]) c1
    let w2 ← batchUpdate w1 (some []) (some [9, 2]) c2
    Res.ok (verify toyE w (getPublicKey toyE 5) V0, verify toyE w (getPublicKey toyE 5) V2,
      verify toyE w' (getPublicKey toyE 5) V2, decide (w' = w2), c1.length)) =
    .ok (true, false, true, true, 3) := by decide +kernel

/-- a proof with non-trivial randomness finalizes to the commitments; with a wrong witness it does not -/
example :
    let pp : ProofParams K := ⟨3, 4, 11⟩
    let r : Rand K := ⟨21, 22, 23, 24, 25, 26, 27⟩
    let V := withElements toyE (5 : K) [7, 8, 9]
    let m := newCommitting toyE ⟨13 * 14, 7⟩ V pp (getPublicKey toyE 5) r
    let m' := newCommitting toyE ⟨13 * 14 + 1, 7⟩ V pp (getPublicKey toyE 5) r
    finalize toyE (m.genProof 99) V pp (getPublicKey toyE 5) 99 = m.asFinal ∧
    finalize toyE (m'.genProof 99) V pp (getPublicKey toyE 5) 99 ≠ m'.asFinal := by decide +kernel

/-- the hypotheses of the extraction theorem are met by two honest answers to different challenges -/
example :
    let pp : ProofParams K := ⟨3, 4, 11⟩
    let r : Rand K := ⟨21, 22, 23, 24, 25, 26, 27⟩
    let V := withElements toyE (5 : K) [7, 8, 9]
    let m := newCommitting toyE ⟨13 * 14, 7⟩ V pp (getPublicKey toyE 5) r
    finalize toyE (m.genProof 99) V pp (getPublicKey toyE 5) 99 =
      finalize toyE (m.genProof 100) V pp (getPublicKey toyE 5) 100 := by decide +kernel

/-- a lawful codec -/
example : (⟨2, 2, fun x : K => Bytes.natToBEfix 2 x.val, fun b => some (Bytes.beToNat b : K),
    fun x : K => Bytes.natToBEfix 2 x.val, fun b => some (Bytes.beToNat b : K)⟩ : CurveCodec K K).Lawful := by
  have h : ∀ x : K, x.val < 256 ^ 2 := fun x => lt_of_lt_of_le (ZMod.val_lt x) (by norm_num)
  constructor <;> intro x
  · exact Bytes.length_natToBEfix _ _
  · exact Bytes.length_natToBEfix _ _
  · simp only [Bytes.beToNat_natToBEfix, Nat.mod_eq_of_lt (h x), ZMod.natCast_zmod_val]
  · simp only [Bytes.beToNat_natToBEfix, Nat.mod_eq_of_lt (h x), ZMod.natCast_zmod_val]

end Examples

end Verif.Accumulator
