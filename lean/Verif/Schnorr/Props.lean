import Verif.Schnorr.Model
import Verif.Sharing.Codec
import Verif.Base.Tactics

/-! # Property C20 (Schnorr proofs of knowledge) -/

namespace Verif.Schnorr
open Verif.Sharing (Codec)
open Verif.Bytes

set_option linter.unusedSectionVars false

variable {F G : Type*} [Field F] [AddCommGroup G] [Module F G]

/-- Decoding accepts only canonical encodings of one fixed length (true of every scalar codec here). -/
structure Canonical (c : Codec F) : Prop where
  canon : ∀ b x, c.setBytes b = some x → c.toBytes x = b
  len : ∀ x y, (c.toBytes x).length = (c.toBytes y).length

/-- two different inputs with the same hash -/
def Collision (H : List UInt8 → List UInt8) : Prop := ∃ a b, a ≠ b ∧ H a = H b

/-- **C20** (completeness) whatever the witness, base point, session and hash: a produced proof is for
`x·B`, verifies in that session, and also passes the commit-and-reveal check. `Prove` fails only if
the hash does not decode to a scalar. -/
theorem C20_complete (P : Params F G) (hc : Canonical P.sc) (base : G) (sid : List UInt8) (x k : F) :
    (∀ pf, prove P base sid x k = some pf → pf.statement = x • base ∧ verify P pf base sid = true) ∧
    (∀ pf com, proveCommit P base sid x k = some (pf, com) →
      prove P base sid x k = some pf ∧ decommitVerify P pf com base sid = true) ∧
    (prove P base sid x k = none ↔
      P.sc.setBytes (P.H (transcript P sid base (x • base) (k • base))) = none) := by
  have h1 : ∀ pf, prove P base sid x k = some pf → pf.statement = x • base ∧ verify P pf base sid = true := by
    intro pf h
    unfold prove at h
    simp only at h
    cases hh : P.sc.setBytes (P.H (transcript P sid base (x • base) (k • base))) with
    | none => rw [hh] at h; cases h
    | some c =>
      rw [hh] at h
      cases h
      refine ⟨rfl, ?_⟩
      unfold verify
      simp only [decide_eq_true_eq]
      have : (c * x + k) • base + -c • x • base = k • base := by module
      rw [this]
      exact hc.canon _ _ hh
  refine ⟨h1, ?_, ?_⟩
  · intro pf com h
    unfold proveCommit at h
    cases hp : prove P base sid x k with
    | none => rw [hp] at h; cases h
    | some pf' =>
      rw [hp] at h
      simp only [Option.some.injEq, Prod.mk.injEq] at h
      obtain ⟨rfl, rfl⟩ := h
      refine ⟨rfl, ?_⟩
      unfold decommitVerify
      rw [if_pos rfl]
      exact (h1 _ hp).2
  · unfold prove
    simp only
    cases P.sc.setBytes (P.H (transcript P sid base (x • base) (k • base))) <;> simp

/-- **C20** (special soundness) two accepting transcripts – possibly under two different hash
functions, as when the random oracle is reprogrammed – for one statement, with the same first message
and different challenges, yield the witness by an explicit formula. -/
theorem C20_special_soundness (P P' : Params F G) (base : G) (sid sid' : List UInt8)
    (pf pf' : Proof F G) (_h : verify P pf base sid = true) (_h' : verify P' pf' base sid' = true)
    (hst : pf.statement = pf'.statement)
    (hcommit : pf.s • base + (-pf.c) • pf.statement = pf'.s • base + (-pf'.c) • pf'.statement)
    (hne : pf.c ≠ pf'.c) :
    pf.statement = ((pf.s - pf'.s) / (pf.c - pf'.c)) • base := by
  rw [← hst] at hcommit
  have h1 : (pf.c - pf'.c) • pf.statement = (pf.s - pf'.s) • base := by
    have : pf.s • base - pf'.s • base = pf.c • pf.statement - pf'.c • pf.statement := by
      rw [neg_smul, neg_smul, ← sub_eq_add_neg, ← sub_eq_add_neg, sub_eq_sub_iff_add_eq_add] at hcommit
      rw [sub_eq_sub_iff_add_eq_add, hcommit]
      abel
    rw [sub_smul, sub_smul, this]
  have hd : pf.c - pf'.c ≠ 0 := sub_ne_zero.2 hne
  rw [div_eq_inv_mul, ← smul_smul, ← h1, smul_smul, inv_mul_cancel₀ hd, one_smul]

/-- (soundness form, corollary) if the statement is not a multiple of the base point (so no witness
exists), then for each first message at most one challenge can be answered. -/
theorem false_statement_one_challenge (base X R : G) (hX : ∀ x : F, X ≠ x • base) (c s c' s' : F)
    (h : s • base + (-c) • X = R) (h' : s' • base + (-c') • X = R) : c = c' := by
  by_contra hne
  have h1 : (c - c') • X = (s - s') • base := by
    have e : s • base + (-c) • X = s' • base + (-c') • X := h.trans h'.symm
    have : s • base - s' • base = c • X - c' • X := by
      rw [neg_smul, neg_smul, ← sub_eq_add_neg, ← sub_eq_add_neg, sub_eq_sub_iff_add_eq_add] at e
      rw [sub_eq_sub_iff_add_eq_add, e]; abel
    rw [sub_smul, sub_smul, this]
  refine hX ((s - s') / (c - c')) ?_
  rw [div_eq_inv_mul, ← smul_smul, ← h1, smul_smul, inv_mul_cancel₀ (sub_ne_zero.2 hne), one_smul]

theorem transcript_inj (P : Params F G) {sid sid' : List UInt8} {b b' X X' R R' : G}
    (h : transcript P sid b X R = transcript P sid' b' X' R') :
    sid = sid' ∧ b = b' ∧ X = X' ∧ R = R' := by
  unfold transcript at h
  have h1 := List.append_inj' h (by simp [P.pc.len_enc])
  have h2 := List.append_inj' h1.1 (by simp [P.pc.len_enc])
  have h3 := List.append_inj' h2.1 (by simp [P.pc.len_enc])
  exact ⟨h3.1, P.pc.inj h3.2, P.pc.inj h2.2, P.pc.inj h1.2⟩

/-- **C20** (session, base point and statement binding) one pair `(c,s)` accepted in two different
contexts exhibits a hash collision. -/
theorem C20_session_binding (P : Params F G) (pf pf' : Proof F G) (base base' : G)
    (sid sid' : List UInt8) (hcs : pf.c = pf'.c)
    (h : verify P pf base sid = true) (h' : verify P pf' base' sid' = true)
    (hne : sid ≠ sid' ∨ base ≠ base' ∨ pf.statement ≠ pf'.statement) : Collision P.H := by
  unfold verify at h h'
  simp only [decide_eq_true_eq] at h h'
  refine ⟨_, _, ?_, h.symm.trans ((by rw [hcs]) : _ = P.sc.toBytes pf'.c) |>.trans h'⟩
  intro heq
  obtain ⟨a, b, c, -⟩ := transcript_inj P heq
  rcases hne with h1 | h1 | h1 <;> contradiction

/-- **C20** (commitment binding) a reveal is accepted only if it hashes to the commitment; two accepted
reveals for one commitment, base point and session are the same proof unless the hash collides. -/
theorem C20_commit_binding (P : Params F G) (hc : Canonical P.sc) (pf pf' : Proof F G)
    (com : List UInt8) (base : G) (sid : List UInt8)
    (h : decommitVerify P pf com base sid = true) (h' : decommitVerify P pf' com base sid = true) :
    commitment P pf = com ∧ verify P pf base sid = true ∧ (pf = pf' ∨ Collision P.H) := by
  unfold decommitVerify at h h'
  split at h
  · split at h'
    · rename_i e1 e2
      refine ⟨e1, h, ?_⟩
      by_cases hd : P.sc.toBytes pf.c ++ P.sc.toBytes pf.s = P.sc.toBytes pf'.c ++ P.sc.toBytes pf'.s
      · have hcc := List.append_inj hd (hc.len _ _)
        have inj : ∀ a b, P.sc.toBytes a = P.sc.toBytes b → a = b := by
          intro a b hab
          have := P.sc.rt a
          rw [hab, P.sc.rt] at this
          exact (Option.some.inj this).symm
        have e3 := inj _ _ hcc.1
        have e4 := inj _ _ hcc.2
        by_cases hst : pf.statement = pf'.statement
        · left; cases pf; cases pf'; simp_all
        · right
          exact C20_session_binding P pf pf' base base sid sid e3 h h' (Or.inr (Or.inr hst))
      · right
        exact ⟨_, _, hd, e1.trans e2.symm⟩
    · cases h'
  · cases h

/-! ## Non-vacuity: `ZMod 257`, group `ZMod 257`, a toy hash -/

local instance fact257 : Fact (Nat.Prime 257) := ⟨by norm_num⟩

/-- the two-byte big-endian codec of `ZMod 257` is canonical -/
theorem canonical_be (p len : Nat) [Fact p.Prime] (h : p ≤ 256 ^ len) :
    Canonical (F := ZMod p) (Verif.Sharing.beCodec p len h) where
  canon b x hb := by
    simp only [Verif.Sharing.beCodec] at hb ⊢
    split at hb
    · rename_i hh
      cases hb
      rw [ZMod.val_natCast, Nat.mod_eq_of_lt hh.2, ← hh.1, natToBEfix_beToNat]
    · cases hb
  len x y := by simp [Verif.Sharing.beCodec]

/-- point encoding of the toy group -/
def pc257 : PointCodec (ZMod 257) where
  enc x := natToBEfix 2 x.val
  len := 2
  len_enc _ := by simp
  inj x y h := by
    have hx := ZMod.val_lt x
    have hy := ZMod.val_lt y
    have := congrArg beToNat h
    rw [beToNat_natToBEfix, beToNat_natToBEfix, Nat.mod_eq_of_lt (by omega),
      Nat.mod_eq_of_lt (by omega)] at this
    exact ZMod.val_injective _ this

def toyParams : Params (ZMod 257) (ZMod 257) :=
  ⟨Verif.Sharing.beCodec 257 2 (by norm_num), pc257, fun l => [0, l.foldl (· * 3 + ·) 1]⟩

example : Canonical toyParams.sc := canonical_be 257 2 (by norm_num)
example : (prove toyParams 5 [1, 2, 3] 7 11).map
    (fun pf => (pf.statement, verify toyParams pf 5 [1, 2, 3], verify toyParams pf 5 [1, 2, 4],
      verify toyParams { pf with s := pf.s + 1 } 5 [1, 2, 3]))
    = some (35, true, false, false) := by decide +kernel

end Verif.Schnorr
