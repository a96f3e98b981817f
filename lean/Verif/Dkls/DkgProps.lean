import Verif.Dkls.Dkg
import Verif.OT.SimplestProps
import Verif.Base.Tactics

/-! # Properties C28 (two-party key generation) and C29 (key refresh) -/

set_option linter.unusedSectionVars false

namespace Verif.Dkls
open Verif Verif.OT

variable {F G : Type} [Field F] [DecidableEq F] [AddCommGroup G] [Module F G]

/-! ### specification -/

/-- The outputs of the two parties belong together: one public key, equal to the product of the two
secret shares times the generator, and 256 correlated seed transfers. -/
structure Matching (E : Env F G) (a : AliceOutput F G) (b : BobOutput F G) : Prop where
  same : a.publicKey = b.publicKey
  key : a.publicKey = (a.secretKeyShare * b.secretKeyShare) • E.g
  seeds : Correlated 256 b.seedOt a.seedOt

/-! ### the seed OT inside -/

theorem ot_split (E : Env F G) (hc : Schnorr.Canonical E.sc) (sid : Digest)
    (rnd : Nat → UInt8) (b k : F) (a : Nat → F)
    (hk : Schnorr.prove E.schnorr E.g (bytesOf (E.X (startTranscript sid) "sender schnorr proof")) b k ≠ none)
    (hA : ∀ i < 256, maskedPoint E (bitOf ((List.range 32).map rnd) i) (a i) (b • E.g) ≠ 0) :
    ∃ r0 s0 s1 pf r2 masked s3 ch r4 resp op,
      newReceiver (G := G) 256 sid rnd = .ok r0 ∧ newSender (F := F) (G := G) 256 sid = .ok s0 ∧
      s0.round1 E b k = .ok (s1, pf) ∧ r0.round2 E pf a = .ok (r2, masked) ∧ s1.round3 E masked = .ok (s3, ch) ∧
      r2.round4 E ch = .ok (r4, resp) ∧ s3.round5 E resp = .ok op ∧ r4.round6 E op = .ok () ∧
      Correlated 256 s3.keys r4.out ∧ r4.out.packed = (List.range 32).map rnd := by
  obtain ⟨s, r, hrun, hcor, hp⟩ := C24_honest_run E hc 32 sid rnd b k a hk hA
  unfold OT.run at hrun
  simp only [Res.bind_eq_ok] at hrun
  obtain ⟨r0, h0, s0, h1, ⟨s1, pf⟩, h2, ⟨r2, masked⟩, h3, ⟨s3, ch⟩, h4, ⟨r4, resp⟩, h5, op, h6, ⟨⟩, h7, h8⟩ := hrun
  cases h8
  exact ⟨r0, s0, s1, pf, r2, masked, s3, ch, r4, resp, op, h0, h1, h2, h3, h4, h5, h6, h7, hcor, hp⟩

namespace Dkg

/-- transcript after both seeds -/
def seeds (r : Rand F) : Transcript :=
  [.append "Coinbase_DKLs_DKG" [], .append "session_id_bob" (bytesOf r.bobSeed),
   .append "session_id_alice" (bytesOf r.aliceSeed)]
/-- session id of the seed OT -/
def sidOt (E : Env F G) (r : Rand F) : Digest := E.X (seeds r) "salt for simplest OT"
/-- salts of the two Schnorr proofs -/
def saltA (E : Env F G) (r : Rand F) : Digest :=
  E.X (seeds r ++ [.extract "salt for simplest OT"]) "salt for alice schnorr"
def saltB (E : Env F G) (r : Rand F) : Digest :=
  E.X (seeds r ++ [.extract "salt for simplest OT", .extract "salt for alice schnorr"]) "salt for bob schnorr"

/-- The events (of negligible probability) an honest run can stumble over: a Schnorr challenge hash that
is not a scalar encoding, or a masked OT point that is the identity. -/
structure Good (E : Env F G) (r : Rand F) : Prop where
  proofA : Schnorr.prove E.schnorr E.g (bytesOf (saltA E r)) r.skA r.kA ≠ none
  proofB : Schnorr.prove E.schnorr E.g (bytesOf (saltB E r)) r.skB r.kB ≠ none
  proofOt : Schnorr.prove E.schnorr E.g
    (bytesOf (E.X (startTranscript (sidOt E r)) "sender schnorr proof")) r.otSk r.otK ≠ none
  masked : ∀ i < 256, maskedPoint E (bitOf ((List.range 32).map r.choices) i) (r.pads i) (r.otSk • E.g) ≠ 0

theorem aliceRound4_eq (E : Env F G) (a : Alice F G) (pf : Schnorr.Proof F G) :
    aliceRound4 E a pf = if !Schnorr.verify E.schnorr pf E.g (bytesOf (E.X a.transcript "salt for bob schnorr")) then .err
      else .ok ({ a with publicKey := a.secretKeyShare • pf.statement,
                         transcript := a.transcript ++ [.extract "salt for bob schnorr"] }, a.proof) := rfl

/-- **C28** For all random values: an honest run of key generation (all ten messages delivered) finishes on
both sides; both parties hold the same public key, it is `skA·skB·G` for the two secret shares they drew,
and their seed OT outputs are correlated as the signing protocol needs. -/
theorem C28_honest (E : Env F G) (hc : Schnorr.Canonical E.sc) (r : Rand F) (hg : Good E r) :
    ∃ a b, run E r = .ok (a, b) ∧ Matching E a b ∧ a.secretKeyShare = r.skA ∧ b.secretKeyShare = r.skB ∧
      a.seedOt.packed = (List.range 32).map r.choices := by
  obtain ⟨r0, s0, s1, pf, r2, masked, s3, ch, r4, resp, op, h0, h1, h2, h3, h4, h5, h6, h7, hcor, hp⟩ :=
    ot_split E hc (sidOt E r) r.choices r.otSk r.otK r.pads hg.proofOt hg.masked
  obtain ⟨pfA, hpfA⟩ := Option.ne_none_iff_exists'.1 hg.proofA
  obtain ⟨pfB, hpfB⟩ := Option.ne_none_iff_exists'.1 hg.proofB
  obtain ⟨hstA, hverA⟩ := (Schnorr.C20_complete E.schnorr hc E.g _ r.skA r.kA).1 pfA hpfA
  obtain ⟨hstB, hverB⟩ := (Schnorr.C20_complete E.schnorr hc E.g _ r.skB r.kB).1 pfB hpfB
  have ha2 : aliceRound2 E r.bobSeed r.aliceSeed r.choices r.skA r.kA = .ok
      (⟨pfA, r0, r.skA, 0, seeds r ++ [.extract "salt for simplest OT", .extract "salt for alice schnorr"]⟩,
       ⟨r.aliceSeed, Schnorr.commitment E.schnorr pfA⟩) := by
    unfold aliceRound2
    simp only [OT.Env.extract]
    rw [show newTranscript ++ [Ev.append "session_id_bob" (bytesOf r.bobSeed),
      Ev.append "session_id_alice" (bytesOf r.aliceSeed)] = seeds r from rfl]
    rw [show E.X (seeds r) "salt for simplest OT" = sidOt E r from rfl, show kappa = 256 from rfl, h0, Res.bind_ok]
    rw [show E.X (seeds r ++ [Ev.extract "salt for simplest OT"]) "salt for alice schnorr" = saltA E r from rfl]
    unfold Schnorr.proveCommit
    rw [hpfA]
    simp
  have hb3 : bobRound3 E (bobRound1 r.bobSeed).1 ⟨r.aliceSeed, Schnorr.commitment E.schnorr pfA⟩ r.skB r.kB = .ok
      (⟨s0, r.skB, 0, Schnorr.commitment E.schnorr pfA, saltA E r,
        seeds r ++ [.extract "salt for simplest OT", .extract "salt for alice schnorr",
          .extract "salt for bob schnorr"]⟩, pfB) := by
    unfold bobRound3 bobRound1
    simp only [OT.Env.extract]
    rw [show newTranscript ++ [Ev.append "session_id_bob" (bytesOf r.bobSeed)] ++
      [Ev.append "session_id_alice" (bytesOf r.aliceSeed)] = seeds r from rfl]
    rw [show E.X (seeds r) "salt for simplest OT" = sidOt E r from rfl, show kappa = 256 from rfl, h1, Res.bind_ok]
    have e : E.X (seeds r ++ [Ev.extract "salt for simplest OT"] ++ [Ev.extract "salt for alice schnorr"])
      "salt for bob schnorr" = saltB E r := by rw [List.append_assoc]; rfl
    rw [e, hpfB]
    simp [saltA]
  have ha4 : aliceRound4 E ⟨pfA, r0, r.skA, 0,
      seeds r ++ [.extract "salt for simplest OT", .extract "salt for alice schnorr"]⟩ pfB = .ok
      (⟨pfA, r0, r.skA, r.skA • r.skB • E.g, seeds r ++ [.extract "salt for simplest OT",
        .extract "salt for alice schnorr"] ++ [.extract "salt for bob schnorr"]⟩, pfA) := by
    rw [aliceRound4_eq]
    rw [show E.X (seeds r ++ [Ev.extract "salt for simplest OT", Ev.extract "salt for alice schnorr"])
      "salt for bob schnorr" = saltB E r from rfl, hverB, hstB]
    simp
  have hb5 : ∀ t, bobRound5 E ⟨s0, r.skB, 0, Schnorr.commitment E.schnorr pfA, saltA E r, t⟩ pfA r.otSk r.otK = .ok
      (⟨s1, r.skB, r.skB • r.skA • E.g, Schnorr.commitment E.schnorr pfA, saltA E r, t⟩, pf) := by
    intro t
    unfold bobRound5 Schnorr.decommitVerify
    simp only [if_true, hverA, Bool.not_true, Bool.false_eq_true, if_false]
    rw [h2, Res.bind_ok, hstA]
  refine ⟨⟨r.skA • r.skB • E.g, r.skA, r4.out⟩, ⟨r.skB • r.skA • E.g, r.skB, s3.keys⟩, ?_, ⟨?_, ?_, hcor⟩, rfl, rfl, hp⟩
  · unfold run
    have : bobRound1 r.bobSeed = ((bobRound1 r.bobSeed).1, r.bobSeed) := rfl
    rw [this]
    simp only
    rw [ha2, Res.bind_ok, hb3, Res.bind_ok, ha4, Res.bind_ok, hb5, Res.bind_ok]
    unfold aliceRound6 bobRound7 aliceRound8 bobRound9 aliceRound10
    simp only [h3, h4, h5, h6, h7, Res.bind_ok]
    rfl
  · rw [smul_comm]
  · rw [mul_smul]

/-- **C28** What Alice checks, for *every* message 3: she goes on iff the proof verifies for her salt, then her
public key is her share times Bob's statement and she reveals the proof she committed to; otherwise error. -/
theorem C28_alice_accepts_iff (E : Env F G) (a : Alice F G) (pf : Schnorr.Proof F G) :
    (Schnorr.verify E.schnorr pf E.g (bytesOf (E.X a.transcript "salt for bob schnorr")) = true →
      ∃ a', aliceRound4 E a pf = .ok (a', a.proof) ∧ a'.publicKey = a.secretKeyShare • pf.statement ∧
        a'.secretKeyShare = a.secretKeyShare) ∧
    (Schnorr.verify E.schnorr pf E.g (bytesOf (E.X a.transcript "salt for bob schnorr")) = false →
      aliceRound4 E a pf = .err) := by
  rw [aliceRound4_eq]
  constructor
  · intro h; rw [h]; exact ⟨_, rfl, rfl, rfl⟩
  · intro h; rw [h]; rfl

/-- **C28** What Bob checks, for *every* message 4 of Alice: he refuses (error) unless the revealed proof opens the
commitment of message 2 and verifies under his copy of Alice's salt; if he accepts, his public key is
his share times the revealed statement. -/
theorem C28_bob_accepts (E : Env F G) (b : Bob F G) (pf : Schnorr.Proof F G) (x k : F) :
    (∀ b' m, bobRound5 E b pf x k = .ok (b', m) →
      Schnorr.commitment E.schnorr pf = b.aliceCommitment ∧
      Schnorr.verify E.schnorr pf E.g (bytesOf b.aliceSalt) = true ∧
      b'.publicKey = b.secretKeyShare • pf.statement ∧ b'.secretKeyShare = b.secretKeyShare) ∧
    (Schnorr.commitment E.schnorr pf ≠ b.aliceCommitment ∨
      Schnorr.verify E.schnorr pf E.g (bytesOf b.aliceSalt) = false → bobRound5 E b pf x k = .err) := by
  have key : Schnorr.decommitVerify E.schnorr pf b.aliceCommitment E.g (bytesOf b.aliceSalt) = true ↔
      Schnorr.commitment E.schnorr pf = b.aliceCommitment ∧
      Schnorr.verify E.schnorr pf E.g (bytesOf b.aliceSalt) = true := by
    unfold Schnorr.decommitVerify
    split <;> simp_all
  unfold bobRound5
  cases hd : Schnorr.decommitVerify E.schnorr pf b.aliceCommitment E.g (bytesOf b.aliceSalt)
  · refine ⟨fun b' m h => by simp at h, fun _ => by simp⟩
  · obtain ⟨h1, h2⟩ := key.1 hd
    refine ⟨?_, fun h => ?_⟩
    · intro b' m h
      simp only [Bool.not_true, Bool.false_eq_true, if_false] at h
      obtain ⟨⟨s, m'⟩, -, h⟩ := Res.bind_eq_ok.1 h
      cases h
      exact ⟨h1, h2, rfl, rfl⟩
    · rcases h with h | h
      · exact absurd h1 h
      · rw [h2] at h; cases h

/-- **C28** (weakness) No check excludes the identity: when Bob's share is zero (a proof for the identity
statement), the run finishes all the same, and both parties output the identity as public key. -/
theorem C28_identity_key_accepted (E : Env F G) (hc : Schnorr.Canonical E.sc) (r : Rand F) (hg : Good E r)
    (h0 : r.skB = 0) :
    ∃ a b, run E r = .ok (a, b) ∧ a.publicKey = 0 ∧ b.publicKey = 0 := by
  obtain ⟨a, b, h1, h2, h3, h4, -⟩ := C28_honest E hc r hg
  have : a.publicKey = 0 := by rw [h2.key, h4, h0, mul_zero, zero_smul]
  exact ⟨a, b, h1, this, by rw [← h2.same, this]⟩

end Dkg

namespace Refresh

/-- transcript after both seeds -/
def seeds (E : Env F G) (r : Rand F) : Transcript :=
  [.append "Coinbase_DKLs_Refresh" [], .append "alice refresh seed" (E.sc.toBytes r.aliceSeed),
   .append "bob refresh seed" (E.sc.toBytes r.bobSeed)]
/-- the joint multiplier: a function of the two seeds only -/
def multiplier (E : Env F G) (r : Rand F) : Option F :=
  E.sc.setBytes (bytesOf (E.X (seeds E r) "secret key share multiplier"))
/-- session id of the seed OT -/
def sidOt (E : Env F G) (r : Rand F) : Digest :=
  E.X (seeds E r ++ [.extract "secret key share multiplier"]) "salt for simplest OT"

/-- the negligible events a refresh can stumble over (apart from the multiplier) -/
structure Good (E : Env F G) (r : Rand F) : Prop where
  proofOt : Schnorr.prove E.schnorr E.g
    (bytesOf (E.X (startTranscript (sidOt E r)) "sender schnorr proof")) r.otSk r.otK ≠ none
  masked : ∀ i < 256, maskedPoint E (bitOf ((List.range 32).map r.choices) i) (r.pads i) (r.otSk • E.g) ≠ 0

/-- **C29** One honest refresh, for all inputs and randomness: with a nonzero multiplier `k` it succeeds, Bob's
share is multiplied by `k` and Alice's by `k⁻¹`, the stored public keys do not change, and the new seed
OT outputs are correlated.  So matching outputs stay matching. -/
theorem C29_refresh (E : Env F G) (hc : Schnorr.Canonical E.sc) (oa : AliceOutput F G) (ob : BobOutput F G)
    (r : Rand F) (hg : Good E r) (k : F) (hk : multiplier E r = some k) (hk0 : k ≠ 0) :
    ∃ a b, run E oa ob r = .ok (a, b) ∧
      a.secretKeyShare = oa.secretKeyShare * k⁻¹ ∧ b.secretKeyShare = ob.secretKeyShare * k ∧
      a.publicKey = oa.publicKey ∧ b.publicKey = ob.publicKey ∧ Correlated 256 b.seedOt a.seedOt ∧
      (Matching E oa ob → Matching E a b) := by
  obtain ⟨r0, s0, s1, pf, r2, masked, s3, ch, r4, resp, op, h0, h1, h2, h3, h4, h5, h6, h7, hcor, hp⟩ :=
    ot_split E hc (sidOt E r) r.choices r.otSk r.otK r.pads hg.proofOt hg.masked
  unfold multiplier at hk
  have hb2 : bobRound2 E ob r.aliceSeed r.bobSeed r.otSk r.otK = .ok
      (⟨s1, ob.secretKeyShare * k, ob.publicKey,
        seeds E r ++ [.extract "secret key share multiplier"] ++ [.extract "salt for simplest OT"]⟩, ⟨pf, r.bobSeed⟩) := by
    unfold bobRound2
    simp only [OT.Env.extract]
    rw [show newTranscript ++ [Ev.append "alice refresh seed" (E.sc.toBytes r.aliceSeed),
      Ev.append "bob refresh seed" (E.sc.toBytes r.bobSeed)] = seeds E r from rfl, hk,
      show Res.ofOption (some k) = Res.ok k from rfl, Res.bind_ok]
    rw [show E.X (seeds E r ++ [Ev.extract "secret key share multiplier"]) "salt for simplest OT" = sidOt E r from rfl,
      show kappa = 256 from rfl, h1, Res.bind_ok, h2, Res.bind_ok]
  have ha3 : aliceRound3 E oa (aliceRound1 E r.aliceSeed).1 ⟨pf, r.bobSeed⟩ r.choices r.pads = .ok
      (⟨r2, oa.secretKeyShare * k⁻¹, oa.publicKey,
        seeds E r ++ [.extract "secret key share multiplier"] ++ [.extract "salt for simplest OT"]⟩, masked) := by
    unfold aliceRound3 aliceRound1
    simp only [OT.Env.extract]
    rw [show newTranscript ++ [Ev.append "alice refresh seed" (E.sc.toBytes r.aliceSeed)] ++
      [Ev.append "bob refresh seed" (E.sc.toBytes r.bobSeed)] = seeds E r from rfl, hk,
      show Res.ofOption (some k) = Res.ok k from rfl, Res.bind_ok, if_neg hk0]
    rw [show E.X (seeds E r ++ [Ev.extract "secret key share multiplier"]) "salt for simplest OT" = sidOt E r from rfl,
      show kappa = 256 from rfl, h0, Res.bind_ok, h3, Res.bind_ok]
  refine ⟨⟨oa.publicKey, oa.secretKeyShare * k⁻¹, r4.out⟩, ⟨ob.publicKey, ob.secretKeyShare * k, s3.keys⟩, ?_,
    rfl, rfl, rfl, rfl, hcor, fun hm => ⟨hm.same, ?_, hcor⟩⟩
  · unfold run
    have : aliceRound1 E r.aliceSeed = ((aliceRound1 E r.aliceSeed).1, r.aliceSeed) := rfl
    rw [this]
    simp only
    rw [hb2, Res.bind_ok, ha3, Res.bind_ok]
    unfold bobRound4 aliceRound5 bobRound6 aliceRound7
    simp only [h4, h5, h6, h7, Res.bind_ok]
    rfl
  · show oa.publicKey = (oa.secretKeyShare * k⁻¹ * (ob.secretKeyShare * k)) • E.g
    rw [hm.key, mul_mul_mul_comm, inv_mul_cancel₀ hk0, mul_one]

/-- **C29** A run that succeeds never loses the key: for any inputs and randomness, if the refresh finishes on both
sides the product of the shares and the public keys are unchanged. -/
theorem C29_success_preserves_key (E : Env F G) (oa : AliceOutput F G) (ob : BobOutput F G)
    (r : Rand F) (a : AliceOutput F G) (b : BobOutput F G) (h : run E oa ob r = .ok (a, b)) :
    a.secretKeyShare * b.secretKeyShare = oa.secretKeyShare * ob.secretKeyShare ∧
    a.publicKey = oa.publicKey ∧ b.publicKey = ob.publicKey ∧
    ∃ k, k ≠ 0 ∧ multiplier E r = some k ∧ a.secretKeyShare = oa.secretKeyShare * k⁻¹ ∧
      b.secretKeyShare = ob.secretKeyShare * k := by
  unfold run at h
  have : aliceRound1 E r.aliceSeed = ((aliceRound1 E r.aliceSeed).1, r.aliceSeed) := rfl
  rw [this] at h
  simp only at h
  obtain ⟨⟨b2, m2⟩, hb2, h⟩ := Res.bind_eq_ok.1 h
  obtain ⟨⟨a3, m3⟩, ha3, h⟩ := Res.bind_eq_ok.1 h
  unfold bobRound4 at h
  obtain ⟨⟨b4, m4⟩, hb4, h⟩ := Res.bind_eq_ok.1 h
  obtain ⟨⟨s4, _⟩, -, hb4⟩ := Res.bind_eq_ok.1 hb4
  cases hb4
  unfold aliceRound5 at h
  obtain ⟨⟨a5, m5⟩, ha5, h⟩ := Res.bind_eq_ok.1 h
  obtain ⟨⟨r5, _⟩, -, ha5⟩ := Res.bind_eq_ok.1 ha5
  cases ha5
  obtain ⟨m6, -, h⟩ := Res.bind_eq_ok.1 h
  obtain ⟨_, -, h⟩ := Res.bind_eq_ok.1 h
  cases h
  unfold bobRound2 at hb2
  simp only [OT.Env.extract] at hb2
  obtain ⟨k, hk, hb2⟩ := Res.bind_eq_ok.1 hb2
  obtain ⟨s0, -, hb2⟩ := Res.bind_eq_ok.1 hb2
  obtain ⟨⟨s1, pf⟩, -, hb2⟩ := Res.bind_eq_ok.1 hb2
  cases hb2
  unfold aliceRound3 aliceRound1 at ha3
  simp only [OT.Env.extract] at ha3
  obtain ⟨k', hk', ha3⟩ := Res.bind_eq_ok.1 ha3
  have e1 : multiplier E r = some k := by
    unfold multiplier
    cases hx : E.sc.setBytes (bytesOf (E.X (seeds E r) "secret key share multiplier")) with
    | none =>
      rw [show newTranscript ++ [Ev.append "alice refresh seed" (E.sc.toBytes r.aliceSeed),
        Ev.append "bob refresh seed" (E.sc.toBytes r.bobSeed)] = seeds E r from rfl, hx] at hk
      cases hk
    | some y =>
      rw [show newTranscript ++ [Ev.append "alice refresh seed" (E.sc.toBytes r.aliceSeed),
        Ev.append "bob refresh seed" (E.sc.toBytes r.bobSeed)] = seeds E r from rfl, hx] at hk
      cases hk
      rfl
  have e2 : k' = k := by
    rw [show newTranscript ++ [Ev.append "alice refresh seed" (E.sc.toBytes r.aliceSeed)] ++
      [Ev.append "bob refresh seed" (E.sc.toBytes r.bobSeed)] = seeds E r from rfl] at hk'
    unfold multiplier at e1
    rw [e1] at hk'
    cases hk'
    rfl
  subst e2
  by_cases hk0 : k' = 0
  · rw [if_pos hk0] at ha3; cases ha3
  · rw [if_neg hk0] at ha3
    obtain ⟨r0, -, ha3⟩ := Res.bind_eq_ok.1 ha3
    obtain ⟨⟨r2, masked⟩, -, ha3⟩ := Res.bind_eq_ok.1 ha3
    cases ha3
    refine ⟨?_, rfl, rfl, k', hk0, e1, rfl, rfl⟩
    show oa.secretKeyShare * k'⁻¹ * (ob.secretKeyShare * k') = _
    rw [mul_mul_mul_comm, inv_mul_cancel₀ hk0, mul_one]

/-- **C29** Any number of refreshes, for all histories: if every refresh of the list finishes, the outputs still
match whenever the inputs matched up to the seed transfers, i.e. the public key is unchanged and is the
product of the final shares times the generator. -/
theorem C29_any_history (E : Env F G) (rs : List (Rand F)) (oa a : AliceOutput F G) (ob b : BobOutput F G)
    (h : runs E (oa, ob) rs = .ok (a, b)) (hs : oa.publicKey = ob.publicKey)
    (hk : oa.publicKey = (oa.secretKeyShare * ob.secretKeyShare) • E.g) :
    a.publicKey = oa.publicKey ∧ b.publicKey = oa.publicKey ∧
    a.publicKey = (a.secretKeyShare * b.secretKeyShare) • E.g := by
  induction rs generalizing oa ob with
  | nil => cases h; exact ⟨rfl, hs.symm, hk⟩
  | cons r rs ih =>
    obtain ⟨⟨a1, b1⟩, h1, h2⟩ := Res.bind_eq_ok.1 h
    obtain ⟨e1, e2, e3, -⟩ := C29_success_preserves_key E oa ob r a1 b1 h1
    obtain ⟨i1, i2, i3⟩ := ih a1 b1 h2 (by rw [e2, e3, hs]) (by rw [e1, e2, hk])
    exact ⟨by rw [i1, e2], by rw [i2, e2], i3⟩

/-- **C29** A zero multiplier is refused by Alice, but Bob has already destroyed his share: his state after round 2
holds the share zero. -/
theorem C29_zero_multiplier (E : Env F G) (oa : AliceOutput F G) (ob : BobOutput F G) (r : Rand F)
    (hk : multiplier E r = some 0) :
    (∀ b m, bobRound2 E ob r.aliceSeed r.bobSeed r.otSk r.otK = .ok (b, m) → b.secretKeyShare = 0) ∧
    (∀ pf, aliceRound3 E oa (aliceRound1 E r.aliceSeed).1 ⟨pf, r.bobSeed⟩ r.choices r.pads = .err) := by
  unfold multiplier at hk
  constructor
  · intro b m h
    unfold bobRound2 at h
    simp only [OT.Env.extract] at h
    rw [show newTranscript ++ [Ev.append "alice refresh seed" (E.sc.toBytes r.aliceSeed),
      Ev.append "bob refresh seed" (E.sc.toBytes r.bobSeed)] = seeds E r from rfl, hk,
      show Res.ofOption (some (0 : F)) = Res.ok 0 from rfl, Res.bind_ok] at h
    obtain ⟨s0, -, h⟩ := Res.bind_eq_ok.1 h
    obtain ⟨⟨s1, pf⟩, -, h⟩ := Res.bind_eq_ok.1 h
    cases h
    exact mul_zero _
  · intro pf
    unfold aliceRound3 aliceRound1
    simp only [OT.Env.extract]
    rw [show newTranscript ++ [Ev.append "alice refresh seed" (E.sc.toBytes r.aliceSeed)] ++
      [Ev.append "bob refresh seed" (E.sc.toBytes r.bobSeed)] = seeds E r from rfl, hk,
      show Res.ofOption (some (0 : F)) = Res.ok 0 from rfl, Res.bind_ok, if_pos rfl]

end Refresh

/-! ### non-vacuity -/

local instance fact257 : Fact (Nat.Prime 257) := ⟨by norm_num⟩

def toyRand : Dkg.Rand (ZMod 257) where
  bobSeed := fun _ => 1
  aliceSeed := fun _ => 2
  choices := fun i => UInt8.ofNat (3 * i + 1)
  skA := 5
  kA := 7
  skB := 11
  kB := 13
  otSk := 17
  otK := 19
  pads := fun i => ((i % 100 : Nat) : ZMod 257) + 3

theorem toyRand_good : Dkg.Good OT.toyEnv32 toyRand where
  proofA := by decide +kernel
  proofB := by decide +kernel
  proofOt := by decide +kernel
  masked := by decide +kernel

/-- key generation with shares 5 and 11 -/
example : ∃ a b, Dkg.run OT.toyEnv32 toyRand = .ok (a, b) ∧ Matching OT.toyEnv32 a b ∧ a.secretKeyShare = 5 ∧
    b.secretKeyShare = 11 := by
  obtain ⟨a, b, h1, h2, h3, h4, -⟩ := Dkg.C28_honest OT.toyEnv32 (Schnorr.canonical_be 257 32 (by norm_num))
    toyRand toyRand_good
  exact ⟨a, b, h1, h2, h3, h4⟩

/-- an environment whose digests are `00..00b`, so that the refresh multiplier decodes -/
def toyEnvR : Env (ZMod 257) (ZMod 257) :=
  { OT.toyEnv32 with
    H := fun l i => if i = 31 then UInt8.ofNat l.length else 0
    X := fun t s i => if i = 31 then UInt8.ofNat (t.length + s.length) else 0 }

def toyRandR : Refresh.Rand (ZMod 257) where
  aliceSeed := 5
  bobSeed := 6
  choices := fun i => UInt8.ofNat (3 * i + 1)
  otSk := 17
  otK := 19
  pads := fun i => ((i % 100 : Nat) : ZMod 257) + 3

theorem toyRandR_good : Refresh.Good toyEnvR toyRandR where
  proofOt := by decide +kernel
  masked := by decide +kernel

/-- the multiplier is 30: refreshing shares 5 and 11 succeeds and changes both -/
example : ∃ a b, Refresh.run toyEnvR ⟨55, 5, ⟨[], [], []⟩⟩ ⟨55, 11, []⟩ toyRandR = .ok (a, b) ∧
    a.secretKeyShare * b.secretKeyShare = 55 ∧ b.secretKeyShare = 73 := by
  obtain ⟨a, b, h1, h2, h3, -⟩ := Refresh.C29_refresh toyEnvR (Schnorr.canonical_be 257 32 (by norm_num))
    ⟨55, 5, ⟨[], [], []⟩⟩ ⟨55, 11, []⟩ toyRandR toyRandR_good 30 (by decide +kernel) (by decide)
  exact ⟨a, b, h1, by rw [h2, h3]; decide +kernel, by rw [h3]; decide⟩

end Verif.Dkls
