import Verif.Dkls.Sign
import Verif.Dkls.MultiplyProps
import Verif.Dkls.DkgProps

/-! # Property C30: two-party ECDSA signing -/

set_option linter.unusedSectionVars false

namespace Verif.Dkls.Sign
open Verif Verif.OT Verif.Bytes

variable {F G : Type} [Field F] [DecidableEq F] [AddCommGroup G] [DecidableEq G] [Module F G]

/-! ### specification -/

/-- What the signing code assumes of the curve: prime order `q < 2^256`, 32 byte big-endian scalars, SEC1
compressed points (`02`/`03` by the parity of `y`, then `x` in 32 bytes); the inverse of a point has the
same `x` and the opposite parity. -/
structure Curve (E : SEnv F G) (yodd : G → Bool) : Prop where
  be : BeRep E.sc
  can : Schnorr.Canonical E.sc
  char : CharP F E.q
  lt : ∀ x, beToNat (E.sc.toBytes x) < E.q
  q256 : E.q < 2 ^ 256
  gne : E.g ≠ 0
  enc : ∀ p ≠ 0, E.pc.enc p = (if yodd p then 3 else 2) :: natToBEfix 32 (E.xc p)
  xlt : ∀ p, E.xc p < 256 ^ 32
  xneg : ∀ p, E.xc (-p) = E.xc p
  yneg : ∀ p ≠ 0, yodd (-p) = !yodd p

/-- The point recovered from an ECDSA signature: `e/s·G + r/s·Q`. -/
def sigPoint (E : SEnv F G) (Q : G) (e : F) (r s : Nat) : G := (e / (s : F)) • E.g + ((r : F) / (s : F)) • Q

section
variable {E : SEnv F G} {yodd : G → Bool}

theorem toNat_cast (hC : Curve E yodd) (x : F) : ((toNat E x : Nat) : F) = x := hC.be.val x

theorem toNat_of_lt (hC : Curve E yodd) (n : Nat) (h : n < E.q) : toNat E (n : F) = n := by
  have h1 := toNat_cast hC (n : F)
  have := hC.char
  rw [CharP.cast_eq_iff_mod_eq F E.q] at h1
  rwa [Nat.mod_eq_of_lt (show toNat E (n : F) < E.q from hC.lt _), Nat.mod_eq_of_lt h] at h1

theorem toNat_pos (hC : Curve E yodd) (x : F) (h : x ≠ 0) : 0 < toNat E x := by
  rcases Nat.eq_zero_or_pos (toNat E x) with h0 | h0
  · exact absurd (by rw [← toNat_cast hC x, h0, Nat.cast_zero]) h
  · exact h0

/-- `rX` decodes iff the coordinate is below `q`; then it is the coordinate. -/
theorem decodeX_ok (hC : Curve E yodd) (r : G) (hr : r ≠ 0) (x : F) (h : decodeX E r = .ok x) :
    toNat E x = E.xc r ∧ x = (E.xc r : F) ∧ E.xc r < E.q := by
  unfold decodeX at h
  split at h
  · cases h
  · rw [hC.enc r hr, List.drop_one, List.tail_cons, Kos.ofOption_ok] at h
    have e := hC.can.canon _ _ h
    have e2 : toNat E x = E.xc r := by
      unfold toNat
      rw [e, beToNat_natToBEfix, Nat.mod_eq_of_lt (hC.xlt r)]
    exact ⟨e2, by rw [← e2, toNat_cast hC], by rw [← e2]; exact hC.lt x⟩

theorem digest_ok (hC : Curve E yodd) (l : List UInt8) (d : F) (h : E.sc.setBytes l = some d) :
    l.length = 32 ∧ ((beToNat (l.take 32) : Nat) : F) = d := by
  have e := hC.can.canon _ _ h
  have hl : l.length = 32 := by rw [← e, hC.be.len]
  exact ⟨hl, by rw [List.take_of_length_le hl.le, ← e, hC.be.val]⟩

/-- the signing equation gives back the nonce point -/
theorem sigPoint_eq (E : SEnv F G) (k d x sk s : F) (hs : s ≠ 0) (h : s * k = d + x * sk) :
    (d / s) • E.g + (x / s) • sk • E.g = k • E.g ∧ (d / -s) • E.g + (x / -s) • sk • E.g = -(k • E.g) := by
  have e : k = d / s + x / s * sk := by
    field_simp
    linear_combination h
  constructor
  · rw [smul_smul, ← add_smul, ← e]
  · rw [smul_smul, ← add_smul, ← neg_smul, e]
    congr 1
    field_simp
    ring

theorem normalize_cast (hC : Curve E yodd) (s : F) (v : Nat) :
    ((normalize E s v).1 : F) = (if (toNat E s).testBit 255 then -s else s) ∧
    (normalize E s v).2 = (if (toNat E s).testBit 255 then v ^^^ 1 else v) := by
  unfold normalize
  split
  · exact ⟨toNat_cast hC _, rfl⟩
  · exact ⟨toNat_cast hC _, rfl⟩

theorem toNat_neg (hC : Curve E yodd) (s : F) (h : s ≠ 0) : toNat E (-s) = E.q - toNat E s := by
  have hl := hC.lt s
  have : -s = ((E.q - toNat E s : Nat) : F) := by
    rw [Nat.cast_sub (show toNat E s ≤ E.q from hl.le), toNat_cast hC]
    have := hC.char
    rw [CharP.cast_eq_zero, zero_sub]
  have hp := toNat_pos hC s h
  rw [this, toNat_of_lt hC _ (by omega)]

theorem testBit_255 (n : Nat) (h : n < 2 ^ 256) : n.testBit 255 = decide (2 ^ 255 ≤ n) := by
  rw [Nat.testBit_eq_decide_div_mod_eq]
  by_cases hn : 2 ^ 255 ≤ n
  · have : n / 2 ^ 255 = 1 := by
      apply Nat.div_eq_of_lt_le <;> omega
    rw [this, decide_eq_true hn]; rfl
  · rw [Nat.div_eq_of_lt (by omega), decide_eq_false hn]; rfl

/-- the normalised `S`: below `2^255`, nonzero, below `q` -/
theorem normalize_range (hC : Curve E yodd) (s : F) (h : s ≠ 0) (v : Nat) :
    0 < (normalize E s v).1 ∧ (normalize E s v).1 < E.q ∧ (normalize E s v).1 < 2 ^ 255 := by
  have hl : toNat E s < E.q := hC.lt s
  have hq := hC.q256
  unfold normalize
  rw [testBit_255 _ (by omega)]
  by_cases hb : 2 ^ 255 ≤ toNat E s
  · rw [if_pos (by simpa using hb)]
    refine ⟨toNat_pos hC _ (neg_ne_zero.2 h), hC.lt _, ?_⟩
    rw [toNat_neg hC s h]
    omega
  · rw [if_neg (by simpa using hb)]
    exact ⟨toNat_pos hC _ h, hl, by simpa using hb⟩

/-- the verification equation for the normalised honest signature, and its exact failure cases -/
theorem verify_honest (hC : Curve E yodd) (k d sk s : F) (hk : k ≠ 0) (Q : G) (hQ : Q = sk • E.g)
    (h : s * k = d + (E.xc (k • E.g) : F) * sk) (hx : E.xc (k • E.g) < E.q) (l : List UInt8)
    (hl : E.sc.setBytes l = some d) (v : Nat) (hv : v = if yodd (k • E.g) then 1 else 0) :
    (E.xc (k • E.g) ≠ 0 → s ≠ 0 →
      ecdsaVerify E Q l (E.xc (k • E.g)) (normalize E s v).1 = true ∧
      E.xc (sigPoint E Q d (E.xc (k • E.g)) (normalize E s v).1) = E.xc (k • E.g) ∧
      (normalize E s v).2 = if yodd (sigPoint E Q d (E.xc (k • E.g)) (normalize E s v).1) then 1 else 0) ∧
    (E.xc (k • E.g) = 0 ∨ s = 0 →
      ecdsaVerify E Q l (E.xc (k • E.g)) (normalize E s v).1 = false) := by
  obtain ⟨-, hd⟩ := digest_ok hC l d hl
  have hR : k • E.g ≠ 0 := smul_ne_zero hk hC.gne
  constructor
  · intro h1 h2
    obtain ⟨n1, n2⟩ := normalize_cast hC s v
    obtain ⟨r1, r2, -⟩ := normalize_range hC s h2 v
    obtain ⟨p1, p2⟩ := sigPoint_eq E k d (E.xc (k • E.g) : F) sk s h2 h
    have hsp : sigPoint E Q d (E.xc (k • E.g)) (normalize E s v).1 =
        if (toNat E s).testBit 255 then -(k • E.g) else k • E.g := by
      unfold sigPoint
      rw [n1, hQ]
      split
      · exact p2
      · exact p1
    have hxs : E.xc (sigPoint E Q d (E.xc (k • E.g)) (normalize E s v).1) = E.xc (k • E.g) := by
      rw [hsp]
      split
      · exact hC.xneg _
      · rfl
    refine ⟨?_, hxs, ?_⟩
    · unfold ecdsaVerify
      simp only [decide_eq_true_eq]
      rw [hd]
      refine ⟨Nat.pos_of_ne_zero h1, hx, r1, r2, ?_, ?_⟩
      · show sigPoint E Q d (E.xc (k • E.g)) (normalize E s v).1 ≠ 0
        rw [hsp]
        split
        · exact neg_ne_zero.2 hR
        · exact hR
      · show E.xc (sigPoint E Q d (E.xc (k • E.g)) (normalize E s v).1) % E.q = _
        rw [hxs, Nat.mod_eq_of_lt hx]
    · rw [n2, hsp, hv]
      split
      · rw [hC.yneg _ hR]
        cases yodd (k • E.g) <;> rfl
      · rfl
  · intro h1
    unfold ecdsaVerify
    simp only [decide_eq_false_iff_not]
    rintro ⟨a2, -, a3, -⟩
    rcases h1 with h1 | h1
    · omega
    · have : (normalize E s v).1 = 0 := by
        have h0 : toNat E (0 : F) = 0 := by
          have := hC.char
          have := toNat_of_lt hC 0 (lt_of_le_of_lt (Nat.zero_le _) (hC.lt 0))
          rwa [Nat.cast_zero] at this
        unfold normalize
        rw [h1, neg_zero, h0]
        simp
      omega

/-! ### the algebra of the protocol -/

theorem gamma1_eq (g : G) (kA kB phi ta tb : F) (hA : kA ≠ 0) (hB : kB ≠ 0)
    (h : ta + tb = (phi + 1 / kA) * (1 / kB)) :
    (kA * phi + 1) • g + (-ta) • kA • kB • g = tb • kA • kB • g := by
  have : tb = (phi + 1 / kA) * (1 / kB) - ta := by rw [← h]; ring
  rw [this]
  simp only [smul_smul]
  rw [← add_smul]
  congr 1
  field_simp
  ring

theorem gamma2_eq (g : G) (kA kB phi ta tb ua ub x y : F) (hA : kA ≠ 0) (hB : kB ≠ 0)
    (h : ta + tb = (phi + 1 / kA) * (1 / kB)) (h2 : ua + ub = x * (1 / kA) * (y * (1 / kB))) :
    ta • (x * y) • g + (-ua) • g = ub • g + (-(tb - phi / kB)) • (x * y) • g := by
  have e1 : tb = (phi + 1 / kA) * (1 / kB) - ta := by rw [← h]; ring
  have e2 : ub = x * (1 / kA) * (y * (1 / kB)) - ua := by rw [← h2]; ring
  rw [e1, e2]
  simp only [smul_smul]
  rw [← add_smul, ← add_smul]
  congr 1
  field_simp
  ring

theorem sig_eq (kA kB phi ta tb ua ub x y d r : F) (hA : kA ≠ 0) (hB : kB ≠ 0)
    (h : ta + tb = (phi + 1 / kA) * (1 / kB)) (h2 : ua + ub = x * (1 / kA) * (y * (1 / kB))) :
    (d * (tb - phi / kB) + r * ub + (d * ta + r * ua)) * (kA * kB) = d + r * (x * y) := by
  have e1 : tb = (phi + 1 / kA) * (1 / kB) - ta := by rw [← h]; ring
  have e2 : ub = x * (1 / kA) * (y * (1 / kB)) - ua := by rw [← h2]; ring
  rw [e1, e2]
  field_simp
  ring

/-! ### the rounds -/

theorem bobRound2_inv (E : SEnv F G) (ob : BobOutput F G) (hashed : List UInt8) (sA sB : Digest) (kB : F)
    (g0 p0 g1 p1 : Nat → UInt8) (b : Bob F G) (m : Round2Output G)
    (h : bobRound2 E ob hashed sA sB kB g0 p0 g1 p1 = .ok (b, m)) :
    ∃ r0 r1, newMultiplyReceiver E.toMulEnv ob.seedOt (E.X (newTranscript ++ [.append "session_id_alice" (bytesOf sA),
          .append "session_id_bob" (bytesOf sB)]) "multiply receiver id 0") = .ok r0 ∧
      newMultiplyReceiver E.toMulEnv ob.seedOt (E.X (newTranscript ++ [.append "session_id_alice" (bytesOf sA),
          .append "session_id_bob" (bytesOf sB)] ++ [.extract "multiply receiver id 0"]) "multiply receiver id 1") = .ok r1 ∧
      kB ≠ 0 ∧ r0.round1 E.toMulEnv (1 / kB) g0 p0 = .ok (b.mul0, m.kos0) ∧
      r1.round1 E.toMulEnv (ob.secretKeyShare * (1 / kB)) g1 p1 = .ok (b.mul1, m.kos1) ∧
      m.dB = kB • E.g ∧ m.seed = sB ∧ b.kB = kB ∧ b.dB = kB • E.g ∧ b.out = ob ∧ b.hashed = hashed ∧
      b.transcript = newTranscript ++ [.append "session_id_alice" (bytesOf sA),
          .append "session_id_bob" (bytesOf sB)] ++ [.extract "multiply receiver id 0"] ++
          [.extract "multiply receiver id 1"] := by
  unfold bobRound2 at h
  dsimp only [OT.Env.extract] at h
  obtain ⟨r0, h0, h⟩ := Res.bind_eq_ok.1 h
  obtain ⟨r1, h1, h⟩ := Res.bind_eq_ok.1 h
  by_cases hk : kB = 0
  · rw [if_pos hk] at h; cases h
  rw [if_neg hk] at h
  obtain ⟨⟨r0', m0⟩, h2, h⟩ := Res.bind_eq_ok.1 h
  obtain ⟨⟨r1', m1⟩, h3, h⟩ := Res.bind_eq_ok.1 h
  cases h
  exact ⟨r0, r1, h0, h1, hk, h2, h3, rfl, rfl, rfl, rfl, rfl, rfl, rfl⟩

/-- **C30** The honest signing run.  For all matching key material, message, seeds and randomness: if Bob's
round 2 and Alice's round 3 go through, there is a nonce `k ≠ 0` with `x(kG) < q`, the message digest
decodes to a scalar `d`, and with `s = (d + x(kG)·skA·skB)/k`
* if `x(kG) ≠ 0` and `s ≠ 0`, Bob's final round succeeds (even if the public key is the identity); the
  signature is `(x(kG), ±s)` with `S < 2^255`, it verifies under the joint public key, and `V` is the parity
  of the `y` coordinate of the point `e/S·G + R/S·Q` (correct recovery id, also after negation of `S`);
* otherwise Bob returns an error. -/
theorem C30_honest (hC : Curve E yodd) (oa : AliceOutput F G) (ob : BobOutput F G)
    (hm : Matching E.toMulEnv.toEnv oa ob) (hashed message : List UInt8) (sA sB : Digest) (kB : F)
    (g0 p0 g1 p1 : Nat → UInt8) (kPrime kSch phi hat0 hat1 : F) (b : Bob F G) (m2 : Round2Output G)
    (m3 : Round3Output F G)
    (hB : bobRound2 E ob hashed sA sB kB g0 p0 g1 p1 = .ok (b, m2))
    (hA : aliceRound3 E (aliceRound1 oa hashed sA).1 message m2 kPrime kSch phi hat0 hat1 = .ok m3) :
    ∃ k d s : F, k ≠ 0 ∧ E.xc (k • E.g) < E.q ∧ E.sc.setBytes (E.msgHash (hashed ++ message)) = some d ∧
      s * k = d + (E.xc (k • E.g) : F) * (oa.secretKeyShare * ob.secretKeyShare) ∧
      (E.xc (k • E.g) ≠ 0 → s ≠ 0 →
        ∃ sig, bobRound4 E b message m3 = .ok sig ∧ sig.R = E.xc (k • E.g) ∧
          ((sig.S : F) = s ∨ (sig.S : F) = -s) ∧ sig.S < 2 ^ 255 ∧
          ecdsaVerify E oa.publicKey (E.msgHash (hashed ++ message)) sig.R sig.S = true ∧
          E.xc (sigPoint E oa.publicKey d sig.R sig.S) = sig.R ∧
          sig.V = if yodd (sigPoint E oa.publicKey d sig.R sig.S) then 1 else 0) ∧
      (E.xc (k • E.g) = 0 ∨ s = 0 → bobRound4 E b message m3 = .err) := by
  obtain ⟨r0, r1, hr0, hr1, hkB, hb0, hb1, hdB, hseed, hbk, hbd, hbo, hbh, hbt⟩ :=
    bobRound2_inv E ob hashed sA sB kB g0 p0 g1 p1 b m2 hB
  unfold aliceRound3 aliceRound1 at hA
  dsimp only [OT.Env.extract] at hA
  have et : newTranscript ++ [Ev.append "session_id_alice" (bytesOf sA)] ++ [Ev.append "session_id_bob" (bytesOf m2.seed)] =
      newTranscript ++ [.append "session_id_alice" (bytesOf sA), .append "session_id_bob" (bytesOf sB)] := by
    rw [hseed]; rfl
  rw [et] at hA
  set T := newTranscript ++ [Ev.append "session_id_alice" (bytesOf sA), Ev.append "session_id_bob" (bytesOf sB)] with hT
  obtain ⟨s0, hs0, hA⟩ := Res.bind_eq_ok.1 hA
  obtain ⟨s1, hs1, hA⟩ := Res.bind_eq_ok.1 hA
  obtain ⟨hR, hhR, hA⟩ := Res.bind_eq_ok.1 hA
  obtain ⟨pf, hpf, hA⟩ := Res.bind_eq_ok.1 hA
  rw [Kos.ofOption_ok] at hpf
  by_cases hkA : hR + kPrime = 0
  · rw [if_pos hkA] at hA; cases hA
  rw [if_neg hkA] at hA
  obtain ⟨⟨ta, o0⟩, ho0, hA⟩ := Res.bind_eq_ok.1 hA
  obtain ⟨⟨ua, o1⟩, ho1, hA⟩ := Res.bind_eq_ok.1 hA
  obtain ⟨h1, hh1, hA⟩ := Res.bind_eq_ok.1 hA
  obtain ⟨d, hd, hA⟩ := Res.bind_eq_ok.1 hA
  obtain ⟨rX, hrX, hA⟩ := Res.bind_eq_ok.1 hA
  obtain ⟨h2, hh2, hA⟩ := Res.bind_eq_ok.1 hA
  cases hA
  rw [Kos.ofOption_ok] at hd
  obtain ⟨hst, hver⟩ := (Schnorr.C20_complete E.schnorr hC.can m2.dB _ (hR + kPrime) kSch).1 pf hpf
  -- the multiplications
  obtain ⟨b0', k0', e0, -, f0⟩ := C27_honest E.toMulEnv hC.be ob.seedOt oa.seedOt hm.seeds _ (phi + 1 / (hR + kPrime)) hat0 (1 / kB)
    g0 p0 s0 r0 hs0 hr0
  rw [hb0] at e0
  cases e0
  obtain ⟨tb, htb, hsum0⟩ := f0 ta o0 ho0
  obtain ⟨b1', k1', e1, -, f1⟩ := C27_honest E.toMulEnv hC.be ob.seedOt oa.seedOt hm.seeds _ (oa.secretKeyShare * (1 / (hR + kPrime))) hat1
    (ob.secretKeyShare * (1 / kB)) g1 p1 s1 r1 hs1 hr1
  rw [hb1] at e1
  cases e1
  obtain ⟨ub, hub, hsum1⟩ := f1 ua o1 ho1
  set kA := hR + kPrime with hkAdef
  have hr : pf.statement = kA • kB • E.g := by rw [hst, hdB]
  have hk : kA * kB ≠ 0 := mul_ne_zero hkA hkB
  have hRk : pf.statement = (kA * kB) • E.g := by rw [hr, mul_smul]
  have hRne : pf.statement ≠ 0 := by rw [hRk]; exact smul_ne_zero hk hC.gne
  obtain ⟨x1, x2, x3⟩ := decodeX_ok hC pf.statement hRne rX hrX
  have hsig := sig_eq kA kB phi ta tb ua ub oa.secretKeyShare ob.secretKeyShare d rX hkA hkB hsum0 hsum1
  set s := d * (tb - phi / kB) + rX * ub + (d * ta + rX * ua) with hs
  rw [x2, hRk] at hsig
  -- Bob's last round
  have hrBob : hR • b.dB + kPrime • m2.dB = pf.statement := by
    rw [hbd, hdB, hr, hkAdef, ← add_smul]
  have hpfeq : ({ pf with statement := pf.statement } : Schnorr.Proof F G) = pf := rfl
  have hbt' : b.transcript = T ++ [.extract "multiply receiver id 0"] ++ [.extract "multiply receiver id 1"] := hbt
  have hpk : ob.publicKey = (oa.secretKeyShare * ob.secretKeyShare) • E.g := by rw [← hm.same]; exact hm.key
  have hg1 : (kA * phi + 1) • E.g + (-ta) • pf.statement = tb • pf.statement := by
    rw [hr]; exact gamma1_eq E.g kA kB phi ta tb hkA hkB hsum0
  have hg2 : ta • oa.publicKey + (-ua) • E.g = ub • E.g + (-(tb - phi / kB)) • ob.publicKey := by
    rw [hm.key, hpk]
    exact gamma2_eq E.g kA kB phi ta tb ua ub oa.secretKeyShare ob.secretKeyShare hkA hkB hsum0 hsum1
  rw [hg1] at hh1
  rw [hg2] at hh2
  set v := ((E.pc.enc pf.statement).getD 0 0 &&& 1).toNat with hv
  have hvy : v = if yodd ((kA * kB) • E.g) then 1 else 0 := by
    rw [hv, hC.enc _ hRne, hRk]
    rw [List.getD_cons_zero]
    cases yodd ((kA * kB) • E.g) <;> decide
  have hfinal : bobRound4 E b message ⟨o0, o1, pf, kPrime • m2.dB, h1 + phi, h2 + (d * ta + rX * ua)⟩ =
      if !ecdsaVerify E oa.publicKey (E.msgHash (hashed ++ message)) (E.xc ((kA * kB) • E.g)) (normalize E s v).1
      then .err else .ok ⟨(normalize E s v).2, E.xc ((kA * kB) • E.g), (normalize E s v).1⟩ := by
    unfold bobRound4
    dsimp only [OT.Env.extract]
    rw [htb, Res.bind_ok, hub, Res.bind_ok, hhR, Res.bind_ok, hrBob, hbt', hpfeq, hbd, ← hdB, hver]
    simp only [Bool.not_true, Bool.false_eq_true, if_false]
    rw [hrX, Res.bind_ok, hh1, Res.bind_ok, hbh, hd, show Res.ofOption (some d) = Res.ok d from rfl, Res.bind_ok]
    rw [hbo, add_sub_cancel_left, hbk, hh2, Res.bind_ok, add_sub_cancel_left, add_zero, x1, ← x2, ← hs, ← hv, hRk, hm.same]
  obtain ⟨v1, v2⟩ := verify_honest hC (kA * kB) d (oa.secretKeyShare * ob.secretKeyShare) s hk oa.publicKey hm.key hsig
    (by rw [← hRk]; exact x3) (E.msgHash (hashed ++ message)) hd v hvy
  refine ⟨kA * kB, d, s, hk, by rw [← hRk]; exact x3, hd, hsig, ?_, ?_⟩
  · intro a1 a2
    obtain ⟨w1, w2, w3⟩ := v1 a1 a2
    refine ⟨_, by rw [hfinal, w1]; rfl, rfl, ?_, (normalize_range hC s a2 v).2.2, w1, w2, w3⟩
    rw [(normalize_cast hC s v).1]
    split
    · exact Or.inr rfl
    · exact Or.inl rfl
  · intro ha
    rw [hfinal, v2 ha]
    rfl

/-- **C30** Bob never outputs an invalid signature: for *every* state and *every* third message, honest or not, a
signature that round 4 returns verifies under his public key for the digest of the message. -/
theorem C30_output_verifies (E : SEnv F G) (b : Bob F G) (message : List UInt8) (m : Round3Output F G) (sig : Signature)
    (h : bobRound4 E b message m = .ok sig) :
    ecdsaVerify E b.out.publicKey (E.msgHash (b.hashed ++ message)) sig.R sig.S = true := by
  unfold bobRound4 at h
  dsimp only [OT.Env.extract] at h
  obtain ⟨t0, -, h⟩ := Res.bind_eq_ok.1 h
  obtain ⟨t1, -, h⟩ := Res.bind_eq_ok.1 h
  obtain ⟨hR, -, h⟩ := Res.bind_eq_ok.1 h
  split at h
  · cases h
  obtain ⟨rX, -, h⟩ := Res.bind_eq_ok.1 h
  obtain ⟨h1, -, h⟩ := Res.bind_eq_ok.1 h
  obtain ⟨d, -, h⟩ := Res.bind_eq_ok.1 h
  obtain ⟨h2, -, h⟩ := Res.bind_eq_ok.1 h
  split at h
  · cases h
  · rename_i hv
    cases h
    simpa using hv

/-- **C30** The nonce point of every signature Bob outputs is the one he recomputes himself: `R = H(R')·DB + R'`
from the received `R'`, for which the received Schnorr proof (with *that* statement, base `DB` and his own
transcript) verifies; the signature's `R` is the `x` coordinate decoded from it.  Whatever statement Alice put
into the proof is ignored. -/
theorem C30_nonce_bound (E : SEnv F G) (b : Bob F G) (message : List UInt8) (m : Round3Output F G) (sig : Signature)
    (h : bobRound4 E b message m = .ok sig) :
    ∃ hR rX, hashPoint E m.rPrime = .ok hR ∧
      Schnorr.verify E.schnorr ⟨m.rProof.c, m.rProof.s, hR • b.dB + m.rPrime⟩ b.dB
        (bytesOf (E.X b.transcript "schnorr proof for R")) = true ∧
      decodeX E (hR • b.dB + m.rPrime) = .ok rX ∧ sig.R = toNat E rX ∧
      ∀ st, bobRound4 E b message { m with rProof := ⟨m.rProof.c, m.rProof.s, st⟩ } = .ok sig := by
  have h0 := h
  unfold bobRound4 at h
  dsimp only [OT.Env.extract] at h
  obtain ⟨t0, -, h⟩ := Res.bind_eq_ok.1 h
  obtain ⟨t1, -, h⟩ := Res.bind_eq_ok.1 h
  obtain ⟨hR, hhR, h⟩ := Res.bind_eq_ok.1 h
  split at h
  · cases h
  rename_i hver
  obtain ⟨rX, hrX, h⟩ := Res.bind_eq_ok.1 h
  obtain ⟨h1, -, h⟩ := Res.bind_eq_ok.1 h
  obtain ⟨d, -, h⟩ := Res.bind_eq_ok.1 h
  obtain ⟨h2, -, h⟩ := Res.bind_eq_ok.1 h
  split at h
  · cases h
  · cases h
    refine ⟨hR, rX, hhR, by simpa using hver, hrX, by rw [add_zero], fun st => ?_⟩
    rw [← h0]
    rfl

/-- The byte strings drawn on the way decode to scalars (on a 256 bit curve each does except with
probability about `2^-128`; otherwise the protocol ends with an error). -/
structure Decodes (E : SEnv F G) (hashed message : List UInt8) : Prop where
  gadget : ∃ g, generateGadgetVector E.toMulEnv = .ok g
  transfer : ∀ sid nabla zeta, Kos.Decodable E.toMulEnv.kos sid nabla zeta
  chi : ∀ t, ∃ c, drawChi E.toMulEnv t = .ok c
  hash : ∀ l, E.sc.setBytes (bytesOf (E.H l)) ≠ none
  msg : E.sc.setBytes (E.msgHash (hashed ++ message)) ≠ none
  x : ∀ p ≠ 0, E.xc p < E.q

theorem decodeX_of_lt (hC : Curve E yodd) (p : G) (hp : p ≠ 0) (h : E.xc p < E.q) : ∃ x, decodeX E p = .ok x := by
  unfold decodeX
  rw [hC.enc p hp, if_neg (by rw [List.length_cons, length_natToBEfix]; decide), List.drop_one, List.tail_cons]
  refine ⟨(E.xc p : F), ?_⟩
  rw [Kos.ofOption_ok]
  have e : E.sc.toBytes (E.xc p : F) = natToBEfix 32 (E.xc p) := by
    have h1 : toNat E (E.xc p : F) = E.xc p := toNat_of_lt hC _ h
    unfold toNat at h1
    have := natToBEfix_beToNat (E.sc.toBytes (E.xc p : F))
    rw [hC.be.len, h1] at this
    exact this.symm
  rw [← e]
  exact E.sc.rt _

/-- **C30** The honest run gets through: with matching key material and decodable draws, for all seeds, nonzero `kB`
and random choices of Alice with `kA = H(R') + k'` nonzero, Bob's round 2 and Alice's round 3 succeed (so
that `C30_honest` applies). -/
theorem C30_progress (hC : Curve E yodd) (oa : AliceOutput F G) (ob : BobOutput F G)
    (hm : Matching E.toMulEnv.toEnv oa ob) (hashed message : List UInt8) (hD : Decodes E hashed message)
    (sA sB : Digest) (kB : F) (hkB : kB ≠ 0)
    (g0 p0 g1 p1 : Nat → UInt8) (kPrime kSch phi hat0 hat1 : F)
    (hkA : ∀ hR, hashPoint E (kPrime • kB • E.g) = .ok hR → hR + kPrime ≠ 0) :
    ∃ b m2 m3, bobRound2 E ob hashed sA sB kB g0 p0 g1 p1 = .ok (b, m2) ∧
      aliceRound3 E (aliceRound1 oa hashed sA).1 message m2 kPrime kSch phi hat0 hat1 = .ok m3 := by
  obtain ⟨gad, hgad⟩ := hD.gadget
  have hh : ∀ p, ∃ x, hashPoint E p = .ok x := by
    intro p
    obtain ⟨x, hx⟩ := Option.ne_none_iff_exists'.1 (hD.hash (E.pc.enc p))
    exact ⟨x, by unfold hashPoint; rw [hx]; rfl⟩
  have hnr : ∀ sid, ∃ r, newMultiplyReceiver E.toMulEnv ob.seedOt sid = .ok r := by
    intro sid; unfold newMultiplyReceiver; rw [hgad]; exact ⟨_, rfl⟩
  have hns : ∀ sid, ∃ r, newMultiplySender E.toMulEnv oa.seedOt sid = .ok r := by
    intro sid; unfold newMultiplySender; rw [hgad]; exact ⟨_, rfl⟩
  set T := newTranscript ++ [Ev.append "session_id_alice" (bytesOf sA), Ev.append "session_id_bob" (bytesOf sB)] with hT
  obtain ⟨r0, hr0⟩ := hnr (E.X T "multiply receiver id 0")
  obtain ⟨r1, hr1⟩ := hnr (E.X (T ++ [.extract "multiply receiver id 0"]) "multiply receiver id 1")
  obtain ⟨s0, hs0⟩ := hns (E.X T "multiply receiver id 0")
  obtain ⟨s1, hs1⟩ := hns (E.X (T ++ [.extract "multiply receiver id 0"]) "multiply receiver id 1")
  obtain ⟨hR, hhR⟩ := hh (kPrime • kB • E.g)
  have hkA := hkA hR hhR
  obtain ⟨b0, k0, e0, q0, -⟩ := C27_honest E.toMulEnv hC.be ob.seedOt oa.seedOt hm.seeds _ (phi + 1 / (hR + kPrime)) hat0 (1 / kB)
    g0 p0 s0 r0 hs0 hr0
  obtain ⟨b1, k1, e1, q1, -⟩ := C27_honest E.toMulEnv hC.be ob.seedOt oa.seedOt hm.seeds _ (oa.secretKeyShare * (1 / (hR + kPrime))) hat1
    (ob.secretKeyShare * (1 / kB)) g1 p1 s1 r1 hs1 hr1
  obtain ⟨⟨ta, o0⟩, hta⟩ := q0 (hD.transfer _ _ _) hD.chi
  obtain ⟨⟨ua, o1⟩, hua⟩ := q1 (hD.transfer _ _ _) hD.chi
  have hpf : ∃ pf, Schnorr.prove E.schnorr (kB • E.g) (bytesOf (E.X (T ++ [.extract "multiply receiver id 0"] ++
      [.extract "multiply receiver id 1"]) "schnorr proof for R")) (hR + kPrime) kSch = some pf := by
    rw [← Option.ne_none_iff_exists']
    intro hn
    exact hD.hash _ ((Schnorr.C20_complete E.schnorr hC.can _ _ _ _).2.2.1 hn)
  obtain ⟨pf, hpf⟩ := hpf
  obtain ⟨hst, -⟩ := (Schnorr.C20_complete E.schnorr hC.can _ _ (hR + kPrime) kSch).1 pf hpf
  have hne : pf.statement ≠ 0 := by
    rw [hst]
    exact smul_ne_zero hkA (smul_ne_zero hkB hC.gne)
  obtain ⟨rX, hrX⟩ := decodeX_of_lt hC pf.statement hne (hD.x _ hne)
  obtain ⟨d, hd⟩ := Option.ne_none_iff_exists'.1 hD.msg
  obtain ⟨h1, hh1⟩ := hh (((hR + kPrime) * phi + 1) • E.g + (-ta) • pf.statement)
  obtain ⟨h2, hh2⟩ := hh (ta • oa.publicKey + (-ua) • E.g)
  refine ⟨⟨hashed, ob, T ++ [.extract "multiply receiver id 0"] ++ [.extract "multiply receiver id 1"], b0, b1, kB, kB • E.g⟩,
    ⟨k0, k1, kB • E.g, sB⟩, ⟨o0, o1, pf, kPrime • kB • E.g, h1 + phi, h2 + (d * ta + rX * ua)⟩, ?_, ?_⟩
  · unfold bobRound2
    dsimp only [OT.Env.extract]
    rw [hr0, Res.bind_ok, hr1, Res.bind_ok, if_neg hkB, e0, Res.bind_ok, e1, Res.bind_ok]
  · have et : newTranscript ++ [Ev.append "session_id_alice" (bytesOf sA)] ++ [Ev.append "session_id_bob" (bytesOf sB)] = T := by
      rfl
    unfold aliceRound3 aliceRound1
    dsimp only [OT.Env.extract]
    rw [et, hs0, Res.bind_ok, hs1, Res.bind_ok, hhR, Res.bind_ok, hpf, show Res.ofOption (some pf) = Res.ok pf from rfl,
      Res.bind_ok, if_neg hkA, hta, Res.bind_ok]
    dsimp only
    rw [hua, Res.bind_ok]
    dsimp only
    rw [hh1, Res.bind_ok, hd, show Res.ofOption (some d) = Res.ok d from rfl, Res.bind_ok, hrX, Res.bind_ok, hh2, Res.bind_ok]

/-- **C30** (what the normalisation does not give) `S` is made smaller than `2^255`, not at most `q/2`: exactly the
values `q/2 < S < 2^255` of the honest `s` are left as they are.  For secp256k1, `q/2 < 2^255`, so there are such
values, e.g. `2^255 - 1`: the output is not always the low-`S` form that verifiers enforcing it expect. -/
theorem C30_low_s_not_guaranteed (hC : Curve E yodd) (v n : Nat) (h1 : n < E.q) (h2 : n < 2 ^ 255) :
    normalize E (n : F) v = (n, v) := by
  unfold normalize
  rw [toNat_of_lt hC n h1, testBit_255 n (by omega), decide_eq_false (by omega)]
  rfl

/-- the order of secp256k1 leaves room: `2^255 - 1` is below the order and above its half -/
example : let q := 0xFFFFFFFFFFFFFFFFFFFFFFFFFFFFFFFEBAAEDCE6AF48A03BBFD25E8CD0364141
    q < 2 ^ 256 ∧ 2 ^ 255 - 1 < q ∧ q / 2 < 2 ^ 255 - 1 := by decide +kernel

end

/-! ### non-vacuity -/

local instance fact257 : Fact (Nat.Prime 257) := ⟨by norm_num⟩

def toyX (p : ZMod 257) : Nat := min p.val (257 - p.val)
def toyOdd (p : ZMod 257) : Bool := p.val % 2 = 1
def toyEnc (p : ZMod 257) : List UInt8 := (if p = 0 then 0 else if toyOdd p then 3 else 2) :: natToBEfix 32 (toyX p)

def toyPc : PointCodec (ZMod 257) where
  enc := toyEnc
  len := 33
  len_enc p := by unfold toyEnc; rw [List.length_cons, length_natToBEfix]
  inj p q h := by
    have h1 := (List.cons.inj h).1
    have h2 := congrArg beToNat (List.cons.inj h).2
    rw [beToNat_natToBEfix, beToNat_natToBEfix] at h2
    have hx : ∀ p : ZMod 257, toyX p < 256 ^ 32 := by
      intro p
      have := ZMod.val_lt p
      unfold toyX
      omega
    rw [Nat.mod_eq_of_lt (hx p), Nat.mod_eq_of_lt (hx q)] at h2
    have hp := ZMod.val_lt p
    have hq := ZMod.val_lt q
    have hinj : ∀ a b : ZMod 257, a.val = b.val → a = b := fun a b h => ZMod.val_injective 257 h
    have hz : ∀ a : ZMod 257, a = 0 ↔ a.val = 0 := fun a => (ZMod.val_eq_zero a).symm
    unfold toyX at h2
    by_cases hp0 : p = 0
    · rw [hz] at hp0
      refine hinj _ _ ?_
      omega
    · by_cases hq0 : q = 0
      · rw [hz] at hq0
        exact hinj _ _ (by omega)
      · rw [if_neg hp0, if_neg hq0] at h1
        have h3 : toyOdd p = toyOdd q := by
          revert h1
          cases toyOdd p <;> cases toyOdd q <;> decide
        unfold toyOdd at h3
        rw [decide_eq_decide] at h3
        rw [hz] at hp0 hq0
        exact hinj _ _ (by omega)

def toyDec (bs : List UInt8) : Option (ZMod 257) :=
  let c : ZMod 257 := (beToNat bs.tail : Nat)
  if toyEnc c = bs then some c else if toyEnc (-c) = bs then some (-c) else none

/-- the toy curve: the additive group of integers modulo 257 -/
def toyS : SEnv (ZMod 257) (ZMod 257) :=
  { toyEnv with
    pc := toyPc
    dec := toyDec
    dec_enc := fun p _ => by
      have : ∀ p : ZMod 257, toyDec (toyEnc p) = some p := by decide +kernel
      exact this p
    H := fun l i => if i = 31 then UInt8.ofNat (l.foldl (fun a x => a + x.toNat) 1) else 0
    q := 257
    xc := toyX
    msgHash := fun l => List.replicate 31 0 ++ [UInt8.ofNat (l.length + 7)] }

theorem toy_curve : Curve toyS toyOdd where
  be := beRep_be 257 (by norm_num)
  can := Schnorr.canonical_be 257 32 (by norm_num)
  char := ZMod.charP 257
  lt x := by
    show beToNat (natToBEfix 32 x.val) < 257
    have := ZMod.val_lt x
    rw [beToNat_natToBEfix, Nat.mod_eq_of_lt (by omega)]
    exact this
  q256 := by decide
  gne := by decide
  enc p hp := by show toyEnc p = _; unfold toyEnc; rw [if_neg hp]; rfl
  xlt p := by
    have := ZMod.val_lt p
    show min p.val (257 - p.val) < _
    omega
  xneg := by decide +kernel
  yneg := by decide +kernel

theorem toyS_decodes (hashed message : List UInt8) : Decodes toyS hashed message where
  gadget := toy_gadget
  transfer sid nabla zeta := Kos.toy_decodable sid nabla zeta
  chi := toy_chi
  hash l := by
    have := toy_setBytes (UInt8.ofNat (l.foldl (fun a x => a + x.toNat) 1))
    have gen : ∀ b : UInt8, List.ofFn (fun i : Fin 32 => if i = 31 then b else 0) = (List.range 32).map fun t => if t = 31 then b else 0 :=
      fun b => rfl
    have e : bytesOf (toyS.H l) = (List.range 32).map fun t => if t = 31 then UInt8.ofNat (l.foldl (fun a x => a + x.toNat) 1) else 0 :=
      gen _
    rw [e]
    exact this
  msg := by
    have h : ∀ n : Fin 256, toyS.sc.setBytes (List.replicate 31 0 ++ [UInt8.ofNat n.val]) ≠ none := by decide +kernel
    have := h ⟨(UInt8.ofNat ((hashed ++ message).length + 7)).toNat, UInt8.toNat_lt _⟩
    rwa [UInt8.ofNat_toNat] at this
  x p _ := by
    have := ZMod.val_lt p
    show min p.val (257 - p.val) < 257
    omega

/-- key shares 5 and 11, `kB = 3`, `k' = 7`: a run exists and yields a signature that verifies -/
example : ∃ b m2 m3 sig, bobRound2 toyS ⟨165, 11, Kos.toyKeys⟩ [] (fun _ => 1) (fun _ => 2) 3 (fun i => UInt8.ofNat i)
      (fun i => UInt8.ofNat (3 * i)) (fun i => UInt8.ofNat (5 * i)) (fun i => UInt8.ofNat (7 * i)) = .ok (b, m2) ∧
    aliceRound3 toyS (aliceRound1 ⟨165, 5, Kos.toyOut⟩ [] (fun _ => 1)).1 [1, 2, 3] m2 7 9 20 30 40 = .ok m3 ∧
    bobRound4 toyS b [1, 2, 3] m3 = .ok sig ∧
    ecdsaVerify toyS 165 (toyS.msgHash [1, 2, 3]) sig.R sig.S = true := by
  have hm : Matching toyS.toMulEnv.toEnv ⟨165, 5, Kos.toyOut⟩ ⟨165, 11, Kos.toyKeys⟩ :=
    ⟨rfl, by decide +kernel, Kos.toy_correlated⟩
  have hR : hashPoint toyS ((7 : ZMod 257) • (3 : ZMod 257) • toyS.g) = .ok 67 := by decide +kernel
  obtain ⟨b, m2, m3, h2, h3⟩ := C30_progress toy_curve _ _ hm [] [1, 2, 3] (toyS_decodes _ _) (fun _ => 1) (fun _ => 2) 3
    (by decide) (fun i => UInt8.ofNat i) (fun i => UInt8.ofNat (3 * i)) (fun i => UInt8.ofNat (5 * i))
    (fun i => UInt8.ofNat (7 * i)) 7 9 20 30 40 (by
      intro x hx
      rw [hR] at hx
      cases hx
      decide)
  refine ⟨b, m2, m3, ?_⟩
  obtain ⟨k, d, s, hk, -, hd, hs, h4, -⟩ := C30_honest toy_curve _ _ hm [] [1, 2, 3] (fun _ => 1) (fun _ => 2) 3 _ _ _ _ 7 9 20 30 40 b
    m2 m3 h2 h3
  have hd4 : toyS.sc.setBytes (toyS.msgHash ([] ++ [1, 2, 3])) = some 10 := by decide +kernel
  rw [hd4] at hd
  cases hd
  have hx : ∀ k : ZMod 257, k ≠ 0 → toyS.xc (k • toyS.g) ≠ 0 := by decide +kernel
  have hne : ∀ k s : ZMod 257, k ≠ 0 → s * k = 10 + (toyS.xc (k • toyS.g) : ZMod 257) * (5 * 11) → s ≠ 0 := by
    have : ∀ k : ZMod 257, k ≠ 0 → 10 + (toyS.xc (k • toyS.g) : ZMod 257) * (5 * 11) ≠ 0 := by decide +kernel
    rintro k s hk h rfl
    rw [zero_mul] at h
    exact this k hk h.symm
  obtain ⟨sig, h5, -, -, -, h6, -⟩ := h4 (hx k hk) (hne k s hk hs)
  exact ⟨sig, h2, h3, h5, h6⟩

end Verif.Dkls.Sign
