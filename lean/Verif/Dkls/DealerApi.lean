import Verif.Dkls.Dealer
import Verif.Dkls.SignProps

/-! # Property C120: key generation by a trusted dealer -/

set_option linter.unusedSectionVars false

namespace Verif.Dkls.Dealer
open Verif Verif.OT Verif.Bytes

variable {F G : Type} [Field F] [DecidableEq F] [AddCommGroup G] [Module F G]

/-- the receiver's choice bytes and bits -/
def packedOf (rnd : Nat → UInt8) : List UInt8 := (List.range 32).map rnd
def bitsOf (rnd : Nat → UInt8) : List Nat := (List.range 256).map fun i => if bitOf (packedOf rnd) i then 1 else 0

theorem newReceiver_eq (rnd : Nat → UInt8) : newReceiver (G := G) kappa (fun _ => 0) rnd =
    .ok ⟨⟨packedOf rnd, bitsOf rnd, []⟩, 0, [], 256, startTranscript fun _ => 0⟩ := by
  have e : initChoice 256 (packedOf rnd) = .ok (bitsOf rnd) := by
    unfold initChoice bitsOf
    apply mapM_ok
    intro i hi
    rw [List.mem_range] at hi
    rw [extractBit_eq (by simp [packedOf]; omega), Res.bind_ok]
    split <;> rfl
  unfold newReceiver
  rw [if_neg (by decide)]
  show (do let bits ← initChoice 256 (packedOf rnd); _) = _
  rw [e]
  rfl

theorem padStep_ok (pads : Nat → Option (Digest × Digest)) (rnd : Nat → UInt8) (i : Nat) (hi : i < 256)
    (p : Digest × Digest) (hp : pads i = some p) :
    padStep pads (bitsOf rnd) i = .ok (p, if bitOf (packedOf rnd) i then p.2 else p.1) := by
  unfold padStep
  have hb : idx (bitsOf rnd) i = .ok (if bitOf (packedOf rnd) i then 1 else 0) := by
    apply idx_eq_ok.2
    simp [bitsOf, hi]
  rw [hp, show Res.ofOption (some p) = Res.ok p from rfl, Res.bind_ok, hb, Res.bind_ok]
  cases bitOf (packedOf rnd) i <;> rfl

theorem mapM_not_ok {α β : Type} {f : α → Res β} {l : List α} (hp : ∀ x ∈ l, f x ≠ .panic)
    (he : ∃ x ∈ l, f x = .err) : l.mapM f = .err := by
  induction l with
  | nil => obtain ⟨x, hx, -⟩ := he; cases hx
  | cons a l ih =>
    rw [List.mapM_cons]
    cases ha : f a with
    | panic => exact absurd ha (hp a (by simp))
    | err => rfl
    | ok y =>
      obtain ⟨x, hx, hxe⟩ := he
      rcases List.mem_cons.1 hx with rfl | hx
      · rw [ha] at hxe; cases hxe
      · rw [Res.bind_ok, ih (fun z hz => hp z (by simp [hz])) ⟨x, hx, hxe⟩]
        rfl

theorem padStep_err (pads : Nat → Option (Digest × Digest)) (bits : List Nat) (i : Nat) (hp : pads i = none) :
    padStep pads bits i = .err := by
  unfold padStep
  rw [hp]
  rfl

/-- what the dealer hands out when no read fails -/
theorem deal_eq (E : OT.Env F G) (skA skB : F) (rnd : Nat → UInt8) (p : Nat → Digest × Digest)
    (pads : Nat → Option (Digest × Digest)) (hp : ∀ i < 256, pads i = some (p i)) :
    generateAndDeal E skA skB rnd pads = .ok
      (⟨(skA * skB) • E.g, skA, ⟨packedOf rnd, bitsOf rnd,
          (List.range 256).map fun i => if bitOf (packedOf rnd) i then (p i).2 else (p i).1⟩⟩,
       ⟨(skA * skB) • E.g, skB, (List.range 256).map p⟩) := by
  unfold generateAndDeal produceKeyShares produceOTResults
  dsimp only
  rw [newReceiver_eq, Res.bind_ok, show kappa = 256 from rfl]
  dsimp only
  rw [mapM_ok (g := fun i => (p i, if bitOf (packedOf rnd) i then (p i).2 else (p i).1))
    (fun i hi => padStep_ok pads rnd i (List.mem_range.1 hi) (p i) (hp i (List.mem_range.1 hi)))]
  rw [Res.bind_ok, Res.bind_ok]
  dsimp only
  rw [List.map_map, List.map_map]
  rfl

/-- **C120** For all scalars, choice bits and pads: when no read of randomness fails, dealing succeeds; the shares
are the drawn scalars, the public key on both sides is the product of the shares times the generator, and the seed
transfers are correlated: Alice holds, for each of the 256 positions, exactly the pad her choice bit selects.  The
choice bits and the pads are the drawn ones. -/
theorem C120_dealt (E : OT.Env F G) (skA skB : F) (rnd : Nat → UInt8) (p : Nat → Digest × Digest) :
    ∃ a b, generateAndDeal E skA skB rnd (fun i => some (p i)) = .ok (a, b) ∧ Matching E a b ∧
      a.publicKey = (skA * skB) • E.g ∧ a.secretKeyShare = skA ∧ b.secretKeyShare = skB ∧
      a.seedOt.packed = (List.range 32).map rnd ∧ ∀ i < 256, b.seedOt[i]? = some (p i) := by
  refine ⟨_, _, deal_eq E skA skB rnd p _ (fun _ _ => rfl), ⟨rfl, rfl, ⟨?_, ?_, ?_, ?_, ?_⟩⟩, rfl, rfl, rfl, rfl, ?_⟩
  · simp
  · simp
  · simp [bitsOf]
  · simp [packedOf]
  · intro i hi
    refine ⟨(p i).1, (p i).2, ?_, ?_, ?_⟩
    · simp [hi]
    · simp [bitsOf, hi]
    · simp [hi]
  · intro i hi
    simp [hi]

/-- **C120** A failing read of any one of the 512 pads makes dealing return an error (never partial key material,
never a panic). -/
theorem C120_read_error (E : OT.Env F G) (skA skB : F) (rnd : Nat → UInt8) (pads : Nat → Option (Digest × Digest)) :
    generateAndDeal E skA skB rnd pads = .err ↔ ∃ i < 256, pads i = none := by
  constructor
  · intro h
    by_contra hn
    push Not at hn
    have : ∀ i < 256, pads i = some ((pads i).getD (fun _ => 0, fun _ => 0)) := by
      intro i hi
      cases hx : pads i with
      | none => exact absurd hx (hn i hi)
      | some v => rfl
    rw [deal_eq E skA skB rnd _ pads this] at h
    cases h
  · rintro ⟨i, hi, hn⟩
    unfold generateAndDeal produceKeyShares produceOTResults
    dsimp only
    rw [newReceiver_eq, Res.bind_ok, show kappa = 256 from rfl]
    dsimp only
    rw [mapM_not_ok (f := padStep pads (bitsOf rnd)) ?_ ⟨i, List.mem_range.2 hi, padStep_err pads _ i hn⟩]
    · rfl
    · intro j hj
      cases hx : pads j with
      | none => rw [padStep_err pads _ j hx]; exact fun h => by cases h
      | some v => rw [padStep_ok pads rnd j (List.mem_range.1 hj) v hx]; exact fun h => by cases h

/-- **C120** The dealer produces what key generation produces: the outputs of every matching pair whose unpacked
choice vector is the unpacking of its packed one — so of every honest run of the two-party key generation — are
handed out by the dealer for the same shares, choice bytes and pads. -/
theorem C120_covers_keygen (E : OT.Env F G) (hc : Schnorr.Canonical E.sc) (r : Dkg.Rand F) (hg : Dkg.Good E r) :
    ∃ a b, ∃ p : Nat → Digest × Digest, Dkg.run E r = .ok (a, b) ∧ generateAndDeal E r.skA r.skB r.choices (fun i => some (p i)) = .ok (a, b) := by
  obtain ⟨⟨pka, ska, ⟨pk, bs, ks⟩⟩, ⟨pkb, skb, so⟩, hrun, hm, h1, h2, h3⟩ := Dkg.C28_honest E hc r hg
  refine ⟨_, _, fun i => so.getD i (fun _ => 0, fun _ => 0), hrun, ?_⟩
  rw [deal_eq E r.skA r.skB r.choices _ _ (fun _ _ => rfl)]
  obtain ⟨hsame, hkey, hcor⟩ := hm
  dsimp only at h1 h2 h3 hsame hkey hcor
  subst h1 h2 h3
  have hso : (List.range 256).map (fun i => so.getD i (fun _ => 0, fun _ => 0)) = so := by
    apply List.ext_getElem?
    intro i
    by_cases hi : i < 256
    · obtain ⟨k0, k1, e, -, -⟩ := hcor.rel i hi
      simp [hi, e]
    · rw [List.getElem?_eq_none (by simpa using hi), List.getElem?_eq_none (by have := hcor.lenS; omega)]
  have hbs : bitsOf r.choices = bs := by
    apply List.ext_getElem?
    intro i
    by_cases hi : i < 256
    · obtain ⟨k0, k1, -, e, -⟩ := hcor.rel i hi
      rw [e]
      simp [bitsOf, packedOf, hi]
    · rw [List.getElem?_eq_none (by simpa [bitsOf] using hi), List.getElem?_eq_none (by have := hcor.lenB; (try dsimp only at this); omega)]
  have hks : ((List.range 256).map fun i => if bitOf (packedOf r.choices) i then
      (so.getD i (fun _ => 0, fun _ => 0)).2 else (so.getD i (fun _ => 0, fun _ => 0)).1) = ks := by
    apply List.ext_getElem?
    intro i
    by_cases hi : i < 256
    · obtain ⟨k0, k1, e0, -, e⟩ := hcor.rel i hi
      rw [e]
      simp [packedOf, hi, e0]
    · rw [List.getElem?_eq_none (by simpa using hi), List.getElem?_eq_none (by have := hcor.lenK; (try dsimp only at this); omega)]
  rw [hso, hbs, hks]
  rw [← hsame, hkey]
  rfl

/-- **C120** A dealt key survives every history of refreshes: if all the refreshes finish, both parties still hold
the dealt public key and it still is the product of their shares times the generator. -/
theorem C120_refreshes (E : OT.Env F G) (skA skB : F) (rnd : Nat → UInt8) (pads : Nat → Option (Digest × Digest))
    (rs : List (Refresh.Rand F)) (a a' : AliceOutput F G) (b b' : BobOutput F G)
    (hd : generateAndDeal E skA skB rnd pads = .ok (a, b)) (h : Refresh.runs E (a, b) rs = .ok (a', b')) :
    a'.publicKey = (skA * skB) • E.g ∧ b'.publicKey = (skA * skB) • E.g ∧
    a'.publicKey = (a'.secretKeyShare * b'.secretKeyShare) • E.g := by
  have : ∀ i < 256, pads i ≠ none := by
    intro i hi hn
    rw [(C120_read_error E skA skB rnd pads).2 ⟨i, hi, hn⟩] at hd
    cases hd
  have hp : ∀ i < 256, pads i = some ((pads i).getD (fun _ => 0, fun _ => 0)) := by
    intro i hi
    cases hx : pads i with
    | none => exact absurd hx (this i hi)
    | some v => rfl
  rw [deal_eq E skA skB rnd _ pads hp] at hd
  cases hd
  exact Refresh.C29_any_history E rs _ _ _ _ h rfl rfl

/-- **C120** Nothing checks the drawn scalars: with a share equal to zero dealing succeeds and hands both parties the
identity as their public key. -/
theorem C120_zero_share_violated (E : OT.Env F G) (skA skB : F) (rnd : Nat → UInt8) (p : Nat → Digest × Digest)
    (h0 : skA = 0 ∨ skB = 0) :
    ∃ a b, generateAndDeal E skA skB rnd (fun i => some (p i)) = .ok (a, b) ∧ a.publicKey = 0 ∧ b.publicKey = 0 := by
  obtain ⟨a, b, h, hm, hk, -⟩ := C120_dealt E skA skB rnd p
  have : (skA * skB) • E.g = 0 := by rw [mul_eq_zero.2 h0, zero_smul]
  exact ⟨a, b, h, by rw [hk, this], by rw [← hm.same, hk, this]⟩

section
variable [DecidableEq G] {E : Dkls.SEnv F G} {yodd : G → Bool}

/-- **C120** Dealt key material signs: if Bob's round 2 and Alice's round 3 go through on the outputs of the dealer,
there are a nonce `k ≠ 0` and `s` with `s·k = d + x(kG)·skA·skB`, and unless `x(kG)` or `s` is zero Bob's last round
returns a signature with a low `S` that verifies under the dealt public key `skA·skB·G`. -/
theorem C120_signs (hC : Sign.Curve E yodd) (skA skB : F) (rnd : Nat → UInt8) (p : Nat → Digest × Digest)
    (a : AliceOutput F G) (b : BobOutput F G)
    (hd : generateAndDeal E.toMulEnv.toEnv skA skB rnd (fun i => some (p i)) = .ok (a, b))
    (hashed message : List UInt8) (sA sB : Digest) (kB : F) (g0 p0 g1 p1 : Nat → UInt8)
    (kPrime kSch phi hat0 hat1 : F) (bs : Sign.Bob F G) (m2 : Sign.Round2Output G) (m3 : Sign.Round3Output F G)
    (hB : Sign.bobRound2 E b hashed sA sB kB g0 p0 g1 p1 = .ok (bs, m2))
    (hA : Sign.aliceRound3 E (Sign.aliceRound1 a hashed sA).1 message m2 kPrime kSch phi hat0 hat1 = .ok m3) :
    ∃ k d s : F, k ≠ 0 ∧ E.sc.setBytes (E.msgHash (hashed ++ message)) = some d ∧
      s * k = d + (E.xc (k • E.g) : F) * (skA * skB) ∧
      (E.xc (k • E.g) ≠ 0 → s ≠ 0 →
        ∃ sig, Sign.bobRound4 E bs message m3 = .ok sig ∧ sig.R = E.xc (k • E.g) ∧ sig.S < 2 ^ 255 ∧
          Sign.ecdsaVerify E ((skA * skB) • E.g) (E.msgHash (hashed ++ message)) sig.R sig.S = true) := by
  obtain ⟨a', b', hd', hm, hk, hA1, hB1, -, -⟩ := C120_dealt E.toMulEnv.toEnv skA skB rnd p
  rw [hd] at hd'
  cases hd'
  obtain ⟨k, d, s, h1, -, h3, h4, h5, -⟩ := Sign.C30_honest hC a b hm hashed message sA sB kB g0 p0 g1 p1
    kPrime kSch phi hat0 hat1 bs m2 m3 hB hA
  refine ⟨k, d, s, h1, h3, ?_, ?_⟩
  · rw [h4, hA1, hB1]
  · intro hx hs
    obtain ⟨sig, e1, e2, -, e4, e5, -⟩ := h5 hx hs
    refine ⟨sig, e1, e2, e4, ?_⟩
    rw [← hk]
    exact e5
end

/-! ### a concrete case -/

local instance fact257 : Fact (Nat.Prime 257) := ⟨by norm_num⟩

example : ∃ a b, generateAndDeal OT.toyEnv32 3 5 (fun i => UInt8.ofNat (7 * i)) (fun i =>
    some (fun _ => UInt8.ofNat i, fun _ => UInt8.ofNat (i + 1))) = .ok (a, b) ∧ a.publicKey = (15 : ZMod 257) • OT.toyEnv32.g := by
  obtain ⟨a, b, h, -, hk, -⟩ := C120_dealt OT.toyEnv32 3 5 (fun i => UInt8.ofNat (7 * i)) (fun i =>
    (fun _ => UInt8.ofNat i, fun _ => UInt8.ofNat (i + 1)))
  exact ⟨a, b, h, by rw [hk]; decide +kernel⟩

example : ∃ a b, ∃ p : Nat → Digest × Digest, Dkg.run OT.toyEnv32 Dkls.toyRand = .ok (a, b) ∧
    generateAndDeal OT.toyEnv32 Dkls.toyRand.skA Dkls.toyRand.skB Dkls.toyRand.choices (fun i => some (p i)) = .ok (a, b) :=
  C120_covers_keygen OT.toyEnv32 (Schnorr.canonical_be 257 32 (by norm_num)) Dkls.toyRand Dkls.toyRand_good

end Verif.Dkls.Dealer
