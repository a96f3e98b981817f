import Verif.Secret.Encrypt

/-! Property C47 (`Decrypt ∘ Encrypt`) and C65 (membership through `PrimaryKey`).

C47 as stated in English is false of the code: `Encrypt` writes `ct ‖ nonce ‖ seal(acc ‖ msg)`, `Decrypt` reads
`acc ‖ ct ‖ nonce ‖ seal(msg)`. -/

set_option linter.unusedSectionVars false

namespace Verif.Secret
open Verif Verif.Bytes

variable {F G1 G2 GT : Type} [Field F] [DecidableEq F] [AddCommGroup G1] [Module F G1]
  [DecidableEq G1] [AddCommGroup G2] [Module F G2] [DecidableEq G2] [CommGroup GT] [DecidableEq GT]
variable {Pub Priv Rnd : Type}

/-- The seed of the key pair (specification): hash of the encoded accumulator followed by the identifier, padded with
32 zero bytes. -/
def seedOf (E : Env G1 Pub Priv Rnd) (V : G1) (cid : List UInt8) : List UInt8 :=
  E.sha256 (E.marshal V ++ cid) ++ List.replicate 32 0

theorem deriveKey_eq (E : Env G1 Pub Priv Rnd) (hE : E.Lawful) (es : Scheme F) (V : G1) (cid : List UInt8) :
    deriveKey E es V cid = if E.cidOk cid then .ok (E.keyFromSeed (seedOf E V cid)) else .err := by
  rw [deriveKey, genSeed]
  by_cases h : E.cidOk cid = true
  · rw [if_pos h, if_pos h]
    have hl := hE.sha (E.marshal V ++ cid)
    simp only [Res.bind_ok, hl, seedSize, seedOf]
    rw [if_pos (by omega), List.take_of_length_le (by simp [hl])]
  · rw [if_neg h, if_neg h]; rfl

/-- **C47, what `Decrypt` accepts.** Exactly: at least 1160 bytes, the first 60 decode to an accumulator `V`, the
identifier parses, AES-GCM opens the bytes from 1160 on under the key decapsulated from bytes 60..1148 with nonce
1148..1160, and the witness verifies for `V` under the public key *given by the caller*. -/
theorem C47_decrypt_iff (E : Env G1 Pub Priv Rnd) (hE : E.Lawful) (P : Pairing F G1 G2 GT) (es : Scheme F)
    (cid data m : List UInt8) (w : Accumulator.Witness F G1) (pk : G2) :
    decrypt E P es cid data w pk = .ok m ↔
      1160 ≤ data.length ∧ E.cidOk cid = true ∧
      ∃ V, E.unmarshal (data.take 60) = some V ∧
        E.aopen (E.decap (E.keyFromSeed (seedOf E V cid)).2 ((data.drop 60).take 1088))
          ((data.drop 1148).take 12) (data.drop 1160) = some m ∧
        Accumulator.verify P w pk V = true := by
  have c1 : ctSize = 1088 := rfl
  have c2 : accSize = 60 := rfl
  have c3 : nonceSize = 12 := rfl
  rw [decrypt]
  by_cases h1 : data.length < ctSize + accSize
  · rw [if_pos h1]
    constructor
    · intro h; cases h
    · rintro ⟨h, -⟩; omega
  rw [if_neg h1]
  change _ ↔ 1160 ≤ data.length ∧ E.cidOk cid = true ∧
      ∃ V, E.unmarshal (data.take accSize) = some V ∧
        E.aopen (E.decap (E.keyFromSeed (seedOf E V cid)).2 ((data.drop accSize).take ctSize))
          ((data.drop (accSize + ctSize)).take nonceSize) (data.drop (accSize + ctSize + nonceSize)) = some m ∧
        Accumulator.verify P w pk V = true
  rcases hu : E.unmarshal (data.take accSize) with _ | V
  · simp [Res.ofOption]
  simp only [Res.ofOption, Res.bind_ok, deriveKey_eq E hE]
  by_cases hc : E.cidOk cid = true
  swap
  · rw [if_neg hc]
    constructor
    · intro h; cases h
    · rintro ⟨-, h, -⟩; exact absurd h hc
  rw [if_pos hc]
  simp only [Res.bind_ok]
  by_cases h2 : data.length < accSize + ctSize + nonceSize
  · rw [if_pos h2]
    constructor
    · intro h; cases h
    · rintro ⟨h, -⟩; omega
  rw [if_neg h2]
  rcases ho : E.aopen (E.decap (E.keyFromSeed (seedOf E V cid)).2 ((data.drop accSize).take ctSize))
          ((data.drop (accSize + ctSize)).take nonceSize) (data.drop (accSize + ctSize + nonceSize)) with _ | p
  · constructor
    · intro h; cases h
    · rintro ⟨-, -, V', h, h', -⟩
      cases h
      rw [ho] at h'; cases h'
  simp only [Res.bind_ok]
  by_cases hv : Accumulator.verify P w pk V = true
  · rw [if_pos hv]
    constructor
    · intro h; cases h
      exact ⟨by omega, hc, V, rfl, ho, hv⟩
    · rintro ⟨-, -, V', h, h', -⟩
      cases h
      rw [ho] at h'; cases h'; rfl
  · rw [if_neg hv]
    constructor
    · intro h; cases h
    · rintro ⟨-, -, V', h, -, h'⟩
      cases h
      exact absurd h' hv

/-- **C47.** `Decrypt` never crashes. -/
theorem C47_decrypt_no_panic (E : Env G1 Pub Priv Rnd) (hE : E.Lawful) (P : Pairing F G1 G2 GT) (es : Scheme F)
    (cid data : List UInt8) (w : Accumulator.Witness F G1) (pk : G2) :
    decrypt E P es cid data w pk ≠ .panic := by
  rw [decrypt]
  split
  · intro h; cases h
  rcases E.unmarshal (data.take accSize) with _ | V
  · intro h; cases h
  simp only [Res.ofOption, Res.bind_ok, deriveKey_eq E hE]
  split
  · simp only [Res.bind_ok]
    split
    · intro h; cases h
    · generalize E.aopen _ _ _ = o
      rcases o with _ | p
      · intro h; cases h
      · simp only [Res.bind_ok]
        split <;> intro h <;> cases h
  · intro h; cases h

/-- **C47, the output of `Encrypt`.** It succeeds exactly for a parsable identifier and a 60-byte accumulator, and the
layout is KEM ciphertext, nonce, sealed (accumulator followed by message). -/
theorem C47_encrypt_iff (E : Env G1 Pub Priv Rnd) (hE : E.Lawful) (es : Scheme F) (V : G1)
    (cid msg : List UInt8) (r : Rnd) (nonce out : List UInt8) :
    encrypt E es V cid msg r nonce = .ok out ↔
      E.cidOk cid = true ∧ (E.marshal V).length = 60 ∧
      out = (E.encap (E.keyFromSeed (seedOf E V cid)).1 r).1 ++ nonce ++
        E.gseal (E.encap (E.keyFromSeed (seedOf E V cid)).1 r).2 nonce (E.marshal V ++ msg) := by
  rw [encrypt, deriveKey_eq E hE]
  by_cases hc : E.cidOk cid = true
  · rw [if_pos hc]
    simp only [Res.bind_ok]
    change _ ↔ _ ∧ (E.marshal V).length = accSize ∧ _
    by_cases hl : (E.marshal V).length = accSize
    · rw [if_neg (not_not.mpr hl)]
      simp only [Res.ok.injEq, hc, hl, true_and]
      exact eq_comm
    · rw [if_pos hl]
      constructor
      · intro h; cases h
      · rintro ⟨-, h, -⟩; exact absurd h hl
  · rw [if_neg hc]
    constructor
    · intro h; cases h
    · rintro ⟨h, -⟩; exact absurd h hc

/-- **C47 (negation, general).** Whenever the first 60 bytes of the KEM ciphertext are not the encoding of an
accumulator — nothing makes them one — decrypting the output of a successful `Encrypt` fails, with the right
accumulator, identifier, scheme and every witness. -/
theorem C47_roundtrip_fails (E : Env G1 Pub Priv Rnd) (hE : E.Lawful) (P : Pairing F G1 G2 GT) (es : Scheme F) (V : G1)
    (cid msg : List UInt8) (r : Rnd) (nonce out : List UInt8) (w : Accumulator.Witness F G1) (pk : G2)
    (h : encrypt E es V cid msg r nonce = .ok out)
    (hct : E.unmarshal ((E.encap (E.keyFromSeed (seedOf E V cid)).1 r).1.take 60) = none) :
    decrypt E P es cid out w pk = .err := by
  have hno := C47_decrypt_no_panic E hE P es cid out w pk
  obtain ⟨-, -, rfl⟩ := (C47_encrypt_iff E hE es V cid msg r nonce out).mp h
  have hct' := hct
  have hlen := hE.ctl (E.keyFromSeed (seedOf E V cid)).1 r
  rcases hd : decrypt E P es cid _ w pk with m | _ | _
  · obtain ⟨-, -, V', hu, -⟩ := (C47_decrypt_iff E hE P es cid _ m w pk).mp hd
    rw [List.append_assoc, List.take_append_of_le_length (by omega), hct'] at hu
    cases hu
  · rfl
  · exact absurd hd hno

/-- **C47 (negation, forgery).** If decrypting an output of `Encrypt` does return something, then AES-GCM has opened
a string that starts 60 bytes inside the sealed one, under a nonce that is not the sealing nonce's position. -/
theorem C47_roundtrip_is_forgery (E : Env G1 Pub Priv Rnd) (hE : E.Lawful) (P : Pairing F G1 G2 GT) (es : Scheme F) (V : G1)
    (cid msg : List UInt8) (r : Rnd) (nonce out m : List UInt8) (w : Accumulator.Witness F G1) (pk : G2)
    (hn : nonce.length = 12)
    (h : encrypt E es V cid msg r nonce = .ok out) (hd : decrypt E P es cid out w pk = .ok m) :
    ∃ V' k, E.unmarshal ((E.encap (E.keyFromSeed (seedOf E V cid)).1 r).1.take 60) = some V' ∧
      k = E.decap (E.keyFromSeed (seedOf E V' cid)).2 ((out.drop 60).take 1088) ∧
      E.aopen k ((E.gseal (E.encap (E.keyFromSeed (seedOf E V cid)).1 r).2 nonce (E.marshal V ++ msg)).drop 48 |>.take 12)
        ((E.gseal (E.encap (E.keyFromSeed (seedOf E V cid)).1 r).2 nonce (E.marshal V ++ msg)).drop 60) = some m := by
  obtain ⟨-, -, V', hu, ho, -⟩ := (C47_decrypt_iff E hE P es cid out m w pk).mp hd
  obtain ⟨-, -, ho'⟩ := (C47_encrypt_iff E hE es V cid msg r nonce out).mp h
  have hlen := hE.ctl (E.keyFromSeed (seedOf E V cid)).1 r
  have e1 : ∀ k, out.drop (1100 + k) =
      (E.gseal (E.encap (E.keyFromSeed (seedOf E V cid)).1 r).2 nonce (E.marshal V ++ msg)).drop k := by
    intro k
    rw [← List.drop_drop, ho', List.drop_left' (by rw [List.length_append, hlen, hn])]
  refine ⟨V', _, ?_, rfl, ?_⟩
  · rw [ho', List.append_assoc, List.take_append_of_le_length (by omega)] at hu
    exact hu
  · rw [← e1, ← e1]; exact ho

/-- **C47 (partial).** On the layout `Decrypt` expects — accumulator, KEM ciphertext, nonce, sealed message — it returns
the message exactly when the witness verifies.  Missing: `Encrypt` does not produce that layout. -/
theorem C47_roundtrip_partial (E : Env G1 Pub Priv Rnd) (hE : E.Lawful) (P : Pairing F G1 G2 GT) (es : Scheme F) (V : G1)
    (cid msg : List UInt8) (r : Rnd) (nonce : List UInt8) (w : Accumulator.Witness F G1) (pk : G2)
    (hc : E.cidOk cid = true) (hn : nonce.length = 12) (hl : (E.marshal V).length = 60) (m : List UInt8) :
    decrypt E P es cid (E.marshal V ++ ((E.encap (E.keyFromSeed (seedOf E V cid)).1 r).1 ++ (nonce ++
        E.gseal (E.encap (E.keyFromSeed (seedOf E V cid)).1 r).2 nonce msg))) w pk = .ok m ↔
      m = msg ∧ Accumulator.verify P w pk V = true := by
  have hlen := hE.ctl (E.keyFromSeed (seedOf E V cid)).1 r
  rw [C47_decrypt_iff E hE, List.take_left' hl, List.drop_left' hl, List.take_left' hlen]
  have d1 : ∀ (k : Nat) (a b c d : List UInt8), a.length = 60 → b.length = 1088 → c.length = 12 →
      (a ++ (b ++ (c ++ d))).drop 1148 = c ++ d ∧ (a ++ (b ++ (c ++ d))).drop 1160 = d := by
    intro k a b c d h1 h2 h3
    constructor
    · rw [← List.append_assoc, List.drop_left' (by rw [List.length_append]; omega)]
    · rw [← List.append_assoc, ← List.append_assoc, List.drop_left' (by simp only [List.length_append]; omega)]
  obtain ⟨e1, e2⟩ := d1 0 _ _ _ (E.gseal (E.encap (E.keyFromSeed (seedOf E V cid)).1 r).2 nonce msg) hl hlen hn
  rw [e1, e2, List.take_left' hn]
  simp only [hE.unm, Option.some.injEq, hc, true_and, exists_eq_left', hE.kem, hE.aead]
  constructor
  · rintro ⟨-, h, h'⟩; exact ⟨h.symm, h'⟩
  · rintro ⟨rfl, h⟩
    refine ⟨?_, rfl, h⟩
    simp only [List.length_append]; omega

/-- **C47 (negation).** The scheme's secret key protects nothing: encryption and decryption do not depend on it. -/
theorem C47_secret_key_unused (E : Env G1 Pub Priv Rnd) (P : Pairing F G1 G2 GT) (es es' : Scheme F) (V : G1)
    (cid msg : List UInt8) (r : Rnd) (nonce data : List UInt8) (w : Accumulator.Witness F G1) (pk : G2) :
    encrypt E es V cid msg r nonce = encrypt E es' V cid msg r nonce ∧
    decrypt E P es cid data w pk = decrypt E P es' cid data w pk := ⟨rfl, rfl⟩

/-- **C47 (negation).** The witness check authorises everybody: the public key is the caller's, so for every
accumulator a passing pair is obtained from a secret of the caller's own choosing. -/
theorem C47_anyone_authorised (P : Pairing F G1 G2 GT) (hg : P.g2 ≠ 0) (V : G1) (hV : V ≠ 0) (α y : F)
    (hα : α ≠ 0) (hy : y ≠ 0) (hs : y ≠ -α) :
    ∃ w, Accumulator.newWitness y V α = .ok w ∧
      Accumulator.verify P w (Accumulator.getPublicKey P α) V = true := by
  obtain ⟨w, hw⟩ := (Accumulator.C33_issue_iff y α V).mpr ⟨hV, hα, hy, hs⟩
  exact ⟨w, hw, (Accumulator.C33_issued_verifies P y α V w hg hw).2⟩

/-- **C47.** Different (accumulator, identifier) pairs give different key seeds, unless SHA-256 collides. -/
theorem C47_seed_binding (E : Env G1 Pub Priv Rnd) (hE : E.Lawful) (V V' : G1) (cid cid' : List UInt8)
    (hl : (E.marshal V).length = 60) (hl' : (E.marshal V').length = 60)
    (h : seedOf E V cid = seedOf E V' cid') :
    (V = V' ∧ cid = cid') ∨ ∃ a b, a ≠ b ∧ E.sha256 a = E.sha256 b := by
  have h1 := (List.append_inj h (by rw [hE.sha, hE.sha])).1
  by_cases hab : E.marshal V ++ cid = E.marshal V' ++ cid'
  · left
    obtain ⟨h2, h3⟩ := List.append_inj hab (by rw [hl, hl'])
    refine ⟨?_, h3⟩
    have := hE.unm V
    rw [h2, hE.unm] at this
    exact (Option.some.inj this).symm
  · exact Or.inr ⟨_, _, hab, h1⟩

/-- **C47 (negation).** `NewKey` does not separate public key and property name: moving bytes from one to the other gives
the same secret key. -/
theorem C47_key_concat (hash : List UInt8 → F) (pk a b : List UInt8) :
    newKey hash (a ++ b) pk = newKey hash b (pk ++ a) := by
  rw [newKey, newKey, List.append_assoc]

/-- **C47.** For public keys of one length, equal keys mean equal inputs or a collision of `Scalar.Hash`. -/
theorem C47_key_binding (hash : List UInt8 → F) (pk pk' n n' : List UInt8) (hl : pk.length = pk'.length)
    (h : newKey hash n pk = newKey hash n' pk') :
    (pk = pk' ∧ n = n') ∨ ∃ a b, a ≠ b ∧ hash a = hash b := by
  by_cases hab : pk ++ n = pk' ++ n'
  · exact Or.inl (List.append_inj hab hl)
  · exact Or.inr ⟨_, _, hab, h⟩

/-! ### C65: membership through `PrimaryKey` -/

/-- **C65.** `CreateAccumulator` on any list of values gives the accumulator of exactly those elements:
`∏ (hash v + α)` times the generator. -/
theorem C65_create (P : Pairing F G1 G2 GT) (hg : P.g1 ≠ 0) (hash : List UInt8 → F) (α : F) (vs : List (List UInt8)) :
    createAccumulator P hash α vs = .ok ((vs.map fun v => hash v + α).prod • P.g1) := by
  have h := Accumulator.C32_step α (Accumulator.new P) (.update (elements hash vs) [])
  rw [if_neg (by
    simp only [Accumulator.new, Accumulator.Op.removed, List.not_mem_nil, or_false, not_and]
    intro h; exact absurd h hg)] at h
  rw [createAccumulator]
  refine Eq.trans ?_ (h.trans ?_)
  · rfl
  · simp only [Accumulator.Op.added, Accumulator.Op.removed, Accumulator.factor, List.map_nil, List.prod_nil,
      inv_one, mul_one, elements, List.map_map, Accumulator.new]
    rfl

/-- **C65.** A witness issued by the key for a value verifies against that accumulator under that key. -/
theorem C65_witness_verifies (P : Pairing F G1 G2 GT) (hg : P.g2 ≠ 0) (hash : List UInt8 → F) (α : F) (V : G1)
    (v : List UInt8) (w : Accumulator.Witness F G1) (h : createWitness hash α V v = .ok w) :
    w.y = hash v ∧ verifyWitness P α V w = true :=
  Accumulator.C33_issued_verifies P _ α V w hg h

/-- **C65 (negation).** Verification does not imply membership: for a value that was never added, `CreateWitness`
succeeds and its witness verifies (unless the value hashes to `0` or `-α`). -/
theorem C65_nonmember_verifies (P : Pairing F G1 G2 GT) (hg1 : P.g1 ≠ 0) (hg2 : P.g2 ≠ 0) (hash : List UInt8 → F) (α : F)
    (vs : List (List UInt8)) (v : List UInt8) (hα : α ≠ 0) (hv : hash v ≠ 0) (hv' : hash v ≠ -α)
    (hvs : ∀ u ∈ vs, hash u ≠ -α) (_hnot : v ∉ vs) :
    ∃ V w, createAccumulator P hash α vs = .ok V ∧ createWitness hash α V v = .ok w ∧
      verifyWitness P α V w = true := by
  have hV : (vs.map fun v => hash v + α).prod • P.g1 ≠ 0 := by
    refine smul_ne_zero ?_ hg1
    rw [Ne, List.prod_eq_zero_iff]
    intro h0
    obtain ⟨u, hu, h⟩ := List.mem_map.mp h0
    exact hvs u hu (eq_neg_of_add_eq_zero_left h)
  obtain ⟨w, hw⟩ := (Accumulator.C33_issue_iff (hash v) α _).mpr ⟨hV, hα, hv, hv'⟩
  exact ⟨_, w, C65_create P hg1 hash α vs, hw, (C65_witness_verifies P hg2 hash α _ v w hw).2⟩

/-- **C65.** Witness soundness that does hold: a witness issued for the accumulator of `vs` no longer verifies after the
accumulator has changed to a different value. -/
theorem C65_stale_witness (P : Pairing F G1 G2 GT) (α : F) (V V' : G1) (w : Accumulator.Witness F G1)
    (h : verifyWitness P α V w = true) (hne : V ≠ V') : verifyWitness P α V' w = false := by
  by_contra hv
  rw [Bool.not_eq_false] at hv
  have a := ((Accumulator.C33_verify_iff P w α V).mp h).2.2.2.2
  have b := ((Accumulator.C33_verify_iff P w α V').mp hv).2.2.2.2
  exact hne (a.symm.trans b)

/-- **C65.** `UpdateAccumulator` adds and removes exactly the named values: the result is the accumulator of
`(vs ∪ adds) \ dels` whatever the order in which values are listed. -/
theorem C65_update (P : Pairing F G1 G2 GT) (hg : P.g1 ≠ 0) (hash : List UInt8 → F) (α : F)
    (vs adds dels rest : List (List UInt8)) (hdel : ∀ u ∈ vs ++ adds, hash u ≠ -α)
    (hp : (vs ++ adds).Perm (dels ++ rest)) :
    ∃ V, createAccumulator P hash α vs = .ok V ∧
      updateAccumulator hash α V adds dels = createAccumulator P hash α rest := by
  have hne : ∀ l : List (List UInt8), (∀ u ∈ l, hash u ≠ -α) → (l.map fun v => hash v + α).prod ≠ 0 := by
    intro l hl
    rw [Ne, List.prod_eq_zero_iff]
    intro h0
    obtain ⟨u, hu, h⟩ := List.mem_map.mp h0
    exact hl u hu (eq_neg_of_add_eq_zero_left h)
  refine ⟨_, C65_create P hg hash α vs, ?_⟩
  rw [C65_create P hg]
  have hd : ∀ u ∈ dels ++ rest, hash u ≠ -α := fun u hu => hdel u (hp.mem_iff.mpr hu)
  have hd1 := hne dels fun u hu => hd u (List.mem_append_left _ hu)
  have hv1 := hne vs fun u hu => hdel u (List.mem_append_left _ hu)
  have h := Accumulator.C32_step α ((vs.map fun v => hash v + α).prod • P.g1)
    (.update (elements hash adds) (elements hash dels))
  rw [if_neg (by
    simp only [Accumulator.Op.removed, elements, not_or]
    refine ⟨fun hc => smul_ne_zero hv1 hg hc.1, fun hm => ?_⟩
    obtain ⟨u, hu, he⟩ := List.mem_map.mp hm
    exact hd u (List.mem_append_left _ hu) he)] at h
  have hprod := (hp.map fun v => hash v + α).prod_eq
  rw [List.map_append, List.map_append, List.prod_append, List.prod_append] at hprod
  refine Eq.trans (b := (Accumulator.Op.update (elements hash adds) (elements hash dels)).apply α _) rfl (h.trans ?_)
  simp only [Accumulator.Op.added, Accumulator.Op.removed, Accumulator.factor, elements, List.map_map,
    Res.ok.injEq, smul_smul]
  congr 1
  have : ∀ l : List (List UInt8), (l.map ((fun y => y + α) ∘ hash)) = l.map fun v => hash v + α := fun l => rfl
  simp only [this]
  field_simp
  linear_combination hprod

/-! ### a concrete environment -/

section Examples

local instance fact257 : Fact (Nat.Prime 257) := ⟨by norm_num⟩
abbrev K := ZMod 257
instance : DecidableEq (Multiplicative K) := inferInstanceAs (DecidableEq K)

/-- A lawful environment: toy accumulator codec on 60 bytes, KEM and AEAD that are correct (not secure). -/
def toyEnv : Env K (List UInt8) (List UInt8) Unit where
  cidOk := fun c => !c.isEmpty
  marshal := fun x => natToBEfix 60 x.val
  unmarshal := fun b => if b.length = 60 ∧ beToNat b < 257 then some (beToNat b : K) else none
  sha256 := fun b => natToBEfix 32 (beToNat b)
  keyFromSeed := fun s => (s, s)
  encap := fun pk _ => (List.replicate 1088 0xAB, pk)
  decap := fun sk _ => sk
  gseal := fun k n m => k ++ (n ++ m)
  aopen := fun k n c => if c.take (k.length + n.length) = k ++ n then some (c.drop (k.length + n.length)) else none

theorem toyEnv_lawful : toyEnv.Lawful where
  unm := by
    intro x
    have h := ZMod.val_lt x
    have h2 : beToNat (natToBEfix 60 x.val) = x.val := by
      rw [beToNat_natToBEfix, Nat.mod_eq_of_lt]
      exact lt_of_lt_of_le h (by decide +kernel)
    simp only [toyEnv, h2, length_natToBEfix, h, and_self, if_true, ZMod.natCast_zmod_val]
  sha := fun b => length_natToBEfix _ _
  ctl := fun _ _ => List.length_replicate ..
  kem := fun _ _ => rfl
  aead := by
    intro k n m
    simp only [toyEnv]
    rw [← List.append_assoc, List.take_left' (by simp), List.drop_left' (by simp), if_pos rfl]

/-- **C47 (negation, instance).** With correct primitives and the right inputs, decrypting an encrypted message
gives an error for every message, witness and key. -/
theorem C47_not_roundtrip (msg nonce out : List UInt8) (w : Accumulator.Witness K K) (pk : K)
    (h : encrypt toyEnv ⟨(5 : K)⟩ (7 : K) [0x62] msg () nonce = .ok out) :
    decrypt toyEnv (toyPairing K) ⟨(5 : K)⟩ [0x62] out w pk = .err := by
  refine C47_roundtrip_fails toyEnv toyEnv_lawful _ _ _ _ msg () nonce out w pk h ?_
  decide +kernel

/-- the encryption does succeed -/
example (msg nonce : List UInt8) : ∃ out, encrypt toyEnv ⟨(5 : K)⟩ (7 : K) [0x62] msg () nonce = .ok out :=
  ⟨_, (C47_encrypt_iff toyEnv toyEnv_lawful _ _ _ _ _ _ _).mpr ⟨rfl, length_natToBEfix _ _, rfl⟩⟩

/-- the layout `Decrypt` expects: a valid witness (made by an outsider with its own key 9) opens it, an invalid one does not -/
example (msg nonce : List UInt8) (hn : nonce.length = 12) :
    decrypt toyEnv (toyPairing K) ⟨(5 : K)⟩ [0x62] (toyEnv.marshal (7 : K) ++
      ((toyEnv.encap (toyEnv.keyFromSeed (seedOf toyEnv (7 : K) [0x62])).1 ()).1 ++ (nonce ++
        toyEnv.gseal (toyEnv.encap (toyEnv.keyFromSeed (seedOf toyEnv (7 : K) [0x62])).1 ()).2 nonce msg)))
      ⟨(7 : K) * (3 + 9)⁻¹, 3⟩ (Accumulator.getPublicKey (toyPairing K) (9 : K)) = .ok msg :=
  (C47_roundtrip_partial toyEnv toyEnv_lawful (toyPairing K) ⟨(5 : K)⟩ (7 : K) [0x62] msg () nonce _ _ rfl hn
    (length_natToBEfix _ _) msg).mpr ⟨rfl, by decide +kernel⟩

example : Accumulator.verify (toyPairing K) ⟨(3 : K), 3⟩ (Accumulator.getPublicKey (toyPairing K) (9 : K)) (7 : K) = false := by
  decide +kernel

/-- a non-member's witness verifies; hash = length of the value -/
example : (do
    let V ← createAccumulator (toyPairing K) (fun b => (b.length : K)) 5 [[1], [1, 2]]
    let w ← createWitness (fun b => (b.length : K)) 5 V [1, 2, 3]
    let V' ← updateAccumulator (fun b => (b.length : K)) 5 V [[1, 2, 3, 4]] [[1]]
    let V'' ← createAccumulator (toyPairing K) (fun b => (b.length : K)) 5 [[1, 2, 3, 4], [1, 2]]
    Res.ok (verifyWitness (toyPairing K) 5 V w, verifyWitness (toyPairing K) 5 V' w, decide (V' = V''))) =
    Res.ok (true, false, true) := by decide +kernel

end Examples

end Verif.Secret
