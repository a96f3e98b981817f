import Verif.OT.Simplest
import Verif.Schnorr.Props
import Verif.Base.Tactics

/-! # Property C24 (seed oblivious transfer) -/

set_option linter.unusedSectionVars false

namespace Verif.OT
open Verif

variable {F G : Type} [Field F] [AddCommGroup G] [Module F G]

/-! ### helper lemmas -/

theorem mapM_ok {α β : Type} {f : α → Res β} {g : α → β} {l : List α}
    (h : ∀ x ∈ l, f x = .ok (g x)) : l.mapM f = .ok (l.map g) := by
  induction l with
  | nil => rfl
  | cons x xs ih =>
    rw [List.mapM_cons, h x (by simp), ih fun y hy => h y (by simp [hy])]
    rfl

theorem mapM_eq_ok {α β : Type} {f : α → Res β} {l : List α} {r : List β}
    (h : l.mapM f = .ok r) : r.length = l.length ∧ ∀ i (hi : i < l.length), ∃ y, r[i]? = some y ∧ f l[i] = .ok y := by
  induction l generalizing r with
  | nil => cases h; simp
  | cons x xs ih =>
    rw [List.mapM_cons] at h
    obtain ⟨y, hy, h⟩ := Res.bind_eq_ok.1 h
    obtain ⟨ys, hys, h⟩ := Res.bind_eq_ok.1 h
    cases h
    obtain ⟨h1, h2⟩ := ih hys
    refine ⟨by simp [h1], fun i hi => ?_⟩
    cases i with
    | zero => exact ⟨y, by simp, hy⟩
    | succ i =>
      obtain ⟨z, hz1, hz2⟩ := h2 i (by simpa using hi)
      exact ⟨z, by simpa using hz1, by simpa using hz2⟩

theorem mapM_range_eq_ok {β : Type} {f : Nat → Res β} {n : Nat} {r : List β}
    (h : (List.range n).mapM f = .ok r) :
    r.length = n ∧ ∀ i < n, ∃ y, r[i]? = some y ∧ f i = .ok y := by
  obtain ⟨h1, h2⟩ := mapM_eq_ok h
  rw [List.length_range] at h1
  refine ⟨h1, fun i hi => ?_⟩
  obtain ⟨y, hy1, hy2⟩ := h2 i (by simpa using hi)
  exact ⟨y, hy1, by simpa using hy2⟩

theorem mapM_range_ok_iff {β : Type} {f : Nat → Res β} {n : Nat} :
    (∃ r, (List.range n).mapM f = .ok r) ↔ ∀ i < n, ∃ y, f i = .ok y := by
  constructor
  · rintro ⟨r, h⟩ i hi
    obtain ⟨y, -, hy⟩ := (mapM_range_eq_ok h).2 i hi
    exact ⟨y, hy⟩
  · intro h
    have : ∀ l : List Nat, (∀ x ∈ l, x < n) → ∃ r, l.mapM f = .ok r := by
      intro l
      induction l with
      | nil => intro _; exact ⟨[], rfl⟩
      | cons x xs ih =>
        intro hl
        obtain ⟨y, hy⟩ := h x (hl x (by simp))
        obtain ⟨ys, hys⟩ := ih fun z hz => hl z (by simp [hz])
        exact ⟨y :: ys, by rw [List.mapM_cons, hy, hys]; rfl⟩
    exact this _ fun x hx => List.mem_range.1 hx

theorem idx_eq_ok {α : Type} {l : List α} {i : Nat} {a : α} : idx l i = .ok a ↔ l[i]? = some a := by
  unfold idx
  cases l[i]? <;> simp

theorem idx_map_range {α : Type} (f : Nat → α) {n i : Nat} (h : i < n) :
    idx ((List.range n).map f) i = .ok (f i) := by
  rw [idx_eq_ok]; simp [h]

/-- the `i`-th bit of a byte vector, little-endian across and within bytes -/
def bitOf (v : List UInt8) (i : Nat) : Bool := (v.getD (i / 8) 0).toNat.testBit (i % 8)

theorem byte_bit (b : UInt8) (i : Nat) :
    ((b >>> UInt8.ofNat (i &&& 7)) &&& 1) = if b.toNat.testBit (i % 8) then 1 else 0 := by
  apply UInt8.toNat_inj.1
  have h7 : i &&& 7 = i % 8 := Nat.and_two_pow_sub_one_eq_mod i 3
  have hlt : i % 8 < 8 := Nat.mod_lt _ (by norm_num)
  rw [UInt8.toNat_and, UInt8.toNat_shiftRight, UInt8.toNat_ofNat', h7]
  have e : (i % 8 % 2 ^ 8) % 8 = i % 8 := by omega
  rw [e]
  have h1 : (1 : UInt8).toNat = 1 := rfl
  rw [h1, Nat.and_one_is_mod]
  have := Nat.testBit_eq_decide_div_mod_eq (x := b.toNat) (i := i % 8)
  rw [Nat.shiftRight_eq_div_pow]
  by_cases hb : b.toNat.testBit (i % 8) = true
  · rw [hb] at this
    rw [if_pos hb]
    simpa using this
  · rw [if_neg hb]
    rw [Bool.not_eq_true] at hb
    rw [hb] at this
    have h2 : ¬ b.toNat / 2 ^ (i % 8) % 2 = 1 := by simpa using this
    simp only [UInt8.toNat_zero]
    omega

theorem extractBit_eq {v : List UInt8} {i : Nat} (h : i / 8 < v.length) :
    extractBit v i = .ok (if bitOf v i then 1 else 0) := by
  have h8 : i >>> 3 = i / 8 := by simp [Nat.shiftRight_eq_div_pow]
  unfold extractBit
  rw [h8, idx_eq_ok.2 (List.getElem?_eq_getElem h), Res.bind_ok, byte_bit]
  unfold bitOf
  rw [List.getD_eq_getElem?_getD, List.getElem?_eq_getElem h]
  rfl

theorem xor_cancel (a b : Digest) : xorBytes a (xorBytes a b) = b := by
  funext i
  simp [xorBytes, ← UInt8.xor_assoc]

theorem xor_comm' (a b : Digest) : xorBytes a b = xorBytes b a := by
  funext i; simp [xorBytes, UInt8.xor_comm]

/-! ### specification -/

/-- The outputs of a 1-out-of-2 random OT on `n` instances fit together: `w` is the choice bit (read
from the receiver's packed vector), and the receiver's key is the sender's key selected by `w`. -/
structure Correlated (n : Nat) (skeys : List (Digest × Digest)) (o : ReceiverOutput) : Prop where
  lenS : skeys.length = n
  lenK : o.keys.length = n
  lenB : o.bits.length = n
  lenP : 8 * o.packed.length = n
  rel : ∀ i < n, ∃ k0 k1, skeys[i]? = some (k0, k1) ∧
    o.bits[i]? = some (if bitOf o.packed i then 1 else 0) ∧
    o.keys[i]? = some (if bitOf o.packed i then k1 else k0)

/-- the receiver's masked choice `A = a·G + w·B` -/
def maskedPoint (E : Env F G) (w : Bool) (a : F) (B : G) : G := a • E.g + if w then B else 0

/-- **C24** Honest run, for every batch of `8n` transfers, all choice bits `rnd`, secret `b`, nonces
`a i`, session id, hash and transcript function.  If the sender's Schnorr proof can be formed and no
masked choice is the identity, the whole run – including both verification rounds – succeeds, and
the outputs are correlated. -/
theorem C24_honest_run (E : Env F G) (hc : Schnorr.Canonical E.sc) (n : Nat) (sid : Digest)
    (rnd : Nat → UInt8) (b k : F) (a : Nat → F)
    (hk : Schnorr.prove E.schnorr E.g
      (bytesOf (E.X (startTranscript sid) "sender schnorr proof")) b k ≠ none)
    (hA : ∀ i < 8 * n, maskedPoint E (bitOf ((List.range n).map rnd) i) (a i) (b • E.g) ≠ 0) :
    ∃ s r, run E (8 * n) sid rnd b k a = .ok (s, r) ∧ Correlated (8 * n) s.keys r.out ∧
      r.out.packed = (List.range n).map rnd := by
  have h8 : (8 * n) &&& 7 = 0 := by
    have := Nat.and_two_pow_sub_one_eq_mod (8 * n) 3
    norm_num at this
    omega
  have h8' : (8 * n) >>> 3 = n := by
    rw [Nat.shiftRight_eq_div_pow]; norm_num
  set packed := (List.range n).map rnd with hpacked
  have hplen : packed.length = n := by simp [hpacked]
  obtain ⟨pf, hpf⟩ := Option.ne_none_iff_exists'.1 hk
  obtain ⟨hst, hver⟩ := (Schnorr.C20_complete E.schnorr hc E.g _ b k).1 pf hpf
  -- receiver initialisation
  have hinit : initChoice (8 * n) packed =
      .ok ((List.range (8 * n)).map fun i => if bitOf packed i then 1 else 0) := by
    unfold initChoice
    apply mapM_ok
    intro i hi
    rw [List.mem_range] at hi
    rw [extractBit_eq (by omega), Res.bind_ok]
    split <;> rfl
  set w : Nat → Nat := fun i => if bitOf packed i then 1 else 0 with hw
  set t0 := startTranscript sid with ht0
  set salt := E.X (t0 ++ [.extract "sender schnorr proof"]) "random oracle salts" with hsalt
  -- round 2
  have hstep : ∀ i < 8 * n, padTransferStep E (b • E.g) salt ((List.range (8 * n)).map w) a i =
      .ok (E.pc.enc (maskedPoint E (bitOf packed i) (a i) (b • E.g)),
        padKey E salt i (a i • b • E.g)) := by
    intro i hi
    unfold padTransferStep
    rw [idx_map_range w hi]
    simp only [Res.bind_ok]
    unfold ctCopy
    rw [if_neg (by simp [E.pc.len_enc]), Res.bind_ok]
    simp only [ctSel, hw, maskedPoint]
    by_cases hb : bitOf packed i <;> simp [hb]
  -- round 3 decoding
  have hdec : decodeAll E ((List.range (8 * n)).map fun i =>
      E.pc.enc (maskedPoint E (bitOf packed i) (a i) (b • E.g))) =
      .ok ((List.range (8 * n)).map fun i => maskedPoint E (bitOf packed i) (a i) (b • E.g)) := by
    have : ∀ l : List Nat, (∀ x ∈ l, x < 8 * n) → decodeAll E (l.map fun i =>
      E.pc.enc (maskedPoint E (bitOf packed i) (a i) (b • E.g))) =
      .ok (l.map fun i => maskedPoint E (bitOf packed i) (a i) (b • E.g)) := by
      intro l
      induction l with
      | nil => intro _; rfl
      | cons x xs ih =>
        intro hl
        simp only [List.map_cons, decodeAll]
        rw [E.dec_enc _ (hA x (hl x (by simp)))]
        simp only
        rw [ih fun y hy => hl y (by simp [hy])]
        rfl
    exact this _ fun x hx => List.mem_range.1 hx
  -- the sender's two keys
  set K0 : Nat → Digest := fun i =>
    padKey E salt i (b • maskedPoint E (bitOf packed i) (a i) (b • E.g)) with hK0
  set K1 : Nat → Digest := fun i =>
    padKey E salt i (b • (maskedPoint E (bitOf packed i) (a i) (b • E.g) + -(b • E.g))) with hK1
  set RK : Nat → Digest := fun i => padKey E salt i (a i • b • E.g) with hRK
  have hsel : ∀ i, RK i = if bitOf packed i then K1 i else K0 i := by
    intro i
    simp only [hRK, hK0, hK1, maskedPoint]
    by_cases hb : bitOf packed i <;> simp only [hb, if_true, if_false, Bool.false_eq_true]
    · congr 1; module
    · congr 1; module
  set HH : Digest → Digest := fun d => E.H (bytesOf (E.H (bytesOf d))) with hHH
  -- assemble
  set r0 : Receiver G :=
    { out := { packed := packed, bits := (List.range (8 * n)).map w, keys := [] }, senderPublicKey := 0,
      senderChallenge := [], batchSize := 8 * n, transcript := t0 } with hr0
  have hnr : newReceiver (G := G) (8 * n) sid rnd = .ok r0 := by
    unfold newReceiver
    rw [if_neg (by simp [h8]), h8', ← hpacked]
    simp only [hinit]
    rfl
  set s0 : Sender F G :=
    { keys := [], secretKey := 0, publicKey := 0, batchSize := 8 * n, transcript := t0 } with hs0
  have hns : newSender (F := F) (G := G) (8 * n) sid = .ok s0 := by
    unfold newSender
    rw [if_neg (by simp [h8])]
  set s1 : Sender F G :=
    { keys := [], secretKey := b, publicKey := b • E.g, batchSize := 8 * n,
      transcript := t0 ++ [.extract "sender schnorr proof"] } with hs1
  have hsr1 : s0.round1 E b k = .ok (s1, pf) := by
    unfold Sender.round1 Env.extract
    simp only [hs0]
    rw [hpf]
  set t2 := t0 ++ [Ev.extract "sender schnorr proof"] ++ [Ev.extract "random oracle salts"] with ht2
  set r2 : Receiver G :=
    { out := { packed := packed, bits := (List.range (8 * n)).map w, keys := (List.range (8 * n)).map RK },
      senderPublicKey := b • E.g, senderChallenge := [], batchSize := 8 * n, transcript := t2 } with hr2
  have hrr2 : r0.round2 E pf a = .ok (r2, (List.range (8 * n)).map fun i =>
      E.pc.enc (maskedPoint E (bitOf packed i) (a i) (b • E.g))) := by
    unfold Receiver.round2 Env.extract
    simp only [hr0]
    rw [hver, hst]
    simp only [Bool.not_true, Bool.false_eq_true, if_false]
    rw [mapM_ok (g := fun i => (E.pc.enc (maskedPoint E (bitOf packed i) (a i) (b • E.g)),
        padKey E salt i (a i • b • E.g))) (fun i hi => hstep i (List.mem_range.1 hi))]
    simp only [Res.bind_ok, List.map_map]
    rfl
  set s3 : Sender F G :=
    { keys := (List.range (8 * n)).map fun i => (K0 i, K1 i), secretKey := b, publicKey := b • E.g,
      batchSize := 8 * n, transcript := t2 } with hs3
  set ch : Nat → Digest := fun i => xorBytes (HH (K0 i)) (HH (K1 i)) with hch
  have hsr3 : s1.round3 E ((List.range (8 * n)).map fun i =>
      E.pc.enc (maskedPoint E (bitOf packed i) (a i) (b • E.g))) =
      .ok (s3, (List.range (8 * n)).map ch) := by
    unfold Sender.round3 Env.extract
    rw [hdec]
    simp only [Res.bind_ok, hs1]
    rw [mapM_ok (g := fun i => ((K0 i, K1 i), ch i))]
    · simp only [Res.bind_ok, List.map_map]
      rfl
    · intro i hi
      unfold senderKeys
      rw [idx_map_range _ (List.mem_range.1 hi)]
      rfl
  set r4 : Receiver G := { r2 with senderChallenge := (List.range (8 * n)).map ch } with hr4
  have hrr4 : r2.round4 E ((List.range (8 * n)).map ch) =
      .ok (r4, (List.range (8 * n)).map fun i => HH (K0 i)) := by
    unfold Receiver.round4
    rw [mapM_ok (g := fun i => HH (K0 i))]
    · rfl
    · intro i hi
      have hi' := List.mem_range.1 hi
      simp only [hr2]
      rw [idx_map_range _ hi', idx_map_range _ hi', idx_map_range _ hi']
      simp only [Res.bind_ok]
      congr 1
      simp only [ctSel, hw]
      have := hsel i
      by_cases hb : bitOf packed i
      · simp only [hb, if_true] at this ⊢
        rw [this, hch]
        show xorBytes (xorBytes (HH (K0 i)) (HH (K1 i))) (HH (K1 i)) = _
        rw [xor_comm' (HH (K0 i)), xor_comm', xor_cancel]
      · simp only [hb, Bool.false_eq_true, if_false] at this ⊢
        rw [this]
        simp [hHH]
  have hsr5 : s3.round5 E ((List.range (8 * n)).map fun i => HH (K0 i)) =
      .ok ((List.range (8 * n)).map fun i => (E.H (bytesOf (K0 i)), E.H (bytesOf (K1 i)))) := by
    unfold Sender.round5
    apply mapM_ok
    intro i hi
    have hi' := List.mem_range.1 hi
    simp only [hs3]
    rw [idx_map_range _ hi', idx_map_range _ hi']
    simp only [Res.bind_ok]
    rw [if_neg (by simp [hHH])]
  have hrr6 : r4.round6 E ((List.range (8 * n)).map
      fun i => (E.H (bytesOf (K0 i)), E.H (bytesOf (K1 i)))) = .ok () := by
    unfold Receiver.round6
    rw [mapM_ok (g := fun _ => ())]
    · rfl
    · intro i hi
      have hi' := List.mem_range.1 hi
      simp only [hr4, hr2]
      rw [idx_map_range _ hi', idx_map_range _ hi', idx_map_range _ hi', idx_map_range _ hi']
      simp only [Res.bind_ok]
      have := hsel i
      by_cases hb : bitOf packed i
      · simp only [hb, if_true] at this
        have hwi : w i = 1 := by simp [hw, hb]
        rw [hwi]
        simp only [sel, Res.bind_ok]
        rw [if_neg (by simp [this]), if_neg (by simp [hch, hHH])]
      · simp only [hb, Bool.false_eq_true, if_false] at this
        have hwi : w i = 0 := by simp [hw, hb]
        rw [hwi]
        simp only [sel, Res.bind_ok]
        rw [if_neg (by simp [this]), if_neg (by simp [hch, hHH])]
  refine ⟨s3, r4, ?_, ?_, rfl⟩
  · unfold run
    simp only [hnr, hns, Res.bind_ok, hsr1, hrr2, hsr3, hrr4, hsr5, hrr6]
  · constructor
    · simp [hs3]
    · simp [hr4, hr2]
    · simp [hr4, hr2]
    · simp [hr4, hr2, hplen]
    · intro i hi
      refine ⟨K0 i, K1 i, by simp [hs3, hi], by simp [hr4, hr2, hi, hw], ?_⟩
      simp only [hr4, hr2]
      rw [← hsel i]
      simp [hi]

/-- **C24** With correlated outputs, for every list of message pairs of the right length, encryption
succeeds and decryption returns exactly the chosen message at every index. -/
theorem C24_transfer (n : Nat) (keys : List (Digest × Digest)) (o : ReceiverOutput)
    (h : Correlated n keys o) (pts : List (Digest × Digest)) (hp : pts.length = n) :
    ∃ cts ms, encrypt keys pts = .ok cts ∧ decrypt o cts = .ok ms ∧ ms.length = n ∧
      ∀ i < n, ∃ m0 m1, pts[i]? = some (m0, m1) ∧
        ms[i]? = some (if bitOf o.packed i then m1 else m0) := by
  have hget : ∀ i < n, ∃ m, pts[i]? = some m := fun i hi =>
    ⟨pts[i], List.getElem?_eq_getElem (by omega)⟩
  have hE : ∃ cts, encrypt keys pts = .ok cts := by
    unfold encrypt
    rw [if_neg (by rw [hp, h.lenS]; simp), mapM_range_ok_iff]
    intro i hi
    obtain ⟨k0, k1, h1, -, -⟩ := h.rel i (by omega)
    obtain ⟨m, hm⟩ := hget i (by omega)
    exact ⟨_, by rw [idx_eq_ok.2 h1, idx_eq_ok.2 hm]; rfl⟩
  obtain ⟨cts, hcts⟩ := hE
  have hE := hcts
  unfold encrypt at hE
  rw [if_neg (by rw [hp, h.lenS]; simp), hp] at hE
  obtain ⟨hcl, hci⟩ := mapM_range_eq_ok hE
  have key : ∀ i < n, ∃ m0 m1, pts[i]? = some (m0, m1) ∧
      (do
        let w ← idx o.bits i
        let k ← idx o.keys i
        let c ← idx cts i
        let cw ← sel c w
        Res.ok (xorBytes k cw)) = .ok (if bitOf o.packed i then m1 else m0) := by
    intro i hi
    obtain ⟨k0, k1, h1, h2, h3⟩ := h.rel i hi
    obtain ⟨⟨m0, m1⟩, hm⟩ := hget i hi
    obtain ⟨c, hc1, hc2⟩ := hci i hi
    rw [idx_eq_ok.2 h1, idx_eq_ok.2 hm] at hc2
    simp only [Res.bind_ok] at hc2
    have hc := Res.ok.inj hc2
    refine ⟨m0, m1, hm, ?_⟩
    rw [idx_eq_ok.2 h2, idx_eq_ok.2 h3, idx_eq_ok.2 hc1, ← hc]
    by_cases hb : bitOf o.packed i
    · simp only [hb, if_true, Res.bind_ok, sel, xor_cancel]
    · simp only [hb, Bool.false_eq_true, if_false, Res.bind_ok, sel, xor_cancel]
  have hD : ∃ ms, decrypt o cts = .ok ms := by
    unfold decrypt
    rw [if_neg (by rw [hcl, h.lenK]; simp), mapM_range_ok_iff]
    intro i hi
    obtain ⟨m0, m1, -, h2⟩ := key i (by omega)
    exact ⟨_, h2⟩
  obtain ⟨ms, hms⟩ := hD
  refine ⟨cts, ms, hcts, hms, ?_⟩
  unfold decrypt at hms
  rw [if_neg (by rw [hcl, h.lenK]; simp), hcl] at hms
  obtain ⟨h1, h2⟩ := mapM_range_eq_ok hms
  refine ⟨h1, fun i hi => ?_⟩
  obtain ⟨y, hy1, hy2⟩ := h2 i hi
  obtain ⟨m0, m1, hm, hk⟩ := key i hi
  refine ⟨m0, m1, hm, ?_⟩
  rw [hy1]
  rw [hk] at hy2
  rw [← Res.ok.inj hy2]

/-- **C24** The sender's check, for arbitrary responses: `Round5Verify` returns openings iff every
response equals `H(H(key0))`; the openings are the hashes of the two keys. -/
theorem C24_round5_iff (E : Env F G) (s : Sender F G) (hs : s.keys.length = s.batchSize)
    (resp : List Digest) (hr : resp.length = s.batchSize) :
    (∃ op, s.round5 E resp = .ok op) ↔
      ∀ i < s.batchSize, ∃ k0 k1, s.keys[i]? = some (k0, k1) ∧
        resp[i]? = some (E.H (bytesOf (E.H (bytesOf k0)))) := by
  unfold Sender.round5
  rw [mapM_range_ok_iff]
  refine forall_congr' fun i => forall_congr' fun hi => ?_
  have e1 : s.keys[i]? = some s.keys[i] := List.getElem?_eq_getElem (by omega)
  have e2 : resp[i]? = some resp[i] := List.getElem?_eq_getElem (by omega)
  rw [idx_eq_ok.2 e1, idx_eq_ok.2 e2, e1, e2]
  simp only [Res.bind_ok]
  constructor
  · rintro ⟨y, hy⟩
    split at hy
    · cases hy
    · rename_i h
      push Not at h
      exact ⟨s.keys[i].1, s.keys[i].2, rfl, by rw [h]⟩
  · rintro ⟨k0, k1, h1, h2⟩
    have h4 := Option.some.inj h1
    have h3 := Option.some.inj h2
    rw [if_neg]
    · exact ⟨_, rfl⟩
    · rw [h3, h4]; simp

/-- **C24** The receiver's check, for arbitrary openings `(o0,o1)` and challenges: `Round6Verify`
accepts iff at every index the opening selected by the choice bit is the hash of the receiver's key
and `H(o0) xor H(o1)` equals the challenge received before. -/
theorem C24_round6_iff (E : Env F G) (r : Receiver G) (hk : r.out.keys.length = r.batchSize)
    (hb : r.out.bits.length = r.batchSize) (hb2 : ∀ w ∈ r.out.bits, w = 0 ∨ w = 1)
    (hc : r.senderChallenge.length = r.batchSize)
    (op : List (Digest × Digest)) (ho : op.length = r.batchSize) :
    r.round6 E op = .ok () ↔
      ∀ i < r.batchSize, ∃ k w o0 o1, r.out.keys[i]? = some k ∧ r.out.bits[i]? = some w ∧
        op[i]? = some (o0, o1) ∧ E.H (bytesOf k) = (if w = 1 then o1 else o0) ∧
        r.senderChallenge[i]? = some (xorBytes (E.H (bytesOf o0)) (E.H (bytesOf o1))) := by
  have hsplit : r.round6 E op = .ok () ↔ ∃ l, ((List.range r.batchSize).mapM fun i => do
    let k ← idx r.out.keys i
    let w ← idx r.out.bits i
    let o ← idx op i
    let ow ← sel o w
    if E.H (bytesOf k) ≠ ow then Res.err
    else do
      let c ← idx r.senderChallenge i
      if xorBytes (E.H (bytesOf o.1)) (E.H (bytesOf o.2)) ≠ c then Res.err
      else .ok ()) = .ok l := by
    unfold Receiver.round6
    rw [Res.bind_eq_ok]
    simp
  rw [hsplit, mapM_range_ok_iff]
  refine forall_congr' fun i => forall_congr' fun hi => ?_
  have e1 : r.out.keys[i]? = some r.out.keys[i] := List.getElem?_eq_getElem (by omega)
  have e2 : r.out.bits[i]? = some r.out.bits[i] := List.getElem?_eq_getElem (by omega)
  have e3 : op[i]? = some op[i] := List.getElem?_eq_getElem (by omega)
  have e4 : r.senderChallenge[i]? = some r.senderChallenge[i] := List.getElem?_eq_getElem (by omega)
  have hw := hb2 _ (List.getElem_mem (by omega : i < r.out.bits.length))
  rw [idx_eq_ok.2 e1, idx_eq_ok.2 e2, idx_eq_ok.2 e3, idx_eq_ok.2 e4, e1, e2, e3, e4]
  simp only [Res.bind_ok]
  have hsel : sel op[i] r.out.bits[i] = .ok (if r.out.bits[i] = 1 then op[i].2 else op[i].1) := by
    rcases hw with h | h <;> simp [h, sel]
  rw [hsel]
  simp only [Res.bind_ok]
  constructor
  · rintro ⟨y, hy⟩
    by_cases h1 : E.H (bytesOf r.out.keys[i]) = if r.out.bits[i] = 1 then op[i].2 else op[i].1
    · rw [if_neg (not_not.2 h1)] at hy
      by_cases h2 : xorBytes (E.H (bytesOf op[i].1)) (E.H (bytesOf op[i].2)) = r.senderChallenge[i]
      · exact ⟨_, _, op[i].1, op[i].2, rfl, rfl, rfl, h1, by rw [h2]⟩
      · rw [if_pos h2] at hy; cases hy
    · rw [if_pos h1] at hy; cases hy
  · rintro ⟨k, w, o0, o1, h1, h2, h3, h4, h5⟩
    have h1 := Option.some.inj h1
    have h2 := Option.some.inj h2
    have h3 := Option.some.inj h3
    have h5 := Option.some.inj h5
    rw [if_neg (by rw [h1, h2, h3, h4]; simp), if_neg (by rw [h5, h3]; simp)]
    exact ⟨_, rfl⟩

theorem padTransferStep_eq (E : Env F G) (B : G) (salt : Digest) (bits : List Nat) (a : Nat → F)
    (i : Nat) (w : Nat) (hw : bits[i]? = some w) :
    padTransferStep E B salt bits a i =
      .ok (E.pc.enc (maskedPoint E (w == 1) (a i) B), padKey E salt i (a i • B)) := by
  unfold padTransferStep
  simp only
  rw [idx_eq_ok.2 hw, Res.bind_ok]
  have : ctCopy w (E.pc.enc (a i • E.g)) (E.pc.enc (a i • E.g + B)) =
      .ok (E.pc.enc (maskedPoint E (w == 1) (a i) B)) := by
    unfold ctCopy ctSel maskedPoint
    rw [E.pc.len_enc, E.pc.len_enc]
    by_cases h : w = 1 <;> simp [h]
  rw [this, Res.bind_ok]

/-- **C24** (perfect receiver privacy) What the receiver sends in `Round2` does not depend on its choice
bits: take two receivers that differ in nothing but their choice bits (and keys), and any sender proof,
with statement `B = b·G`.  There is a bijection `φ` of the nonce vectors such that the one receiver
with nonces `a` sends exactly what the other one sends with nonces `φ a`. -/
theorem C24_choice_hidden (E : Env F G) (r r' : Receiver G) (pf : Schnorr.Proof F G) (b : F)
    (hb : pf.statement = b • E.g) (hn : r'.batchSize = r.batchSize) (ht : r'.transcript = r.transcript)
    (hl : r.out.bits.length = r.batchSize) (hl' : r'.out.bits.length = r.batchSize) :
    ∃ φ : (Nat → F) → (Nat → F), Function.Bijective φ ∧ ∀ a r1 msg, r.round2 E pf a = .ok (r1, msg) →
      ∃ r1', r'.round2 E pf (φ a) = .ok (r1', msg) := by
  let c : Receiver G → Nat → F := fun q i => if q.out.bits[i]? = some 1 then b else 0
  refine ⟨fun a i => a i + (c r i - c r' i), ⟨?_, ?_⟩, ?_⟩
  · intro x y h
    funext i
    exact add_right_cancel (congrFun h i)
  · intro y
    exact ⟨fun i => y i - (c r i - c r' i), by funext i; simp⟩
  intro a r1 msg h
  unfold Receiver.round2 at h ⊢
  rw [ht, hn]
  dsimp only at h ⊢
  by_cases hv : (!Schnorr.verify E.schnorr pf E.g
      (bytesOf (E.extract r.transcript "sender schnorr proof").1)) = true
  · rw [if_pos hv] at h; cases h
  rw [if_neg hv] at h ⊢
  set salt := (E.extract (E.extract r.transcript "sender schnorr proof").2 "random oracle salts").1
  have key : ∀ (q : Receiver G) (a : Nat → F), q.out.bits.length = r.batchSize →
      (List.range r.batchSize).mapM (padTransferStep E pf.statement salt q.out.bits a) =
      .ok ((List.range r.batchSize).map fun i =>
        (E.pc.enc (a i • E.g + c q i • E.g), padKey E salt i (a i • pf.statement))) := by
    intro q a hq
    apply mapM_ok
    intro i hi
    rw [List.mem_range] at hi
    have e : q.out.bits[i]? = some q.out.bits[i] := List.getElem?_eq_getElem (by omega)
    rw [padTransferStep_eq _ _ _ _ _ _ _ e]
    have : maskedPoint E (q.out.bits[i] == 1) (a i) pf.statement = a i • E.g + c q i • E.g := by
      simp only [maskedPoint, c, e, Option.some.injEq, hb]
      by_cases h1 : q.out.bits[i] = 1 <;> simp [h1]
    rw [this]
  rw [key r a hl, Res.bind_ok] at h
  rw [key r' _ hl', Res.bind_ok]
  cases h
  refine ⟨_, congrArg Res.ok (Prod.ext rfl ?_)⟩
  simp only [List.map_map]
  apply List.map_congr_left
  intro i _
  simp only [Function.comp]
  congr 1
  module

/-- **C24** (finding) the index that separates the hash inputs is truncated to one byte, so for batches
of more than 256 transfers index `i` and `i+256` hash the same way. -/
theorem C24_index_wraps (E : Env F G) (salt : Digest) (i : Nat) (rho : G) :
    padKey E salt (i + 256) rho = padKey E salt i rho := by
  unfold padKey
  have : UInt8.ofNat (i + 256) = UInt8.ofNat i := by
    apply UInt8.toNat_inj.1
    rw [UInt8.toNat_ofNat', UInt8.toNat_ofNat']
    omega
  rw [this]

/-- **C24** a sender whose batch size is not a multiple of 8 is refused, on both sides. -/
theorem C24_batch_multiple_of_8 (n : Nat) (sid : Digest) (rnd : Nat → UInt8) :
    ((∃ s, newSender (F := F) (G := G) n sid = .ok s) ↔ 8 ∣ n) ∧
    ((∃ r, newReceiver (G := G) n sid rnd = .ok r) ↔ 8 ∣ n) := by
  have h7 : n &&& 7 = n % 8 := Nat.and_two_pow_sub_one_eq_mod n 3
  constructor
  · unfold newSender
    rw [h7]
    by_cases h : n % 8 = 0
    · simp [h, Nat.dvd_of_mod_eq_zero h]
    · simp [h]; omega
  · unfold newReceiver
    rw [h7]
    by_cases h : n % 8 = 0
    · rw [if_neg (by simpa using h)]
      have hn : n = 8 * (n / 8) := by omega
      have h8' : n >>> 3 = n / 8 := by rw [Nat.shiftRight_eq_div_pow]
      refine ⟨fun _ => Nat.dvd_of_mod_eq_zero h, fun _ => ?_⟩
      have : initChoice n ((List.range (n >>> 3)).map rnd) = .ok ((List.range n).map fun i =>
          if bitOf ((List.range (n >>> 3)).map rnd) i then 1 else 0) := by
        unfold initChoice
        apply mapM_ok
        intro i hi
        rw [List.mem_range] at hi
        rw [extractBit_eq (by simp [h8']; omega), Res.bind_ok]
        split <;> rfl
      simp only [this]
      exact ⟨_, rfl⟩
    · rw [if_pos (by simpa using h)]
      simp; omega

/-- **C24** wrong lengths and unproved keys are refused: `Encrypt`/`Decrypt` on a list of another length
than the key list return an error, and `Round2` returns an error for every sender proof the Schnorr
verifier rejects in the receiver's session. -/
theorem C24_refusals (E : Env F G) (keys pts : List (Digest × Digest)) (o : ReceiverOutput)
    (r : Receiver G) (pf : Schnorr.Proof F G) (a : Nat → F) :
    (pts.length ≠ keys.length → encrypt keys pts = .err) ∧
    (pts.length ≠ o.keys.length → decrypt o pts = .err) ∧
    (Schnorr.verify E.schnorr pf E.g (bytesOf (E.X r.transcript "sender schnorr proof")) = false →
      r.round2 E pf a = .err) := by
  refine ⟨fun h => ?_, fun h => ?_, fun h => ?_⟩
  · unfold encrypt; rw [if_pos h]
  · unfold decrypt; rw [if_pos h]
  · unfold Receiver.round2
    dsimp only
    rw [if_pos]
    simp only [Env.extract, h, Bool.not_false]

/-! ### non-vacuity -/
local instance fact257 : Fact (Nat.Prime 257) := ⟨by norm_num⟩

def toyEnv : Env (ZMod 257) (ZMod 257) where
  sc := Verif.Sharing.beCodec 257 2 (by norm_num)
  pc := Schnorr.pc257
  dec l := if l.length = 2 ∧ Bytes.beToNat l < 257 then some (Bytes.beToNat l : ZMod 257) else none
  dec_enc p _ := by
    have hp := ZMod.val_lt p
    simp only [Schnorr.pc257, Bytes.length_natToBEfix, true_and]
    rw [Bytes.beToNat_natToBEfix, Nat.mod_eq_of_lt (by omega), if_pos hp]
    simp
  g := 3
  H l := fun i => if i.val = 31 then l.foldl (· * 3 + ·) 1 else 0
  X t s := fun i => UInt8.ofNat (t.length + s.length + i.val)

/-- the challenge decoding in `toyEnv` fails (32-byte hash, 2-byte scalars), so use a 32-byte codec -/
def toyEnv32 : Env (ZMod 257) (ZMod 257) :=
  { toyEnv with sc := Verif.Sharing.beCodec 257 32 (by norm_num) }

example : Schnorr.Canonical toyEnv32.sc := Schnorr.canonical_be 257 32 (by norm_num)
example :
    Schnorr.prove toyEnv32.schnorr toyEnv32.g
      (bytesOf (toyEnv32.X (startTranscript fun _ => 1) "sender schnorr proof")) 5 7 ≠ none ∧
    ∀ i < 8 * 1, maskedPoint toyEnv32 (bitOf ((List.range 1).map fun _ => 0xA6) i) ((i : ZMod 257) + 11)
      ((5 : ZMod 257) • toyEnv32.g) ≠ 0 := by
  decide +kernel

/-- two receivers as in `C24_choice_hidden`, with opposite bits, and a proof both accept -/
example : ∃ r r' : Receiver (ZMod 257), ∃ pf : Schnorr.Proof (ZMod 257) (ZMod 257),
    pf.statement = (5 : ZMod 257) • toyEnv32.g ∧ r'.batchSize = r.batchSize ∧
    r'.transcript = r.transcript ∧ r.out.bits.length = r.batchSize ∧ r'.out.bits.length = r.batchSize ∧
    r.out.bits ≠ r'.out.bits ∧
    ∃ x, r.round2 toyEnv32 pf (fun i => (i : ZMod 257) + 11) = .ok x := by
  obtain ⟨pf, hpf⟩ := Option.ne_none_iff_exists'.1 (show Schnorr.prove toyEnv32.schnorr toyEnv32.g
      (bytesOf (toyEnv32.X (startTranscript fun _ => 1) "sender schnorr proof")) 5 7 ≠ none by decide +kernel)
  obtain ⟨hst, hver⟩ := (Schnorr.C20_complete toyEnv32.schnorr (Schnorr.canonical_be 257 32 (by norm_num))
    toyEnv32.g _ 5 7).1 pf hpf
  refine ⟨⟨⟨[1], [1, 0, 0, 0, 0, 0, 0, 0], []⟩, 0, [], 8, startTranscript fun _ => 1⟩,
    ⟨⟨[2], [0, 1, 0, 0, 0, 0, 0, 0], []⟩, 0, [], 8, startTranscript fun _ => 1⟩, pf, hst, rfl, rfl, rfl, rfl,
    by decide, ?_⟩
  unfold Receiver.round2
  simp only [Env.extract, hver, Bool.not_true, Bool.false_eq_true, if_false]
  exact ⟨_, rfl⟩

end Verif.OT
