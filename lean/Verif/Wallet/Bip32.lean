import Verif.Base.Bytes
import Verif.Base.GoRes
import Verif.Base.Tactics
import Mathlib.Data.ZMod.Basic

/-! Model of `/repo/crypto/bip32/bip32.go` and property C49.

The curve (btcec, outside the repository) is a group `G` with generator `g` of order `n`; `HMAC-SHA512` and the parsing
of public keys are functions of the environment. -/

set_option linter.unusedSectionVars false

namespace Verif.Bip32
open Verif Verif.Bytes

variable {G : Type} [AddCommGroup G] [DecidableEq G]

/-- The library calls of bip32.go:14-57: `parse` is `btcec.ParsePubKey`, `xy` the affine coordinates (`(0, 0)` for the
point at infinity, as `curve.Add` returns it), `hmac` is HMAC-SHA512. -/
structure Env (G : Type) where
  g : G
  n : Nat
  parse : List UInt8 → Option G
  xy : G → Nat × Nat
  hmac : List UInt8 → List UInt8 → List UInt8

/-- `SerializeCompressed` of a key with the given coordinates (used at bip32.go:25 and 55) -/
def serialize (xy : Nat × Nat) : List UInt8 := (if xy.2 % 2 = 1 then 3 else 2) :: natToBEfix 32 xy.1

/-- bip32.go:14-57 `ComputePublicKey`. `index` is Go's signed `int`; `uint32(index)` keeps it modulo `2^32`. -/
def computePublicKey (E : Env G) (extPubKey : List UInt8) (chainCode : UInt32) (index : Int) : Res (List UInt8) :=
  if chainCode &&& 0x80000000 ≠ 0 ∧ index < 0 then .err
  else do
    let P ← Res.ofOption (E.parse extPubKey)
    let pubKeyBytes := serialize (E.xy P)
    let indexBytes := natToBEfix 4 (index % 2 ^ 32).toNat
    let I := E.hmac [UInt8.ofNat chainCode.toNat] (pubKeyBytes ++ indexBytes)
    let il := beToNat (I.take 32)
    if il ≥ E.n then Res.err
    else Res.ok (serialize (E.xy (il • E.g + P)))

/-- What the curve library guarantees: coordinates below `2^256` that, with the parity of `y`, determine the point,
64-byte HMACs, and a generator of order at least `n`. -/
structure Env.Spec (E : Env G) : Prop where
  lt : ∀ P, (E.xy P).1 < 256 ^ 32
  zero : E.xy 0 = (0, 0)
  inj : ∀ P Q, (E.xy P).1 = (E.xy Q).1 → (E.xy P).2 % 2 = (E.xy Q).2 % 2 → P = Q
  len : ∀ k d, (E.hmac k d).length = 64
  ord : ∀ a b : Nat, a < E.n → b < E.n → a • E.g = b • E.g → a = b

/-- The left half of the HMAC that the call uses (specification). -/
def leftHalf (E : Env G) (P : G) (cc : UInt32) (index : Int) : Nat :=
  beToNat ((E.hmac [UInt8.ofNat cc.toNat] (serialize (E.xy P) ++ natToBEfix 4 (index % 2 ^ 32).toNat)).take 32)

/-- **C49.** Exactly when and what `ComputePublicKey` returns: the sum of the parent and `IL · G`, for `IL < n`. -/
theorem C49_child (E : Env G) (pk : List UInt8) (cc : UInt32) (index : Int) (out : List UInt8) :
    computePublicKey E pk cc index = .ok out ↔
      ¬ (cc &&& 0x80000000 ≠ 0 ∧ index < 0) ∧ ∃ P, E.parse pk = some P ∧ leftHalf E P cc index < E.n ∧
        out = serialize (E.xy (leftHalf E P cc index • E.g + P)) := by
  rw [computePublicKey]
  by_cases h : cc &&& 0x80000000 ≠ 0 ∧ index < 0
  · rw [if_pos h]
    exact ⟨fun e => (by cases e), fun e => absurd h e.1⟩
  rw [if_neg h]
  rcases hp : E.parse pk with _ | P
  · simp [Res.ofOption]
  simp only [Res.ofOption, Res.bind_ok]
  change (if leftHalf E P cc index ≥ E.n then Res.err else _) = _ ↔ _
  by_cases hl : leftHalf E P cc index ≥ E.n
  · rw [if_pos hl]
    refine ⟨fun e => (by cases e), ?_⟩
    rintro ⟨-, Q, hQ, h', -⟩
    cases hQ
    omega
  · rw [if_neg hl]
    constructor
    · intro e
      cases e
      exact ⟨h, P, rfl, by omega, rfl⟩
    · rintro ⟨-, Q, hQ, -, rfl⟩
      cases hQ
      rfl

/-- **C49.** Public derivation matches private derivation: the child of the key of secret `k` is the key of secret
`k + IL`. -/
theorem C49_consistent (E : Env G) (pk : List UInt8) (cc : UInt32) (index : Int) (out : List UInt8) (k : Nat)
    (hk : E.parse pk = some (k • E.g)) (h : computePublicKey E pk cc index = .ok out) :
    out = serialize (E.xy ((k + leftHalf E (k • E.g) cc index) • E.g)) := by
  obtain ⟨-, P, hP, -, rfl⟩ := (C49_child E pk cc index out).mp h
  rw [hk] at hP
  cases hP
  rw [← add_nsmul, Nat.add_comm]

/-- **C49 (negation).** Only the low byte of the chain code matters: two chain codes that agree modulo 256 derive the
same child for every key and non-negative index. -/
theorem C49_chain_code_truncated (E : Env G) (pk : List UInt8) (cc cc' : UInt32) (index : Int) (hi : 0 ≤ index)
    (h : cc.toNat % 256 = cc'.toNat % 256) :
    computePublicKey E pk cc index = computePublicKey E pk cc' index := by
  have e : UInt8.ofNat cc.toNat = UInt8.ofNat cc'.toNat := by
    apply UInt8.toNat_inj.mp
    simpa using h
  rw [computePublicKey, computePublicKey, if_neg (by omega), if_neg (by omega), e]

/-- **C49 (negation).** Indices that agree modulo `2^32` derive the same child. -/
theorem C49_index_truncated (E : Env G) (pk : List UInt8) (cc : UInt32) (i j : Int) (hi : 0 ≤ i) (hj : 0 ≤ j)
    (h : i % 2 ^ 32 = j % 2 ^ 32) : computePublicKey E pk cc i = computePublicKey E pk cc j := by
  rw [computePublicKey, computePublicKey, if_neg (by omega), if_neg (by omega), h]

/-- **C49 (negation).** Hardened indices (`2^31 ≤ index`), which have no public derivation in BIP-32, are not refused:
the only refusals for a non-negative index are an unparsable key and `IL ≥ n`. -/
theorem C49_hardened_not_refused (E : Env G) (pk : List UInt8) (P : G) (cc : UInt32) (i : Int)
    (hp : E.parse pk = some P) (hi : 2 ^ 31 ≤ i) (hl : leftHalf E P cc i < E.n) :
    ∃ out, computePublicKey E pk cc i = .ok out :=
  ⟨_, (C49_child E pk cc i _).mpr ⟨by omega, P, hp, hl, rfl⟩⟩

/-- **C49 (negation).** The refusal that is there looks at the sign of the index and at the top bit of the *chain code*:
a negative index passes with chain code 1. -/
theorem C49_negative_accepted (E : Env G) (pk : List UInt8) (P : G) (i : Int) (_hi : i < 0)
    (hp : E.parse pk = some P) (hl : leftHalf E P 1 i < E.n) : ∃ out, computePublicKey E pk 1 i = .ok out :=
  ⟨_, (C49_child E pk 1 i _).mpr ⟨fun h => h.1 (by decide), P, hp, hl, rfl⟩⟩

/-- **C49 (negation).** A child at infinity is not refused: it is returned as the 33 bytes `02 00 … 00`. -/
theorem C49_identity_child (E : Env G) (hE : E.Spec) (pk : List UInt8) (P : G) (cc : UInt32) (i : Int)
    (hp : E.parse pk = some P) (hi : 0 ≤ i) (hl : leftHalf E P cc i < E.n) (hid : leftHalf E P cc i • E.g = -P) :
    computePublicKey E pk cc i = .ok (2 :: List.replicate 32 0) := by
  refine (C49_child E pk cc i _).mpr ⟨by omega, P, hp, hl, ?_⟩
  rw [hid, neg_add_cancel, hE.zero]
  decide +kernel

/-- **C49 (partial).** Separation that does hold: if two calls on the same parent return the same child, then chain codes
agree modulo 256 and indices modulo `2^32`, or the left halves of two HMACs on different inputs collide.  Missing:
separation of full chain codes and indices, which fails. -/
theorem C49_separation_partial (E : Env G) (hE : E.Spec) (pk : List UInt8) (cc cc' : UInt32) (i j : Int) (out : List UInt8)
    (h : computePublicKey E pk cc i = .ok out) (h' : computePublicKey E pk cc' j = .ok out) :
    (cc.toNat % 256 = cc'.toNat % 256 ∧ i % 2 ^ 32 = j % 2 ^ 32) ∨
    ∃ k d k' d', (k, d) ≠ (k', d') ∧ (E.hmac k d).take 32 = (E.hmac k' d').take 32 := by
  obtain ⟨-, P, hP, hl, e⟩ := (C49_child E pk cc i out).mp h
  obtain ⟨-, P', hP', hl', e'⟩ := (C49_child E pk cc' j out).mp h'
  rw [hP] at hP'
  cases hP'
  have hs : ∀ A B, serialize (E.xy A) = serialize (E.xy B) → A = B := by
    intro A B hAB
    rw [serialize, serialize] at hAB
    obtain ⟨h1, h2⟩ := List.cons.inj hAB
    apply hE.inj
    · have := congrArg beToNat h2
      rwa [beToNat_natToBEfix, beToNat_natToBEfix, Nat.mod_eq_of_lt (hE.lt A), Nat.mod_eq_of_lt (hE.lt B)] at this
    · by_cases a : (E.xy A).2 % 2 = 1 <;> by_cases b : (E.xy B).2 % 2 = 1
      · rw [a, b]
      · rw [if_pos a, if_neg b] at h1; exact absurd h1 (by decide)
      · rw [if_neg a, if_pos b] at h1; exact absurd h1 (by decide)
      · omega
  have heq := hE.ord _ _ hl hl' (add_right_cancel (hs _ _ (e.symm.trans e')))
  by_cases hin : cc.toNat % 256 = cc'.toNat % 256 ∧ i % 2 ^ 32 = j % 2 ^ 32
  · exact Or.inl hin
  · right
    refine ⟨_, _, _, _, ?_, beToNat_inj (by simp [hE.len]) heq⟩
    intro hc
    apply hin
    obtain ⟨hk, hd⟩ := Prod.mk.inj hc
    refine ⟨?_, ?_⟩
    · have := congrArg UInt8.toNat (List.cons.inj hk).1
      simpa using this
    · have hd2 := (List.append_inj hd rfl).2
      have := congrArg beToNat hd2
      have hb : ∀ i : Int, (i % 2 ^ 32).toNat < 256 ^ 4 := fun i => by
        rw [show (256 : Nat) ^ 4 = 4294967296 from rfl, show (2 : Int) ^ 32 = 4294967296 from rfl]; omega
      rw [beToNat_natToBEfix, beToNat_natToBEfix, Nat.mod_eq_of_lt (hb i), Nat.mod_eq_of_lt (hb j)] at this
      rw [show (2 : Int) ^ 32 = 4294967296 from rfl] at this ⊢
      omega

/-! ### a concrete environment -/

/-- `Z/257` with coordinates `(min, parity)` of `± P`; the HMAC returns its key byte and the sum of its data -/
def toy : Env (ZMod 257) where
  g := 1
  n := 257
  parse := fun b => match b with
    | [2, x] => some (x.toNat : ZMod 257)
    | _ => none
  xy := fun P => (P.val, 0)
  hmac := fun k d => natToBEfix 32 (beToNat k + d.foldl (fun a b => a + b.toNat) 0) ++ List.replicate 32 0

theorem toy_spec : toy.Spec where
  lt := fun P => lt_of_lt_of_le (ZMod.val_lt P) (by norm_num)
  zero := rfl
  inj := fun P Q h _ => ZMod.val_injective 257 h
  len := fun k d => by simp [toy, length_natToBEfix]
  ord := fun a b ha hb h => by
    have h' : (a : ZMod 257) = (b : ZMod 257) := by
      simpa [toy] using h
    have := congrArg ZMod.val h'
    rw [ZMod.val_natCast, ZMod.val_natCast] at this
    change a < 257 at ha
    change b < 257 at hb
    omega

/-- chain codes 7 and 263 (and 0x80000007) give the same child; index 2^31 is accepted; so is -1 with chain code 7 -/
example : computePublicKey toy [2, 5] 7 3 = computePublicKey toy [2, 5] 263 3 ∧
    computePublicKey toy [2, 5] 7 3 = .ok (serialize (22, 0)) ∧
    computePublicKey toy [2, 5] 7 (2 ^ 31) = .ok (serialize (147, 0)) ∧
    (∃ out, computePublicKey toy [2, 5] 1 (-2 ^ 31) = .ok out) ∧
    computePublicKey toy [2, 5] 0x80000007 (-1) = .err := by
  refine ⟨by decide +kernel, by decide +kernel, by decide +kernel, ⟨serialize (141, 0), by decide +kernel⟩, by decide +kernel⟩

/-- a child at infinity: `5 + IL = 257` -/
example : leftHalf toy 5 243 2 = 252 ∧ leftHalf toy 5 243 2 • toy.g = -5 := by decide +kernel

end Verif.Bip32
