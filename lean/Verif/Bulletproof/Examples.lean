import Verif.Bulletproof.Codec
import Verif.Bulletproof.BatchProps
import Mathlib.Data.ZMod.Basic
import Mathlib.Algebra.Field.ZMod

/-! Concrete runs that meet the hypotheses of the theorems C72-C75: a toy curve whose group is `ZMod 257` itself,
once with little-endian (ed25519, Pallas) and once with big-endian scalars (K-256, P-256, BLS12-381). -/

set_option linter.unusedSectionVars false

namespace Verif.Bulletproof.Examples

open Verif Verif.Bulletproof Verif.Bytes
open Verif.OT (Ev Transcript idx)

local instance fact257 : Fact (Nat.Prime 257) := ⟨by norm_num⟩

abbrev Z := ZMod 257

def setLE (L : Nat) (b : List UInt8) : Option Z :=
  if b.length = L ∧ leToNat b < 257 then some (leToNat b : Z) else none

def setBE (L : Nat) (b : List UInt8) : Option Z :=
  if b.length = L ∧ beToNat b < 257 then some (beToNat b : Z) else none

/-- The challenge depends on the whole history through its length and is never zero. -/
def toyChal (t : Transcript) (_ : String) : Z := if t.length % 2 = 0 then 3 else 5

def leCurve : Curve Z Z where
  invErr := true
  bytes x := natToLE 2 x.val
  setBytes := setLE 2
  big x := x.val
  unc x := natToLE 2 x.val
  cmp x := natToLE 2 x.val
  dec := setLE 2
  chal := toyChal

def beCurve : Curve Z Z where
  invErr := true
  bytes x := natToBEfix 32 x.val
  setBytes := setBE 32
  big x := x.val
  unc x := natToBEfix 32 x.val
  cmp x := natToBEfix 32 x.val
  dec := setBE 32
  chal := toyChal

theorem setLE_rt (x : Z) : setLE 2 (natToLE 2 x.val) = some x := by
  have h : x.val < 257 := ZMod.val_lt x
  unfold setLE
  rw [leToNat_natToLE, Nat.mod_eq_of_lt (by omega), if_pos ⟨length_natToLE _ _, h⟩, ZMod.natCast_zmod_val]

theorem setBE_rt (x : Z) : setBE 32 (natToBEfix 32 x.val) = some x := by
  have h : x.val < 257 := ZMod.val_lt x
  unfold setBE
  rw [beToNat_natToBEfix, Nat.mod_eq_of_lt (lt_trans h (by decide +kernel)), if_pos ⟨length_natToBEfix _ _, h⟩,
    ZMod.natCast_zmod_val]

theorem leCurve_le : LittleEndian leCurve 2 := ⟨fun _ => rfl, setLE_rt, fun _ => rfl, by decide⟩

theorem beCurve_be : BigEndian beCurve 32 := ⟨fun _ => rfl, setBE_rt, fun _ => rfl, by decide +kernel⟩

theorem leCurve_full : FullCodec leCurve 2 2 :=
  { leCurve_le.codec with plen := fun _ => length_natToLE _ _, ppos := by decide, prt := setLE_rt }

theorem leCurve_canonical : Canonical leCurve 2 2 := by
  have key : ∀ (b : List UInt8) (x : Z), b.length = 2 → setLE 2 b = some x → natToLE 2 x.val = b := by
    intro b x hb h
    unfold setLE at h
    split_ifs at h with hc
    have hx := (Option.some.inj h).symm
    subst hx
    rw [ZMod.val_natCast, Nat.mod_eq_of_lt hc.2]
    have := leToNat_natToLE 2 (leToNat b)
    rw [Nat.mod_eq_of_lt (by omega)] at this
    rw [← List.reverse_inj]
    apply beToNat_inj
    · simp [hb]
    · rw [beToNat_reverse, beToNat_reverse, this]
  exact ⟨key, key⟩

theorem toyChal_ne (t : Transcript) (l : String) : toyChal t l ≠ 0 := by
  unfold toyChal
  split <;> decide

theorem challenges_ne {C : Curve Z Z} (h : C.chal = toyChal) (ls rs : List Z) (t : Transcript) :
    (0 : Z) ∉ (challenges C ls rs t).1 := by
  induction ls generalizing rs t with
  | nil => simp [challenges]
  | cons l ls ih => cases rs with
    | nil => simp [challenges]
    | cons r rs =>
      simp only [challenges, List.mem_cons, not_or]
      exact ⟨fun e => toyChal_ne _ _ (h ▸ e.symm), ih _ _⟩

theorem rchal_ne {C : Curve Z Z} (h : C.chal = toyChal) (Vs : List Z) (p : RProof Z Z) (t : Transcript) :
    (rchal C Vs p t).y ≠ 0 ∧ (rchal C Vs p t).z ≠ 0 ∧ (rchal C Vs p t).w ≠ 0 := by
  have k : ∀ t l, C.chal t l ≠ 0 := fun t l => by rw [h]; exact toyChal_ne t l
  exact ⟨k _ _, k _ _, k _ _⟩

theorem nonZero {C : Curve Z Z} (h : C.chal = toyChal) (V : Z) (p : RProof Z Z) (t : Transcript) : NonZero C V p t :=
  ⟨(rchal_ne h _ _ _).1, (rchal_ne h _ _ _).2.1, (rchal_ne h _ _ _).2.2, challenges_ne h _ _ _⟩

theorem nonZeroB {C : Curve Z Z} (h : C.chal = toyChal) (Vs : List Z) (p : RProof Z Z) (t : Transcript) :
    NonZeroB C Vs p t :=
  ⟨(rchal_ne h _ _ _).1, (rchal_ne h _ _ _).2.2, challenges_ne h _ _ _⟩

def gens : Gens Z := ⟨[1, 2, 3, 4], [5, 6, 7, 8]⟩
def rgens : RGens Z := ⟨9, 10, 11⟩
def rnd : Rnd Z := ⟨12, fun i => i + 13, fun i => i + 20, 30, 31, 32⟩

/-- C72: the hypotheses hold for two vectors of length four, no challenge is zero, and the proof is accepted for
`P` alone. -/
example : ∃ p t', prove leCurve gens [3, 1, 4, 1] [2, 7, 1, 8] 11 [] = .ok (p, t') ∧
    ∀ P, verify leCurve gens P 11 p [] = .ok (decide (P = msm gens.G ([3, 1, 4, 1] : List Z) + msm gens.H ([2, 7, 1, 8] : List Z) +
      (25 : Z) • (11 : Z)), t') := by
  obtain ⟨p, t', _, _, _, _, h⟩ := C72_completeness leCurve gens [3, 1, 4, 1] [2, 7, 1, 8] (11 : Z) [] 2 rfl
    (by decide) (by decide) rfl rfl
  obtain ⟨h1, h2⟩ := h (challenges_ne rfl _ _ _)
  refine ⟨p, t', h1, fun P => ?_⟩
  rw [h2]
  have : dot ([3, 1, 4, 1] : List Z) [2, 7, 1, 8] = 25 := by decide
  rw [this]
  rfl

/-- C73: the value 13 of 4 bits on the little-endian curve is proved and accepted. -/
example : ∃ p t', rangeProve leCurve gens 13 77 4 rgens rnd [] = .ok (p, t') ∧
    rangeVerify leCurve gens p ((77 : Z) • rgens.h + (13 : Z) • rgens.g) rgens 4 [] = .ok (true, t') := by
  obtain ⟨p, t', _, h⟩ := C73_completeness leCurve_le gens 13 77 2 rgens rnd [] ⟨rfl, by decide, by decide,
    by decide, by decide⟩ (by decide)
  exact ⟨p, t', h (nonZero rfl _ _ _)⟩

/-- C73: `16 = 2^4` is proved and rejected. -/
example : ∃ p t', rangeProve leCurve gens 16 77 4 rgens rnd [] = .ok (p, t') ∧
    rangeVerify leCurve gens p ((77 : Z) • rgens.h + (16 : Z) • rgens.g) rgens 4 [] = .ok (false, t') := by
  obtain ⟨p, t', _, h⟩ := (C73_upper_bound leCurve_le gens 16 77 2 rgens rnd [] ⟨rfl, by decide, by decide,
    by decide, by decide⟩).1 (by decide) (by decide)
  exact ⟨p, t', h (nonZero rfl _ _ _)⟩

/-- C73: the value 13 on the big-endian curve is proved and rejected. -/
example : ∃ p t', rangeProve beCurve gens 13 77 4 rgens rnd [] = .ok (p, t') ∧
    rangeVerify beCurve gens p ((77 : Z) • rgens.h + (13 : Z) • rgens.g) rgens 4 [] = .ok (false, t') := by
  obtain ⟨p, t', _, h⟩ := C73_big_endian_rejected beCurve_be gens 13 77 2 rgens rnd [] ⟨rfl, by decide, by decide,
    by decide, by decide⟩ (by decide) (by decide) (by decide) (by decide)
  exact ⟨p, t', h (nonZero rfl _ _ _)⟩

/-- C74: a batch of the two values 1 and 2 of 2 bits. -/
example : ∃ p t', batchProve leCurve gens [1, 2] [40, 41] 2 rgens rnd [] = .ok (p, t') ∧
    verifyBatched leCurve gens p (commits ([1, 2] : List Z) [40, 41] rgens) rgens 2 [] = .ok (true, t') := by
  obtain ⟨p, t', _, h⟩ := C74_completeness leCurve_le gens [1, 2] [40, 41] 2 2 rgens rnd [] ⟨rfl, by decide,
    by decide, by decide, by decide, by decide, by decide⟩ (by decide) (by decide +kernel)
  exact ⟨p, t', h (nonZeroB rfl _ _ _)⟩

/-- C74: the same batch on the big-endian curve is rejected. -/
example : ∃ p t', batchProve beCurve gens [1, 2] [40, 41] 2 rgens rnd [] = .ok (p, t') ∧
    verifyBatched beCurve gens p (commits ([1, 2] : List Z) [40, 41] rgens) rgens 2 [] = .ok (false, t') := by
  obtain ⟨p, t', _, h⟩ := C74_big_endian beCurve_be gens [1, 2] [40, 41] 2 2 rgens rnd [] ⟨rfl, by decide,
    by decide, by decide, by decide, by decide, by decide⟩ (by decide) (by decide) (by decide +kernel) (by decide)
  refine ⟨p, t', ?_⟩
  have := h (nonZeroB rfl _ _ _)
  refine ⟨this.1, this.2.trans ?_⟩
  have hz : ∀ z : Z, z = 3 ∨ z = 5 → decide (dot ([1, 2] : List Z) (weights z 2) = 0) = false := by
    rintro z (rfl | rfl) <;> decide +kernel
  have h35 : ∀ t l, beCurve.chal t l = 3 ∨ beCurve.chal t l = 5 := by
    intro t l; simp only [beCurve, toyChal]; split <;> simp
  have := hz (rchal beCurve (commits ([1, 2] : List Z) [40, 41] rgens) p []).z (h35 _ "getz")
  simp only [List.length_cons, List.length_nil]
  rw [this]

/-- C75: an encoding that round-trips, is canonical, and is refused when truncated. -/
example : unmarshalIpp leCurve 1 (encIpp leCurve ⟨3, 4, [5, 6], [7, 256]⟩) = .ok ⟨3, 4, [5, 6], [7, 256]⟩ :=
  ((C75_ipp_roundtrip leCurve_full 1 ⟨3, 4, [5, 6], [7, 256]⟩).1 rfl).2.2

example (data : List UInt8) (p : RProof Z Z) (h : unmarshalRange leCurve 1 data = .ok p) :
    marshalRange leCurve p = .ok data :=
  (C75_canonical leCurve_full leCurve_canonical 1 data).2 p h

example : unmarshalRange leCurve 1 [] = .panic :=
  (C75_truncated leCurve_full 1 []).2.2.2 (by decide)

/-- C72: two left and one right cross term; three pairs of cross terms for four generators. -/
example (P : Z) : verify leCurve gens P 11 ⟨1, 2, [3, 4], [5]⟩ [] = .err ∧
    verify leCurve gens P 11 ⟨1, 2, [3, 4, 5], [5, 6, 7]⟩ [] = .err :=
  ⟨C72_verify_refuses _ _ _ _ _ _ (.inl (by decide)), C72_verify_refuses _ _ _ _ _ _ (.inr (.inr (by decide)))⟩

end Verif.Bulletproof.Examples
