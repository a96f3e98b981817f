import Verif.Bls381.GroupSpec
import Verif.Bls381.FqApi
import Verif.Native.PallasApi

/-!
# Subgroup check and encodings of the points of G1 and G2 (crypto/core/curves/native/bls12381/g1.go, g2.go)

As in `Group.lean`, the two files are the same code over two fields; the record `COps` adds to the field operations how a coordinate is
written as big-endian bytes and read back.  Reading fails when a component is not below the modulus.  A refused input is `none`: which of the
error messages is returned is not modelled.
-/

set_option linter.unusedSectionVars false

namespace Verif.Bls381
open Verif.Bytes Verif.Native Verif.Native.Weier

/-- How coordinates are written and read: `enc` gives `size` bytes, most significant first; `dec` refuses what is not canonical. -/
structure COps (E : Type) where
  fo : FOps E
  size : Nat
  enc : E → List UInt8
  dec : List UInt8 → Option E

/-- `fqModulusBytes` (crypto/core/curves/native/bls12381/bls12381.go:9). -/
def fqModulusBytes : List UInt8 := [0x01, 0x00, 0x00, 0x00, 0xff, 0xff, 0xff, 0xff, 0xfe, 0x5b, 0xfe, 0xff, 0x02, 0xa4, 0xbd, 0x53, 0x05, 0xd8, 0xa1, 0x09, 0x08, 0xd8, 0x39, 0x33, 0x48, 0x7d, 0x9d, 0x29, 0x53, 0xa7, 0xed, 0x73]

/-- `out[0] |= v`. -/
def or0 (v : UInt8) : List UInt8 → List UInt8
  | [] => []
  | b :: l => (b ||| v) :: l

/-- The mask `0x1F` on the most significant byte. -/
def mask0 : List UInt8 → List UInt8
  | [] => []
  | b :: l => (b &&& 0x1F) :: l

namespace P3
variable {E : Type}

/-- `InCorrectSubgroup` (crypto/core/curves/native/bls12381/g1.go:618-622, crypto/core/curves/native/bls12381/g2.go:586-590). -/
def inCorrectSubgroup (O : FOps E) (e : P3 E) : UInt64 := isIdentity O (multiply O e fqModulusBytes)

variable (C : COps E)

/-- `ToCompressed` (crypto/core/curves/native/bls12381/g1.go:806-820, crypto/core/curves/native/bls12381/g2.go:779-795). -/
def toCompressed (e : P3 E) : List UInt8 :=
  let t := toAffine C.fo e
  let out := C.enc t.x
  let isInfinity : UInt8 := (isIdentity C.fo e).toUInt8
  let out := or0 0x80 out
  let out := or0 (0x40 &&& (0 - isInfinity)) out
  or0 (((C.fo.lexLargest t.y).toUInt8 <<< 5) &&& (isInfinity - 1)) out

/-- `FromCompressed` (crypto/core/curves/native/bls12381/g1.go:823-865, crypto/core/curves/native/bls12381/g2.go:798-842). -/
def fromCompressed (input : List UInt8) : Option (P3 E) :=
  let b := input.headD 0
  let compressedFlag := (b >>> 7) &&& 1
  let infinityFlag := (b >>> 6) &&& 1
  let sortFlag := (b >>> 5) &&& 1
  if compressedFlag ≠ 1 then none
  else if infinityFlag = 1 then some (identity C.fo)
  else
    match C.dec (mask0 input) with
    | none => none
    | some x =>
      let y := C.fo.square x
      let y := C.fo.mul y x
      let y := C.fo.add y C.fo.b
      let r := C.fo.sqrt y
      if r.2 ≠ 1 then none
      else
        let y := fneg C.fo r.1 (C.fo.lexLargest r.1 ^^^ sortFlag.toUInt64)
        let p : P3 E := ⟨x, y, C.fo.one⟩
        if inCorrectSubgroup C.fo p = 0 then none else some p

/-- `ToUncompressed` (crypto/core/curves/native/bls12381/g1.go:868-879, crypto/core/curves/native/bls12381/g2.go:845-860). -/
def toUncompressed (e : P3 E) : List UInt8 :=
  let t := toAffine C.fo e
  let isInfinity : UInt8 := (isIdentity C.fo e).toUInt8
  or0 (0x40 &&& (0 - isInfinity)) (C.enc t.x ++ C.enc t.y)

/-- `FromUncompressed` (crypto/core/curves/native/bls12381/g1.go:882-917, crypto/core/curves/native/bls12381/g2.go:863-913). -/
def fromUncompressed (input : List UInt8) : Option (P3 E) :=
  let infinityFlag := (input.headD 0 >>> 6) &&& 1
  if infinityFlag = 1 then some (identity C.fo)
  else
    match C.dec (mask0 (input.take C.size)) with
    | none => none
    | some x =>
      match C.dec (input.drop C.size) with
      | none => none
      | some y =>
        let p : P3 E := ⟨x, y, C.fo.one⟩
        if isOnCurve C.fo p = 0 then none
        else if inCorrectSubgroup C.fo p = 0 then none
        else some p

end P3

/-- What the codec has to satisfy; `L` is the sign rule. -/
structure COK {E K : Type} [_root_.Field K] [DecidableEq K] (C : COps E) (Rep : E → K → Prop) (b : K) (L : K → Prop) [DecidablePred L] :
    Prop extends FOK C.fo Rep b where
  size : 0 < C.size
  enc_length : ∀ {a : E} {x : K}, Rep a x → (C.enc a).length = C.size
  enc_head : ∀ {a : E} {x : K}, Rep a x → (C.enc a).headD 0 &&& 0x1F = (C.enc a).headD 0
  dec_enc : ∀ {a : E} {x : K}, Rep a x → C.dec (C.enc a) = some a
  dec_some : ∀ {l : List UInt8} {a : E}, l.length = C.size → C.dec l = some a → (∃ x, Rep a x) ∧ C.enc a = l
  sqrt : ∀ {a : E} {x : K}, Rep a x → (IsSquare x → ∃ y, y * y = x ∧ Rep (C.fo.sqrt a).1 y ∧ (C.fo.sqrt a).2 = 1) ∧
    (¬ IsSquare x → (C.fo.sqrt a).2 = 0)
  lex : ∀ {a : E} {x : K}, Rep a x → C.fo.lexLargest a = if L x then 1 else 0
  sign : ∀ {x : K}, x ≠ 0 → (L (-x) ↔ ¬ L x)

theorem fqModulusBytes_eq : fqModulusBytes = natToLE 32 Fq.q := by decide +kernel

namespace P3

/-! ## Bits of the first byte -/

/-- The first byte of the compressed form, from the plain byte, the infinity flag and the sign. -/
def hc (h i s : UInt8) : UInt8 :=
  let a : UInt8 := h ||| 0x80
  let c : UInt8 := 0x40 &&& (0 - i)
  let d : UInt8 := (s <<< 5) &&& (i - 1)
  a ||| c ||| d

/-- The first byte of the uncompressed form. -/
def hu (h i : UInt8) : UInt8 := h ||| (0x40 &&& (0 - i))


theorem head_compressed (h : UInt8) (hh : h &&& 0x1F = h) (s : UInt8) (hs : s = 0 ∨ s = 1) :
    let c := hc h 0 s
    (c >>> 7) &&& 1 = 1 ∧ (c >>> 6) &&& 1 = 0 ∧ (c >>> 5) &&& 1 = s ∧ c &&& 0x1F = h := by
  rcases hs with rfl | rfl
  · exact Pallas.u8_all (P := fun h => h &&& 0x1F = h → let c := hc h 0 0
      (c >>> 7) &&& 1 = 1 ∧ (c >>> 6) &&& 1 = 0 ∧ (c >>> 5) &&& 1 = 0 ∧ c &&& 0x1F = h) (by decide +kernel) h hh
  · exact Pallas.u8_all (P := fun h => h &&& 0x1F = h → let c := hc h 0 1
      (c >>> 7) &&& 1 = 1 ∧ (c >>> 6) &&& 1 = 0 ∧ (c >>> 5) &&& 1 = 1 ∧ c &&& 0x1F = h) (by decide +kernel) h hh

theorem head_infinity (h s : UInt8) (hs : s = 0 ∨ s = 1) :
    let c := hc h 1 s
    (c >>> 7) &&& 1 = 1 ∧ (c >>> 6) &&& 1 = 1 := by
  rcases hs with rfl | rfl
  · exact Pallas.u8_all (P := fun h => let c := hc h 1 0
      (c >>> 7) &&& 1 = 1 ∧ (c >>> 6) &&& 1 = 1) (by decide +kernel) h
  · exact Pallas.u8_all (P := fun h => let c := hc h 1 1
      (c >>> 7) &&& 1 = 1 ∧ (c >>> 6) &&& 1 = 1) (by decide +kernel) h

theorem head_rebuild (c : UInt8) (h7 : (c >>> 7) &&& 1 = 1) (h6 : (c >>> 6) &&& 1 ≠ 1) :
    hc (c &&& 0x1F) 0 ((c >>> 5) &&& 1) = c :=
  Pallas.u8_all (P := fun c => (c >>> 7) &&& 1 = 1 → (c >>> 6) &&& 1 ≠ 1 →
    hc (c &&& 0x1F) 0 ((c >>> 5) &&& 1) = c) (by decide +kernel) c h7 h6

theorem head_plain (h : UInt8) (hh : h &&& 0x1F = h) : let c := hu h 0; (c >>> 6) &&& 1 = 0 ∧ c &&& 0x1F = h :=
  Pallas.u8_all (P := fun h => h &&& 0x1F = h → let c := hu h 0; (c >>> 6) &&& 1 = 0 ∧ c &&& 0x1F = h) (by decide +kernel) h hh

theorem head_plain_inf (h : UInt8) : (hu h 1 >>> 6) &&& 1 = 1 :=
  Pallas.u8_all (P := fun h => (hu h 1 >>> 6) &&& 1 = 1) (by decide +kernel) h

theorem mask_or (c : UInt8) : hu (c &&& 0x1F) 0 = c &&& 0x1F :=
  Pallas.u8_all (P := fun c => hu (c &&& 0x1F) 0 = c &&& 0x1F) (by decide +kernel) c

theorem mask_mask (c : UInt8) : (c &&& 0x1F) &&& 0x1F = c &&& 0x1F :=
  Pallas.u8_all (P := fun c => (c &&& 0x1F) &&& 0x1F = c &&& 0x1F) (by decide +kernel) c

theorem sort_bit (c : UInt8) : (c >>> 5) &&& 1 = 0 ∨ (c >>> 5) &&& 1 = 1 :=
  Pallas.u8_all (P := fun c => (c >>> 5) &&& 1 = 0 ∨ (c >>> 5) &&& 1 = 1) (by decide +kernel) c

theorem length_mask0 (l : List UInt8) : (mask0 l).length = l.length := by cases l <;> rfl
theorem length_or0 (v : UInt8) (l : List UInt8) : (or0 v l).length = l.length := by cases l <;> rfl

section
variable {E K : Type} [_root_.Field K] [DecidableEq K] {C : COps E} {Rep : E → K → Prop} {b : K} {L : K → Prop} [DecidablePred L]

variable (F : COK C Rep b L)
include F

theorem inCorrectSubgroup_spec {e : P3 E} {P : Pt (0 : K) b} (he : HRep Rep b e P) :
    inCorrectSubgroup C.fo e = if Fq.q • P = 0 then 1 else 0 := by
  unfold inCorrectSubgroup
  rw [fqModulusBytes_eq]
  exact isIdentity_spec F.toFOK (multiply_spec F.toFOK he Fq.q (by decide +kernel))

/-- Stored affine coordinates. -/
theorem affine_rep {a c : E} {x y : K} (ha : Rep a x) (hc : Rep c y) (h : (curve (0 : K) b).Nonsingular x y) :
    HRep Rep b ⟨a, c, C.fo.one⟩ (.some x y h) :=
  ⟨x, y, 1, ha, hc, F.one, Or.inr ⟨one_ne_zero, x, y, h, rfl, (mul_one _).symm, (mul_one _).symm⟩, fun h => absurd h one_ne_zero⟩

theorem enc_cons {a : E} {x : K} (ha : Rep a x) : ∃ h t, C.enc a = h :: t ∧ h &&& 0x1F = h := by
  have hl := F.enc_length ha
  have hh := F.enc_head ha
  have hs := F.size
  cases hc : C.enc a with
  | nil => rw [hc, List.length_nil] at hl; omega
  | cons h t => rw [hc] at hh; exact ⟨h, t, rfl, hh⟩

theorem enc_zero : ∃ h t, C.enc C.fo.zero = h :: t ∧ h &&& 0x1F = h := enc_cons F F.zero

omit F in
/-- Three zeros absorb. -/
theorem add_zeros {O : FOps E} (F : FOK O Rep b) {f : P3 E} {X Y Z : K} (hX : Rep f.x X) (hY : Rep f.y Y) (hZ : Rep f.z Z) :
    add O ⟨O.zero, O.zero, O.zero⟩ f = ⟨O.zero, O.zero, O.zero⟩ := by
  have zm : ∀ {c : E} {z : K}, Rep c z → O.mul O.zero c = O.zero := fun {c z} hc => by
    have := F.mul F.zero hc
    rw [zero_mul] at this
    exact F.unique this F.zero
  have zz : O.add O.zero O.zero = O.zero := by
    have := F.add F.zero F.zero
    rw [add_zero] at this
    exact F.unique this F.zero
  have zs : O.sub O.zero O.zero = O.zero := by
    have := F.sub F.zero F.zero
    rw [sub_zero] at this
    exact F.unique this F.zero
  have zd : O.double O.zero = O.zero := by
    have := F.double F.zero
    rw [add_zero] at this
    exact F.unique this F.zero
  have z3 : O.mulBy3b O.zero = O.zero := by
    have := F.mulBy3b F.zero
    rw [mul_zero] at this
    exact F.unique this F.zero
  have z0 : O.mul O.zero O.zero = O.zero := zm F.zero
  unfold add
  simp only [zm hX, zm hY, zm hZ, zm (F.add hX hY), zm (F.add hY hZ), zm (F.add hX hZ), zz, zs, zd, z3, z0]

omit F in
theorem zeros_affine {O : FOps E} (F : FOK O Rep b) : toAffine O ⟨O.zero, O.zero, O.zero⟩ = ⟨O.zero, O.zero, O.zero⟩ := by
  unfold toAffine
  dsimp only
  simp only [(F.invert F.zero).2 rfl, F.cmove0]

omit F in
/-- The affine form of the neutral element is not a point. -/
theorem affine_identity {O : FOps E} (F : FOK O Rep b) {e f : P3 E} {Q : Pt (0 : K) b} (he : HRep Rep b e 0) (hf : HRep Rep b f Q) :
    toAffine O e = ⟨O.zero, O.zero, O.zero⟩ ∧ (∀ R : Pt (0 : K) b, ¬ HRep Rep b (toAffine O e) R) ∧ isOnCurve O (toAffine O e) = 1 ∧
      isIdentity O (toAffine O e) = 1 ∧ add O (toAffine O e) f = ⟨O.zero, O.zero, O.zero⟩ := by
  have ha := (toAffine_spec F he).1 rfl
  rw [ha]
  refine ⟨rfl, fun R hR => ?_, ?_, ?_, ?_⟩
  · obtain ⟨X, Y, Z, hX, hY, hZ, hH⟩ := hR
    obtain rfl := F.value hY F.zero
    exact hH.y_ne F.noTwo rfl
  · exact (isOnCurve_spec F (e := ⟨O.zero, O.zero, O.zero⟩) F.zero F.zero F.zero).2 (Or.inr ⟨rfl, rfl, rfl⟩)
  · have : isIdentity O ⟨O.zero, O.zero, O.zero⟩ = if (0 : K) = 0 then 1 else 0 := F.isZero F.zero
    rw [this, if_pos rfl]
  · obtain ⟨X, Y, Z, hX, hY, hZ, -⟩ := hf
    exact add_zeros F hX hY hZ

/-! ## Compressed form -/

theorem toCompressed_zero {e : P3 E} (he : HRep Rep b e 0) : ∃ h t, toCompressed C e = h :: t ∧ (h >>> 7) &&& 1 = 1 ∧ (h >>> 6) &&& 1 = 1 := by
  obtain ⟨h, t, hc, -⟩ := enc_zero F
  have hi := isIdentity_spec F.toFOK he
  rw [if_pos rfl] at hi
  have ha := (toAffine_spec F.toFOK he).1 rfl
  unfold toCompressed
  dsimp only
  rw [hi, ha]
  dsimp only
  rw [hc]
  refine ⟨_, _, rfl, ?_⟩
  rw [F.lex F.zero]
  split
  · exact head_infinity h 1 (Or.inr rfl)
  · exact head_infinity h 0 (Or.inl rfl)

theorem toCompressed_some {e : P3 E} {x y : K} {n} (he : HRep Rep b e (.some x y n)) {a : E} (ha : Rep a x) :
    ∃ h t, C.enc a = h :: t ∧ h &&& 0x1F = h ∧
      toCompressed C e = hc h 0 (if L y then 1 else 0) :: t := by
  obtain ⟨h, t, hc, hh⟩ := enc_cons F ha
  refine ⟨h, t, hc, hh, ?_⟩
  have hi := isIdentity_spec F.toFOK he
  rw [if_neg (WeierstrassCurve.Affine.Point.some_ne_zero _)] at hi
  obtain ⟨hx, hy, -, -⟩ := (toAffine_spec F.toFOK he).2 x y n rfl
  unfold toCompressed
  dsimp only
  rw [hi, F.unique hx ha, hc, F.lex hy]
  have : (if L y then (1 : UInt64) else 0).toUInt8 = if L y then 1 else 0 := by split <;> rfl
  rw [this]
  rfl

theorem length_toCompressed {e : P3 E} {P : Pt (0 : K) b} (he : HRep Rep b e P) : (toCompressed C e).length = C.size := by
  unfold toCompressed
  dsimp only
  rw [length_or0, length_or0, length_or0]
  cases P with
  | zero => rw [(toAffine_spec F.toFOK he).1 rfl]; exact F.enc_length F.zero
  | some x y n => exact F.enc_length ((toAffine_spec F.toFOK he).2 x y n rfl).1

/-- The root with the requested sign. -/
theorem signed_root {a : E} {x y : K} (ha : Rep a x) (hy0 : y ≠ 0) (hy : y * y = x) :
    let r := C.fo.sqrt a
    r.2 = 1 ∧ Rep (fneg C.fo r.1 (C.fo.lexLargest r.1 ^^^ (if L y then 1 else 0))) y := by
  obtain ⟨z, hz, hr, hf⟩ := (F.sqrt ha).1 ⟨y, hy.symm⟩
  refine ⟨hf, ?_⟩
  unfold fneg
  rw [F.lex hr]
  have hz2 : (z - y) * (z + y) = 0 := by linear_combination hz - hy
  rcases mul_eq_zero.1 hz2 with h | h
  · have : z = y := sub_eq_zero.1 h
    subst this
    have hx : ((if L z then 1 else 0) ^^^ (if L z then 1 else 0) : UInt64) = 0 := UInt64.xor_self
    rw [hx, F.cmove0]
    exact hr
  · have hzy : z = -y := eq_neg_of_add_eq_zero_left h
    subst hzy
    have hs := F.sign hy0
    have hx : ((if L (-y) then 1 else 0) ^^^ (if L y then 1 else 0) : UInt64) = 1 := by
      by_cases hL : L y
      · rw [if_pos hL, if_neg (fun h => hs.1 h hL)]; rfl
      · rw [if_neg hL, if_pos (hs.2 hL)]; rfl
    rw [hx, F.cmove1]
    have := F.neg hr
    rwa [neg_neg] at this

theorem coord_exists {e : P3 E} {x y : K} {n} (he : HRep Rep b e (.some x y n)) : ∃ a c, Rep a x ∧ Rep c y :=
  ⟨_, _, ((toAffine_spec F.toFOK he).2 x y n rfl).1, ((toAffine_spec F.toFOK he).2 x y n rfl).2.1⟩

/-- Encoding and decoding a point of the subgroup. -/
theorem compressed_roundtrip {e : P3 E} {P : Pt (0 : K) b} (he : HRep Rep b e P) (hq : Fq.q • P = 0) :
    ∃ e', fromCompressed C (toCompressed C e) = some e' ∧ HRep Rep b e' P := by
  cases P with
  | zero =>
    obtain ⟨h, t, hc, h7, h6⟩ := toCompressed_zero F he
    refine ⟨identity C.fo, ?_, identity_spec F.toFOK⟩
    rw [hc]
    unfold fromCompressed
    dsimp only [List.headD_cons]
    rw [if_neg (by rw [h7]; exact fun h => h rfl), if_pos h6]
  | some x y n =>
    obtain ⟨a, c, ha, hc⟩ := coord_exists F he
    obtain ⟨h, t, henc, hh, hto⟩ := toCompressed_some F he ha
    rw [hto]
    have hL : (if L y then (1 : UInt8) else 0) = 0 ∨ (if L y then (1 : UInt8) else 0) = 1 := by split <;> simp
    obtain ⟨h7, h6, h5, hm⟩ := head_compressed h hh _ hL
    have hy0 := y_ne_zero F.noTwo (eqn_iff.1 n.1)
    have hb := F.add (F.mul (F.square ha) ha) F.coeff
    have hyy : y * y = x * x * x + b := by have := eqn_iff.1 n.1; linear_combination this
    obtain ⟨hf, hr⟩ := signed_root F hb hy0 hyy
    have h64 : (if L y then (1 : UInt8) else 0).toUInt64 = if L y then 1 else 0 := by split <;> rfl
    refine ⟨⟨a, c, C.fo.one⟩, ?_, affine_rep F ha hc n⟩
    have hin := inCorrectSubgroup_spec F (affine_rep F ha hc n)
    rw [if_pos hq] at hin
    unfold fromCompressed
    dsimp only [List.headD_cons, mask0]
    rw [if_neg (by rw [h7]; exact fun h => h rfl), if_neg (by rw [h6]; decide), hm, ← henc, F.dec_enc ha]
    dsimp only
    rw [if_neg (by rw [hf]; exact fun h => h rfl), h5, h64, F.unique hr hc, if_neg (by rw [hin]; decide)]

/-- What is accepted: the neutral element when the infinity flag is set; otherwise the canonical encoding of a point of the subgroup. -/
theorem fromCompressed_sound {l : List UInt8} (hl : l.length = C.size) {e : P3 E} (h : fromCompressed C l = some e) :
    (l.headD 0 >>> 7) &&& 1 = 1 ∧
    (((l.headD 0 >>> 6) &&& 1 = 1 ∧ e = identity C.fo) ∨
      ((l.headD 0 >>> 6) &&& 1 ≠ 1 ∧ ∃ P : Pt (0 : K) b, P ≠ 0 ∧ Fq.q • P = 0 ∧ HRep Rep b e P ∧ toCompressed C e = l)) := by
  unfold fromCompressed at h
  dsimp only at h
  by_cases h7 : (l.headD 0 >>> 7) &&& 1 ≠ 1
  · rw [if_pos h7] at h; cases h
  rw [if_neg h7] at h
  have h7' : (l.headD 0 >>> 7) &&& 1 = 1 := not_not.1 h7
  refine ⟨h7', ?_⟩
  by_cases h6 : (l.headD 0 >>> 6) &&& 1 = 1
  · rw [if_pos h6] at h
    exact Or.inl ⟨h6, (Option.some.inj h).symm⟩
  rw [if_neg h6] at h
  refine Or.inr ⟨h6, ?_⟩
  cases hd : C.dec (mask0 l) with
  | none => rw [hd] at h; cases h
  | some a =>
    rw [hd] at h
    dsimp only at h
    obtain ⟨⟨x, ha⟩, henc⟩ := F.dec_some (by rw [length_mask0, hl]) hd
    have hb := F.add (F.mul (F.square ha) ha) F.coeff
    by_cases hs : (C.fo.sqrt (C.fo.add (C.fo.mul (C.fo.square a) a) C.fo.b)).2 ≠ 1
    · rw [if_pos hs] at h; cases h
    rw [if_neg hs] at h
    have hsq : IsSquare (x * x * x + b) := by
      by_contra hns
      have := (F.sqrt hb).2 hns
      rw [this] at hs
      exact hs (by decide)
    obtain ⟨z, hz, hr, hf⟩ := (F.sqrt hb).1 hsq
    have hz0 : z ≠ 0 := by
      rintro rfl
      exact F.noTwo x (by linear_combination -hz)
    -- the chosen root
    have hchoice : ∃ w, w * w = x * x * x + b ∧
        Rep (fneg C.fo (C.fo.sqrt (C.fo.add (C.fo.mul (C.fo.square a) a) C.fo.b)).1
          (C.fo.lexLargest (C.fo.sqrt (C.fo.add (C.fo.mul (C.fo.square a) a) C.fo.b)).1 ^^^ ((l.headD 0 >>> 5) &&& 1).toUInt64)) w ∧
        (if L w then (1 : UInt8) else 0) = (l.headD 0 >>> 5) &&& 1 := by
      unfold fneg
      rw [F.lex hr]
      have hsg := F.sign hz0
      rcases sort_bit (l.headD 0) with h5 | h5 <;> rw [h5]
      · by_cases hL : L z
        · refine ⟨-z, by rw [neg_mul_neg, hz], ?_, by rw [if_neg (fun h => hsg.1 h hL)]⟩
          rw [if_pos hL, show ((1 : UInt64) ^^^ (0 : UInt8).toUInt64) = 1 by decide, F.cmove1]
          exact F.neg hr
        · refine ⟨z, hz, ?_, by rw [if_neg hL]⟩
          rw [if_neg hL, show ((0 : UInt64) ^^^ (0 : UInt8).toUInt64) = 0 by decide, F.cmove0]
          exact hr
      · by_cases hL : L z
        · refine ⟨z, hz, ?_, by rw [if_pos hL]⟩
          rw [if_pos hL, show ((1 : UInt64) ^^^ (1 : UInt8).toUInt64) = 0 by decide, F.cmove0]
          exact hr
        · refine ⟨-z, by rw [neg_mul_neg, hz], ?_, by rw [if_pos (hsg.2 hL)]⟩
          rw [if_neg hL, show ((0 : UInt64) ^^^ (1 : UInt8).toUInt64) = 1 by decide, F.cmove1]
          exact F.neg hr
    obtain ⟨w, hw, hwr, hwl⟩ := hchoice
    generalize fneg C.fo _ _ = c at hwr h
    have n : (curve (0 : K) b).Nonsingular x w := nonsing F.two F.noTwo (by linear_combination hw)
    have hrep := affine_rep F ha hwr n
    by_cases hin : inCorrectSubgroup C.fo ⟨a, c, C.fo.one⟩ = 0
    · rw [if_pos hin] at h; cases h
    rw [if_neg hin] at h
    obtain rfl := Option.some.inj h
    have hq : Fq.q • (.some x w n : Pt (0 : K) b) = 0 := by
      by_contra hc
      rw [inCorrectSubgroup_spec F hrep, if_neg hc] at hin
      exact hin rfl
    refine ⟨_, WeierstrassCurve.Affine.Point.some_ne_zero _, hq, hrep, ?_⟩
    obtain ⟨hd', t, he', -, hto⟩ := toCompressed_some F hrep ha
    rw [hto, hwl]
    cases l with
    | nil => exact absurd hl (by rw [List.length_nil]; have := F.size; omega)
    | cons c0 tl =>
      rw [henc] at he'
      obtain ⟨e1, e2⟩ := List.cons.inj he'
      rw [← e1, ← e2]
      dsimp only [List.headD_cons] at h7' h6 ⊢
      rw [head_rebuild c0 h7' h6]

/-- The compressed form determines the point. -/
theorem toCompressed_inj {e f : P3 E} {P Q : Pt (0 : K) b} (he : HRep Rep b e P) (hf : HRep Rep b f Q) :
    toCompressed C e = toCompressed C f ↔ P = Q := by
  constructor
  · intro h
    cases P with
    | zero =>
      cases Q with
      | zero => rfl
      | some x y n =>
        obtain ⟨a, c, ha, hc⟩ := coord_exists F hf
        obtain ⟨h1, t1, e1, _, h61⟩ := toCompressed_zero F he
        obtain ⟨h2, t2, _, hh, e2⟩ := toCompressed_some F hf ha
        obtain ⟨_, h62, _, _⟩ := head_compressed h2 hh (if L y then 1 else 0) (by split <;> simp)
        rw [e1, e2] at h
        injection h with ha' _
        rw [ha'] at h61
        rw [h62] at h61
        exact absurd h61 (by decide)
    | some x y n =>
      obtain ⟨a, c, ha, hc⟩ := coord_exists F he
      obtain ⟨h1, t1, k1, hh1, e1⟩ := toCompressed_some F he ha
      obtain ⟨_, h61, h51, m1⟩ := head_compressed h1 hh1 (if L y then 1 else 0) (by split <;> simp)
      cases Q with
      | zero =>
        obtain ⟨h2, t2, e2, _, h62⟩ := toCompressed_zero F hf
        rw [e1, e2] at h
        injection h with ha' _
        rw [← ha', h61] at h62
        exact absurd h62 (by decide)
      | some x' y' n' =>
        obtain ⟨a', c', ha', hc'⟩ := coord_exists F hf
        obtain ⟨h2, t2, k2, hh2, e2⟩ := toCompressed_some F hf ha'
        obtain ⟨_, h62, h52, m2⟩ := head_compressed h2 hh2 (if L y' then 1 else 0) (by split <;> simp)
        rw [e1, e2] at h
        injection h with hd ht
        rw [hd] at m1 h51
        have hhd : h1 = h2 := m1.symm.trans m2
        have haa : a = a' := by
          have := F.dec_enc ha
          rw [k1, hhd, ht, ← k2, F.dec_enc ha'] at this
          exact (Option.some.inj this).symm
        subst haa
        obtain rfl := F.value ha ha'
        have hLL : (if L y then (1 : UInt8) else 0) = if L y' then 1 else 0 := h51.symm.trans h52
        have e1 := eqn_iff.1 n.1
        have e2 := eqn_iff.1 n'.1
        have : (y - y') * (y + y') = 0 := by linear_combination e1 - e2
        rcases mul_eq_zero.1 this with h | h
        · have : y = y' := sub_eq_zero.1 h
          subst this
          rfl
        · exfalso
          have hy : y = -y' := eq_neg_of_add_eq_zero_left h
          have hs := F.sign (y_ne_zero F.noTwo e2)
          rw [hy] at hLL
          by_cases hL : L y'
          · rw [if_pos hL, if_neg (fun h => hs.1 h hL)] at hLL; exact absurd hLL (by decide)
          · rw [if_neg hL, if_pos (hs.2 hL)] at hLL; exact absurd hLL (by decide)
  · rintro rfl
    cases P with
    | zero =>
      have i1 := isIdentity_spec F.toFOK he
      have i2 := isIdentity_spec F.toFOK hf
      unfold toCompressed
      dsimp only
      rw [i1, i2, (toAffine_spec F.toFOK he).1 rfl, (toAffine_spec F.toFOK hf).1 rfl]
    | some x y n =>
      obtain ⟨a, c, ha, hc⟩ := coord_exists F he
      obtain ⟨h1, t1, k1, hh1, e1⟩ := toCompressed_some F he ha
      obtain ⟨h2, t2, k2, hh2, e2⟩ := toCompressed_some F hf ha
      rw [k1] at k2
      injection k2 with a1 a2
      rw [e1, e2, a1, a2]

/-! ## Uncompressed form -/

theorem toUncompressed_zero {e : P3 E} (he : HRep Rep b e 0) : ∃ h t, toUncompressed C e = h :: t ∧ (h >>> 6) &&& 1 = 1 := by
  obtain ⟨h, t, hc, -⟩ := enc_zero F
  have hi := isIdentity_spec F.toFOK he
  rw [if_pos rfl] at hi
  have ha := (toAffine_spec F.toFOK he).1 rfl
  unfold toUncompressed
  dsimp only
  rw [hi, ha]
  dsimp only
  rw [hc]
  exact ⟨_, _, rfl, head_plain_inf h⟩

theorem toUncompressed_some {e : P3 E} {x y : K} {n} (he : HRep Rep b e (.some x y n)) {a c : E} (ha : Rep a x) (hc : Rep c y) :
    toUncompressed C e = or0 (0x40 &&& (0 - 0)) (C.enc a ++ C.enc c) := by
  have hi := isIdentity_spec F.toFOK he
  rw [if_neg (WeierstrassCurve.Affine.Point.some_ne_zero _)] at hi
  obtain ⟨hx, hy, -, -⟩ := (toAffine_spec F.toFOK he).2 x y n rfl
  unfold toUncompressed
  dsimp only
  rw [hi, F.unique hx ha, F.unique hy hc]
  rfl

theorem length_toUncompressed {e : P3 E} {P : Pt (0 : K) b} (he : HRep Rep b e P) : (toUncompressed C e).length = 2 * C.size := by
  unfold toUncompressed
  dsimp only
  rw [length_or0, List.length_append]
  cases P with
  | zero => rw [(toAffine_spec F.toFOK he).1 rfl]; dsimp only; rw [F.enc_length F.zero]; omega
  | some x y n =>
    have := (toAffine_spec F.toFOK he).2 x y n rfl
    rw [F.enc_length this.1, F.enc_length this.2.1]; omega

theorem uncompressed_roundtrip {e : P3 E} {P : Pt (0 : K) b} (he : HRep Rep b e P) (hq : Fq.q • P = 0) :
    ∃ e', fromUncompressed C (toUncompressed C e) = some e' ∧ HRep Rep b e' P := by
  cases P with
  | zero =>
    obtain ⟨h, t, hc, h6⟩ := toUncompressed_zero F he
    refine ⟨identity C.fo, ?_, identity_spec F.toFOK⟩
    rw [hc]
    unfold fromUncompressed
    dsimp only [List.headD_cons]
    rw [if_pos h6]
  | some x y n =>
    obtain ⟨a, c, ha, hc⟩ := coord_exists F he
    rw [toUncompressed_some F he ha hc]
    obtain ⟨h, t, k, hh⟩ := enc_cons F ha
    obtain ⟨h6, hm⟩ := head_plain h hh
    have hrep := affine_rep F ha hc n
    have hl := F.enc_length ha
    refine ⟨⟨a, c, C.fo.one⟩, ?_, hrep⟩
    have hin := inCorrectSubgroup_spec F hrep
    rw [if_pos hq] at hin
    have hon := (isOnCurve_spec F.toFOK (e := ⟨a, c, C.fo.one⟩) ha hc F.one).2 (Or.inl ⟨_, hrep⟩)
    have htake : mask0 (List.take C.size (or0 (0x40 &&& (0 - 0)) (C.enc a ++ C.enc c))) = C.enc a := by
      have hs := F.size
      obtain ⟨m, hm'⟩ : ∃ m, C.size = m + 1 := ⟨C.size - 1, by omega⟩
      rw [k] at hl ⊢
      rw [List.cons_append, or0, hm', List.take_succ_cons, mask0, show (h ||| 64 &&& (0 - 0)) &&& 31 = h from hm, List.take_left' (by rw [List.length_cons] at hl; omega)]
    have hdrop : List.drop C.size (or0 (0x40 &&& (0 - 0)) (C.enc a ++ C.enc c)) = C.enc c := by
      have hs := F.size
      obtain ⟨m, hm'⟩ : ∃ m, C.size = m + 1 := ⟨C.size - 1, by omega⟩
      rw [k] at hl ⊢
      rw [List.cons_append, or0, hm', List.drop_succ_cons, List.drop_left' (by rw [List.length_cons] at hl; omega)]
    have hhead : ((or0 (0x40 &&& (0 - 0)) (C.enc a ++ C.enc c)).headD 0 >>> 6) &&& 1 = 0 := by
      rw [k, List.cons_append, or0, List.headD_cons]
      exact h6
    unfold fromUncompressed
    dsimp only
    rw [if_neg (by rw [hhead]; decide), htake, F.dec_enc ha]
    dsimp only
    rw [hdrop, F.dec_enc hc]
    dsimp only
    rw [if_neg (by rw [hon]; decide), if_neg (by rw [hin]; decide)]

/-- What is accepted: the neutral element when the infinity flag is set; otherwise a point of the subgroup, whose encoding is the input
with the three top bits cleared. -/
theorem fromUncompressed_sound {l : List UInt8} (hl : l.length = 2 * C.size) {e : P3 E} (h : fromUncompressed C l = some e) :
    ((l.headD 0 >>> 6) &&& 1 = 1 ∧ e = identity C.fo) ∨
      ((l.headD 0 >>> 6) &&& 1 ≠ 1 ∧ ∃ P : Pt (0 : K) b, P ≠ 0 ∧ Fq.q • P = 0 ∧ HRep Rep b e P ∧ toUncompressed C e = mask0 l) := by
  unfold fromUncompressed at h
  dsimp only at h
  by_cases h6 : (l.headD 0 >>> 6) &&& 1 = 1
  · rw [if_pos h6] at h
    exact Or.inl ⟨h6, (Option.some.inj h).symm⟩
  rw [if_neg h6] at h
  refine Or.inr ⟨h6, ?_⟩
  cases hd : C.dec (mask0 (l.take C.size)) with
  | none => rw [hd] at h; cases h
  | some a =>
    rw [hd] at h
    dsimp only at h
    cases hd2 : C.dec (l.drop C.size) with
    | none => rw [hd2] at h; cases h
    | some c =>
      rw [hd2] at h
      dsimp only at h
      obtain ⟨⟨x, ha⟩, henc⟩ := F.dec_some (by rw [length_mask0, List.length_take, hl]; omega) hd
      obtain ⟨⟨y, hc⟩, henc2⟩ := F.dec_some (by rw [List.length_drop, hl]; omega) hd2
      have hon := isOnCurve_spec F.toFOK (e := ⟨a, c, C.fo.one⟩) ha hc F.one
      by_cases ho : isOnCurve C.fo ⟨a, c, C.fo.one⟩ = 0
      · rw [if_pos ho] at h; cases h
      rw [if_neg ho] at h
      by_cases hi : inCorrectSubgroup C.fo ⟨a, c, C.fo.one⟩ = 0
      · rw [if_pos hi] at h; cases h
      rw [if_neg hi] at h
      obtain rfl := Option.some.inj h
      have hon1 : isOnCurve C.fo ⟨a, c, C.fo.one⟩ = 1 := by
        have := F.equal (F.mul (F.square hc) F.one) (F.add (F.mul (F.square ha) ha) (F.mul (F.mul (F.square F.one) F.one) F.coeff))
        change isOnCurve C.fo ⟨a, c, C.fo.one⟩ = _ at this
        rw [this] at ho ⊢
        split
        · rfl
        · next hh => rw [if_neg hh] at ho; exact absurd rfl ho
      rcases hon.1 hon1 with ⟨P, hP⟩ | ⟨_, _, h1⟩
      · have hq : Fq.q • P = 0 := by
          by_contra hq
          rw [inCorrectSubgroup_spec F hP, if_neg hq] at hi
          exact hi rfl
        have hP0 : P ≠ 0 := by
          rintro rfl
          obtain ⟨X, Y, Z, _, _, hZ, hH, _⟩ := hP
          have := (prep_isZero hH).2 rfl
          subst this
          exact zero_ne_one (F.value hZ F.one)
        refine ⟨P, hP0, hq, hP, ?_⟩
        cases P with
        | zero => exact absurd rfl hP0
        | some x' y' n =>
          obtain ⟨X, Y, Z, hX, hY, hZ, hH, _⟩ := hP
          rcases hH with ⟨_, h0⟩ | ⟨_, x2, y2, n2, e2, ex, ey⟩
          · exact absurd h0 hP0
          have hZ1 := F.value hZ F.one
          subst hZ1
          obtain ⟨f1, f2⟩ := (WeierstrassCurve.Affine.Point.some.injEq ..).mp e2
          subst f1 f2
          rw [mul_one] at ex ey
          subst ex ey
          rw [toUncompressed_some F (affine_rep F hX hY n) hX hY]
          dsimp only
          rw [henc, henc2]
          cases l with
          | nil => exact absurd hl (by rw [List.length_nil]; have := F.size; omega)
          | cons c0 tl =>
            obtain ⟨m, hm'⟩ : ∃ m, C.size = m + 1 := ⟨C.size - 1, by have := F.size; omega⟩
            rw [hm', List.take_succ_cons, mask0, List.cons_append, or0, List.drop_succ_cons, List.take_append_drop, mask0]
            exact congrArg (· :: tl) (mask_or c0)
      · exact absurd h1 one_ne_zero

/-- The top bit, and the third one, of the uncompressed form are not looked at. -/
theorem fromUncompressed_flags (c0 : UInt8) (tl : List UInt8) (h6 : (c0 >>> 6) &&& 1 ≠ 1) :
    fromUncompressed C (c0 :: tl) = fromUncompressed C ((c0 &&& 0x1F) :: tl) := by
  obtain ⟨m, hm'⟩ : ∃ m, C.size = m + 1 := ⟨C.size - 1, by have := F.size; omega⟩
  have h6' : ((c0 &&& 0x1F) >>> 6) &&& 1 ≠ 1 :=
    Pallas.u8_all (P := fun c => ((c &&& 0x1F) >>> 6) &&& 1 ≠ 1) (by decide +kernel) c0
  unfold fromUncompressed
  dsimp only [List.headD_cons]
  rw [if_neg h6, if_neg h6', hm', List.take_succ_cons, List.take_succ_cons, mask0, mask0, mask_mask, List.drop_succ_cons, List.drop_succ_cons]

end

end P3

end Verif.Bls381
