import Verif.Curves.NamedProps
import Verif.Native.PallasApi
import Verif.Native.PointDev
import Verif.Bls381.GtApi
import Verif.Bls381.G1Api
import Verif.Bls381.G2Api

/-! C104: the named encodings of the points and scalars of the eight curves. The curves K-256, P-256, Pallas and BLS12-381 are those of the
earlier modules, at the level of the stored limbs; Ed25519 and BLS12-377 points come from external libraries and are parameters. -/

set_option linter.unusedSectionVars false

namespace Verif.Curves
open Verif Verif.Bytes Verif.Native

/-- The values of `filippo.io/edwards25519` and of gnark's BLS12-377, with their encodings. -/
structure Ext where
  EdS : Type
  EdP : Type
  Z1 : Type
  Z2 : Type
  edBytes : EdS → List UInt8
  edSet : List UInt8 → Res EdS
  edEnc : EdP → List UInt8
  edDec : List UInt8 → Res EdP
  z1Enc : Z1 → List UInt8
  z1Dec : List UInt8 → Res Z1
  z2Enc : Z2 → List UInt8
  z2Dec : List UInt8 → Res Z2
  edSame : EdP → EdP → Prop
  z1Same : Z1 → Z1 → Prop
  z2Same : Z2 → Z2 → Prop

/-- What is assumed of these libraries. -/
structure Ext.Ok (E : Ext) : Prop where
  edBytes_len : ∀ s, (E.edBytes s).length = 32
  edSet_bytes : ∀ s, E.edSet (E.edBytes s) = .ok s
  edSet_safe : ∀ b, E.edSet b ≠ .panic
  edEnc_len : ∀ p, (E.edEnc p).length = 32
  edDec_enc : ∀ p, ∃ p', E.edDec (E.edEnc p) = .ok p' ∧ E.edSame p p'
  edDec_safe : ∀ b, E.edDec b ≠ .panic
  z1Enc_len : ∀ p, (E.z1Enc p).length = 48
  z1Dec_enc : ∀ p, ∃ p', E.z1Dec (E.z1Enc p) = .ok p' ∧ E.z1Same p p'
  z1Dec_safe : ∀ b, E.z1Dec b ≠ .panic
  z2Enc_len : ∀ p, (E.z2Enc p).length = 96
  z2Dec_enc : ∀ p, ∃ p', E.z2Dec (E.z2Enc p) = .ok p' ∧ E.z2Same p p'
  z2Dec_safe : ∀ b, E.z2Dec b ≠ .panic

/-- `bls12377modulus` (crypto/core/curves/bls12377_curve.go:27). -/
def m377 : Nat := 0x12ab655e9a2ca55660b44d1e5c37b00159aa76fed00000010a11800000000001

/-- `ScalarBls12377.SetBytes` (crypto/core/curves/bls12377_curve.go:247-257). -/
def set377 (b : List UInt8) : Res Nat :=
  let value := beToNat b
  let t := value % m377
  if t ≠ value then .err else .ok t

/-- `ScalarPallas.SetBytes` (crypto/core/curves/pallas_curve.go:404-417). -/
def setPallas (b : List UInt8) : Res L4 := if b.length ≠ 32 then .err else Pasta.setBytes pastaFq b

/-- `PointBls12381G1.FromAffineCompressed` (crypto/core/curves/bls12381_curve.go:460-468). -/
def g1Dec (b : List UInt8) : Res Bls381.G1.Point :=
  match Bls381.P3.fromCompressed Bls381.G1.codec (fit 48 b) with
  | some e => .ok e
  | none => .err

/-- `PointBls12381G2.FromAffineCompressed` (crypto/core/curves/bls12381_curve.go:708-716). -/
def g2Dec (b : List UInt8) : Res Bls381.G2.Point :=
  match Bls381.P3.fromCompressed Bls381.G2.codec (fit 96 b) with
  | some e => .ok e
  | none => .err

/-- The scalar types. -/
def SVal (E : Ext) : STy → Type
  | .k256 => L4 | .p256 => L4 | .ed => E.EdS | .pallas => L4 | .b => L4 | .z => Nat

/-- The point types. -/
def PVal (E : Ext) : Kind → Type
  | .k256 => EP | .p256 => EP | .ed => E.EdP | .pallas => EP
  | .b1 => Bls381.G1.Point | .b2 => Bls381.G2.Point | .z1 => E.Z1 | .z2 => E.Z2

/-- `Bytes` and `SetBytes` of the scalar types, `ToAffineCompressed` and `FromAffineCompressed` of the point types. The value of a
`ScalarBls12377` is below the modulus, so that `FillBytes` writes its 32 bytes (crypto/core/curves/bls12377_curve.go:242-245). -/
def ops (E : Ext) : Ops where
  S := SVal E
  P := PVal E
  sBytes := fun t => match t with
    | .k256 => fun s => Scalar.bytes K256Fq.impl s
    | .p256 => fun s => Scalar.bytes P256Fq.impl s
    | .ed => E.edBytes
    | .pallas => fun s => Field.bytes pastaFq.A s
    | .b => fun s => Scalar.bytes Bls381.Fq.impl s
    | .z => fun v => natToBEfix 32 v
  sSet := fun t => match t with
    | .k256 => Scalar.setBytes K256Fq.impl
    | .p256 => Scalar.setBytes P256Fq.impl
    | .ed => E.edSet
    | .pallas => setPallas
    | .b => Scalar.setBytes Bls381.Fq.impl
    | .z => set377
  pEnc := fun k => match k with
    | .k256 => K256.curve.toCompressed
    | .p256 => P256.curve.toCompressed
    | .ed => E.edEnc
    | .pallas => Pallas.toCompressed
    | .b1 => Bls381.P3.toCompressed Bls381.G1.codec
    | .b2 => Bls381.P3.toCompressed Bls381.G2.codec
    | .z1 => E.z1Enc
    | .z2 => E.z2Enc
  pDec := fun k => match k with
    | .k256 => K256.curve.fromCompressed
    | .p256 => P256.curve.fromCompressed
    | .ed => E.edDec
    | .pallas => Pallas.fromCompressed
    | .b1 => g1Dec
    | .b2 => g2Dec
    | .z1 => E.z1Dec
    | .z2 => E.z2Dec

/-- The type assertion in the `Unmarshal…` methods of `ScalarBls12381Gt` (crypto/core/curves/bls12381_curve.go:905-955): the decoded scalar
belongs to a registered curve, so that it never has the type `ScalarBls12381Gt`. -/
def assignGt (O : Ops) (r : Res (Sc O)) : Res Unit := do
  let _ ← r
  .err

/-! ## Specification -/

/-- The stored scalars that stand for a number below the order; for Pallas only those whose encoding `SetBytes` accepts (C67). -/
def ValidS (E : Ext) : ∀ t, SVal E t → Prop
  | .k256, s => ∃ x : ZMod K256Fq.prime, Rep K256Fq.prime s x
  | .p256, s => ∃ x : ZMod P256Fq.prime, Rep P256Fq.prime s x
  | .ed, _ => True
  | .pallas, s => ∃ x : ZMod PastaFq.prime, Rep PastaFq.prime s x ∧ Accepted PastaFq.prime x.val
  | .b, s => ∃ x : ZMod Bls381.Fq.q, Rep Bls381.Fq.q s x
  | .z, v => (show Nat from v) < m377

/-- Two stored points are forms of the same point; the neutral element is excepted on K-256, P-256 and Pallas, and on Pallas the points whose
abscissa `SetBytes` refuses (C67); on BLS12-381 the point is in the subgroup of order `q`. -/
def SameP (E : Ext) : ∀ k, PVal E k → PVal E k → Prop
  | .k256, e, e' => ∃ P : Native.Weier.Pt (0 : ZMod K256Fp.prime) ((7 : Nat) : ZMod K256Fp.prime), P ≠ 0 ∧ ERep _ _ e P ∧ ERep _ _ e' P
  | .p256, e, e' => ∃ P : Native.Weier.Pt (-3 : ZMod P256Fp.prime) (P256.b : ZMod P256Fp.prime), P ≠ 0 ∧ ERep _ _ e P ∧ ERep _ _ e' P
  | .ed, e, e' => E.edSame e e'
  | .pallas, e, e' => ∃ x y h, Accepted Pallas.p x.val ∧ Pallas.ERep e (.some x y h) ∧ Pallas.ERep e' (.some x y h)
  | .b1, e, e' => ∃ P, Bls381.Fq.q • P = 0 ∧ Bls381.G1.Rep e P ∧ Bls381.G1.Rep e' P
  | .b2, e, e' => ∃ P, Bls381.Fq.q • P = 0 ∧ Bls381.G2.Rep e P ∧ Bls381.G2.Rep e' P
  | .z1, e, e' => E.z1Same e e'
  | .z2, e, e' => E.z2Same e e'

/-- A point that has an encoding: the library points always, the others as in `SameP`. -/
def ValidP (E : Ext) : ∀ k, PVal E k → Prop
  | .ed, _ => True
  | .z1, _ => True
  | .z2, _ => True
  | k, e => SameP E k e e

/-! ## The encodings of the types -/

theorem set377_spec {v : Nat} (h : v < m377) : set377 (natToBEfix 32 v) = .ok v := by
  unfold set377
  dsimp only
  rw [beToNat_natToBEfix, Nat.mod_eq_of_lt (lt_trans h (by decide +kernel)), Nat.mod_eq_of_lt h, if_neg (fun h => h rfl)]


theorem fit_append {n : Nat} {b junk : List UInt8} (h : b.length = n) : fit n (b ++ junk) = b := by
  unfold fit
  rw [List.length_append, h, List.take_append_of_le_length h.ge, ← h, List.take_length, Nat.sub_eq_zero_of_le (Nat.le_add_right _ _)]
  exact List.append_nil _

theorem g1Dec_ok {b : List UInt8} {e : Bls381.G1.Point} (h : Bls381.P3.fromCompressed Bls381.G1.codec (fit 48 b) = some e) : g1Dec b = .ok e := by
  unfold g1Dec; rw [h]

theorem g2Dec_ok {b : List UInt8} {e : Bls381.G2.Point} (h : Bls381.P3.fromCompressed Bls381.G2.codec (fit 96 b) = some e) : g2Dec b = .ok e := by
  unfold g2Dec; rw [h]

theorem g1Dec_enc {p e : Bls381.G1.Point} (hl : (Bls381.P3.toCompressed Bls381.G1.codec p).length = 48)
    (h : Bls381.P3.fromCompressed Bls381.G1.codec (Bls381.P3.toCompressed Bls381.G1.codec p) = some e) :
    g1Dec (Bls381.P3.toCompressed Bls381.G1.codec p) = .ok e := g1Dec_ok (by rw [fit_of_length hl]; exact h)

theorem g1Dec_junk {p e : Bls381.G1.Point} (hl : (Bls381.P3.toCompressed Bls381.G1.codec p).length = 48)
    (h : Bls381.P3.fromCompressed Bls381.G1.codec (Bls381.P3.toCompressed Bls381.G1.codec p) = some e) (junk : List UInt8) :
    g1Dec (Bls381.P3.toCompressed Bls381.G1.codec p ++ junk) = .ok e := g1Dec_ok (by rw [fit_append hl]; exact h)

theorem g2Dec_enc {p e : Bls381.G2.Point} (hl : (Bls381.P3.toCompressed Bls381.G2.codec p).length = 96)
    (h : Bls381.P3.fromCompressed Bls381.G2.codec (Bls381.P3.toCompressed Bls381.G2.codec p) = some e) :
    g2Dec (Bls381.P3.toCompressed Bls381.G2.codec p) = .ok e := g2Dec_ok (by rw [fit_of_length hl]; exact h)

theorem g2Dec_junk {p e : Bls381.G2.Point} (hl : (Bls381.P3.toCompressed Bls381.G2.codec p).length = 96)
    (h : Bls381.P3.fromCompressed Bls381.G2.codec (Bls381.P3.toCompressed Bls381.G2.codec p) = some e) (junk : List UInt8) :
    g2Dec (Bls381.P3.toCompressed Bls381.G2.codec p ++ junk) = .ok e := g2Dec_ok (by rw [fit_append hl]; exact h)

theorem p256_bin {E : Ext} {u e : EP} (hl : 32 ≤ (P256.curve.toCompressed u).length)
    (h : P256.curve.fromCompressed (P256.curve.toCompressed u) = .ok e) :
    pointUnmarshalBinary (ops E) (pointMarshalBinary (ops E) ⟨.p256, u⟩) = .ok ⟨.p256, e⟩ := by
  unfold pointUnmarshalBinary pointMarshalBinary
  have e5 : Kind.p256.name.length = 5 := by decide
  have e6 : (ascii "P-256").length = 5 := by decide
  have hl' : 32 ≤ ((ops E).pEnc .p256 u).length := hl
  dsimp only
  rw [if_neg (by rw [List.length_append, List.length_cons, e5, e6]; omega), splitName_name, Res.bind_ok]
  have h' : (ops E).pDec .p256 ((ops E).pEnc .p256 u) = .ok e := h
  dsimp only
  rw [h']; rfl

theorem gt_length {a : Bls381.Fp12.E12} {x : Bls381.Fp12.K12} (ha : Bls381.Fp12.Rep12 a x) : (Bls381.Gt.bytes a).length = 576 := by
  rw [Bls381.Gt.bytes_spec ha]
  unfold Bls381.Gt.coordinates
  simp only [List.map_cons, List.map_nil, List.flatten_cons, List.flatten_nil, List.length_append, List.length_reverse, length_natToLE,
    List.length_nil]

section
variable {E : Ext} (hE : E.Ok)
include hE

theorem sBytes_spec {t : STy} {s : SVal E t} (h : ValidS E t s) :
    ((ops E).sBytes t s).length = 32 ∧ (ops E).sSet t ((ops E).sBytes t s) = .ok s := by
  cases t with
  | k256 => obtain ⟨x, hx⟩ := h; have := C66_scalar_bytes C50_k256Fq [] s x hx; exact ⟨this.2.2.1, this.2.2.2.2⟩
  | p256 => obtain ⟨x, hx⟩ := h; have := C66_scalar_bytes C50_p256Fq [] s x hx; exact ⟨this.2.2.1, this.2.2.2.2⟩
  | ed => exact ⟨hE.edBytes_len s, hE.edSet_bytes s⟩
  | pallas =>
    obtain ⟨x, hx, ha⟩ := h
    have hb := C50_bytes PastaFq.lawful hx
    have hl : (Field.bytes pastaFq.A s).length = 32 := by
      show (Field.bytes PastaFq.arith s).length = 32
      rw [hb]; exact length_natToLE _ _
    refine ⟨hl, ?_⟩
    show setPallas (Field.bytes pastaFq.A s) = .ok s
    unfold setPallas
    rw [if_neg (not_not.2 hl)]
    have : NeZero PastaFq.prime := ⟨by decide +kernel⟩
    have hv : leToNat (Field.bytes pastaFq.A s) = x.val := by
      show leToNat (Field.bytes PastaFq.arith s) = _
      rw [hb, leToNat_natToLE, Nat.mod_eq_of_lt]
      exact lt_of_lt_of_le (ZMod.val_lt x) (by decide +kernel)
    obtain ⟨a, h1, h2⟩ := (C67_setBytes_exact (F := pastaFq) PastaFq.lawful pastaFq_shape _ hl).1 (by rw [hv]; exact ha)
    rw [hv, ZMod.natCast_zmod_val] at h2
    rw [h1, rep_unique PastaFq.lawful h2 hx]
  | b => obtain ⟨x, hx⟩ := h; have := Bls381.Fq.C90_scalar_bytes [] s x hx; exact ⟨this.2.2.1, this.2.2.2.2⟩
  | z =>
    refine ⟨length_natToBEfix _ _, ?_⟩
    exact set377_spec h

theorem sSet_safe (t : STy) (b : List UInt8) : (ops E).sSet t b ≠ .panic := by
  have gen : ∀ {F : Impl} {q : Nat} (_ : Good F q) (b : List UInt8), Scalar.setBytes F b ≠ .panic := by
    intro F q G b
    have h := C66_scalar_bytes G b Field.zero 0 (C50_constants G.lawful).2
    by_cases hc : b.length = 32 ∧ beToNat b < q
    · obtain ⟨r, hr, -⟩ := h.1 hc.1 hc.2
      rw [hr]; exact fun e => by cases e
    · rw [h.2.1 (by omega)]; exact fun e => by cases e
  cases t with
  | k256 => exact gen C50_k256Fq b
  | p256 => exact gen C50_p256Fq b
  | ed => exact hE.edSet_safe b
  | pallas =>
    show setPallas b ≠ .panic
    unfold setPallas
    by_cases hl : b.length = 32
    · rw [if_neg (not_not.2 hl)]
      have h := C67_setBytes_exact (F := pastaFq) PastaFq.lawful pastaFq_shape _ hl
      by_cases ha : Accepted PastaFq.prime (leToNat b)
      · obtain ⟨r, hr, -⟩ := h.1 ha
        rw [hr]; exact fun e => by cases e
      · rw [h.2 ha]; exact fun e => by cases e
    · rw [if_pos hl]; exact fun e => by cases e
  | b =>
    show Scalar.setBytes Bls381.Fq.impl b ≠ .panic
    have h := Bls381.Fq.C90_scalar_bytes b Field.zero 0 (C50_constants Bls381.Fq.lawful).2
    by_cases hc : b.length = 32 ∧ beToNat b < Bls381.Fq.q
    · obtain ⟨r, hr, -⟩ := h.1 hc.1 hc.2
      rw [hr]; exact fun e => by cases e
    · rw [h.2.1 (by omega)]; exact fun e => by cases e
  | z =>
    show set377 b ≠ .panic
    unfold set377
    dsimp only
    split
    · exact fun e => by cases e
    · exact fun e => by cases e

theorem pEnc_spec {k : Kind} {p : PVal E k} (h : ValidP E k p) :
    32 ≤ ((ops E).pEnc k p).length ∧ ∃ p', (ops E).pDec k ((ops E).pEnc k p) = .ok p' ∧ SameP E k p p' := by
  cases k with
  | k256 =>
    obtain ⟨P, h0, hp, -⟩ := h
    obtain ⟨e', h1, h2⟩ := (C70_compressed_roundtrip C68_k256 hp h0).1
    refine ⟨?_, e', h1, P, h0, hp, h2⟩
    have : ((ops E).pEnc .k256 p).length = 33 := by
      by_contra hc
      have h3 := (C70_decompress C68_k256 _).1 hc
      rw [show K256.curve.fromCompressed ((ops E).pEnc .k256 p) = .ok e' from h1] at h3
      cases h3
    omega
  | p256 =>
    obtain ⟨P, h0, hp, -⟩ := h
    obtain ⟨e', h1, h2⟩ := (C70_compressed_roundtrip C68_p256 hp h0).1
    refine ⟨?_, e', h1, P, h0, hp, h2⟩
    have : ((ops E).pEnc .p256 p).length = 33 := by
      by_contra hc
      have h3 := (C70_decompress C68_p256 _).1 hc
      rw [show P256.curve.fromCompressed ((ops E).pEnc .p256 p) = .ok e' from h1] at h3
      cases h3
    omega
  | ed => exact ⟨(hE.edEnc_len p).symm.le, hE.edDec_enc p⟩
  | pallas =>
    obtain ⟨x, y, n, ha, hp, -⟩ := h
    obtain ⟨e', h1, h2⟩ := (Pallas.C84_roundtrip hp).1 ha
    refine ⟨?_, e', h1, x, y, n, ha, hp, h2⟩
    have : ((ops E).pEnc .pallas p).length = 32 := by
      by_contra hc
      have h3 := (Pallas.C84_decompress _).1 hc
      rw [show Pallas.fromCompressed ((ops E).pEnc .pallas p) = .ok e' from h1] at h3
      cases h3
    omega
  | b1 =>
    obtain ⟨P, hq, hp, -⟩ := h
    obtain ⟨⟨e', h1, h2⟩, -, hl, -⟩ := Bls381.G1.C95_roundtrip hp hq
    refine ⟨?_, e', ?_, P, hq, hp, h2⟩
    · show 32 ≤ (Bls381.P3.toCompressed Bls381.G1.codec p).length
      rw [hl]; decide
    · exact g1Dec_enc hl h1
  | b2 =>
    obtain ⟨P, hq, hp, -⟩ := h
    obtain ⟨⟨e', h1, h2⟩, -, hl, -⟩ := Bls381.G2.C97_roundtrip hp hq
    refine ⟨?_, e', ?_, P, hq, hp, h2⟩
    · show 32 ≤ (Bls381.P3.toCompressed Bls381.G2.codec p).length
      rw [hl]; decide
    · exact g2Dec_enc hl h1
  | z1 => exact ⟨by show 32 ≤ (E.z1Enc p).length; rw [hE.z1Enc_len p]; decide, hE.z1Dec_enc p⟩
  | z2 => exact ⟨by show 32 ≤ (E.z2Enc p).length; rw [hE.z2Enc_len p]; decide, hE.z2Dec_enc p⟩

theorem pDec_safe (k : Kind) (b : List UInt8) : (ops E).pDec k b ≠ .panic := by
  have gen : ∀ {p : Nat} [Fact p.Prime] {C : Curve} {a b : ZMod p} {G : Native.Weier.Pt a b} (_ : CurveOK C a b G) (bs : List UInt8),
      C.fromCompressed bs ≠ .panic := by
    intro p _ C a b G K bs
    obtain ⟨h1, h2, h3, h4⟩ := C70_decompress K bs
    by_cases l : bs.length = 33
    · by_cases s : bs.headD 0 = 2 ∨ bs.headD 0 = 3
      · by_cases lt : beToNat (bs.drop 1) < p
        · obtain ⟨h5, h6⟩ := h4 (beToNat (bs.drop 1) : ZMod p) l s (by rw [ZMod.val_natCast, Nat.mod_eq_of_lt lt])
          by_cases sq : IsSquare ((beToNat (bs.drop 1) : ZMod p) ^ 3 + a * (beToNat (bs.drop 1) : ZMod p) + b)
          · obtain ⟨_, _, _, h7, -⟩ := h6 sq
            rw [h7]; exact fun e => by cases e
          · rw [h5 sq]; exact fun e => by cases e
        · rw [h3 (by omega)]; exact fun e => by cases e
      · rw [h2 (fun e => s (Or.inl e)) (fun e => s (Or.inr e))]; exact fun e => by cases e
    · rw [h1 l]; exact fun e => by cases e
  cases k with
  | k256 => exact gen C68_k256 b
  | p256 => exact gen C68_p256 b
  | ed => exact hE.edDec_safe b
  | pallas =>
    show Pallas.fromCompressed b ≠ .panic
    obtain ⟨h1, h2, h3⟩ := Pallas.C84_decompress b
    by_cases l : b.length = 32
    · by_cases ha : Accepted Pallas.p (leToNat b % 2 ^ 255)
      · obtain ⟨h5, h6⟩ := h3 _ l ha rfl
        by_cases sq : IsSquare (((leToNat b % 2 ^ 255 : Nat) : ZMod Pallas.p) ^ 3 + 5)
        · obtain ⟨_, _, _, h7, -⟩ := h6 sq
          rw [h7]; exact fun e => by cases e
        · rw [h5 sq]; exact fun e => by cases e
      · rw [h2 ha]; exact fun e => by cases e
    · rw [h1 l]; exact fun e => by cases e
  | b1 => show g1Dec b ≠ .panic; unfold g1Dec; split <;> exact fun e => by cases e
  | b2 => show g2Dec b ≠ .panic; unfold g2Dec; split <;> exact fun e => by cases e
  | z1 => exact hE.z1Dec_safe b
  | z2 => exact hE.z2Dec_safe b

end

/-! ## C104 -/

/-- **C104.** The registry: every curve is found under its own name, the two pairing curves also under their common name, which stands for the
first group; no other name is known. -/
theorem C104_registry (n : List UInt8) (k : Kind) :
    getCurveByName n = some k ↔ n = k.name ∨ (n = ascii "BLS12831" ∧ k = .b1) ∨ (n = ascii "BLS12377" ∧ k = .z1) := lookup_iff n k

section
variable {E : Ext} (hE : E.Ok)
include hE

/-- **C104.** Scalars come back from the binary, the text and the JSON form with their curve. -/
theorem C104_scalar_roundtrip (J : Json) (hJ : ∀ (k : Kind) b, J.unmarshal (J.marshal k.name (hexEnc b)) = some (k.name, hexEnc b)) (s : Sc (ops E)) (hs : ValidS E s.kind.sty s.val) :
    scalarUnmarshalBinary (ops E) (scalarMarshalBinary s.kind ((ops E).sBytes s.kind.sty s.val)) = .ok s ∧
    (∃ t, scalarMarshalText s.kind ((ops E).sBytes s.kind.sty s.val) = .ok t ∧ scalarUnmarshalText (ops E) t = .ok s) ∧
    scalarUnmarshalJson (ops E) J (scalarMarshalJson J s.kind ((ops E).sBytes s.kind.sty s.val)) = .ok s := by
  obtain ⟨hl, hr⟩ := sBytes_spec hE hs
  have hn := (name_length s.kind).1
  refine ⟨?_, ⟨_, if_neg (by omega), ?_⟩, ?_⟩
  · unfold scalarMarshalBinary
    rw [fit_of_length hl]
    exact scalarBin_ok.2 ⟨by rw [List.length_append, List.length_cons, hl]; omega, _, _, lookup_name _, rfl, hr⟩
  · rw [hl, Nat.sub_self]
    refine scalarText_ok.2 ⟨by rw [List.length_append, List.length_cons, List.length_append, length_hexEnc, hl]; omega, _, _,
      (ops E).sBytes s.kind.sty s.val, lookup_name _, rfl, ?_, hl.le, ?_⟩
    · rw [Nat.mul_zero, List.replicate_zero, List.append_nil]
      exact lower_hexEnc _
    · rw [fit_of_length hl]; exact hr
  · exact scalarJson_ok.2 ⟨_, _, _, hJ _ _, lookup_name _, lower_hexEnc _, hr⟩

/-- **C104.** Points come back from the binary, the text and the JSON form with their curve, as the same point. -/
theorem C104_point_roundtrip_partial (J : Json) (hJ : ∀ (k : Kind) b, J.unmarshal (J.marshal k.name (hexEnc b)) = some (k.name, hexEnc b)) (p : Pt (ops E))
    (hp : ValidP E p.kind p.val) :
    (∃ v, pointUnmarshalBinary (ops E) (pointMarshalBinary (ops E) p) = .ok ⟨p.kind, v⟩ ∧ SameP E p.kind p.val v) ∧
    (∃ v, pointUnmarshalText (ops E) (pointMarshalText (ops E) p) = .ok ⟨p.kind, v⟩ ∧ SameP E p.kind p.val v) ∧
    (∃ v, pointUnmarshalJson (ops E) J (pointMarshalJson (ops E) J p) = .ok ⟨p.kind, v⟩ ∧ SameP E p.kind p.val v) := by
  obtain ⟨hl, v, hr, hv⟩ := pEnc_spec hE hp
  have hn := (name_length p.kind).1
  refine ⟨⟨v, ?_, hv⟩, ⟨v, ?_, hv⟩, ⟨v, ?_, hv⟩⟩
  · exact pointBin_ok.2 ⟨by unfold pointMarshalBinary; rw [List.length_append, List.length_cons]; omega, _, _, lookup_name _, rfl, hr⟩
  · exact pointText_ok.2 ⟨by unfold pointMarshalText; rw [List.length_append, List.length_cons, length_hexEnc]; omega, _, _, _, lookup_name _,
      rfl, lower_hexEnc _, hr⟩
  · exact pointJson_ok.2 ⟨_, _, _, hJ _ _, lookup_name _, lower_hexEnc _, hr⟩

/-- **C104.** No input whatever makes the decoders of points panic, nor the binary and JSON decoders of scalars. -/
theorem C104_no_panic_partial (J : Json) (input : List UInt8) :
    pointUnmarshalBinary (ops E) input ≠ .panic ∧ pointUnmarshalText (ops E) input ≠ .panic ∧ pointUnmarshalJson (ops E) J input ≠ .panic ∧
    scalarUnmarshalBinary (ops E) input ≠ .panic ∧ scalarUnmarshalJson (ops E) J input ≠ .panic := by
  have bp : ∀ {α β : Type} {x : Res α} {f : α → Res β}, x ≠ .panic → (∀ a, f a ≠ .panic) → (x >>= f) ≠ .panic := by
    intro α β x f h1 h2
    cases x with
    | ok a => exact h2 a
    | err => exact fun e => by cases e
    | panic => exact absurd rfl h1
  have e1 : 10 < 32 + 1 + (ascii "P-256").length := by decide
  have e2 : 10 < 32 * 2 + 1 + (ascii "P-256").length := by decide
  refine ⟨?_, ?_, ?_, ?_, ?_⟩
  · unfold pointUnmarshalBinary
    split
    · exact fun e => by cases e
    · exact bp (splitName_safe (by omega)) fun r => bp (pDec_safe hE _ _) fun v e => by cases e
  · unfold pointUnmarshalText
    split
    · exact fun e => by cases e
    · exact bp (splitName_safe (by omega)) fun r => bp (hexDec_safe (by omega)) fun l => bp (pDec_safe hE _ _) fun v e => by cases e
  · unfold pointUnmarshalJson
    split
    · exact fun e => by cases e
    · split
      · exact fun e => by cases e
      · exact bp (hexDec_safe (by omega)) fun l => bp (pDec_safe hE _ _) fun v e => by cases e
  · unfold scalarUnmarshalBinary
    split
    · exact fun e => by cases e
    · exact bp (splitName_safe (by omega)) fun r => bp (sSet_safe hE _ _) fun v e => by cases e
  · unfold scalarUnmarshalJson
    split
    · exact fun e => by cases e
    · split
      · exact fun e => by cases e
      · exact bp (hexDec_safe (by omega)) fun l => bp (sSet_safe hE _ _) fun v e => by cases e

/-- **C104.** The text decoder of scalars does panic: a registered name, the separator and the hexadecimal form of more than 32 bytes. -/
theorem C104_scalar_text_panic_violated (k : Kind) (l : List UInt8) (hl : 32 < l.length) :
    scalarUnmarshalText (ops E) (k.name ++ sep :: hexEnc l) = .panic := by
  unfold scalarUnmarshalText
  have hn := (name_length k).1
  have e : (ascii "P-256").length = 5 := by decide
  rw [if_neg (by rw [List.length_append, List.length_cons, length_hexEnc]; omega), splitName_name, Res.bind_ok]
  dsimp only
  rw [hexDec_panic hl]
  rfl

/-- **C104.** The text decoder of scalars fills up what is missing: dropping the last byte of a K-256 scalar's text gives an accepted text, the
last byte of the scalar replaced by zero. -/
theorem C104_scalar_text_truncated_violated (b : List UInt8) (hb : b.length = 31) (hq : beToNat (b ++ [0]) < K256Fq.prime) :
    ∃ r, scalarUnmarshalText (ops E) (ascii "secp256k1" ++ sep :: hexEnc b) = .ok ⟨.k256, r⟩ ∧
      Rep K256Fq.prime r (beToNat (b ++ [0]) : ZMod K256Fq.prime) := by
  obtain ⟨r, h1, h2, -⟩ := (C66_scalar_bytes C50_k256Fq (b ++ [0]) Field.zero 0 (C50_constants C50_k256Fq.lawful).2).1
    (by rw [List.length_append, hb]; rfl) hq
  refine ⟨r, scalarText_ok.2 ⟨?_, _, _, b, lookup_name .k256, rfl, lower_hexEnc _, by omega, ?_⟩, h2⟩
  · rw [List.length_append, List.length_cons, length_hexEnc, hb]; decide
  · have : fit 32 b = b ++ [0] := by
      unfold fit
      rw [hb, List.take_of_length_le (by omega)]
      rfl
    rw [this]
    exact h1

omit hE in
/-- **C104.** What is decoded: a registered name, the separator, and bytes that the curve's own decoder accepts; in the text form the bytes in
hexadecimal of either case. -/
theorem C104_point_sound (input : List UInt8) (p : Pt (ops E)) :
    (pointUnmarshalBinary (ops E) input = .ok p →
      ∃ n r, getCurveByName n = some p.kind ∧ input = n ++ sep :: r ∧ (ops E).pDec p.kind r = .ok p.val) ∧
    (pointUnmarshalText (ops E) input = .ok p →
      ∃ n d r, getCurveByName n = some p.kind ∧ input = n ++ sep :: d ∧ d.map lower = hexEnc r ∧ (ops E).pDec p.kind r = .ok p.val) :=
  ⟨fun h => (pointBin_ok.1 h).2, fun h => (pointText_ok.1 h).2⟩

omit hE in
/-- **C104.** The same for scalars in binary form. -/
theorem C104_scalar_sound (input : List UInt8) (s : Sc (ops E)) (h : scalarUnmarshalBinary (ops E) input = .ok s) :
    ∃ n r, getCurveByName n = some s.kind ∧ input = n ++ sep :: r ∧ (ops E).sSet s.kind.sty r = .ok s.val := (scalarBin_ok.1 h).2

theorem pBin_rt {p : Pt (ops E)} (hp : ValidP E p.kind p.val) :
    ∃ v, pointUnmarshalBinary (ops E) (pointMarshalBinary (ops E) p) = .ok ⟨p.kind, v⟩ ∧ SameP E p.kind p.val v ∧
      pointUnmarshalText (ops E) (pointMarshalText (ops E) p) = .ok ⟨p.kind, v⟩ := by
  obtain ⟨hl, v, hr, hv⟩ := pEnc_spec hE hp
  have hn := (name_length p.kind).1
  refine ⟨v, ?_, hv, ?_⟩
  · exact pointBin_ok.2 ⟨by unfold pointMarshalBinary; rw [List.length_append, List.length_cons]; omega, _, _, lookup_name _, rfl, hr⟩
  · exact pointText_ok.2 ⟨by unfold pointMarshalText; rw [List.length_append, List.length_cons, length_hexEnc]; omega, _, _, _, lookup_name _,
      rfl, lower_hexEnc _, hr⟩

theorem sBin_rt {s : Sc (ops E)} (hs : ValidS E s.kind.sty s.val) :
    scalarUnmarshalBinary (ops E) (scalarMarshalBinary s.kind ((ops E).sBytes s.kind.sty s.val)) = .ok s := by
  obtain ⟨hl, hr⟩ := sBytes_spec hE hs
  have hn := (name_length s.kind).1
  unfold scalarMarshalBinary
  rw [fit_of_length hl]
  exact scalarBin_ok.2 ⟨by rw [List.length_append, List.length_cons, hl]; omega, _, _, lookup_name _, rfl, hr⟩

/-- **C104.** No confusion of curves: the encodings of a point are refused by the point types of all other curves and accepted by its own. -/
theorem C104_point_no_confusion (p : Pt (ops E)) (k : Kind) (hk : k ≠ p.kind) (hp : ValidP E p.kind p.val) :
    assignPoint (ops E) k (pointUnmarshalBinary (ops E) (pointMarshalBinary (ops E) p)) = .err ∧
    assignPoint (ops E) k (pointUnmarshalText (ops E) (pointMarshalText (ops E) p)) = .err ∧
    (∃ v, assignPoint (ops E) p.kind (pointUnmarshalBinary (ops E) (pointMarshalBinary (ops E) p)) = .ok ⟨p.kind, v⟩ ∧ SameP E p.kind p.val v) ∧
    (∃ v, assignPoint (ops E) p.kind (pointUnmarshalText (ops E) (pointMarshalText (ops E) p)) = .ok ⟨p.kind, v⟩ ∧ SameP E p.kind p.val v) := by
  obtain ⟨v, h1, hv, h2⟩ := pBin_rt hE hp
  rw [h1, h2]
  exact ⟨if_neg fun e => hk e.symm, if_neg fun e => hk e.symm, ⟨v, if_pos rfl, hv⟩, ⟨v, if_pos rfl, hv⟩⟩

/-- **C104.** The same for scalars; the two groups of a pairing curve have the same scalars. -/
theorem C104_scalar_no_confusion (s : Sc (ops E)) (t : STy) (hs : ValidS E s.kind.sty s.val) :
    assignScalar (ops E) t (scalarUnmarshalBinary (ops E) (scalarMarshalBinary s.kind ((ops E).sBytes s.kind.sty s.val))) =
      if t = s.kind.sty then .ok s else .err := by
  rw [sBin_rt hE hs]
  by_cases h : t = s.kind.sty
  · rw [if_pos h]; exact if_pos h.symm
  · rw [if_neg h]; exact if_neg fun e => h e.symm

/-- **C104.** Two valid points with the same encoding are on the same curve and the same point (both are forms of one and the same decoded point);
two valid scalars with the same encoding are equal. -/
theorem C104_injective (p p' : Pt (ops E)) (s s' : Sc (ops E)) :
    (ValidP E p.kind p.val → ValidP E p'.kind p'.val → pointMarshalBinary (ops E) p = pointMarshalBinary (ops E) p' →
      ∃ d : Pt (ops E), ∃ (h : p.kind = d.kind) (h' : p'.kind = d.kind), SameP E d.kind (h ▸ p.val) d.val ∧ SameP E d.kind (h' ▸ p'.val) d.val) ∧
    (ValidS E s.kind.sty s.val → ValidS E s'.kind.sty s'.val →
      scalarMarshalBinary s.kind ((ops E).sBytes s.kind.sty s.val) = scalarMarshalBinary s'.kind ((ops E).sBytes s'.kind.sty s'.val) → s = s') := by
  constructor
  · intro hp hp' h
    obtain ⟨v, h1, h2, -⟩ := pBin_rt hE hp
    obtain ⟨v', h1', h2', -⟩ := pBin_rt hE hp'
    rw [h, h1'] at h1
    have e := Res.ok.inj h1
    obtain ⟨k, w⟩ := p
    obtain ⟨k', w'⟩ := p'
    dsimp only at *
    injection e with e1 e2
    subst e1
    have e2 := eq_of_heq e2
    subst e2
    exact ⟨⟨k', v'⟩, rfl, rfl, h2, h2'⟩
  · intro hs hs' h
    have h1 := sBin_rt hE hs
    rw [h, sBin_rt hE hs'] at h1
    exact (Res.ok.inj h1).symm

/-- **C104.** `UnmarshalJSON` of the scalars of the pairing curves assigns the value only: a fresh receiver takes the value of the encoded scalar,
and asking it for its point, as `MarshalBinary` and `Point` do, panics. -/
theorem C104_json_point_violated (J : Json) (hJ : ∀ (k : Kind) b, J.unmarshal (J.marshal k.name (hexEnc b)) = some (k.name, hexEnc b)) (s : Sc (ops E))
    (hs : ValidS E s.kind.sty s.val) :
    ∃ r, unmarshalJsonKeep (ops E) J s.kind.sty ⟨none, none⟩ (scalarMarshalJson J s.kind ((ops E).sBytes s.kind.sty s.val)) = .ok r ∧
      r.val = some s.val ∧ Recv.pointOf (ops E) r = .panic := by
  refine ⟨⟨none, some s.val⟩, ?_, rfl, rfl⟩
  unfold unmarshalJsonKeep
  rw [(C104_scalar_roundtrip hE J hJ s hs).2.2, Res.bind_ok, dif_pos rfl]

omit hE in
/-- **C104.** Elements of the target group do not survive: the binary form keeps 32 of the 576 bytes, so that elements that agree in those are
confused, the text form panics, and no input is ever decoded. -/
theorem C104_gt_violated (J : Json) (a a' : Bls381.Fp12.E12) (x x' : Bls381.Fp12.K12) (ha : Bls381.Fp12.Rep12 a x) (ha' : Bls381.Fp12.Rep12 a' x') :
    (scalarMarshalBinary .b1 (Bls381.Gt.bytes a)).length = 43 ∧
    ((Bls381.Gt.bytes a).take 32 = (Bls381.Gt.bytes a').take 32 →
      scalarMarshalBinary .b1 (Bls381.Gt.bytes a) = scalarMarshalBinary .b1 (Bls381.Gt.bytes a')) ∧
    scalarMarshalText .b1 (Bls381.Gt.bytes a) = .panic ∧
    ∀ input,
      assignGt (ops E) (scalarUnmarshalBinary (ops E) input) ≠ .ok () ∧ assignGt (ops E) (scalarUnmarshalText (ops E) input) ≠ .ok () ∧
      assignGt (ops E) (scalarUnmarshalJson (ops E) J input) ≠ .ok () := by
  have hl := gt_length ha
  have hl' := gt_length ha'
  have key : ∀ r : Res (Sc (ops E)), assignGt (ops E) r ≠ .ok () := by
    intro r
    cases r <;> exact fun e => by cases e
  have hf : ∀ b : List UInt8, b.length = 576 → fit 32 b = b.take 32 := by
    intro b hb
    unfold fit
    rw [hb]
    exact List.append_nil _
  refine ⟨?_, ?_, ?_, fun input => ⟨key _, key _, key _⟩⟩
  · unfold scalarMarshalBinary
    rw [hf _ hl, List.length_append, List.length_cons, List.length_take, hl]
    decide
  · intro h
    unfold scalarMarshalBinary
    rw [hf _ hl, hf _ hl', h]
  · unfold scalarMarshalText
    rw [hl]
    exact if_pos (by decide)

/-- **C104.** On BLS12-381 the decoders do not look at the length: any bytes after the encoding of a point of the first group are ignored. -/
theorem C104_bls_trailing_violated (p : Bls381.G1.Point) (hp : ValidP E .b1 p) (junk : List UInt8) :
    ∃ v, pointUnmarshalBinary (ops E) (pointMarshalBinary (ops E) ⟨.b1, p⟩ ++ junk) = .ok ⟨.b1, v⟩ ∧ SameP E .b1 p v := by
  obtain ⟨P, hq, hr, -⟩ := hp
  obtain ⟨⟨v, h1, h2⟩, -, hl, -⟩ := Bls381.G1.C95_roundtrip hr hq
  refine ⟨v, pointBin_ok.2 ⟨?_, ascii "BLS12381G1", Bls381.P3.toCompressed Bls381.G1.codec p ++ junk, lookup_name .b1, ?_, ?_⟩, P, hq, hr, h2⟩
  · show 38 ≤ ((Kind.b1.name ++ sep :: Bls381.P3.toCompressed Bls381.G1.codec p) ++ junk).length
    rw [List.length_append, List.length_append, List.length_cons, hl]
    omega
  · exact List.append_assoc _ _ _
  · exact g1Dec_junk hl h1 junk

omit hE in
/-- **C104.** The scalars of BLS12-377 have many encodings: `SetBytes` takes any number of leading zeros. -/
theorem C104_bls377_scalar_length_violated (n : Nat) (v : Nat) (hv : v < m377) :
    scalarUnmarshalBinary (ops E) (ascii "BLS12377G1" ++ sep :: (List.replicate n 0 ++ natToBEfix 32 v)) = .ok ⟨.z1, v⟩ := by
  refine scalarBin_ok.2 ⟨?_, _, _, lookup_name .z1, rfl, ?_⟩
  · rw [List.length_append, List.length_cons, List.length_append, length_natToBEfix]
    have : (ascii "BLS12377G1").length = 10 := by decide
    omega
  · show set377 (List.replicate n 0 ++ natToBEfix 32 v) = .ok v
    have : beToNat (List.replicate n (0 : UInt8) ++ natToBEfix 32 v) = beToNat (natToBEfix 32 v) := by
      induction n with
      | zero => rfl
      | succ n ih =>
        rw [List.replicate_succ, List.cons_append, beToNat_cons, ih]; simp
    have h := set377_spec hv
    unfold set377 at h ⊢
    rw [this]
    exact h

omit hE in
/-- **C104.** The neutral elements: that of Pallas is written in a form that is refused, that of P-256 in one that decodes to another point. -/
theorem C104_identity_violated :
    (∀ e : EP, Pallas.ERep e 0 → pointUnmarshalBinary (ops E) (pointMarshalBinary (ops E) ⟨.pallas, e⟩) = .err) ∧
    ∃ (e : EP) (P : Native.Weier.Pt (-3 : ZMod P256Fp.prime) (P256.b : ZMod P256Fp.prime)), P ≠ 0 ∧ ERep _ _ e P ∧
      pointUnmarshalBinary (ops E) (pointMarshalBinary (ops E) ⟨.p256, Curve.identity⟩) = .ok ⟨.p256, e⟩ := by
  constructor
  · intro e he
    have h := (Pallas.C84_identity_not_decodable he).1
    have hl : (Pallas.toCompressed e).length = 32 := by
      rw [((Pallas.C84_encode he).1 rfl).1]; rfl
    show pointUnmarshalBinary (ops E) (Kind.pallas.name ++ sep :: Pallas.toCompressed e) = .err
    unfold pointUnmarshalBinary
    rw [if_neg (by rw [List.length_append, List.length_cons, hl]; decide), splitName_name, Res.bind_ok]
    dsimp only
    show (Pallas.fromCompressed (Pallas.toCompressed e) >>= _) = .err
    rw [h]
    rfl
  · obtain ⟨⟨e, P, h0, hr, h⟩, -⟩ := C70_p256_identity
    refine ⟨e, P, h0, hr, p256_bin ?_ h⟩
    rw [((C70_encode C68_p256).2 (erep_identity C68_p256)).1]
    decide

end

/-! ## The hypotheses are met -/

/-- Libraries whose values are their encodings. -/
def toyExt : Ext where
  EdS := { b : List UInt8 // b.length = 32 }
  EdP := { b : List UInt8 // b.length = 32 }
  Z1 := { b : List UInt8 // b.length = 48 }
  Z2 := { b : List UInt8 // b.length = 96 }
  edBytes := Subtype.val
  edSet := fun b => if h : b.length = 32 then .ok ⟨b, h⟩ else .err
  edEnc := Subtype.val
  edDec := fun b => if h : b.length = 32 then .ok ⟨b, h⟩ else .err
  z1Enc := Subtype.val
  z1Dec := fun b => if h : b.length = 48 then .ok ⟨b, h⟩ else .err
  z2Enc := Subtype.val
  z2Dec := fun b => if h : b.length = 96 then .ok ⟨b, h⟩ else .err
  edSame := Eq
  z1Same := Eq
  z2Same := Eq

theorem toy_safe (n : Nat) (b : List UInt8) :
    (if h : b.length = n then Res.ok (⟨b, h⟩ : { b : List UInt8 // b.length = n }) else Res.err) ≠ .panic := by
  by_cases h : b.length = n
  · rw [dif_pos h]; exact fun e => by cases e
  · rw [dif_neg h]; exact fun e => by cases e

theorem toyExt_ok : toyExt.Ok where
  edBytes_len := fun s => s.2
  edSet_bytes := fun s => dif_pos s.2
  edSet_safe := fun b => toy_safe 32 b
  edEnc_len := fun s => s.2
  edDec_enc := fun s => ⟨s, dif_pos s.2, rfl⟩
  edDec_safe := fun b => toy_safe 32 b
  z1Enc_len := fun s => s.2
  z1Dec_enc := fun s => ⟨s, dif_pos s.2, rfl⟩
  z1Dec_safe := fun b => toy_safe 48 b
  z2Enc_len := fun s => s.2
  z2Dec_enc := fun s => ⟨s, dif_pos s.2, rfl⟩
  z2Dec_safe := fun b => toy_safe 96 b

/-- A form of JSON that keeps both strings. -/
def toyJson : Json where
  marshal := fun a b => UInt8.ofNat a.length :: (a ++ b)
  unmarshal := fun s => match s with | [] => none | n :: r => some (r.take n.toNat, r.drop n.toNat)

example (k : Kind) (b : List UInt8) : toyJson.unmarshal (toyJson.marshal k.name (hexEnc b)) = some (k.name, hexEnc b) := by
  cases k <;> rfl

example : ValidP toyExt .b1 Bls381.G1.generator := ⟨Bls381.G1.G, Bls381.G1.order_G, Bls381.G1.generator_rep, Bls381.G1.generator_rep⟩

example : ValidP toyExt .b2 Bls381.G2.generator := ⟨Bls381.G2.G, Bls381.G2.order_G, Bls381.G2.generator_rep, Bls381.G2.generator_rep⟩

example : ValidS toyExt .k256 Field.zero := ⟨0, (C50_constants C50_k256Fq.lawful).2⟩

example : ValidS toyExt .z (show Nat from 5) := by show (5 : Nat) < m377; decide

example : ∃ g, Bls381.Fp12.Rep12 Bls381.Gt.generator g := ⟨_, Bls381.Gt.generator_rep⟩

example : ValidP toyExt .k256 K256.curve.generator := ⟨K256.G, by unfold K256.G; exact WeierstrassCurve.Affine.Point.some_ne_zero _, C68_k256.gen, C68_k256.gen⟩

end Verif.Curves
