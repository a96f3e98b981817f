import Verif.Curves.EcPointApi

/-! # C109: binary and JSON forms of the legacy points, and an implementation of the contract -/

set_option linter.unusedSectionVars false
set_option maxRecDepth 20000

namespace Verif.Ec
open Verif.Bytes Verif.Native Verif.Native.Weier

/-- The curves of the table carry the names under which they are listed. -/
structure Lib.Named (L : Lib) : Prop where
  s256 : L.s256.name = "secp256k1"
  p224 : L.p224.name = "P-224"
  p256 : L.p256.name = "P-256"
  p384 : L.p384.name = "P-384"
  p521 : L.p521.name = "P-521"

/-- `C` is one of the curves of the table, with its code. -/
def Lib.Has (L : Lib) (c : UInt8) (C : Curve) : Prop :=
  (c = 0 ∧ C = L.s256) ∨ (c = 1 ∧ C = L.p224) ∨ (c = 2 ∧ C = L.p256) ∨ (c = 3 ∧ C = L.p384) ∨ (c = 4 ∧ C = L.p521)

theorem has_spec {L : Lib} (N : L.Named) {c : UInt8} {C : Curve} (h : L.Has c C) :
    L.ofId c = some C ∧ L.ofName C.name = some C ∧ nameToId C.name = some c := by
  obtain ⟨n0, n1, n2, n3, n4⟩ := N
  rcases h with ⟨rfl, rfl⟩ | ⟨rfl, rfl⟩ | ⟨rfl, rfl⟩ | ⟨rfl, rfl⟩ | ⟨rfl, rfl⟩
  · rw [n0]; exact ⟨rfl, rfl, rfl⟩
  · rw [n1]; exact ⟨rfl, rfl, rfl⟩
  · rw [n2]; exact ⟨rfl, rfl, rfl⟩
  · rw [n3]; exact ⟨rfl, rfl, rfl⟩
  · rw [n4]; exact ⟨rfl, rfl, rfl⟩

theorem ofId_has {L : Lib} {c : UInt8} {C : Curve} : L.ofId c = some C ↔ L.Has c C := by
  constructor
  · intro h
    unfold Lib.ofId at h
    unfold Lib.Has
    split at h
    · exact Or.inl ⟨‹_›, (Option.some.inj h).symm⟩
    split at h
    · exact Or.inr (Or.inl ⟨‹_›, (Option.some.inj h).symm⟩)
    split at h
    · exact Or.inr (Or.inr (Or.inl ⟨‹_›, (Option.some.inj h).symm⟩))
    split at h
    · exact Or.inr (Or.inr (Or.inr (Or.inl ⟨‹_›, (Option.some.inj h).symm⟩)))
    split at h
    · exact Or.inr (Or.inr (Or.inr (Or.inr ⟨‹_›, (Option.some.inj h).symm⟩)))
    · cases h
  · rintro (⟨rfl, rfl⟩ | ⟨rfl, rfl⟩ | ⟨rfl, rfl⟩ | ⟨rfl, rfl⟩ | ⟨rfl, rfl⟩) <;> rfl

/-- **C109.** JSON: every point of a known curve comes back, coordinates of any size and nil ones included; an unknown curve name
and unparsable text are errors. -/
theorem C109_json_roundtrip (L : Lib) (N : L.Named) (c : UInt8) (a : Point) (h : L.Has c a.curve) :
    Point.ofJson L (some a.toJson) = .ok a ∧ Point.ofJson L none = .err ∧
    (∀ d : Json, d.curveName ∉ ["secp256k1", "P-224", "P-256", "P-384", "P-521"] → Point.ofJson L (some d) = .err) := by
  obtain ⟨-, h2, -⟩ := has_spec N h
  refine ⟨?_, rfl, fun d hd => ?_⟩
  · unfold Point.ofJson Point.toJson
    dsimp only
    rw [h2]
  · simp only [List.mem_cons, List.not_mem_nil, or_false, not_or] at hd
    unfold Point.ofJson Lib.ofName
    dsimp only
    rw [if_neg hd.1, if_neg hd.2.1, if_neg hd.2.2.1, if_neg hd.2.2.2.1, if_neg hd.2.2.2.2]

section
variable {p : Nat} [Fact p.Prime] {a b : ZMod p} {C : Curve} {n : Nat} {G : Pt a b}

/-- The binary form: the code of the curve, then both coordinates in 32 bytes. -/
def wire (c : UInt8) (Q : Pt a b) : List UInt8 := c :: enc 32 Q

theorem unmarshal_wire {L : Lib} {c : UInt8} (hc : L.Has c C) (Q : Pt a b) (h1 : (coords Q).1 < (256 : Int) ^ 32)
    (h2 : (coords Q).2 < (256 : Int) ^ 32) (junk : List UInt8) :
    Point.unmarshalBinary L (wire c Q ++ junk) = .ok (Point.of C Q) := by
  obtain ⟨r1, -, r3, -⟩ := coords_range Q
  have hl := length_enc 32 Q
  show (match L.ofId c with
    | some C => if (enc 32 Q ++ junk).length < 64 then Res.panic else _
    | none => Res.err) = _
  rw [ofId_has.2 hc]
  dsimp only
  rw [if_neg (by rw [List.length_append, hl]; omega)]
  show (Res.ok ⟨C, some (Big.setBytes ((enc 32 Q ++ junk).take 32)), some (Big.setBytes (((enc 32 Q ++ junk).drop 32).take 32))⟩ : Res Point) = _
  unfold enc
  rw [List.append_assoc, List.take_left' (length_natToBEfix _ _), List.drop_left' (length_natToBEfix _ _),
    List.take_left' (length_natToBEfix _ _), read_fix r1 h1, read_fix r3 h2]
  rfl

/-- **C109.** Binary form, on the curves of at most 256 bits (secp256k1, P-224, P-256): 65 bytes that give back the same point,
whatever follows them. -/
theorem C109_binary_roundtrip_partial (I : Is C n G) (L : Lib) (N : L.Named) (c : UInt8) (hc : L.Has c C) (hb : C.bitSize ≤ 256)
    (Q : Pt a b) (junk : List UInt8) :
    (Point.of C Q).marshalBinary = .ok (wire c Q) ∧ (wire c Q).length = 65 ∧
    Point.unmarshalBinary L (wire c Q ++ junk) = .ok (Point.of C Q) := by
  obtain ⟨r1, r2, r3, r4⟩ := coords_range Q
  have hp : (p : Int) ≤ (256 : Int) ^ 32 := by
    have h := I.size
    have h2 : 2 ^ C.bitSize ≤ 2 ^ (8 * 32) := Nat.pow_le_pow_right (by omega) (by omega)
    have : p ≤ 256 ^ 32 := by
      have e : (256 : Nat) ^ 32 = 2 ^ (8 * 32) := by decide +kernel
      omega
    exact_mod_cast this
  refine ⟨?_, ?_, unmarshal_wire hc Q (by omega) (by omega) junk⟩
  · unfold Point.marshalBinary
    show (match nameToId C.name with | some code => _ | none => _) = _
    rw [(has_spec N hc).2.2]
    show ((do let x ← fill 32 (some (coords Q).1); let y ← fill 32 (some (coords Q).2); .ok (c :: (x ++ y))) : Res (List UInt8)) = _
    rw [fill_lt r1 (by omega), Res.bind_ok, fill_lt r3 (by omega), Res.bind_ok]
    rfl
  · unfold wire
    rw [List.length_cons, length_enc]

/-- **C109 fails on P-384 and P-521**: `MarshalBinary` panics on every point with a coordinate of more than 256 bits. -/
theorem C109_binary_large_violated (L : Lib) (N : L.Named) (c : UInt8) (hc : L.Has c C) (Q : Pt a b)
    (h : 2 ^ 256 ≤ (coords Q).1 ∨ 2 ^ 256 ≤ (coords Q).2) : (Point.of C Q).marshalBinary = .panic := by
  obtain ⟨r1, r2, r3, r4⟩ := coords_range Q
  have e : (256 : Nat) ^ 32 = 2 ^ 256 := by decide +kernel
  have big : ∀ x : Int, 2 ^ 256 ≤ x → fill 32 (some x) = .panic := by
    intro x hx
    have hn : ¬ x.natAbs < 256 ^ 32 := by
      rw [e]
      have : ((2 ^ 256 : Nat) : Int) ≤ x := by exact_mod_cast hx
      omega
    unfold fill fillBytes
    dsimp only
    rw [if_neg hn]
  unfold Point.marshalBinary
  show (match nameToId C.name with | some code => _ | none => _) = _
  rw [(has_spec N hc).2.2]
  show ((do let x ← fill 32 (some (coords Q).1); let y ← fill 32 (some (coords Q).2); .ok (c :: (x ++ y))) : Res (List UInt8)) = _
  by_cases hx : (2 : Int) ^ 256 ≤ (coords Q).1
  · rw [big _ hx]; rfl
  · rcases h with h | h
    · exact absurd h hx
    · rw [fill_lt r1 (by have e' : (256 : Int) ^ 32 = 2 ^ 256 := by exact_mod_cast e
                         omega), Res.bind_ok, big _ h]
      rfl

end

/-- **C109.** What `UnmarshalBinary` returns, for every input: the curve of the code byte and the next 64 bytes as two integers,
whatever they are; an error for an unknown code. -/
theorem C109_binary_decodes (L : Lib) (data : List UInt8) :
    (∀ r, Point.unmarshalBinary L data = .ok r ↔
      ∃ c C, L.Has c C ∧ 65 ≤ data.length ∧ data.head? = some c ∧
        r = ⟨C, some (beToNat ((data.drop 1).take 32)), some (beToNat ((data.drop 33).take 32))⟩) ∧
    (Point.unmarshalBinary L data = .err ↔ ∃ c, data.head? = some c ∧ 4 < c.toNat) := by
  cases data with
  | nil =>
    refine ⟨fun r => ⟨fun h => ?_, fun ⟨_, _, _, _, h, _⟩ => ?_⟩, fun h => ?_, fun ⟨_, h, _⟩ => ?_⟩
    · cases h
    · cases h
    · cases h
    · cases h
  | cons c rest =>
    have hd : (c :: rest).drop 33 = rest.drop 32 := rfl
    have hd1 : (c :: rest).drop 1 = rest := rfl
    rw [hd, hd1]
    have hid : L.ofId c = none ↔ 4 < c.toNat := by
      unfold Lib.ofId
      by_cases h0 : c = 0
      · subst h0; simp
      by_cases h1 : c = 1
      · subst h1; simp
      by_cases h2 : c = 2
      · subst h2; simp
      by_cases h3 : c = 3
      · subst h3; simp
      by_cases h4 : c = 4
      · subst h4; simp
      rw [if_neg h0, if_neg h1, if_neg h2, if_neg h3, if_neg h4]
      have f : ∀ d : UInt8, c ≠ d → c.toNat ≠ d.toNat := fun d h e => h (UInt8.toNat_inj.1 e)
      have g0 : c.toNat ≠ 0 := f 0 h0
      have g1 : c.toNat ≠ 1 := f 1 h1
      have g2 : c.toNat ≠ 2 := f 2 h2
      have g3 : c.toNat ≠ 3 := f 3 h3
      have g4 : c.toNat ≠ 4 := f 4 h4
      exact ⟨fun _ => by omega, fun _ => rfl⟩
    have e : Point.unmarshalBinary L (c :: rest) = match L.ofId c with
      | some C => if rest.length < 64 then .panic
          else .ok ⟨C, some (Big.setBytes (rest.take 32)), some (Big.setBytes ((rest.drop 32).take 32))⟩
      | none => .err := rfl
    rw [e]
    constructor
    · intro r
      constructor
      · intro h
        cases hL : L.ofId c with
        | none => rw [hL] at h; cases h
        | some C =>
          rw [hL] at h
          dsimp only at h
          split at h
          · cases h
          · exact ⟨c, C, ofId_has.1 hL, by rw [List.length_cons]; omega, rfl, (Res.ok.inj h).symm⟩
      · rintro ⟨c', C, hH, hl, hc, rfl⟩
        obtain rfl : c = c' := Option.some.inj hc
        rw [ofId_has.2 hH]
        dsimp only
        rw [List.length_cons] at hl
        rw [if_neg (by omega)]
        rfl
    · constructor
      · intro h
        refine ⟨c, rfl, hid.1 ?_⟩
        cases hL : L.ofId c with
        | none => rfl
        | some C =>
          rw [hL] at h
          dsimp only at h
          split at h <;> cases h
      · rintro ⟨c', hc, h4⟩
        obtain rfl : c = c' := Option.some.inj hc
        rw [hid.2 h4]

/-- **C109 fails for short input**: `UnmarshalBinary` does not check the length and panics on the empty slice and on every input
below 65 bytes that begins with a known code. -/
theorem C109_binary_short_violated (L : Lib) (c : UInt8) (rest : List UInt8) (hc : c.toNat ≤ 4) (h : rest.length < 64) :
    Point.unmarshalBinary L [] = .panic ∧ Point.unmarshalBinary L (c :: rest) = .panic := by
  refine ⟨rfl, ?_⟩
  obtain ⟨h1, h2⟩ := C109_binary_decodes L (c :: rest)
  cases e : Point.unmarshalBinary L (c :: rest) with
  | ok r =>
    obtain ⟨_, _, _, hl, _⟩ := (h1 r).1 e
    rw [List.length_cons] at hl
    omega
  | err =>
    obtain ⟨c', hc', h4⟩ := h2.1 e
    obtain rfl : c = c' := Option.some.inj hc'
    omega
  | panic => rfl

section
variable {p : Nat} [Fact p.Prime] {a b : ZMod p} {C : Curve} {n : Nat} {G : Pt a b}

/-- No point of the curve has ordinate `0`. -/
theorem not_valid (I : Is C n G) : (⟨C, some 1, some 0⟩ : Point).isValid = .ok false := by
  have h1 : (1 : Int) < p := by exact_mod_cast (Fact.out : p.Prime).one_lt
  have hoff : C.isOnCurve 1 0 = false := by
    by_contra h
    have hns := I.sound 1 0 (by omega) h1 (le_refl _) (by omega) (by simpa using h)
    rw [Int.cast_zero] at hns
    have h2 : (2 : Nat) • (.some _ _ hns : Pt a b) = 0 := by
      rw [two_nsmul, ← eq_neg_iff_add_eq_zero, WeierstrassCurve.Affine.Point.neg_some]
      congr 1
      rw [negY_eq, neg_zero]
    exact absurd (no_two I h2) (WeierstrassCurve.Affine.Point.some_ne_zero _)
  have e2 : (⟨C, some 1, some 0⟩ : Point).isIdentity = false := by
    rw [Bool.eq_false_iff]
    intro h
    have := ((cte_and _ _ _ _).1 h).1
    omega
  show (Res.ok (C.isOnCurve 1 0 || _) : Res Bool) = _
  rw [hoff, e2]
  rfl

/-- **C109 fails for foreign data**: neither decoder checks that the point is on its curve.  Well-formed binary and JSON input
for any of the five curves yields a point that `IsValid` rejects, and JSON without coordinates one on which `IsValid`, `Add` and
`Bytes` panic. -/
theorem C109_decoders_unchecked_violated (I : Is C n G) (L : Lib) (N : L.Named) (c : UInt8) (hc : L.Has c C) :
    (∃ data r, data.length = 65 ∧ Point.unmarshalBinary L data = .ok r ∧ r.isValid = .ok false) ∧
    (∃ d r, Point.ofJson L (some d) = .ok r ∧ r.isValid = .ok false) ∧
    (∃ d r, Point.ofJson L (some d) = .ok r ∧ r.isValid = .panic ∧ r.bytes = .panic ∧
      ∀ q : Pt a b, Point.add (some r) (some (Point.of C q)) = .panic) := by
  refine ⟨⟨c :: (natToBEfix 32 1 ++ natToBEfix 32 0), ⟨C, some 1, some 0⟩, ?_, ?_, not_valid I⟩,
    ⟨⟨C.name, some 1, some 0⟩, ⟨C, some 1, some 0⟩, ?_, not_valid I⟩, ⟨⟨C.name, none, none⟩, ⟨C, none, none⟩, ?_, rfl, rfl, fun q => ?_⟩⟩
  · rw [List.length_cons, List.length_append, length_natToBEfix, length_natToBEfix]
  · refine ((C109_binary_decodes L _).1 _).2 ⟨c, C, hc, ?_, rfl, ?_⟩
    · rw [List.length_cons, List.length_append, length_natToBEfix, length_natToBEfix]
    · have e : (c :: (natToBEfix 32 1 ++ natToBEfix 32 0)).drop 33 = natToBEfix 32 0 := by
        show (natToBEfix 32 1 ++ natToBEfix 32 0).drop 32 = _
        rw [List.drop_left' (length_natToBEfix _ _)]
      rw [e]
      show _ = (⟨C, some (beToNat ((natToBEfix 32 1 ++ natToBEfix 32 0).take 32) : Int), some (beToNat ((natToBEfix 32 0).take 32) : Int)⟩ : Point)
      rw [List.take_left' (length_natToBEfix _ _), List.take_of_length_le (by rw [length_natToBEfix]), beToNat_natToBEfix, beToNat_natToBEfix]
      rfl
  · unfold Point.ofJson
    dsimp only
    rw [(has_spec N hc).2.1]
  · unfold Point.ofJson
    dsimp only
    rw [(has_spec N hc).2.1]
  · unfold Point.add Point.of
    dsimp only
    rw [same_refl]
    rfl

end

/-! ## The contract is met: secp256k1 over the repository's own field and point code -/

/-- An `elliptic.Curve` for secp256k1 built on the `Koblitz256` wrapper (C71): range and `(0, 0)` tests as the interface
documents, `(nil, nil)` results turned into panics. -/
def k256 : Curve where
  P := ⟨0, K256Fp.prime⟩
  N := ⟨1, K256Fq.prime⟩
  B := ⟨2, 7⟩
  Gx := ⟨3, K256.gx⟩
  Gy := ⟨4, K256.gy⟩
  bitSize := 256
  name := "secp256k1"
  isOnCurve x y := decide (0 ≤ x ∧ x < K256Fp.prime ∧ 0 ≤ y ∧ y < K256Fp.prime ∧ ¬ (x = 0 ∧ y = 0)) && K256.curve.ellIsOnCurve x y
  add x y z w := match K256.curve.ellAdd x y z w with
    | some r => .ok r
    | none => .panic
  scalarMult x y k := match K256.curve.ellScalarMult K256Fq.impl x y k with
    | some r => .ok r
    | none => .panic
  scalarBaseMult k := match K256.curve.ellScalarBaseMult K256Fq.impl k with
    | some r => .ok r
    | none => .panic

theorem k256_range {x y : Int} (h : k256.isOnCurve x y = true) :
    (0 ≤ x ∧ x < K256Fp.prime ∧ 0 ≤ y ∧ y < K256Fp.prime ∧ ¬ (x = 0 ∧ y = 0)) ∧ K256.curve.ellIsOnCurve x y = true := by
  have h : (decide _ && K256.curve.ellIsOnCurve x y) = true := h
  rwa [Bool.and_eq_true, decide_eq_true_eq] at h

theorem k256_is : Is k256 K256Fq.prime K256.G where
  fieldP := rfl
  order := rfl
  odd := by decide +kernel
  kills := C69_k256_order.2.1
  base := by
    have e : ∀ m : Nat, m < K256Fp.prime → (((m : ZMod K256Fp.prime).val : Nat) : Int) = m := by
      intro m hm
      rw [ZMod.val_natCast, Nat.mod_eq_of_lt hm]
    exact Prod.ext (e _ (by decide +kernel)).symm (e _ (by decide +kernel)).symm
  base_ne := WeierstrassCurve.Affine.Point.some_ne_zero _
  size := by show K256Fp.prime < 2 ^ 256; decide +kernel
  sound x y h1 h2 h3 h4 h := by
    obtain ⟨⟨-, -, -, hy, h0⟩, h⟩ := k256_range h
    obtain ⟨P, hP⟩ := (C71_isOnCurve C68_k256 x y).1 h
    rcases hP with ⟨hx, hy', -⟩ | ⟨hns, -⟩
    · exfalso
      rw [ZMod.intCast_zmod_eq_zero_iff_dvd] at hx hy'
      exact h0 ⟨Int.eq_zero_of_dvd_of_nonneg_of_lt h1 h2 hx, Int.eq_zero_of_dvd_of_nonneg_of_lt h3 hy hy'⟩
    · exact hns
  complete Q hQ := by
    have hr := coords_range Q
    have h := (C71_isOnCurve C68_k256 _ _).2 ⟨Q, coords_names Q⟩
    show (decide _ && K256.curve.ellIsOnCurve _ _) = true
    rw [h, Bool.and_true, decide_eq_true_eq]
    refine ⟨hr.1, hr.2.1, hr.2.2.1, hr.2.2.2, ?_⟩
    rintro ⟨-, h2⟩
    rcases Q with _ | ⟨x, y, hns⟩
    · exact hQ rfl
    · have h2 : ((y.val : Nat) : Int) = 0 := h2
      have hy : y = 0 := (ZMod.val_eq_zero y).1 (by exact_mod_cast h2)
      exact y_ne_zero K256.noTwo (eqn_iff.1 hns.1) hy
  origin := by
    rw [Bool.eq_false_iff]
    intro h
    exact (k256_range h).1.2.2.2.2 ⟨rfl, rfl⟩
  add Q R := by
    show (match K256.curve.ellAdd _ _ _ _ with | some r => Res.ok r | none => .panic) = _
    rw [(C71_add_double C68_k256 _ _ _ _).1 Q R (coords_names Q) (coords_names R)]
  mult Q k hk := by
    show (match K256.curve.ellScalarMult K256Fq.impl _ _ k with | some r => Res.ok r | none => .panic) = _
    rw [(C71_scalarMult C68_k256 C50_k256Fq _ _ k).1 Q (coords_names Q) (lastBytes hk).2, (lastBytes hk).1]
  multBase k hk := by
    show (match K256.curve.ellScalarBaseMult K256Fq.impl k with | some r => Res.ok r | none => .panic) = _
    rw [(C71_scalarMult C68_k256 C50_k256Fq 0 0 k).2.1 (lastBytes hk).2, (lastBytes hk).1]
where
  /-- The last 32 bytes carry the whole value when it is below the order. -/
  lastBytes {k : List UInt8} (hk : beToNat k < K256Fq.prime) :
      beToNat (k.drop (k.length - 32)) = beToNat k ∧ beToNat (k.drop (k.length - 32)) < K256Fq.prime := by
    have e : beToNat (k.drop (k.length - 32)) = beToNat k := by
      by_cases h : k.length ≤ 32
      · rw [Nat.sub_eq_zero_of_le h, List.drop_zero]
      · have h1 := beToNat_append (k.take (k.length - 32)) (k.drop (k.length - 32))
        rw [List.take_append_drop, List.length_drop, show k.length - (k.length - 32) = 32 by omega] at h1
        have h2 : K256Fq.prime < 256 ^ 32 := by decide +kernel
        have h3 : beToNat (k.take (k.length - 32)) = 0 := by
          rcases Nat.eq_zero_or_pos (beToNat (k.take (k.length - 32))) with h3 | h3
          · exact h3
          · have := Nat.mul_le_mul_right (256 ^ 32) h3
            omega
        rw [h3, Nat.zero_mul, Nat.zero_add] at h1
        exact h1.symm
    exact ⟨e, by rw [e]; exact hk⟩

theorem k256_strict : Strict k256 := by
  intro x y h
  obtain ⟨h, -⟩ := k256_range h
  exact ⟨h.1, h.2.1, h.2.2.1, h.2.2.2.1⟩

/-- **C109.** The contract and the range condition are met by secp256k1 over the repository's own field and point code, so every
statement above holds there: here doubling the base point, its inverse, and a negative multiple. -/
theorem C109_secp256k1 :
    Is k256 K256Fq.prime K256.G ∧ Strict k256 ∧
    Point.add (some (Point.of k256 K256.G)) (some (Point.of k256 K256.G)) = .ok (Point.of k256 (K256.G + K256.G)) ∧
    Point.neg (some (Point.of k256 K256.G)) = .ok (Point.of k256 (-K256.G)) ∧
    Point.newScalarBaseMult (some k256) (some (-5)) = .ok (Point.of k256 ((-5 : Int) • K256.G)) :=
  ⟨k256_is, k256_strict, C109_add k256_is _ _, C109_neg_partial k256_is _ k256_is.base_ne, (C109_scalar_mult k256_is 0 (-5)).2⟩

end Verif.Ec
