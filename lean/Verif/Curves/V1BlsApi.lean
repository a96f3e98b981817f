import Verif.Curves.V1Bls
import Verif.Curves.EcScalarApi
import Verif.Bls381.FqApi
import Verif.Base.Tactics

/-!
# C111: the BLS12-381 curve of the first generation of secret sharing, and Feldman's verification on point objects

`P` ranges over all points of `y² = x³ + 4`, `Fq.q • P = 0` says that `P` is a multiple of the generator (C94), `coords` are the
coordinates in `[0, p)`, `(0, 0)` for the neutral element.
-/

set_option linter.unusedSectionVars false

namespace Verif.V1Bls
open Verif.Bytes Verif.Native Verif.Bls381
open Verif.Bls381.G1 (PP G Rep)

/-- The point of the subgroup that a pair of integers stands for: its coordinates are the residues. -/
def Stands (x y : Int) (P : PP) : Prop := Fq.q • P = 0 ∧ coords P = (x % (Fp.p : Int), y % (Fp.p : Int))

theorem big_coords {e : G1.Point} {P : PP} (he : Rep e P) : G1.bigInt e = coords P := by
  obtain ⟨h0, h1⟩ := G1.C95_bigInt he
  cases P with
  | zero => exact h0 rfl
  | some x y n => exact h1 x y n rfl

theorem cast_val (x : Int) : (((x : ZMod Fp.p).val : Nat) : Int) = x % (Fp.p : Int) := ZMod.val_intCast x

theorem cast_zero (x : Int) : (x : ZMod Fp.p) = 0 ↔ x % (Fp.p : Int) = 0 := by
  rw [← cast_val, Int.natCast_eq_zero, ZMod.val_eq_zero]

theorem stands_zero {x y : Int} : Stands x y 0 ↔ (x : ZMod Fp.p) = 0 ∧ (y : ZMod Fp.p) = 0 := by
  rw [cast_zero, cast_zero]
  constructor
  · rintro ⟨-, h⟩
    exact ⟨(congrArg Prod.fst h).symm, (congrArg Prod.snd h).symm⟩
  · rintro ⟨h1, h2⟩
    exact ⟨nsmul_zero _, by rw [h1, h2]; rfl⟩

theorem stands_some {x y : Int} {u v : ZMod Fp.p} {n} (h : Stands x y (.some u v n)) : u = (x : ZMod Fp.p) ∧ v = (y : ZMod Fp.p) := by
  have h1 : ((u.val : Nat) : Int) = x % (Fp.p : Int) := congrArg Prod.fst h.2
  have h2 : ((v.val : Nat) : Int) = y % (Fp.p : Int) := congrArg Prod.snd h.2
  rw [← cast_val] at h1 h2
  exact ⟨ZMod.val_injective _ (by exact_mod_cast h1), ZMod.val_injective _ (by exact_mod_cast h2)⟩

theorem origin_off : ¬ (Weier.curve (0 : ZMod Fp.p) ((4 : Nat) : ZMod Fp.p)).Nonsingular 0 0 := by
  intro h
  have h4 : ((4 : Nat) : ZMod Fp.p) ≠ 0 := by
    rw [Ne, ZMod.natCast_eq_zero_iff]
    decide +kernel
  have := Weier.eqn_iff.1 h.1
  apply h4
  linear_combination -this

/-- `SetBigInt` in one sentence. -/
theorem set_ok {x y : Int} {P : PP} (h : Stands x y P) : ∃ e, G1.setBigInt x y = .ok (some e) ∧ Rep e P := by
  obtain ⟨h1, h2⟩ := G1.C95_setBigInt x y
  cases P with
  | zero => exact ⟨_, h1 (stands_zero.1 h), (G1.C94_group_law G1.generator_rep G1.generator_rep).2.2.2.2.1⟩
  | some u v n =>
    obtain ⟨rfl, rfl⟩ := stands_some h
    refine (h2 ?_).1 n h.1
    rintro ⟨hx, hy⟩
    rw [hx, hy] at n
    exact origin_off n

theorem set_none {x y : Int} (h : ∀ P, ¬ Stands x y P) : G1.setBigInt x y = .ok none := by
  obtain ⟨-, h2⟩ := G1.C95_setBigInt x y
  refine (h2 fun h0 => h 0 (stands_zero.2 h0)).2 fun n hq => h (.some _ _ n) ⟨hq, ?_⟩
  show ((((x : ZMod Fp.p).val : Nat) : Int), (((y : ZMod Fp.p).val : Nat) : Int)) = _
  rw [cast_val, cast_val]

/-- Different points have different coordinates. -/
theorem stands_unique {x y : Int} {P Q : PP} (hP : Stands x y P) (hQ : Stands x y Q) : P = Q := by
  cases P with
  | zero =>
    cases Q with
    | zero => rfl
    | some u v n =>
      obtain ⟨rfl, rfl⟩ := stands_some hQ
      obtain ⟨hx, hy⟩ := stands_zero.1 hP
      rw [hx, hy] at n
      exact absurd n origin_off
  | some u v n =>
    obtain ⟨rfl, rfl⟩ := stands_some hP
    cases Q with
    | zero =>
      obtain ⟨hx, hy⟩ := stands_zero.1 hQ
      rw [hx, hy] at n
      exact absurd n origin_off
    | some u v n =>
      obtain ⟨rfl, rfl⟩ := stands_some hQ
      rfl

theorem coords_stands {P : PP} (h : Fq.q • P = 0) : Stands (coords P).1 (coords P).2 P := by
  obtain ⟨h1, h2, h3, h4⟩ := Ec.coords_range P
  exact ⟨h, by rw [Int.emod_eq_of_lt h1 h2, Int.emod_eq_of_lt h3 h4]⟩

theorem coords_inj {P Q : PP} (hP : Fq.q • P = 0) (hQ : Fq.q • Q = 0) (h : coords P = coords Q) : P = Q := by
  refine stands_unique (coords_stands hP) ?_
  rw [h]
  exact coords_stands hQ

/-- **C111** `IsOnCurve` accepts exactly the pairs of integers that are, modulo `p`, the coordinates of a multiple of the generator, the
pair of two multiples of `p` included; points of the curve outside the subgroup are refused -/
theorem C111_is_on_curve (x y : Int) : isOnCurve x y = true ↔ ∃ P, Stands x y P := by
  unfold isOnCurve
  by_cases h : ∃ P, Stands x y P
  · obtain ⟨P, hP⟩ := h
    obtain ⟨e, he, -⟩ := set_ok hP
    rw [he]
    exact ⟨fun _ => ⟨P, hP⟩, fun _ => rfl⟩
  · rw [set_none (fun P hP => h ⟨P, hP⟩)]
    exact ⟨(fun hh => by cases hh), fun hh => absurd hh h⟩

/-- **C111** `Add` and `Double`: the sum for pairs that stand for points of the subgroup, `(nil, nil)` as soon as one does not; no panic -/
theorem C111_add (x1 y1 x2 y2 : Int) :
    (∀ P Q, Stands x1 y1 P → Stands x2 y2 Q → add x1 y1 x2 y2 = .ok (some (coords (P + Q))) ∧ double x1 y1 = .ok (some (coords (P + P)))) ∧
    ((∀ P, ¬ Stands x1 y1 P) → add x1 y1 x2 y2 = .ok none ∧ add x2 y2 x1 y1 = .ok none ∧ double x1 y1 = .ok none) := by
  constructor
  · intro P Q hP hQ
    obtain ⟨e, he, hre⟩ := set_ok hP
    obtain ⟨f, hf, hrf⟩ := set_ok hQ
    have hg := G1.C94_group_law hre hrf
    unfold add double
    rw [he, hf]
    refine ⟨?_, ?_⟩
    · rw [Res.bind_ok, Res.bind_ok]
      dsimp only
      rw [big_coords hg.1]
    · rw [Res.bind_ok]
      dsimp only
      rw [big_coords hg.2.2.1]
  · intro h
    have e2 : ∃ o, G1.setBigInt x2 y2 = .ok o := by
      by_cases h2 : ∃ P, Stands x2 y2 P
      · obtain ⟨P, hP⟩ := h2
        obtain ⟨e, he, -⟩ := set_ok hP
        exact ⟨_, he⟩
      · exact ⟨_, set_none fun P hP => h2 ⟨P, hP⟩⟩
    obtain ⟨o, ho⟩ := e2
    unfold add double
    rw [set_none h, ho]
    refine ⟨rfl, ?_, rfl⟩
    rw [Res.bind_ok, Res.bind_ok]
    cases o <;> rfl

theorem length_copy (k : List UInt8) : (copy32 k).length = 32 := by
  unfold copy32
  rw [List.length_append, List.length_take, List.length_replicate]
  omega

theorem copy_val (k : List UInt8) : leToNat (copy32 k) = leToNat k % 2 ^ 256 := Ec.EdSc.take32 k

theorem mulBytes_spec {e : G1.Point} {P : PP} (he : Rep e P) (b : List UInt8) (hb : b.length = 32) :
    mulBytes e b = .ok (if leToNat b < Fq.q then some (coords (leToNat b • P)) else none) := by
  obtain ⟨h1, h2⟩ := C50_setBytes (A := Fq.implFix.A) Fq.lawful b hb
  unfold mulBytes fqBytes
  rw [show Field.setBytes Fq.impl.A Fq.impl.P b = Field.setBytes Fq.implFix.A Fq.implFix.P b from Fq.setBytes_eq b]
  by_cases hv : leToNat b < Fq.q
  · obtain ⟨s, hs, hr⟩ := h1 hv
    have ep : Field.setBytes Fq.implFix.A Fq.implFix.P b = .ok s := hs
    rw [ep, if_pos hv]
    dsimp only
    rw [big_coords (G1.C94_mul he hr).1, ZMod.val_natCast, Nat.mod_eq_of_lt hv]
  · have ep : Field.setBytes Fq.implFix.A Fq.implFix.P b = .err := h2 (by omega)
    rw [ep, if_neg hv]

/-- **C111** `ScalarBaseMult` for every byte string: its value `v` modulo `2²⁵⁶`, most significant byte first, times the generator if `v`
is below the order, and `(nil, nil)` otherwise -/
theorem C111_base_mult (k : List UInt8) :
    scalarBaseMult k = .ok (if beToNat k % 2 ^ 256 < Fq.q then some (coords ((beToNat k % 2 ^ 256) • G)) else none) := by
  unfold scalarBaseMult
  rw [mulBytes_spec G1.generator_rep _ (length_copy _), copy_val, leToNat_reverse]

/-- `ScalarMult` for every byte string: the value modulo `2²⁵⁶` is read least significant byte first. -/
theorem scalarMult_spec {x y : Int} {P : PP} (h : Stands x y P) (k : List UInt8) :
    scalarMult x y k = .ok (if leToNat k % 2 ^ 256 < Fq.q then some (coords ((leToNat k % 2 ^ 256) • P)) else none) := by
  obtain ⟨e, he, hr⟩ := set_ok h
  unfold scalarMult
  rw [he, Res.bind_ok]
  dsimp only
  rw [mulBytes_spec hr _ (length_copy _), copy_val]

theorem kills {P : PP} (h : Fq.q • P = 0) (n : Nat) : Fq.q • (n • P) = 0 := by
  rw [← mul_nsmul, Nat.mul_comm, mul_nsmul, h, nsmul_zero]

/-- **C111** one byte is the same both ways: for scalars below 256 `ScalarMult` computes the multiple; arguments that stand for no point of
the subgroup give `(nil, nil)` -/
theorem C111_scalar_mult_partial {x y : Int} (c : UInt8) :
    (∀ P, Stands x y P → scalarMult x y [c] = .ok (some (coords (c.toNat • P)))) ∧
    ((∀ P, ¬ Stands x y P) → ∀ k, scalarMult x y k = .ok none) := by
  constructor
  · intro P h
    have hc := c.toNat_lt
    have e : leToNat [c] = c.toNat := by show c.toNat + 256 * 0 = _; omega
    have hq : 256 < Fq.q := by decide +kernel
    rw [scalarMult_spec h, e, Nat.mod_eq_of_lt (by omega), if_pos (by omega)]
  · intro h k
    unfold scalarMult
    rw [set_none h]
    rfl

/-- **C111** (negation of `ScalarMult(P, k) = k P`, `k` most significant byte first as in Go's `elliptic.Curve`) `ScalarMult` reads its
scalar backwards: it returns the multiple by the reversed bytes; unless both readings agree modulo the order, or `P` is neutral, this is not
the multiple, and `ScalarMult` of the generator by 256 gives the generator while `ScalarBaseMult` gives its multiple by 256 -/
theorem C111_scalar_mult_violated :
    (∀ (P : PP) (k : List UInt8), Fq.q • P = 0 → P ≠ 0 → k.length ≤ 32 → leToNat k < Fq.q →
      (scalarMult (coords P).1 (coords P).2 k = .ok (some (coords (beToNat k • P))) ↔ leToNat k % Fq.q = beToNat k % Fq.q)) ∧
    scalarMult (coords G).1 (coords G).2 [1, 0] = .ok (some (coords G)) ∧
    scalarBaseMult [1, 0] = .ok (some (coords (256 • G))) ∧ coords (256 • G) ≠ coords G := by
  have h256 : (1 : Nat) < Fq.q ∧ 256 < Fq.q := by decide +kernel
  refine ⟨fun P k h h0 hl hk => ?_, ?_, ?_, fun h => ?_⟩
  · have h2 : leToNat k % 2 ^ 256 = leToNat k := Nat.mod_eq_of_lt (lt_trans hk (by decide +kernel))
    rw [scalarMult_spec (coords_stands h), h2, if_pos hk]
    constructor
    · intro hc
      have hc : coords (leToNat k • P) = coords (beToNat k • P) := by
        have := Res.ok.inj hc
        exact Option.some.inj this
      exact (G1.C94_order.2.2.2 P _ _ h h0).1 (coords_inj (kills h _) (kills h _) hc)
    · intro hm
      rw [(G1.C94_order.2.2.2 P _ _ h h0).2 hm]
  · rw [scalarMult_spec (coords_stands G1.order_G), show leToNat ([1, 0] : List UInt8) % 2 ^ 256 = 1 by decide +kernel, if_pos h256.1, one_nsmul]
  · rw [C111_base_mult, show beToNat ([1, 0] : List UInt8) % 2 ^ 256 = 256 by decide +kernel, if_pos h256.2]
  · have := coords_inj (kills G1.order_G _) G1.order_G h
    have h1 : 256 • G = 1 • G := by rw [this, one_nsmul]
    have := (G1.C94_order.2.2.2 G _ _ G1.order_G G1.G_ne).1 h1
    rw [Nat.mod_eq_of_lt h256.1, Nat.mod_eq_of_lt h256.2] at this
    omega

/-- **C111** `CompressedBytesFromBigInts`: 48 bytes that decode to the point the pair stands for, an error if there is none; two pairs give
the same bytes exactly if they stand for the same point -/
theorem C111_compressed (x y : Int) :
    (∀ P, Stands x y P → ∃ l, compressedBytesFromBigInts x y = .ok l ∧ l.length = 48 ∧
      (∃ e, P3.fromCompressed G1.codec l = some e ∧ Rep e P) ∧
      ∀ (u v : Int) (Q : PP), Stands u v Q → (compressedBytesFromBigInts u v = .ok l ↔ Q = P)) ∧
    ((∀ P, ¬ Stands x y P) → compressedBytesFromBigInts x y = .err) := by
  constructor
  · intro P hP
    obtain ⟨e, he, hr⟩ := set_ok hP
    obtain ⟨h1, -, h3, -⟩ := G1.C95_roundtrip hr hP.1
    refine ⟨P3.toCompressed G1.codec e, ?_, h3, h1, fun u v Q hQ => ?_⟩
    · unfold compressedBytesFromBigInts
      rw [he]
      rfl
    · obtain ⟨f, hf, hs⟩ := set_ok hQ
      have hu : compressedBytesFromBigInts u v = .ok (P3.toCompressed G1.codec f) := by
        unfold compressedBytesFromBigInts
        rw [hf]
        rfl
      rw [hu]
      exact ⟨fun h => (G1.C95_injective hs hr).1 (Res.ok.inj h), fun h => by rw [(G1.C95_injective hs hr).2 h]⟩
  · intro h
    unfold compressedBytesFromBigInts
    rw [set_none h]
    rfl

/-! ## The parameters -/

/-- **C111** the parameters that are right: the characteristic, the order of the group the operations work in, and the size -/
theorem C111_params_partial :
    initAll.P = Fp.p ∧ initAll.N = Fq.q ∧ Nat.card (AddSubgroup.zmultiples G) = initAll.N ∧ initAll.P < 2 ^ initAll.bitSize ∧
    2 ^ (initAll.bitSize - 1) ≤ initAll.P := by
  refine ⟨by decide +kernel, by decide +kernel, ?_, by decide +kernel, by decide +kernel⟩
  rw [Nat.card_zmultiples, G1.addOrder_G]
  decide +kernel

theorem not_on (x y : Nat) (h : y ^ 2 % Fp.p ≠ (x ^ 3 + 4) % Fp.p) (hx : x ≠ 0) (lx : x < Fp.p) (P : PP) : ¬ Stands x y P := by
  intro hP
  cases P with
  | zero =>
    have := (stands_zero.1 hP).1
    rw [Int.cast_natCast, ZMod.natCast_eq_zero_iff] at this
    exact absurd (Nat.le_of_dvd (by omega) this) (by omega)
  | some u v n =>
    obtain ⟨e1, e2⟩ := stands_some hP
    rw [Int.cast_natCast] at e1 e2
    have he := Weier.eqn_iff.1 n.1
    apply h
    have : (((y ^ 2 : Nat)) : ZMod Fp.p) = ((x ^ 3 + 4 : Nat) : ZMod Fp.p) := by
      rw [Nat.cast_pow, Nat.cast_add, Nat.cast_pow, ← e1, ← e2]
      linear_combination he
    exact (ZMod.natCast_eq_natCast_iff _ _ _).1 this

/-- **C111** (negation of: `Gx`, `Gy` are the coordinates of the base point and `B` the coefficient) the parameters hold the Montgomery
representatives of the generator: they are not its coordinates, they satisfy neither `y² = x³ + 4` nor `y² = x³ + B`, `IsOnCurve` refuses
them, and `B` is `Gy` -/
theorem C111_params_violated :
    initAll.Gx = 2 ^ 384 * (coords G).1.toNat % Fp.p ∧ initAll.Gy = 2 ^ 384 * (coords G).2.toNat % Fp.p ∧
    ((initAll.Gx : Int), (initAll.Gy : Int)) ≠ coords G ∧ isOnCurve initAll.Gx initAll.Gy = false ∧
    initAll.B = initAll.Gy ∧ initAll.Gy ^ 2 % Fp.p ≠ (initAll.Gx ^ 3 + initAll.B) % Fp.p ∧ initAll.B % Fp.p ≠ 4 := by
  have e : coords G = ((0x17f1d3a73197d7942695638c4fa9ac0fc3688c4f9774b905a14e3a3f171bac586c55e83ff97a1aeffb3af00adb22c6bb : Int),
      (0x8b3f481e3aaa0f1a09e30ed741d8ae4fcf5e095d5d00af600db18cb2c04b3edd03cc744a2888ae40caa232946c5e7e1 : Int)) := by
    show ((((((_ : Nat) : ZMod Fp.p)).val : Nat) : Int), (((((_ : Nat) : ZMod Fp.p)).val : Nat) : Int)) = _
    rw [ZMod.val_natCast, ZMod.val_natCast]
    decide +kernel
  rw [e]
  refine ⟨by decide +kernel, by decide +kernel, by decide +kernel, ?_, rfl, by decide +kernel, by decide +kernel⟩
  refine Bool.eq_false_iff.2 fun h => ?_
  obtain ⟨P, hP⟩ := (C111_is_on_curve _ _).1 h
  exact not_on _ _ (by decide +kernel) (by decide +kernel) (by decide +kernel) P hP

/-- **C111** (negation of: `Bls12381G2()` gives the curve of the second group) it gives the object of the first group, whatever has been
initialised; its parameters are missing until `Bls12381G1()` has been called, and are those of the first group after that -/
theorem C111_g2_is_g1_violated (s : Globals) :
    (bls12381G2 s).2 = (bls12381G1 s).2 ∧ params (bls12381G2 s).1 (bls12381G2 s).2 = s.g1 ∧
    params (bls12381G2 ⟨none, none⟩).1 (bls12381G2 ⟨none, none⟩).2 = none ∧
    (s.g1 = none → params (bls12381G1 s).1 (bls12381G1 s).2 = some initAll ∧
      params (bls12381G2 (bls12381G1 s).1).1 (bls12381G2 (bls12381G1 s).1).2 = some initAll) := by
  obtain ⟨g1, g2⟩ := s
  refine ⟨rfl, by cases g2 <;> rfl, rfl, ?_⟩
  intro h
  have h : g1 = none := h
  subst h
  cases g2 <;> exact ⟨rfl, rfl⟩

/-! ## A concrete case -/

example : Stands (coords G).1 (coords G).2 G ∧ Stands 0 Fp.p 0 ∧ G ≠ 0 :=
  ⟨coords_stands G1.order_G, ⟨nsmul_zero _, by decide +kernel⟩, G1.G_ne⟩
example : ∃ x y : Int, (∀ P, ¬ Stands x y P) :=
  ⟨(1 : Nat), (1 : Nat), not_on 1 1 (by decide +kernel) (by decide) (by decide +kernel)⟩

end Verif.V1Bls
