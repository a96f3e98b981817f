import Verif.Bls381.G2
import Verif.Bls381.Count
import Verif.Bls381.Nat12

/-!
# Points of G2 over pairs of naturals, for the kernel

The functions of `Group.lean` and `G2.lean` run on pairs of naturals below `p`; the kernel evaluates them on given points.  No definition of
the code is modelled here.
-/

set_option maxRecDepth 20000
set_option exponentiation.threshold 1000
set_option linter.unusedSectionVars false

namespace Verif.Bls381.G2
open Verif.Bytes Verif.Native Verif.Native.Weier P3 Fp2

/-- The pair of reduced naturals represents the element. -/
def RN (a : Nat × Nat) (x : K2) : Prop := a.1 < Fp.p ∧ a.2 < Fp.p ∧ Fp6.el Fp.p a = x

open Classical in
/-- The field on pairs of naturals; `invert` is never evaluated. -/
noncomputable def NF : FOps (Nat × Nat) where
  zero := (0, 0)
  one := (1, 0)
  add := fun a b => ((a.1 + b.1) % Fp.p, (a.2 + b.2) % Fp.p)
  sub := fun a b => ((a.1 + (Fp.p - b.1)) % Fp.p, (a.2 + (Fp.p - b.2)) % Fp.p)
  mul := fun a b => ((a.1 * b.1 + (Fp.p - 1) * (a.2 * b.2)) % Fp.p, (a.1 * b.2 + a.2 * b.1) % Fp.p)
  square := fun a => ((a.1 * a.1 + (Fp.p - 1) * (a.2 * a.2)) % Fp.p, (a.1 * a.2 + a.2 * a.1) % Fp.p)
  double := fun a => ((a.1 + a.1) % Fp.p, (a.2 + a.2) % Fp.p)
  neg := fun a => ((Fp.p - a.1) % Fp.p, (Fp.p - a.2) % Fp.p)
  mulBy3b := fun a => ((a.1 * 12 + (Fp.p - 1) * (a.2 * 12)) % Fp.p, (a.1 * 12 + a.2 * 12) % Fp.p)
  isZero := fun a => if a.1 = 0 then (if a.2 = 0 then 1 else 0) else 0
  equal := fun a b => if a = b then 1 else 0
  cmove := fun a b c => if c = 1 then b else a
  invert := fun a => if h : ∃ c x y, RN a x ∧ RN c y ∧ x * y = 1 then (h.choose, 1) else ((0, 0), 0)
  sqrt := fun a => (a, 0)
  lexLargest := fun _ => 0
  b := (4, 4)

theorem el_lt {a : Nat × Nat} (h1 : a.1 < Fp.p) (h2 : a.2 < Fp.p) : (Fp6.el Fp.p a).re.val = a.1 ∧ (Fp6.el Fp.p a).im.val = a.2 :=
  ⟨ZMod.val_cast_of_lt h1, ZMod.val_cast_of_lt h2⟩

theorem rn_unique {a c : Nat × Nat} {x : K2} (ha : RN a x) (hc : RN c x) : a = c := by
  obtain ⟨a1, a2, rfl⟩ := ha
  obtain ⟨c1, c2, e⟩ := hc
  have ea := el_lt a1 a2
  have ec := el_lt c1 c2
  rw [e] at ec
  exact Prod.ext (ea.1.symm.trans ec.1) (ea.2.symm.trans ec.2)

theorem rn_exists (x : K2) : RN (x.re.val, x.im.val) x := by
  refine ⟨ZMod.val_lt x.re, ZMod.val_lt x.im, ?_⟩
  unfold Fp6.el
  ext
  · exact ZMod.natCast_zmod_val x.re
  · exact ZMod.natCast_zmod_val x.im

theorem pos : 0 < Fp.p := by decide +kernel

theorem cast_neg' (a : Nat) (h : a < Fp.p) : ((Fp.p - a : Nat) : ZMod Fp.p) = -(a : ZMod Fp.p) := by
  rw [Nat.cast_sub h.le, ZMod.natCast_self, zero_sub]

theorem NOk : FOK NF RN bb where
  unique := rn_unique
  value := fun ha hb => ha.2.2.symm.trans hb.2.2
  zero := ⟨pos, pos, by unfold Fp6.el NF; rw [Nat.cast_zero]; rfl⟩
  one := ⟨by decide +kernel, pos, el_one⟩
  coeff := ⟨by decide +kernel, by decide +kernel, rfl⟩
  add := fun {a c x y} ha hc => by
    refine ⟨Nat.mod_lt _ pos, Nat.mod_lt _ pos, ?_⟩
    rw [← ha.2.2, ← hc.2.2]
    unfold Fp6.el NF
    ext
    · dsimp only; rw [QuadraticAlgebra.re_add, ZMod.natCast_mod, Nat.cast_add]
    · dsimp only; rw [QuadraticAlgebra.im_add, ZMod.natCast_mod, Nat.cast_add]
  sub := fun {a c x y} ha hc => by
    refine ⟨Nat.mod_lt _ pos, Nat.mod_lt _ pos, ?_⟩
    rw [← ha.2.2, ← hc.2.2]
    have h1 := hc.1
    have h2 := hc.2.1
    unfold Fp6.el NF
    ext
    · dsimp only; rw [QuadraticAlgebra.re_sub, ZMod.natCast_mod, Nat.cast_add, cast_neg' _ h1, sub_eq_add_neg]
    · dsimp only; rw [QuadraticAlgebra.im_sub, ZMod.natCast_mod, Nat.cast_add, cast_neg' _ h2, sub_eq_add_neg]
  mul := fun {a c x y} ha hc => ⟨Nat.mod_lt _ pos, Nat.mod_lt _ pos, by rw [← ha.2.2, ← hc.2.2]; exact (el_mul a c).symm⟩
  square := fun {a x} ha => ⟨Nat.mod_lt _ pos, Nat.mod_lt _ pos, by rw [← ha.2.2]; exact (el_mul a a).symm⟩
  double := fun {a x} ha => by
    refine ⟨Nat.mod_lt _ pos, Nat.mod_lt _ pos, ?_⟩
    rw [← ha.2.2]
    unfold Fp6.el NF
    ext
    · dsimp only; rw [QuadraticAlgebra.re_add, ZMod.natCast_mod, Nat.cast_add]
    · dsimp only; rw [QuadraticAlgebra.im_add, ZMod.natCast_mod, Nat.cast_add]
  neg := fun {a x} ha => by
    refine ⟨Nat.mod_lt _ pos, Nat.mod_lt _ pos, ?_⟩
    rw [← ha.2.2]
    have h1 := ha.1
    have h2 := ha.2.1
    unfold Fp6.el NF
    ext
    · dsimp only; rw [QuadraticAlgebra.re_neg, ZMod.natCast_mod, cast_neg' _ h1]
    · dsimp only; rw [QuadraticAlgebra.im_neg, ZMod.natCast_mod, cast_neg' _ h2]
  mulBy3b := fun {a x} ha => by
    refine ⟨Nat.mod_lt _ pos, Nat.mod_lt _ pos, ?_⟩
    rw [← three_b, ← ha.2.2]
    have := el_mul a (12, 12)
    have e : Fp6.el Fp.p (12, 12) = b3 := by unfold Fp6.el b3; rfl
    rw [e] at this
    exact this.symm
  isZero := fun {a x} ha => by
    have h := el_lt ha.1 ha.2.1
    rw [ha.2.2] at h
    have : x = 0 ↔ a.1 = 0 ∧ a.2 = 0 := by
      rw [← h.1, ← h.2, ZMod.val_eq_zero, ZMod.val_eq_zero, ext_iff2]
      rfl
    simp only [this]
    change (if a.1 = 0 then (if a.2 = 0 then (1 : UInt64) else 0) else 0) = _
    by_cases h1 : a.1 = 0 <;> by_cases h2 : a.2 = 0 <;> simp [h1, h2]
  equal := fun {a c x y} ha hc => by
    have : a = c ↔ x = y := ⟨fun h => by subst h; exact ha.2.2.symm.trans hc.2.2, fun h => by subst h; exact rn_unique ha hc⟩
    change (if a = c then (1 : UInt64) else 0) = _
    simp only [this]
  cmove0 := fun a c => by
    change (if (0 : UInt64) = 1 then c else a) = a
    exact if_neg (by decide)
  cmove1 := fun a c => by
    change (if (1 : UInt64) = 1 then c else a) = c
    exact if_pos rfl
  invert := fun {a x} ha => by
    constructor
    · intro hx
      have h : ∃ c x y, RN a x ∧ RN c y ∧ x * y = 1 := ⟨_, x, x⁻¹, ha, rn_exists _, mul_inv_cancel₀ hx⟩
      have e : NF.invert a = (h.choose, 1) := dif_pos h
      obtain ⟨x', y, h1, h2, h3⟩ := h.choose_spec
      rw [e]
      have : x' = x := h1.2.2.symm.trans ha.2.2
      subst this
      exact ⟨y, h3, h2, rfl⟩
    · intro hx
      have h : ¬ ∃ c x y, RN a x ∧ RN c y ∧ x * y = 1 := by
        rintro ⟨c, x', y, h1, -, h3⟩
        have : x' = x := h1.2.2.symm.trans ha.2.2
        rw [this, hx, zero_mul] at h3
        exact zero_ne_one h3
      have e : NF.invert a = ((0, 0), 0) := dif_neg h
      rw [e]
  two := two2
  noTwo := noTwo

/-- The constants on pairs of naturals. -/
noncomputable def NT : TOps (Nat × Nat) where
  fo := NF
  frob := fun a => (a.1, (Fp.p - a.2) % Fp.p)
  cx := (0x0, 0x1a0111ea397fe699ec02408663d4de85aa0d857d89759ad4897d29650fb85f9b409427eb4f49fffd8bfd00000000aaad)
  cy := (0x135203e60180a68ee2e9c448d77a2cd91c3dedd930b1cf60ef396489f61eb45e304466cf3e67fa0af1ee7b04121bdea2,
    0x6af0e0437ff400b6831e36d6bd17ffe48395dabc2d3435e77f76e17009241c5ee67992f72ec05f4c81084fbede3cc09)
  c2 := (0x1a0111ea397fe699ec02408663d4de85aa0d857d89759ad4897d29650fb85f9b409427eb4f49fffd8bfd00000000aaac, 0x0)

theorem NTk : TOK NT RN where
  fo := NOk
  frob := fun {a x} ha => by
    refine ⟨ha.1, Nat.mod_lt _ pos, ?_⟩
    have h2 := ha.2.1
    rw [← ha.2.2, Quad.frob p_mod4]
    unfold Fp6.el NT
    dsimp only
    rw [ZMod.natCast_mod, cast_neg' _ h2]
  cx := ⟨by decide +kernel, by decide +kernel, rfl⟩
  cy := ⟨by decide +kernel, by decide +kernel, rfl⟩
  c2 := ⟨by decide +kernel, by decide +kernel, rfl⟩

/-- Double-and-add, least significant bit first. -/
noncomputable def smul : Nat → P3 (Nat × Nat) → Nat → P3 (Nat × Nat) → P3 (Nat × Nat)
  | 0, _, _, acc => acc
  | f + 1, P, e, acc => smul f (P3.add NF P P) (e / 2) (if e % 2 = 1 then P3.add NF acc P else acc)

theorem smul_spec (f : Nat) : ∀ (s acc : P3 (Nat × Nat)) (e : Nat) (P Q : PP), e < 2 ^ f → HRep RN bb s P → HRep RN bb acc Q →
    HRep RN bb (smul f s e acc) (Q + e • P) := by
  induction f with
  | zero =>
    intro s acc e P Q he hs ha
    have : e = 0 := by omega
    subst this
    rw [smul, zero_nsmul, add_zero]
    exact ha
  | succ f ih =>
    intro s acc e P Q he hs ha
    rw [smul]
    have h2 := P3.add_spec NOk hs hs
    have he2 : e = 2 * (e / 2) + e % 2 := by omega
    by_cases h1 : e % 2 = 1
    · rw [if_pos h1]
      have := ih _ _ (e / 2) _ _ (by omega) h2 (P3.add_spec NOk ha hs)
      convert this using 1
      conv_lhs => rw [he2, h1]
      rw [add_nsmul, one_nsmul, mul_nsmul, two_nsmul]
      abel
    · rw [if_neg h1]
      have := ih _ _ (e / 2) _ _ (by omega) h2 ha
      convert this using 1
      conv_lhs => rw [he2, show e % 2 = 0 by omega]
      rw [add_zero, mul_nsmul, two_nsmul]

/-- The check that a pair of pairs is a point, with reduced coordinates. -/
def onCurve (x y : Nat × Nat) : Prop :=
  x.1 < Fp.p ∧ x.2 < Fp.p ∧ y.1 < Fp.p ∧ y.2 < Fp.p ∧
    Nat12.mul2 Fp.p y y = Nat12.add2 Fp.p (Nat12.mul2 Fp.p (Nat12.mul2 Fp.p x x) x) (4, 4)

instance (x y : Nat × Nat) : Decidable (onCurve x y) := by unfold onCurve; infer_instance

/-- A point given by naturals. -/
def mkPt (x y : Nat × Nat) (h : onCurve x y) : PP :=
  .some (Fp6.el Fp.p x) (Fp6.el Fp.p y) (nonsing two2 noTwo (by
    have e := congrArg (Fp6.el Fp.p) h.2.2.2.2
    rw [Nat12.el_mul2 pos, Nat12.el_add2, Nat12.el_mul2 pos, Nat12.el_mul2 pos] at e
    linear_combination e))

theorem mkPt_ne {x y : Nat × Nat} {h} : mkPt x y h ≠ 0 := WeierstrassCurve.Affine.Point.some_ne_zero _

theorem mkPt_rep (x y : Nat × Nat) (h : onCurve x y) : HRep RN bb ⟨x, y, (1, 0)⟩ (mkPt x y h) :=
  ⟨_, _, 1, ⟨h.1, h.2.1, rfl⟩, ⟨h.2.2.1, h.2.2.2.1, rfl⟩, NOk.one,
    Or.inr ⟨one_ne_zero, _, _, _, rfl, (mul_one _).symm, (mul_one _).symm⟩, fun h => absurd h one_ne_zero⟩

theorem zero_of_z {e : P3 (Nat × Nat)} {P : PP} (h : HRep RN bb e P) (hz : e.z = (0, 0)) : P = 0 := by
  have := isIdentity_spec NOk h
  unfold isIdentity at this
  rw [hz] at this
  have e1 : NF.isZero (0, 0) = 1 := rfl
  rw [e1] at this
  by_contra hc
  rw [if_neg hc] at this
  exact absurd this (by decide)

theorem order_of {x y : Nat × Nat} (h : onCurve x y) {n : Nat} (f : Nat) (hn : n < 2 ^ f)
    (he : (smul f ⟨x, y, (1, 0)⟩ n (identity NF)).z = (0, 0)) : n • mkPt x y h = 0 := by
  have := smul_spec f _ _ n _ _ hn (mkPt_rep x y h) (identity_spec NOk)
  rw [zero_add] at this
  exact zero_of_z this he

theorem rel_of {x y x' y' : Nat × Nat} (h : onCurve x y) (h' : onCurve x' y') {n : Nat} (f : Nat) (hn : n < 2 ^ f)
    (he : (smul f ⟨x, y, (1, 0)⟩ n ⟨x', y', (1, 0)⟩).z = (0, 0)) : mkPt x' y' h' + n • mkPt x y h = 0 :=
  zero_of_z (smul_spec f _ _ n _ _ hn (mkPt_rep x y h) (mkPt_rep x' y' h')) he

theorem clear_of {x y : Nat × Nat} (h : onCurve x y) (he : (clearWith NT ⟨x, y, (1, 0)⟩).z = (0, 0)) : clearHom (mkPt x y h) = 0 :=
  zero_of_z (clear_spec NTk (mkPt_rep x y h)) he

theorem clear_rel {x y : Nat × Nat} (h : onCurve x y) {n : Nat} (f : Nat) (hn : n < 2 ^ f)
    (he : (smul f ⟨x, y, (1, 0)⟩ n (clearWith NT ⟨x, y, (1, 0)⟩)).z = (0, 0)) : clearHom (mkPt x y h) + n • mkPt x y h = 0 :=
  zero_of_z (smul_spec f _ _ n _ _ hn (mkPt_rep x y h) (clear_spec NTk (mkPt_rep x y h))) he

theorem psi_rel {x y : Nat × Nat} (h : onCurve x y) {n : Nat} (f : Nat) (hn : n < 2 ^ f)
    (he : (smul f ⟨x, y, (1, 0)⟩ n (psi NT ⟨x, y, (1, 0)⟩)).z = (0, 0)) : psiHom (mkPt x y h) + n • mkPt x y h = 0 :=
  zero_of_z (smul_spec f _ _ n _ _ hn (mkPt_rep x y h) (psi_spec NTk (mkPt_rep x y h))) he

end Verif.Bls381.G2
