import Verif.Bls381.PairValue
import Verif.Bls381.G2Nat

/-!
The value of the pairing at the generators, by evaluation on naturals.  No definition of the code is modelled here.
-/

set_option linter.unusedSectionVars false
set_option maxRecDepth 100000
set_option exponentiation.threshold 10000

namespace Verif.Bls381.Pair
open Verif.Native Verif.Native.Weier WeierstrassCurve WeierstrassCurve.Affine
open Verif.Bls381.Fp2 (K2)
open Verif.Bls381.Fp12 (K12)
open Nat12

/-- Negation of a pair. -/
def neg2 (a : Nat × Nat) : Nat × Nat := ((Fp.p - a.1 % Fp.p) % Fp.p, (Fp.p - a.2 % Fp.p) % Fp.p)

/-- The operations on naturals. -/
noncomputable def natOps : MOps Nat (Nat × Nat) N12 where
  fo := G2.NF
  gen := ⟨(0, 0), (0, 0), (0, 0)⟩
  scale := fun a c => (a.1 * c % Fp.p, a.2 * c % Fp.p)
  isZero1 := fun a => if a = 0 then 1 else 0
  abd := fun f c e d => mul12 Fp.p f ⟨c, e, (0, 0), (0, 0), d, (0, 0)⟩
  square := fun f => mul12 Fp.p f f
  conj := fun f => ⟨f.a, f.b, f.c, neg2 f.d, neg2 f.e, neg2 f.f⟩
  cmove := fun a b c => if c = 1 then b else a

/-- The generators. -/
def gens : PairOf Nat (Nat × Nat) :=
  ⟨⟨0x17f1d3a73197d7942695638c4fa9ac0fc3688c4f9774b905a14e3a3f171bac586c55e83ff97a1aeffb3af00adb22c6bb,
    0x8b3f481e3aaa0f1a09e30ed741d8ae4fcf5e095d5d00af600db18cb2c04b3edd03cc744a2888ae40caa232946c5e7e1, 1⟩,
   ⟨(0x24aa2b2f08f0a91260805272dc51051c6e47ad4fa403b02b4510b647ae3d1770bac0326a805bbefd48056c8c121bdb8, 0x13e02b6052719f607dacd3a088274f65596bd0d09920b61ab5da61bbdc7f5049334cf11213945d57e5ac7d055d042b7e),
    (0xce5d527727d6e118cc9cdc6da2e351aadfd9baa8cbdd3a76d429a695160d12c923ac9cc3baca289e193548608b82801, 0x606c4a02ea734cc32acd2b02bc28b99cb3e287e85a763af267492ab572e99ab3f370d275cec1da1aaa9075ff05f79be),
    (1, 0)⟩⟩

/-- The value of the loop. -/
noncomputable def loopN : N12 := millerLoop natOps [gens] one12 (computeCoeffs natOps [gens])

theorem eval : pw12 Fp.p 4600 loopN Gt.finalExp one12 = Gt.gN := by decide +kernel

/-- The value of the loop represents. -/
def R12 (f : N12) (x : K12) : Prop := el12 f = x

def R1 (a : ℕ) (w : ZMod Fp.p) : Prop := a < Fp.p ∧ (a : ZMod Fp.p) = w

theorem el_scale (a : Nat × Nat) (c : ℕ) : Fp6.el Fp.p (a.1 * c % Fp.p, a.2 * c % Fp.p) = Fp6.el Fp.p a * Ate.e2 (c : ZMod Fp.p) := by
  have : Ate.e2 (c : ZMod Fp.p) = ⟨(c : ZMod Fp.p), 0⟩ := rfl
  rw [this]
  unfold Fp6.el
  ext
  · simp
  · simp

theorem el_neg2 (a : Nat × Nat) : Fp6.el Fp.p (neg2 a) = -Fp6.el Fp.p a := by
  have h : ∀ n : ℕ, (((Fp.p - n % Fp.p) % Fp.p : ℕ) : ZMod Fp.p) = -(n : ZMod Fp.p) := by
    intro n
    rw [ZMod.natCast_mod, G2.cast_neg' _ (Nat.mod_lt _ G2.pos), ZMod.natCast_mod]
  unfold Fp6.el neg2
  ext
  · rw [QuadraticAlgebra.re_neg]; exact h _
  · rw [QuadraticAlgebra.im_neg]; exact h _

theorem el_zero2 : Fp6.el Fp.p (0, 0) = 0 := by
  unfold Fp6.el
  rw [Nat.cast_zero]
  rfl

theorem nat_mok : MOK natOps R1 G2.RN R12 where
  fo := G2.NOk
  scale := fun {a x c w} ha hc => by
    refine ⟨Nat.mod_lt _ G2.pos, Nat.mod_lt _ G2.pos, ?_⟩
    rw [← ha.2.2, ← hc.2]
    exact el_scale a c
  isZero1 := fun {c w} h => by
    have : c = 0 ↔ w = 0 := by
      rw [← h.2, ZMod.natCast_eq_zero_iff]
      exact ⟨fun h => by rw [h]; exact dvd_zero _, fun h' => Nat.eq_zero_of_dvd_of_lt h' h.1⟩
    change (if c = 0 then (1 : UInt64) else 0) = _
    simp only [this]
  abd := fun {f x c e d z s r} hf hc he hd => by
    have h := el12_mul G2.pos (t := Fp12.vv) rfl f ⟨c, e, (0, 0), (0, 0), d, (0, 0)⟩
    have e2 : (el12 ⟨c, e, (0, 0), (0, 0), d, (0, 0)⟩ : K12) = ⟨⟨z, s, 0⟩, ⟨0, r, 0⟩⟩ := by
      unfold el12
      dsimp only
      rw [hc.2.2, he.2.2, hd.2.2, el_zero2]
    have h' : (el12 (mul12 Fp.p f ⟨c, e, (0, 0), (0, 0), d, (0, 0)⟩) : K12) = el12 f * el12 ⟨c, e, (0, 0), (0, 0), d, (0, 0)⟩ := h
    rw [e2, hf] at h'
    exact h'
  square := fun {f x} hf => by
    have h' : (el12 (mul12 Fp.p f f) : K12) = el12 f * el12 f := el12_mul G2.pos (t := Fp12.vv) rfl f f
    rw [hf] at h'
    exact h'
  conj := fun {f x} hf => by
    rw [← hf]
    show (el12 ⟨f.a, f.b, f.c, neg2 f.d, neg2 f.e, neg2 f.f⟩ : K12) = _
    unfold el12
    dsimp only
    rw [el_neg2, el_neg2, el_neg2]
    rfl
  cmove0 := fun a b => by
    change (if (0 : UInt64) = 1 then b else a) = a
    exact if_neg (by decide)

theorem G1_point : ∃ h, G1.G = .some ((gens.g1.x : ℕ) : ZMod Fp.p) ((gens.g1.y : ℕ) : ZMod Fp.p) h := ⟨_, rfl⟩
theorem G2_point : ∃ h, G2.G = .some (Fp6.el Fp.p gens.g2.x) (Fp6.el Fp.p gens.g2.y) h := ⟨_, rfl⟩

theorem gens_ent {x y : ZMod Fp.p} {h} (hx : ((gens.g1.x : ℕ) : ZMod Fp.p) = x) (hy : ((gens.g1.y : ℕ) : ZMod Fp.p) = y)
    {x' y' : K2} {h'} (e2 : G2.G = .some x' y' h') (hx' : Fp6.el Fp.p gens.g2.x = x') (hy' : Fp6.el Fp.p gens.g2.y = y') :
    Ent R1 G2.RN (stp tailBits 1) (gens, prepare natOps.fo natOps.gen gens.g2) ⟨x, y, h, G2.G⟩ := by
  have hs : ∀ j, 0 < j → j < 2 ^ 64 → j • (.some x' y' h' : G2.PP) ≠ 0 := by
    intro j h1 h2
    rw [← e2]
    exact small_order G2.order_G G2.G_ne h1 h2
  have z1 : G2.RN gens.g2.z 1 := G2.NOk.one
  have rx : G2.RN gens.g2.x x' := ⟨by decide +kernel, by decide +kernel, hx'⟩
  have ry : G2.RN gens.g2.y y' := ⟨by decide +kernel, by decide +kernel, hy'⟩
  obtain ⟨h1, h2⟩ := prepare_spec nat_mok.fo rx ry h' natOps.gen z1 hs
  exact ⟨⟨by decide +kernel, hx⟩, ⟨by decide +kernel, hy⟩, ⟨by decide +kernel, Nat.cast_one⟩, h1, by rw [e2]; exact h2⟩

theorem ff_single (d : Datum) (m : ℕ) : FF [d] m = Ate.mfU (Ate.pnt d.h) m d.Q := by
  unfold FF
  rw [prodOf, prodOf, mul_one]

theorem pw_final {f : N12} {t : Ate.U12} (h : FRep R12 f t) (n : ℕ) (hn : n = Gt.finalExp) (hb : n < 2 ^ 4600) :
    t.val = el12 (pw12 Fp.p 4600 f n one12) := by
  obtain ⟨y, hy, -, ht⟩ := h
  have h1 : (el12 (pw12 Fp.p 4600 f n one12) : K12) = el12 one12 * el12 f ^ n := pw12_spec (by decide +kernel) rfl 4600 f n one12 hb
  have e1 : (el12 one12 : K12) = 1 := el12_one
  rw [e1, one_mul, hy, hn, ht] at h1
  rw [hn, h1]

/-- The pairing of the generators is the stored generator of the target group. -/
theorem ee_gens : (ee G1.G G2.G).val = el12 Gt.gN := by
  obtain ⟨h, e1⟩ := G1_point
  obtain ⟨h', e2⟩ := G2_point
  have hent := gens_ent (h := h) rfl rfl e2 rfl rfl
  have h1 := loop_spec nat_mok (ps := [gens].zip (computeCoeffs natOps [gens])) (.cons hent .nil) (f := one12) el12_one
  have h2 : FRep R12 loopN (FF [⟨_, _, h, G2.G⟩] Ate.nX)⁻¹ := h1
  have h3 := pw_final h2 _ rfl (by decide +kernel)
  rw [eval] at h3
  rw [← h3, ff_single]
  unfold ee
  rw [e1, Ate.pr_some]

end Verif.Bls381.Pair
