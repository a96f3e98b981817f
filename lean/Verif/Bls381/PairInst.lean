import Verif.Bls381.PairApi
import Verif.Bls.Threshold
import Mathlib.Algebra.Module.ZMod

/-!
# The pairing interface of the protocols, instantiated

`Verif.Pairing` is the interface over which the accumulator, BLS and BBS properties are proved.  Here the groups are the subgroups of order
`q` of the two curves of BLS12-381 and the pairing is the one the engine computes (`C98_pairing`).
-/

set_option linter.unusedSectionVars false
set_option maxRecDepth 20000

namespace Verif.Bls381.Inst
open Verif.Native Verif.Native.Weier Verif.Bls381.Pair

/-- The scalar field. -/
abbrev K := ZMod Fq.q

/-- The points of G1 of order dividing `q`. -/
def sub1 : AddSubgroup G1.PP := (nsmulAddMonoidHom (α := G1.PP) Fq.q).ker

/-- The points of G2 of order dividing `q`. -/
def sub2 : AddSubgroup G2.PP := (nsmulAddMonoidHom (α := G2.PP) Fq.q).ker

theorem mem_sub1 {P : G1.PP} : P ∈ sub1 ↔ Fq.q • P = 0 := Iff.rfl
theorem mem_sub2 {P : G2.PP} : P ∈ sub2 ↔ Fq.q • P = 0 := Iff.rfl

theorem kill {A : Type} [AddCommGroup A] (n : ℕ) (x : (nsmulAddMonoidHom (α := A) n).ker) : n • x = 0 := by
  apply Subtype.ext
  rw [AddSubgroup.coe_nsmul]
  exact x.2

noncomputable instance mod1 : Module K sub1 := AddCommGroup.zmodModule (kill (A := G1.PP) Fq.q)
noncomputable instance mod2 : Module K sub2 := AddCommGroup.zmodModule (kill (A := G2.PP) Fq.q)

theorem smul1 (c : K) (P : sub1) : ((c • P : sub1) : G1.PP) = c.val • (P : G1.PP) := by
  conv_lhs => rw [← ZMod.natCast_zmod_val c]
  rw [Nat.cast_smul_eq_nsmul, AddSubgroup.coe_nsmul]

theorem smul2 (c : K) (P : sub2) : ((c • P : sub2) : G2.PP) = c.val • (P : G2.PP) := by
  conv_lhs => rw [← ZMod.natCast_zmod_val c]
  rw [Nat.cast_smul_eq_nsmul, AddSubgroup.coe_nsmul]

theorem ee_one {P : G1.PP} {Q : G2.PP} (hP : Fq.q • P = 0) (hQ : Fq.q • Q = 0) : ee P Q = 1 ↔ P = 0 ∨ Q = 0 := by
  obtain ⟨a, ha, rfl⟩ := G1.torsion hP
  obtain ⟨b, hb, rfl⟩ := G2.torsion hQ
  have z1 : a • G1.G = 0 ↔ Fq.q ∣ a := by rw [← G1.addOrder_G]; exact (addOrderOf_dvd_iff_nsmul_eq_zero).symm
  have z2 : b • G2.G = 0 ↔ Fq.q ∣ b := by rw [← G2.addOrder_G]; exact (addOrderOf_dvd_iff_nsmul_eq_zero).symm
  rw [ee_mul, gen_pow, z1, z2]
  exact Nat.Prime.dvd_mul Fq.fact_q.out

/-- The generators as elements of the subgroups. -/
def g1 : sub1 := ⟨G1.G, mem_sub1.2 G1.order_G⟩
def g2 : sub2 := ⟨G2.G, mem_sub2.2 G2.order_G⟩

/-- The pairing of BLS12-381. -/
noncomputable def pairing : Verif.Pairing K sub1 sub2 Ate.U12 where
  e P Q := ee P.1 Q.1
  g1 := g1
  g2 := g2
  add_left A B Q := ee_add _ _ (mem_sub2.1 Q.2)
  add_right P A B := add_ee _ (mem_sub2.1 A.2) (mem_sub2.1 B.2)
  smul_swap c P Q := by
    rw [smul1, smul2, ee_nsmul _ (mem_sub2.1 Q.2), nsmul_ee _ (mem_sub2.1 Q.2)]
  nondeg2 P h := by
    rcases (ee_one (mem_sub1.1 P.2) (mem_sub2.1 g2.2)).1 h with h | h
    · exact Subtype.ext h
    · exact absurd h G2.G_ne
  nondeg1 Q h := by
    rcases (ee_one (mem_sub1.1 g1.2) (mem_sub2.1 Q.2)).1 h with h | h
    · exact absurd h G1.G_ne
    · exact Subtype.ext h

/-- The pairing with the sides exchanged, for keys in G2. -/
noncomputable def pairing' : Verif.Pairing K sub2 sub1 Ate.U12 where
  e Q P := ee P.1 Q.1
  g1 := g2
  g2 := g1
  add_left A B P := pairing.add_right P A B
  add_right Q A B := pairing.add_left A B Q
  smul_swap c Q P := (pairing.smul_swap c P Q).symm
  nondeg2 Q h := pairing.nondeg1 Q h
  nondeg1 P h := pairing.nondeg2 P h

/-- All points of the curve of G1, with the subgroup. -/
noncomputable def curve1 : Bls.CurveGroup K sub1 G1.PP where
  ι := Subtype.val
  inj := Subtype.val_injective
  inSub P := decide (Fq.q • P = 0)
  inSub_iff P := by
    rw [decide_eq_true_iff]
    exact ⟨fun h => ⟨⟨P, mem_sub1.2 h⟩, rfl⟩, by rintro ⟨g, rfl⟩; exact mem_sub1.1 g.2⟩
  isId P := decide (P = 0)
  isId_iff P := by rw [decide_eq_true_iff]; rfl
  add P Q := P + Q
  add_ι _ _ := rfl
  mul P c := c.val • P
  mul_ι a x := (smul1 x a).symm

/-- All points of the curve of G2, with the subgroup. -/
noncomputable def curve2 : Bls.CurveGroup K sub2 G2.PP where
  ι := Subtype.val
  inj := Subtype.val_injective
  inSub P := decide (Fq.q • P = 0)
  inSub_iff P := by
    rw [decide_eq_true_iff]
    exact ⟨fun h => ⟨⟨P, mem_sub2.2 h⟩, rfl⟩, by rintro ⟨g, rfl⟩; exact mem_sub2.1 g.2⟩
  isId P := decide (P = 0)
  isId_iff P := by rw [decide_eq_true_iff]; rfl
  add P Q := P + Q
  add_ι _ _ := rfl
  mul P c := c.val • P
  mul_ι a x := (smul2 x a).symm

end Verif.Bls381.Inst
