import Verif.Bls381.PairEval

/-!
# Properties of the pairing engine (crypto/core/curves/native/bls12381/pairings.go)
-/

set_option linter.unusedSectionVars false
set_option maxRecDepth 20000

namespace Verif.Bls381.Pair
open Verif.Native Verif.Native.Weier WeierstrassCurve WeierstrassCurve.Affine
open Verif.Bls381.Fp2 (K2 E2)
open Verif.Bls381.Fp12 (K12 E12 Rep12)
open Verif.Bls381.Gt (InGt)

/-! ## Specification -/

/-- Which of the three methods adds a pair. -/
inductive How
  | pair
  | invG1
  | invG2

/-- A call that adds a pair. -/
structure Call where
  how : How
  g1 : G1.Point
  g2 : G2.Point

/-- The call made on an engine. -/
def Call.run (e : Engine) (c : Call) : Engine :=
  match c.how with
  | .pair => addPair e c.g1 c.g2
  | .invG1 => addPairInvG1 e c.g1 c.g2
  | .invG2 => addPairInvG2 e c.g1 c.g2

/-- A new engine after the calls. -/
def after (l : List Call) : Engine := l.foldl Call.run []

/-- The points of a call, in the two groups: a point of the curve over the prime field, and a point of the subgroup of order `q` of the
twist. -/
structure Pts where
  how : How
  P : G1.PP
  Q : G2.PP

/-- The call is made with stored points of the given points. -/
structure Matches (c : Call) (p : Pts) : Prop where
  how : c.how = p.how
  g1 : G1.Rep c.g1 p.P
  g2 : G2.Rep c.g2 p.Q
  sub : Fq.q • p.Q = 0

/-- What a call contributes under a pairing `e`. -/
def Pts.value (e : G1.PP → G2.PP → K12) (p : Pts) : K12 :=
  match p.how with
  | .pair => e p.P p.Q
  | .invG1 => e (-p.P) p.Q
  | .invG2 => e p.P (-p.Q)

/-! ## Lemmas -/

/-- The contribution as a unit. -/
noncomputable def Pts.unit (p : Pts) : Ate.U12 :=
  match p.how with
  | .pair => ee p.P p.Q
  | .invG1 => ee (-p.P) p.Q
  | .invG2 => ee p.P (-p.Q)

theorem run_spec {e : Engine} {t : Ate.U12} (h : EngRep e t) {c : Call} {p : Pts} (m : Matches c p) : EngRep (c.run e) (t * p.unit) := by
  obtain ⟨how, g1, g2⟩ := c
  obtain ⟨how', P, Q⟩ := p
  obtain ⟨rfl, h1, h2, hs⟩ := m
  cases how
  · exact addPair_spec h h1 h2 hs
  · exact addPair_spec h (P3.neg_spec G1.FOk h1) h2 hs
  · exact addPair_spec h h1 (P3.neg_spec G2.FOk h2) (by rw [smul_neg]; exact neg_eq_zero.2 hs)

theorem foldl_spec {l : List Call} {ps : List Pts} (m : List.Forall₂ Matches l ps) :
    ∀ {e : Engine} {t : Ate.U12}, EngRep e t → EngRep (l.foldl Call.run e) (t * prodOf Pts.unit ps) := by
  induction m with
  | nil =>
    intro e t h
    rw [prodOf, mul_one]
    exact h
  | cons h _ ih =>
    intro e t he
    rw [List.foldl_cons, prodOf_cons]
    exact ih (run_spec he h)

theorem after_spec {l : List Call} {ps : List Pts} (m : List.Forall₂ Matches l ps) : Rep12 (result (after l)) (prodOf Pts.unit ps).val := by
  have := foldl_spec m eng_nil
  rw [one_mul] at this
  exact pairing_spec this

theorem ee_add (P P' : G1.PP) {Q : G2.PP} (h : Fq.q • Q = 0) : ee (P + P') Q = ee P Q * ee P' Q := by
  unfold ee
  rw [Ate.add_pr _ _ h, mul_inv]

theorem add_ee (P : G1.PP) {Q Q' : G2.PP} (h : Fq.q • Q = 0) (h' : Fq.q • Q' = 0) : ee P (Q + Q') = ee P Q * ee P Q' := by
  unfold ee
  rw [Ate.pr_add _ h h', mul_inv]

theorem ee_neg (P : G1.PP) {Q : G2.PP} (h : Fq.q • Q = 0) : ee (-P) Q = (ee P Q)⁻¹ := by
  unfold ee
  rw [Ate.neg_pr _ h]

theorem neg_ee (P : G1.PP) {Q : G2.PP} (h : Fq.q • Q = 0) : ee P (-Q) = (ee P Q)⁻¹ := by
  unfold ee
  rw [Ate.pr_neg _ h]

theorem ee_order (P : G1.PP) (Q : G2.PP) : ee P Q ^ Fq.q = 1 := by
  unfold ee
  rw [inv_pow, Ate.pr_order, inv_one]

theorem ee_nsmul (P : G1.PP) {Q : G2.PP} (h : Fq.q • Q = 0) (j : ℕ) : ee (j • P) Q = ee P Q ^ j := by
  unfold ee
  rw [Ate.nsmul_pr _ h, inv_pow]

theorem nsmul_ee (P : G1.PP) {Q : G2.PP} (h : Fq.q • Q = 0) (j : ℕ) : ee P (j • Q) = ee P Q ^ j := by
  unfold ee
  rw [Ate.pr_nsmul _ h, inv_pow]

theorem ee_mul (a b : ℕ) : ee (a • G1.G) (b • G2.G) = ee G1.G G2.G ^ (a * b) := by
  rw [ee_nsmul _ (by rw [nsmul_left_comm, G2.order_G, nsmul_zero]), nsmul_ee _ G2.order_G, ← pow_mul, Nat.mul_comm]

theorem gen_ne : ee G1.G G2.G ≠ 1 := by
  intro h
  have e := ee_gens
  rw [h, Ate.UG.val_one] at e
  obtain ⟨g, h1, -, h3⟩ := Gt.C93_generator
  exact h3 ((Fp12.rep12_value h1 Gt.generator_rep).trans e.symm)

theorem gen_pow {n : ℕ} : ee G1.G G2.G ^ n = 1 ↔ Fq.q ∣ n := by
  have ho : orderOf (ee G1.G G2.G) = Fq.q := by
    rcases (Nat.dvd_prime Fq.fact_q.out).1 (orderOf_dvd_of_pow_eq_one (ee_order G1.G G2.G)) with h | h
    · exact absurd (orderOf_eq_one_iff.1 h) gen_ne
    · exact h
  rw [← ho]
  exact (orderOf_dvd_iff_pow_eq_one (x := ee G1.G G2.G)).symm

theorem val_prod (f : Pts → Ate.U12) (ps : List Pts) : (prodOf f ps).val = (ps.map fun p => (f p).val).prod := by
  induction ps with
  | nil => rw [prodOf, Ate.UG.val_one, List.map_nil, List.prod_nil]
  | cons p ps ih => rw [prodOf, Ate.UG.val_mul, ih, List.map_cons, List.prod_cons]

theorem val_order {t : Ate.U12} (h : t ^ Fq.q = 1) : InGt t.val := by
  unfold InGt
  rw [← Ate.UG.val_pow, h, Ate.UG.val_one]

/-! ## Theorems -/

/-- **C98** there is a pairing of the curve with the subgroup of order `q` of the twist: it takes values in the target group, is linear in
both arguments, is one only if one of its points of order `q` is the neutral element, takes the generators to the generator of the target
group, and the engine computes its product: after any calls that add pairs `Result` is the product of the values, and `Check` tells
whether that product is one. -/
theorem C98_pairing : ∃ e : G1.PP → G2.PP → K12,
    (∀ P Q, Fq.q • Q = 0 → InGt (e P Q)) ∧
    (∀ P P' Q, Fq.q • Q = 0 → e (P + P') Q = e P Q * e P' Q) ∧
    (∀ P Q Q', Fq.q • Q = 0 → Fq.q • Q' = 0 → e P (Q + Q') = e P Q * e P Q') ∧
    (∀ P Q, Fq.q • P = 0 → Fq.q • Q = 0 → (e P Q = 1 ↔ P = 0 ∨ Q = 0)) ∧
    Rep12 Gt.generator (e G1.G G2.G) ∧
    (∀ (l : List Call) (ps : List Pts), List.Forall₂ Matches l ps →
      Rep12 (result (after l)) (ps.map (Pts.value e)).prod ∧ (check (after l) = true ↔ (ps.map (Pts.value e)).prod = 1)) := by
  refine ⟨fun P Q => (ee P Q).val, ?_, ?_, ?_, ?_, ?_, ?_⟩
  · intro P Q _
    exact val_order (ee_order P Q)
  · intro P P' Q h
    dsimp only
    rw [ee_add _ _ h, Ate.UG.val_mul]
  · intro P Q Q' h h'
    dsimp only
    rw [add_ee _ h h', Ate.UG.val_mul]
  · intro P Q hP hQ
    obtain ⟨a, ha, rfl⟩ := G1.torsion hP
    obtain ⟨b, hb, rfl⟩ := G2.torsion hQ
    have e1 : (ee (a • G1.G) (b • G2.G)).val = 1 ↔ ee (a • G1.G) (b • G2.G) = 1 :=
      ⟨fun h => Ate.UG.ext (h.trans Ate.UG.val_one.symm), fun h => by rw [h, Ate.UG.val_one]⟩
    have z1 : a • G1.G = 0 ↔ Fq.q ∣ a := by rw [← G1.addOrder_G]; exact (addOrderOf_dvd_iff_nsmul_eq_zero).symm
    have z2 : b • G2.G = 0 ↔ Fq.q ∣ b := by rw [← G2.addOrder_G]; exact (addOrderOf_dvd_iff_nsmul_eq_zero).symm
    rw [e1, ee_mul, gen_pow, z1, z2]
    exact (Nat.Prime.dvd_mul Fq.fact_q.out)
  · dsimp only
    rw [ee_gens]
    exact Gt.generator_rep
  · intro l ps m
    have hv : ps.map (Pts.value fun P Q => (ee P Q).val) = ps.map fun p => p.unit.val := by
      refine congrArg (fun f => ps.map f) ?_
      funext p
      obtain ⟨how, P, Q⟩ := p
      cases how <;> rfl
    have h := after_spec m
    have ho : InGt (prodOf Pts.unit ps).val := by
      refine val_order ?_
      refine prodOf_pow ?_ ps
      intro p
      obtain ⟨how, P, Q⟩ := p
      cases how <;> exact ee_order _ _
    rw [hv, ← val_prod]
    refine ⟨h, ?_⟩
    obtain ⟨-, -, -, -, -, -, -, -, -, h1⟩ := Gt.C93_group h h ho ho
    rw [← h1]
    unfold check
    exact decide_eq_true_iff

/-- Discrete logarithms of the points of a call. -/
structure Logs where
  how : How
  a : ℕ
  b : ℕ

/-- The points with these logarithms. -/
def Logs.pts (x : Logs) : Pts := ⟨x.how, x.a • G1.G, x.b • G2.G⟩

/-- The exponent a call contributes: the product of the logarithms, negated by either of the two inverting methods. -/
def Logs.term (x : Logs) : ZMod Fq.q :=
  match x.how with
  | .pair => x.a * x.b
  | .invG1 => -(x.a * x.b)
  | .invG2 => -(x.a * x.b)

theorem pow_zmod {U : Type} [Group U] {g : U} {q : ℕ} (h : g ^ q = 1) {m n : ℕ} (e : (m : ZMod q) = n) : g ^ m = g ^ n := by
  rw [ZMod.natCast_eq_natCast_iff] at e
  exact pow_eq_pow_iff_modEq.2 (Nat.ModEq.of_dvd (orderOf_dvd_of_pow_eq_one h) e)

theorem inv_zmod {U : Type} [CommGroup U] {g : U} {q : ℕ} (h : g ^ q = 1) {m n : ℕ} (e : (n : ZMod q) = -m) : (g ^ m)⁻¹ = g ^ n := by
  refine inv_eq_of_mul_eq_one_left ?_
  rw [← pow_add]
  have : ((n + m : ℕ) : ZMod q) = ((0 : ℕ) : ZMod q) := by rw [Nat.cast_add, e, neg_add_cancel, Nat.cast_zero]
  rw [pow_zmod h this, pow_zero]

theorem sub2 (b : ℕ) : Fq.q • b • G2.G = 0 := by rw [nsmul_left_comm, G2.order_G, nsmul_zero]

theorem unit_term (x : Logs) : x.pts.unit = ee G1.G G2.G ^ x.term.val := by
  have hc : ∀ z : ZMod Fq.q, ((z.val : ℕ) : ZMod Fq.q) = z := fun z => ZMod.natCast_zmod_val z
  have ho := ee_order G1.G G2.G
  obtain ⟨how, a, b⟩ := x
  cases how
  · show ee (a • G1.G) (b • G2.G) = _
    rw [ee_mul]
    refine pow_zmod ho ?_
    rw [hc, Nat.cast_mul]
    rfl
  · show ee (-(a • G1.G)) (b • G2.G) = _
    rw [ee_neg _ (sub2 b), ee_mul]
    refine inv_zmod ho ?_
    rw [hc, Nat.cast_mul]
    rfl
  · show ee (a • G1.G) (-(b • G2.G)) = _
    rw [neg_ee _ (sub2 b), ee_mul]
    refine inv_zmod ho ?_
    rw [hc, Nat.cast_mul]
    rfl

theorem prod_logs (xs : List Logs) {n : ℕ} (hn : (n : ZMod Fq.q) = (xs.map Logs.term).sum) :
    prodOf Pts.unit (xs.map Logs.pts) = ee G1.G G2.G ^ n := by
  have ho := ee_order G1.G G2.G
  induction xs generalizing n with
  | nil =>
    rw [List.map_nil, prodOf]
    have : ((0 : ℕ) : ZMod Fq.q) = n := by rw [hn]; simp
    rw [← pow_zmod ho this, pow_zero]
  | cons x xs ih =>
    rw [List.map_cons, prodOf, unit_term, ih (ZMod.natCast_zmod_val _), ← pow_add]
    refine pow_zmod ho ?_
    rw [hn, Nat.cast_add, ZMod.natCast_zmod_val, ZMod.natCast_zmod_val, List.map_cons, List.sum_cons]

/-- **C98** in terms of discrete logarithms: after calls with the points `aᵢ` times the generator of the first group and `bᵢ` times that of
the second, in any stored form, `Result` is the generator of the target group to the power `Σ ± aᵢ bᵢ`, and `Check` is true exactly if
that sum is zero modulo the group order.  (Every point of order `q` of either curve has such a logarithm.) -/
theorem C98_result {l : List Call} {xs : List Logs} (m : List.Forall₂ Matches l (xs.map Logs.pts)) :
    (∃ g : K12, Rep12 Gt.generator g ∧ ∀ n : ℕ, (n : ZMod Fq.q) = (xs.map Logs.term).sum → Rep12 (result (after l)) (g ^ n)) ∧
    (check (after l) = true ↔ (xs.map Logs.term).sum = 0) := by
  have h := after_spec m
  constructor
  · refine ⟨Nat12.el12 Gt.gN, Gt.generator_rep, ?_⟩
    intro n hn
    rw [prod_logs xs hn, Ate.UG.val_pow, ee_gens] at h
    exact h
  · have e := prod_logs xs (ZMod.natCast_zmod_val (xs.map Logs.term).sum)
    rw [e] at h
    have ho : InGt (ee G1.G G2.G ^ (xs.map Logs.term).sum.val).val := by
      refine val_order ?_
      rw [← pow_mul, mul_comm, pow_mul, ee_order, one_pow]
    obtain ⟨-, -, -, -, -, -, -, -, -, h1⟩ := Gt.C93_group h h ho ho
    have h2 : check (after l) = true ↔ Gt.isOne (result (after l)) = 1 := by
      unfold check
      exact decide_eq_true_iff
    rw [h2, h1]
    have e1 : (ee G1.G G2.G ^ (xs.map Logs.term).sum.val).val = 1 ↔ ee G1.G G2.G ^ (xs.map Logs.term).sum.val = 1 :=
      ⟨fun h => Ate.UG.ext (h.trans Ate.UG.val_one.symm), fun h => by rw [h, Ate.UG.val_one]⟩
    rw [e1, gen_pow, ← ZMod.natCast_eq_zero_iff, ZMod.natCast_zmod_val]

theorem prodOf_perm {D U : Type} [CommGroup U] (f : D → U) {l m : List D} (h : l.Perm m) : prodOf f l = prodOf f m := by
  induction h with
  | nil => rfl
  | cons _ _ ih => rw [prodOf, prodOf, ih]
  | swap a b l => rw [prodOf, prodOf, prodOf, prodOf, mul_left_comm]
  | trans _ _ h1 h2 => rw [h1, h2]

/-- **C98** the result and the check depend only on the points, not on how they are stored nor on the order of the calls -/
theorem C98_order {l l' : List Call} {ps ps' : List Pts} (m : List.Forall₂ Matches l ps) (m' : List.Forall₂ Matches l' ps') (h : ps.Perm ps') :
    result (after l) = result (after l') ∧ check (after l) = check (after l') := by
  have h1 := after_spec m
  have h2 := after_spec m'
  rw [← prodOf_perm _ h] at h2
  have e := Fp12.rep12_unique h1 h2
  refine ⟨e, ?_⟩
  unfold check
  have e' : pairing (after l) = pairing (after l') := e
  rw [e']

/-- **C98** multiplying a point by a scalar has the same effect on either side, for every point of the curve and every point of the subgroup;
`AddPairInvG1` and `AddPairInvG2` have the same effect, and undo `AddPair` -/
theorem C98_bilinear {P : G1.PP} {Q : G2.PP} (hQ : Fq.q • Q = 0) (k : ℕ) {g1 g1k : G1.Point} {g2 g2k : G2.Point} (h1 : G1.Rep g1 P)
    (h1k : G1.Rep g1k (k • P)) (h2 : G2.Rep g2 Q) (h2k : G2.Rep g2k (k • Q)) {l : List Call} {ps : List Pts} (m : List.Forall₂ Matches l ps) :
    result (addPair (after l) g1k g2) = result (addPair (after l) g1 g2k) ∧
    result (addPairInvG1 (after l) g1 g2) = result (addPairInvG2 (after l) g1 g2) ∧
    result (addPairInvG1 (addPair (after l) g1 g2) g1 g2) = result (after l) := by
  have h0 := foldl_spec m eng_nil
  rw [one_mul] at h0
  have hk : Fq.q • k • Q = 0 := by rw [nsmul_left_comm, hQ, nsmul_zero]
  refine ⟨?_, ?_, ?_⟩
  · have a := pairing_spec (addPair_spec h0 h1k h2 hQ)
    have b := pairing_spec (addPair_spec h0 h1 h2k hk)
    rw [ee_nsmul _ hQ] at a
    rw [nsmul_ee _ hQ] at b
    exact Fp12.rep12_unique a b
  · have a := pairing_spec (addPair_spec h0 (P3.neg_spec G1.FOk h1) h2 hQ)
    have b := pairing_spec (addPair_spec h0 h1 (P3.neg_spec G2.FOk h2) (by rw [smul_neg]; exact neg_eq_zero.2 hQ))
    rw [ee_neg _ hQ] at a
    rw [neg_ee _ hQ] at b
    exact Fp12.rep12_unique a b
  · have a := pairing_spec (addPair_spec (addPair_spec h0 h1 h2 hQ) (P3.neg_spec G1.FOk h1) h2 hQ)
    have b := pairing_spec h0
    rw [ee_neg _ hQ, mul_assoc, mul_inv_cancel, mul_one] at a
    exact Fp12.rep12_unique a b

/-- **C98** a pair with the neutral element on either side is not added; an engine with no pairs, new or reset, has result one and passes
the check -/
theorem C98_empty (e : Engine) {g1 : G1.Point} {g2 : G2.Point} {P : G1.PP} {Q : G2.PP} (h1 : G1.Rep g1 P) (h2 : G2.Rep g2 Q) :
    (P = 0 ∨ Q = 0 → addPair e g1 g2 = e ∧ addPairInvG1 e g1 g2 = e ∧ addPairInvG2 e g1 g2 = e) ∧
    (P ≠ 0 → Q ≠ 0 → (addPair e g1 g2).length = e.length + 1) ∧
    reset e = [] ∧ result [] = Gt.one ∧ Rep12 Gt.one 1 ∧ check [] = true := by
  have key : ∀ {g1 : G1.Point} {g2 : G2.Point} {P : G1.PP} {Q : G2.PP}, G1.Rep g1 P → G2.Rep g2 Q → P = 0 ∨ Q = 0 → addPair e g1 g2 = e := by
    intro g1 g2 P Q h1 h2 h
    unfold addPair
    dsimp only
    refine if_neg ?_
    rcases h with h | h
    · have : P3.isIdentity G1.F (P3.toAffine G1.F g1) = 1 := by rw [(P3.toAffine_spec G1.FOk h1).1 h]; decide +kernel
      rw [this]
      exact or_one_ne _
    · have : P3.isIdentity G2.F (P3.toAffine G2.F g2) = 1 := by rw [(P3.toAffine_spec G2.FOk h2).1 h]; decide +kernel
      rw [this, UInt64.or_comm]
      exact or_one_ne _
  refine ⟨?_, ?_, rfl, rfl, Fp12.one_spec, by decide +kernel⟩
  · intro h
    refine ⟨key h1 h2 h, key (P3.neg_spec G1.FOk h1) h2 ?_, key h1 (P3.neg_spec G2.FOk h2) ?_⟩
    · rwa [neg_eq_zero]
    · rwa [neg_eq_zero]
  · intro n1 n2
    rcases P with _ | ⟨x, y, hn⟩
    · exact absurd rfl n1
    rcases Q with _ | ⟨x', y', hn'⟩
    · exact absurd rfl n2
    have e1 := P3.isIdentity_spec G1.FOk ((P3.toAffine_spec G1.FOk h1).2 x y hn rfl).2.2.2
    have e2 := P3.isIdentity_spec G2.FOk ((P3.toAffine_spec G2.FOk h2).2 x' y' hn' rfl).2.2.2
    rw [if_neg n1] at e1
    rw [if_neg n2] at e2
    unfold addPair
    dsimp only
    rw [if_pos (by rw [e1, e2]; decide), List.length_append]
    rfl

/-! ## The slots -/

theorem prepStep_len {E : Type} (O : FOps E) (q : P3 E) (st : PrepSt E) (x : UInt64) (h : st.found ≠ 0) :
    (prepStep O q st x).found = st.found ∧ (prepStep O q st x).cfs.length = st.cfs.length + if x = 1 then 2 else 1 := by
  unfold prepStep
  rw [if_neg h]
  dsimp only
  by_cases hx : x = 1
  · rw [if_pos hx, if_pos hx]
    exact ⟨rfl, by simp only [List.length_append, List.length_cons, List.length_nil]⟩
  · rw [if_neg hx, if_neg hx]
    exact ⟨rfl, by simp only [List.length_append, List.length_cons, List.length_nil]⟩

theorem stp_len (x : UInt64) (xs : List UInt64) (m : ℕ) : ∃ m', (stp (x :: xs) m).length = (stp xs m').length + if x = 1 then 2 else 1 := by
  rw [stp]
  by_cases hx : x = 1
  · exact ⟨2 * m + 1, by rw [if_pos hx, if_pos hx]; rfl⟩
  · exact ⟨2 * m, by rw [if_neg hx, if_neg hx]; rfl⟩

theorem prep_len {E : Type} (O : FOps E) (q : P3 E) (xs : List UInt64) : ∀ (m : ℕ) (st : PrepSt E), st.found ≠ 0 →
    (xs.foldl (prepStep O q) st).cfs.length + 1 = st.cfs.length + (stp xs m).length := by
  induction xs with
  | nil => intro m st _; rfl
  | cons x xs ih =>
    intro m st h
    obtain ⟨h1, h2⟩ := prepStep_len O q st x h
    obtain ⟨m', hm⟩ := stp_len x xs m
    rw [List.foldl_cons, ih m' _ (by rw [h1]; exact h), h2, hm]
    omega

theorem milStep_idx {F E G : Type} (M : MOps F E G) (ps : List (PairOf F E × Prepared E)) (st : MilSt G) (x : UInt64) :
    st.cIdx ≤ (milStep M ps st x).cIdx ∧ (st.found ≠ 0 → (milStep M ps st x).found = st.found ∧
      (milStep M ps st x).cIdx = st.cIdx + if x = 1 then 2 else 1) := by
  unfold milStep
  by_cases h : st.found = 0
  · rw [if_pos h]
    exact ⟨Nat.le_refl _, fun h' => absurd h h'⟩
  · rw [if_neg h]
    dsimp only
    by_cases hx : x = 1
    · rw [if_pos hx, if_pos hx]
      exact ⟨by dsimp only; omega, fun _ => ⟨rfl, rfl⟩⟩
    · rw [if_neg hx, if_neg hx]
      exact ⟨by dsimp only; omega, fun _ => ⟨rfl, rfl⟩⟩

theorem mil_idx {F E G : Type} (M : MOps F E G) (ps : List (PairOf F E × Prepared E)) (xs : List UInt64) : ∀ (m : ℕ) (st : MilSt G), st.found ≠ 0 →
    (xs.foldl (milStep M ps) st).cIdx + 1 = st.cIdx + (stp xs m).length := by
  induction xs with
  | nil => intro m st _; rfl
  | cons x xs ih =>
    intro m st h
    obtain ⟨h1, h2⟩ := (milStep_idx M ps st x).2 h
    obtain ⟨m', hm⟩ := stp_len x xs m
    rw [List.foldl_cons, ih m' _ (by rw [h1]; exact h), h2, hm]
    omega

theorem prepare_len {E : Type} (O : FOps E) (gen g2 : P3 E) : (prepare O gen g2).coefficients.length = 68 := by
  unfold prepare
  dsimp only
  generalize P3.isIdentity O g2 = i
  generalize P3.cmove O g2 gen i = q
  have e : prepStep O q (prepStep O q ⟨0, q, []⟩ 0) 1 = ⟨1, q, []⟩ := by
    unfold prepStep
    rw [if_pos rfl]
    dsimp only
    rw [if_pos (by decide)]
    rfl
  rw [bits_eq, List.foldl_cons, List.foldl_cons, e, List.length_append]
  have hf : (⟨1, q, []⟩ : PrepSt E).found ≠ 0 := by dsimp only; decide
  have h := prep_len O q tailBits 1 ⟨1, q, []⟩ hf
  rw [stp_length, List.length_nil, Nat.zero_add] at h
  exact h

theorem loop_idx {F E G : Type} (M : MOps F E G) (ps : List (PairOf F E × Prepared E)) (f : G) :
    (bits.foldl (milStep M ps) ⟨f, 0, 0⟩).cIdx = 67 := by
  have e : milStep M ps (milStep M ps ⟨f, 0, 0⟩ 0) 1 = ⟨f, 1, 0⟩ := by
    unfold milStep
    rw [if_pos rfl]
    dsimp only
    rw [if_pos (by decide)]
    rfl
  rw [bits_eq, List.foldl_cons, List.foldl_cons, e]
  have hf : (⟨f, 1, 0⟩ : MilSt G).found ≠ 0 := by dsimp only; decide
  have h := mil_idx M ps tailBits 1 ⟨f, 1, 0⟩ hf
  rw [stp_length] at h
  dsimp only at h
  omega

/-- **C98** the 68 slots of the stored coefficients are filled exactly, whatever the pairs are, valid points or not; the loop reads them in
order and reads the last one last: no index is out of range -/
theorem C98_slots (g2 : P3 E2) (ps : List (PairOf L6 E2 × Prepared E2)) (f : E12) :
    (prepare ops.fo ops.gen g2).coefficients.length = 68 ∧ (bits.foldl (milStep ops ps) ⟨f, 0, 0⟩).cIdx = 67 ∧
    ∀ (st : MilSt E12) x, st.cIdx ≤ (milStep ops ps st x).cIdx :=
  ⟨prepare_len _ _ _, loop_idx _ _ _, fun st x => (milStep_idx ops ps st x).1⟩

/-! ## What a check binds -/

theorem bind_generic {A B L : Type} [AddCommGroup A] [AddCommGroup B] [Field L] {q : ℕ} {e : A → B → L}
    (l1 : ∀ P P' Q, q • Q = 0 → e (P + P') Q = e P Q * e P' Q)
    (l2 : ∀ P Q Q', q • Q = 0 → q • Q' = 0 → e P (Q + Q') = e P Q * e P Q')
    (nd : ∀ P Q, q • P = 0 → q • Q = 0 → (e P Q = 1 ↔ P = 0 ∨ Q = 0)) {P P' : A} {Q Q' : B} (hP : q • P = 0) (hP' : q • P' = 0) (hQ : q • Q = 0)
    (hQ' : q • Q' = 0) : (Q ≠ 0 → (e P Q * e (-P') Q = 1 ↔ P = P')) ∧ (P ≠ 0 → (e P Q * e (-P) Q' = 1 ↔ Q = Q')) := by
  have inv1 : ∀ P Q, q • Q = 0 → e P Q * e (-P) Q = 1 := by
    intro P Q hQ
    have := l1 P (-P) Q hQ
    rw [add_neg_cancel] at this
    rw [← this, nd 0 Q (nsmul_zero _) hQ]
    exact Or.inl rfl
  have inv2 : ∀ P Q, q • Q = 0 → e P Q * e P (-Q) = 1 := by
    intro P Q hQ
    have := l2 P Q (-Q) hQ (by rw [smul_neg, hQ, neg_zero])
    rw [add_neg_cancel] at this
    have h0 : e P 0 = e P 0 * e P 0 := by
      have := l2 P 0 0 (nsmul_zero _) (nsmul_zero _)
      rwa [add_zero] at this
    have hne : e P 0 ≠ 0 := by
      intro hz
      have := inv1 P 0 (nsmul_zero _)
      rw [hz, zero_mul] at this
      exact zero_ne_one this
    rw [← this]
    exact (mul_eq_left₀ hne).1 h0.symm
  refine ⟨?_, ?_⟩
  · intro h0
    rw [← l1 _ _ _ hQ, nd _ _ (by rw [nsmul_add, smul_neg, hP, hP', neg_zero, add_zero]) hQ]
    constructor
    · rintro (h | h)
      · exact add_neg_eq_zero.1 h
      · exact absurd h h0
    · intro h
      exact Or.inl (add_neg_eq_zero.2 h)
  · intro h0
    have ei : e (-P) Q' = e P (-Q') := by
      have h1 := inv1 P Q' hQ'
      have h2 := inv2 P Q' hQ'
      have hne : e P Q' ≠ 0 := fun hz => by rw [hz, zero_mul] at h1; exact zero_ne_one h1
      exact mul_left_cancel₀ hne (h1.trans h2.symm)
    have hn : q • (-Q') = 0 := by rw [smul_neg, hQ', neg_zero]
    rw [ei, ← l2 _ _ _ hQ hn, nd _ _ hP (by rw [nsmul_add, hQ, hn, add_zero])]
    constructor
    · rintro (h | h)
      · exact absurd h h0
      · exact add_neg_eq_zero.1 h
    · intro h
      exact Or.inr (add_neg_eq_zero.2 h)

theorem map_two (e : G1.PP → G2.PP → K12) (a b : Pts) : (List.map (Pts.value e) [a, b]).prod = a.value e * b.value e := by
  rw [List.map_cons, List.map_cons, List.map_nil, List.prod_cons, List.prod_cons, List.prod_nil, mul_one]

/-- **C99** for points of order `q` a check binds: one pair passes only if one of its points is the neutral element, and the pairs `(P, Q)` and
`(P', Q')`, one of them inverted, pass with a common second point other than the neutral element only if `P = P'`, and with a common first
point other than the neutral element only if `Q = Q'` -/
theorem C99_binding {P P' : G1.PP} {Q Q' : G2.PP} (hP : Fq.q • P = 0) (hP' : Fq.q • P' = 0) (hQ : Fq.q • Q = 0) (hQ' : Fq.q • Q' = 0)
    {g1 g1' : G1.Point} {g2 g2' : G2.Point} (r1 : G1.Rep g1 P) (r1' : G1.Rep g1' P') (r2 : G2.Rep g2 Q) (r2' : G2.Rep g2' Q') :
    (check (addPair [] g1 g2) = true ↔ P = 0 ∨ Q = 0) ∧
    (Q ≠ 0 → (check (addPairInvG1 (addPair [] g1 g2) g1' g2) = true ↔ P = P')) ∧
    (P ≠ 0 → (check (addPairInvG1 (addPair [] g1 g2) g1 g2') = true ↔ Q = Q')) := by
  obtain ⟨e, -, l1, l2, nd, -, h⟩ := C98_pairing
  obtain ⟨b1, b2⟩ := bind_generic l1 l2 nd hP hP' hQ hQ'
  refine ⟨?_, ?_, ?_⟩
  · have := (h [⟨.pair, g1, g2⟩] [⟨.pair, P, Q⟩] (.cons ⟨rfl, r1, r2, hQ⟩ .nil)).2
    rw [List.map_cons, List.map_nil, List.prod_cons, List.prod_nil, mul_one] at this
    exact this.trans (nd P Q hP hQ)
  · intro h0
    have := (h [⟨.pair, g1, g2⟩, ⟨.invG1, g1', g2⟩] [⟨.pair, P, Q⟩, ⟨.invG1, P', Q⟩] (.cons ⟨rfl, r1, r2, hQ⟩ (.cons ⟨rfl, r1', r2, hQ⟩ .nil))).2
    rw [map_two] at this
    exact this.trans (b1 h0)
  · intro h0
    have := (h [⟨.pair, g1, g2⟩, ⟨.invG1, g1, g2'⟩] [⟨.pair, P, Q⟩, ⟨.invG1, P, Q'⟩] (.cons ⟨rfl, r1, r2, hQ⟩ (.cons ⟨rfl, r1, r2', hQ'⟩ .nil))).2
    rw [map_two] at this
    exact this.trans (b2 h0)

/-! ## Points outside the subgroup -/

theorem ee_cofactor {T : G1.PP} {c : ℕ} (hc : Nat.Coprime c Fq.q) (hT : c • T = 0) {Q : G2.PP} (hQ : Fq.q • Q = 0) : ee T Q = 1 := by
  refine Ate.pow_cancel hc ?_ (ee_order T Q)
  rw [← ee_nsmul _ hQ, hT]
  unfold ee
  rw [Ate.pr_left_zero, inv_one]

theorem p3_rep : G1.Rep ⟨Fp.zero, Fp.double Fp.one, Fp.one⟩ G1.p3 := by
  refine ⟨((0 : Nat) : ZMod Fp.p), ((2 : Nat) : ZMod Fp.p), 1, by rw [Nat.cast_zero]; exact Fp.zero_spec, ?_, Fp.one_spec,
    Or.inr ⟨one_ne_zero, _, _, _, rfl, (mul_one _).symm, (mul_one _).symm⟩, fun h => absurd h one_ne_zero⟩
  have := Fp.double_spec Fp.one_spec
  have e : (1 : ZMod Fp.p) + 1 = ((2 : Nat) : ZMod Fp.p) := by rw [Nat.cast_ofNat]; exact one_add_one_eq_two
  rw [e] at this
  exact this

/-- **C99** the engine does not check the subgroup, and a check does not bind the points of the first group: adding the point `(0, 2)`, of
order three, to the first point of a pair changes the point but neither the result nor the check; and the pair of that point with the
generator passes the check although neither is the neutral element -/
theorem C99_subgroup_violated : ∃ T : G1.PP, ∃ t : G1.Point, G1.Rep t T ∧ T ≠ 0 ∧ P3.isIdentity G1.F t = 0 ∧ P3.isIdentity G2.F G2.generator = 0 ∧
    check (addPair [] t G2.generator) = true ∧
    ∀ {l : List Call} {ps : List Pts} {P : G1.PP} {Q : G2.PP} {g1 g1' : G1.Point} {g2 : G2.Point}, List.Forall₂ Matches l ps → Fq.q • Q = 0 →
      G1.Rep g1 P → G1.Rep g1' (P + T) → G2.Rep g2 Q →
      P + T ≠ P ∧ result (addPair (after l) g1' g2) = result (addPair (after l) g1 g2) ∧
        check (addPair (after l) g1' g2) = check (addPair (after l) g1 g2) := by
  have h3 : Nat.Coprime 3 Fq.q := by decide +kernel
  refine ⟨G1.p3, ⟨Fp.zero, Fp.double Fp.one, Fp.one⟩, p3_rep, G1.mkPt_ne, ?_, by decide +kernel, ?_, ?_⟩
  · rw [P3.isIdentity_spec G1.FOk p3_rep]
    exact if_neg G1.mkPt_ne
  · have a := pairing_spec (addPair_spec eng_nil p3_rep G2.generator_rep G2.order_G)
    rw [ee_cofactor h3 G1.p3_order G2.order_G, mul_one, Ate.UG.val_one] at a
    have ho : InGt (1 : K12) := one_pow _
    obtain ⟨-, -, -, -, -, -, -, -, -, h1⟩ := Gt.C93_group a a ho ho
    unfold check
    exact decide_eq_true (h1.2 rfl)
  · intro l ps P Q g1 g1' g2 m hQ r1 r1' r2
    have h0 := foldl_spec m eng_nil
    rw [one_mul] at h0
    have a := pairing_spec (addPair_spec h0 r1' r2 hQ)
    have b := pairing_spec (addPair_spec h0 r1 r2 hQ)
    rw [ee_add _ _ hQ, ee_cofactor h3 G1.p3_order hQ, mul_one] at a
    have e := Fp12.rep12_unique a b
    have e' : pairing (addPair (after l) g1' g2) = pairing (addPair (after l) g1 g2) := e
    refine ⟨?_, e, ?_⟩
    · intro h
      exact G1.mkPt_ne (add_eq_left.1 h)
    · unfold check
      rw [e']

/-! ## Concrete cases -/

theorem gen_matches (how : How) : Matches ⟨how, G1.generator, G2.generator⟩ (Logs.pts ⟨how, 1, 1⟩) :=
  ⟨rfl, by show G1.Rep _ (1 • G1.G); rw [one_nsmul]; exact G1.generator_rep, by show G2.Rep _ (1 • G2.G); rw [one_nsmul]; exact G2.generator_rep,
    sub2 1⟩

/-- One pair of generators meets the hypotheses, and does not pass the check; with the inverted pair it does. -/
example : check (after [⟨.pair, G1.generator, G2.generator⟩]) = false ∧
    check (after [⟨.pair, G1.generator, G2.generator⟩, ⟨.invG2, G1.generator, G2.generator⟩]) = true := by
  have h1 := (C98_result (l := [⟨.pair, G1.generator, G2.generator⟩]) (xs := [⟨.pair, 1, 1⟩]) (.cons (gen_matches _) .nil)).2
  have h2 := (C98_result (l := [⟨.pair, G1.generator, G2.generator⟩, ⟨.invG2, G1.generator, G2.generator⟩]) (xs := [⟨.pair, 1, 1⟩, ⟨.invG2, 1, 1⟩])
    (.cons (gen_matches _) (.cons (gen_matches _) .nil))).2
  constructor
  · refine Bool.eq_false_iff.2 fun h => ?_
    have := h1.1 h
    simp [Logs.term] at this
  · refine h2.2 ?_
    simp [Logs.term]

/-- The result of one pair of generators is the stored generator of the target group. -/
example : result (after [⟨.pair, G1.generator, G2.generator⟩]) = Gt.generator := by
  obtain ⟨g, hg, h⟩ := (C98_result (l := [⟨.pair, G1.generator, G2.generator⟩]) (xs := [⟨.pair, 1, 1⟩]) (.cons (gen_matches _) .nil)).1
  have := h 1 (by simp [Logs.term])
  rw [pow_one] at this
  exact Fp12.rep12_unique this hg

end Verif.Bls381.Pair
