import Verif.Curves.PairCurve

/-! C105: proofs. -/

set_option linter.unusedSectionVars false
set_option maxRecDepth 20000

namespace Verif.Curves.PairCurve
open Verif Verif.Bytes Verif.Native Verif.Bls381
open Verif.Bls381.Fp12 (K12 E12 Rep12)
open Verif.Bls381.Gt (InGt)

/-! ## Lemmas -/

theorem collect_some {A B : Type} {f : A → Option B} {l : List A} {r : List B} :
    collect f l = some r ↔ l.map f = r.map some := by
  induction l generalizing r with
  | nil =>
    constructor
    · intro h; cases h; rfl
    · intro h
      cases r with
      | nil => rfl
      | cons _ _ => cases h
  | cons a l ih =>
    unfold collect
    cases hf : f a with
    | none =>
      constructor
      · intro h; cases h
      · intro h
        cases r with
        | nil => cases h
        | cons b r => rw [List.map_cons, List.map_cons, hf] at h; cases h
    | some b =>
      cases hc : collect f l with
      | none =>
        constructor
        · intro h; cases h
        · intro h
          cases r with
          | nil => cases h
          | cons b' r =>
            rw [List.map_cons, List.map_cons] at h
            rw [ih.2 (List.cons.inj h).2] at hc
            cases hc
      | some r' =>
        constructor
        · intro h
          cases h
          rw [List.map_cons, List.map_cons, hf, ih.1 hc]
        · intro h
          cases r with
          | nil => cases h
          | cons b' r =>
            rw [List.map_cons, List.map_cons, hf] at h
            obtain ⟨h1, h2⟩ := List.cons.inj h
            rw [ih.2 h2] at hc
            cases h1
            cases hc
            rfl

theorem collect_none {A B : Type} {f : A → Option B} {l : List A} : collect f l = none ↔ ∃ a ∈ l, f a = none := by
  induction l with
  | nil => constructor <;> intro h <;> [cases h; (obtain ⟨_, h, _⟩ := h; cases h)]
  | cons a l ih =>
    unfold collect
    cases hf : f a with
    | none => exact ⟨fun _ => ⟨a, List.mem_cons_self, hf⟩, fun _ => rfl⟩
    | some b =>
      dsimp only
      have : (∃ x ∈ a :: l, f x = none) ↔ ∃ x ∈ l, f x = none := by
        constructor
        · rintro ⟨x, hx, h⟩
          rcases List.mem_cons.1 hx with rfl | hx
          · rw [hf] at h; cases h
          · exact ⟨x, hx, h⟩
        · rintro ⟨x, hx, h⟩
          exact ⟨x, List.mem_cons_of_mem _ hx, h⟩
      rw [this, ← ih]
      cases collect f l <;> simp

/-- The points of a list of pairs, as arguments of `MultiPairing`. -/
def args : List (G1.Point × G2.Point) → List IPoint
  | [] => []
  | t :: l => .g1 t.1 :: .g2 t.2 :: args l

theorem asG1_some {a : IPoint} {p : G1.Point} (h : a.asG1 = some p) : a = .g1 p := by
  cases a with
  | g1 q => cases h; rfl
  | g2 q => cases h
  | other => cases h

theorem asG2_some {a : IPoint} {p : G2.Point} (h : a.asG2 = some p) : a = .g2 p := by
  cases a with
  | g2 q => cases h; rfl
  | g1 q => cases h
  | other => cases h

theorem mpLoop_args (l : List (G1.Point × G2.Point)) (e : Pair.Engine) :
    mpLoop true e (args l) = (true, l.foldl (fun e t => Pair.addPair e t.1 t.2) e) := by
  induction l generalizing e with
  | nil => rfl
  | cons t l ih =>
    show mpLoop true (Pair.addPair e t.1 t.2) (args l) = _
    rw [ih]
    rfl

theorem mpLoop_false (l : List IPoint) (e : Pair.Engine) : (mpLoop false e l).1 = false := by
  induction l using List.twoStepInduction generalizing e with
  | nil => rfl
  | singleton a => rfl
  | cons_cons a b l ih _ =>
    show (mpLoop _ _ l).1 = false
    exact ih _

theorem mpLoop_valid {l : List IPoint} {v : Bool} {e : Pair.Engine} (hl : l.length % 2 = 0) (h : (mpLoop v e l).1 = true) : ∃ t, l = args t := by
  induction l using List.twoStepInduction generalizing e v with
  | nil => exact ⟨[], rfl⟩
  | singleton a => cases hl
  | cons_cons a b l ih _ =>
    cases ha : a.asG1 with
    | none =>
      have : mpLoop v e (a :: b :: l) = mpLoop false e l := by
        conv_lhs => unfold mpLoop
        rw [ha]; simp
      rw [this, mpLoop_false] at h
      cases h
    | some p =>
      cases hb : b.asG2 with
      | none =>
        have : mpLoop v e (a :: b :: l) = mpLoop false e l := by
          conv_lhs => unfold mpLoop
          rw [ha, hb]; simp
        rw [this, mpLoop_false] at h
        cases h
      | some q =>
        have : ∃ e', mpLoop v e (a :: b :: l) = mpLoop v e' l := by
          conv =>
            arg 1
            ext e'
            lhs
            unfold mpLoop
          rw [ha, hb]
          simp only [Option.isSome_some, Bool.and_true]
          exact ⟨_, rfl⟩
        obtain ⟨e', he'⟩ := this
        rw [he'] at h
        obtain ⟨t, ht⟩ := ih (by rw [List.length_cons, List.length_cons] at hl; omega) h
        exact ⟨(p, q) :: t, by rw [asG1_some ha, asG2_some hb, ht]; rfl⟩

theorem args_length (l : List (G1.Point × G2.Point)) : (args l).length = 2 * l.length := by
  induction l with
  | nil => rfl
  | cons t l ih => unfold args; rw [List.length_cons, List.length_cons, ih, List.length_cons]; omega

theorem multiPairing_args (l : List (G1.Point × G2.Point)) :
    multiPairing (args l) = some (Pair.result (Pair.after (l.map fun t => ⟨.pair, t.1, t.2⟩))) := by
  unfold multiPairing
  rw [if_neg (by rw [args_length]; omega), mpLoop_args]
  unfold Pair.after
  rw [List.foldl_map]
  rfl

theorem the_pairing : ∃ e : G1.PP → G2.PP → K12, IsPairing e ∧ ∀ (l : List Pair.Call) (ps : List Pair.Pts), List.Forall₂ Pair.Matches l ps →
    Rep12 (Pair.result (Pair.after l)) (ps.map (Pair.Pts.value e)).prod := by
  obtain ⟨e, h1, h2, h3, h4, h5, h6⟩ := Pair.C98_pairing
  exact ⟨e, ⟨h1, h2, h3, h4, h5⟩, fun l ps m => (h6 l ps m).1⟩

/-! ## C105 -/

/-- **C105.** `Add`, `Sub` and `Mul` of the interface stay in the group of order `q`, follow its law, and give nil exactly if the argument
belongs to another group, another curve or is nil; `Equal` is equality of the points and false for other types. -/
theorem C105_group {a b : IPoint} {P Q : G1.PP} (ha : Is1 a P) (hb : Is1 b Q) {c d : IPoint} {R S : G2.PP} (hc : Is2 c R) (hd : Is2 d S)
    {s : L4} {k : ZMod Fq.q} (hs : Rep Fq.q s k) :
    (∃ r, add a b = some r ∧ Is1 r (P + Q)) ∧ (∃ r, sub a b = some r ∧ Is1 r (P - Q)) ∧ (∃ r, mul a (.bls s) = some r ∧ Is1 r (k.val • P)) ∧
    (equal a b = true ↔ P = Q) ∧
    (∃ r, add c d = some r ∧ Is2 r (R + S)) ∧ (∃ r, sub c d = some r ∧ Is2 r (R - S)) ∧ (∃ r, mul c (.bls s) = some r ∧ Is2 r (k.val • R)) ∧
    (equal c d = true ↔ R = S) ∧
    add a c = none ∧ add c a = none ∧ add a .other = none ∧ add c .other = none ∧ sub a c = none ∧ sub c a = none ∧ sub a .other = none ∧
    sub c .other = none ∧ mul a .other = none ∧ mul c .other = none ∧ equal a c = false ∧ equal c a = false := by
  cases ha with
  | @mk p P h1 q1 =>
  cases hb with
  | @mk p' Q h2 q2 =>
  cases hc with
  | @mk r R h3 q3 =>
  cases hd with
  | @mk r' S h4 q4 =>
    have g := G1.C94_group_law h1 h2
    have g' := G2.C96_group_law h3 h4
    refine ⟨⟨_, rfl, .mk g.1 ?_⟩, ⟨_, rfl, .mk g.2.1 ?_⟩, ⟨_, rfl, .mk (G1.C94_mul h1 hs).1 ?_⟩, ?_,
      ⟨_, rfl, .mk g'.1 ?_⟩, ⟨_, rfl, .mk g'.2.1 ?_⟩, ⟨_, rfl, .mk (G2.C96_mul h3 hs).1 ?_⟩, ?_,
      rfl, rfl, rfl, rfl, rfl, rfl, rfl, rfl, rfl, rfl, rfl, rfl⟩
    · rw [smul_add, q1, q2, add_zero]
    · rw [smul_sub, q1, q2, sub_zero]
    · rw [nsmul_left_comm, q1, nsmul_zero]
    · exact decide_eq_true_iff.trans g.2.2.2.2.2.2
    · rw [smul_add, q3, q4, add_zero]
    · rw [smul_sub, q3, q4, sub_zero]
    · rw [nsmul_left_comm, q3, nsmul_zero]
    · exact decide_eq_true_iff.trans g'.2.2.2.2.2.2

/-- **C105.** There is a pairing of the two groups that both `Pairing` methods and `MultiPairing` compute: `Pairing` gives the same element
whichever group is the receiver, and nil for two points of one group; `MultiPairing` gives the product over the pairs. -/
theorem C105_pairing : ∃ e : G1.PP → G2.PP → K12, IsPairing e ∧
    (∀ {a b : IPoint} {P : G1.PP} {Q : G2.PP}, Is1 a P → Is2 b Q →
      ∃ t, pairing a b = some t ∧ pairing b a = some t ∧ Rep12 t (e P Q) ∧ pairing a a = none ∧ pairing b b = none ∧
        pairing a .other = none ∧ pairing b .other = none) ∧
    (∀ l : List (IPoint × IPoint × G1.PP × G2.PP), (∀ t ∈ l, Is1 t.1 t.2.2.1 ∧ Is2 t.2.1 t.2.2.2) →
      ∃ r, multiPairing (l.flatMap fun t => [t.1, t.2.1]) = some r ∧ Rep12 r ((l.map fun t => e t.2.2.1 t.2.2.2).prod)) := by
  obtain ⟨e, he, hl⟩ := the_pairing
  refine ⟨e, he, ?_, ?_⟩
  · intro a b P Q ha hb
    cases ha with
    | @mk p P h1 q1 =>
    cases hb with
    | @mk q Q h2 q2 =>
      refine ⟨_, rfl, rfl, ?_, rfl, rfl, rfl, rfl⟩
      have := hl [⟨.pair, p, q⟩] [⟨.pair, P, Q⟩] (.cons ⟨rfl, h1, h2, q2⟩ .nil)
      rw [List.map_cons, List.map_nil, List.prod_cons, List.prod_nil, mul_one] at this
      exact this
  · intro l h
    have key : ∃ m : List (G1.Point × G2.Point), (l.flatMap fun t => [t.1, t.2.1]) = args m ∧
        List.Forall₂ Pair.Matches (m.map fun t => ⟨.pair, t.1, t.2⟩) (l.map fun t => ⟨.pair, t.2.2.1, t.2.2.2⟩) := by
      induction l with
      | nil => exact ⟨[], rfl, .nil⟩
      | cons t l ih =>
        obtain ⟨m, h1, h2⟩ := ih fun x hx => h x (List.mem_cons_of_mem _ hx)
        obtain ⟨a, b, P, Q⟩ := t
        obtain ⟨ha, hb⟩ := h _ List.mem_cons_self
        dsimp only at ha hb
        cases ha with
        | @mk p P r1 q1 =>
        cases hb with
        | @mk q Q r2 q2 =>
          refine ⟨(p, q) :: m, ?_, .cons ⟨rfl, r1, r2, q2⟩ h2⟩
          rw [List.flatMap_cons, h1]
          rfl
    obtain ⟨m, h1, h2⟩ := key
    rw [h1, multiPairing_args]
    refine ⟨_, rfl, ?_⟩
    have := hl _ _ h2
    rw [List.map_map] at this
    exact this

/-- **C105.** `MultiPairing` gives nil exactly if the arguments are not pairs of a point of the first and a point of the second group: an odd
number, a wrong order, another curve or nil anywhere; without arguments the result is one. -/
theorem C105_multi_nil (points : List IPoint) :
    (multiPairing points = none ↔ ¬ ∃ l : List (G1.Point × G2.Point), points = l.flatMap fun t => [.g1 t.1, .g2 t.2]) ∧
    multiPairing [] = some Gt.one ∧ Rep12 Gt.one 1 := by
  have ha : ∀ l : List (G1.Point × G2.Point), (l.flatMap fun t => [IPoint.g1 t.1, .g2 t.2]) = args l := by
    intro l
    induction l with
    | nil => rfl
    | cons t l ih => rw [List.flatMap_cons, ih]; rfl
  refine ⟨⟨?_, ?_⟩, rfl, Fp12.one_spec⟩
  · rintro h ⟨l, rfl⟩
    rw [ha, multiPairing_args] at h
    cases h
  · intro h
    by_contra hc
    refine h ?_
    unfold multiPairing at hc
    by_cases hl : points.length % 2 = 0
    · rw [if_neg (not_not.2 hl)] at hc
      dsimp only at hc
      cases hv : (mpLoop true [] points).1 with
      | false => rw [hv] at hc; exact absurd rfl hc
      | true =>
        obtain ⟨t, ht⟩ := mpLoop_valid hl hv
        exact ⟨t, by rw [ha]; exact ht⟩
    · rw [if_pos hl] at hc
      exact absurd rfl hc

theorem head_inf5 (h s : UInt8) (hh : h &&& 0x1F = h) (hs : s = 0 ∨ s = 1) : ¬ (P3.hc h 1 s >>> 5) &&& 1 = 1 := by
  rcases hs with rfl | rfl
  · exact Pallas.u8_all (P := fun h => h &&& 0x1F = h → ¬ (P3.hc h 1 0 >>> 5) &&& 1 = 1) (by decide +kernel) h hh
  · exact Pallas.u8_all (P := fun h => h &&& 0x1F = h → ¬ (P3.hc h 1 1 >>> 5) &&& 1 = 1) (by decide +kernel) h hh

theorem neg_generic {E K : Type} [_root_.Field K] [DecidableEq K] {C : COps E} {R : E → K → Prop} {b : K} {L : K → Prop} [DecidablePred L]
    (F : COK C R b L) {p : P3 E} {P : Weier.Pt (0 : K) b} (hp : P3.HRep R b p P) :
    ((P3.toCompressed C p).headD 0 >>> 5) &&& 1 = 1 ↔ ∃ x y n, P = .some x y n ∧ L y := by
  cases P with
  | zero =>
    constructor
    · intro h
      exfalso
      obtain ⟨h0, t, hc, hh⟩ := P3.enc_zero F
      have hi := P3.isIdentity_spec F.toFOK hp
      rw [if_pos (show (WeierstrassCurve.Affine.Point.zero : Weier.Pt (0 : K) b) = 0 from rfl)] at hi
      have ha := (P3.toAffine_spec F.toFOK hp).1 rfl
      unfold P3.toCompressed at h
      dsimp only at h
      rw [hi, ha] at h
      dsimp only at h
      rw [hc, F.lex F.zero] at h
      refine head_inf5 h0 (if L 0 then (1 : UInt64) else 0).toUInt8 hh (by split <;> [exact Or.inr rfl; exact Or.inl rfl]) ?_
      exact h
    · rintro ⟨x, y, n, h, -⟩
      cases h
  | some x y n =>
    obtain ⟨a, c, ha, hc⟩ := P3.coord_exists F hp
    obtain ⟨h, t, -, hh, he⟩ := P3.toCompressed_some F hp ha
    rw [he, List.headD_cons]
    have := (P3.head_compressed h hh (if L y then 1 else 0) (by split <;> [exact Or.inr rfl; exact Or.inl rfl])).2.2.1
    rw [this]
    constructor
    · intro hL
      by_cases hl : L y
      · exact ⟨x, y, n, rfl, hl⟩
      · rw [if_neg hl] at hL; exact absurd hL (by decide)
    · rintro ⟨x', y', n', e, hl⟩
      obtain ⟨-, rfl⟩ := (WeierstrassCurve.Affine.Point.some.injEq ..).mp e
      exact if_pos hl

theorem y_ne {K : Type} [_root_.Field K] [DecidableEq K] {b : K} {q : Nat} (hq : q % 2 = 1) {x y : K} {n}
    (h : q • (.some x y n : Weier.Pt (0 : K) b) = 0) : y ≠ 0 := by
  rintro rfl
  have hn : -(.some x 0 n : Weier.Pt (0 : K) b) = .some x 0 n := by
    rw [WeierstrassCurve.Affine.Point.neg_some]
    congr 1
    simp [WeierstrassCurve.Affine.negY]
  have h2 : 2 • (.some x 0 n : Weier.Pt (0 : K) b) = 0 := by
    rw [two_nsmul]
    nth_rewrite 1 [← hn]
    exact neg_add_cancel _
  obtain ⟨m, rfl⟩ : ∃ m, q = 2 * m + 1 := ⟨q / 2, by omega⟩
  rw [add_nsmul, mul_nsmul, h2, nsmul_zero, one_nsmul, zero_add] at h
  exact WeierstrassCurve.Affine.Point.some_ne_zero _ h

theorem neg_flip {E K : Type} [_root_.Field K] [DecidableEq K] {C : COps E} {R : E → K → Prop} {b : K} {L : K → Prop} [DecidablePred L]
    (F : COK C R b L) {q : Nat} (hq : q % 2 = 1) {P : Weier.Pt (0 : K) b} (h : q • P = 0) (h0 : P ≠ 0) :
    (∃ x y n, -P = .some x y n ∧ L y) ↔ ¬ ∃ x y n, P = .some x y n ∧ L y := by
  cases P with
  | zero => exact absurd rfl h0
  | some x y n =>
    have hy := y_ne hq h
    have e : ∀ x' y' n', (WeierstrassCurve.Affine.Point.some x' y' n' : Weier.Pt (0 : K) b) = -.some x y n → y' = -y := by
      intro x' y' n' h
      rw [WeierstrassCurve.Affine.Point.neg_some] at h
      obtain ⟨-, h⟩ := (WeierstrassCurve.Affine.Point.some.injEq ..).mp h
      rw [h]
      simp [WeierstrassCurve.Affine.negY]
    constructor
    · rintro ⟨x', y', n', h1, h2⟩ ⟨x'', y'', n'', h3, h4⟩
      obtain ⟨-, rfl⟩ := (WeierstrassCurve.Affine.Point.some.injEq ..).mp h3
      rw [e _ _ _ h1.symm] at h2
      exact (F.sign hy).1 h2 h4
    · intro hc
      have hL : ¬ L y := fun h => hc ⟨x, y, n, rfl, h⟩
      have := WeierstrassCurve.Affine.Point.neg_some n
      refine ⟨_, _, _, this, ?_⟩
      rw [e _ _ _ this.symm]
      exact (F.sign hy).2 hL

theorem sum_order {A : Type} [AddCommGroup A] {q : Nat} {l : List A} (h : ∀ t ∈ l, q • t = 0) : q • l.sum = 0 := by
  induction l with
  | nil => exact nsmul_zero _
  | cons a l ih =>
    rw [List.sum_cons, nsmul_add, h a List.mem_cons_self, ih fun t ht => h t (List.mem_cons_of_mem _ ht), add_zero]

/-- **C105.** `IsNegative` depends on the point only and tells a point from its opposite: it is the comparison of the ordinate with its
negative (in the second group of the imaginary parts, then of the real parts); of two opposite points other than the neutral element exactly
one is negative, and the neutral element is not. -/
theorem C105_isNegative {a a' : IPoint} {P : G1.PP} (ha : Is1 a P) (ha' : Is1 a' (-P)) {c c' : IPoint} {R : G2.PP} (hc : Is2 c R) (hc' : Is2 c' (-R)) :
    (isNegative a = true ↔ ∃ x y n, P = .some x y n ∧ (-y).val < y.val) ∧
    (isNegative c = true ↔ ∃ x y n, R = .some x y n ∧ ((-y.im).val < y.im.val ∨ (y.im = 0 ∧ (-y.re).val < y.re.val))) ∧
    (P ≠ 0 → (isNegative a' = true ↔ isNegative a = false)) ∧ (R ≠ 0 → (isNegative c' = true ↔ isNegative c = false)) := by
  cases ha with
  | @mk p P h1 q1 =>
  cases ha' with
  | @mk p' P' h2 q2 =>
  cases hc with
  | @mk r R h3 q3 =>
  cases hc' with
  | @mk r' R' h4 q4 =>
    have e1 : isNegative (.g1 p) = true ↔ _ := decide_eq_true_iff.trans (neg_generic G1.COk h1)
    have e2 : isNegative (.g1 p') = true ↔ _ := decide_eq_true_iff.trans (neg_generic G1.COk h2)
    have e3 : isNegative (.g2 r) = true ↔ _ := decide_eq_true_iff.trans (neg_generic G2.COk h3)
    have e4 : isNegative (.g2 r') = true ↔ _ := decide_eq_true_iff.trans (neg_generic G2.COk h4)
    refine ⟨e1, e3, ?_, ?_⟩
    · intro h0
      rw [e2, Bool.eq_false_iff, Ne, e1]
      exact neg_flip G1.COk (by decide +kernel) q1 h0
    · intro h0
      rw [e4, Bool.eq_false_iff, Ne, e3]
      exact neg_flip G2.COk (by decide +kernel) q3 h0

/-- **C105.** `SumOfProducts` of the first group is the sum of the products; it is nil exactly if one of the values has another type or the
lengths differ. -/
theorem C105_sum_of_products1 (l : List (IPoint × G1.PP × L4 × ZMod Fq.q)) (hl : ∀ t ∈ l, Is1 t.1 t.2.1 ∧ Rep Fq.q t.2.2.1 t.2.2.2) :
    (∃ r, sumOfProducts1 (l.map (·.1)) (l.map fun t => .bls t.2.2.1) = some r ∧ Is1 r ((l.map fun t => t.2.2.2.val • t.2.1).sum)) ∧
    ∀ points scalars, sumOfProducts1 points scalars = none ↔
      (∃ p ∈ points, ∀ v, p ≠ .g1 v) ∨ (∃ s ∈ scalars, s = .other) ∨ points.length ≠ scalars.length := by
  constructor
  · obtain ⟨m, h1, h2, h3⟩ : ∃ m : List (G1.Point × G1.PP × L4 × ZMod Fq.q), (l.map fun t => t.1.asG1) = (m.map (·.1)).map some ∧
        (∀ t ∈ m, G1.Rep t.1 t.2.1 ∧ Rep Fq.q t.2.2.1 t.2.2.2) ∧ m.map (·.2) = l.map (·.2) := by
      induction l with
      | nil => exact ⟨[], rfl, (fun _ h => by cases h), rfl⟩
      | cons t l ih =>
        obtain ⟨m, h1, h2, h3⟩ := ih fun x hx => hl x (List.mem_cons_of_mem _ hx)
        obtain ⟨a, P, s, k⟩ := t
        obtain ⟨ha, hs⟩ := hl _ List.mem_cons_self
        dsimp only at ha hs
        cases ha with
        | @mk p P r1 q1 =>
          refine ⟨(p, P, s, k) :: m, ?_, ?_, ?_⟩
          · rw [List.map_cons, h1]; rfl
          · intro t ht
            rcases List.mem_cons.1 ht with rfl | ht
            · exact ⟨r1, hs⟩
            · exact h2 t ht
          · rw [List.map_cons, h3, List.map_cons]
    have e1 : collect IPoint.asG1 (l.map (·.1)) = some (m.map (·.1)) := collect_some.2 (by rw [List.map_map]; exact h1)
    have e2 : collect IScalar.asBls (l.map fun t => .bls t.2.2.1) = some (m.map (·.2.2.1)) := collect_some.2 (by
      have := congrArg (List.map fun u : G1.PP × L4 × ZMod Fq.q => some u.2.1) h3
      rw [List.map_map, List.map_map] at this
      rw [List.map_map, List.map_map]
      exact this.symm)
    obtain ⟨r, h4, h5⟩ := (G1.C94_sum_of_products m h2).1
    have e3 : (m.map fun t => t.2.2.2.val • t.2.1) = l.map fun t => t.2.2.2.val • t.2.1 := by
      have := congrArg (List.map fun u : G1.PP × L4 × ZMod Fq.q => u.2.2.val • u.1) h3
      rw [List.map_map, List.map_map] at this
      exact this
    refine ⟨.g1 r, ?_, .mk (by rw [← e3]; exact h5) ?_⟩
    · unfold sumOfProducts1
      rw [e1]
      dsimp only
      rw [e2]
      dsimp only
      rw [List.map_map]
      have : P3.sumOfProducts G1.F (m.map (·.1)) (m.map ((fun s => Field.bytes Fq.impl.A s) ∘ (·.2.2.1))) = some r := h4
      rw [this]
    · refine sum_order (fun t ht => ?_)
      obtain ⟨u, hu, rfl⟩ := List.mem_map.1 ht
      have hq : Fq.q • u.2.1 = 0 := by
        have := (hl u hu).1
        generalize u.1 = a at this
        cases this with
        | mk _ q => exact q
      rw [nsmul_left_comm, hq, nsmul_zero]
  · intro points scalars
    unfold sumOfProducts1
    have t1 : (∃ p ∈ points, ∀ v, p ≠ IPoint.g1 v) ↔ ∃ p ∈ points, p.asG1 = none := by
      refine exists_congr fun p => and_congr_right fun _ => ?_
      cases p with
      | g1 v => exact ⟨fun h => absurd rfl (h v), fun h => by cases h⟩
      | g2 v => exact ⟨fun _ => rfl, fun _ _ h => by cases h⟩
      | other => exact ⟨fun _ => rfl, fun _ _ h => by cases h⟩
    have t2 : (∃ s ∈ scalars, s = IScalar.other) ↔ ∃ s ∈ scalars, s.asBls = none := by
      refine exists_congr fun p => and_congr_right fun _ => ?_
      cases p with
      | bls v => exact ⟨(fun h => by cases h), (fun h => by cases h)⟩
      | other => exact ⟨fun _ => rfl, fun _ => rfl⟩
    rw [t1, t2, ← collect_none, ← collect_none]
    cases h1 : collect IPoint.asG1 points with
    | none => exact ⟨fun _ => Or.inl rfl, fun _ => rfl⟩
    | some ps =>
      cases h2 : collect IScalar.asBls scalars with
      | none => exact ⟨fun _ => Or.inr (Or.inl rfl), fun _ => rfl⟩
      | some ss =>
        have l1 := congrArg List.length (collect_some.1 h1)
        have l2 := congrArg List.length (collect_some.1 h2)
        rw [List.length_map, List.length_map] at l1 l2
        have hn := (G1.C94_sum_of_products [] (fun _ h => by cases h)).2 ps (ss.map fun s => Field.bytes Fq.impl.A s)
        rw [List.length_map, ← l1, ← l2] at hn
        dsimp only
        cases h3 : P3.sumOfProducts G1.F ps (ss.map fun s => Field.bytes Fq.impl.A s) with
        | none => exact ⟨fun _ => Or.inr (Or.inr (hn.1 h3)), fun _ => rfl⟩
        | some r =>
          refine ⟨(fun h => by cases h), ?_⟩
          rintro (h | h | h)
          · cases h
          · cases h
          · rw [hn.2 h] at h3; cases h3

/-- **C105.** `SumOfProducts` of the second group is the sum of the products; it is nil exactly if one of the values has another type or the
lengths differ. -/
theorem C105_sum_of_products2 (l : List (IPoint × G2.PP × L4 × ZMod Fq.q)) (hl : ∀ t ∈ l, Is2 t.1 t.2.1 ∧ Rep Fq.q t.2.2.1 t.2.2.2) :
    (∃ r, sumOfProducts2 (l.map (·.1)) (l.map fun t => .bls t.2.2.1) = some r ∧ Is2 r ((l.map fun t => t.2.2.2.val • t.2.1).sum)) ∧
    ∀ points scalars, sumOfProducts2 points scalars = none ↔
      (∃ p ∈ points, ∀ v, p ≠ .g2 v) ∨ (∃ s ∈ scalars, s = .other) ∨ points.length ≠ scalars.length := by
  constructor
  · obtain ⟨m, h1, h2, h3⟩ : ∃ m : List (G2.Point × G2.PP × L4 × ZMod Fq.q), (l.map fun t => t.1.asG2) = (m.map (·.1)).map some ∧
        (∀ t ∈ m, G2.Rep t.1 t.2.1 ∧ Rep Fq.q t.2.2.1 t.2.2.2) ∧ m.map (·.2) = l.map (·.2) := by
      induction l with
      | nil => exact ⟨[], rfl, (fun _ h => by cases h), rfl⟩
      | cons t l ih =>
        obtain ⟨m, h1, h2, h3⟩ := ih fun x hx => hl x (List.mem_cons_of_mem _ hx)
        obtain ⟨a, P, s, k⟩ := t
        obtain ⟨ha, hs⟩ := hl _ List.mem_cons_self
        dsimp only at ha hs
        cases ha with
        | @mk p P r1 q1 =>
          refine ⟨(p, P, s, k) :: m, ?_, ?_, ?_⟩
          · rw [List.map_cons, h1]; rfl
          · intro t ht
            rcases List.mem_cons.1 ht with rfl | ht
            · exact ⟨r1, hs⟩
            · exact h2 t ht
          · rw [List.map_cons, h3, List.map_cons]
    have e1 : collect IPoint.asG2 (l.map (·.1)) = some (m.map (·.1)) := collect_some.2 (by rw [List.map_map]; exact h1)
    have e2 : collect IScalar.asBls (l.map fun t => .bls t.2.2.1) = some (m.map (·.2.2.1)) := collect_some.2 (by
      have := congrArg (List.map fun u : G2.PP × L4 × ZMod Fq.q => some u.2.1) h3
      rw [List.map_map, List.map_map] at this
      rw [List.map_map, List.map_map]
      exact this.symm)
    obtain ⟨r, h4, h5⟩ := (G2.C96_sum_of_products m h2).1
    have e3 : (m.map fun t => t.2.2.2.val • t.2.1) = l.map fun t => t.2.2.2.val • t.2.1 := by
      have := congrArg (List.map fun u : G2.PP × L4 × ZMod Fq.q => u.2.2.val • u.1) h3
      rw [List.map_map, List.map_map] at this
      exact this
    refine ⟨.g2 r, ?_, .mk (by rw [← e3]; exact h5) ?_⟩
    · unfold sumOfProducts2
      rw [e1]
      dsimp only
      rw [e2]
      dsimp only
      rw [List.map_map]
      have : P3.sumOfProducts G2.F (m.map (·.1)) (m.map ((fun s => Field.bytes Fq.impl.A s) ∘ (·.2.2.1))) = some r := h4
      rw [this]
    · refine sum_order (fun t ht => ?_)
      obtain ⟨u, hu, rfl⟩ := List.mem_map.1 ht
      have hq : Fq.q • u.2.1 = 0 := by
        have := (hl u hu).1
        generalize u.1 = a at this
        cases this with
        | mk _ q => exact q
      rw [nsmul_left_comm, hq, nsmul_zero]
  · intro points scalars
    unfold sumOfProducts2
    have t1 : (∃ p ∈ points, ∀ v, p ≠ IPoint.g2 v) ↔ ∃ p ∈ points, p.asG2 = none := by
      refine exists_congr fun p => and_congr_right fun _ => ?_
      cases p with
      | g2 v => exact ⟨fun h => absurd rfl (h v), fun h => by cases h⟩
      | g1 v => exact ⟨fun _ => rfl, fun _ _ h => by cases h⟩
      | other => exact ⟨fun _ => rfl, fun _ _ h => by cases h⟩
    have t2 : (∃ s ∈ scalars, s = IScalar.other) ↔ ∃ s ∈ scalars, s.asBls = none := by
      refine exists_congr fun p => and_congr_right fun _ => ?_
      cases p with
      | bls v => exact ⟨(fun h => by cases h), (fun h => by cases h)⟩
      | other => exact ⟨fun _ => rfl, fun _ => rfl⟩
    rw [t1, t2, ← collect_none, ← collect_none]
    cases h1 : collect IPoint.asG2 points with
    | none => exact ⟨fun _ => Or.inl rfl, fun _ => rfl⟩
    | some ps =>
      cases h2 : collect IScalar.asBls scalars with
      | none => exact ⟨fun _ => Or.inr (Or.inl rfl), fun _ => rfl⟩
      | some ss =>
        have l1 := congrArg List.length (collect_some.1 h1)
        have l2 := congrArg List.length (collect_some.1 h2)
        rw [List.length_map, List.length_map] at l1 l2
        have hn := (G2.C96_sum_of_products [] (fun _ h => by cases h)).2 ps (ss.map fun s => Field.bytes Fq.impl.A s)
        rw [List.length_map, ← l1, ← l2] at hn
        dsimp only
        cases h3 : P3.sumOfProducts G2.F ps (ss.map fun s => Field.bytes Fq.impl.A s) with
        | none => exact ⟨fun _ => Or.inr (Or.inr (hn.1 h3)), fun _ => rfl⟩
        | some r =>
          refine ⟨(fun h => by cases h), ?_⟩
          rintro (h | h | h)
          · cases h
          · cases h
          · rw [hn.2 h] at h3; cases h3

/-- **C105.** Multiplying the generators by a scalar of another type panics, where `Mul` itself gives nil; by a scalar of the curve it gives the
multiple. -/
theorem C105_base_mult (s : L4) (k : ZMod Fq.q) (hs : Rep Fq.q s k) :
    (∃ r, scalarG1BaseMult (.bls s) = .ok r ∧ Is1 r (k.val • G1.G)) ∧ (∃ r, scalarG2BaseMult (.bls s) = .ok r ∧ Is2 r (k.val • G2.G)) ∧
    scalarG1BaseMult .other = .panic ∧ scalarG2BaseMult .other = .panic :=
  ⟨⟨_, rfl, .mk (G1.C94_mul G1.generator_rep hs).1 (by rw [nsmul_left_comm, G1.order_G, nsmul_zero])⟩,
    ⟨_, rfl, .mk (G2.C96_mul G2.generator_rep hs).1 (by rw [nsmul_left_comm, G2.order_G, nsmul_zero])⟩, rfl, rfl⟩

/-- **C105.** Hashing to a scalar: the 48 bytes of the expanded message, read as a big-endian number, modulo the order; it never fails. -/
theorem C105_scalar_hash (H : Hash.HashFn) (h : H.size ≤ 255) (msg : List UInt8) :
    ∃ s, scalarHash H msg = .ok s ∧
      Rep Fq.q s (beToNat (Hash.rfcExpand H msg (strBytes "BLS12381_XMD:SHA-256_SSWU_RO_") 48) : ZMod Fq.q) := by
  unfold scalarHash
  have hd : ¬ (strBytes "BLS12381_XMD:SHA-256_SSWU_RO_").length > 255 := by decide
  rw [Hash.C55_native_rfc H h _ _ 48 (by decide), if_neg hd, Res.bind_ok]
  refine ⟨_, rfl, (Fq.C90_scalar_wide _).2.2 ?_⟩
  obtain ⟨out, h1, h2⟩ := Hash.C55_native_never_refuses H msg (strBytes "BLS12381_XMD:SHA-256_SSWU_RO_") h 48 (by decide)
  rw [Hash.C55_native_rfc H h _ _ 48 (by decide), if_neg hd] at h1
  rw [Res.ok.inj h1, h2]
  decide

/-- **C105.** `Random` ignores the outcome of the read: a reader that fails without delivering anything gives the hash of 64 zeros, the same
scalar every time. -/
theorem C105_scalar_random_violated (H : Hash.HashFn) (r r' : Read) (h : r.data = []) (h' : r'.data = []) :
    scalarRandom H r = scalarHash H (List.replicate 64 0) ∧ scalarRandom H r = scalarRandom H r' := by
  unfold scalarRandom Read.buf
  rw [h, h']
  exact ⟨rfl, rfl⟩

/-! ## The hypotheses are met -/

example : Is1 (.g1 G1.generator) G1.G ∧ Is2 (.g2 G2.generator) G2.G := ⟨.mk G1.generator_rep G1.order_G, .mk G2.generator_rep G2.order_G⟩

example : multiPairing [.g1 G1.generator, .g2 G2.generator, .g1 G1.generator] = none ∧ multiPairing [.g2 G2.generator, .g1 G1.generator] = none :=
  ⟨rfl, rfl⟩

example : ∃ r : Read, r.data = [] ∧ r.failed = true := ⟨⟨[], by decide, true⟩, rfl, rfl⟩

end Verif.Curves.PairCurve
