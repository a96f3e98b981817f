import Verif.Native.Curves
import Verif.Native.PointApi
import Verif.Native.Sswu

/-!
# The simplified SWU map for primes 3 modulo 4 and the isogeny map
(`crypto/core/curves/native/osswu.go`, `crypto/core/curves/native/isogeny.go`)
-/

set_option maxRecDepth 20000
set_option linter.unusedSectionVars false

namespace Verif.Native
open Verif.Bytes Weier Sswu

/-- `SswuParams` (crypto/core/curves/native/osswu.go:5-7). -/
structure SswuParams where
  C1 : L4
  C2 : L4
  A : L4
  B : L4
  Z : L4

/-- `Osswu3mod4` (crypto/core/curves/native/osswu.go:11-83). -/
def osswu3mod4 (F : Impl) (S : SswuParams) (u : L4) : L4 × L4 :=
  let tv1 := F.A.mul u u
  let tv3 := F.A.mul S.Z tv1
  let tv2 := F.A.square tv3
  let xd := F.A.add tv2 tv3
  let x1n := F.A.add F.P.R xd
  let x1n := F.A.mul x1n S.B
  let aNeg := F.A.neg S.A
  let xd := F.A.mul xd aNeg
  let xdIsZero := isZero xd
  let zA := F.A.mul S.Z S.A
  let xd := selectznz (uint1 xdIsZero) xd zA
  let tv2 := F.A.square xd
  let gxd := F.A.mul tv2 xd
  let tv2 := F.A.mul tv2 S.A
  let gx1 := F.A.square x1n
  let gx1 := F.A.add gx1 tv2
  let gx1 := F.A.mul gx1 x1n
  let tv2 := F.A.mul gxd S.B
  let gx1 := F.A.add gx1 tv2
  let tv4 := F.A.square gxd
  let tv2 := F.A.mul gx1 gxd
  let tv4 := F.A.mul tv4 tv2
  let y1 := pow F.A F.P tv4 S.C1
  let y1 := F.A.mul y1 tv2
  let x2n := F.A.mul tv3 x1n
  let y2 := F.A.mul y1 S.C2
  let y2 := F.A.mul y2 tv1
  let y2 := F.A.mul y2 u
  let tv2 := F.A.square y1
  let tv2 := F.A.mul tv2 gxd
  let e2 := Field.equal tv2 gx1
  let x := selectznz (uint1 e2) x2n x1n
  let inv := F.invert tv1 xd
  let tv1 := F.A.mul x inv.2
  let x := selectznz (uint1 inv.1) x tv1
  let y := selectznz (uint1 e2) y2 y1
  let usign := (Field.bytes F.A u).getD 0 0 &&& 1
  let ysign := (Field.bytes F.A y).getD 0 0 &&& 1
  if usign ≠ ysign then (x, F.A.neg y) else (x, y)

/-- `IsogenyParams` (crypto/core/curves/native/isogeny.go:4-9). -/
structure IsogenyParams where
  XNum : List L4
  XDen : List L4
  YNum : List L4
  YDen : List L4

/-- `xs[i]` (crypto/core/curves/native/isogeny.go:28-35). -/
def isoPow (F : Impl) (x : L4) : Nat → L4
  | 0 => F.P.R
  | 1 => x
  | 2 => F.A.square x
  | i + 3 => F.A.mul (isoPow F x (i + 2)) x

/-- `computeIsoK` (crypto/core/curves/native/isogeny.go:55-62); the accumulator is the zero value of the array. -/
def computeIsoK (F : Impl) (x : L4) (k : List L4) : L4 :=
  (k.zipIdx).foldl (fun out ki => F.A.add out (F.A.mul (isoPow F x ki.2) ki.1)) ⟨0, 0, 0, 0⟩

/-- `Map` (crypto/core/curves/native/isogeny.go:12-53).  With fewer than three coefficients in every list the slice of powers is
too short for the line that fills `xs[2]`, which then panics. -/
def isoMap (F : Impl) (I : IsogenyParams) (xIn yIn : L4) : Res (L4 × L4) :=
  let degree := max (max I.XNum.length I.XDen.length) (max I.YNum.length I.YDen.length)
  if degree < 3 then .panic
  else
    let xNum := computeIsoK F xIn I.XNum
    let xDen := computeIsoK F xIn I.XDen
    let yNum := computeIsoK F xIn I.YNum
    let yDen := computeIsoK F xIn I.YDen
    let inv := F.invert xDen xDen
    let tv := F.A.mul xNum inv.2
    let x := selectznz (uint1 inv.1) xIn tv
    let inv := F.invert yDen yDen
    let tv := F.A.mul yNum inv.2
    let y := selectznz (uint1 inv.1) yIn tv
    .ok (x, F.A.mul y yIn)

/-! ## The map -/

/-- The parity of the least representative, the sign used for points. -/
def par {p : Nat} (y : ZMod p) : Nat := y.val % 2

/-- What the constants must be, for the curve `y² = x³ + a x + b` and the non-square `z`. -/
structure SswuOK (S : SswuParams) {p : Nat} [Fact p.Prime] (a b z : ZMod p) : Prop where
  mod4 : p % 4 = 3
  repA : Rep p S.A a
  repB : Rep p S.B b
  repZ : Rep p S.Z z
  c1 : S.C1.val = (p - 3) / 4
  c2 : ∃ c, Rep p S.C2 c ∧ c ^ 2 = -z ^ 3
  a_ne : a ≠ 0
  nonsquare : ¬ IsSquare z
  exc : IsSquare (rhs a b (b / (z * a)))

section
variable {p : Nat} [hp : Fact p.Prime]

/-- The algebra of the root: with `w = N·D³`, `w^((p-3)/4)·N·D` squared and multiplied by `D` is `N` when `N/D` is a square and
`-N` otherwise. -/
theorem root_alg (h4 : p % 4 = 3) {N D : ZMod p} (hD : D ≠ 0) :
    (IsSquare (N / D) → (((D * D) * (N * D)) ^ ((p - 3) / 4) * (N * D)) * (((D * D) * (N * D)) ^ ((p - 3) / 4) * (N * D)) * D = N) ∧
    (¬ IsSquare (N / D) →
      (((D * D) * (N * D)) ^ ((p - 3) / 4) * (N * D)) * (((D * D) * (N * D)) ^ ((p - 3) / 4) * (N * D)) * D = -N ∧ N ≠ 0) := by
  have hk : (p - 3) / 4 + (p - 3) / 4 + 1 = p / 2 := by have := hp.out.two_le; omega
  have e : (((D * D) * (N * D)) ^ ((p - 3) / 4) * (N * D)) * (((D * D) * (N * D)) ^ ((p - 3) / 4) * (N * D)) * D =
      ((D * D) * (N * D)) ^ (p / 2) * N := by
    rw [← hk, pow_add, pow_add, pow_one]
    ring
  rw [e]
  have hw : (D * D) * (N * D) = N / D * (D ^ 2) ^ 2 := by field_simp
  constructor
  · intro hs
    by_cases h0 : N = 0
    · rw [h0, mul_zero]
    · have hsq : IsSquare ((D * D) * (N * D)) := by
        rw [hw]
        exact hs.mul ⟨D ^ 2, by rw [pow_two (D ^ 2)]⟩
      rw [(ZMod.euler_criterion p (mul_ne_zero (mul_ne_zero hD hD) (mul_ne_zero h0 hD))).1 hsq, one_mul]
  · intro hs
    have h0 : N ≠ 0 := by
      rintro rfl
      exact hs ⟨0, by rw [zero_div, mul_zero]⟩
    have hns : ¬ IsSquare ((D * D) * (N * D)) := by
      rw [hw]
      exact nonsquare_mul hs (pow_ne_zero 2 hD)
    have hne := mul_ne_zero (mul_ne_zero hD hD) (mul_ne_zero h0 hD)
    rcases ZMod.pow_div_two_eq_neg_one_or_one p hne with h | h
    · exact absurd ((ZMod.euler_criterion p hne).2 h) hns
    · rw [h]
      exact ⟨by ring, h0⟩

/-- The first candidate, as a quotient. -/
theorem cand1_frac {F : Type} [_root_.Field F] [DecidableEq F] {a b z u : F} (ha : a ≠ 0) (hz : z ≠ 0) :
    let t := z * (u * u)
    let D := if (t * t + t) * (-a) = 0 then z * a else (t * t + t) * (-a)
    D ≠ 0 ∧ cand1 a b z u = ((1 + (t * t + t)) * b) / D := by
  intro t D
  have e : (z * u ^ 2) ^ 2 + z * u ^ 2 = t * t + t := by ring
  unfold cand1
  dsimp only
  rw [e]
  by_cases h : t * t + t = 0
  · have hD : D = z * a := if_pos (by rw [h, zero_mul])
    rw [hD, if_pos h, h]
    exact ⟨mul_ne_zero hz ha, by rw [add_zero, one_mul]⟩
  · have h' : (t * t + t) * (-a) ≠ 0 := mul_ne_zero h (neg_ne_zero.2 ha)
    have hD : D = (t * t + t) * (-a) := if_neg h'
    rw [hD, if_neg h]
    refine ⟨h', ?_⟩
    generalize t * t + t = s at h
    field_simp
    ring

theorem par_byte {F : Impl} (G : Good F p) {u : L4} {w : ZMod p} (hu : Rep p u w) :
    ((Field.bytes F.A u).getD 0 0 &&& 1).toNat = par w := by
  have : NeZero p := ⟨hp.out.ne_zero⟩
  rw [C50_bytes G.lawful hu]
  exact parity_byte _

theorem osswu_spec {F : Impl} (G : Good F p) {S : SswuParams} {a b z : ZMod p} (K : SswuOK S a b z) {u : L4} {w : ZMod p}
    (hu : Rep p u w) :
    ∃ x y, Rep p (osswu3mod4 F S u).1 x ∧ Rep p (osswu3mod4 F S u).2 y ∧ IsSwu a b z par w x y := by
  have L := G.lawful
  have hz0 : z ≠ 0 := fun h => K.nonsquare (h ▸ ⟨0, by ring⟩)
  have h1 : Rep p F.P.R 1 := (C50_constants L).1
  have htv1 := C50_mul L hu hu
  have htv3 := C50_mul L K.repZ htv1
  have htv2 := C50_square L htv3
  have hxd0 := C50_add L htv2 htv3
  have hx1n := C50_mul L (C50_add L h1 hxd0) K.repB
  have hxd1 := C50_mul L hxd0 (C50_neg L K.repA)
  have hzA := C50_mul L K.repZ K.repA
  obtain ⟨hD, hc⟩ := cand1_frac (a := a) (b := b) (z := z) (u := w) K.a_ne hz0
  unfold osswu3mod4
  dsimp only at hD hc ⊢
  have hxd : Rep p (selectznz (uint1 (isZero (F.A.mul (F.A.add (F.A.square (F.A.mul S.Z (F.A.mul u u))) (F.A.mul S.Z (F.A.mul u u)))
      (F.A.neg S.A)))) (F.A.mul (F.A.add (F.A.square (F.A.mul S.Z (F.A.mul u u))) (F.A.mul S.Z (F.A.mul u u))) (F.A.neg S.A))
      (F.A.mul S.Z S.A)) (if (z * (w * w) * (z * (w * w)) + z * (w * w)) * (-a) = 0 then z * a else
        (z * (w * w) * (z * (w * w)) + z * (w * w)) * (-a)) := by
    rw [(C50_equal L hxd1 hxd1).2.2.1]
    split
    · rw [uint1_one, selectznz_one]; exact hzA
    · rw [uint1_zero, selectznz_zero]; exact hxd1
  generalize selectznz (uint1 (isZero (F.A.mul (F.A.add (F.A.square (F.A.mul S.Z (F.A.mul u u))) (F.A.mul S.Z (F.A.mul u u)))
      (F.A.neg S.A)))) (F.A.mul (F.A.add (F.A.square (F.A.mul S.Z (F.A.mul u u))) (F.A.mul S.Z (F.A.mul u u))) (F.A.neg S.A))
      (F.A.mul S.Z S.A) = xd at hxd ⊢
  generalize (if (z * (w * w) * (z * (w * w)) + z * (w * w)) * (-a) = 0 then z * a else
        (z * (w * w) * (z * (w * w)) + z * (w * w)) * (-a)) = D at hD hc hxd
  generalize F.A.mul (F.A.add F.P.R (F.A.add (F.A.square (F.A.mul S.Z (F.A.mul u u))) (F.A.mul S.Z (F.A.mul u u)))) S.B = x1n at hx1n ⊢
  have et : z * w ^ 2 = z * (w * w) := by rw [pow_two]
  generalize hN : (1 + (z * (w * w) * (z * (w * w)) + z * (w * w))) * b = N at hc hx1n
  -- the right-hand side at the first candidate, times `D³`
  have hgxd := C50_mul L (C50_square L hxd) hxd
  have hgx1 := C50_add L (C50_mul L (C50_add L (C50_square L hx1n) (C50_mul L (C50_square L hxd) K.repA)) hx1n) (C50_mul L hgxd K.repB)
  generalize F.A.mul (F.A.square xd) xd = gxd at hgxd hgx1 ⊢
  generalize F.A.add (F.A.mul (F.A.add (F.A.square x1n) (F.A.mul (F.A.square xd) S.A)) x1n) (F.A.mul gxd S.B) = gx1 at hgx1 ⊢
  have hg : rhs a b (cand1 a b z w) = ((N * N + D * D * a) * N + D * D * D * b) / (D * D * D) := by
    rw [hc]
    unfold rhs
    field_simp
  have hD3 : D * D * D ≠ 0 := mul_ne_zero (mul_ne_zero hD hD) hD
  generalize (N * N + D * D * a) * N + D * D * D * b = g at hgx1 hg
  generalize D * D * D = d at hgxd hg hD3
  have htv4 := C50_mul L (C50_square L hgxd) (C50_mul L hgx1 hgxd)
  have hy1 := C50_mul L (C50_pow L htv4 S.C1) (C50_mul L hgx1 hgxd)
  rw [K.c1] at hy1
  obtain ⟨r1, r2⟩ := root_alg (N := g) (D := d) K.mod4 hD3
  generalize F.A.mul (pow F.A F.P (F.A.mul (F.A.square gxd) (F.A.mul gx1 gxd)) S.C1) (F.A.mul gx1 gxd) = y1 at hy1 ⊢
  generalize (d * d * (g * d)) ^ ((p - 3) / 4) * (g * d) = v at hy1 r1 r2
  obtain ⟨c, hc2, hcc⟩ := K.c2
  have hy2 := C50_mul L (C50_mul L (C50_mul L hy1 hc2) htv1) hu
  have hx2n := C50_mul L htv3 hx1n
  have he2 := (C50_equal L (C50_mul L (C50_square L hy1) hgxd) hgx1).1
  rw [he2]
  obtain ⟨ri, hri, hrep⟩ := (G.invert (F.A.mul u u) xd D hxd).1 hD
  rw [hri, uint1_one, selectznz_one]
  -- the choice of the candidate and a root
  obtain ⟨x, y, hx, hy, hsel, hyy⟩ : ∃ x y,
      Rep p (F.A.mul (selectznz (uint1 (if v * v * d = g then 1 else 0)) (F.A.mul (F.A.mul S.Z (F.A.mul u u)) x1n) x1n) ri) x ∧
      Rep p (selectznz (uint1 (if v * v * d = g then 1 else 0)) (F.A.mul (F.A.mul (F.A.mul y1 S.C2) (F.A.mul u u)) u) y1) y ∧
      ((IsSquare (rhs a b (cand1 a b z w)) ∧ x = cand1 a b z w) ∨
       (¬ IsSquare (rhs a b (cand1 a b z w)) ∧ x = z * w ^ 2 * cand1 a b z w)) ∧ y ^ 2 = rhs a b x := by
    by_cases hs : IsSquare (rhs a b (cand1 a b z w))
    · rw [if_pos (r1 (hg ▸ hs)), uint1_one, selectznz_one, selectznz_one]
      refine ⟨_, _, C50_mul L hx1n hrep, hy1, Or.inl ⟨hs, by rw [hc, div_eq_mul_inv]⟩, ?_⟩
      have := r1 (hg ▸ hs)
      rw [← div_eq_mul_inv, ← hc, hg, eq_div_iff hD3]
      linear_combination this
    · obtain ⟨k1, k2⟩ := r2 (hg ▸ hs)
      have hne : ¬ (v * v * d = g) := by
        intro h
        have h2 : (2 : ZMod p) * g = 0 := by linear_combination k1 - h
        rcases mul_eq_zero.1 h2 with h2 | h2
        · exact two_ne (by have := K.mod4; omega : p ≠ 2) h2
        · exact k2 h2
      rw [if_neg hne, uint1_zero, selectznz_zero, selectznz_zero]
      obtain ⟨m1, -, -⟩ := cand2_square K.a_ne K.nonsquare K.exc hs
      have ex : z * (w * w) * N * D⁻¹ = z * w ^ 2 * cand1 a b z w := by rw [hc]; ring
      refine ⟨_, _, C50_mul L hx2n hrep, hy2, Or.inr ⟨hs, ex⟩, ?_⟩
      rw [ex, m1, hg, mul_div_assoc', eq_div_iff hD3]
      linear_combination (c ^ 2 * w ^ 6) * k1 - (g * w ^ 6) * hcc
  generalize F.A.mul (selectznz (uint1 (if v * v * d = g then 1 else 0)) (F.A.mul (F.A.mul S.Z (F.A.mul u u)) x1n) x1n) ri = X at hx ⊢
  generalize selectznz (uint1 (if v * v * d = g then 1 else 0)) (F.A.mul (F.A.mul (F.A.mul y1 S.C2) (F.A.mul u u)) u) y1 = Y at hy ⊢
  have su := par_byte G hu
  have sy := par_byte G hy
  split
  · next hne =>
    have hpar : par w ≠ par y := fun h => hne (UInt8.toNat.inj (by rw [su, sy, h]))
    refine ⟨x, -y, hx, C50_neg L hy, hsel, by rw [neg_sq]; exact hyy, ?_⟩
    by_cases h0 : y = 0
    · exact Or.inl (by rw [h0, neg_zero])
    · refine Or.inr ?_
      have := neg_parity (p := p) (by have := K.mod4; omega) h0
      unfold par at hpar ⊢
      omega
  · next heq =>
    rw [not_not] at heq
    exact ⟨x, y, hx, hy, hsel, hyy, Or.inr (by rw [← su, ← sy, heq])⟩

/-! ## The isogeny -/

theorem isoPow_spec {F : Impl} (G : Good F p) {x : L4} {v : ZMod p} (hx : Rep p x v) (i : Nat) : Rep p (isoPow F x i) (v ^ i) := by
  have L := G.lawful
  induction i using isoPow.induct with
  | case1 => rw [isoPow, pow_zero]; exact (C50_constants L).1
  | case2 => rw [isoPow, pow_one]; exact hx
  | case3 => rw [isoPow, pow_two]; exact C50_square L hx
  | case4 i ih => rw [isoPow, pow_succ]; exact C50_mul L ih hx

theorem computeIsoK_spec {F : Impl} (G : Good F p) {x : L4} {v : ZMod p} (hx : Rep p x v) {k : List L4} {c : List Nat}
    (hk : List.Forall₂ (fun l (n : Nat) => Rep p l (n : ZMod p)) k c) : Rep p (computeIsoK F x k) (ev c v) := by
  have L := G.lawful
  have key : ∀ {k : List L4} {c : List Nat}, List.Forall₂ (fun l (n : Nat) => Rep p l (n : ZMod p)) k c →
      ∀ (o : L4) (s : ZMod p) (i : Nat), Rep p o s →
        Rep p ((k.zipIdx i).foldl (fun out ki => F.A.add out (F.A.mul (isoPow F x ki.2) ki.1)) o) (s + v ^ i * ev c v) := by
    intro k c h
    induction h with
    | nil => intro o s i ho; rw [ev_nil, mul_zero, add_zero]; exact ho
    | cons h0 _ ih =>
      intro o s i ho
      rw [List.zipIdx_cons, List.foldl_cons]
      have := ih _ _ (i + 1) (C50_add L ho (C50_mul L (isoPow_spec G hx i) h0))
      rw [ev_cons]
      convert this using 1
      ring
  have := key hk ⟨0, 0, 0, 0⟩ 0 0 (C50_constants L).2
  rw [pow_zero, one_mul, zero_add] at this
  exact this

theorem isoMap_spec {F : Impl} (G : Good F p) {I : IsogenyParams} {nx dx ny dy : List Nat}
    (h1 : List.Forall₂ (fun l (n : Nat) => Rep p l (n : ZMod p)) I.XNum nx)
    (h2 : List.Forall₂ (fun l (n : Nat) => Rep p l (n : ZMod p)) I.XDen dx)
    (h3 : List.Forall₂ (fun l (n : Nat) => Rep p l (n : ZMod p)) I.YNum ny)
    (h4 : List.Forall₂ (fun l (n : Nat) => Rep p l (n : ZMod p)) I.YDen dy)
    (hd : 3 ≤ max (max I.XNum.length I.XDen.length) (max I.YNum.length I.YDen.length))
    {x y : L4} {v w : ZMod p} (hx : Rep p x v) (hy : Rep p y w) (n1 : ev dx v ≠ 0) (n2 : ev dy v ≠ 0) :
    ∃ q, isoMap F I x y = .ok q ∧ Rep p q.1 (ev nx v / ev dx v) ∧ Rep p q.2 (w * (ev ny v / ev dy v)) := by
  have L := G.lawful
  have a1 := computeIsoK_spec G hx h1
  have a2 := computeIsoK_spec G hx h2
  have a3 := computeIsoK_spec G hx h3
  have a4 := computeIsoK_spec G hx h4
  obtain ⟨r, hr, hrr⟩ := (G.invert (computeIsoK F x I.XDen) _ _ a2).1 n1
  obtain ⟨s, hs, hss⟩ := (G.invert (computeIsoK F x I.YDen) _ _ a4).1 n2
  unfold isoMap
  dsimp only
  rw [if_neg (by omega), hr, hs, uint1_one, selectznz_one, selectznz_one]
  refine ⟨_, rfl, ?_, ?_⟩
  · rw [div_eq_mul_inv]; exact C50_mul L a1 hrr
  · have := C50_mul L (C50_mul L a3 hss) hy
    rw [div_eq_mul_inv]
    convert this using 1
    ring

end

end Verif.Native
