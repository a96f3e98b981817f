import Verif.Native.Weier
import Verif.Native.Primes
import Mathlib.FieldTheory.Finite.Basic
import Mathlib.GroupTheory.Perm.Cycle.Type
import Mathlib.GroupTheory.SpecificGroups.Cyclic

/-!
# The order of a curve without points of order two

If `G` is a point of prime order `n`, the curve over `ZMod p` has no point of order two and `2 p + 1 < 3 n`, then the curve has
exactly `n` points: the order is a multiple of `n`, odd, and at most `2 p + 1` because an abscissa carries at most two points.
No point count and no Hasse bound are needed.  `n • G = 0` is checked by the kernel with a double-and-add loop on naturals.
-/

set_option linter.unusedSectionVars false

namespace Verif.Native.Weier

variable {p : Nat} [hp : Fact p.Prime]

theorem two_ne (h2 : p ≠ 2) : (2 : ZMod p) ≠ 0 := by
  intro h
  have : ((2 : Nat) : ZMod p) = 0 := by exact_mod_cast h
  rw [ZMod.natCast_eq_zero_iff] at this
  exact h2 ((Nat.prime_dvd_prime_iff_eq hp.out Nat.prime_two).1 this)

/-! ## Counting -/

/-- The abscissa and which half of the field the ordinate is in. -/
def code {a b : ZMod p} : Pt a b → Option (ZMod p × Bool)
  | .zero => none
  | .some x y _ => some (x, decide (2 * y.val < p))

theorem code_injective {a b : ZMod p} (odd : p % 2 = 1) (n2 : NoTwo a b) : Function.Injective (code (a := a) (b := b)) := by
  have pos := hp.out.pos
  intro P Q h
  cases P with
  | zero =>
    cases Q with
    | zero => rfl
    | some x y hq => simp [code] at h
  | some x y hP =>
    cases Q with
    | zero => simp [code] at h
    | some x' y' hQ =>
      simp only [code, Option.some.injEq, Prod.mk.injEq, decide_eq_decide] at h
      obtain ⟨rfl, hy⟩ := h
      have e1 := eqn_iff.1 hP.1
      have e2 := eqn_iff.1 hQ.1
      have : (y - y') * (y + y') = 0 := by linear_combination e1 - e2
      rcases mul_eq_zero.1 this with h | h
      · have : y = y' := sub_eq_zero.1 h
        subst this
        rfl
      · exfalso
        have hy0 := y_ne_zero n2 e2
        have e : y = -y' := eq_neg_of_add_eq_zero_left h
        rw [e] at hy
        have : NeZero y' := ⟨hy0⟩
        rw [ZMod.val_neg_of_ne_zero] at hy
        have hlt := ZMod.val_lt y'
        have hpos : y'.val ≠ 0 := fun h => hy0 ((ZMod.val_eq_zero _).1 h)
        by_cases hh : 2 * y'.val < p
        · have := hy.2 hh
          omega
        · have hn : ¬ 2 * (p - y'.val) < p := fun hc => hh (hy.1 hc)
          omega

theorem finite {a b : ZMod p} (odd : p % 2 = 1) (n2 : NoTwo a b) : Finite (Pt a b) :=
  Finite.of_injective _ (code_injective odd n2)

theorem card_le {a b : ZMod p} (odd : p % 2 = 1) (n2 : NoTwo a b) : Nat.card (Pt a b) ≤ 2 * p + 1 := by
  have := Nat.card_le_card_of_injective _ (code_injective odd n2)
  rwa [Finite.card_option, Nat.card_prod, Nat.card_zmod, Nat.card_eq_fintype_card (α := Bool), Fintype.card_bool,
    Nat.mul_comm] at this

theorem not_even {a b : ZMod p} (odd : p % 2 = 1) (n2 : NoTwo a b) : Nat.card (Pt a b) % 2 = 1 := by
  have := finite odd n2
  by_contra hc
  have hd : 2 ∣ Nat.card (Pt a b) := by omega
  have : Fact (Nat.Prime 2) := ⟨Nat.prime_two⟩
  obtain ⟨P, hP⟩ := exists_prime_addOrderOf_dvd_card' 2 hd
  have h2 : P + P = 0 := by
    have := addOrderOf_nsmul_eq_zero P
    rwa [hP, two_nsmul] at this
  have hne : P ≠ 0 := by
    rintro rfl
    simp at hP
  cases P with
  | zero => exact hne rfl
  | some x y h =>
    have e : (.some x y h : Pt a b) = -(.some x y h) := eq_neg_of_add_eq_zero_left h2
    rw [WeierstrassCurve.Affine.Point.neg_some] at e
    injection e with _ ey
    rw [negY_eq] at ey
    have hy := y_ne_zero n2 (eqn_iff.1 h.1)
    have : (2 : ZMod p) * y = 0 := by linear_combination ey
    rcases mul_eq_zero.1 this with h | h
    · exact two_ne (by omega) h
    · exact hy h

theorem card_eq {a b : ZMod p} (odd : p % 2 = 1) (n2 : NoTwo a b) {n : Nat} (hn : n.Prime) (hbig : 2 * p + 1 < 3 * n)
    {G : Pt a b} (hG : n • G = 0) (hG0 : G ≠ 0) : Nat.card (Pt a b) = n := by
  have := finite odd n2
  have : Fact n.Prime := ⟨hn⟩
  have ho : addOrderOf G = n := addOrderOf_eq_prime hG hG0
  have hd : n ∣ Nat.card (Pt a b) := ho ▸ addOrderOf_dvd_natCard G
  obtain ⟨k, hk⟩ := hd
  have hle := card_le odd n2
  have hodd := not_even odd n2
  rw [hk] at hle hodd ⊢
  have hk3 : k < 3 := by
    by_contra hc
    have : n * 3 ≤ n * k := Nat.mul_le_mul_left _ (by omega)
    omega
  have : k ≠ 0 := by rintro rfl; simp at hodd
  have : k ≠ 2 := by rintro rfl; omega
  have : k = 1 := by omega
  rw [this, Nat.mul_one]

/-- Everything the protocols assume of the curve group: prime order, generated by `G`. -/
theorem prime_order {a b : ZMod p} (odd : p % 2 = 1) (n2 : NoTwo a b) {n : Nat} (hn : n.Prime) (hbig : 2 * p + 1 < 3 * n)
    {G : Pt a b} (hG : n • G = 0) (hG0 : G ≠ 0) :
    (∀ P : Pt a b, n • P = 0) ∧ (∀ P : Pt a b, ∃ k : Nat, k < n ∧ P = k • G) ∧
    (∀ (P : Pt a b) (i j : Nat), P ≠ 0 → (i • P = j • P ↔ i % n = j % n)) := by
  have hf := finite odd n2
  have hc := card_eq odd n2 hn hbig hG hG0
  have : Fact n.Prime := ⟨hn⟩
  have h1 : ∀ P : Pt a b, n • P = 0 := fun P => by
    have := card_nsmul_eq_zero' (x := P)
    rwa [hc] at this
  refine ⟨h1, fun P => ?_, fun P i j h0 => ?_⟩
  · have ho : addOrderOf G = n := addOrderOf_eq_prime hG hG0
    have hm : P ∈ AddSubgroup.zmultiples G := by
      have : AddSubgroup.zmultiples G = ⊤ := by
        rw [← AddSubgroup.card_eq_iff_eq_top, Nat.card_zmultiples, ho, hc]
      rw [this]
      trivial
    obtain ⟨k, hk⟩ := AddSubgroup.mem_zmultiples_iff.1 hm
    refine ⟨(k % n).toNat, ?_, ?_⟩
    · have := Int.emod_lt_of_pos k (b := (n : Int)) (by exact_mod_cast hn.pos)
      have := Int.emod_nonneg k (b := (n : Int)) (by exact_mod_cast hn.ne_zero)
      omega
    · rw [← hk, ← natCast_zsmul, Int.toNat_of_nonneg (Int.emod_nonneg k (by exact_mod_cast hn.ne_zero))]
      have := mod_addOrderOf_zsmul G k
      rw [ho] at this
      exact this.symm
  · have ho : addOrderOf P = n := addOrderOf_eq_prime (h1 P) h0
    rw [nsmul_eq_nsmul_iff_modEq, ho]
    rfl

/-! ## Multiples of a point, computed on naturals -/

/-- Projective triple of naturals. -/
structure N3 where
  X : Nat
  Y : Nat
  Z : Nat
deriving DecidableEq

/-- The complete sum modulo `p`. -/
def nadd (p a b : Nat) (P Q : N3) : N3 :=
  if P.Z = 0 then Q else if Q.Z = 0 then P else
  let xy := (P.X * Q.Y + Q.X * P.Y) % p
  let xz := (P.X * Q.Z + Q.X * P.Z) % p
  let yz := (P.Y * Q.Z + Q.Y * P.Z) % p
  let xx := P.X * Q.X % p
  let yy := P.Y * Q.Y % p
  let zz := P.Z * Q.Z % p
  let s := (a * xz + 3 * b * zz) % p
  let m := yy + (p - s)
  let t := (a * xx + 3 * b * xz) % p + (p - a * a % p * zz % p)
  let w := 3 * xx + a * zz
  ⟨(xy * m + (p - yz * t % p)) % p, ((yy + s) * m + w * t) % p, (yz * (yy + s) + xy * w) % p⟩

/-- Double-and-add, least significant bit first. -/
def nmul (p a b : Nat) : Nat → N3 → Nat → N3 → N3
  | 0, _, _, acc => acc
  | f + 1, P, e, acc => nmul p a b f (nadd p a b P P) (e / 2) (if e % 2 = 1 then nadd p a b acc P else acc)

/-- The triple represents the point. -/
def NRep (p a b : Nat) [Fact p.Prime] (t : N3) (P : Pt (a : ZMod p) (b : ZMod p)) : Prop :=
  t.Z < p ∧ PRep (a : ZMod p) (b : ZMod p) (t.X : ZMod p) (t.Y : ZMod p) (t.Z : ZMod p) P

theorem cast_sub_mod (s : Nat) : (((p - s % p : Nat)) : ZMod p) = -(s : ZMod p) := by
  have := Nat.mod_lt s hp.out.pos
  rw [Nat.cast_sub (by omega), ZMod.natCast_self, ZMod.natCast_mod, zero_sub]

theorem nadd_spec {a b : Nat} (odd : p % 2 = 1) (n2 : NoTwo (a : ZMod p) (b : ZMod p)) {s t : N3}
    {P Q : Pt (a : ZMod p) (b : ZMod p)} (hs : NRep p a b s P) (ht : NRep p a b t Q) :
    NRep p a b (nadd p a b s t) (P + Q) := by
  have z0 : ∀ n : Nat, n < p → ((n : ZMod p) = 0 ↔ n = 0) := fun n hn => by
    rw [ZMod.natCast_eq_zero_iff]
    exact ⟨fun h => Nat.eq_zero_of_dvd_of_lt h hn, fun h => h ▸ dvd_zero _⟩
  unfold nadd
  by_cases hz : s.Z = 0
  · rw [if_pos hz, (prep_isZero hs.2).1 ((z0 _ hs.1).2 hz), zero_add]
    exact ht
  rw [if_neg hz]
  by_cases hz' : t.Z = 0
  · rw [if_pos hz', (prep_isZero ht.2).1 ((z0 _ ht.1).2 hz'), add_zero]
    exact hs
  rw [if_neg hz']
  have := add_spec (two_ne (by omega)) n2 hs.2 ht.2 (fun h => hz ((z0 _ hs.1).1 h)) (fun h => hz' ((z0 _ ht.1).1 h))
  refine ⟨Nat.mod_lt _ hp.out.pos, ?_⟩
  convert this using 1
  · simp only [ZMod.natCast_mod, Nat.cast_add, Nat.cast_mul, cast_sub_mod, addX, Nat.cast_ofNat]
    ring
  · simp only [ZMod.natCast_mod, Nat.cast_add, Nat.cast_mul, cast_sub_mod, addY, Nat.cast_ofNat]
    ring
  · simp only [ZMod.natCast_mod, Nat.cast_add, Nat.cast_mul, addZ, Nat.cast_ofNat]
    ring

theorem nmul_spec {a b : Nat} (odd : p % 2 = 1) (n2 : NoTwo (a : ZMod p) (b : ZMod p)) (f : Nat) :
    ∀ (s acc : N3) (e : Nat) (P Q : Pt (a : ZMod p) (b : ZMod p)), e < 2 ^ f → NRep p a b s P → NRep p a b acc Q →
      NRep p a b (nmul p a b f s e acc) (Q + e • P) := by
  induction f with
  | zero =>
    intro s acc e P Q he hs ha
    have : e = 0 := by omega
    subst this
    rw [nmul, zero_nsmul, add_zero]
    exact ha
  | succ f ih =>
    intro s acc e P Q he hs ha
    rw [nmul]
    have h2 := nadd_spec odd n2 hs hs
    have he2 : e = 2 * (e / 2) + e % 2 := by omega
    by_cases h1 : e % 2 = 1
    · rw [if_pos h1]
      have := ih _ _ (e / 2) _ _ (by omega) h2 (nadd_spec odd n2 ha hs)
      convert this using 1
      conv_lhs => rw [he2, h1]
      rw [add_nsmul, one_nsmul, ← two_nsmul, ← mul_nsmul]
      abel
    · rw [if_neg h1]
      have := ih _ _ (e / 2) _ _ (by omega) h2 ha
      convert this using 1
      have h0 : e % 2 = 0 := by omega
      conv_lhs => rw [he2, h0, Nat.add_zero]
      rw [← two_nsmul, ← mul_nsmul]

theorem order_of_eval {a b : Nat} (odd : p % 2 = 1) (n2 : NoTwo (a : ZMod p) (b : ZMod p)) {s : N3}
    {P : Pt (a : ZMod p) (b : ZMod p)} (hs : NRep p a b s P) {n : Nat} (hn : n < 2 ^ 300)
    (h : (nmul p a b 300 s n ⟨0, 0, 0⟩).Z = 0) : n • P = 0 := by
  have := nmul_spec odd n2 300 s ⟨0, 0, 0⟩ n P 0 hn hs ⟨hp.out.pos, by
    rw [Nat.cast_zero]; exact prep_zero _ _⟩
  rw [zero_add] at this
  exact (prep_isZero this.2).1 (by rw [h, Nat.cast_zero])

/-- The version for coefficients given as residues. -/
theorem order_of_eval' {a b : ZMod p} (an bn : Nat) (ha : (an : ZMod p) = a) (hb : (bn : ZMod p) = b) (odd : p % 2 = 1)
    (n2 : NoTwo a b) {x y : Nat} {h : (curve a b).Nonsingular (x : ZMod p) (y : ZMod p)} {n : Nat} (hn : n < 2 ^ 300)
    (he : (nmul p an bn 300 ⟨x, y, 1⟩ n ⟨0, 0, 0⟩).Z = 0) : n • (.some x y h : Pt a b) = 0 := by
  subst ha hb
  refine order_of_eval odd n2 (s := ⟨x, y, 1⟩) ⟨hp.out.one_lt, ?_⟩ hn he
  rw [Nat.cast_one]
  exact Or.inr ⟨one_ne_zero, _, _, h, rfl, (mul_one _).symm, (mul_one _).symm⟩

/-! ## Absence of points of order two -/

/-- Curves `y² = x³ + b`: `-b` is not a cube when its `(p-1)/3`-th power is not one. -/
theorem noTwo_of_cube {b : Nat} (h3 : p % 3 = 1) (hp2 : p < 2 ^ 400) (hb : 0 < b ∧ b < p)
    (h : Primes.pw p 400 (p - b) ((p - 1) / 3) 1 % p ≠ 1) : NoTwo (0 : ZMod p) (b : ZMod p) := by
  intro x hx
  apply h
  have e := Primes.pw_spec p 400 (p - b) ((p - 1) / 3) 1 (by omega)
  have hcube : ((p - b : Nat) : ZMod p) = x ^ 3 := by
    rw [Nat.cast_sub hb.2.le, ZMod.natCast_self]
    linear_combination -hx
  have hx0 : x ≠ 0 := by
    rintro rfl
    have : (b : ZMod p) = 0 := by linear_combination hx
    rw [ZMod.natCast_eq_zero_iff] at this
    have := Nat.le_of_dvd hb.1 this
    omega
  rw [hcube, ← pow_mul, Nat.mul_div_cancel' (by omega), ZMod.pow_card_sub_one_eq_one hx0, Nat.cast_one, one_mul] at e
  have : Primes.pw p 400 (p - b) ((p - 1) / 3) 1 % p = 1 % p := by
    have e' : ((Primes.pw p 400 (p - b) ((p - 1) / 3) 1 : Nat) : ZMod p) = ((1 : Nat) : ZMod p) := by rw [e, Nat.cast_one]
    exact (ZMod.natCast_eq_natCast_iff _ _ _).1 e'
  rw [this, Nat.mod_eq_of_lt hp.out.one_lt]

/-- A polynomial of degree at most two. -/
structure Quad where
  c0 : Nat
  c1 : Nat
  c2 : Nat
deriving DecidableEq

/-- Its value. -/
def Quad.ev (q : Quad) (x : ZMod p) : ZMod p := q.c0 + q.c1 * x + q.c2 * x ^ 2

/-- Product modulo `x³ + a x + b` and modulo `p`. -/
def Quad.mul (p a b : Nat) (u v : Quad) : Quad :=
  let e3 := (u.c1 * v.c2 + u.c2 * v.c1) % p
  let e4 := u.c2 * v.c2 % p
  ⟨(u.c0 * v.c0 + (p - e3 * b % p)) % p,
   (u.c0 * v.c1 + u.c1 * v.c0 + (p - (e3 * a + e4 * b) % p)) % p,
   (u.c0 * v.c2 + u.c1 * v.c1 + u.c2 * v.c0 + (p - e4 * a % p)) % p⟩

theorem Quad.mul_spec {a b : Nat} {x : ZMod p} (hx : x ^ 3 + (a : ZMod p) * x + b = 0) (u v : Quad) :
    (Quad.mul p a b u v).ev x = u.ev x * v.ev x := by
  simp only [Quad.ev, Quad.mul, ZMod.natCast_mod, Nat.cast_add, Nat.cast_mul, cast_sub_mod]
  have h4 : x ^ 4 = -(a : ZMod p) * x ^ 2 - b * x := by linear_combination x * hx
  linear_combination (-(u.c1 * v.c2 + u.c2 * v.c1 : ZMod p)) * hx - (u.c2 * v.c2 : ZMod p) * h4

/-- Powers of the indeterminate. -/
def Quad.pw (p a b : Nat) : Nat → Quad → Nat → Quad → Quad
  | 0, _, _, acc => acc
  | f + 1, u, e, acc => Quad.pw p a b f (Quad.mul p a b u u) (e / 2) (if e % 2 = 1 then Quad.mul p a b acc u else acc)

theorem Quad.pw_spec {a b : Nat} {x : ZMod p} (hx : x ^ 3 + (a : ZMod p) * x + b = 0) (f : Nat) :
    ∀ (u acc : Quad) (e : Nat), e < 2 ^ f → (Quad.pw p a b f u e acc).ev x = acc.ev x * u.ev x ^ e := by
  induction f with
  | zero =>
    intro u acc e he
    have : e = 0 := by omega
    subst this
    rw [Quad.pw, pow_zero, mul_one]
  | succ f ih =>
    intro u acc e he
    have he2 : e = 2 * (e / 2) + e % 2 := by omega
    rw [Quad.pw, ih _ _ _ (by omega), Quad.mul_spec hx]
    by_cases h1 : e % 2 = 1
    · rw [if_pos h1, Quad.mul_spec hx]
      conv_rhs => rw [he2, h1, pow_succ, pow_mul, pow_two]
      ring
    · rw [if_neg h1]
      have h0 : e % 2 = 0 := by omega
      conv_rhs => rw [he2, h0, Nat.add_zero, pow_mul, pow_two]

/-- General curves: a root `x` of `x³ + a x + b` satisfies `x ^ p = x`, so it is a root of the remainder of `x ^ p - x`; the
certificate `(u, v)` shows that the two polynomials have no common root. -/
theorem noTwo_of_bezout {a b : Nat} (hp2 : p < 2 ^ 400) (g u : Quad) (v0 v1 : Nat)
    (hg : Quad.pw p a b 400 ⟨0, 1, 0⟩ p ⟨1, 0, 0⟩ = g)
    (h0 : (u.c0 * g.c0 + v0 * b) % p = 1 % p)
    (h1 : (u.c0 * (g.c1 + (p - 1)) + u.c1 * g.c0 + v0 * a + v1 * b) % p = 0)
    (h2 : (u.c0 * g.c2 + u.c1 * (g.c1 + (p - 1)) + u.c2 * g.c0 + v1 * a) % p = 0)
    (h3 : (u.c1 * g.c2 + u.c2 * (g.c1 + (p - 1)) + v0) % p = 0)
    (h4 : (u.c2 * g.c2 + v1) % p = 0) : NoTwo (a : ZMod p) (b : ZMod p) := by
  intro x hx
  have e := Quad.pw_spec hx 400 ⟨0, 1, 0⟩ ⟨1, 0, 0⟩ p hp2
  have ex : (⟨0, 1, 0⟩ : Quad).ev x = x := by simp [Quad.ev]
  have e1 : (⟨1, 0, 0⟩ : Quad).ev x = 1 := by simp [Quad.ev]
  rw [hg, ex, e1, ZMod.pow_card, one_mul] at e
  unfold Quad.ev at e
  have c : ∀ m k : Nat, m % p = k % p → (m : ZMod p) = k := fun m k h => (ZMod.natCast_eq_natCast_iff _ _ _).2 h
  have hm : ((p - 1 : Nat) : ZMod p) = -1 := by
    rw [Nat.cast_sub hp.out.one_lt.le, ZMod.natCast_self, Nat.cast_one, zero_sub]
  have k0 := c _ 1 h0
  have k1 := c _ 0 (h1.trans (Nat.zero_mod _).symm)
  have k2 := c _ 0 (h2.trans (Nat.zero_mod _).symm)
  have k3 := c _ 0 (h3.trans (Nat.zero_mod _).symm)
  have k4 := c _ 0 (h4.trans (Nat.zero_mod _).symm)
  simp only [Nat.cast_add, Nat.cast_mul, hm, Nat.cast_one, Nat.cast_zero] at k0 k1 k2 k3 k4
  have one : (1 : ZMod p) = 0 := by
    linear_combination -k0 - k1 * x - k2 * x ^ 2 - k3 * x ^ 3 - k4 * x ^ 4 +
      (u.c0 + u.c1 * x + u.c2 * x ^ 2 : ZMod p) * e + (v0 + v1 * x : ZMod p) * hx
  exact one_ne_zero one

end Verif.Native.Weier
