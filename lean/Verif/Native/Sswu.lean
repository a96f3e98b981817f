import Verif.Native.Weier
import Verif.Native.Primes
import Verif.Base.Tactics
import Mathlib.NumberTheory.LegendreSymbol.Basic

/-!
# The simplified SWU map and rational maps between curves: specification and algebra

The specification follows RFC 9380, section 6.6.2 (`map_to_curve_simple_swu`) and appendix E (isogeny maps as quotients of
polynomials).  Nothing here mentions machine words.
-/

set_option maxRecDepth 20000

namespace Verif.Native.Sswu

section spec
variable {F : Type} [Field F] [DecidableEq F]

/-- `x³ + a x + b`. -/
def rhs (a b x : F) : F := x ^ 3 + a * x + b

/-- SPEC: the first candidate abscissa of RFC 9380, 6.6.2, steps 1-3. -/
def cand1 (a b z u : F) : F :=
  let t := z * u ^ 2
  if t ^ 2 + t = 0 then b / (z * a) else (-b / a) * (1 + 1 / (t ^ 2 + t))

/-- SPEC: `(x, y)` is the image of `u` under the simplified SWU map for `y² = x³ + a x + b` and the non-square `z`: `x` is the
first candidate if that is the abscissa of a point, otherwise `z u² x₁`; `y` is the square root whose sign is that of `u`
(RFC 9380, 6.6.2, steps 5-9). -/
def IsSwu (a b z : F) (sgn : F → Nat) (u x y : F) : Prop :=
  ((IsSquare (rhs a b (cand1 a b z u)) ∧ x = cand1 a b z u) ∨
   (¬ IsSquare (rhs a b (cand1 a b z u)) ∧ x = z * u ^ 2 * cand1 a b z u)) ∧
  y ^ 2 = rhs a b x ∧ (y = 0 ∨ sgn y = sgn u)

/-- The second candidate: its right-hand side is `t³` times that of the first. -/
theorem rhs_cand2 {a b t : F} (ha : a ≠ 0) (ht : t ^ 2 + t ≠ 0) :
    rhs a b (t * ((-b / a) * (1 + 1 / (t ^ 2 + t)))) = t ^ 3 * rhs a b ((-b / a) * (1 + 1 / (t ^ 2 + t))) := by
  unfold rhs
  have h1 : t ≠ 0 := fun h => ht (by rw [h]; ring)
  have h2 : t + 1 ≠ 0 := fun h => ht (by linear_combination t * h)
  have e : t ^ 2 + t = t * (t + 1) := by ring
  rw [e]
  field_simp
  ring

end spec

section zmod
variable {p : Nat} [hp : Fact p.Prime]

/-- Euler's criterion, checked by the kernel. -/
theorem not_square (hp2 : p < 2 ^ 300) (h2 : 2 * ((p - 1) / 2) = p - 1) {g : Nat} (hg : g % p ≠ 0)
    (h : Primes.pw p 300 g ((p - 1) / 2) 1 % p ≠ 1 % p) : ¬ IsSquare (g : ZMod p) := by
  rintro ⟨y, hy⟩
  apply h
  have e := Primes.pw_spec p 300 g ((p - 1) / 2) 1 (lt_of_le_of_lt (Nat.div_le_self _ _) (lt_of_le_of_lt (Nat.sub_le _ _) hp2))
  have hy0 : y ≠ 0 := by
    rintro rfl
    rw [mul_zero, ZMod.natCast_eq_zero_iff] at hy
    exact hg (Nat.mod_eq_zero_of_dvd hy)
  rw [hy, ← pow_two, ← pow_mul, h2, ZMod.pow_card_sub_one_eq_one hy0, Nat.cast_one, one_mul] at e
  have e' : ((Primes.pw p 300 g ((p - 1) / 2) 1 : Nat) : ZMod p) = ((1 : Nat) : ZMod p) := by rw [e, Nat.cast_one]
  exact (ZMod.natCast_eq_natCast_iff _ _ _).1 e'

/-- The product of two non-squares is a square. -/
theorem mul_nonsquares {a b : ZMod p} (ha : ¬ IsSquare a) (hb : ¬ IsSquare b) : IsSquare (a * b) := by
  have a0 : a ≠ 0 := fun h => ha (h ▸ ⟨0, by ring⟩)
  have b0 : b ≠ 0 := fun h => hb (h ▸ ⟨0, by ring⟩)
  have e1 := (ZMod.pow_div_two_eq_neg_one_or_one p a0).resolve_left (fun h => ha ((ZMod.euler_criterion p a0).2 h))
  have e2 := (ZMod.pow_div_two_eq_neg_one_or_one p b0).resolve_left (fun h => hb ((ZMod.euler_criterion p b0).2 h))
  refine (ZMod.euler_criterion p (mul_ne_zero a0 b0)).2 ?_
  rw [mul_pow, e1, e2]
  ring

/-- A non-square times a square other than zero is a non-square. -/
theorem nonsquare_mul {z s : ZMod p} (hz : ¬ IsSquare z) (hs : s ≠ 0) : ¬ IsSquare (z * s ^ 2) := by
  rintro ⟨y, hy⟩
  apply hz
  refine ⟨y / s, ?_⟩
  field_simp
  linear_combination hy

/-- If the first candidate is not the abscissa of a point, the second one is. -/
theorem cand2_square {a b z u : ZMod p} (ha : a ≠ 0) (hz : ¬ IsSquare z) (hex : IsSquare (rhs a b (b / (z * a))))
    (h : ¬ IsSquare (rhs a b (cand1 a b z u))) :
    rhs a b (z * u ^ 2 * cand1 a b z u) = (z * u ^ 2) ^ 3 * rhs a b (cand1 a b z u) ∧
    IsSquare (rhs a b (z * u ^ 2 * cand1 a b z u)) ∧ (z * u ^ 2) ^ 2 + z * u ^ 2 ≠ 0 := by
  have ht : (z * u ^ 2) ^ 2 + z * u ^ 2 ≠ 0 := by
    intro hc
    apply h
    unfold cand1
    dsimp only
    rw [if_pos hc]
    exact hex
  have e : cand1 a b z u = (-b / a) * (1 + 1 / ((z * u ^ 2) ^ 2 + z * u ^ 2)) := by
    unfold cand1
    dsimp only
    rw [if_neg ht]
  have e3 : rhs a b (z * u ^ 2 * cand1 a b z u) = (z * u ^ 2) ^ 3 * rhs a b (cand1 a b z u) := by
    rw [e]
    exact rhs_cand2 ha ht
  refine ⟨e3, ?_, ht⟩
  rw [e3]
  have hu : u ≠ 0 := fun h => ht (by rw [h]; ring)
  refine mul_nonsquares ?_ h
  have : (z * u ^ 2) ^ 3 = z * (z * u ^ 3) ^ 2 := by ring
  rw [this]
  refine nonsquare_mul hz (mul_ne_zero (fun h => hz (h ▸ ⟨0, by ring⟩)) (pow_ne_zero 3 hu))

/-- The image is unique. -/
theorem swu_unique {a b z : ZMod p} {sgn : ZMod p → Nat} (hs : ∀ y, y ≠ 0 → sgn (-y) ≠ sgn y) {u x y x' y' : ZMod p}
    (h : IsSwu a b z sgn u x y) (h' : IsSwu a b z sgn u x' y') : x = x' ∧ y = y' := by
  obtain ⟨h1, h2, h3⟩ := h
  obtain ⟨h1', h2', h3'⟩ := h'
  have hx : x = x' := by
    rcases h1 with ⟨k, rfl⟩ | ⟨k, rfl⟩ <;> rcases h1' with ⟨k', rfl⟩ | ⟨k', rfl⟩
    · rfl
    · exact absurd k k'
    · exact absurd k' k
    · rfl
  subst hx
  refine ⟨rfl, ?_⟩
  have hyy : (y - y') * (y + y') = 0 := by linear_combination h2 - h2'
  rcases mul_eq_zero.1 hyy with k | k
  · exact sub_eq_zero.1 k
  · have e : y = -y' := eq_neg_of_add_eq_zero_left k
    by_cases h0 : y' = 0
    · rw [e, h0, neg_zero]
    · have hy0 : y ≠ 0 := by rw [e]; exact neg_ne_zero.2 h0
      exact absurd (by rw [← e, h3.resolve_left hy0, h3'.resolve_left h0]) (hs y' h0)

end zmod

/-! ## Polynomials as lists of coefficients, constant term first -/

section poly

/-- The value at `x` of the polynomial with the given coefficients, constant term first. -/
def ev {F : Type} [Field F] (l : List Nat) (x : F) : F := l.foldr (fun c acc => (c : F) + x * acc) 0

theorem ev_nil {F : Type} [Field F] (x : F) : ev [] x = 0 := rfl
theorem ev_cons {F : Type} [Field F] (c : Nat) (l : List Nat) (x : F) : ev (c :: l) x = (c : F) + x * ev l x := rfl

/-- Sum of coefficient lists modulo `p`. -/
def padd (p : Nat) : List Nat → List Nat → List Nat
  | [], m => m
  | l, [] => l
  | a :: l, c :: m => (a + c) % p :: padd p l m

/-- Product by a constant. -/
def pscale (p c : Nat) (l : List Nat) : List Nat := l.map fun a => c * a % p

/-- Product. -/
def pmul (p : Nat) : List Nat → List Nat → List Nat
  | [], _ => []
  | a :: l, m => padd p (pscale p a m) (0 :: pmul p l m)

variable {p : Nat} [hp : Fact p.Prime]

theorem cast_mod (n : Nat) : ((n % p : Nat) : ZMod p) = (n : ZMod p) := ZMod.natCast_mod n p

theorem ev_padd (l m : List Nat) (x : ZMod p) : ev (padd p l m) x = ev l x + ev m x := by
  induction l generalizing m with
  | nil => rw [padd, ev_nil, zero_add]
  | cons a l ih =>
    cases m with
    | nil => rw [padd, ev_nil, add_zero]; exact nofun
    | cons c m =>
      rw [padd, ev_cons, ev_cons, ev_cons, ih, cast_mod, Nat.cast_add]
      ring

theorem ev_pscale (c : Nat) (l : List Nat) (x : ZMod p) : ev (pscale p c l) x = (c : ZMod p) * ev l x := by
  induction l with
  | nil => rw [pscale, List.map_nil, ev_nil, mul_zero]
  | cons a l ih =>
    rw [pscale] at ih
    rw [pscale, List.map_cons, ev_cons, ev_cons, ih, cast_mod, Nat.cast_mul]
    ring

theorem ev_pmul (l m : List Nat) (x : ZMod p) : ev (pmul p l m) x = ev l x * ev m x := by
  induction l with
  | nil => rw [pmul, ev_nil, zero_mul]
  | cons a l ih =>
    rw [pmul, ev_padd, ev_pscale, ev_cons, ev_cons, ih, Nat.cast_zero]
    ring

/-- The certificate of an isogeny map `(x, y) ↦ (nx/dx, y·ny/dy)` from `y² = x³ + a x + b` to `y² = x³ + b'`. -/
def isoCheck (p a b b' : Nat) (nx dx ny dy : List Nat) : Bool :=
  let d3 := pmul p dx (pmul p dx dx)
  pmul p (pmul p (pmul p ny ny) [b, a, 0, 1]) d3 == pmul p (padd p (pmul p nx (pmul p nx nx)) (pscale p b' d3)) (pmul p dy dy)

theorem isoCheck_spec {a b b' : Nat} {nx dx ny dy : List Nat} (h : isoCheck p a b b' nx dx ny dy = true) (x : ZMod p) :
    ev ny x ^ 2 * rhs (a : ZMod p) (b : ZMod p) x * ev dx x ^ 3 = (ev nx x ^ 3 + (b' : ZMod p) * ev dx x ^ 3) * ev dy x ^ 2 := by
  have e := congrArg (fun l => ev l x) (beq_iff_eq.1 h)
  simp only [ev_pmul, ev_padd, ev_pscale] at e
  have g : ev [b, a, 0, 1] x = rhs (a : ZMod p) (b : ZMod p) x := by
    rw [ev_cons, ev_cons, ev_cons, ev_cons, ev_nil, Nat.cast_zero, Nat.cast_one]
    unfold rhs
    ring
  rw [g] at e
  linear_combination e

/-- The image of a point is on the target curve. -/
theorem iso_image {a b b' : Nat} {nx dx ny dy : List Nat} (h : isoCheck p a b b' nx dx ny dy = true) {x y : ZMod p}
    (hy : y ^ 2 = rhs (a : ZMod p) (b : ZMod p) x) (h1 : ev dx x ≠ 0) (h2 : ev dy x ≠ 0) :
    (y * (ev ny x / ev dy x)) ^ 2 = (ev nx x / ev dx x) ^ 3 + (b' : ZMod p) := by
  have e := isoCheck_spec h x
  rw [← hy] at e
  field_simp
  linear_combination e

/-- A denominator that is a power of `x - c`, with `c` not the abscissa of a point, does not vanish on the curve. -/
theorem den_ne_zero {a b c : Nat} {d m : List Nat} (hm : m = [p - c, 1]) (hc : c ≤ p)
    (hd : d = pmul p m m ∨ d = pmul p m (pmul p m m)) (hn : ¬ IsSquare (rhs (a : ZMod p) (b : ZMod p) (c : ZMod p)))
    {x y : ZMod p} (hy : y ^ 2 = rhs (a : ZMod p) (b : ZMod p) x) : ev d x ≠ 0 := by
  have hl : ev m x = x - (c : ZMod p) := by
    rw [hm, ev_cons, ev_cons, ev_nil, Nat.cast_sub hc, ZMod.natCast_self, Nat.cast_one]
    ring
  have hne : x - (c : ZMod p) ≠ 0 := by
    intro h
    apply hn
    rw [← sub_eq_zero.1 h]
    exact ⟨y, by rw [← hy, pow_two]⟩
  rcases hd with rfl | rfl <;> simp only [ev_pmul, hl] <;> simp [hne]

end poly

end Verif.Native.Sswu
