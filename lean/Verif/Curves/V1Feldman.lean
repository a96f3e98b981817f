import Verif.Curves.V1BlsApi
import Verif.Curves.EcPointApi

/-!
# C111 (continued): Feldman's verification of the first generation on point objects

`crypto/sharing/v1/feldman.go:67-107` with the curves it can be given: any `elliptic.Curve` (contract `Ec.Is`), and the BLS12-381 curve of the
same package, whose multiplication reads scalars backwards.
-/

set_option linter.unusedSectionVars false

namespace Verif.V1Bls
open Verif.Bytes Verif.Native Verif.Bls381
open Verif.Ec (Point Is)

/-! ## The specification: `Q₀ + e(1) Q₁ + e(2) Q₂ + …` -/

/-- The combination of the verifiers with the multipliers `e 0, e 1, …`. -/
def powSum {A : Type*} [AddCommGroup A] (e : Nat → Nat) : List A → A
  | [] => 0
  | Q :: Qs => e 0 • Q + powSum (fun j => e (j + 1)) Qs

/-- The value at `x` of the polynomial with the coefficients of a list, constant term first. -/
def polyEval (x : Nat) : List Nat → Nat
  | [] => 0
  | a :: as => a + x * polyEval x as

theorem powSum_mul {A : Type*} [AddCommGroup A] (G : A) (x : Nat) : ∀ (as : List Nat) (i : Nat),
    powSum (fun j => i * x ^ j) (as.map (· • G)) = (i * polyEval x as) • G
  | [], i => by rw [polyEval, Nat.mul_zero, zero_nsmul]; rfl
  | a :: as, i => by
    have e : (fun j => i * x ^ (j + 1)) = fun j => (i * x) * x ^ j := by
      funext j
      rw [pow_succ]
      ring
    show (i * x ^ 0) • a • G + powSum (fun j => i * x ^ (j + 1)) (as.map (· • G)) = _
    rw [e, powSum_mul G x as, ← mul_nsmul', ← add_nsmul, polyEval]
    congr 1
    ring

/-- Honest verifiers `a₀ G, a₁ G, …` combine to the value of the polynomial times `G`. -/
theorem powSum_honest {A : Type*} [AddCommGroup A] (G : A) (x : Nat) (as : List Nat) :
    powSum (fun j => x ^ j) (as.map (· • G)) = polyEval x as • G := by
  have h := powSum_mul G x as 1
  simp only [one_mul] at h
  exact h

/-! ## The loop -/

section
variable {A : Type*} [AddCommGroup A]

/-- What the loop computes, for a curve whose multiplication by the powers occurring multiplies by `μ` of them. -/
theorem loop_spec (o : A → Point) (n x : Nat) (hn : 0 < n) (S : A → Prop) (μ : Nat → Nat)
    (hadd : ∀ Q R, S Q → S R → S (Q + R) ∧ Point.add (some (o Q)) (some (o R)) = .ok (o (Q + R)))
    (hs : ∀ Q (m : Nat), S Q → S (m • Q)) :
    ∀ (Qs : List (A)) (i : Nat) (R : A), S R → (∀ Q ∈ Qs, S Q) →
      (∀ Q, ∀ j < Qs.length, S Q → Point.scalarMult (some (o Q)) (some ((i * x ^ (j + 1) % n : Nat) : Int)) =
        .ok (o (μ (i * x ^ (j + 1) % n) • Q))) →
      feldmanLoop n x i (o R) (Qs.map (o)) =
        .ok (o (R + powSum (fun j => μ (i * x ^ (j + 1) % n)) Qs)) := by
  intro Qs
  induction Qs with
  | nil =>
    intro i R hR _ _
    rw [powSum, add_zero]
    rfl
  | cons Q Qs ih =>
    intro i R hR hQ hm
    have e1 : Big.mod ((i : Int) * (x : Int)) n = .ok ((i * x % n : Nat) : Int) := by
      unfold Big.mod
      rw [if_neg (by omega)]
      push_cast
      rfl
    have hS := hQ Q (List.mem_cons_self ..)
    have h0 := hm Q 0 (by simp) hS
    simp only [Nat.zero_add, pow_one] at h0
    have ea := hadd R (μ (i * x % n) • Q) hR (hs _ _ hS)
    show (do
      let i ← Big.mod ((i : Int) * (x : Int)) n
      let c ← Point.scalarMult (some (o Q)) (some i)
      let rhs ← Point.add (some (o R)) (some c)
      feldmanLoop n x i rhs (Qs.map (o))) = _
    rw [e1, Res.bind_ok]
    rw [h0, Res.bind_ok, ea.2, Res.bind_ok]
    have key : ∀ j, i * x % n * x ^ (j + 1) % n = i * x ^ (j + 1 + 1) % n := by
      intro j
      rw [Nat.mod_mul_mod, show i * x * x ^ (j + 1) = i * x ^ (j + 1 + 1) by ring]
    have hih := ih (i * x % n) (R + μ (i * x % n) • Q) ea.1 (fun Q' h' => hQ Q' (List.mem_cons_of_mem _ h')) (by
      intro Q' j hj hS'
      rw [key]
      exact hm Q' (j + 1) (by simp; omega) hS')
    rw [hih]
    have ef : (fun j => μ (i * x % n * x ^ (j + 1) % n)) = fun j => μ (i * x ^ (j + 1 + 1) % n) := by
      funext j
      rw [key]
    rw [ef, powSum, add_assoc]
    simp only [Nat.zero_add, pow_one]

theorem verify_spec [DecidableEq A] {C : Ec.Curve} (o : A → Point) {n : Nat} (hn : 0 < n) (hC : C.N.val = n) (S : A → Prop) (μ : Nat → Nat) (G : A) (hG : S G)
    (hadd : ∀ Q R, S Q → S R → S (Q + R) ∧ Point.add (some (o Q)) (some (o R)) = .ok (o (Q + R)))
    (hs : ∀ Q (m : Nat), S Q → S (m • Q))
    (heq : ∀ Q R, S Q → S R → (o Q).equals (some (o R)) = decide (Q = R))
    (value : Int) (v : Nat) (hb : Point.newScalarBaseMult (some C) (some value) = .ok (o (v • G)))
    (t x : Nat) (hx : x < n) (Q0 : A) (Qs : List (A)) (ht : t ≤ Qs.length + 1) (h0 : S Q0) (hQ : ∀ Q ∈ Qs, S Q)
    (hm : ∀ Q, ∀ j < Qs.length, S Q → Point.scalarMult (some (o Q)) (some ((x ^ (j + 1) % n : Nat) : Int)) =
        .ok (o (μ (x ^ (j + 1) % n) • Q))) :
    feldmanVerify C t x value ((Q0 :: Qs).map (o)) =
      .ok (decide (v • G = Q0 + powSum (fun j => μ (x ^ (j + 1) % n)) Qs)) := by
  have hl := loop_spec o n x hn S μ hadd hs Qs 1 Q0 h0 hQ (by simpa only [one_mul] using hm)
  simp only [one_mul] at hl
  have hSs : ∀ (e : Nat → Nat) (l : List (A)), (∀ Q ∈ l, S Q) → ∀ R, S R → S (R + powSum e l) := by
    intro e l
    induction l generalizing e with
    | nil => intro _ R hR; rw [powSum, add_zero]; exact hR
    | cons Q l ih =>
      intro h R hR
      rw [powSum, ← add_assoc]
      exact ih _ (fun Q' h' => h Q' (List.mem_cons_of_mem _ h')) _ ((hadd _ _ hR (hs _ _ (h Q (List.mem_cons_self ..)))).1)
  unfold feldmanVerify
  rw [if_neg (by rw [List.length_map, List.length_cons]; omega), if_neg (by rw [hC]; omega), List.map_cons]
  dsimp only
  rw [hC]
  have hl' : feldmanLoop (n : Int) (x : Int) 1 (o Q0) (Qs.map (o)) = _ := hl
  rw [hl', Res.bind_ok, hb, Res.bind_ok, heq _ _ (hs _ _ hG) (hSs _ _ hQ _ h0)]

end

/-! ## Any curve of the standard library -/

section
variable {p : Nat} [Fact p.Prime] {a b : ZMod p} {C : Ec.Curve} {n : Nat} {G : Weier.Pt a b}

/-- **C111** `Feldman.Verify` on point objects, for any `elliptic.Curve`: with verifiers `Q₀, Q₁, …`, at least as many as the threshold, a share
`(x, value)` is accepted exactly if `value G = Q₀ + x Q₁ + x² Q₂ + …`; it neither fails nor panics for an identifier below the order -/
theorem C111_feldman (I : Is C n G) (t x : Nat) (value : Int) (Q0 : Weier.Pt a b) (Qs : List (Weier.Pt a b)) (hx : x < n) (ht : t ≤ Qs.length + 1) :
    feldmanVerify C t x value ((Q0 :: Qs).map (Point.of C)) = .ok (decide (value • G = powSum (fun j => x ^ j) (Q0 :: Qs))) := by
  have hn : 0 < n := by have := I.odd; omega
  have hmod : ∀ (m : Nat) (Q : Weier.Pt a b), (m % n) • Q = m • Q := by
    intro m Q
    conv_rhs => rw [← Nat.mod_add_div m n, add_nsmul, mul_nsmul, I.kills, nsmul_zero, add_zero]
  have h := verify_spec (C := C) (Point.of C) hn I.order (fun _ : Weier.Pt a b => True) (fun k => k) G trivial
    (fun Q R _ _ => ⟨trivial, Ec.C109_add I Q R⟩) (fun _ _ _ => trivial)
    (fun Q R _ _ => by rw [Bool.eq_iff_iff, decide_eq_true_eq]; exact (Ec.C109_predicates I Q R).2.2.1) value (value % (n : Int)).toNat
    (by rw [Ec.zsmul_mod I]; exact (Ec.C109_scalar_mult I G value).2) t x hx Q0 Qs ht trivial (fun _ _ => trivial)
    (by
      intro Q j _ _
      have := (Ec.C109_scalar_mult I Q ((x ^ (j + 1) % n : Nat) : Int)).1
      rw [natCast_zsmul] at this
      exact this)
  have hp : ∀ (e : Nat → Nat) (l : List (Weier.Pt a b)), powSum (fun j => e j % n) l = powSum e l := by
    intro e l
    induction l generalizing e with
    | nil => rfl
    | cons Q l ih =>
      rw [powSum, powSum, hmod, ih (fun j => e (j + 1))]
  rw [h, hp (fun j => x ^ (j + 1)), Ec.zsmul_mod I]
  congr 2
  rw [powSum, pow_zero, one_nsmul]

end

/-- **C111** for any curve object: fewer verifiers than the threshold are an error; otherwise an identifier that is not below the order, or no
verifier at all, panics -/
theorem C111_feldman_errors (C : Ec.Curve) (t x : Nat) (value : Int) (l : List Point) :
    (l.length < t → feldmanVerify C t x value l = .err) ∧
    (t ≤ l.length → C.N.val ≤ (x : Int) → feldmanVerify C t x value l = .panic) ∧
    (feldmanVerify C 0 x value [] = .panic) := by
  refine ⟨fun h => ?_, fun h h2 => ?_, ?_⟩
  · unfold feldmanVerify
    rw [if_pos h]
  · unfold feldmanVerify
    rw [if_neg (by omega), if_pos h2]
  · unfold feldmanVerify
    rw [if_neg (by simp)]
    split <;> rfl

/-! ## The BLS12-381 curve -/

open Verif.Bls381.G1 (PP G Rep)

theorem on_of (a : Nat) {P : PP} (h : Fq.q • P = 0) : Point.isValid (Point.of (curve a) P) = .ok true := by
  unfold Point.isValid Point.isOnCurve Point.of
  dsimp only
  rw [show (curve a).isOnCurve (coords P).1 (coords P).2 = true from (C111_is_on_curve _ _).2 ⟨P, coords_stands h⟩]
  rfl

theorem checked_of (a : Nat) {P : PP} (h : Fq.q • P = 0) :
    Point.checked ⟨curve a, some (coords P).1, some (coords P).2⟩ = .ok (Point.of (curve a) P) := by
  unfold Point.checked
  rw [show Point.isValid ⟨curve a, some (coords P).1, some (coords P).2⟩ = .ok true from on_of a h]
  rfl

theorem add_of (a : Nat) {P Q : PP} (hP : Fq.q • P = 0) (hQ : Fq.q • Q = 0) :
    Fq.q • (P + Q) = 0 ∧ Point.add (some (Point.of (curve a) P)) (some (Point.of (curve a) Q)) = .ok (Point.of (curve a) (P + Q)) := by
  have hs : Fq.q • (P + Q) = 0 := by rw [nsmul_add, hP, hQ, add_zero]
  refine ⟨hs, ?_⟩
  unfold Point.add Point.of
  dsimp only
  rw [Ec.same_refl, if_neg (by decide)]
  have e : (curve a).add (coords P).1 (coords P).2 (coords Q).1 (coords Q).2 = .ok (coords (P + Q)) := by
    show orPanic (add _ _ _ _) = _
    rw [((C111_add _ _ _ _).1 P Q (coords_stands hP) (coords_stands hQ)).1]
    rfl
  rw [e, Res.bind_ok]
  exact checked_of a hs

theorem equals_of (a : Nat) {P Q : PP} (hP : Fq.q • P = 0) (hQ : Fq.q • Q = 0) :
    (Point.of (curve a) P).equals (some (Point.of (curve a) Q)) = decide (P = Q) := by
  unfold Point.equals Point.of
  dsimp only
  rw [Ec.same_refl, if_neg (by decide), Bool.eq_iff_iff, decide_eq_true_eq, Ec.cte_and]
  exact ⟨fun h => coords_inj hP hQ (Prod.ext h.1 h.2), fun h => by rw [h]; exact ⟨rfl, rfl⟩⟩

theorem q_pos : (0 : Int) < (Fq.q : Int) ∧ (curve 0).N.val = (Fq.q : Int) := by decide +kernel

theorem reduce_q (a : Nat) (k : Int) :
    Ec.reduceModN (curve a) k = .ok (k % (Fq.q : Int)) ∧ (Big.bytes (k % (Fq.q : Int))) = natToBE (k % (Fq.q : Int)).toNat ∧
      (k % (Fq.q : Int)).toNat < Fq.q := by
  have hn := q_pos.1
  have h := Int.emod_nonneg k (ne_of_gt hn)
  have h2 := Int.emod_lt_of_pos k hn
  refine ⟨?_, ?_, by omega⟩
  · unfold Ec.reduceModN Big.mod
    rw [show (curve a).N.val = (Fq.q : Int) from q_pos.2, if_neg (ne_of_gt hn)]
  · unfold Big.bytes
    congr 1
    omega

theorem be_len {m : Nat} (h : m < Fq.q) : leToNat (natToBE m) < 2 ^ 256 := by
  have h1 := leToNat_lt (natToBE m)
  have h2 : (natToBE m).length ≤ 32 := by
    rw [length_natToBE, byteLen_le_iff]
    exact lt_trans h (by decide +kernel)
  have h3 : (256 : Nat) ^ (natToBE m).length ≤ 256 ^ 32 := Nat.pow_le_pow_right (by omega) h2
  have e' : (256 : Nat) ^ 32 = 2 ^ 256 := by norm_num
  omega

theorem zsmul_q {P : PP} (h : Fq.q • P = 0) (k : Int) : (k % (Fq.q : Int)).toNat • P = k • P := by
  have h0 := Int.emod_nonneg k (ne_of_gt q_pos.1)
  rw [← natCast_zsmul, Int.toNat_of_nonneg h0]
  conv_rhs => rw [← Int.emod_add_mul_ediv k (Fq.q : Int), add_zsmul, mul_zsmul', natCast_zsmul, h, smul_zero, add_zero]

/-- `NewScalarBaseMult` is right for every integer. -/
theorem base_of (a : Nat) (k : Int) : Point.newScalarBaseMult (some (curve a)) (some k) = .ok (Point.of (curve a) (k • G)) := by
  obtain ⟨h1, h2, h3⟩ := reduce_q a k
  unfold Point.newScalarBaseMult
  dsimp only
  rw [h1, Res.bind_ok, h2]
  have e : (curve a).scalarBaseMult (natToBE (k % (Fq.q : Int)).toNat) = .ok (coords (k • G)) := by
    show orPanic (scalarBaseMult _) = _
    rw [C111_base_mult, beToNat_natToBE, Nat.mod_eq_of_lt (lt_trans h3 (by decide +kernel)), if_pos h3, zsmul_q G1.order_G]
    rfl
  rw [e, Res.bind_ok]
  exact checked_of a (by rw [smul_comm, G1.order_G, smul_zero])

/-- `ScalarMult` multiplies by the number with the bytes in the opposite order, and panics if that is not below the order. -/
theorem mult_of (a : Nat) {P : PP} (h : Fq.q • P = 0) (k : Int) :
    Point.scalarMult (some (Point.of (curve a) P)) (some k) =
      (if leToNat (natToBE (k % (Fq.q : Int)).toNat) < Fq.q then .ok (Point.of (curve a) (leToNat (natToBE (k % (Fq.q : Int)).toNat) • P)) else .panic) := by
  obtain ⟨h1, h2, h3⟩ := reduce_q a k
  unfold Point.scalarMult Point.of
  dsimp only
  rw [h1, Res.bind_ok, h2]
  have e : (curve a).scalarMult (coords P).1 (coords P).2 (natToBE (k % (Fq.q : Int)).toNat) =
      orPanic (.ok (if leToNat (natToBE (k % (Fq.q : Int)).toNat) < Fq.q then
        some (coords (leToNat (natToBE (k % (Fq.q : Int)).toNat) • P)) else none)) := by
    show orPanic (scalarMult _ _ _) = _
    rw [scalarMult_spec (coords_stands h), Nat.mod_eq_of_lt (be_len h3)]
  rw [e]
  by_cases hq : leToNat (natToBE (k % (Fq.q : Int)).toNat) < Fq.q
  · rw [if_pos hq, if_pos hq]
    show (Res.ok (coords _)).bind _ = _
    exact checked_of a (kills h _)
  · rw [if_neg hq, if_neg hq]
    rfl

theorem le_small {m : Nat} (h : m < 256) : leToNat (natToBE m) = m := by
  have hl : (natToBE m).length ≤ 1 := by
    rw [length_natToBE, byteLen_le_iff]
    omega
  have hb := beToNat_natToBE m
  match hh : natToBE m, hl with
  | [], _ => rw [hh] at hb; exact hb
  | [c], _ =>
    rw [hh] at hb
    rw [← hb]
    show c.toNat + 256 * 0 = _
    rw [← leToNat_reverse]
    rfl

/-- **C111** operations on point objects of the BLS12-381 curve: addition, comparison and `NewScalarBaseMult` are those of the group for every
integer; `ScalarMult` is the multiple when the reduced scalar is below 256 -/
theorem C111_points_partial (a : Nat) (P Q : PP) (k : Int) (hP : Fq.q • P = 0) (hQ : Fq.q • Q = 0) :
    Point.add (some (Point.of (curve a) P)) (some (Point.of (curve a) Q)) = .ok (Point.of (curve a) (P + Q)) ∧
    (Point.of (curve a) P).equals (some (Point.of (curve a) Q)) = decide (P = Q) ∧
    Point.newScalarBaseMult (some (curve a)) (some k) = .ok (Point.of (curve a) (k • G)) ∧
    (k % (Fq.q : Int) < 256 → Point.scalarMult (some (Point.of (curve a) P)) (some k) = .ok (Point.of (curve a) (k • P))) := by
  refine ⟨(add_of a hP hQ).2, equals_of a hP hQ, base_of a k, fun h => ?_⟩
  have h3 : (k % (Fq.q : Int)).toNat < 256 := by
    have := Int.emod_nonneg k (ne_of_gt q_pos.1)
    omega
  rw [mult_of a hP, le_small h3, if_pos (lt_trans h3 (by decide +kernel)), zsmul_q hP]

/-- `Feldman.Verify` on this curve: the powers are read backwards. -/
theorem bls_verify (a t x : Nat) (value : Int) (Q0 : PP) (Qs : List PP) (hx : x < Fq.q) (ht : t ≤ Qs.length + 1) (h0 : Fq.q • Q0 = 0)
    (hQ : ∀ Q ∈ Qs, Fq.q • Q = 0) (hm : ∀ j < Qs.length, leToNat (natToBE (x ^ (j + 1) % Fq.q)) < Fq.q) :
    feldmanVerify (curve a) t x value ((Q0 :: Qs).map (Point.of (curve a))) =
      .ok (decide (value • G = Q0 + powSum (fun j => leToNat (natToBE (x ^ (j + 1) % Fq.q))) Qs)) := by
  have hn : 0 < Fq.q := by decide +kernel
  have h := verify_spec (C := curve a) (Point.of (curve a)) hn (show (curve a).N.val = (Fq.q : Int) from q_pos.2) (fun P : PP => Fq.q • P = 0)
    (fun k => leToNat (natToBE k)) G G1.order_G (fun Q R hQ hR => add_of a hQ hR) (fun Q m h => kills h m)
    (fun Q R hQ hR => equals_of a hQ hR) value (value % (Fq.q : Int)).toNat
    (by rw [zsmul_q G1.order_G]; exact base_of a value) t x hx Q0 Qs ht h0 hQ
    (by
      intro Q j hj hS
      have := mult_of a hS ((x ^ (j + 1) % Fq.q : Nat) : Int)
      rw [← Int.natCast_mod, Nat.mod_mod, Int.toNat_natCast, if_pos (hm j hj)] at this
      exact this)
  rw [h, zsmul_q G1.order_G]

/-- **C111** on the BLS12-381 curve `Feldman.Verify` is right as long as every power of the identifier that occurs is below 256 -/
theorem C111_bls_feldman_partial (a t x : Nat) (value : Int) (Q0 : PP) (Qs : List PP) (ht : t ≤ Qs.length + 1) (h0 : Fq.q • Q0 = 0)
    (hQ : ∀ Q ∈ Qs, Fq.q • Q = 0) (hx : x < 256) (hp : x ^ Qs.length < 256) :
    feldmanVerify (curve a) t x value ((Q0 :: Qs).map (Point.of (curve a))) = .ok (decide (value • G = powSum (fun j => x ^ j) (Q0 :: Qs))) := by
  have hq : 256 < Fq.q := by decide +kernel
  have hj : ∀ j < Qs.length, x ^ (j + 1) % Fq.q = x ^ (j + 1) ∧ leToNat (natToBE (x ^ (j + 1) % Fq.q)) = x ^ (j + 1) ∧ x ^ (j + 1) < 256 := by
    intro j hj
    have hl : x ^ (j + 1) < 256 := by
      rcases Nat.eq_zero_or_pos x with h | h
      · rw [h, Nat.zero_pow (by omega)]; omega
      · exact lt_of_le_of_lt (Nat.pow_le_pow_right h (by omega)) hp
    have e := Nat.mod_eq_of_lt (lt_trans hl hq)
    exact ⟨e, by rw [e, le_small hl], hl⟩
  rw [bls_verify a t x value Q0 Qs (lt_trans hx hq) ht h0 hQ (fun j h => by rw [(hj j h).2.1]; exact lt_trans (hj j h).2.2 hq)]
  have hp : ∀ (e f : Nat → Nat) (l : List PP), (∀ j < l.length, e j = f j) → powSum e l = powSum f l := by
    intro e f l
    induction l generalizing e f with
    | nil => intro _; rfl
    | cons Q l ih =>
      intro h
      rw [powSum, powSum, h 0 (by simp), ih _ (fun j => f (j + 1)) (fun j hj => h (j + 1) (by simp; omega))]
  have e : powSum (fun j => x ^ j) (Q0 :: Qs) = Q0 + powSum (fun j => x ^ (j + 1)) Qs := by rw [powSum, pow_zero, one_nsmul]
  rw [hp _ (fun j => x ^ (j + 1)) Qs (fun j h => (hj j h).2.1), e]

/-- **C111** (negation of: honest shares are accepted) on the BLS12-381 curve with the honest verifiers of the polynomial `a₀ + a₁ X + a₂ X²`,
the honest share of participant 16 is refused unless `a₂ = 0` -/
theorem C111_bls_feldman_violated (a a0 a1 a2 : Nat) :
    polyEval 16 [a0, a1, a2] = a0 + 16 * a1 + 256 * a2 ∧
    (feldmanVerify (curve a) 3 16 (polyEval 16 [a0, a1, a2] : Nat) ([a0, a1, a2].map fun c => Point.of (curve a) (c • G)) = .ok true ↔
      a2 % Fq.q = 0) := by
  have e0 : polyEval 16 [a0, a1, a2] = a0 + 16 * a1 + 256 * a2 := by
    simp only [polyEval]
    ring
  refine ⟨e0, ?_⟩
  have h := bls_verify a 3 16 (polyEval 16 [a0, a1, a2] : Nat) (a0 • G) [a1 • G, a2 • G] (by decide +kernel) (le_refl 3) (kills G1.order_G _)
    (by
      intro Q hQ
      rcases List.mem_cons.1 hQ with rfl | hQ
      · exact kills G1.order_G _
      · rw [List.mem_singleton.1 hQ]; exact kills G1.order_G _)
    (fun j hj => by
      rcases j with _ | _ | j
      · decide +kernel
      · decide +kernel
      · exact absurd hj (by simp))
  have es : powSum (fun j => leToNat (natToBE (16 ^ (j + 1) % Fq.q))) [a1 • G, a2 • G] = (16 * a1 + a2) • G := by
    rw [powSum, powSum, powSum, add_zero]
    rw [show leToNat (natToBE (16 ^ (0 + 1) % Fq.q)) = 16 by decide +kernel,
      show leToNat (natToBE (16 ^ (0 + 1 + 1) % Fq.q)) = 1 by decide +kernel, one_nsmul, add_nsmul, mul_nsmul']
  have h' : feldmanVerify (curve a) 3 16 (polyEval 16 [a0, a1, a2] : Nat) ([a0, a1, a2].map fun c => Point.of (curve a) (c • G)) = _ := h
  rw [h', es, e0]
  have hd : (Res.ok (decide (((a0 + 16 * a1 + 256 * a2 : Nat) : Int) • G = a0 • G + (16 * a1 + a2) • G)) = Res.ok true) ↔
      (a0 + 16 * a1 + 256 * a2) • G = (a0 + (16 * a1 + a2)) • G := by
    rw [natCast_zsmul, add_nsmul G a0 (16 * a1 + a2)]
    exact ⟨fun h => of_decide_eq_true (Res.ok.inj h), fun h => congrArg Res.ok (decide_eq_true h)⟩
  rw [hd, G1.C94_order.2.2.2 G _ _ G1.order_G G1.G_ne]
  have hc : Nat.Coprime Fq.q 255 := by decide +kernel
  constructor
  · intro hm
    have hm : a0 + (16 * a1 + a2) ≡ a0 + 16 * a1 + 256 * a2 [MOD Fq.q] := hm.symm
    have hdv := (Nat.modEq_iff_dvd' (by omega)).1 hm
    rw [show a0 + 16 * a1 + 256 * a2 - (a0 + (16 * a1 + a2)) = 255 * a2 by omega] at hdv
    exact Nat.mod_eq_zero_of_dvd (hc.dvd_of_dvd_mul_left hdv)
  · intro hz
    obtain ⟨c, hc⟩ := Nat.dvd_of_mod_eq_zero hz
    have h1 : a0 + (16 * a1 + a2) ≡ a0 + 16 * a1 + 256 * a2 [MOD Fq.q] := by
      refine (Nat.modEq_iff_dvd' (by omega)).2 ?_
      rw [show a0 + 16 * a1 + 256 * a2 - (a0 + (16 * a1 + a2)) = 255 * a2 by omega]
      exact Dvd.dvd.mul_left ⟨c, hc⟩ _
    exact h1.symm

/-- A concrete case: with `a₂ = 1` the honest share of participant 16 is refused. -/
example : feldmanVerify (curve 0) 3 16 (polyEval 16 [7, 5, 1] : Nat) ([7, 5, 1].map fun c => Point.of (curve 0) (c • G)) ≠ .ok true := by
  rw [Ne, (C111_bls_feldman_violated 0 7 5 1).2]
  decide +kernel

end Verif.V1Bls
