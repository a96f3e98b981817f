import Verif.Native.Point

/-!
# Windowed multiplication and bucket sums over any point type

`Ep.Mul`, `G1.Mul`, `G2.Mul` and the multi-scalar multiplications are the same loops over different point types.  The loops are
written once, over a record of the operations they call; the specification says that the operations represent those of an
abelian group.
-/

set_option linter.unusedSectionVars false

namespace Verif.Native
open Verif.Bytes

/-- The operations the loops call. -/
structure GOps (E : Type) where
  zero : E
  add : E → E → E
  double : E → E

namespace GOps
variable {E : Type} (O : GOps E)

/-- The table of `Mul` (crypto/core/curves/pallas_curve.go:841-847): the loop over `i = 2, 4, …, 14`.  The same lines are in
crypto/core/curves/native/bls12381/g1.go:715-723 and crypto/core/curves/native/bls12381/g2.go:683-691. -/
def table (point : E) : List E :=
  [2, 4, 6, 8, 10, 12, 14].foldl
    (fun t i =>
      let d := O.double (t.getD (i >>> 1) O.zero)
      t ++ [d, O.add d point])
    [O.zero, point]

/-- `Mul` on the little-endian bytes of the scalar (crypto/core/curves/pallas_curve.go:839-858); the window is the one of the
native curves. -/
def mulBytes (point : E) (bytes : List UInt8) : E :=
  let precomputed := O.table point
  (List.range 64).foldl
    (fun p k => O.add (O.double (O.double (O.double (O.double p)))) (precomputed.getD (Curve.window bytes (4 * k)).toNat O.zero))
    O.zero

/-- One bucket update: `bucket[i].Add(bucket[i], point)`. -/
def put (bs : List E) (i : Nat) (point : E) : List E := bs.set i (O.add (bs.getD i O.zero) point)

/-- The running sums over the buckets, last to first: `sum` and `acc` (crypto/core/curves/pallas_curve.go:1056-1061). -/
def runSum (bs : List E) : E × E :=
  bs.foldr (fun b st => let sum := O.add st.1 b; (sum, O.add st.2 sum)) (O.zero, O.zero)

/-- `w` doublings in a row. -/
def doubles (w : Nat) (e : E) : E := w.repeat O.double e

/-- The final loop over the windows, last to first (crypto/core/curves/pallas_curve.go:1065-1072). -/
def combine (w : Nat) (windows : List E) : E :=
  windows.foldr (fun W acc => O.add (O.doubles w acc) W) O.zero

end GOps

/-- The operations represent those of the group `G` through the relation `R`. -/
structure GOK {E G : Type} [AddCommGroup G] (O : GOps E) (R : E → G → Prop) : Prop where
  zero : R O.zero 0
  add : ∀ {e f : E} {P Q : G}, R e P → R f Q → R (O.add e f) (P + Q)
  double : ∀ {e : E} {P : G}, R e P → R (O.double e) (P + P)

section
variable {E G : Type} [AddCommGroup G] {O : GOps E} {R : E → G → Prop} (K : GOK O R)
include K

theorem gtable_step {t : List E} {e : E} {P : G} (he : R e P) (m : Nat) (hm : 0 < m) (hl : t.length = 2 * m)
    (ht : ∀ w, w < 2 * m → R (t.getD w O.zero) (w • P)) :
    (t ++ [O.double (t.getD m O.zero), O.add (O.double (t.getD m O.zero)) e]).length = 2 * (m + 1) ∧
    ∀ w, w < 2 * (m + 1) →
      R ((t ++ [O.double (t.getD m O.zero), O.add (O.double (t.getD m O.zero)) e]).getD w O.zero) (w • P) := by
  refine ⟨by rw [List.length_append, hl]; rfl, fun w hw => ?_⟩
  have hd := K.double (ht m (by omega))
  rw [← two_nsmul, ← mul_nsmul, Nat.mul_comm] at hd
  by_cases h : w < 2 * m
  · rw [List.getD_append _ _ _ _ (by omega)]
    exact ht w h
  · rw [List.getD_append_right _ _ _ _ (by omega), hl]
    by_cases h0 : w = 2 * m
    · subst h0
      rw [Nat.sub_self]
      exact hd
    · have : w = 2 * m + 1 := by omega
      subst this
      rw [Nat.add_sub_cancel_left, add_nsmul, one_nsmul]
      exact K.add hd he

theorem gtable_spec {e : E} {P : G} (he : R e P) : ∀ w, w < 16 → R ((O.table e).getD w O.zero) (w • P) := by
  have h1 : ∀ w, w < 2 * 1 → R ([O.zero, e].getD w O.zero) (w • P) := by
    intro w hw
    have : w = 0 ∨ w = 1 := by omega
    rcases this with rfl | rfl
    · rw [zero_nsmul]; exact K.zero
    · rw [one_nsmul]; exact he
  have s1 := gtable_step K he 1 (by omega) rfl h1
  have s2 := gtable_step K he 2 (by omega) s1.1 s1.2
  have s3 := gtable_step K he 3 (by omega) s2.1 s2.2
  have s4 := gtable_step K he 4 (by omega) s3.1 s3.2
  have s5 := gtable_step K he 5 (by omega) s4.1 s4.2
  have s6 := gtable_step K he 6 (by omega) s5.1 s5.2
  have s7 := gtable_step K he 7 (by omega) s6.1 s6.2
  exact s7.2

/-- The windowed multiplication computes the multiple by the integer the bytes stand for. -/
theorem gmulBytes_spec {e : E} {P : G} (he : R e P) (v : Nat) (hv : v < 2 ^ 256) :
    R (O.mulBytes e (natToLE 32 v)) (v • P) := by
  have key : ∀ k, k ≤ 64 → R ((List.range k).foldl
      (fun p k => O.add (O.double (O.double (O.double (O.double p))))
        ((O.table e).getD (Curve.window (natToLE 32 v) (4 * k)).toNat O.zero)) O.zero)
      ((v / 16 ^ (64 - k)) • P) := by
    intro k
    induction k with
    | zero =>
      intro _
      rw [List.range_zero, List.foldl_nil, Nat.sub_zero, Nat.div_eq_of_lt (by
        have : (16 : Nat) ^ 64 = 2 ^ 256 := by decide +kernel
        omega), zero_nsmul]
      exact K.zero
    | succ k ih =>
      intro hk
      rw [List.range_succ, List.foldl_append, List.foldl_cons, List.foldl_nil]
      have h1 := K.double (K.double (K.double (K.double (ih (by omega)))))
      simp only [← two_nsmul, ← mul_nsmul] at h1
      have h2 := gtable_spec K he (Curve.window (natToLE 32 v) (4 * k)).toNat (by
        rw [window_spec v k (by omega)]; omega)
      have h3 := K.add h1 h2
      rw [window_spec v k (by omega), ← add_nsmul] at h3
      rw [window_spec v k (by omega)]
      have e1 : 64 - k = (64 - (k + 1)) + 1 := by omega
      have e2 : 63 - k = 64 - (k + 1) := by omega
      have : v / 16 ^ (64 - k) * 2 * 2 * 2 * 2 + v / 16 ^ (63 - k) % 16 = v / 16 ^ (64 - (k + 1)) := by
        rw [e1, e2, pow_succ, ← Nat.div_div_eq_div_mul]
        omega
      rw [this] at h3
      exact h3
  have := key 64 (le_refl _)
  rw [Nat.sub_self, pow_zero, Nat.div_one] at this
  exact this

omit K in
/-- The weighted sum of the buckets: bucket `i` counts `i + 1` times. -/
def wsum : List G → G
  | [] => 0
  | B :: Bs => wsum Bs + (B + Bs.sum)

/-- A bucket update adds the point with the weight of the bucket. -/
theorem put_spec {bs : List E} {Bs : List G} (h : List.Forall₂ R bs Bs) {i : Nat} (hi : i < bs.length) {e : E} {P : G}
    (he : R e P) : ∃ Bs', List.Forall₂ R (O.put bs i e) Bs' ∧ wsum Bs' = wsum Bs + (i + 1) • P ∧ Bs'.sum = Bs.sum + P := by
  induction h generalizing i with
  | nil => exact absurd hi (by simp)
  | @cons b B bs Bs hb h ih =>
    cases i with
    | zero =>
      refine ⟨(B + P) :: Bs, List.Forall₂.cons ?_ h, ?_, ?_⟩
      · exact K.add hb he
      · rw [wsum, wsum, zero_add, one_nsmul]; abel
      · rw [List.sum_cons, List.sum_cons]; abel
    | succ i =>
      obtain ⟨Bs', h1, h2, h3⟩ := ih (i := i) (by simpa using hi)
      refine ⟨B :: Bs', List.Forall₂.cons hb h1, ?_, ?_⟩
      · rw [wsum, wsum, h2, h3, succ_nsmul (n := i + 1)]; abel
      · rw [List.sum_cons, List.sum_cons, h3]; abel

omit K in
theorem put_length (bs : List E) (i : Nat) (e : E) : (O.put bs i e).length = bs.length := List.length_set ..

theorem runSum_spec {bs : List E} {Bs : List G} (h : List.Forall₂ R bs Bs) :
    R (O.runSum bs).1 Bs.sum ∧ R (O.runSum bs).2 (wsum Bs) := by
  induction h with
  | nil => exact ⟨K.zero, K.zero⟩
  | @cons b B bs Bs hb h ih =>
    have h1 := K.add ih.1 hb
    have h2 := K.add ih.2 h1
    rw [add_comm] at h1
    rw [add_comm Bs.sum B] at h2
    rw [List.sum_cons, wsum]
    exact ⟨h1, h2⟩

theorem doubles_spec (w : Nat) {e : E} {P : G} (he : R e P) : R (O.doubles w e) (2 ^ w • P) := by
  induction w with
  | zero => rw [pow_zero, one_nsmul]; exact he
  | succ w ih =>
    have := K.double ih
    rw [← two_nsmul, ← mul_nsmul] at this
    rw [pow_succ]
    exact this

omit K in
theorem replicate_zero (n : Nat) (h0 : R O.zero 0) :
    List.Forall₂ R (List.replicate n O.zero) (List.replicate n (0 : G)) := by
  induction n with
  | zero => exact List.Forall₂.nil
  | succ n ih => exact List.Forall₂.cons h0 ih

omit K in
theorem wsum_zero (n : Nat) : wsum (List.replicate n (0 : G)) = 0 := by
  induction n with
  | zero => rfl
  | succ n ih => rw [List.replicate_succ, wsum, ih, List.sum_replicate, nsmul_zero]; abel

/-- The windows hold the digits; the final loop is Horner's rule. -/
theorem combine_spec (w : Nat) (l : List (G × Nat)) (W : Nat → E) (n : Nat) : ∀ s : Nat,
    (∀ j, s ≤ j → j < s + n → R (W j) ((l.map fun t => (t.2 / 2 ^ (w * j) % 2 ^ w) • t.1).sum)) →
    R (O.combine w ((List.range' s n).map W)) ((l.map fun t => (t.2 / 2 ^ (w * s) % 2 ^ (w * n)) • t.1).sum) := by
  induction n with
  | zero =>
    intro s _
    rw [List.range'_zero, List.map_nil]
    have : (l.map fun t => (t.2 / 2 ^ (w * s) % 2 ^ (w * 0)) • t.1).sum = 0 := by
      apply List.sum_eq_zero
      intro x hx
      obtain ⟨t, _, rfl⟩ := List.mem_map.1 hx
      rw [Nat.mul_zero, pow_zero, Nat.mod_one, zero_nsmul]
    rw [this]
    exact K.zero
  | succ n ih =>
    intro s hW
    rw [List.range'_succ, List.map_cons]
    have h1 := ih (s + 1) (fun j h1 h2 => hW j (by omega) (by omega))
    have h2 := K.add (doubles_spec K w h1) (hW s (le_refl _) (by omega))
    have e : (2 ^ w • (l.map fun t => (t.2 / 2 ^ (w * (s + 1)) % 2 ^ (w * n)) • t.1).sum) +
        (l.map fun t => (t.2 / 2 ^ (w * s) % 2 ^ w) • t.1).sum =
        (l.map fun t => (t.2 / 2 ^ (w * s) % 2 ^ (w * (n + 1))) • t.1).sum := by
      clear hW h1 h2 ih
      induction l with
      | nil => simp
      | cons t l ih =>
        simp only [List.map_cons, List.sum_cons]
        rw [← ih, nsmul_add]
        have : t.2 / 2 ^ (w * s) % 2 ^ (w * (n + 1)) =
            t.2 / 2 ^ (w * s) % 2 ^ w + 2 ^ w * (t.2 / 2 ^ (w * (s + 1)) % 2 ^ (w * n)) := by
          rw [Nat.mul_add, Nat.mul_one, Nat.add_comm (w * n) w, pow_add, Nat.mod_mul, Nat.mul_add, Nat.mul_one, pow_add,
            Nat.div_div_eq_div_mul]
        rw [this, add_nsmul, mul_nsmul']
        abel
    rw [e] at h2
    exact h2

end

end Verif.Native
