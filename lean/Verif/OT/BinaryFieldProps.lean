import Verif.OT.BinaryField
import Verif.Base.Tactics
import Mathlib.Algebra.Polynomial.Div
import Mathlib.Algebra.Polynomial.Monic
import Mathlib.Algebra.Field.ZMod
import Mathlib.RingTheory.AdjoinRoot
import Mathlib.Tactic.ComputeDegree
import Mathlib.Tactic.FinCases

/-! # Property C26: KOS field multiplication -/

set_option linter.unusedSectionVars false

namespace Verif.OT.BinaryField
open Polynomial

abbrev P2 := (ZMod 2)[X]

/-! ### Specification -/

/-- bit `n` of a 32-byte vector, little-endian across and within bytes -/
def bitD (A : Digest) (n : Nat) : Bool := (at' A (n / 8)).toNat.testBit (n % 8)

/-- the polynomial over GF(2) a 32-byte vector stands for: coefficient `n` is bit `n` -/
noncomputable def polyOf (A : Digest) : P2 :=
  ∑ n ∈ Finset.range 256, if bitD A n then X ^ n else 0

/-- the reduction polynomial of the code's comment -/
noncomputable def f : P2 := X ^ 256 + X ^ 10 + X ^ 5 + X ^ 2 + 1

/-! ### Proof -/

noncomputable def wp {n : Nat} (w : BitVec n) : P2 :=
  ∑ k ∈ Finset.range n, if w.getLsbD k then X ^ k else 0

theorem sum_coeff (n : Nat) (b : Nat → Bool) (j : Nat) :
    (∑ k ∈ Finset.range n, if b k then (X : P2) ^ k else 0).coeff j =
      if j < n ∧ b j then 1 else 0 := by
  rw [finsetSum_coeff]
  have : ∀ k ∈ Finset.range n, ((if b k then (X : P2) ^ k else 0) : P2).coeff j =
      if k = j then (if b j then 1 else 0) else 0 := by
    intro k _
    by_cases hb : b k
    · simp only [hb, if_true, coeff_X_pow]
      by_cases h : k = j
      · subst h; simp [hb]
      · simp [h, Ne.symm h]
    · by_cases h : k = j
      · subst h; simp [hb]
      · simp [hb, h]
  rw [Finset.sum_congr rfl this, Finset.sum_ite_eq' ]
  by_cases h : j < n
  · by_cases hb : b j <;> simp [h, hb]
  · simp [h]

theorem wp_coeff {n : Nat} (w : BitVec n) (j : Nat) :
    (wp w).coeff j = if w.getLsbD j then 1 else 0 := by
  unfold wp
  rw [sum_coeff]
  by_cases h : j < n
  · simp [h]
  · simp [h, BitVec.getLsbD_of_ge w j (by omega)]

theorem z2 : (1 : ZMod 2) + 1 = 0 := by decide

theorem wp_xor {n : Nat} (a b : BitVec n) : wp (a ^^^ b) = wp a + wp b := by
  ext j
  rw [coeff_add, wp_coeff, wp_coeff, wp_coeff, BitVec.getLsbD_xor]
  cases a.getLsbD j <;> cases b.getLsbD j <;> simp [z2]

theorem wp_zero {n : Nat} : wp (0 : BitVec n) = 0 := by
  ext j
  rw [wp_coeff]; simp

theorem mask_bit (a : Word) (k : Nat) (i : Nat) (hi : i < 64) :
    (mask a k).getLsbD i = a.getLsbD k := by
  have h1 : (a >>> k) &&& 1 = if a.getLsbD k then 1 else 0 := by
    apply BitVec.eq_of_getLsbD_eq
    intro j hj
    rw [BitVec.getLsbD_and, BitVec.getLsbD_ushiftRight]
    by_cases h0 : j = 0
    · subst h0
      cases a.getLsbD k <;> simp
    · have : (1 : BitVec 64).getLsbD j = false := by
        rw [show (1 : BitVec 64) = BitVec.ofNat 64 1 from rfl, BitVec.getLsbD_ofNat]
        rw [Nat.testBit_lt_two_pow (lt_of_lt_of_le (by norm_num : 1 < 2 ^ 1)
          (Nat.pow_le_pow_right (by norm_num) (by omega))), Bool.and_false]
      rw [this]
      cases a.getLsbD k
      · simp
      · simp only [Bool.and_false, if_true]; exact this.symm
  unfold mask
  rw [h1]
  cases a.getLsbD k
  · simp
  · simp only [if_true]
    rw [show (-1 : BitVec 64) = BitVec.allOnes 64 from by decide, BitVec.getLsbD_allOnes]
    simp [hi]

theorem wp_mask (b a : Word) (k : Nat) :
    wp (b &&& mask a k) = (if a.getLsbD k then 1 else 0) * wp b := by
  ext j
  have : ((if a.getLsbD k then 1 else 0 : P2) * wp b).coeff j =
      if a.getLsbD k then (wp b).coeff j else 0 := by
    cases a.getLsbD k <;> simp
  rw [this, wp_coeff, wp_coeff, BitVec.getLsbD_and]
  by_cases hj : j < 64
  · rw [mask_bit a k j hj]
    cases a.getLsbD k <;> simp
  · rw [BitVec.getLsbD_of_ge b j (by omega)]
    simp

/-- a left shift and the bits it pushes into the next word -/
theorem wp_shift (w : Word) (s : Nat) (h0 : 0 < s) (h : s < 64) :
    wp (w <<< s) + X ^ 64 * wp (w >>> (64 - s)) = X ^ s * wp w := by
  ext j
  rw [coeff_add, coeff_X_pow_mul', coeff_X_pow_mul', wp_coeff, wp_coeff, wp_coeff,
    BitVec.getLsbD_shiftLeft, BitVec.getLsbD_ushiftRight]
  by_cases hj : j < 64
  · rw [if_neg (by omega : ¬ 64 ≤ j), add_zero]
    by_cases hs : s ≤ j
    · simp [hj, hs, show ¬ j < s by omega]
    · simp [hs, show j < s by omega]
  · rw [if_pos (by omega : 64 ≤ j), if_pos (by omega : s ≤ j)]
    have e : 64 - s + (j - 64) = j - s := by omega
    rw [e]
    simp [hj]

/-- the polynomial of the first `m` words -/
noncomputable def vp (m : Nat) (c : Nat → Word) : P2 := ∑ i ∈ Finset.range m, X ^ (64 * i) * wp (c i)

theorem addRow_vp (c b : Nat → Word) (j : Nat) (hj : j < 4) (a : Word) (k : Nat) :
    vp 8 (addRow c b j (mask a k)) = vp 8 c + (if a.getLsbD k then 1 else 0) * X ^ (64 * j) * vp 5 b := by
  unfold vp addRow
  have h : j = 0 ∨ j = 1 ∨ j = 2 ∨ j = 3 := by omega
  rcases h with rfl | rfl | rfl | rfl <;>
  · cases h : a.getLsbD k <;> simp [Finset.sum_range_succ, wp_xor, wp_mask, h]
    all_goals ring

theorem shift1_vp (b : Nat → Word) (h : (b 4).getLsbD 63 = false) :
    vp 5 (shift1 b) = X * vp 5 b := by
  have hor : ∀ x y : Word, wp ((x <<< 1) ||| (y >>> 63)) = wp (x <<< 1) + wp (y >>> 63) := by
    intro x y
    have : (x <<< 1) ||| (y >>> 63) = (x <<< 1) ^^^ (y >>> 63) := by
      apply BitVec.eq_of_getLsbD_eq
      intro i hi
      rw [BitVec.getLsbD_or, BitVec.getLsbD_xor, BitVec.getLsbD_shiftLeft, BitVec.getLsbD_ushiftRight]
      by_cases h0 : i < 1
      · simp [h0]
      · rw [BitVec.getLsbD_of_ge y (63 + i) (by omega)]
        simp
    rw [this, wp_xor]
  have s := fun w => wp_shift w 1 (by norm_num) (by norm_num)
  simp only [show 64 - 1 = 63 from rfl, pow_one] at s
  have top : wp (b 4 >>> 63) = 0 := by
    ext j
    rw [wp_coeff, BitVec.getLsbD_ushiftRight, coeff_zero]
    by_cases h0 : j = 0
    · subst h0; rw [Nat.add_zero, h]; rfl
    · rw [BitVec.getLsbD_of_ge (b 4) (63 + j) (by omega)]; simp
  unfold vp shift1
  simp only [Finset.sum_range_succ, Finset.sum_range_zero, zero_add, hor, if_true,
    show ((4 : Nat) = 0) = False from by simp, show ((3 : Nat) = 0) = False from by simp,
    show ((2 : Nat) = 0) = False from by simp, show ((1 : Nat) = 0) = False from by simp, if_false,
    show 4 - 1 = 3 from rfl, show 3 - 1 = 2 from rfl, show 2 - 1 = 1 from rfl, show 1 - 1 = 0 from rfl]
  have s0 := s (b 0); have s1 := s (b 1); have s2 := s (b 2); have s3 := s (b 3); have s4 := s (b 4)
  rw [top, mul_zero, add_zero] at s4
  linear_combination (X ^ (64 * 0)) * s0 + X ^ (64 * 1) * s1 + X ^ (64 * 2) * s2 + X ^ (64 * 3) * s3
    + X ^ (64 * 4) * s4

/-- invariant of the comb loop after `k` rounds -/
structure Inv (a : Nat → Word) (B : P2) (k : Nat) (st : (Nat → Word) × (Nat → Word)) : Prop where
  b : vp 5 st.2 = X ^ k * B
  top : ∀ t, k ≤ t → (st.2 4).getLsbD t = false
  c : vp 8 st.1 = (∑ k' ∈ Finset.range k, ∑ j ∈ Finset.range 4,
        (if (a j).getLsbD k' then 1 else 0) * X ^ (64 * j) * X ^ k') * B

theorem combStep_inv (a : Nat → Word) (B : P2) (k : Nat) (hk : k < 64)
    (st : (Nat → Word) × (Nat → Word)) (h : Inv a B k st) : Inv a B (k + 1) (combStep a st k) := by
  constructor
  · simp only [combStep]
    rw [shift1_vp _ (h.top 63 (by omega)), h.b, pow_succ]; ring
  · intro t ht
    simp only [combStep, shift1]
    rw [if_neg (by norm_num), BitVec.getLsbD_or, BitVec.getLsbD_shiftLeft, BitVec.getLsbD_ushiftRight]
    rw [h.top (t - 1) (by omega)]
    rw [BitVec.getLsbD_of_ge _ (63 + t) (by omega)]
    simp
  · simp only [combStep]
    have e : List.range 4 = [0, 1, 2, 3] := rfl
    rw [e]
    simp only [List.foldl_cons, List.foldl_nil]
    rw [addRow_vp _ _ 3 (by norm_num), addRow_vp _ _ 2 (by norm_num), addRow_vp _ _ 1 (by norm_num),
      addRow_vp _ _ 0 (by norm_num), h.c, h.b, Finset.sum_range_succ]
    simp only [Finset.sum_range_succ _ 3, Finset.sum_range_succ _ 2, Finset.sum_range_succ _ 1,
      Finset.sum_range_succ _ 0, Finset.sum_range_zero]
    ring

theorem comb_inv (a b : Nat → Word) (hb : b 4 = 0) (n : Nat) (hn : n ≤ 64) :
    Inv a (vp 5 b) n ((List.range n).foldl (combStep a) ((fun _ => 0), b)) := by
  induction n with
  | zero =>
    constructor
    · simp
    · intro t _; simp [hb]
    · rw [Finset.sum_range_zero, zero_mul]; unfold vp; simp only [wp_zero, mul_zero, Finset.sum_const_zero, List.range_zero, List.foldl_nil]
  | succ n ih =>
    rw [List.range_succ, List.foldl_append]
    exact combStep_inv a _ n (by omega) _ (ih (by omega))

theorem condense_bit (A : Nat → UInt8) (w t : Nat) (ht : t < 64) :
    (condense A w).getLsbD t = (A (8 * w + t / 8)).toBitVec.getLsbD (t % 8) := by
  have key : ∀ m, m ≤ 8 → ((List.range m).foldl
      (fun acc k => acc ||| ((A (8 * w + k)).toBitVec.setWidth 64) <<< (k * 8)) (0 : Word)).getLsbD t =
      (decide (t / 8 < m) && (A (8 * w + t / 8)).toBitVec.getLsbD (t % 8)) := by
    intro m
    induction m with
    | zero => intro _; simp
    | succ m ih =>
      intro hm
      rw [List.range_succ, List.foldl_append]
      simp only [List.foldl_cons, List.foldl_nil]
      rw [BitVec.getLsbD_or, ih (by omega), BitVec.getLsbD_shiftLeft, BitVec.getLsbD_setWidth]
      rcases lt_trichotomy (t / 8) m with h | h | h
      · have h1 : t < m * 8 := by omega
        simp [h, h1, show t / 8 < m + 1 by omega]
      · have h1 : ¬ t < m * 8 := by omega
        have h2 : t - m * 8 = t % 8 := by omega
        have h3 : t % 8 < 64 := by omega
        rw [← h] at h1 h2 ⊢
        simp [ht, h1, h2, h3]
      · have h2 : (A (8 * w + m)).toBitVec.getLsbD (t - m * 8) = false :=
          BitVec.getLsbD_of_ge _ _ (by omega)
        rw [h2]
        simp [show ¬ t / 8 < m by omega, show ¬ t / 8 < m + 1 by omega]
  have := key 8 le_rfl
  rw [show decide (t / 8 < 8) = true from by simp; omega, Bool.true_and] at this
  exact this

theorem vp_coeff (m : Nat) (c : Nat → Word) (n : Nat) :
    (vp m c).coeff n = if n / 64 < m ∧ (c (n / 64)).getLsbD (n % 64) then 1 else 0 := by
  unfold vp
  rw [finsetSum_coeff]
  have : ∀ i ∈ Finset.range m, (X ^ (64 * i) * wp (c i)).coeff n =
      if i = n / 64 then (if (c (n / 64)).getLsbD (n % 64) then (1 : ZMod 2) else 0) else 0 := by
    intro i _
    rw [coeff_X_pow_mul', wp_coeff]
    by_cases h : i = n / 64
    · subst h
      rw [if_pos (by omega), if_pos rfl, show n - 64 * (n / 64) = n % 64 by omega]
    · rw [if_neg h]
      by_cases h2 : 64 * i ≤ n
      · rw [if_pos h2, BitVec.getLsbD_of_ge _ _ (by omega)]; simp
      · rw [if_neg h2]
  rw [Finset.sum_congr rfl this, Finset.sum_ite_eq']
  by_cases h : n / 64 < m
  · simp [h]
  · simp [h]

theorem polyOf_coeff (A : Digest) (n : Nat) :
    (polyOf A).coeff n = if n < 256 ∧ bitD A n then 1 else 0 := by
  unfold polyOf; rw [sum_coeff]

theorem vp_condense (A : Digest) : vp 4 (condense (at' A)) = polyOf A := by
  ext n
  rw [vp_coeff, polyOf_coeff]
  by_cases h : n < 256
  · rw [condense_bit _ _ _ (by omega)]
    have e1 : 8 * (n / 64) + n % 64 / 8 = n / 8 := by omega
    have e2 : n % 64 % 8 = n % 8 := by omega
    rw [e1, e2]
    unfold bitD
    simp only [h, show n / 64 < 4 by omega, true_and]
    rfl
  · simp [h, show ¬ n / 64 < 4 by omega]

theorem combMul_vp (A B : Digest) : vp 8 (combMul (at' A) (at' B)) = polyOf A * polyOf B := by
  have hi := (comb_inv (condense (at' A)) (fun i => if i < 4 then condense (at' B) i else 0) (by simp)
    64 le_rfl).c
  have e1 : (∑ k' ∈ Finset.range 64, ∑ j ∈ Finset.range 4,
        (if (condense (at' A) j).getLsbD k' then 1 else 0) * X ^ (64 * j) * X ^ k' : P2) = polyOf A := by
    rw [← vp_condense, Finset.sum_comm]
    unfold vp
    refine Finset.sum_congr rfl fun j _ => ?_
    unfold wp
    rw [Finset.mul_sum]
    refine Finset.sum_congr rfl fun k _ => ?_
    by_cases hb : (condense (at' A) j).getLsbD k <;> simp [hb]
  have e2 : vp 5 (fun i => if i < 4 then condense (at' B) i else 0) = polyOf B := by
    rw [← vp_condense]
    unfold vp
    rw [Finset.sum_range_succ]
    beta_reduce
    rw [if_neg (by norm_num), wp_zero, mul_zero, add_zero]
    refine Finset.sum_congr rfl fun j hj => ?_
    rw [if_pos (Finset.mem_range.1 hj)]
  rw [e1, e2] at hi
  exact hi

theorem reduceStep_vp (c : Nat → Word) (i : Nat) (h4 : 4 ≤ i) (h7 : i ≤ 7) :
    f ∣ vp (i + 1) c - vp i (reduceStep c i) := by
  have s10 := wp_shift (c i) 10 (by norm_num) (by norm_num)
  have s5 := wp_shift (c i) 5 (by norm_num) (by norm_num)
  have s2 := wp_shift (c i) 2 (by norm_num) (by norm_num)
  simp only [show 64 - 10 = 54 from rfl, show 64 - 5 = 59 from rfl, show 64 - 2 = 62 from rfl] at s10 s5 s2
  have two : (2 : P2) = 0 := by
    have : ((2 : ZMod 2)) = 0 := by decide
    calc (2 : P2) = C (2 : ZMod 2) := (map_ofNat C 2).symm
      _ = 0 := by rw [this, C_0]
  refine ⟨X ^ (64 * (i - 4)) * wp (c i), ?_⟩
  have h : i = 4 ∨ i = 5 ∨ i = 6 ∨ i = 7 := by omega
  unfold vp reduceStep f
  rcases h with rfl | rfl | rfl | rfl <;>
  · simp [Finset.sum_range_succ, wp_xor]
    first
    | linear_combination (-1 : P2) * (s10 + s5 + s2) - ((X ^ 10 + X ^ 5 + X ^ 2 + 1) * wp (c 4)) * two
    | linear_combination (-X ^ 64 : P2) * (s10 + s5 + s2) - (X ^ 64 * (X ^ 10 + X ^ 5 + X ^ 2 + 1) * wp (c 5)) * two
    | linear_combination (-X ^ 128 : P2) * (s10 + s5 + s2) - (X ^ 128 * (X ^ 10 + X ^ 5 + X ^ 2 + 1) * wp (c 6)) * two
    | linear_combination (-X ^ 192 : P2) * (s10 + s5 + s2) - (X ^ 192 * (X ^ 10 + X ^ 5 + X ^ 2 + 1) * wp (c 7)) * two

theorem reduce_vp (c : Nat → Word) : f ∣ vp 8 c - vp 4 (reduce c) := by
  unfold reduce
  simp only [List.foldl_cons, List.foldl_nil]
  have h7 := reduceStep_vp c 7 (by norm_num) (by norm_num)
  have h6 := reduceStep_vp (reduceStep c 7) 6 (by norm_num) (by norm_num)
  have h5 := reduceStep_vp (reduceStep (reduceStep c 7) 6) 5 (by norm_num) (by norm_num)
  have h4 := reduceStep_vp (reduceStep (reduceStep (reduceStep c 7) 6) 5) 4 (by norm_num) (by norm_num)
  have := dvd_add (dvd_add (dvd_add h7 h6) h5) h4
  convert this using 1
  ring

theorem polyOf_toBytes (c : Nat → Word) : polyOf (toBytes c) = vp 4 c := by
  ext n
  rw [vp_coeff, polyOf_coeff]
  by_cases h : n < 256
  · have h8 : n / 8 < 32 := by omega
    unfold bitD at' toBytes
    rw [dif_pos h8]
    have : ((UInt8.ofBitVec ((c (n / 8 / 8) >>> ((n / 8 % 8) * 8)).setWidth 8)).toNat).testBit (n % 8) =
        (c (n / 64)).getLsbD (n % 64) := by
      show ((c (n / 8 / 8) >>> ((n / 8 % 8) * 8)).setWidth 8).getLsbD (n % 8) = _
      rw [BitVec.getLsbD_setWidth, BitVec.getLsbD_ushiftRight]
      have e1 : n / 8 / 8 = n / 64 := by omega
      have e2 : n / 8 % 8 * 8 + n % 8 = n % 64 := by omega
      rw [e1, e2, show decide (n % 8 < 8) = true from by simp; omega, Bool.true_and]
    simp only [this, h, show n / 64 < 4 by omega]
  · simp [h, show ¬ n / 64 < 4 by omega]

theorem f_monic : f.Monic := by
  unfold f
  monicity!

theorem f_natDegree : f.natDegree = 256 := by
  unfold f
  compute_degree!

theorem polyOf_degree (A : Digest) : (polyOf A).degree < f.degree := by
  rw [Polynomial.degree_eq_natDegree f_monic.ne_zero, f_natDegree, degree_lt_iff_coeff_zero]
  intro m hm
  rw [polyOf_coeff, if_neg]
  omega

theorem polyOf_injective : Function.Injective polyOf := by
  intro A B h
  funext i
  apply UInt8.toNat_inj.1
  apply Nat.eq_of_testBit_eq
  intro t
  by_cases ht : t < 8
  · have := congrArg (fun p => p.coeff (8 * i.val + t)) h
    simp only [polyOf_coeff] at this
    have e : ∀ D : Digest, bitD D (8 * i.val + t) = (D i).toNat.testBit t := by
      intro D
      unfold bitD at'
      have e1 : (8 * i.val + t) / 8 = i.val := by omega
      have e2 : (8 * i.val + t) % 8 = t := by omega
      rw [e1, e2, dif_pos i.isLt]
    rw [e, e] at this
    have hlt : 8 * i.val + t < 256 := by have := i.isLt; omega
    simp only [hlt, true_and] at this
    cases h1 : (A i).toNat.testBit t <;> cases h2 : (B i).toNat.testBit t <;> simp_all
  · have : ∀ x : UInt8, x.toNat.testBit t = false := fun x =>
      Nat.testBit_lt_two_pow (lt_of_lt_of_le x.toNat_lt (Nat.pow_le_pow_right (by norm_num) (by omega)))
    rw [this, this]

theorem polyOf_xor (U V : Digest) : polyOf (xorBytes U V) = polyOf U + polyOf V := by
  ext n
  rw [coeff_add, polyOf_coeff, polyOf_coeff, polyOf_coeff]
  by_cases h : n < 256
  · have : bitD (xorBytes U V) n = (bitD U n ^^ bitD V n) := by
      unfold bitD at' xorBytes
      have h8 : n / 8 < 32 := by omega
      rw [dif_pos h8, dif_pos h8, dif_pos h8, UInt8.toNat_xor, Nat.testBit_xor]
    rw [this]
    cases bitD U n <;> cases bitD V n <;> simp [h, z2]
  · simp [h]

theorem mul_dvd (A B : Digest) : f ∣ polyOf A * polyOf B - polyOf (binaryFieldMul A B) := by
  unfold binaryFieldMul
  rw [polyOf_toBytes, ← combMul_vp]
  exact reduce_vp _

attribute [local irreducible] polyOf f binaryFieldMul

/-- **C26** For all 32-byte vectors, the multiplication computes the product of the represented
polynomials modulo `X^256 + X^10 + X^5 + X^2 + 1` over GF(2). -/
theorem C26_binaryFieldMul (A B : Digest) :
    polyOf (binaryFieldMul A B) = (polyOf A * polyOf B) %ₘ f := by
  symm
  have h1 : f ∣ polyOf A * polyOf B - polyOf (binaryFieldMul A B) := by
    exact mul_dvd A B
  refine (Polynomial.modByMonic_eq_of_dvd_sub (p₁ := polyOf A * polyOf B)
    (p₂ := polyOf (binaryFieldMul A B)) f_monic h1).trans ?_
  exact (Polynomial.modByMonic_eq_self_iff f_monic).2 (polyOf_degree _)

/-- **C26** the representation is faithful: distinct byte vectors stand for distinct polynomials, so the
theorem above fixes every output byte; hence the operation is commutative, associative and
distributes over XOR. -/
theorem C26_ring_laws (A B C' : Digest) :
    Function.Injective polyOf ∧
    binaryFieldMul A B = binaryFieldMul B A ∧
    binaryFieldMul (binaryFieldMul A B) C' = binaryFieldMul A (binaryFieldMul B C') ∧
    binaryFieldMul (xorBytes A B) C' = xorBytes (binaryFieldMul A C') (binaryFieldMul B C') := by
  refine ⟨polyOf_injective, ?_, ?_, ?_⟩
  · apply polyOf_injective
    rw [C26_binaryFieldMul, C26_binaryFieldMul, mul_comm]
  · apply polyOf_injective
    rw [C26_binaryFieldMul, C26_binaryFieldMul, C26_binaryFieldMul, C26_binaryFieldMul]
    apply Polynomial.modByMonic_eq_of_dvd_sub f_monic
    have a1 := Polynomial.modByMonic_add_div (polyOf A * polyOf B) f
    have a2 := Polynomial.modByMonic_add_div (polyOf B * polyOf C') f
    refine ⟨polyOf A * ((polyOf B * polyOf C') /ₘ f) - (polyOf A * polyOf B) /ₘ f * polyOf C', ?_⟩
    linear_combination polyOf C' * a1 - polyOf A * a2
  · apply polyOf_injective
    have hx := polyOf_xor
    rw [C26_binaryFieldMul, hx, hx, C26_binaryFieldMul, C26_binaryFieldMul, add_mul,
      Polynomial.add_modByMonic]

/-- a concrete product: `X^255 · X = X^256 ≡ X^10 + X^5 + X^2 + 1` -/
example : binaryFieldMul (fun i => if i.val = 31 then 128 else 0) (fun i => if i.val = 0 then 2 else 0)
    = fun i => if i.val = 0 then 37 else if i.val = 1 then 4 else 0 := by
  decide +kernel

end Verif.OT.BinaryField
