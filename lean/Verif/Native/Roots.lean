import Verif.Native.Chains
import Mathlib.NumberTheory.LegendreSymbol.Basic

/-!
# `Invert` and `Sqrt` of the native fields

The inversion chains end in `Selectznz(out, wasInverted, out, &tmp)`, so on failure the receiver keeps its old value; so
does `Sqrt` on a non-square.  The pasta fields write the result of the power unconditionally.
-/

set_option maxRecDepth 20000
set_option linter.unusedSectionVars false

namespace Verif.Native

/-- The conversion `uint1(choice)` of an `int` choice. -/
def uint1 (c : Int) : UInt64 := UInt64.ofInt c

variable (A : Arith) (P : Params)

/-- The end of every `Invert` (crypto/core/curves/native/k256/fp/fp.go:153-156): the flag and the receiver. -/
def invertEnd (out arg s : L4) : Int × L4 :=
  let wasInverted := isNonZero arg
  (wasInverted, selectznz (uint1 wasInverted) out s)

/-- `k256FpArithmetic.Invert` (crypto/core/curves/native/k256/fp/fp.go:106-157). -/
def k256FpInvert (out arg : L4) : Int × L4 := invertEnd out arg (k256FpChain A arg)

/-- `k256FqArithmetic.Invert` (crypto/core/curves/native/k256/fq/fq.go:152-268). -/
def k256FqInvert (out arg : L4) : Int × L4 := invertEnd out arg (k256FqChain A arg)

/-- `p256FqArithmetic.Invert` (crypto/core/curves/native/p256/fq/fq.go:151-285). -/
def p256FqInvert (out arg : L4) : Int × L4 := invertEnd out arg (p256FqChain A arg)

/-- First loop of `p256FpArithmetic.Invert` (crypto/core/curves/native/p256/fp/fp.go:125-128). -/
def p256FpLoop1 (arg : L4) : Nat → L4 → L4
  | 0, t => t
  | n + 1, t => p256FpLoop1 arg n (A.mul (A.square t) arg)

/-- Second loop of `p256FpArithmetic.Invert` (crypto/core/curves/native/p256/fp/fp.go:130-149); `n` is `i + 1`. -/
def p256FpLoop2 (arg t : L4) : Nat → L4 → L4
  | 0, r => r
  | n + 1, r =>
    let r := A.square r
    let r := if n = 0 ∨ n = 2 ∨ n = 192 ∨ n = 224 then A.mul r arg
      else if n = 3 ∨ n = 34 ∨ n = 65 then A.mul r t
      else r
    p256FpLoop2 arg t n r

/-- `p256FpArithmetic.Invert` (crypto/core/curves/native/p256/fp/fp.go:104-157). -/
def p256FpInvert (out arg : L4) : Int × L4 :=
  let t := p256FpLoop1 A arg 30 arg
  let r := p256FpLoop2 A arg t 225 t
  invertEnd out arg r

/-- `Sqrt` of a field with `p ≡ 3 (mod 4)` (crypto/core/curves/native/k256/fp/fp.go:86-103 and
crypto/core/curves/native/p256/fp/fp.go:84-101): `e` is the constant `(p+1)/4`. -/
def sqrt34 (e : L4) (out arg : L4) : Int × L4 :=
  let s := pow A P arg e
  let t := A.square s
  let wasSquare := Field.equal t arg
  (wasSquare, selectznz (uint1 wasSquare) out s)

/-- State of the Tonelli–Shanks loop: `z`, `t`, `b`, `c`. -/
structure TS where
  z : L4
  t : L4
  b : L4
  c : L4

/-- One iteration for the index `i` (crypto/core/curves/native/k256/fq/fq.go:118-135). -/
def tsIter (i : Nat) (st : TS) : TS :=
  let b := pow2k A st.b (i - 2)
  let flag := Int.neg (Field.isOne P b) + 1
  let tv := A.mul st.z st.c
  let z := selectznz (uint1 flag) st.z tv
  let c := A.square st.c
  let tv := A.mul st.t c
  let t := selectznz (uint1 flag) st.t tv
  ⟨z, t, t, c⟩

/-- `for i := s; i >= 2; i--` (crypto/core/curves/native/k256/fq/fq.go:118-135); the argument is the number `i - 1` of
iterations left. -/
def tsLoop (k : Nat) (st : TS) : TS := ((List.range k).reverse.map (· + 2)).foldl (fun st i => tsIter A P i st) st

/-- The common body of the Tonelli–Shanks square roots: the candidate root and whether it is one
(crypto/core/curves/native/k256/fq/fq.go:86-145, crypto/core/curves/native/p256/fq/fq.go:85-146; the pasta version,
crypto/core/curves/native/pasta/fp/fp.go:237-286, performs the same operations through its own methods). -/
def tonelliShanks (s : Nat) (c3 c5 arg : L4) : Int × L4 :=
  let z := pow A P arg c3
  let t := A.square z
  let t := A.mul t arg
  let z := A.mul z arg
  let st := tsLoop A P (s - 1) ⟨z, t, t, c5⟩
  let c := A.square st.z
  (Field.equal c arg, st.z)

/-- `Sqrt` of `k256/fq` and `p256/fq`, with the final conditional write
(crypto/core/curves/native/k256/fq/fq.go:136-146). -/
def sqrtTS (s : Nat) (c3 c5 out arg : L4) : Int × L4 :=
  let r := tonelliShanks A P s c3 c5 arg
  (r.1, selectznz (uint1 r.1) out r.2)

/-! ## Proofs -/

theorem flag_one : uint1 (Int.neg 1 + 1) = 0 := by decide
theorem flag_zero : uint1 (Int.neg 0 + 1) = 1 := by decide
theorem uint1_zero : uint1 0 = 0 := rfl
theorem uint1_one : uint1 1 = 1 := rfl

/-- What an `Invert` method must do: for a non-zero element report success and write the inverse; for zero report failure
and leave the receiver as it was. -/
def InvertSpec (p : Nat) (inv : L4 → L4 → Int × L4) : Prop :=
  ∀ (out arg : L4) (x : ZMod p), Rep p arg x →
    (x ≠ 0 → ∃ r, inv out arg = (1, r) ∧ Rep p r x⁻¹) ∧ (x = 0 → inv out arg = (0, out))

/-- What a `Sqrt` method must do: report success exactly on squares, and then write a root; otherwise leave the receiver. -/
def SqrtSpec (p : Nat) (sqrt : L4 → L4 → Int × L4) : Prop :=
  ∀ (out arg : L4) (x : ZMod p), Rep p arg x →
    (IsSquare x → ∃ r y, sqrt out arg = (1, r) ∧ Rep p r y ∧ y * y = x) ∧ (¬ IsSquare x → sqrt out arg = (0, out))

variable {A P} {p : Nat} (L : Lawful A P p)
include L

theorem fermat_inv [Fact p.Prime] {x : ZMod p} (hx : x ≠ 0) : x ^ (p - 2) = x⁻¹ := by
  have h2 := (Fact.out : p.Prime).two_le
  apply eq_inv_of_mul_eq_one_left
  rw [← pow_succ, show p - 2 + 1 = p - 1 by omega]
  exact ZMod.pow_card_sub_one_eq_one hx

theorem invertEnd_spec [Fact p.Prime] {out arg s : L4} {x : ZMod p} (ha : Rep p arg x)
    (hs : Rep p s (x ^ (p - 2))) :
    (x ≠ 0 → ∃ r, invertEnd out arg s = (1, r) ∧ Rep p r x⁻¹) ∧ (x = 0 → invertEnd out arg s = (0, out)) := by
  have hz := (C50_equal L ha ha).2.2.2
  unfold invertEnd
  dsimp only
  constructor
  · intro hx
    rw [hz, if_neg hx, uint1_one, selectznz_one]
    exact ⟨s, rfl, fermat_inv L hx ▸ hs⟩
  · intro hx
    rw [hz, if_pos hx, uint1_zero, selectznz_zero]

theorem k256FpInvert_spec [Fact p.Prime]
    (hp : p = 115792089237316195423570985008687907853269984665640564039457584007908834671663) :
    InvertSpec p (k256FpInvert A) :=
  fun _ _ _ ha => invertEnd_spec L ha (k256FpChain_spec L hp ha)

theorem k256FqInvert_spec [Fact p.Prime]
    (hp : p = 115792089237316195423570985008687907852837564279074904382605163141518161494337) :
    InvertSpec p (k256FqInvert A) :=
  fun _ _ _ ha => invertEnd_spec L ha (k256FqChain_spec L hp ha)

theorem p256FqInvert_spec [Fact p.Prime]
    (hp : p = 115792089210356248762697446949407573529996955224135760342422259061068512044369) :
    InvertSpec p (p256FqInvert A) :=
  fun _ _ _ ha => invertEnd_spec L ha (p256FqChain_spec L hp ha)

theorem p256FpLoop1_spec {arg : L4} {x : ZMod p} (ha : Rep p arg x) : ∀ (n : Nat) (t : L4) (m : Nat), Rep p t (x ^ m) →
    Rep p (p256FpLoop1 A arg n t) (x ^ ((m + 1) * 2 ^ n - 1)) := by
  intro n
  induction n with
  | zero => intro t m h; simpa [p256FpLoop1] using h
  | succ n ih =>
    intro t m h
    have h1 : Rep p (A.mul (A.square t) arg) (x ^ (2 * m + 1)) := by
      have e : x ^ (2 * m + 1) = x ^ m * x ^ m * x := by rw [pow_succ, two_mul, pow_add]
      rw [e]
      exact C50_mul L (C50_square L h) ha
    have := ih _ _ h1
    rw [show (2 * m + 1 + 1) * 2 ^ n = (m + 1) * 2 ^ (n + 1) by rw [pow_succ]; ring] at this
    rw [p256FpLoop1]
    exact this

omit L in
/-- The exponent computed by the second loop. -/
def loop2Exp (et : Nat) : Nat → Nat → Nat
  | 0, e => e
  | n + 1, e =>
    loop2Exp et n (if n = 0 ∨ n = 2 ∨ n = 192 ∨ n = 224 then e + e + 1 else if n = 3 ∨ n = 34 ∨ n = 65 then e + e + et else e + e)

theorem p256FpLoop2_spec {arg t : L4} {x : ZMod p} {et : Nat} (ha : Rep p arg x) (ht : Rep p t (x ^ et)) :
    ∀ (n : Nat) (r : L4) (e : Nat), Rep p r (x ^ e) → Rep p (p256FpLoop2 A arg t n r) (x ^ loop2Exp et n e) := by
  intro n
  induction n with
  | zero => intro r e h; exact h
  | succ n ih =>
    intro r e h
    have hs : Rep p (A.square r) (x ^ (e + e)) := by rw [pow_add]; exact C50_square L h
    rw [p256FpLoop2, loop2Exp]
    apply ih
    by_cases h1 : n = 0 ∨ n = 2 ∨ n = 192 ∨ n = 224
    · rw [if_pos h1, if_pos h1, pow_succ]
      exact C50_mul L hs ha
    · rw [if_neg h1, if_neg h1]
      by_cases h2 : n = 3 ∨ n = 34 ∨ n = 65
      · rw [if_pos h2, if_pos h2, pow_add x (e + e)]
        exact C50_mul L hs ht
      · rw [if_neg h2, if_neg h2]
        exact hs

theorem p256FpInvert_spec [Fact p.Prime]
    (hp : p = 115792089210356248762697446949407573530086143415290314195533631308867097853951) :
    InvertSpec p (p256FpInvert A) := by
  intro out arg x ha
  have h1 : Rep p arg (x ^ 1) := by rw [pow_one]; exact ha
  have ht := p256FpLoop1_spec L ha 30 arg 1 h1
  have hr := p256FpLoop2_spec L ha ht 225 _ _ ht
  have he : loop2Exp ((1 + 1) * 2 ^ 30 - 1) 225 ((1 + 1) * 2 ^ 30 - 1) =
      115792089210356248762697446949407573530086143415290314195533631308867097853951 - 2 := by decide +kernel
  rw [← hp] at he
  rw [he] at hr
  exact invertEnd_spec L ha hr

/-! ### Square roots -/

theorem sqrtEnd {s arg out : L4} {x y : ZMod p} (ha : Rep p arg x) (hs : Rep p s y) (hy : IsSquare x → y * y = x) :
    let w := Field.equal (A.square s) arg
    (IsSquare x → ∃ r y, (w, selectznz (uint1 w) out s) = (1, r) ∧ Rep p r y ∧ y * y = x) ∧
      (¬ IsSquare x → (w, selectznz (uint1 w) out s) = (0, out)) := by
  have he := (C50_equal L (C50_square L hs) ha).1
  intro w
  have hw : w = if y * y = x then 1 else 0 := he
  constructor
  · intro hx
    rw [hw, if_pos (hy hx), uint1_one, selectznz_one]
    exact ⟨s, y, rfl, hs, hy hx⟩
  · intro hx
    rw [hw, if_neg (fun h => hx ⟨y, h.symm⟩), uint1_zero, selectznz_zero]

theorem sqrt34_spec [Fact p.Prime] (e : L4) (he : 4 * e.val = p + 1) : SqrtSpec p (sqrt34 A P e) := by
  intro out arg x ha
  have hs := C50_pow L ha e
  refine sqrtEnd L ha hs ?_
  rintro ⟨w, rfl⟩
  by_cases hw : w = 0
  · subst hw
    have hne : e.val ≠ 0 := by omega
    simp [hne]
  · rw [← mul_pow, show w * w * (w * w) = w ^ 4 by ring, ← pow_mul, he]
    rw [pow_succ, ZMod.pow_card]

omit L in
theorem tsLoop_succ (k : Nat) (st : TS) : tsLoop A P (k + 1) st = tsLoop A P k (tsIter A P (k + 2) st) := by
  unfold tsLoop
  rw [List.range_succ, List.reverse_append, List.reverse_singleton, List.singleton_append, List.map_cons, List.foldl_cons]

omit L in
theorem tsLoop_zero (st : TS) : tsLoop A P 0 st = st := rfl

/-- The invariant of the loop. -/
theorem tsLoop_spec [Fact p.Prime] {x : ZMod p} : ∀ (k : Nat) (st : TS) (z t c : ZMod p), Rep p st.z z → Rep p st.t t →
    st.b = st.t → Rep p st.c c → z * z = x * t → t ^ 2 ^ k = 1 → c ^ 2 ^ k = -1 →
    ∃ y, Rep p (tsLoop A P k st).z y ∧ y * y = x := by
  intro k
  induction k with
  | zero =>
    intro st z t c hz _ _ _ hzz htt _
    refine ⟨z, hz, ?_⟩
    rw [pow_zero, pow_one] at htt
    rw [hzz, htt, mul_one]
  | succ i ih =>
    intro st z t c hz ht hb hc hzz htt hcc
    rw [tsLoop_succ]
    have hbr : Rep p (pow2k A st.b i) (t ^ 2 ^ i) := by rw [hb]; exact C50_pow2k L ht i
    have hone := (C50_equal L hbr hbr).2.1
    have hc2 := C50_square L hc
    have hc' : (c * c) ^ 2 ^ i = -1 := by rw [← pow_two, ← pow_mul, ← pow_succ']; exact hcc
    have hsq : t ^ 2 ^ i * t ^ 2 ^ i = 1 := by rw [← pow_two, ← pow_mul, ← pow_succ]; exact htt
    unfold tsIter
    dsimp only
    rw [show i + 2 - 2 = i from rfl, hone]
    by_cases hb1 : t ^ 2 ^ i = 1
    · rw [if_pos hb1, flag_one, selectznz_zero, selectznz_zero]
      exact ih _ z t (c * c) hz ht rfl hc2 hzz hb1 hc'
    · rw [if_neg hb1, flag_zero, selectznz_one, selectznz_one]
      have hm1 : t ^ 2 ^ i = -1 := by
        rcases mul_self_eq_one_iff.1 hsq with h | h
        · exact absurd h hb1
        · exact h
      refine ih _ (z * c) (t * (c * c)) (c * c) (C50_mul L hz hc) (C50_mul L ht hc2) rfl hc2 ?_ ?_ hc'
      · rw [show z * c * (z * c) = z * z * (c * c) by ring, hzz, mul_assoc]
      · rw [mul_pow, hm1, hc']
        ring

/-- The loop keeps the candidate reduced for every input, so the comparison that follows decides equality. -/
theorem tsLoop_rep : ∀ (i : Nat) (st : TS) (z t c : ZMod p), Rep p st.z z → Rep p st.t t →
    st.b = st.t → Rep p st.c c → ∃ y, Rep p (tsLoop A P i st).z y := by
  intro i
  induction i with
  | zero => intro st z _ _ hz _ _ _; exact ⟨z, hz⟩
  | succ i ih =>
    intro st z t c hz ht hb hc
    rw [tsLoop_succ]
    have hbr : Rep p (pow2k A st.b i) (t ^ 2 ^ i) := by rw [hb]; exact C50_pow2k L ht i
    have hone := (C50_equal L hbr hbr).2.1
    have hc2 := C50_square L hc
    unfold tsIter
    dsimp only
    rw [show i + 2 - 2 = i from rfl, hone]
    by_cases hb1 : t ^ 2 ^ i = 1
    · rw [if_pos hb1, flag_one, selectznz_zero, selectznz_zero]
      exact ih _ z t (c * c) hz ht rfl hc2
    · rw [if_neg hb1, flag_zero, selectznz_one, selectznz_one]
      exact ih _ (z * c) (t * (c * c)) (c * c) (C50_mul L hz hc) (C50_mul L ht hc2) rfl hc2

theorem tonelliShanks_spec [Fact p.Prime] {s : Nat} {c3 c5 : L4} {g : ZMod p} (hs : 1 ≤ s)
    (hc3 : (2 * c3.val + 1) * 2 ^ s = p - 1) (h5 : Rep p c5 g) (hg : g ^ 2 ^ (s - 1) = -1) {arg : L4} {x : ZMod p}
    (ha : Rep p arg x) :
    ∃ y, Rep p (tonelliShanks A P s c3 c5 arg).2 y ∧ (IsSquare x → y * y = x) ∧
      (tonelliShanks A P s c3 c5 arg).1 = (if y * y = x then 1 else 0) := by
  have hz := C50_pow L ha c3
  have ht := C50_mul L (C50_square L hz) ha
  have hz' := C50_mul L hz ha
  unfold tonelliShanks
  dsimp only
  generalize hst : (⟨A.mul (pow A P arg c3) arg, A.mul (A.square (pow A P arg c3)) arg,
    A.mul (A.square (pow A P arg c3)) arg, c5⟩ : TS) = st
  have f1 : st.z = A.mul (pow A P arg c3) arg := by rw [← hst]
  have f2 : st.t = A.mul (A.square (pow A P arg c3)) arg := by rw [← hst]
  have f3 : st.b = st.t := by rw [← hst]
  have f4 : st.c = c5 := by rw [← hst]
  rw [← f1] at hz'
  rw [← f2] at ht
  rw [← f4] at h5
  by_cases hx : IsSquare x ∧ x ≠ 0
  · obtain ⟨⟨w, hw⟩, hx0⟩ := hx
    have hw0 : w ≠ 0 := by rintro rfl; exact hx0 (by rw [hw, mul_zero])
    have htt : (x ^ c3.val * x ^ c3.val * x) ^ 2 ^ (s - 1) = 1 := by
      rw [← pow_add, ← pow_succ, ← pow_mul, hw, ← pow_two, ← pow_mul,
        show 2 * ((c3.val + c3.val + 1) * 2 ^ (s - 1)) = (2 * c3.val + 1) * 2 ^ s by
          obtain ⟨k, rfl⟩ : ∃ k, s = k + 1 := ⟨s - 1, by omega⟩
          rw [Nat.add_sub_cancel, pow_succ]; ring, hc3]
      exact ZMod.pow_card_sub_one_eq_one hw0
    obtain ⟨y, hy, hyy⟩ := tsLoop_spec L (s - 1) st _ _ _ hz' ht f3 h5 (by ring) htt hg
    refine ⟨y, hy, fun _ => hyy, ?_⟩
    exact (C50_equal L (C50_square L hy) ha).1
  · by_cases hx0 : x = 0
    · subst hx0
      have hz0 : Rep p st.z 0 := by rw [mul_zero] at hz'; exact hz'
      have ht0 : Rep p st.t 0 := by rw [mul_zero] at ht; exact ht
      -- with `z = 0` the candidate stays `0`
      have key : ∀ (i : Nat) (st : TS) (c : ZMod p), Rep p st.z 0 → Rep p st.t 0 → st.b = st.t → Rep p st.c c →
          Rep p (tsLoop A P i st).z 0 := by
        intro i
        induction i with
        | zero => intro st _ h _ _ _; exact h
        | succ i ih =>
          intro st c hz ht hb hc
          rw [tsLoop_succ]
          have hbr : Rep p (pow2k A st.b i) (0 ^ 2 ^ i) := by rw [hb]; exact C50_pow2k L ht i
          have hone := (C50_equal L hbr hbr).2.1
          have hc2 := C50_square L hc
          unfold tsIter
          dsimp only
          rw [show i + 2 - 2 = i from rfl, hone, if_neg (by
            rw [zero_pow (pow_ne_zero _ two_ne_zero)]; exact zero_ne_one)]
          rw [flag_zero, selectznz_one, selectznz_one]
          refine ih _ (c * c) ?_ ?_ rfl hc2
          · have := C50_mul L hz hc; rwa [zero_mul] at this
          · have := C50_mul L ht hc2; rwa [zero_mul] at this
      have hy := key (s - 1) st g hz0 ht0 f3 h5
      exact ⟨0, hy, fun _ => mul_zero _, (C50_equal L (C50_square L hy) ha).1⟩
    · obtain ⟨y, hy⟩ := tsLoop_rep L (s - 1) st _ _ _ hz' ht f3 h5
      exact ⟨y, hy, fun h => absurd ⟨h, hx0⟩ hx, (C50_equal L (C50_square L hy) ha).1⟩

theorem sqrtTS_spec [Fact p.Prime] {s : Nat} {c3 c5 : L4} {g : ZMod p} (hs : 1 ≤ s)
    (hc3 : (2 * c3.val + 1) * 2 ^ s = p - 1) (h5 : Rep p c5 g) (hg : g ^ 2 ^ (s - 1) = -1) :
    SqrtSpec p (sqrtTS A P s c3 c5) := by
  intro out arg x ha
  obtain ⟨y, hy, hsq, hw⟩ := tonelliShanks_spec L hs hc3 h5 hg ha
  unfold sqrtTS
  dsimp only
  constructor
  · intro hx
    rw [hw, if_pos (hsq hx), uint1_one, selectznz_one]
    exact ⟨_, y, rfl, hy, hsq hx⟩
  · intro hx
    rw [hw, if_neg (fun h => hx ⟨y, h.symm⟩), uint1_zero, selectznz_zero]

end Verif.Native
