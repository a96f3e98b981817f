import Verif.Native.Scalars

/-!
# The pasta fields (`crypto/core/curves/native/pasta/fp/fp.go`, `fq/fq.go`) and `ScalarPallas`

Both files are the same code up to names and constants; the model takes the constants as a record.  The arithmetic is
proved correct.  The comparison of limbs is not: it looks at the sign of a wrapped 64-bit difference, so `SetBytes` accepts
some values above the modulus, refuses some canonical ones, and `SetBigInt`, which ignores the error, silently keeps the
old value.  The theorems give the exact acceptance sets.
-/

set_option maxRecDepth 20000
set_option linter.unusedSectionVars false

namespace Verif.Native
open Verif.Bytes

/-- The constants of a pasta field. -/
structure PastaField where
  A : Arith
  P : Params
  invExp : L4
  c3 : L4
  c5 : L4

/-- `pasta/fp` (crypto/core/curves/native/pasta/fp/fp.go:247-260, 292-297). -/
def pastaFp : PastaField where
  A := PastaFp.arith
  P := PastaFp.params
  invExp := ⟨0x992d30ecffffffff, 0x224698fc094cf91b, 0x0000000000000000, 0x4000000000000000⟩
  c3 := ⟨0x04a67c8dcc969876, 0x0000000011234c7e, 0x0000000000000000, 0x0000000020000000⟩
  c5 := ⟨0xa28db849bad6dbf0, 0x9083cd03d3b539df, 0xfba6b9ca9dc8448e, 0x3ec928747b89c6da⟩

/-- `pasta/fq` (crypto/core/curves/native/pasta/fq/fq.go:241-254, 286-291). -/
def pastaFq : PastaField where
  A := PastaFq.arith
  P := PastaFq.params
  invExp := ⟨0x8c46eb20ffffffff, 0x224698fc0994a8dd, 0x0000000000000000, 0x4000000000000000⟩
  c3 := ⟨0x04ca546ec6237590, 0x0000000011234c7e, 0x0000000000000000, 0x0000000020000000⟩
  c5 := ⟨0x218077428c9942de, 0xcc49578921b60494, 0xac2e5d27b2efbee2, 0x0b79fa897f2db056⟩

namespace Pasta

/-- One iteration of the loop in `Cmp` (crypto/core/curves/native/pasta/fp/fp.go:51-54): the pair `(gt, lt)`. -/
def cmpStep (st : UInt64 × UInt64) (f r : UInt64) : UInt64 × UInt64 :=
  let gt := st.1 ||| (((r - f) >>> 63) &&& ~~~st.2)
  let lt := st.2 ||| (((f - r) >>> 63) &&& ~~~gt)
  (gt, lt)

/-- `Cmp` (crypto/core/curves/native/pasta/fp/fp.go:48-56). -/
def cmp (f r : L4) : Int :=
  let st := cmpStep (0, 0) f.l3 r.l3
  let st := cmpStep st f.l2 r.l2
  let st := cmpStep st f.l1 r.l1
  let st := cmpStep st f.l0 r.l0
  (st.1.toNat : Int) - (st.2.toNat : Int)

/-- `Equal` (crypto/core/curves/native/pasta/fp/fp.go:59-65). -/
def equal (f r : L4) : Bool :=
  let t := f.l0 ^^^ r.l0
  let t := t ||| (f.l1 ^^^ r.l1)
  let t := t ||| (f.l2 ^^^ r.l2)
  let t := t ||| (f.l3 ^^^ r.l3)
  t == 0

/-- `IsZero` (crypto/core/curves/native/pasta/fp/fp.go:68-74). -/
def isZero (f : L4) : Bool :=
  let t := f.l0
  let t := t ||| f.l1
  let t := t ||| f.l2
  let t := t ||| f.l3
  t == 0

variable (F : PastaField)

/-- `IsOne` (crypto/core/curves/native/pasta/fp/fp.go:77-79). -/
def isOne (f : L4) : Bool := equal f F.P.R

/-- `(*Fp).IsOdd` (crypto/core/curves/native/pasta/fp/fp.go:81-85). -/
def isOdd (f : L4) : Bool := (F.A.fromMont f).l0 &&& 0x01 == 0x01

/-- `SetBytes` (crypto/core/curves/native/pasta/fp/fp.go:166-179); the method refuses the input when `Cmp` does not say
that the value is below the modulus. -/
def setBytes (input : List UInt8) : Res L4 :=
  let d0 := leLimbs input 0
  if cmp d0 F.P.modulus ≠ -1 then .err
  else .ok (F.A.toMont (fromBytes input))

/-- `SetBigInt` (crypto/core/curves/native/pasta/fp/fp.go:183-191) with the receiver `cur`; the error is dropped. -/
def setBigInt (cur : L4) (bi : Int) : Res L4 :=
  if F.P.biModulus = 0 then .panic
  else
    let r := bi % F.P.biModulus
    match fillBytes 32 r.natAbs with
    | none => .panic
    | some buffer =>
      match setBytes F buffer.reverse with
      | .ok v => .ok v
      | .err => .ok cur
      | .panic => .panic

/-- `CMove` (crypto/core/curves/native/pasta/fp/fp.go:357-362). -/
def cmove (l r : L4) (choice : UInt64) : L4 := selectznzS choice l r

/-- One iteration in `pow` (crypto/core/curves/native/pasta/fp/fp.go:347-351). -/
def powStep (base res : L4) (bit : UInt64) : L4 :=
  let res := F.A.square res
  let tmp := F.A.mul res base
  cmove res tmp bit

/-- `pow` (crypto/core/curves/native/pasta/fp/fp.go:342-354). -/
def pow (base exp : L4) : L4 :=
  [exp.l3, exp.l2, exp.l1, exp.l0].foldl
    (fun res w => ((List.range 64).reverse.map (expBit w)).foldl (powStep F base) res) F.P.R

/-- `Invert` (crypto/core/curves/native/pasta/fp/fp.go:290-299). -/
def invert (elem : L4) : L4 × Bool := (pow F elem F.invExp, !isZero elem)

/-- `flags[!b.IsOne()]`. -/
def flag (b : L4) : UInt64 := if !isOne F b then 1 else 0

/-- Repeated `b.Square(b)`. -/
def squares (b : L4) : Nat → L4
  | 0 => b
  | k + 1 => F.A.square (squares b k)

/-- One iteration in `tonelliShanks` (crypto/core/curves/native/pasta/fp/fp.go:275-283). -/
def tsIter (i : Nat) (st : TS) : TS :=
  let b := squares F st.b (i - 2)
  let z := cmove st.z (F.A.mul st.z st.c) (flag F b)
  let c := F.A.square st.c
  let t := cmove st.t (F.A.mul st.t c) (flag F b)
  ⟨z, t, t, c⟩

/-- `Sqrt` (crypto/core/curves/native/pasta/fp/fp.go:230-286): the value written and the flag. -/
def sqrt (elem : L4) : L4 × Bool :=
  let z := pow F elem F.c3
  let t := F.A.square z
  let t := F.A.mul t elem
  let z := F.A.mul z elem
  let st := ((List.range 31).reverse.map (· + 2)).foldl (fun st i => tsIter F i st) ⟨z, t, t, F.c5⟩
  let c := F.A.square st.z
  (st.z, equal c elem)

/-- `Exp` (crypto/core/curves/native/pasta/fp/fp.go:333-340). -/
def exp (base e : L4) : L4 := pow F base (F.A.fromMont e)

end Pasta

/-! ## Specification of the comparison -/

/-- The verdict of one limb: `-1` when the wrapped difference `r - f` is positive as a signed 64-bit number. -/
def limbVerdict (f r : UInt64) : Int :=
  if f = r then 0 else if (r.toNat + 2 ^ 64 - f.toNat) % 2 ^ 64 < 2 ^ 63 then -1 else 1

/-- The first non-zero verdict. -/
def firstVerdict : List Int → Int
  | [] => 0
  | v :: vs => if v = 0 then firstVerdict vs else v

theorem shr63 (x : UInt64) : x >>> 63 = if 2 ^ 63 ≤ x.toNat then 1 else 0 := by
  apply UInt64.toNat.inj
  rw [UInt64.toNat_shiftRight]
  have hx := x.toNat_lt
  show x.toNat >>> 63 = _
  rw [Nat.shiftRight_eq_div_pow]
  split
  · next h =>
    have : x.toNat / 2 ^ 63 = 1 := by omega
    rw [this]; rfl
  · next h =>
    have : x.toNat / 2 ^ 63 = 0 := by omega
    rw [this]; rfl

theorem cmpStep_done {gt lt : UInt64} (h : (gt = 1 ∧ lt = 0) ∨ (gt = 0 ∧ lt = 1)) (f r : UInt64) :
    Pasta.cmpStep (gt, lt) f r = (gt, lt) := by
  unfold Pasta.cmpStep
  dsimp only
  rw [shr63, shr63]
  rcases h with ⟨rfl, rfl⟩ | ⟨rfl, rfl⟩ <;> split <;> split <;> decide

theorem cmpStep_start (f r : UInt64) :
    Pasta.cmpStep (0, 0) f r =
      if limbVerdict f r = 0 then (0, 0) else if limbVerdict f r = -1 then (0, 1) else (1, 0) := by
  unfold Pasta.cmpStep limbVerdict
  dsimp only
  rw [shr63, shr63, UInt64.toNat_sub, UInt64.toNat_sub]
  have hf := f.toNat_lt
  have hr := r.toNat_lt
  by_cases he : f = r
  · subst he
    rw [if_pos rfl, if_pos rfl, if_neg (by omega)]
    decide
  · have hne : f.toNat ≠ r.toNat := fun h => he (UInt64.toNat.inj h)
    rw [if_neg he]
    by_cases h : (r.toNat + 2 ^ 64 - f.toNat) % 2 ^ 64 < 2 ^ 63
    · rw [if_pos h, if_neg (by omega), if_pos (by omega)]
      decide
    · rw [if_neg h, if_pos (by omega)]
      split <;> decide

theorem limbVerdict_cases (f r : UInt64) : limbVerdict f r = 0 ∨ limbVerdict f r = -1 ∨ limbVerdict f r = 1 := by
  unfold limbVerdict
  split
  · exact Or.inl rfl
  · split
    · exact Or.inr (Or.inl rfl)
    · exact Or.inr (Or.inr rfl)

/-- **C67.** What `Cmp` computes on every pair: the sign of the wrapped difference of the first differing limb, from the
top.  (It is the integer order only when that difference is below `2^63` in absolute value.) -/
theorem C67_cmp_exact (f r : L4) :
    Pasta.cmp f r =
      firstVerdict [limbVerdict f.l3 r.l3, limbVerdict f.l2 r.l2, limbVerdict f.l1 r.l1, limbVerdict f.l0 r.l0] := by
  unfold Pasta.cmp
  dsimp only
  rw [cmpStep_start]
  simp only [firstVerdict]
  rcases limbVerdict_cases f.l3 r.l3 with h3 | h3 | h3
  · rw [if_pos h3, if_pos h3, cmpStep_start]
    rcases limbVerdict_cases f.l2 r.l2 with h2 | h2 | h2
    · rw [if_pos h2, if_pos h2, cmpStep_start]
      rcases limbVerdict_cases f.l1 r.l1 with h1 | h1 | h1
      · rw [if_pos h1, if_pos h1, cmpStep_start]
        rcases limbVerdict_cases f.l0 r.l0 with h0 | h0 | h0 <;> rw [h0] <;> decide
      · rw [h1, if_neg (by decide), if_pos rfl, cmpStep_done (Or.inr ⟨rfl, rfl⟩), if_neg (by decide)]
        decide
      · rw [h1, if_neg (by decide), if_neg (by decide), cmpStep_done (Or.inl ⟨rfl, rfl⟩), if_neg (by decide)]
        decide
    · rw [h2, if_neg (by decide), if_pos rfl, cmpStep_done (Or.inr ⟨rfl, rfl⟩), cmpStep_done (Or.inr ⟨rfl, rfl⟩),
        if_neg (by decide)]
      decide
    · rw [h2, if_neg (by decide), if_neg (by decide), cmpStep_done (Or.inl ⟨rfl, rfl⟩), cmpStep_done (Or.inl ⟨rfl, rfl⟩),
        if_neg (by decide)]
      decide
  · rw [h3, if_neg (by decide), if_pos rfl, cmpStep_done (Or.inr ⟨rfl, rfl⟩), cmpStep_done (Or.inr ⟨rfl, rfl⟩),
      cmpStep_done (Or.inr ⟨rfl, rfl⟩), if_neg (by decide)]
    decide
  · rw [h3, if_neg (by decide), if_neg (by decide), cmpStep_done (Or.inl ⟨rfl, rfl⟩), cmpStep_done (Or.inl ⟨rfl, rfl⟩),
      cmpStep_done (Or.inl ⟨rfl, rfl⟩), if_neg (by decide)]
    decide

/-! ## Which encodings are accepted -/

/-- The modulus limbs have the shape `2^254 + m1·2^64 + m0` with a large low limb, as both pasta moduli do. -/
structure Shape (m : L4) : Prop where
  l3 : m.l3.toNat = 2 ^ 62
  l2 : m.l2.toNat = 0
  l1 : m.l1.toNat < 2 ^ 62
  l0 : 2 ^ 63 < m.l0.toNat

theorem pastaFp_shape : Shape PastaFp.params.modulus := ⟨by decide +kernel, by decide +kernel, by decide +kernel, by decide +kernel⟩
theorem pastaFq_shape : Shape PastaFq.params.modulus := ⟨by decide +kernel, by decide +kernel, by decide +kernel, by decide +kernel⟩

/-- The values `SetBytes` accepts, for the modulus `m`: not `N < m`, but

* all `N < m` except the interval `[m - m0, m - 2^63]`, where `m0` is the low 64 bits of `m`;
* all `N` whose top 64-bit limb exceeds `2^62 + 2^63`;
* `N` with top limb `2^62` and second limb above `2^63`;
* `N` with top limb `2^62`, second limb `0` and third limb above `m1 + 2^63`. -/
def Accepted (m N : Nat) : Prop :=
  (N < m ∧ ¬ (m - m % 2 ^ 64 ≤ N ∧ N ≤ m - 2 ^ 63)) ∨
  (2 ^ 62 + 2 ^ 63 < N / 2 ^ 192) ∨
  (N / 2 ^ 192 = 2 ^ 62 ∧ 2 ^ 63 < N / 2 ^ 128 % 2 ^ 64) ∨
  (N / 2 ^ 128 = 2 ^ 126 ∧ m / 2 ^ 64 % 2 ^ 64 + 2 ^ 63 < N / 2 ^ 64 % 2 ^ 64)

theorem limbVerdict_neg (f r : UInt64) :
    limbVerdict f r = -1 ↔ f.toNat ≠ r.toNat ∧ (r.toNat + 2 ^ 64 - f.toNat) % 2 ^ 64 < 2 ^ 63 := by
  unfold limbVerdict
  by_cases h : f = r
  · rw [if_pos h]; subst h; simp
  · have hne : f.toNat ≠ r.toNat := fun h' => h (UInt64.toNat.inj h')
    rw [if_neg h]
    split
    · next h2 => exact ⟨fun _ => ⟨hne, h2⟩, fun _ => rfl⟩
    · next h2 => exact ⟨fun h => absurd h (by decide), fun h => absurd h.2 h2⟩

theorem limbVerdict_zero (f r : UInt64) : limbVerdict f r = 0 ↔ f.toNat = r.toNat := by
  unfold limbVerdict
  by_cases h : f = r
  · rw [if_pos h]; subst h; simp
  · have hne : f.toNat ≠ r.toNat := fun h' => h (UInt64.toNat.inj h')
    rw [if_neg h]
    split <;> simp [hne]

theorem cmp_neg_iff (f r : L4) : Pasta.cmp f r = -1 ↔
    limbVerdict f.l3 r.l3 = -1 ∨ (limbVerdict f.l3 r.l3 = 0 ∧ (limbVerdict f.l2 r.l2 = -1 ∨
      (limbVerdict f.l2 r.l2 = 0 ∧ (limbVerdict f.l1 r.l1 = -1 ∨
        (limbVerdict f.l1 r.l1 = 0 ∧ limbVerdict f.l0 r.l0 = -1))))) := by
  rw [C67_cmp_exact]
  simp only [firstVerdict]
  rcases limbVerdict_cases f.l3 r.l3 with h3 | h3 | h3 <;> rcases limbVerdict_cases f.l2 r.l2 with h2 | h2 | h2 <;>
    rcases limbVerdict_cases f.l1 r.l1 with h1 | h1 | h1 <;> rcases limbVerdict_cases f.l0 r.l0 with h0 | h0 | h0 <;>
    rw [h3, h2, h1, h0] <;> decide

theorem cmp_modulus (d m : L4) (hm : Shape m) : Pasta.cmp d m = -1 ↔ Accepted m.val d.val := by
  rw [cmp_neg_iff]
  simp only [limbVerdict_neg, limbVerdict_zero]
  have h0 := d.l0.toNat_lt
  have h1 := d.l1.toNat_lt
  have h2 := d.l2.toNat_lt
  have h3 := d.l3.toNat_lt
  have g0 := m.l0.toNat_lt
  have e3 := hm.l3
  have e2 := hm.l2
  have e1 := hm.l1
  have e0 := hm.l0
  unfold Accepted L4.val
  generalize d.l0.toNat = d0 at *
  generalize d.l1.toNat = d1 at *
  generalize d.l2.toNat = d2 at *
  generalize d.l3.toNat = d3 at *
  generalize m.l0.toNat = m0 at *
  generalize m.l1.toNat = m1 at *
  rw [e3, e2]
  have q3 : (d0 + 2 ^ 64 * d1 + 2 ^ 128 * d2 + 2 ^ 192 * d3) / 2 ^ 192 = d3 := by omega
  have q2 : (d0 + 2 ^ 64 * d1 + 2 ^ 128 * d2 + 2 ^ 192 * d3) / 2 ^ 128 = d2 + 2 ^ 64 * d3 := by omega
  have q1 : (d0 + 2 ^ 64 * d1 + 2 ^ 128 * d2 + 2 ^ 192 * d3) / 2 ^ 64 % 2 ^ 64 = d1 := by omega
  have q0 : (m0 + 2 ^ 64 * m1 + 2 ^ 128 * 0 + 2 ^ 192 * 2 ^ 62) % 2 ^ 64 = m0 := by omega
  have qm : (m0 + 2 ^ 64 * m1 + 2 ^ 128 * 0 + 2 ^ 192 * 2 ^ 62) / 2 ^ 64 % 2 ^ 64 = m1 := by omega
  rw [q3, q2, q1, q0, qm]
  omega

theorem leLimbs_eq_fromBytes (b : List UInt8) (h : b.length = 32) : (leLimbs b 0).val = leToNat b := by
  have := leLimbs_val b 0 (by omega)
  rw [List.drop_zero, Nat.zero_add, List.drop_eq_nil_of_le (by omega : b.length ≤ 32)] at this
  rw [this]
  simp [leToNat]

section
variable {F : PastaField} {p : Nat} (L : Lawful F.A F.P p) (S : Shape F.P.modulus)
include L S

/-- **C67.** `SetBytes` accepts exactly the values of `Accepted`, and the accepted element is the residue. -/
theorem C67_setBytes_exact (input : List UInt8) (h : input.length = 32) :
    (Accepted p (leToNat input) → ∃ a, Pasta.setBytes F input = .ok a ∧ Rep p a (leToNat input : ZMod p)) ∧
    (¬ Accepted p (leToNat input) → Pasta.setBytes F input = .err) := by
  have hc := cmp_modulus (leLimbs input 0) F.P.modulus S
  rw [leLimbs_eq_fromBytes input h, L.modulus] at hc
  unfold Pasta.setBytes
  dsimp only
  constructor
  · intro ha
    refine ⟨_, if_neg (fun hn => hn (hc.2 ha)), ?_⟩
    have := C50_setLimbs L (fromBytes input)
    rwa [C50_fromBytes_value input h] at this
  · intro ha
    exact if_pos (fun hn => ha (hc.1 hn))

/-- **C67.** `SetBigInt` gives the residue, except when the residue lies in the refused interval: then the receiver keeps
its old value and no error is reported. -/
theorem C67_setBigInt_exact (cur : L4) (bi : Int) :
    (Accepted p (bi % (p : Int)).toNat → ∃ a, Pasta.setBigInt F cur bi = .ok a ∧ Rep p a (bi : ZMod p)) ∧
    (¬ Accepted p (bi % (p : Int)).toNat → Pasta.setBigInt F cur bi = .ok cur) := by
  have hp := L.one_lt
  have hlt := L.lt
  have hb := L.bi
  have hne : F.P.biModulus ≠ 0 := by rw [hb]; omega
  have hr0 : 0 ≤ bi % F.P.biModulus := Int.emod_nonneg _ hne
  have hr1 : bi % F.P.biModulus < (p : Int) := by rw [hb]; exact Int.emod_lt_of_pos _ (by omega)
  have hna : (bi % F.P.biModulus).natAbs < p := by omega
  obtain ⟨e, he, hl, hv⟩ : ∃ e, fillBytes 32 (bi % F.P.biModulus).natAbs = some e ∧ e.length = 32 ∧
      beToNat e = (bi % F.P.biModulus).natAbs := fillBytes_spec 32 _ (by rw [pow256]; omega)
  have hv' : leToNat e.reverse = (bi % (p : Int)).toNat := by
    rw [leToNat_reverse, hv, hb]
    rw [hb] at hr0
    omega
  obtain ⟨h1, h2⟩ := C67_setBytes_exact L S e.reverse (by rw [List.length_reverse, hl])
  rw [hv'] at h1 h2
  unfold Pasta.setBigInt
  rw [if_neg hne]
  dsimp only
  rw [he]
  dsimp only
  constructor
  · intro ha
    obtain ⟨a, hs, hr⟩ := h1 ha
    refine ⟨a, by rw [hs], ?_⟩
    have : (((bi % (p : Int)).toNat : Nat) : ZMod p) = (bi : ZMod p) := by
      rw [← Int.cast_natCast, Int.toNat_of_nonneg (by rw [← hb]; exact hr0), ZMod.intCast_mod]
    rwa [this] at hr
  · intro ha
    rw [h2 ha]

end

/-! ## Arithmetic -/

theorem expBit_le (w : UInt64) (j : Nat) (hj : j < 64) : z (expBit w j) ≤ 1 := by
  rw [expBit_eq w j hj]
  split <;> decide

theorem pastaPow_eq (F : PastaField) (base e : L4) : Pasta.pow F base e = pow F.A F.P base e := by
  have key : ∀ (w : UInt64) (k : Nat), k ≤ 64 → ∀ res,
      ((List.range k).reverse.map (expBit w)).foldl (Pasta.powStep F base) res =
      ((List.range k).reverse.map (expBit w)).foldl (powStep F.A base) res := by
    intro w k
    induction k with
    | zero =>
      intro _ res
      rw [List.range_zero, List.reverse_nil, List.map_nil, List.foldl_nil, List.foldl_nil]
    | succ k ih =>
      intro hk res
      rw [List.range_succ, List.reverse_append, List.reverse_singleton, List.singleton_append, List.map_cons,
        List.foldl_cons, List.foldl_cons]
      have e : Pasta.powStep F base res (expBit w k) = powStep F.A base res (expBit w k) := by
        unfold Pasta.powStep powStep Pasta.cmove
        dsimp only
        rw [selectznzS_eq _ (expBit_le w k (by omega))]
      rw [e, ih (by omega)]
  have hfun : (fun (res : L4) (w : UInt64) => ((List.range 64).reverse.map (expBit w)).foldl (Pasta.powStep F base) res) =
      fun res w => ((List.range 64).reverse.map (expBit w)).foldl (powStep F.A base) res := by
    funext res w
    exact key w 64 (le_refl _) res
  unfold Pasta.pow pow
  rw [hfun]

theorem squares_eq (F : PastaField) (b : L4) (k : Nat) : Pasta.squares F b k = pow2k F.A b k := by
  induction k with
  | zero => rfl
  | succ k ih => rw [Pasta.squares, pow2k, ih]

theorem or_zero_iff (a b : UInt64) : a ||| b = 0 ↔ a = 0 ∧ b = 0 := UInt64.or_eq_zero_iff

theorem xor_zero_iff (a b : UInt64) : a ^^^ b = 0 ↔ a = b := UInt64.xor_eq_zero_iff

theorem pastaEqual_iff (f r : L4) : Pasta.equal f r = true ↔ f = r := by
  unfold Pasta.equal
  dsimp only
  rw [beq_iff_eq, or_zero_iff, or_zero_iff, or_zero_iff, xor_zero_iff, xor_zero_iff, xor_zero_iff, xor_zero_iff]
  constructor
  · rintro ⟨⟨⟨h0, h1⟩, h2⟩, h3⟩
    cases f; cases r
    simp_all
  · rintro rfl
    exact ⟨⟨⟨rfl, rfl⟩, rfl⟩, rfl⟩

theorem pastaIsZero_iff (f : L4) : Pasta.isZero f = true ↔ f = ⟨0, 0, 0, 0⟩ := by
  unfold Pasta.isZero
  dsimp only
  rw [beq_iff_eq, or_zero_iff, or_zero_iff, or_zero_iff]
  constructor
  · rintro ⟨⟨⟨h0, h1⟩, h2⟩, h3⟩
    cases f
    simp_all
  · rintro rfl
    exact ⟨⟨⟨rfl, rfl⟩, rfl⟩, rfl⟩

section
variable {F : PastaField} {p : Nat} (L : Lawful F.A F.P p)
include L

/-- **C67.** `Equal`, `IsZero` and `IsOne` decide equality of elements. -/
theorem C67_equal {a b : L4} {x y : ZMod p} (ha : Rep p a x) (hb : Rep p b y) :
    (Pasta.equal a b = true ↔ x = y) ∧ (Pasta.isZero a = true ↔ x = 0) ∧ (Pasta.isOne F a = true ↔ x = 1) := by
  have key : ∀ {c : L4} {w : ZMod p}, Rep p c w → (a = c ↔ x = w) := by
    intro c w hc
    constructor
    · rintro rfl; exact rep_value L ha hc
    · rintro rfl; exact rep_unique L ha hc
  exact ⟨(pastaEqual_iff a b).trans (key hb), (pastaIsZero_iff a).trans (key (C50_constants L).2),
    (pastaEqual_iff a F.P.R).trans (key (C50_constants L).1)⟩

/-- **C67.** `Exp`: the exponent is the value of the second element. -/
theorem C67_exp [NeZero p] {a e : L4} {x y : ZMod p} (ha : Rep p a x) (he : Rep p e y) :
    Rep p (Pasta.exp F a e) (x ^ y.val) := by
  unfold Pasta.exp
  rw [pastaPow_eq]
  exact C50_exp L ha he

/-- **C67.** `(*Fp).IsOdd` is the parity of the value. -/
theorem C67_isOdd [NeZero p] {a : L4} {x : ZMod p} (ha : Rep p a x) : Pasta.isOdd F a = true ↔ x.val % 2 = 1 := by
  unfold Pasta.isOdd
  rw [beq_iff_eq]
  have hv : (F.A.fromMont a).val = x.val := C50_raw L ha
  have h1 : ((F.A.fromMont a).l0 &&& 0x01).toNat = x.val % 2 := by
    have : ((F.A.fromMont a).l0 &&& 1).toNat = (F.A.fromMont a).l0.toNat % 2 := by rw [and1]
    rw [this, ← hv]
    unfold L4.val
    omega
  constructor
  · intro h
    rw [h] at h1
    exact h1.symm
  · intro h
    rw [h] at h1
    exact UInt64.toNat.inj h1

variable [Fact p.Prime]

/-- **C67.** `Invert` returns the inverse and `true` on non-zero elements, zero and `false` on zero. -/
theorem C67_invert (he : F.invExp.val = p - 2) (h3 : 2 < p) {a : L4} {x : ZMod p} (ha : Rep p a x) :
    Rep p (Pasta.invert F a).1 x⁻¹ ∧ ((Pasta.invert F a).2 = true ↔ x ≠ 0) := by
  have hz := (C67_equal L ha ha).2.1
  unfold Pasta.invert
  dsimp only
  rw [pastaPow_eq]
  have hp := C50_pow L ha F.invExp
  rw [he] at hp
  constructor
  · by_cases hx : x = 0
    · subst hx
      rw [zero_pow (by omega)] at hp
      rw [inv_zero]; exact hp
    · rw [← fermat_inv L hx]; exact hp
  · rw [Bool.not_eq_true', ← Bool.not_eq_true, hz]

/-- **C67.** `Sqrt` reports success exactly on squares and then returns a root.  (On a non-square it still overwrites the
receiver.) -/
theorem C67_sqrt {g : ZMod p} (hc3 : (2 * F.c3.val + 1) * 2 ^ 32 = p - 1) (h5 : Rep p F.c5 g) (hg : g ^ 2 ^ 31 = -1)
    {a : L4} {x : ZMod p} (ha : Rep p a x) :
    ∃ y, Rep p (Pasta.sqrt F a).1 y ∧ ((Pasta.sqrt F a).2 = true ↔ y * y = x) ∧
      ((Pasta.sqrt F a).2 = true ↔ IsSquare x) := by
  have hit : ∀ i st, Pasta.tsIter F i st = tsIter F.A F.P i st := by
    intro i st
    unfold Pasta.tsIter tsIter Pasta.cmove
    dsimp only
    rw [squares_eq]
    have hf : Pasta.flag F (pow2k F.A st.b (i - 2)) = uint1 (Int.neg (Field.isOne F.P (pow2k F.A st.b (i - 2))) + 1) := by
      unfold Pasta.flag
      generalize pow2k F.A st.b (i - 2) = b
      have h1 : Field.isOne F.P b = if b.val = F.P.R.val then 1 else 0 := C50_equal_iff b F.P.R
      rw [h1]
      by_cases h : b = F.P.R
      · have hv : b.val = F.P.R.val := by rw [h]
        have h2 : Pasta.isOne F b = true := (pastaEqual_iff b _).2 h
        rw [if_pos hv, flag_one, h2]
        rfl
      · have hv : ¬ b.val = F.P.R.val := fun hv => h (L4.val_inj hv)
        have h2 : Pasta.isOne F b = false := by
          rw [← Bool.not_eq_true]
          exact fun ht => h ((pastaEqual_iff b _).1 ht)
        rw [if_neg hv, flag_zero, h2]
        rfl
    have hle : z (Pasta.flag F (pow2k F.A st.b (i - 2))) ≤ 1 := by
      unfold Pasta.flag
      split <;> decide
    rw [selectznzS_eq _ hle, selectznzS_eq _ hle, hf]
  have hfun : (fun (st : TS) (i : Nat) => Pasta.tsIter F i st) = fun st i => tsIter F.A F.P i st := by
    funext st i; exact hit i st
  have e1 : (Pasta.sqrt F a).1 = (tonelliShanks F.A F.P 32 F.c3 F.c5 a).2 := by
    unfold Pasta.sqrt tonelliShanks tsLoop
    dsimp only
    rw [pastaPow_eq, hfun]
  have e2 : (Pasta.sqrt F a).2 = Pasta.equal (F.A.square (Pasta.sqrt F a).1) a := rfl
  obtain ⟨y, hy, hsq, _⟩ := tonelliShanks_spec L (by decide : 1 ≤ 32) hc3 h5 hg ha
  rw [← e1] at hy
  have hq := (C67_equal L (C50_square L hy) ha).1
  rw [← e2] at hq
  exact ⟨y, hy, hq, hq.trans ⟨fun h => ⟨y, h.symm⟩, hsq⟩⟩

end

/-- **C67.** The hypotheses above hold for the two fields with the constants of the repository. -/
theorem C67_instances :
    Lawful pastaFp.A pastaFp.P PastaFp.prime ∧ Lawful pastaFq.A pastaFq.P PastaFq.prime ∧
    Shape pastaFp.P.modulus ∧ Shape pastaFq.P.modulus ∧
    pastaFp.invExp.val = PastaFp.prime - 2 ∧ pastaFq.invExp.val = PastaFq.prime - 2 ∧
    (2 * pastaFp.c3.val + 1) * 2 ^ 32 = PastaFp.prime - 1 ∧ (2 * pastaFq.c3.val + 1) * 2 ^ 32 = PastaFq.prime - 1 ∧
    (∃ g : ZMod PastaFp.prime, Rep PastaFp.prime pastaFp.c5 g ∧ g ^ 2 ^ 31 = -1) ∧
    (∃ g : ZMod PastaFq.prime, Rep PastaFq.prime pastaFq.c5 g ∧ g ^ 2 ^ 31 = -1) := by
  refine ⟨PastaFp.lawful, PastaFq.lawful, pastaFp_shape, pastaFq_shape, by decide +kernel, by decide +kernel,
    by decide +kernel, by decide +kernel, ⟨_, rep_of_powMod PastaFp.lawful (g := 19814229590243028906643993866117402072516588566294623396325693409366934201135) (by decide +kernel) (by decide +kernel),
      neg_one_of_pw (k := 31) (by decide +kernel) (by decide +kernel) (by decide +kernel)⟩,
    ⟨_, rep_of_powMod PastaFq.lawful (g := 20761624379169977859705911634190121761503565370703356079647768903521299517535) (by decide +kernel) (by decide +kernel),
      neg_one_of_pw (k := 31) (by decide +kernel) (by decide +kernel) (by decide +kernel)⟩⟩

/-! ## The consequences for the API -/

/-- **C67 (refutation).** Decoding accepts a value above the modulus: `2^256 - 1` is accepted in both fields. -/
theorem C67_accepts_noncanonical :
    (∃ a, Pasta.setBytes pastaFp (List.replicate 32 0xff) = .ok a) ∧
    (∃ a, Pasta.setBytes pastaFq (List.replicate 32 0xff) = .ok a) := by
  have hv : leToNat (List.replicate 32 (0xff : UInt8)) = 2 ^ 256 - 1 := by decide +kernel
  constructor
  · obtain ⟨a, ha, _⟩ := (C67_setBytes_exact (F := pastaFp) PastaFp.lawful pastaFp_shape (List.replicate 32 0xff) rfl).1
      (Or.inr (Or.inl (by rw [hv]; decide +kernel)))
    exact ⟨a, ha⟩
  · obtain ⟨a, ha, _⟩ := (C67_setBytes_exact (F := pastaFq) PastaFq.lawful pastaFq_shape (List.replicate 32 0xff) rfl).1
      (Or.inr (Or.inl (by rw [hv]; decide +kernel)))
    exact ⟨a, ha⟩

/-- **C67 (refutation).** Decoding is not injective: the residue of `2^256 - 1` has two accepted encodings. -/
theorem C67_two_encodings : ∃ b c : List UInt8, b.length = 32 ∧ c.length = 32 ∧ b ≠ c ∧ ∃ a,
    Pasta.setBytes pastaFq b = .ok a ∧ Pasta.setBytes pastaFq c = .ok a := by
  have hv : leToNat (List.replicate 32 (0xff : UInt8)) = 2 ^ 256 - 1 := by decide +kernel
  obtain ⟨a, ha, hra⟩ := (C67_setBytes_exact (F := pastaFq) PastaFq.lawful pastaFq_shape (List.replicate 32 0xff) rfl).1
    (Or.inr (Or.inl (by rw [hv]; decide +kernel)))
  have hlt : (2 ^ 256 - 1) % PastaFq.prime < 256 ^ 32 := by decide +kernel
  have hc : leToNat (natToLE 32 ((2 ^ 256 - 1) % PastaFq.prime)) = (2 ^ 256 - 1) % PastaFq.prime := by
    rw [leToNat_natToLE, Nat.mod_eq_of_lt hlt]
  have hl : (natToLE 32 ((2 ^ 256 - 1) % PastaFq.prime)).length = 32 := rfl
  obtain ⟨a', ha', hra'⟩ := (C67_setBytes_exact (F := pastaFq) PastaFq.lawful pastaFq_shape _ hl).1
    (Or.inl (by rw [hc]; decide +kernel))
  refine ⟨_, _, rfl, hl, ?_, a, ha, ?_⟩
  · intro h
    have := congrArg leToNat h
    rw [hv, hc] at this
    exact absurd this (by decide +kernel)
  · rw [ha']
    have : a' = a := by
      refine rep_unique PastaFq.lawful hra' ?_
      rw [hc, ZMod.natCast_mod, ← hv]
      exact hra
    rw [this]

/-- **C67 (refutation).** A scalar whose canonical encoding, produced by `Bytes`, is refused by `SetBytes`, and which
`SetBigInt` into a fresh element silently turns into zero. -/
theorem C67_refuses_canonical : ∃ (a : L4) (x : ZMod PastaFq.prime), Rep PastaFq.prime a x ∧ x ≠ 0 ∧
    Pasta.setBytes pastaFq (Field.bytes pastaFq.A a) = .err ∧
    Field.bigInt pastaFq.A a = (x.val : Int) ∧
    Pasta.setBigInt pastaFq Field.zero (x.val : Int) = .ok Field.zero := by
  have L : Lawful pastaFq.A pastaFq.P PastaFq.prime := PastaFq.lawful
  have hv : ((PastaFq.prime - 0x8c46eb2100000001 : Nat) : ZMod PastaFq.prime).val = PastaFq.prime - 0x8c46eb2100000001 := by
    rw [ZMod.val_natCast]
    decide +kernel
  have hnot : ¬ Accepted PastaFq.prime (PastaFq.prime - 0x8c46eb2100000001) := by
    unfold Accepted
    decide +kernel
  have hr := C50_setLimbs L (L4.ofNat (PastaFq.prime - 0x8c46eb2100000001))
  rw [L4.val_ofNat _ (by decide +kernel)] at hr
  refine ⟨_, _, hr, ?_, ?_, C50_bigInt L hr, ?_⟩
  · intro h
    have := congrArg ZMod.val h
    rw [hv, ZMod.val_zero] at this
    exact absurd this (by decide +kernel)
  · refine (C67_setBytes_exact L pastaFq_shape _ rfl).2 ?_
    rw [C50_bytes L hr, hv, leToNat_natToLE, Nat.mod_eq_of_lt (by decide +kernel)]
    exact hnot
  · refine (C67_setBigInt_exact L pastaFq_shape Field.zero _).2 ?_
    rw [hv]
    have : (((PastaFq.prime - 0x8c46eb2100000001 : Nat) : Int) % (PastaFq.prime : Int)).toNat =
        PastaFq.prime - 0x8c46eb2100000001 := by decide +kernel
    rw [this]
    exact hnot

/-- `ScalarPallas.IsOdd` (crypto/core/curves/pallas_curve.go:268-270) looks at the stored limb. -/
def ScalarPallas.isOdd (s : L4) : Bool := s.l0 &&& 1 == 1

/-- `ScalarPallas.IsEven` (crypto/core/curves/pallas_curve.go:272-274). -/
def ScalarPallas.isEven (s : L4) : Bool := s.l0 &&& 1 == 0

/-- **C67 (refutation).** The Pallas scalar `2` is reported odd and not even. -/
theorem C67_parity_wrong : ∃ s : L4, Rep PastaFq.prime s 2 ∧ ScalarPallas.isOdd s = true ∧ ScalarPallas.isEven s = false := by
  have h : Rep PastaFq.prime ⟨0x2a0f9218fffffff9, 0x1011d11bbcef61f1, 0xffffffffffffffff, 0x3fffffffffffffff⟩
      ((2 : Nat) : ZMod PastaFq.prime) := rep_of_powMod PastaFq.lawful (by decide +kernel) (by decide +kernel)
  exact ⟨_, h, by decide +kernel, by decide +kernel⟩

/-! ## C51: comparison of scalars -/

/-- **C51.** What `Cmp` of the K-256 and P-256 scalars (any native field) computes: the order of the Montgomery forms
`value · 2^256 mod q`.  In particular `0` exactly on equal scalars. -/
theorem C51_cmp_exact {F : Impl} {q : Nat} (G : Good F q) {s r : L4} {x y : ZMod q} (hs : Rep q s x) (hr : Rep q r y) :
    Scalar.cmp s r = cmp3 ((x * 2 ^ 256).val) ((y * 2 ^ 256).val) ∧ (Scalar.cmp s r = 0 ↔ x = y) := by
  have L := G.lawful
  have : NeZero q := ⟨by have := L.one_lt; omega⟩
  have e : ∀ {c : L4} {w : ZMod q}, Rep q c w → (w * 2 ^ 256).val = c.val := by
    intro c w h
    rw [← h.2, ZMod.val_natCast, Nat.mod_eq_of_lt h.1]
  have h1 : Scalar.cmp s r = cmp3 s.val r.val := C50_cmp_is_integer_order s r
  refine ⟨by rw [e hs, e hr, h1], ?_⟩
  rw [h1]
  constructor
  · intro h
    have hv : s.val = r.val := by
      unfold cmp3 at h
      split at h
      · exact absurd h (by decide)
      · split at h
        · omega
        · exact absurd h (by decide)
    have := L4.val_inj hv
    subst this
    exact rep_value L hs hr
  · rintro rfl
    have := rep_unique L hs hr
    subst this
    unfold cmp3
    rw [if_neg (lt_irrefl _), if_pos rfl]

/-- **C51 (refutation).** `Cmp` does not order scalars by value: in both curves some `y > 1` compares as less than `1`; for
Pallas already `2` compares as greater than `3`. -/
theorem C51_cmp_not_by_value :
    (∃ s r : L4, ∃ x y : Nat, x < y ∧ y < K256Fq.prime ∧ Rep K256Fq.prime s x ∧ Rep K256Fq.prime r y ∧ Scalar.cmp s r = 1) ∧
    (∃ s r : L4, ∃ x y : Nat, x < y ∧ y < P256Fq.prime ∧ Rep P256Fq.prime s x ∧ Rep P256Fq.prime r y ∧ Scalar.cmp s r = 1) ∧
    (∃ s r : L4, Rep PastaFq.prime s ((2 : Nat) : ZMod PastaFq.prime) ∧ Rep PastaFq.prime r ((3 : Nat) : ZMod PastaFq.prime) ∧
      Pasta.cmp s r = 1) := by
  refine ⟨⟨⟨0x402da1732fc9bebf, 0x4551231950b75fc4, 1, 0⟩, ⟨0x4c35df134d9222c7, 0x6b845ac64d7deef8, 0, 0⟩, 1,
      267776665566007192515705986938822075896, by decide +kernel, by decide +kernel,
      rep_of_powMod K256Fq.lawful (by decide +kernel) (by decide +kernel),
      rep_of_powMod K256Fq.lawful (by decide +kernel) (by decide +kernel), by decide +kernel⟩,
    ⟨⟨0x0c46353d039cdaaf, 0x4319055258e8617b, 0, 0xffffffff⟩, ⟨0x1c2945290739b55e, 0xdf1a6c1fbe16f833, 0x43190552, 0xfffffffe⟩,
      1, 4294967297, by decide +kernel, by decide +kernel,
      rep_of_powMod P256Fq.lawful (by decide +kernel) (by decide +kernel),
      rep_of_powMod P256Fq.lawful (by decide +kernel) (by decide +kernel), by decide +kernel⟩,
    ⟨⟨0x2a0f9218fffffff9, 0x1011d11bbcef61f1, 0xffffffffffffffff, 0x3fffffffffffffff⟩,
      ⟨0xf8f3e594fffffff5, 0x86f76d2b969cbe7a, 0xfffffffffffffffe, 0x3fffffffffffffff⟩,
      rep_of_powMod PastaFq.lawful (by decide +kernel) (by decide +kernel),
      rep_of_powMod PastaFq.lawful (by decide +kernel) (by decide +kernel), by decide +kernel⟩⟩

end Verif.Native
