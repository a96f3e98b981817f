import Verif.Curves.EcScalar
import Verif.Curves.EcPointApi
import Verif.Native.Codec
import Verif.Native.Curves
import Verif.Native.Primes
import Verif.Base.Tactics
import Verif.Bls381.FqApi

/-! # C110: the legacy scalar arithmetic is the field of its curve's order -/

set_option linter.unusedSectionVars false
set_option exponentiation.threshold 600

namespace Verif.Ec
open Verif.Bytes Verif.Native

/-- The result is the canonical representative of the residue `v`. -/
def Gives (n : Nat) (r : Res Int) (v : ZMod n) : Prop := ∃ z : Int, r = .ok z ∧ 0 ≤ z ∧ z < n ∧ (z : ZMod n) = v

theorem gives_mod {n : Nat} (h0 : 0 < n) (x : Int) : Gives n (Big.mod x n) (x : ZMod n) := by
  have hn : ((n : Nat) : Int) ≠ 0 := by omega
  refine ⟨x % n, ?_, Int.emod_nonneg _ hn, Int.emod_lt_of_pos _ (by omega), ?_⟩
  · unfold Big.mod; rw [if_neg hn]
  · exact (ZMod.intCast_mod x n)

/-! ## secp256k1 and P-256 -/

namespace Sc
variable {n : Nat}

theorem neg_gives (h0 : 0 < n) (x : Int) : Gives n (neg n x) (-(x : ZMod n)) := by
  have h := gives_mod h0 ((n : Int) - x)
  push_cast at h
  rw [ZMod.natCast_self, zero_sub] at h
  exact h

theorem div_gives [Fact n.Prime] (x y : Int) (hy : (y : ZMod n) ≠ 0) : Gives n (div n x y) ((x : ZMod n) * (y : ZMod n)⁻¹) := by
  have h0 : 0 < n := (Fact.out : n.Prime).pos
  have hn : ((n : Nat) : Int) ≠ 0 := by omega
  unfold div
  cases hi : Big.modInverse y n with
  | none =>
    exfalso
    rw [Big.modInverse_eq_none] at hi
    apply hi
    have h1 : ¬ (n : Int) ∣ y := fun h => hy ((ZMod.intCast_zmod_eq_zero_iff_dvd y n).2 h)
    have h2 : ¬ n ∣ y.natAbs := fun h => h1 (Int.natCast_dvd.2 h)
    have h3 := ((Nat.Prime.coprime_iff_not_dvd (Fact.out : n.Prime)).2 h2).symm
    rw [Int.gcd_eq_natAbs]
    exact h3
  | some t =>
    obtain ⟨_, _, h3⟩ := Big.modInverse_spec hn hi
    have h4 := (ZMod.intCast_eq_intCast_iff _ _ n).2 h3
    push_cast at h4
    have h5 : (t : ZMod n) = (y : ZMod n)⁻¹ := eq_inv_of_mul_eq_one_right h4
    have h := gives_mod h0 (x * t)
    push_cast at h
    rw [h5] at h
    exact h

theorem div_zero_panics [Fact n.Prime] (x y : Int) (hy : (y : ZMod n) = 0) : div n x y = .panic := by
  unfold div
  cases hi : Big.modInverse y n with
  | none => rfl
  | some t =>
    exfalso
    have hn : ((n : Nat) : Int) ≠ 0 := by have := (Fact.out : n.Prime).pos; omega
    obtain ⟨_, _, h3⟩ := Big.modInverse_spec hn hi
    have h4 := (ZMod.intCast_eq_intCast_iff _ _ n).2 h3
    push_cast at h4
    rw [hy, zero_mul] at h4
    exact one_ne_zero h4.symm

/-- **C110.** `K256Scalar` and `P256Scalar` (the prime `n` is the order of the curve): for all integers, negative and unreduced
ones included, the results are the canonical representatives of sum, difference, negative, product and quotient. -/
theorem arithmetic [Fact n.Prime] (x y : Int) :
    Gives n (add n x y) ((x : ZMod n) + y) ∧ Gives n (sub n x y) ((x : ZMod n) - y) ∧ Gives n (neg n x) (-(x : ZMod n)) ∧
    Gives n (mul n x (some y)) ((x : ZMod n) * y) ∧ ((y : ZMod n) ≠ 0 → Gives n (div n x y) ((x : ZMod n) / y)) := by
  have h0 : 0 < n := (Fact.out : n.Prime).pos
  refine ⟨?_, ?_, neg_gives h0 x, ?_, fun h => by rw [div_eq_mul_inv]; exact div_gives x y h⟩
  · have h := gives_mod h0 (x + y); push_cast at h; exact h
  · have h := gives_mod h0 (x - y); push_cast at h; exact h
  · have h := gives_mod h0 (x * y); push_cast at h; exact h

theorem isValid_iff (x : Int) : isValid n x = true ↔ 0 ≤ x ∧ x < n := by
  unfold isValid CoreMod.inZm
  dsimp only
  constructor
  · intro h
    simpa [not_or] using h
  · rintro ⟨h1, h2⟩
    simpa [not_or] using ⟨h1, h2⟩

theorem bytes_ok (x : Int) (h0 : 0 ≤ x) (h : x < 2 ^ 256) :
    ∃ b, bytes x = .ok b ∧ b.length = 32 ∧ Big.setBytes b = x := by
  have e : (256 : Int) ^ 32 = 2 ^ 256 := by norm_num
  refine ⟨natToBEfix 32 x.toNat, fill_lt h0 (by omega), length_natToBEfix _ _, ?_⟩
  unfold Big.setBytes
  rw [beToNat_natToBEfix, Nat.mod_eq_of_lt]
  · omega
  · have e' : (256 : Nat) ^ 32 = 2 ^ 256 := by norm_num
    rw [e']
    omega

theorem bytes_panics (x : Int) (h : 2 ^ 256 ≤ x.natAbs) : bytes x = .panic := by
  unfold bytes fill fillBytes
  have e' : (256 : Nat) ^ 32 = 2 ^ 256 := by norm_num
  dsimp only
  rw [e', if_neg (by omega)]

theorem bytes_sign (x : Int) : bytes (-x) = bytes x := by
  unfold bytes fill
  dsimp only
  rw [Int.natAbs_neg]

theorem random_spec (h0 : 0 < n) (r : Rand 48) :
    (r.failed = true ∨ r.n ≠ 48 → random n r = .err) ∧
    (r.failed = false → r.n = 48 → Gives n (random n r) (beToNat r.buf : ZMod n)) := by
  unfold random
  constructor
  · rintro (h | h)
    · rw [if_pos h]
    · by_cases hf : r.failed = true
      · rw [if_pos hf]
      · rw [if_neg hf, if_pos h]
  · intro h1 h2
    rw [if_neg (by rw [h1]; decide), if_neg (by omega)]
    have h := gives_mod h0 (Big.setBytes r.buf)
    unfold Big.setBytes at h ⊢
    rw [Int.cast_natCast] at h
    exact h

end Sc

/-! ## BLS12-381 -/

namespace BlsSc
open Verif.Bls381 Verif.Bls381.Fq

theorem set_rep (x : Int) : ∃ s, set x = .ok s ∧ Rep q s (x : ZMod q) :=
  let ⟨s, h1, h2, _⟩ := (C90_scalar_integers x).2.1
  ⟨s, h1, h2⟩

theorem nezero : NeZero q := ⟨by have := lawful.one_lt; omega⟩

theorem out_gives {s : L4} {v : ZMod q} (h : Rep q s v) : Gives q (.ok (Scalar.bigInt Fq.impl s)) v := by
  have := nezero
  obtain ⟨s', h1, h2, h3⟩ := (C90_scalar_integers ((v.val : Nat) : Int)).1
  have e : (((v.val : Nat) : Int) : ZMod q) = v := by rw [Int.cast_natCast, ZMod.natCast_zmod_val]
  rw [e] at h2
  have hs : s = s' := rep_unique lawful h h2
  rw [← hs] at h3
  have hq : ((q : Nat) : Int) ≠ 0 := by have := lawful.one_lt; omega
  refine ⟨_, rfl, ?_, ?_, ?_⟩
  · rw [h3]; exact Int.emod_nonneg _ hq
  · rw [h3]; exact Int.emod_lt_of_pos _ (by have := lawful.one_lt; omega)
  · rw [h3, ZMod.intCast_mod, e]

theorem neg_out {s : L4} {v : ZMod q} (h : Rep q s v) : Gives q (.ok (Scalar.bigInt Fq.impl (Scalar.neg Fq.impl s))) (-v) := by
  by_cases hv : v = 0
  · subst hv
    obtain ⟨_, _, _, _, _, hb⟩ := C90_neg_zero_not_canonical h
    have e : Scalar.bigInt Fq.impl (Scalar.neg Fq.impl s) = 0 := by
      have e1 : Scalar.bigInt Fq.impl (Scalar.neg Fq.impl s) = Big.setBytes (Scalar.bytes Fq.impl (Scalar.neg Fq.impl s)) := rfl
      rw [e1, hb]
      decide
    refine ⟨0, by rw [e], le_refl _, ?_, ?_⟩
    · have := lawful.one_lt; omega
    · rw [neg_zero]; exact Int.cast_zero
  · exact out_gives (C90_scalar_neg h hv)

theorem div_out {a b : L4} {x y : ZMod q} (ha : Rep q a x) (hb : Rep q b y) :
    (y ≠ 0 → Rep q (select a (Fq.impl.A.mul a (Fq.impl.invert Field.zero b).2) (if (Fq.impl.invert Field.zero b).1 = 1 then 1 else 0)) (x * y⁻¹)) ∧
    (y = 0 → select a (Fq.impl.A.mul a (Fq.impl.invert Field.zero b).2) (if (Fq.impl.invert Field.zero b).1 = 1 then 1 else 0) = a) := by
  have h := good.invert Field.zero b y hb
  rw [e_invert, e_mul]
  constructor
  · intro hy
    obtain ⟨r, hr, hr2⟩ := h.1 hy
    rw [hr]
    dsimp only
    rw [if_pos rfl]
    have e : select a (implFix.A.mul a r) 1 = implFix.A.mul a r := (C90_codec (List.replicate 32 0) rfl _ _).2.2.2.2.2
    rw [e]
    exact C50_mul lawful ha hr2
  · intro hy
    rw [h.2 hy]
    dsimp only
    rw [if_neg (by decide)]
    exact (C90_codec (List.replicate 32 0) rfl _ _).2.2.2.2.1

theorem arithmetic (x y : Int) :
    Gives q (add x y) ((x : ZMod q) + y) ∧ Gives q (sub x y) ((x : ZMod q) - y) ∧ Gives q (neg x) (-(x : ZMod q)) ∧
    Gives q (mul x y) ((x : ZMod q) * y) ∧ ((y : ZMod q) ≠ 0 → Gives q (div x y) ((x : ZMod q) / y)) ∧
    ((y : ZMod q) = 0 → Gives q (div x y) (x : ZMod q)) := by
  obtain ⟨a, ha, ra⟩ := set_rep x
  obtain ⟨b, hb, rb⟩ := set_rep y
  obtain ⟨_, _, hadd, hsub, hmul, _⟩ := C90_scalar_ring ra rb ra
  refine ⟨?_, ?_, ?_, ?_, fun hy => ?_, fun hy => ?_⟩
  · unfold add; rw [ha, Res.bind_ok, hb, Res.bind_ok]; exact out_gives hadd
  · unfold sub; rw [ha, Res.bind_ok, hb, Res.bind_ok]; exact out_gives hsub
  · unfold neg; rw [ha, Res.bind_ok]; exact neg_out ra
  · unfold mul; rw [ha, Res.bind_ok, hb, Res.bind_ok]; exact out_gives hmul
  · unfold div; rw [ha, Res.bind_ok, hb, Res.bind_ok]; dsimp only
    rw [div_eq_mul_inv]
    exact out_gives ((div_out ra rb).1 hy)
  · unfold div; rw [ha, Res.bind_ok, hb, Res.bind_ok]; dsimp only
    rw [(div_out ra rb).2 hy]
    exact out_gives ra

theorem isValid_iff (x : Int) : ∃ b, isValid x = .ok b ∧ (b = true ↔ 0 ≤ x ∧ x < q) := by
  obtain ⟨s, h1, h2, h3⟩ := (C90_scalar_integers x).2.1
  refine ⟨Scalar.bigInt Fq.impl s == x, ?_, ?_⟩
  · unfold isValid
    have : set x = .ok s := h1
    rw [this, Res.bind_ok]
  · rw [h3, beq_iff_eq]
    have hq : 0 < ((q : Nat) : Int) := by have := lawful.one_lt; omega
    constructor
    · intro h
      rw [← h]
      exact ⟨Int.emod_nonneg _ (by omega), Int.emod_lt_of_pos _ hq⟩
    · rintro ⟨h1, h2⟩
      exact Int.emod_eq_of_lt h1 h2

end BlsSc

/-! ## Ed25519 -/

namespace EdSc

instance fact_ell : Fact ell.Prime := ⟨Primes.prime_7237005577332262213973186563042994240857116359379907606001950938285454250989⟩

theorem ell_lt : ell < 2 ^ 256 := by decide +kernel
theorem ell_pos : 0 < ell := by decide +kernel

theorem zeros (n : Nat) : leToNat (List.replicate n 0) = 0 := by
  induction n with
  | zero => rfl
  | succ n ih => rw [List.replicate_succ]; show (0 : UInt8).toNat + 256 * leToNat (List.replicate n 0) = 0; rw [ih]; rfl

theorem take32 (l : List UInt8) : leToNat (l.take 32 ++ List.replicate (32 - l.length) 0) = leToNat l % 2 ^ 256 := by
  rw [leToNat_append, zeros, Nat.mul_zero, Nat.add_zero]
  have e' : (256 : Nat) ^ 32 = 2 ^ 256 := by norm_num
  by_cases h : l.length ≤ 32
  · have h1 := leToNat_lt l
    have h2 : (256 : Nat) ^ l.length ≤ 256 ^ 32 := Nat.pow_le_pow_right (by omega) h
    rw [List.take_of_length_le h, Nat.mod_eq_of_lt (by omega)]
  · have h1 : (l.take 32).length = 32 := by rw [List.length_take]; omega
    have h2 := leToNat_lt (l.take 32)
    rw [h1, e'] at h2
    have h3 := leToNat_append (l.take 32) (l.drop 32)
    rw [List.take_append_drop, h1, e'] at h3
    rw [h3, Nat.add_mul_mod_self_left, Nat.mod_eq_of_lt h2]

/-- Only the absolute value modulo `2^256` is read. -/
theorem scalar_eq (x : Int) :
    scalar x = if x.natAbs % 2 ^ 256 < ell then .ok (x.natAbs % 2 ^ 256) else .err := by
  unfold scalar
  dsimp only
  rw [take32, leToNat_reverse]
  have e : beToNat (Big.bytes x) = x.natAbs := beToNat_natToBE _
  rw [e]

theorem must_ok (x : Int) (h : x.natAbs % 2 ^ 256 < ell) : must x = .ok (x.natAbs % 2 ^ 256) := by
  unfold must
  rw [scalar_eq, if_pos h]

theorem must_panics (x : Int) (h : ell ≤ x.natAbs % 2 ^ 256) : must x = .panic := by
  unfold must
  rw [scalar_eq, if_neg (by omega)]

theorem must_range (x : Int) (h0 : 0 ≤ x) (h : x < (ell : Int)) : must x = .ok x.toNat := by
  have := ell_lt
  have e : x.natAbs % 2 ^ 256 = x.toNat := by rw [Nat.mod_eq_of_lt (by omega)]; omega
  rw [must_ok x (by omega), e]

theorem out_eq (v : Nat) (h : v < 2 ^ 256) : out v = v := by
  unfold out Big.setBytes
  have e' : (256 : Nat) ^ 32 = 2 ^ 256 := by norm_num
  rw [beToNat_reverse, leToNat_natToLE, e', Nat.mod_eq_of_lt h]

theorem out_gives (v : Nat) : Gives ell (.ok (out (v % ell))) (v : ZMod ell) := by
  have h := Nat.mod_lt v ell_pos
  have := ell_lt
  rw [out_eq _ (by omega)]
  refine ⟨_, rfl, by omega, by omega, ?_⟩
  rw [Int.cast_natCast, ZMod.natCast_mod]

theorem cast_toNat {x : Int} (h : 0 ≤ x) : ((x.toNat : Nat) : ZMod ell) = (x : ZMod ell) := by
  rw [← Int.cast_natCast, Int.toNat_of_nonneg h]

theorem arithmetic (x y : Int) (hx : 0 ≤ x) (hx' : x < (ell : Int)) (hy : 0 ≤ y) (hy' : y < (ell : Int)) :
    Gives ell (add x y) ((x : ZMod ell) + y) ∧ Gives ell (sub x y) ((x : ZMod ell) - y) ∧ Gives ell (neg x) (-(x : ZMod ell)) ∧
    Gives ell (mul x y) ((x : ZMod ell) * y) ∧ Gives ell (div x y) ((x : ZMod ell) / y) := by
  have ex := cast_toNat hx
  have ey := cast_toNat hy
  have mx := must_range x hx hx'
  have my := must_range y hy hy'
  refine ⟨?_, ?_, ?_, ?_, ?_⟩
  · unfold add
    rw [mx, Res.bind_ok, my, Res.bind_ok]
    have h := out_gives (x.toNat + y.toNat)
    rw [Nat.cast_add, ex, ey] at h
    exact h
  · unfold sub
    rw [mx, Res.bind_ok, my, Res.bind_ok]
    have h := out_gives (x.toNat + (ell - y.toNat))
    rw [Nat.cast_add, Nat.cast_sub (by omega), ZMod.natCast_self, zero_sub, ex, ey, ← sub_eq_add_neg] at h
    exact h
  · unfold neg
    rw [mx, Res.bind_ok]
    have h := out_gives (ell - x.toNat)
    rw [Nat.cast_sub (by omega), ZMod.natCast_self, zero_sub, ex] at h
    exact h
  · unfold mul
    rw [mx, Res.bind_ok, my, Res.bind_ok]
    have h := out_gives (x.toNat * y.toNat)
    rw [Nat.cast_mul, ex, ey] at h
    exact h
  · unfold div
    rw [my, Res.bind_ok]
    dsimp only
    rw [mx, Res.bind_ok]
    have : NeZero ell := ⟨by have := ell_pos; omega⟩
    have h := out_gives (x.toNat * ((y.toNat : ZMod ell)⁻¹).val)
    rw [Nat.cast_mul, ZMod.natCast_zmod_val, ex, ey, ← div_eq_mul_inv] at h
    rw [ey]
    exact h

theorem bytes_ok (x : Int) (h0 : 0 ≤ x) (h : x < (ell : Int)) :
    ∃ b, bytes x = .ok b ∧ b.length = 32 ∧ Big.setBytes b = x := by
  have := ell_lt
  refine ⟨(natToLE 32 x.toNat).reverse, ?_, ?_, ?_⟩
  · unfold bytes; rw [must_range x h0 h, Res.bind_ok]
  · rw [List.length_reverse, length_natToLE]
  · have := out_eq x.toNat (by omega)
    unfold out at this
    rw [this]
    omega

/-- What the generator delivers is the clamped hash, reduced. -/
theorem random_spec (sha512 : List UInt8 → List UInt8) (r : Sc.Rand 64) :
    (r.failed = true ∨ r.n ≠ 64 → random sha512 r = .err) ∧
    (r.failed = false → r.n = 64 → Gives ell (random sha512 r) (leToNat (clamp ((sha512 r.buf).take 32)) : ZMod ell)) := by
  unfold random
  constructor
  · rintro (h | h)
    · rw [if_pos h]
    · by_cases hf : r.failed = true
      · rw [if_pos hf]
      · rw [if_neg hf, if_pos h]
  · intro h1 h2
    rw [if_neg (by rw [h1]; decide), if_neg (by omega)]
    exact out_gives _

end EdSc

/-! ## C110 -/

/-- The methods of an `EcScalar` (crypto/core/curves/ec_scalar.go:25-35) and the order it works with. -/
structure Impl where
  n : Nat
  add : Int → Int → Res Int
  sub : Int → Int → Res Int
  neg : Int → Res Int
  mul : Int → Int → Res Int
  div : Int → Int → Res Int
  isValid : Int → Res Bool
  bytes : Int → Res (List UInt8)

/-- `K256Scalar` and `P256Scalar`: the same text over two orders (crypto/core/curves/ec_scalar.go:38-170). -/
def Sc.impl (n : Nat) : Impl :=
  ⟨n, Sc.add n, Sc.sub n, Sc.neg n, fun x y => Sc.mul n x (some y), Sc.div n, fun x => .ok (Sc.isValid n x), Sc.bytes⟩
/-- `Bls12381Scalar` (crypto/core/curves/ec_scalar.go:172-235). -/
def BlsSc.impl : Impl :=
  ⟨Bls381.Fq.q, BlsSc.add, BlsSc.sub, BlsSc.neg, BlsSc.mul, BlsSc.div, BlsSc.isValid, BlsSc.bytes⟩
/-- `Ed25519Scalar` (crypto/core/curves/ec_scalar.go:237-351). -/
noncomputable def EdSc.impl : Impl :=
  ⟨EdSc.ell, EdSc.add, EdSc.sub, EdSc.neg, EdSc.mul, EdSc.div, fun x => .ok (EdSc.isValid x), EdSc.bytes⟩

/-- The four implementations. -/
noncomputable def impls : List Impl := [Sc.impl K256Fq.prime, Sc.impl P256Fq.prime, BlsSc.impl, EdSc.impl]

theorem impls_all {P : Impl → Prop} (h1 : ∀ n, n.Prime → n < 2 ^ 256 → P (Sc.impl n)) (h2 : P BlsSc.impl) (h3 : P EdSc.impl) :
    ∀ S ∈ impls, P S := by
  intro S hS
  rcases List.mem_cons.1 hS with rfl | hS
  · exact h1 _ Fact.out (by decide +kernel)
  rcases List.mem_cons.1 hS with rfl | hS
  · exact h1 _ Fact.out (by decide +kernel)
  rcases List.mem_cons.1 hS with rfl | hS
  · exact h2
  rcases List.mem_cons.1 hS with rfl | hS
  · exact h3
  cases hS

/-- **C110.** In all four implementations, for arguments in `[0, n)`, `n` the prime order: the results are the integers in `[0, n)`
that represent sum, difference, negative, product, and (for a non-zero divisor) quotient of the residues. -/
theorem C110_arithmetic (S : Impl) (hS : S ∈ impls) : S.n.Prime ∧ ∀ x y : Int, 0 ≤ x → x < S.n → 0 ≤ y → y < S.n →
    Gives S.n (S.add x y) ((x : ZMod S.n) + y) ∧ Gives S.n (S.sub x y) ((x : ZMod S.n) - y) ∧
    Gives S.n (S.neg x) (-(x : ZMod S.n)) ∧ Gives S.n (S.mul x y) ((x : ZMod S.n) * y) ∧
    (y ≠ 0 → ∃ d, S.div x y = .ok d ∧ 0 ≤ d ∧ d < S.n ∧ ((d * y : Int) : ZMod S.n) = x) := by
  have nz : ∀ {n : Nat} {y : Int}, 0 ≤ y → y < n → y ≠ 0 → (y : ZMod n) ≠ 0 := by
    intro n y h0 h1 h2 h
    rw [ZMod.intCast_zmod_eq_zero_iff_dvd] at h
    exact h2 (Int.eq_zero_of_dvd_of_nonneg_of_lt h0 h1 h)
  have dv : ∀ {n : Nat} [Fact n.Prime] {x y : Int} {r : Res Int}, (y : ZMod n) ≠ 0 → Gives n r ((x : ZMod n) / y) →
      ∃ d, r = .ok d ∧ 0 ≤ d ∧ d < n ∧ ((d * y : Int) : ZMod n) = x := by
    rintro n _ x y r hy ⟨d, h1, h2, h3, h4⟩
    refine ⟨d, h1, h2, h3, ?_⟩
    push_cast
    rw [h4, div_mul_cancel₀ _ hy]
  revert S
  apply impls_all
  · intro n hn _
    refine ⟨hn, fun x y hx hx' hy hy' => ?_⟩
    have : Fact n.Prime := ⟨hn⟩
    obtain ⟨h1, h2, h3, h4, h5⟩ := Sc.arithmetic (n := n) x y
    exact ⟨h1, h2, h3, h4, fun h => dv (n := n) (nz hy hy' h) (h5 (nz hy hy' h))⟩
  · refine ⟨Bls381.Fq.fact_q.out, fun x y hx hx' hy hy' => ?_⟩
    obtain ⟨h1, h2, h3, h4, h5, _⟩ := BlsSc.arithmetic x y
    exact ⟨h1, h2, h3, h4, fun h => dv (n := Bls381.Fq.q) (nz hy hy' h) (h5 (nz hy hy' h))⟩
  · refine ⟨EdSc.fact_ell.out, fun x y hx hx' hy hy' => ?_⟩
    obtain ⟨h1, h2, h3, h4, h5⟩ := EdSc.arithmetic x y hx hx' hy hy'
    exact ⟨h1, h2, h3, h4, fun h => dv (n := EdSc.ell) (nz hy hy' h) h5⟩

/-- **C110.** Except for Ed25519 the arguments may be any integers: the results depend on their residues only and are reduced. -/
theorem C110_unreduced (S : Impl) (hS : S ∈ [Sc.impl K256Fq.prime, Sc.impl P256Fq.prime, BlsSc.impl]) (x y : Int) :
    Gives S.n (S.add x y) ((x : ZMod S.n) + y) ∧ Gives S.n (S.sub x y) ((x : ZMod S.n) - y) ∧
    Gives S.n (S.neg x) (-(x : ZMod S.n)) ∧ Gives S.n (S.mul x y) ((x : ZMod S.n) * y) ∧
    (¬ (S.n : Int) ∣ y → ∃ d, S.div x y = .ok d ∧ 0 ≤ d ∧ d < S.n ∧ ((d * y : Int) : ZMod S.n) = x) := by
  have dv : ∀ {n : Nat} [Fact n.Prime] {r : Res Int}, ((y : ZMod n) ≠ 0 → Gives n r ((x : ZMod n) / y)) → ¬ (n : Int) ∣ y →
      ∃ d, r = .ok d ∧ 0 ≤ d ∧ d < n ∧ ((d * y : Int) : ZMod n) = x := by
    intro n _ r hg hy
    have hy' : (y : ZMod n) ≠ 0 := fun h => hy ((ZMod.intCast_zmod_eq_zero_iff_dvd y n).1 h)
    obtain ⟨d, h1, h2, h3, h4⟩ := hg hy'
    refine ⟨d, h1, h2, h3, ?_⟩
    push_cast
    rw [h4, div_mul_cancel₀ _ hy']
  rcases List.mem_cons.1 hS with rfl | hS
  · obtain ⟨h1, h2, h3, h4, h5⟩ := Sc.arithmetic (n := K256Fq.prime) x y
    exact ⟨h1, h2, h3, h4, dv (n := K256Fq.prime) h5⟩
  rcases List.mem_cons.1 hS with rfl | hS
  · obtain ⟨h1, h2, h3, h4, h5⟩ := Sc.arithmetic (n := P256Fq.prime) x y
    exact ⟨h1, h2, h3, h4, dv (n := P256Fq.prime) h5⟩
  rcases List.mem_cons.1 hS with rfl | hS
  · obtain ⟨h1, h2, h3, h4, h5, _⟩ := BlsSc.arithmetic x y
    exact ⟨h1, h2, h3, h4, dv (n := Bls381.Fq.q) h5⟩
  cases hS

/-- **C110.** `Bytes` of an integer in `[0, n)` is its big-endian encoding in exactly 32 bytes. -/
theorem C110_bytes (S : Impl) (hS : S ∈ impls) : ∀ x : Int, 0 ≤ x → x < S.n →
    ∃ b, S.bytes x = .ok b ∧ b.length = 32 ∧ ((beToNat b : Nat) : Int) = x := by
  revert S
  apply impls_all
  · intro n _ h x h0 h1
    have h1' : x < n := h1
    exact Sc.bytes_ok x h0 (by omega)
  · intro x h0 h1
    have h1' : x < Bls381.Fq.q := h1
    have hq : Bls381.Fq.q < 2 ^ 256 := by decide +kernel
    exact Sc.bytes_ok x h0 (by omega)
  · intro x h0 h1
    exact EdSc.bytes_ok x h0 h1

/-- **C110.** Except for Ed25519, `IsValid` accepts exactly the canonical representatives. -/
theorem C110_is_valid (S : Impl) (hS : S ∈ [Sc.impl K256Fq.prime, Sc.impl P256Fq.prime, BlsSc.impl]) (x : Int) :
    ∃ b, S.isValid x = .ok b ∧ (b = true ↔ 0 ≤ x ∧ x < S.n) := by
  rcases List.mem_cons.1 hS with rfl | hS
  · exact ⟨_, rfl, Sc.isValid_iff x⟩
  rcases List.mem_cons.1 hS with rfl | hS
  · exact ⟨_, rfl, Sc.isValid_iff x⟩
  rcases List.mem_cons.1 hS with rfl | hS
  · exact BlsSc.isValid_iff x
  cases hS

/-- **C110.** Among the non-negative integers, `Ed25519Scalar.IsValid` accepts exactly the canonical representatives, and these
are the ones `Bytes` encodes faithfully. -/
theorem C110_ed25519_is_valid_partial (x : Int) (h : 0 ≤ x) :
    (EdSc.isValid x = true ↔ x < EdSc.ell) ∧ (EdSc.isValid x = true → ∃ b, EdSc.bytes x = .ok b ∧ (beToNat b : Int) = x) := by
  have e : EdSc.isValid x = true ↔ x < EdSc.ell := by
    unfold EdSc.isValid
    exact decide_eq_true_iff
  refine ⟨e, fun hv => ?_⟩
  obtain ⟨b, h1, -, h2⟩ := EdSc.bytes_ok x h (e.1 hv)
  exact ⟨b, h1, h2⟩

/-- **C110, violated.** `Ed25519Scalar.IsValid` accepts every negative integer, though the arithmetic reads only the absolute
value: `-1` is valid, and adding `1` to it gives `2`. -/
theorem C110_ed25519_negative_violated :
    (∀ x : Int, x < 0 → EdSc.isValid x = true) ∧ (∀ x y : Int, EdSc.add (-x) y = EdSc.add x y) ∧
    EdSc.isValid (-1) = true ∧ EdSc.add (-1) 1 = .ok 2 := by
  have e : ∀ x y : Int, EdSc.add (-x) y = EdSc.add x y := by
    intro x y
    unfold EdSc.add EdSc.must
    rw [EdSc.scalar_eq (-x), EdSc.scalar_eq x, Int.natAbs_neg]
  refine ⟨fun x hx => ?_, e, by decide +kernel, ?_⟩
  · unfold EdSc.isValid
    have := EdSc.ell_pos
    exact decide_eq_true (by omega)
  · rw [e]
    decide +kernel

/-- **C110.** What Ed25519 does with other integers: only the low 256 bits of the absolute value are read, and unless they are
below the order the call panics. -/
theorem C110_ed25519_domain (x : Int) :
    (EdSc.ell ≤ x.natAbs % 2 ^ 256 → EdSc.neg x = .panic ∧ EdSc.bytes x = .panic ∧
      ∀ y, EdSc.add x y = .panic ∧ EdSc.sub x y = .panic ∧ EdSc.mul x y = .panic ∧ EdSc.div y x = .panic) ∧
    (∀ x', x'.natAbs % 2 ^ 256 = x.natAbs % 2 ^ 256 → EdSc.neg x' = EdSc.neg x ∧ EdSc.bytes x' = EdSc.bytes x ∧
      ∀ y, EdSc.add x' y = EdSc.add x y ∧ EdSc.sub x' y = EdSc.sub x y ∧ EdSc.mul x' y = EdSc.mul x y ∧
        EdSc.div x' y = EdSc.div x y ∧ EdSc.div y x' = EdSc.div y x) := by
  constructor
  · intro h
    have hp := EdSc.must_panics x h
    refine ⟨?_, ?_, fun y => ⟨?_, ?_, ?_, ?_⟩⟩
    · unfold EdSc.neg; rw [hp]; rfl
    · unfold EdSc.bytes; rw [hp]; rfl
    · unfold EdSc.add; rw [hp]; rfl
    · unfold EdSc.sub; rw [hp]; rfl
    · unfold EdSc.mul; rw [hp]; rfl
    · unfold EdSc.div; rw [hp]; rfl
  · intro x' h
    have e : EdSc.must x' = EdSc.must x := by
      unfold EdSc.must
      rw [EdSc.scalar_eq x', EdSc.scalar_eq x, h]
    unfold EdSc.neg EdSc.bytes EdSc.add EdSc.sub EdSc.mul EdSc.div
    rw [e]
    exact ⟨rfl, rfl, fun y => ⟨rfl, rfl, rfl, rfl, rfl⟩⟩

/-- **C110, violated.** Division by zero is not an error: secp256k1 and P-256 panic on a nil pointer, BLS12-381 returns the
dividend, and Ed25519 returns zero. -/
theorem C110_div_zero_violated (x : Int) :
    Sc.div K256Fq.prime x 0 = .panic ∧ Sc.div P256Fq.prime x 0 = .panic ∧
    Gives Bls381.Fq.q (BlsSc.div x 0) (x : ZMod Bls381.Fq.q) ∧
    (0 ≤ x → x < EdSc.ell → EdSc.div x 0 = .ok 0) := by
  refine ⟨Sc.div_zero_panics x 0 Int.cast_zero, Sc.div_zero_panics x 0 Int.cast_zero, ?_, ?_⟩
  · exact (BlsSc.arithmetic x 0).2.2.2.2.2 Int.cast_zero
  · intro h0 h1
    have h := (EdSc.arithmetic x 0 h0 h1 (le_refl _) (by have := EdSc.ell_pos; omega)).2.2.2.2
    rw [Int.cast_zero, div_zero] at h
    obtain ⟨z, hz, z0, z1, z2⟩ := h
    rw [ZMod.intCast_zmod_eq_zero_iff_dvd] at z2
    rw [hz, Int.eq_zero_of_dvd_of_nonneg_of_lt z0 z1 z2]

/-- **C110, violated.** Outside `[0, 2^256)` the encoding drops the sign, or panics. -/
theorem C110_bytes_sign_violated (x : Int) :
    Sc.bytes (-x) = Sc.bytes x ∧ EdSc.bytes (-x) = EdSc.bytes x ∧ (2 ^ 256 ≤ x.natAbs → Sc.bytes x = .panic) := by
  refine ⟨Sc.bytes_sign x, ?_, Sc.bytes_panics x⟩
  exact ((C110_ed25519_domain x).2 (-x) (by rw [Int.natAbs_neg])).2.1

/-- **C110.** A random scalar is the residue of all the bytes the generator delivered (clamped first, for Ed25519); an error or a
short count of the generator is reported. -/
theorem C110_random (n : Nat) (hn : n ∈ [K256Fq.prime, P256Fq.prime]) (r : Sc.Rand 48) (sha512 : List UInt8 → List UInt8) (r' : Sc.Rand 64) :
    (r.failed = true ∨ r.n ≠ 48 → Sc.random n r = .err) ∧
    (r.failed = false → r.n = 48 → Gives n (Sc.random n r) (beToNat r.buf : ZMod n)) ∧
    (r'.failed = true ∨ r'.n ≠ 64 → EdSc.random sha512 r' = .err) ∧
    (r'.failed = false → r'.n = 64 →
      Gives EdSc.ell (EdSc.random sha512 r') (leToNat (EdSc.clamp ((sha512 r'.buf).take 32)) : ZMod EdSc.ell)) := by
  have h0 : 0 < n := by
    rcases List.mem_cons.1 hn with rfl | hn
    · decide +kernel
    rcases List.mem_cons.1 hn with rfl | hn
    · decide +kernel
    cases hn
  obtain ⟨h1, h2⟩ := Sc.random_spec h0 r
  obtain ⟨h3, h4⟩ := EdSc.random_spec sha512 r'
  exact ⟨h1, h2, h3, h4⟩

/-- The clamped value is a multiple of eight with bit 254 set and bit 255 clear. -/
theorem C110_clamp (b : List UInt8) (h : b.length = 32) :
    (EdSc.clamp b).length = 32 ∧ 8 ∣ leToNat (EdSc.clamp b) ∧ 2 ^ 254 ≤ leToNat (EdSc.clamp b) ∧ leToNat (EdSc.clamp b) < 2 ^ 255 := by
  obtain ⟨f, r, rfl⟩ : ∃ f r, b = f :: r := by cases b with
    | nil => cases h
    | cons f r => exact ⟨f, r, rfl⟩
  have hr : r.length = 31 := by simpa using h
  unfold EdSc.clamp
  dsimp only
  set g := r.getLastD 0 &&& 63 ||| 64 with hg
  have hd : r.dropLast.length = 30 := by rw [List.length_dropLast, hr]
  have hb : leToNat ((f &&& 248) :: (r.dropLast ++ [g])) =
      (f &&& 248).toNat + 256 * (leToNat r.dropLast + 256 ^ 30 * g.toNat) := by
    show (f &&& 248).toNat + 256 * leToNat (r.dropLast ++ [g]) = _
    rw [leToNat_append, hd]
    rfl
  have h1 : (f &&& 248).toNat % 8 = 0 ∧ (f &&& 248).toNat ≤ 248 := by
    have : ∀ f : Fin 256, (UInt8.ofFin f &&& 248).toNat % 8 = 0 ∧ (UInt8.ofFin f &&& 248).toNat ≤ 248 := by decide +kernel
    exact this f.toFin
  have h2 : 64 ≤ g.toNat ∧ g.toNat ≤ 127 := by
    have : ∀ f : Fin 256, 64 ≤ (UInt8.ofFin f &&& 63 ||| 64).toNat ∧ (UInt8.ofFin f &&& 63 ||| 64).toNat ≤ 127 := by decide +kernel
    exact this (r.getLastD 0).toFin
  have h3 := leToNat_lt r.dropLast
  rw [hd] at h3
  rw [hb]
  have e : (256 : Nat) ^ 30 = 2 ^ 240 := by norm_num
  rw [e] at h3 ⊢
  refine ⟨by simp [hd], ?_, ?_, ?_⟩ <;> omega

/-- Concrete cases: twice minus one modulo the order of secp256k1, and a wrap-around in Ed25519. -/
example : Sc.mul K256Fq.prime 2 (some ((K256Fq.prime : Int) - 1)) = .ok ((K256Fq.prime : Int) - 2) ∧
    EdSc.sub 0 1 = .ok ((EdSc.ell : Int) - 1) ∧ Sc.isValid K256Fq.prime 7 = true := by
  refine ⟨by decide +kernel, by decide +kernel, by decide +kernel⟩

end Verif.Ec
