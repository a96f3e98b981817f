import Verif.Bls381.Cyclo
import Verif.Bls381.Fq
import Verif.Native.GroupAlg

/-!
The target group of BLS12-381 (crypto/core/curves/native/bls12381/gt.go).
-/
set_option linter.unusedSectionVars false
set_option exponentiation.threshold 1000
namespace Verif.Bls381.Gt

open Verif.Native Verif.Bls381.Fp2 Verif.Bls381.Fp6 Verif.Bls381.Fp12 Verif.Bytes

/-- `paramX` (crypto/core/curves/native/bls12381/bls12381.go:13). -/
def paramX : UInt64 := 0xd201000000010000

/-- `fp4Square` (crypto/core/curves/native/bls12381/gt.go:352-363): the new values of `a` and `b`. -/
def fp4Square (arg1 arg2 : E2) : E2 × E2 :=
  let t0 := Fp2.square arg1
  let t1 := Fp2.square arg2
  let t2 := Fp2.mulByNonResidue t1
  let a := Fp2.add t2 t0
  let t2 := Fp2.add arg1 arg2
  let t2 := Fp2.square t2
  let t2 := Fp2.sub t2 t0
  let b := Fp2.sub t2 t1
  (a, b)

/-- `cyclotomicSquare` (crypto/core/curves/native/bls12381/gt.go:365-414). -/
def cyclotomicSquare (a : E12) : E12 :=
  let z0 := a.A.A
  let z4 := a.A.B
  let z3 := a.A.C
  let z2 := a.B.A
  let z1 := a.B.B
  let z5 := a.B.C
  let (t0, t1) := fp4Square z0 z1
  let z0 := Fp2.sub t0 z0
  let z0 := Fp2.double z0
  let z0 := Fp2.add z0 t0
  let z1 := Fp2.add t1 z1
  let z1 := Fp2.double z1
  let z1 := Fp2.add z1 t1
  let (t0, t1) := fp4Square z2 z3
  let (t2, t3) := fp4Square z4 z5
  let z4 := Fp2.sub t0 z4
  let z4 := Fp2.double z4
  let z4 := Fp2.add z4 t0
  let z5 := Fp2.add z5 t1
  let z5 := Fp2.double z5
  let z5 := Fp2.add z5 t1
  let t0 := Fp2.mulByNonResidue t3
  let z2 := Fp2.add z2 t0
  let z2 := Fp2.double z2
  let z2 := Fp2.add z2 t0
  let z3 := Fp2.sub t2 z3
  let z3 := Fp2.double z3
  let z3 := Fp2.add z3 t2
  ⟨⟨z0, z4, z3⟩, ⟨z2, z1, z5⟩⟩

/-- One iteration of the loop of `cyclotomicExp` (crypto/core/curves/native/bls12381/gt.go:422-430): the state is `(t, foundOne)`. -/
def expStep (a : E12) (st : E12 × UInt64) (b : UInt64) : E12 × UInt64 :=
  let st' := if st.2 = 1 then (cyclotomicSquare st.1, st.2) else (st.1, b)
  if b = 1 then (Fp12.mul st'.1 a, st'.2) else st'

/-- `cyclotomicExp` (crypto/core/curves/native/bls12381/gt.go:416-434). -/
def cyclotomicExp (a : E12) : E12 :=
  let t := (((List.range 64).reverse.map (expBit paramX)).foldl (expStep a) (Fp12.one, 0)).1
  Fp12.conjugate t

/-- `FinalExponentiation` (crypto/core/curves/native/bls12381/gt.go:26-71): the new value of the receiver `gt`. -/
def finalExponentiation (gt a : E12) : E12 :=
  let t0 := Fp12.frobeniusMap a
  let t0 := Fp12.frobeniusMap t0
  let t0 := Fp12.frobeniusMap t0
  let t0 := Fp12.frobeniusMap t0
  let t0 := Fp12.frobeniusMap t0
  let t0 := Fp12.frobeniusMap t0
  let ti := Fp12.invert Fp12.zero a
  let t1 := ti.1
  let wasInverted := ti.2
  let t2 := Fp12.mul t0 t1
  let t1 := t2
  let t2 := Fp12.frobeniusMap t2
  let t2 := Fp12.frobeniusMap t2
  let t2 := Fp12.mul t2 t1
  let t1 := cyclotomicSquare t2
  let t1 := Fp12.conjugate t1
  let t3 := cyclotomicExp t2
  let t4 := cyclotomicSquare t3
  let t5 := Fp12.mul t1 t3
  let t1 := cyclotomicExp t5
  let t0 := cyclotomicExp t1
  let t6 := cyclotomicExp t0
  let t6 := Fp12.mul t6 t4
  let t4 := cyclotomicExp t6
  let t5 := Fp12.conjugate t5
  let t4 := Fp12.mul t4 t5
  let t4 := Fp12.mul t4 t2
  let t5 := Fp12.conjugate t2
  let t1 := Fp12.mul t1 t2
  let t1 := Fp12.frobeniusMap t1
  let t1 := Fp12.frobeniusMap t1
  let t1 := Fp12.frobeniusMap t1
  let t6 := Fp12.mul t6 t5
  let t6 := Fp12.frobeniusMap t6
  let t3 := Fp12.mul t3 t0
  let t3 := Fp12.frobeniusMap t3
  let t3 := Fp12.frobeniusMap t3
  let t3 := Fp12.mul t3 t1
  let t3 := Fp12.mul t3 t6
  let t := Fp12.mul t3 t4
  Fp12.cmove gt t wasInverted

/-- `IsZero` (crypto/core/curves/native/bls12381/gt.go:74-76). -/
def isZero (gt : E12) : UInt64 := Fp12.isZero gt

/-- `IsOne` (crypto/core/curves/native/bls12381/gt.go:79-81). -/
def isOne (gt : E12) : UInt64 := Fp12.isOne gt

/-- `SetOne` (crypto/core/curves/native/bls12381/gt.go:84-87). -/
def one : E12 := Fp12.one

/-- `Bytes` (crypto/core/curves/native/bls12381/gt.go:97-125). -/
def bytes (gt : E12) : List UInt8 :=
  (Fp.bytes gt.A.A.A).reverse ++ (Fp.bytes gt.A.A.B).reverse ++ (Fp.bytes gt.A.B.A).reverse ++ (Fp.bytes gt.A.B.B).reverse ++
  (Fp.bytes gt.A.C.A).reverse ++ (Fp.bytes gt.A.C.B).reverse ++ (Fp.bytes gt.B.A.A).reverse ++ (Fp.bytes gt.B.A.B).reverse ++
  (Fp.bytes gt.B.B.A).reverse ++ (Fp.bytes gt.B.B.B).reverse ++ (Fp.bytes gt.B.C.A).reverse ++ (Fp.bytes gt.B.C.B).reverse

/-- The slice `input[i*FieldBytes : (i+1)*FieldBytes]`, reversed (crypto/core/curves/native/bls12381/gt.go:132-154). -/
def part (input : List UInt8) (i : Nat) : List UInt8 := ((input.drop (48 * i)).take 48).reverse

/-- `SetBytes` (crypto/core/curves/native/bls12381/gt.go:129-163): the receiver's new value and the flag; every component decodes into the receiver on its own. -/
def setBytes (gt : E12) (input : List UInt8) : E12 × UInt64 :=
  let v0 := Fp.setBytes gt.A.A.A (part input 0)
  let v1 := Fp.setBytes gt.A.A.B (part input 1)
  let v2 := Fp.setBytes gt.A.B.A (part input 2)
  let v3 := Fp.setBytes gt.A.B.B (part input 3)
  let v4 := Fp.setBytes gt.A.C.A (part input 4)
  let v5 := Fp.setBytes gt.A.C.B (part input 5)
  let v6 := Fp.setBytes gt.B.A.A (part input 6)
  let v7 := Fp.setBytes gt.B.A.B (part input 7)
  let v8 := Fp.setBytes gt.B.B.A (part input 8)
  let v9 := Fp.setBytes gt.B.B.B (part input 9)
  let v10 := Fp.setBytes gt.B.C.A (part input 10)
  let v11 := Fp.setBytes gt.B.C.B (part input 11)
  (⟨⟨⟨v0.1, v1.1⟩, ⟨v2.1, v3.1⟩, ⟨v4.1, v5.1⟩⟩, ⟨⟨v6.1, v7.1⟩, ⟨v8.1, v9.1⟩, ⟨v10.1, v11.1⟩⟩⟩,
    v0.2 &&& v1.2 &&& v2.2 &&& v3.2 &&& v4.2 &&& v5.2 &&& v6.2 &&& v7.2 &&& v8.2 &&& v9.2 &&& v10.2 &&& v11.2)

/-- `Equal` (crypto/core/curves/native/bls12381/gt.go:166-168). -/
def equal (gt rhs : E12) : UInt64 := Fp12.equal gt rhs

/-- `Generator` (crypto/core/curves/native/bls12381/gt.go:171-288). -/
def generator : E12 :=
  ⟨⟨⟨⟨0x1972e433a01f85c5, 0x97d32b76fd772538, 0xc8ce546fc96bcdf9, 0xcef63e7366d40614, 0xa611342781843780, 0x13f3448a3fc6d825⟩,
    ⟨0xd26331b02e9d6995, 0x9d68a482f7797e7d, 0x9c9b29248d39ea92, 0xf4801ca2e13107aa, 0xa16c0732bdbcb066, 0x083ca4afba360478⟩⟩,
   ⟨⟨0x59e261db0916b641, 0x2716b6f4b23e960d, 0xc8e55b10a0bd9c45, 0x0bdb0bd99c4deda8, 0x8cf89ebf57fdaac5, 0x12d6b7929e777a5e⟩,
    ⟨0x5fc85188b0e15f35, 0x34a06e3a8f096365, 0xdb3126a6e02ad62c, 0xfc6f5aa97d9a990b, 0xa12f55f5eb89c210, 0x1723703a926f8889⟩⟩,
   ⟨⟨0x93588f2971828778, 0x43f65b8611ab7585, 0x3183aaf5ec279fdf, 0xfa73d7e18ac99df6, 0x64e176a6a64c99b0, 0x179fa78c58388f1f⟩,
    ⟨0x672a0a11ca2aef12, 0x0d11b9b52aa3f16b, 0xa44412d0699d056e, 0xc01d0177221a5ba5, 0x66e0cede6c735529, 0x05f5a71e9fddc339⟩⟩⟩,
  ⟨⟨⟨0xd30a88a1b062c679, 0x5ac56a5d35fc8304, 0xd0c834a6a81f290d, 0xcd5430c2da3707c7, 0xf0c27ff780500af0, 0x09245da6e2d72eae⟩,
    ⟨0x9f2e0676791b5156, 0xe2d1c8234918fe13, 0x4c9e459f3c561bf4, 0xa3e85e53b9d3e3c1, 0x820a121e21a70020, 0x15af618341c59acc⟩⟩,
   ⟨⟨0x7c95658c24993ab1, 0x73eb38721ca886b9, 0x5256d749477434bc, 0x8ba41902ea504a8b, 0x04a3d3f80c86ce6d, 0x18a64a87fb686eaa⟩,
    ⟨0xbb83e71bb920cf26, 0x2a5277ac92a73945, 0xfc0ee59f94f046a0, 0x7158cdf3786058f7, 0x7cc1061b82f945f6, 0x03f847aa9fdbe567⟩⟩,
   ⟨⟨0x8078dba56134e657, 0x1cd7ec9a43998a6e, 0xb1aa599a1a993766, 0xc9a0f62f0842ee44, 0x8e159be3b605dffa, 0x0c86ba0d4af13fc2⟩,
    ⟨0xe80ff2a06a52ffb1, 0x7694ca48721a906c, 0x7583183e03b08514, 0xf567afdd40cee4e2, 0x9a6d96d2e526a5fc, 0x197e9f49861f2242⟩⟩⟩⟩

/-- `Add` (crypto/core/curves/native/bls12381/gt.go:291-294). -/
def add (arg1 arg2 : E12) : E12 := Fp12.mul arg1 arg2

/-- `Double` (crypto/core/curves/native/bls12381/gt.go:297-300). -/
def double (a : E12) : E12 := Fp12.square a

/-- `Sub` (crypto/core/curves/native/bls12381/gt.go:303-308). -/
def sub (arg1 arg2 : E12) : E12 := Fp12.mul arg1 (Fp12.conjugate arg2)

/-- `Neg` (crypto/core/curves/native/bls12381/gt.go:311-314). -/
def neg (a : E12) : E12 := Fp12.conjugate a

/-- The table of `Mul` (crypto/core/curves/native/bls12381/gt.go:322-327): `precomputed[0]` keeps the value of `[16]fp12{}`, which is zero. -/
def table (f : E12) : List E12 :=
  [2, 4, 6, 8, 10, 12, 14].foldl
    (fun t i =>
      let d := Fp12.square (t.getD (i >>> 1) Fp12.zero)
      t ++ [d, Fp12.mul d f])
    [Fp12.zero, f]

/-- `Mul` on the bytes of the scalar (crypto/core/curves/native/bls12381/gt.go:317-338): `var p fp12` is zero.  The window is the expression of the native curves. -/
def mul (a : E12) (bytes : List UInt8) : E12 :=
  let precomputed := table a
  (List.range 64).foldl
    (fun p k => Fp12.mul (Fp12.square (Fp12.square (Fp12.square (Fp12.square p))))
      (precomputed.getD (Curve.window bytes (4 * k)).toNat Fp12.zero))
    Fp12.zero

/-- `Square` (crypto/core/curves/native/bls12381/gt.go:341-344). -/
def square (a : E12) : E12 := cyclotomicSquare a

/-- `Invert` (crypto/core/curves/native/bls12381/gt.go:347-350). -/
def invert (gt a : E12) : E12 × UInt64 := Fp12.invert gt a

/-! ## Exponents -/

theorem rep12_iff {a : E12} {x : K12} : Rep12 a x ↔
    (Rep2 a.A.A x.re.c0 ∧ Rep2 a.A.B x.re.c1 ∧ Rep2 a.A.C x.re.c2) ∧ (Rep2 a.B.A x.im.c0 ∧ Rep2 a.B.B x.im.c1 ∧ Rep2 a.B.C x.im.c2) := Iff.rfl

attribute [local irreducible] Fp2.add Fp2.sub Fp2.mul Fp2.neg Fp2.square Fp2.double Fp2.mulByNonResidue Rep2 Rep12 Fp12.mul
  Fp12.conjugate Fp12.frobeniusMap Fp12.invert Fp12.square

/-- `x^p` and `x^(p^2)` in the target field: `ω` is the primitive sixth root of unity `2^((p-1)/6)`. -/
def ω : K2 := (Fp6.ξ ^ k6) ^ Fp.p * Fp6.ξ ^ k6

theorem pow_norm {p : Nat} [Fact p.Prime] (hp : p % 4 = 3) (x : Quad.F2 p) :
    x ^ p * x = algebraMap (ZMod p) (Quad.F2 p) (QuadraticAlgebra.norm x) := by
  rw [Quad.frob hp]
  ext
  · simp [QuadraticAlgebra.norm_def]
  · simp; ring

theorem two_pow_k6 : (2 : ZMod Fp.p) ^ k6 * 2 ^ k6 = 2 ^ k6 - 1 := by
  have h := Primes.pw_spec Fp.p 400 2 k6 1 (by decide +kernel)
  have hn : ((Primes.pw Fp.p 400 2 k6 1 : Nat) : ZMod Fp.p) = 2 ^ k6 := by
    rw [h]; simp
  rw [← hn]
  have e : (Primes.pw Fp.p 400 2 k6 1 * Primes.pw Fp.p 400 2 k6 1 + 1) % Fp.p = Primes.pw Fp.p 400 2 k6 1 % Fp.p := by decide +kernel
  have e2 := congrArg (Nat.cast : Nat → ZMod Fp.p) e
  rw [ZMod.natCast_mod, ZMod.natCast_mod] at e2
  push_cast at e2
  exact eq_sub_of_add_eq e2

theorem omega_eq : ω = algebraMap (ZMod Fp.p) K2 (2 ^ k6) := by
  unfold ω
  rw [pow_norm p_mod4, Fp6.norm_pow, norm_xi]

theorem omega_sq : ω * ω = ω - 1 := by
  rw [omega_eq, ← map_mul, two_pow_k6, map_sub, map_one]

theorem frobsq (x : K12) : (x ^ Fp.p) ^ Fp.p = Cyclo.sc ω x :=
  Cyclo.frobsq (K := K2) (ξ := Fp6.ξ) (t := vv) (p := Fp.p) (k := k6) k6_eq (fun z => by rw [← pow_mul]; exact Quad.frob2 p_mod4 z) rfl x

/-- The cyclotomic subgroup of the target field. -/
def Cyc (x : K12) : Prop := Cyclo.Cyc Fp.p x

theorem Cyc.zpow {x : K12} (h : Cyc x) (i : ℤ) : Cyc (x ^ i) := Cyclo.Cyc.zpow h i
theorem Cyc.one : Cyc 1 := Cyclo.Cyc.one
theorem Cyc.conj {x : K12} (h : Cyc x) : x * ⟨x.re, -x.im⟩ = 1 := Cyclo.Cyc.conj_mul omega_sq frobsq h

theorem Cyc.rel {x : K12} (h : Cyc x) : x * Cyclo.sc ω (Cyclo.sc ω x) = Cyclo.sc ω x := by
  rw [← Cyclo.pp4 frobsq, ← Cyclo.pp2 frobsq]; exact h.2

theorem fp4Square_spec {a b : E2} {x y : K2} (ha : Rep2 a x) (hb : Rep2 b y) :
    Rep2 (fp4Square a b).1 (x * x + y * y * Fp6.ξ) ∧ Rep2 (fp4Square a b).2 (2 * (x * y)) := by
  have h0 := Fp2.square_spec ha
  have h1 := Fp2.square_spec hb
  have hA := Fp2.add_spec (Fp6.nr _ h1) h0
  have hB := Fp2.sub_spec (Fp2.sub_spec (Fp2.square_spec (Fp2.add_spec ha hb)) h0) h1
  have eA : y * y * Fp6.ξ + x * x = x * x + y * y * Fp6.ξ := add_comm _ _
  have eB : (x + y) * (x + y) - x * x - y * y = 2 * (x * y) := by ring
  rw [eA] at hA
  rw [eB] at hB
  exact ⟨hA, hB⟩

attribute [local irreducible] fp4Square

theorem cyclotomicSquare_coords {a : E12} {x : K12} (ha : Rep12 a x) :
    Rep2 (cyclotomicSquare a).A.A (3 * (x.re.c0 * x.re.c0 + x.im.c1 * x.im.c1 * Fp6.ξ) - 2 * x.re.c0) ∧
    Rep2 (cyclotomicSquare a).B.B (3 * (2 * (x.re.c0 * x.im.c1)) + 2 * x.im.c1) ∧
    Rep2 (cyclotomicSquare a).A.B (3 * (x.im.c0 * x.im.c0 + x.re.c2 * x.re.c2 * Fp6.ξ) - 2 * x.re.c1) ∧
    Rep2 (cyclotomicSquare a).B.C (3 * (2 * (x.im.c0 * x.re.c2)) + 2 * x.im.c2) ∧
    Rep2 (cyclotomicSquare a).B.A (3 * (2 * (x.re.c1 * x.im.c2) * Fp6.ξ) + 2 * x.im.c0) ∧
    Rep2 (cyclotomicSquare a).A.C (3 * (x.re.c1 * x.re.c1 + x.im.c2 * x.im.c2 * Fp6.ξ) - 2 * x.re.c2) := by
  obtain ⟨⟨h0, h4, h3⟩, ⟨h2, h1, h5⟩⟩ := rep12_iff.1 ha
  have p1 := fp4Square_spec h0 h1
  have p2 := fp4Square_spec h2 h3
  have p3 := fp4Square_spec h4 h5
  have hs : ∀ {t z : E2} {T Z : K2}, Rep2 t T → Rep2 z Z → Rep2 (Fp2.add (Fp2.double (Fp2.sub t z)) t) (3 * T - 2 * Z) := by
    intro t z T Z ht hz
    have h := Fp2.add_spec (Fp2.double_spec (Fp2.sub_spec ht hz)) ht
    have e : T - Z + (T - Z) + T = 3 * T - 2 * Z := by ring
    rw [e] at h
    exact h
  have hp : ∀ {t z : E2} {T Z : K2}, Rep2 t T → Rep2 z Z → Rep2 (Fp2.add (Fp2.double (Fp2.add z t)) t) (3 * T + 2 * Z) := by
    intro t z T Z ht hz
    have h := Fp2.add_spec (Fp2.double_spec (Fp2.add_spec hz ht)) ht
    have e : Z + T + (Z + T) + T = 3 * T + 2 * Z := by ring
    rw [e] at h
    exact h
  have hq : ∀ {t z : E2} {T Z : K2}, Rep2 t T → Rep2 z Z → Rep2 (Fp2.add (Fp2.double (Fp2.add t z)) t) (3 * T + 2 * Z) := by
    intro t z T Z ht hz
    have h := Fp2.add_spec (Fp2.double_spec (Fp2.add_spec ht hz)) ht
    have e : T + Z + (T + Z) + T = 3 * T + 2 * Z := by ring
    rw [e] at h
    exact h
  exact ⟨hs p1.1 h0, hq p1.2 h1, hs p2.1 h4, hp p2.2 h5, hp (Fp6.nr _ p3.2) h2, hs p3.1 h3⟩

theorem cyclotomicSquare_spec {a : E12} {x : K12} (ha : Rep12 a x) (hx : Cyc x) : Rep12 (cyclotomicSquare a) (x * x) := by
  obtain ⟨c0, c4, c1, c5, c3, c2⟩ := cyclotomicSquare_coords ha
  obtain ⟨d0, d4, d1, d5, d3, d2⟩ := Cyclo.cyc_square omega_sq rfl x hx.rel
  rw [← d0] at c0
  rw [← d1] at c1
  rw [← d2] at c2
  rw [← d3] at c3
  rw [← d4] at c4
  rw [← d5] at c5
  exact rep12_iff.2 ⟨⟨c0, c1, c2⟩, ⟨c3, c4, c5⟩⟩

attribute [local irreducible] cyclotomicSquare

/-- The state of the exponentiation loop: the power for the bits read, and whether a one was among them. -/
def ExpInv (y : K12) (st : E12 × UInt64) (n : Nat) : Prop := Rep12 st.1 (y ^ n) ∧ st.2 = if n = 0 then 0 else 1

theorem expStep_spec {a : E12} {y : K12} (ha : Rep12 a y) (hy : Cyc y) {st : E12 × UInt64} {n : Nat} (h : ExpInv y st n) (w : UInt64) (j : Nat)
    (hj : j < 64) : ExpInv y (expStep a st (expBit w j)) (2 * n + w.toNat / 2 ^ j % 2) := by
  obtain ⟨h1, h2⟩ := h
  have hb := expBit_eq w j hj
  have hbit : w.toNat / 2 ^ j % 2 = 0 ∨ w.toNat / 2 ^ j % 2 = 1 := by omega
  have hst : (n ≠ 0 ∧ ExpInv y (if st.2 = 1 then (cyclotomicSquare st.1, st.2) else (st.1, expBit w j)) (2 * n)) ∨
      (n = 0 ∧ (if st.2 = 1 then (cyclotomicSquare st.1, st.2) else (st.1, expBit w j)) = (st.1, expBit w j)) := by
    by_cases hn : n = 0
    · right
      rw [if_pos hn] at h2
      refine ⟨hn, if_neg ?_⟩
      rw [h2]; decide
    · left
      rw [if_neg hn] at h2
      rw [if_pos h2]
      refine ⟨hn, ?_, ?_⟩
      · have h3 := cyclotomicSquare_spec h1 (by rw [← zpow_natCast]; exact hy.zpow n)
        have e : y ^ n * y ^ n = y ^ (2 * n) := by rw [two_mul, pow_add]
        rw [e] at h3
        exact h3
      · rw [if_neg (by omega)]; exact h2
  unfold expStep
  dsimp only
  generalize (if st.2 = 1 then (cyclotomicSquare st.1, st.2) else (st.1, expBit w j)) = s at hst ⊢
  rcases hbit with h0 | h0
  · rw [h0] at hb ⊢
    rw [if_neg (by omega)] at hb
    rw [hb, if_neg (by decide), add_zero]
    rcases hst with ⟨_, hst⟩ | ⟨hn, hst⟩
    · exact hst
    · rw [hst, hb, hn]
      rw [hn] at h1
      exact ⟨h1, rfl⟩
  · rw [h0] at hb ⊢
    rw [if_pos rfl] at hb
    rw [hb, if_pos rfl]
    have fin : Rep12 s.1 (y ^ (2 * n)) → s.2 = 1 → ExpInv y (Fp12.mul s.1 a, s.2) (2 * n + 1) := by
      intro k1 k2
      have h4 := Fp12.mul_spec k1 ha
      rw [← pow_succ] at h4
      exact ⟨h4, by rw [if_neg (by omega)]; exact k2⟩
    rcases hst with ⟨hn, hst⟩ | ⟨hn, hst⟩
    · exact fin hst.1 (by rw [hst.2, if_neg (by omega)])
    · refine fin ?_ (by rw [hst, hb])
      rw [hst, hn]
      rw [hn] at h1
      exact h1

theorem expLoop_spec {a : E12} {y : K12} (ha : Rep12 a y) (hy : Cyc y) (w : UInt64) :
    ∀ (k : Nat), k ≤ 64 → ∀ (st : E12 × UInt64) (m : Nat), ExpInv y st m →
      ExpInv y (((List.range k).reverse.map (expBit w)).foldl (expStep a) st) (m * 2 ^ k + w.toNat % 2 ^ k) := by
  intro k
  induction k with
  | zero =>
    intro _ st m hr
    rw [pow_zero, Nat.mod_one, mul_one, add_zero]
    exact hr
  | succ k ih =>
    intro hk st m hr
    rw [List.range_succ, List.reverse_append, List.reverse_singleton, List.singleton_append, List.map_cons, List.foldl_cons]
    have h1 := expStep_spec ha hy hr w k (by omega)
    have h2 := ih (by omega) _ _ h1
    have e : (2 * m + w.toNat / 2 ^ k % 2) * 2 ^ k + w.toNat % 2 ^ k = m * 2 ^ (k + 1) + w.toNat % 2 ^ (k + 1) := by
      rw [pow_succ, Nat.mod_mul]
      ring
    rw [e] at h2
    exact h2

/-- The parameter of the curve, a negative number. -/
def bx : ℤ := -0xd201000000010000

/-- The elements of the cyclotomic subgroup written as powers of one of them. -/
def ZR (m : K12) (e : E12) (i : ℤ) : Prop := Rep12 e (m ^ i)

theorem conj_inv {e : E12} {y : K12} (hy : Cyc y) (he : Rep12 e y) : ∃ z, y * z = 1 ∧ Rep12 (Fp12.conjugate e) z :=
  ⟨_, hy.conj, Fp12.conjugate_spec he⟩

section powers
variable {m : K12} (hm : Cyc m) {e f : E12} {i j : ℤ} (he : ZR m e i) (hf : ZR m f j)
include hm he

theorem zr_conj : ZR m (Fp12.conjugate e) (-i) := by
  obtain ⟨z, hz, h⟩ := conj_inv (hm.zpow i) he
  have h1 : m ^ i * m ^ (-i) = 1 := by rw [← zpow_add₀ hm.1, add_neg_cancel, zpow_zero]
  have e1 : z = m ^ (-i) := mul_left_cancel₀ (zpow_ne_zero i hm.1) (hz.trans h1.symm)
  unfold ZR
  rw [← e1]
  exact h

theorem zr_square : ZR m (cyclotomicSquare e) (2 * i) := by
  have h := cyclotomicSquare_spec he (hm.zpow i)
  rw [← zpow_add₀ hm.1, ← two_mul] at h
  exact h

theorem zr_frob : ZR m (Fp12.frobeniusMap e) (Fp.p * i) := by
  have h := Fp12.frobenius_spec he
  rw [← zpow_natCast, ← zpow_mul, mul_comm] at h
  exact h

include hf in
theorem zr_mul : ZR m (Fp12.mul e f) (i + j) := by
  have h := Fp12.mul_spec he hf
  rw [← zpow_add₀ hm.1] at h
  exact h

theorem zr_exp : ZR m (cyclotomicExp e) (bx * i) := by
  have h0 : ExpInv (m ^ i) (Fp12.one, 0) 0 := ⟨by rw [pow_zero]; exact Fp12.one_spec, rfl⟩
  have h := (expLoop_spec he (hm.zpow i) paramX 64 (le_refl _) _ _ h0).1
  rw [← zpow_natCast, ← zpow_mul] at h
  have h2 := zr_conj hm h
  have ee : -(i * ((0 * 2 ^ 64 + paramX.toNat % 2 ^ 64 : Nat) : ℤ)) = bx * i := by
    have : ((0 * 2 ^ 64 + paramX.toNat % 2 ^ 64 : Nat) : ℤ) = -bx := by decide +kernel
    rw [this]; ring
  rw [ee] at h2
  exact h2

end powers

/-- The exponent of the hard part. -/
def hardExp : ℤ :=
  (Fp.p : ℤ) ^ 3 * (bx ^ 2 - 2 * bx + 1) + (Fp.p : ℤ) ^ 2 * (bx ^ 3 - 2 * bx ^ 2 + bx) + (Fp.p : ℤ) * (bx ^ 4 - 2 * bx ^ 3 + 2 * bx - 1) +
    (bx ^ 5 - 2 * bx ^ 4 + 2 * bx ^ 2 - bx + 3)

theorem hardExp_eq : hardExp * (Fq.q : ℤ) = 3 * ((Fp.p : ℤ) ^ 4 - (Fp.p : ℤ) ^ 2 + 1) := by decide +kernel

/-- the exponents of the variables of the routine, for the base `t2 = m` -/
theorem hard_spec {m : K12} (hm : Cyc m) {t2 : E12} (h : Rep12 t2 m) :
    let t1 := Fp12.conjugate (cyclotomicSquare t2)
    let t3 := cyclotomicExp t2
    let t4 := cyclotomicSquare t3
    let t5 := Fp12.mul t1 t3
    let t1 := cyclotomicExp t5
    let t0 := cyclotomicExp t1
    let t6 := Fp12.mul (cyclotomicExp t0) t4
    let t4 := Fp12.mul (Fp12.mul (cyclotomicExp t6) (Fp12.conjugate t5)) t2
    let t5 := Fp12.conjugate t2
    let t1 := Fp12.frobeniusMap (Fp12.frobeniusMap (Fp12.frobeniusMap (Fp12.mul t1 t2)))
    let t6 := Fp12.frobeniusMap (Fp12.mul t6 t5)
    let t3 := Fp12.frobeniusMap (Fp12.frobeniusMap (Fp12.mul t3 t0))
    Rep12 (Fp12.mul (Fp12.mul (Fp12.mul t3 t1) t6) t4) (m ^ hardExp) := by
  have z2 : ZR m t2 1 := by unfold ZR; rw [zpow_one]; exact h
  have z1 := zr_conj hm (zr_square hm z2)
  have z3 := zr_exp hm z2
  have z4 := zr_square hm z3
  have z5 := zr_mul hm z1 z3
  have z1 := zr_exp hm z5
  have z0 := zr_exp hm z1
  have z6 := zr_mul hm (zr_exp hm z0) z4
  have z4 := zr_mul hm (zr_mul hm (zr_exp hm z6) (zr_conj hm z5)) z2
  have z5 := zr_conj hm z2
  have z1 := zr_frob hm (zr_frob hm (zr_frob hm (zr_mul hm z1 z2)))
  have z6 := zr_frob hm (zr_mul hm z6 z5)
  have z3 := zr_frob hm (zr_frob hm (zr_mul hm z3 z0))
  have z := zr_mul hm (zr_mul hm (zr_mul hm z3 z1) z6) z4
  dsimp only
  have fin : ∀ {i : ℤ}, i = hardExp → ∀ {e : E12}, ZR m e i → Rep12 e (m ^ hardExp) := fun hi _ he => by rw [← hi]; exact he
  refine fin ?_ z
  unfold hardExp
  generalize (Fp.p : ℤ) = P
  generalize bx = X
  ring

/-! ## The final exponentiation -/

/-- The exponent of the easy part. -/
def easyExp : ℤ := ((Fp.p : ℤ) ^ 6 - 1) * ((Fp.p : ℤ) ^ 2 + 1)

/-- The exponent of the pairing: three times the cofactor of the group order in the order of the multiplicative group (specification
only). -/
def finalExp : Nat := 3 * ((Fp.p ^ 12 - 1) / Fq.q)

theorem finalExp_eq : easyExp * hardExp = (finalExp : ℤ) := by decide +kernel

theorem finalExp_order : finalExp * Fq.q = 3 * (Fp.p ^ 12 - 1) := by decide +kernel

theorem pp12 (x : K12) : x ^ (Fp.p ^ 12) = x := Cyclo.pp12 omega_sq frobsq x

theorem easy_cyc {x : K12} (hx : x ≠ 0) : Cyc (x ^ easyExp) := Cyclo.easy omega_sq frobsq hx

section
variable {x : K12} (hx : x ≠ 0) {e f : E12} {i j : ℤ} (he : ZR x e i) (hf : ZR x f j)
include hx he

theorem zx_frob : ZR x (Fp12.frobeniusMap e) (Fp.p * i) := by
  have h := Fp12.frobenius_spec he
  rw [← zpow_natCast, ← zpow_mul, mul_comm] at h
  exact h

include hf in
theorem zx_mul : ZR x (Fp12.mul e f) (i + j) := by
  have h := Fp12.mul_spec he hf
  rw [← zpow_add₀ hx] at h
  exact h
end

theorem zx_inv {x : K12} (hx : x ≠ 0) {e : E12} (he : Rep12 e x) (out : E12) :
    ZR x (Fp12.invert out e).1 (-1) ∧ (Fp12.invert out e).2 = 1 := by
  obtain ⟨h1, h2⟩ := (Fp12.invert_spec he out).1 hx
  have e0 := mul_inv_cancel₀ hx
  generalize x⁻¹ = z at h1 e0
  have h3 : x * x ^ (-1 : ℤ) = 1 := by
    have := zpow_add₀ hx 1 (-1)
    rw [add_neg_cancel, zpow_zero, zpow_one] at this
    exact this.symm
  have e1 : z = x ^ (-1 : ℤ) := mul_left_cancel₀ hx (e0.trans h3.symm)
  rw [e1] at h1
  exact ⟨h1, h2⟩

/-- the easy part -/
theorem easy_spec {x : K12} (hx : x ≠ 0) {a : E12} (ha : Rep12 a x) :
    let t0 := Fp12.frobeniusMap (Fp12.frobeniusMap (Fp12.frobeniusMap (Fp12.frobeniusMap (Fp12.frobeniusMap (Fp12.frobeniusMap a)))))
    let t2 := Fp12.mul t0 (Fp12.invert Fp12.zero a).1
    Rep12 (Fp12.mul (Fp12.frobeniusMap (Fp12.frobeniusMap t2)) t2) (x ^ easyExp) := by
  have z0 : ZR x a 1 := by unfold ZR; rw [zpow_one]; exact ha
  have z6 := zx_frob hx (zx_frob hx (zx_frob hx (zx_frob hx (zx_frob hx (zx_frob hx z0)))))
  have z2 := zx_mul hx z6 (zx_inv hx ha Fp12.zero).1
  have z := zx_mul hx (zx_frob hx (zx_frob hx z2)) z2
  dsimp only
  have fin : ∀ {i : ℤ}, i = easyExp → ∀ {e : E12}, ZR x e i → Rep12 e (x ^ easyExp) := fun hi _ he => by rw [← hi]; exact he
  refine fin ?_ z
  unfold easyExp
  generalize (Fp.p : ℤ) = P
  ring

theorem finalExponentiation_spec {x : K12} (hx : x ≠ 0) {a : E12} (ha : Rep12 a x) (gt : E12) :
    Rep12 (finalExponentiation gt a) (x ^ finalExp) := by
  have h := hard_spec (easy_cyc hx) (easy_spec hx ha)
  have e : (x ^ easyExp) ^ hardExp = x ^ finalExp := by rw [← zpow_mul, finalExp_eq, zpow_natCast]
  rw [e] at h
  unfold finalExponentiation
  dsimp only at h ⊢
  rw [(zx_inv hx ha Fp12.zero).2, Fp12.cmove_one]
  exact h

theorem finalExponentiation_zero {a : E12} (ha : Rep12 a 0) (gt : E12) : finalExponentiation gt a = gt := by
  have h := (Fp12.invert_spec ha Fp12.zero).2 rfl
  unfold finalExponentiation
  dsimp only
  rw [h, Fp12.cmove_zero]

theorem finalExp_unity {x : K12} (hx : x ≠ 0) : (x ^ finalExp) ^ Fq.q = 1 := by
  have h1 : x ^ (Fp.p ^ 12 - 1) = 1 := by
    apply mul_right_cancel₀ hx
    rw [← pow_succ, one_mul, Nat.sub_add_cancel (by decide +kernel), pp12]
  rw [← pow_mul, finalExp_order, mul_comm, pow_mul, h1, one_pow]

end Verif.Bls381.Gt
