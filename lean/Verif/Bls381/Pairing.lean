import Verif.Bls381.G1Api
import Verif.Bls381.G2Api
import Verif.Bls381.GtApi

/-!
# The pairing engine (crypto/core/curves/native/bls12381/pairings.go)

The functions are written over a record of the operations they call, so that the same text runs on the limbs of the code and on naturals.
Flags, `int` in the code, are 64-bit words.  Functions that change their receiver return its new value.
-/

set_option linter.unusedSectionVars false

namespace Verif.Bls381.Pair
open Verif.Native P3
open Verif.Bls381.Fp2 (E2)
open Verif.Bls381.Fp12 (E12)

/-- `coefficients` (crypto/core/curves/native/bls12381/pairings.go:19-21). -/
structure Coeffs (E : Type) where
  a : E
  b : E
  c : E

/-- `g2Prepared` (crypto/core/curves/native/bls12381/pairings.go:14-17). -/
structure Prepared (E : Type) where
  identity : UInt64
  coefficients : List (Coeffs E)

/-- `pair` (crypto/core/curves/native/bls12381/pairings.go:9-12). -/
structure PairOf (F E : Type) where
  g1 : P3 F
  g2 : P3 E

/-- The operations the pairing functions call: those of the field of G2, `Generator` of G2, the product of an element of the field of G2 by
one of the field of G1 (pairings.go:154-157), `IsZero` of the field of G1, and `MulByABD`, `Square`, `Conjugate`, `CMove` of the target
field. -/
structure MOps (F E G : Type) where
  fo : FOps E
  gen : P3 E
  scale : E → F → E
  isZero1 : F → UInt64
  abd : G → E → E → E → G
  square : G → G
  conj : G → G
  cmove : G → G → UInt64 → G

section steps
variable {E : Type} (O : FOps E)

/-- `doublingStep` (crypto/core/curves/native/bls12381/pairings.go:161-204): the coefficients and the new point. -/
def doublingStep (p : P3 E) : Coeffs E × P3 E :=
  let t0 := O.square p.x
  let t1 := O.square p.y
  let t2 := O.square t1
  let t3 := O.add t1 p.x
  let t3 := O.square t3
  let t3 := O.sub t3 t0
  let t3 := O.sub t3 t2
  let t3 := O.double t3
  let t4 := O.double t0
  let t4 := O.add t4 t0
  let t6 := O.add p.x t4
  let t5 := O.square t4
  let zsqr := O.square p.z
  let px := O.sub t5 t3
  let px := O.sub px t3
  let pz := O.add p.z p.y
  let pz := O.square pz
  let pz := O.sub pz t1
  let pz := O.sub pz zsqr
  let py := O.sub t3 px
  let py := O.mul py t4
  let t2 := O.double t2
  let t2 := O.double t2
  let t2 := O.double t2
  let py := O.sub py t2
  let t3 := O.mul t4 zsqr
  let t3 := O.double t3
  let t3 := O.neg t3
  let t6 := O.square t6
  let t6 := O.sub t6 t0
  let t6 := O.sub t6 t5
  let t1 := O.double t1
  let t1 := O.double t1
  let t6 := O.sub t6 t1
  let t0 := O.mul pz zsqr
  let t0 := O.double t0
  (⟨t0, t3, t6⟩, ⟨px, py, pz⟩)

/-- `additionStep` (crypto/core/curves/native/bls12381/pairings.go:206-254): the coefficients and the new value of `r`. -/
def additionStep (r q : P3 E) : Coeffs E × P3 E :=
  let zsqr := O.square r.z
  let ysqr := O.square q.y
  let t0 := O.mul zsqr q.x
  let t1 := O.add q.y r.z
  let t1 := O.square t1
  let t1 := O.sub t1 ysqr
  let t1 := O.sub t1 zsqr
  let t1 := O.mul t1 zsqr
  let t2 := O.sub t0 r.x
  let t3 := O.square t2
  let t4 := O.double t3
  let t4 := O.double t4
  let t5 := O.mul t4 t2
  let t6 := O.sub t1 r.y
  let t6 := O.sub t6 r.y
  let t9 := O.mul t6 q.x
  let t7 := O.mul t4 r.x
  let rx := O.square t6
  let rx := O.sub rx t5
  let rx := O.sub rx t7
  let rx := O.sub rx t7
  let rz := O.add r.z t2
  let rz := O.square rz
  let rz := O.sub rz zsqr
  let rz := O.sub rz t3
  let t10 := O.add q.y rz
  let t8 := O.sub t7 rx
  let t8 := O.mul t8 t6
  let t0 := O.mul r.y t5
  let t0 := O.double t0
  let ry := O.sub t8 t0
  let t10 := O.square t10
  let t10 := O.sub t10 ysqr
  let zsqr := O.square rz
  let t10 := O.sub t10 zsqr
  let t9 := O.double t9
  let t9 := O.sub t9 t10
  let t10 := O.double rz
  let t6 := O.neg t6
  let t1 := O.double t6
  (⟨t10, t1, t9⟩, ⟨rx, ry, rz⟩)

/-- The bit of iteration `i` (crypto/core/curves/native/bls12381/pairings.go:83, 131). -/
def bitAt (i : Nat) : UInt64 := ((Gt.paramX >>> 1) >>> UInt64.ofNat i) &&& 1

/-- The bits in the order of the loops, `i = 63` down to `0` (crypto/core/curves/native/bls12381/pairings.go:82, 130). -/
def bits : List UInt64 := (List.range 64).reverse.map bitAt

/-- The variables of the loop of `computeCoeffs`: `found`, `c` and the coefficients stored so far.  The code stores into 68 slots; the list
has exactly that length at the end (`C98_slots`). -/
structure PrepSt (E : Type) where
  found : UInt64
  c : P3 E
  cfs : List (Coeffs E)

/-- One iteration of the inner loop of `computeCoeffs` (crypto/core/curves/native/bls12381/pairings.go:130-142). -/
def prepStep (q : P3 E) (st : PrepSt E) (x : UInt64) : PrepSt E :=
  if st.found = 0 then ⟨st.found ||| x, st.c, st.cfs⟩
  else
    let d := doublingStep O st.c
    if x = 1 then
      let a := additionStep O d.2 q
      ⟨st.found, a.2, st.cfs ++ [d.1] ++ [a.1]⟩
    else ⟨st.found, d.2, st.cfs ++ [d.1]⟩

/-- The body of the outer loop of `computeCoeffs` (crypto/core/curves/native/bls12381/pairings.go:121-148). -/
def prepare (gen : P3 E) (g2 : P3 E) : Prepared E :=
  let identity := isIdentity O g2
  let q := P3.cmove O g2 gen identity
  let st := bits.foldl (prepStep O q) ⟨0, q, []⟩
  ⟨identity, st.cfs ++ [(doublingStep O st.c).1]⟩

end steps

section miller
variable {F E G : Type} (M : MOps F E G)

/-- `ell` (crypto/core/curves/native/bls12381/pairings.go:152-159). -/
def ell (f : G) (co : Coeffs E) (p : P3 F) : G :=
  let x := M.scale co.a p.y
  let y := M.scale co.b p.x
  M.abd f co.c y x

/-- `computeCoeffs` (crypto/core/curves/native/bls12381/pairings.go:119-150). -/
def computeCoeffs (pairs : List (PairOf F E)) : List (Prepared E) := pairs.map (fun p => prepare M.fo M.gen p.g2)

/-- The loops over the pairs in `millerLoop` (crypto/core/curves/native/bls12381/pairings.go:90-95, 100-105, 110-115), for the
coefficients with index `i`, which is always in range (`C98_slots`). -/
def ellAll (pairs : List (PairOf F E × Prepared E)) (i : Nat) (f : G) : G :=
  pairs.foldl (fun f p =>
    let identity := M.isZero1 p.1.g1.z ||| p.2.identity
    let newF := ell M f (p.2.coefficients.getD i ⟨M.fo.zero, M.fo.zero, M.fo.zero⟩) p.1.g1
    M.cmove newF f identity) f

/-- The variables `f`, `found` and `cIdx` of `millerLoop`. -/
structure MilSt (G : Type) where
  f : G
  found : UInt64
  cIdx : Nat

/-- One iteration of the loop of `millerLoop` (crypto/core/curves/native/bls12381/pairings.go:82-109). -/
def milStep (pairs : List (PairOf F E × Prepared E)) (st : MilSt G) (x : UInt64) : MilSt G :=
  if st.found = 0 then ⟨st.f, st.found ||| x, st.cIdx⟩
  else
    let f := ellAll M pairs st.cIdx st.f
    if x = 1 then ⟨M.square (ellAll M pairs (st.cIdx + 1) f), st.found, st.cIdx + 1 + 1⟩
    else ⟨M.square f, st.found, st.cIdx + 1⟩

/-- `millerLoop` (crypto/core/curves/native/bls12381/pairings.go:78-117). -/
def millerLoop (pairs : List (PairOf F E)) (f : G) (coeffs : List (Prepared E)) : G :=
  let ps := pairs.zip coeffs
  let st := bits.foldl (milStep M ps) ⟨f, 0, 0⟩
  M.conj (ellAll M ps st.cIdx st.f)

end miller

/-! ## The engine -/

/-- The operations of the code. -/
def ops : MOps L6 E2 E12 where
  fo := G2.F
  gen := G2.generator
  scale := Fp2.mul0
  isZero1 := Fp.isZero
  abd := Fp12.mulByABD
  square := Fp12.square
  conj := Fp12.conjugate
  cmove := Fp12.cmove

/-- `Engine` (crypto/core/curves/native/bls12381/pairings.go:5-7). -/
abbrev Engine := List (PairOf L6 E2)

/-- `AddPair` (crypto/core/curves/native/bls12381/pairings.go:31-39). -/
def addPair (e : Engine) (g1 : G1.Point) (g2 : G2.Point) : Engine :=
  let p1 := toAffine G1.F g1
  let p2 := toAffine G2.F g2
  if isIdentity G1.F p1 ||| isIdentity G2.F p2 = 0 then e ++ [⟨p1, p2⟩] else e

/-- `AddPairInvG1` (crypto/core/curves/native/bls12381/pairings.go:42-46). -/
def addPairInvG1 (e : Engine) (g1 : G1.Point) (g2 : G2.Point) : Engine := addPair e (P3.neg G1.F g1) g2

/-- `AddPairInvG2` (crypto/core/curves/native/bls12381/pairings.go:49-53). -/
def addPairInvG2 (e : Engine) (g1 : G1.Point) (g2 : G2.Point) : Engine := addPair e g1 (P3.neg G2.F g2)

/-- `Reset` (crypto/core/curves/native/bls12381/pairings.go:55-58). -/
def reset (_ : Engine) : Engine := []

/-- `pairing` (crypto/core/curves/native/bls12381/pairings.go:68-76). -/
def pairing (e : Engine) : E12 :=
  let f := Gt.one
  if e.length = 0 then f
  else
    let coeffs := computeCoeffs ops e
    let f := millerLoop ops e f coeffs
    Gt.finalExponentiation f f

/-- `Result` (crypto/core/curves/native/bls12381/pairings.go:64-66). -/
def result (e : Engine) : E12 := pairing e

/-- `Check` (crypto/core/curves/native/bls12381/pairings.go:60-62). -/
def check (e : Engine) : Bool := Gt.isOne (pairing e) = 1

end Verif.Bls381.Pair
