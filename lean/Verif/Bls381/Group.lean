import Verif.Native.GroupAlg
import Verif.Native.Order

/-!
# The points of G1 and G2 (crypto/core/curves/native/bls12381/g1.go, g2.go)

The two files are the same code over two fields.  The functions are written once over a record of the field operations they call;
`G1.lean` and `G2.lean` supply the fields.  Flags, `int` in the code, are 64-bit words.
-/

set_option linter.unusedSectionVars false

namespace Verif.Bls381
open Verif.Bytes Verif.Native Verif.Native.Weier

/-- The field operations the point functions call.  `invert` has the receiver zero, `sqrt` its argument. -/
structure FOps (E : Type) where
  zero : E
  one : E
  add : E → E → E
  sub : E → E → E
  mul : E → E → E
  square : E → E
  double : E → E
  neg : E → E
  mulBy3b : E → E
  isZero : E → UInt64
  equal : E → E → UInt64
  cmove : E → E → UInt64 → E
  invert : E → E × UInt64
  sqrt : E → E × UInt64
  lexLargest : E → UInt64
  b : E

/-- `G1` (crypto/core/curves/native/bls12381/g1.go:533-535) and `G2` (crypto/core/curves/native/bls12381/g2.go:497-499). -/
structure P3 (E : Type) where
  x : E
  y : E
  z : E
deriving DecidableEq

namespace P3
variable {E : Type} (O : FOps E)

/-- `Identity` (crypto/core/curves/native/bls12381/g1.go:580-585, crypto/core/curves/native/bls12381/g2.go:548-553). -/
def identity : P3 E := ⟨O.zero, O.one, O.zero⟩

/-- `IsIdentity` (crypto/core/curves/native/bls12381/g1.go:596-598, crypto/core/curves/native/bls12381/g2.go:564-566). -/
def isIdentity (e : P3 E) : UInt64 := O.isZero e.z

/-- `IsOnCurve` (crypto/core/curves/native/bls12381/g1.go:601-615, crypto/core/curves/native/bls12381/g2.go:569-583). -/
def isOnCurve (e : P3 E) : UInt64 :=
  let lhs := O.mul (O.square e.y) e.z
  let rhs := O.mul (O.square e.x) e.x
  let t := O.mul (O.square e.z) e.z
  let t := O.mul t O.b
  let rhs := O.add rhs t
  O.equal lhs rhs

/-- `Add` (crypto/core/curves/native/bls12381/g1.go:625-667, crypto/core/curves/native/bls12381/g2.go:593-635). -/
def add (arg1 arg2 : P3 E) : P3 E :=
  let t0 := O.mul arg1.x arg2.x
  let t1 := O.mul arg1.y arg2.y
  let t2 := O.mul arg1.z arg2.z
  let t3 := O.add arg1.x arg1.y
  let t4 := O.add arg2.x arg2.y
  let t3 := O.mul t3 t4
  let t4 := O.add t0 t1
  let t3 := O.sub t3 t4
  let t4 := O.add arg1.y arg1.z
  let x3 := O.add arg2.y arg2.z
  let t4 := O.mul t4 x3
  let x3 := O.add t1 t2
  let t4 := O.sub t4 x3
  let x3 := O.add arg1.x arg1.z
  let y3 := O.add arg2.x arg2.z
  let x3 := O.mul x3 y3
  let y3 := O.add t0 t2
  let y3 := O.sub x3 y3
  let x3 := O.double t0
  let t0 := O.add t0 x3
  let t2 := O.mulBy3b t2
  let z3 := O.add t1 t2
  let t1 := O.sub t1 t2
  let y3 := O.mulBy3b y3
  let x3 := O.mul t4 y3
  let t2 := O.mul t3 t1
  let x3 := O.sub t2 x3
  let y3 := O.mul y3 t0
  let t1 := O.mul t1 z3
  let y3 := O.add t1 y3
  let t0 := O.mul t0 t3
  let z3 := O.mul z3 t4
  let z3 := O.add z3 t0
  ⟨x3, y3, z3⟩

/-- `CNeg` with the receiver equal to the argument. -/
def fneg (a : E) (choice : UInt64) : E := O.cmove a (O.neg a) choice

/-- `Neg` (crypto/core/curves/native/bls12381/g1.go:760-764, crypto/core/curves/native/bls12381/g2.go:741-745). -/
def neg (a : P3 E) : P3 E := ⟨a.x, fneg O a.y (0 - (isIdentity O a - 1)), a.z⟩

/-- `Sub` (crypto/core/curves/native/bls12381/g1.go:670-674, crypto/core/curves/native/bls12381/g2.go:638-642). -/
def sub (arg1 arg2 : P3 E) : P3 E := add O arg1 (neg O arg2)

/-- `Double` (crypto/core/curves/native/bls12381/g1.go:677-705, crypto/core/curves/native/bls12381/g2.go:645-673). -/
def double (a : P3 E) : P3 E :=
  let t0 := O.square a.y
  let z3 := O.double t0
  let z3 := O.double z3
  let z3 := O.double z3
  let t1 := O.mul a.y a.z
  let t2 := O.square a.z
  let t2 := O.mulBy3b t2
  let x3 := O.mul t2 z3
  let y3 := O.add t0 t2
  let z3 := O.mul t1 z3
  let t1 := O.double t2
  let t2 := O.add t2 t1
  let t0 := O.sub t0 t2
  let y3 := O.mul t0 y3
  let y3 := O.add y3 x3
  let t1 := O.mul a.x a.y
  let x3 := O.mul t0 t1
  let x3 := O.double x3
  let e := isIdentity O a
  ⟨O.cmove x3 O.zero e, O.cmove y3 O.one e, O.cmove z3 O.zero e⟩

/-- The operations the multiplication loops call. -/
def ops : GOps (P3 E) := ⟨identity O, add O, double O⟩

/-- `multiply` (crypto/core/curves/native/bls12381/g1.go:713-732, crypto/core/curves/native/bls12381/g2.go:681-700). -/
def multiply (a : P3 E) (bytes : List UInt8) : P3 E := (ops O).mulBytes a bytes

/-- `CMove` (crypto/core/curves/native/bls12381/g1.go:967-972, crypto/core/curves/native/bls12381/g2.go:963-968). -/
def cmove (arg1 arg2 : P3 E) (choice : UInt64) : P3 E :=
  ⟨O.cmove arg1.x arg2.x choice, O.cmove arg1.y arg2.y choice, O.cmove arg1.z arg2.z choice⟩

/-- The loop of `MulByX` (crypto/core/curves/native/bls12381/g1.go:741-745, crypto/core/curves/native/bls12381/g2.go:709-713), `n` is a
bound on the number of iterations: the word halves every time. -/
def mulByXLoop : Nat → UInt64 → P3 E → P3 E → P3 E
  | 0, _, r, _ => r
  | n + 1, x, r, t =>
    if x = 0 then r
    else
      let t := double O t
      let s := add O r t
      mulByXLoop n (x >>> 1) (cmove O r s (x &&& 1)) t

/-- `MulByX` (crypto/core/curves/native/bls12381/g1.go:735-748, crypto/core/curves/native/bls12381/g2.go:703-716). -/
def mulByX (a : P3 E) : P3 E := neg O (mulByXLoop O 64 ((0xd201000000010000 : UInt64) >>> 1) (identity O) a)

/-- `ToAffine` (crypto/core/curves/native/bls12381/g1.go:920-931, crypto/core/curves/native/bls12381/g2.go:916-927). -/
def toAffine (a : P3 E) : P3 E :=
  let r := O.invert a.z
  let x := O.mul a.x r.1
  let y := O.mul a.y r.1
  ⟨O.cmove O.zero x r.2, O.cmove O.zero y r.2, O.cmove O.zero O.one r.2⟩

/-- `Equal` (crypto/core/curves/native/bls12381/g1.go:948-964, crypto/core/curves/native/bls12381/g2.go:944-960). -/
def equal (e rhs : P3 E) : UInt64 :=
  let x1 := O.mul e.x rhs.z
  let x2 := O.mul rhs.x e.z
  let y1 := O.mul e.y rhs.z
  let y2 := O.mul rhs.y e.z
  let e1 := O.isZero e.z
  let e2 := O.isZero rhs.z
  (e1 &&& e2) ||| ((~~~e1 &&& ~~~e2) &&& O.equal x1 x2 &&& O.equal y1 y2)

/-- The bucket index of a scalar in window `j` (crypto/core/curves/native/bls12381/g1.go:1009, crypto/core/curves/native/bls12381/g2.go:1004). -/
def nibble (bytes : List UInt8) (j : Nat) : UInt8 := (bytes.getD ((j * 4) >>> 3) 0 >>> UInt8.ofNat (4 * j &&& 4)) &&& 15

/-- The buckets of window `j` (crypto/core/curves/native/bls12381/g1.go:1000-1011, crypto/core/curves/native/bls12381/g2.go:995-1006). -/
def buckets (l : List (P3 E × List UInt8)) (j : Nat) : List (P3 E) :=
  l.foldl (fun bs t => (ops O).put bs (nibble t.2 j).toNat t.1) (List.replicate 16 (identity O))

/-- `SumOfProducts` (crypto/core/curves/native/bls12381/g1.go:977-1030, crypto/core/curves/native/bls12381/g2.go:973-1025) on the bytes of
the scalars; the running sum leaves out bucket 0; `none` is the error. -/
def sumOfProducts (points : List (P3 E)) (scalars : List (List UInt8)) : Option (P3 E) :=
  if points.length ≠ scalars.length then none
  else
    let windows := (List.range' 0 64).map fun j => ((ops O).runSum ((buckets O (points.zip scalars) j).drop 1)).2
    some ((ops O).combine 4 windows)

end P3

end Verif.Bls381
