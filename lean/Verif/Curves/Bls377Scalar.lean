import Verif.Curves.Bls377Prime
import Verif.Curves.EcPoint
import Verif.Native.PallasHash
import Verif.Native.HashCurve
import Verif.Base.BigInt

/-!
# The scalars of BLS12-377

`ScalarBls12377` of `crypto/core/curves/bls12377_curve.go`: a pointer to a `big.Int` and a point that only says which group the scalar belongs
to.  `none` is the nil pointer, which some of the operations produce.
-/

set_option linter.unusedSectionVars false

namespace Verif.B377

open Verif.Bytes Verif.Native
open Verif.Native.Pallas (expandMsgXmd)
open Verif.Ec (fill)
export Prime (r)

/-- The value of a scalar; `none` is a nil `*big.Int`. -/
abbrev Sc : Type := Option Int

/-- An argument of type `Scalar`: `none` is a scalar of another type, or the nil interface. -/
abbrev Arg : Type := Option Sc

/-- A result of type `Scalar`: `none` is the nil interface. -/
abbrev Out : Type := Res (Option Sc)

/-- Reading the integer behind a pointer. -/
def deref : Sc → Res Int
  | some x => .ok x
  | none => .panic

/-- `v.Mod(v, bls12377modulus)` in a new scalar (e.g. crypto/core/curves/bls12377_curve.go:67-70). -/
def reduced (v : Int) : Out := do
  let t ← Big.mod v r
  .ok (some (some t))

namespace Sc

/-- `Hash` (crypto/core/curves/bls12377_curve.go:61-71). -/
def tag : List UInt8 := strBytes "BLS12377_XMD:SHA-256_SSWU_RO_"

/-- `Hash` (crypto/core/curves/bls12377_curve.go:61-71). -/
def hash (H : Hash.HashFn) (b : List UInt8) : Out :=
  match expandMsgXmd H b tag 48 with
  | .ok xmd => reduced (Big.setBytes xmd)
  | .err => .ok none
  | .panic => .panic

/-- `Random` (crypto/core/curves/bls12377_curve.go:52-59): `seed` is the buffer after the one `Read`; what `Read` reports is thrown away.
`none` is the nil reader. -/
def random (H : Hash.HashFn) : Option (List UInt8) → Out
  | none => .ok none
  | some seed => hash H seed

/-- `Zero` (crypto/core/curves/bls12377_curve.go:73-78). -/
def zero : Sc := some 0
/-- `One` (crypto/core/curves/bls12377_curve.go:80-85). -/
def one : Sc := some 1

/-- `IsZero` (crypto/core/curves/bls12377_curve.go:87-89). -/
def isZero (s : Sc) : Res Bool := do
  let x ← deref s
  .ok (Big.bytes x == [])
/-- `IsOne` (crypto/core/curves/bls12377_curve.go:91-93). -/
def isOne (s : Sc) : Res Bool := do
  let x ← deref s
  .ok (Big.bytes x == [1])
/-- `IsOdd` (crypto/core/curves/bls12377_curve.go:95-97). -/
def isOdd (s : Sc) : Res Bool := do
  let x ← deref s
  .ok (x % 2 == 1)
/-- `IsEven` (crypto/core/curves/bls12377_curve.go:99-101). -/
def isEven (s : Sc) : Res Bool := do
  let x ← deref s
  .ok (x % 2 == 0)

/-- `New` (crypto/core/curves/bls12377_curve.go:103-112): only negative numbers are reduced. -/
def new (value : Int) : Out := if value < 0 then reduced value else .ok (some (some value))

/-- `Cmp` (crypto/core/curves/bls12377_curve.go:114-121). -/
def cmp (s : Sc) : Arg → Res Int
  | none => .ok (-2)
  | some t => do
    let x ← deref s
    let y ← deref t
    .ok (if x < y then -1 else if x = y then 0 else 1)

/-- `Square` (crypto/core/curves/bls12377_curve.go:123-128). -/
def square (s : Sc) : Out := do
  let x ← deref s
  .ok (some (Big.exp x 2 (some r)))
/-- `Double` (crypto/core/curves/bls12377_curve.go:130-136). -/
def double (s : Sc) : Out := do
  let x ← deref s
  reduced (x + x)
/-- `Invert` (crypto/core/curves/bls12377_curve.go:138-143): the result of `ModInverse` is not tested, the error is always nil. -/
def invert (s : Sc) : Out := do
  let x ← deref s
  .ok (some (Big.modInverse x r))
/-- `Sqrt` (crypto/core/curves/bls12377_curve.go:145-150): the result of `ModSqrt` is not tested, the error is always nil. -/
def sqrt (modSqrt : Int → Option Int) (s : Sc) : Out := do
  let x ← deref s
  .ok (some (modSqrt x))
/-- `Cube` (crypto/core/curves/bls12377_curve.go:152-157). -/
def cube (s : Sc) : Out := do
  let x ← deref s
  .ok (some (Big.exp x 3 (some r)))
/-- `Add` (crypto/core/curves/bls12377_curve.go:159-170). -/
def add (s : Sc) : Arg → Out
  | none => .ok none
  | some t => do
    let x ← deref s
    let y ← deref t
    reduced (x + y)
/-- `Sub` (crypto/core/curves/bls12377_curve.go:172-183). -/
def sub (s : Sc) : Arg → Out
  | none => .ok none
  | some t => do
    let x ← deref s
    let y ← deref t
    reduced (x - y)
/-- `Mul` (crypto/core/curves/bls12377_curve.go:185-196). -/
def mul (s : Sc) : Arg → Out
  | none => .ok none
  | some t => do
    let x ← deref s
    let y ← deref t
    reduced (x * y)
/-- `MulAdd` (crypto/core/curves/bls12377_curve.go:198-200): a method call on whatever `Mul` returned. -/
def mulAdd (s : Sc) (y z : Arg) : Out := do
  match ← mul s y with
  | none => .panic
  | some t => add t z
/-- `Div` (crypto/core/curves/bls12377_curve.go:202-214). -/
def div (s : Sc) : Arg → Out
  | none => .ok none
  | some t => do
    let y ← deref t
    let v ← deref (Big.modInverse y r)
    let x ← deref s
    reduced (v * x)
/-- `Neg` (crypto/core/curves/bls12377_curve.go:216-222). -/
def neg (s : Sc) : Out := do
  let x ← deref s
  reduced (-x)

/-- `SetBigInt` (crypto/core/curves/bls12377_curve.go:224-236). -/
def setBigInt : Option Int → Res Sc
  | none => .err
  | some v => do
    let t ← Big.mod v r
    if t ≠ v then .err else .ok (some t)
/-- `BigInt` (crypto/core/curves/bls12377_curve.go:238-240). -/
def bigInt (s : Sc) : Res Int := deref s
/-- `Bytes` (crypto/core/curves/bls12377_curve.go:242-245). -/
def bytes (s : Sc) : Res (List UInt8) := fill 32 s
/-- `SetBytes` (crypto/core/curves/bls12377_curve.go:247-257). -/
def setBytes (b : List UInt8) : Res Sc := do
  let t ← Big.mod (Big.setBytes b) r
  if t ≠ Big.setBytes b then .err else .ok (some t)
/-- `SetBytesWide` (crypto/core/curves/bls12377_curve.go:259-269). -/
def setBytesWide (b : List UInt8) : Res Sc :=
  if b.length < 32 ∨ b.length > 128 then .err
  else do
    let t ← Big.mod (Big.setBytes b) r
    .ok (some t)
/-- `Clone` (crypto/core/curves/bls12377_curve.go:275-280). -/
def clone (s : Sc) : Res Sc := do
  let x ← deref s
  .ok (some x)

end Sc
end Verif.B377
