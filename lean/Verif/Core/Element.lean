import Verif.Base.BigInt
import Mathlib.Data.Nat.Prime.Defs

/-! Model of `/repo/crypto/core/curves/field.go`. -/

namespace Verif.Elem

/-- core/curves/field.go:28-31 `Element` (fields are public: any pair of integers can exist). -/
structure Element where
  modulus : Int
  value : Int
deriving DecidableEq, Repr

open Classical in
/-- core/curves/field.go:74-82 `NewField`: panics on a non-prime.  Simplification: Miller–Rabin with
64 rounds plus Baillie-PSW is taken as exact primality. -/
noncomputable def newField (m : Int) : Res Int :=
  if 0 ≤ m ∧ m.toNat.Prime then .ok m else .panic

/-- core/curves/field.go:93-96 `Field.IsValid` -/
def isValid (f v : Int) : Bool := decide (v < f) && decide (0 ≤ v)

/-- core/curves/field.go:84-90 `newElement` (and 98-100 `NewElement`) -/
def newElement (f v : Int) : Res Element := if isValid f v then .ok ⟨f, v⟩ else .panic

/-- core/curves/field.go:102-104 `Zero` -/
def zero (f : Int) : Res Element := newElement f 0

/-- core/curves/field.go:106-108 `One` -/
def one (f : Int) : Res Element := newElement f 1

/-- core/curves/field.go:134-136 `ElementFromBytes` -/
def elementFromBytes (f : Int) (b : List UInt8) : Res Element := newElement f (Big.setBytes b)

/-- core/curves/field.go:163-167 `ReducedElementFromBytes` -/
def reducedElementFromBytes (f : Int) (b : List UInt8) : Res Element :=
  Big.mod (Big.setBytes b) f >>= newElement f

/-- core/curves/field.go:256-264 `isEqualFields`, `validateFields` -/
def validateFields (x y : Element) : Res Unit := if x.modulus = y.modulus then .ok () else .panic

/-- core/curves/field.go:174-180 `Add` -/
def add (x y : Element) : Res Element := do
  validateFields x y
  let s ← Big.mod (x.value + y.value) x.modulus
  newElement x.modulus s

/-- core/curves/field.go:183-189 `Sub` -/
def sub (x y : Element) : Res Element := do
  validateFields x y
  let s ← Big.mod (x.value - y.value) x.modulus
  newElement x.modulus s

/-- core/curves/field.go:192-196 `Neg` -/
def neg (x : Element) : Res Element := do
  let s ← Big.mod (-x.value) x.modulus
  newElement x.modulus s

/-- core/curves/field.go:199-205 `Mul` -/
def mul (x y : Element) : Res Element := do
  validateFields x y
  let s ← Big.mod (x.value * y.value) x.modulus
  newElement x.modulus s

/-- core/curves/field.go:208-215 `Div`: a nil inverse is dereferenced by `Mul` (panic). -/
def div (x y : Element) : Res Element := do
  validateFields x y
  match Big.modInverse y.value x.modulus with
  | none => .panic
  | some i =>
    let s ← Big.mod (x.value * i) x.modulus
    newElement x.modulus s

/-- core/curves/field.go:218-222 `Pow`; a nil result is dereferenced by `IsValid` (panic). -/
def pow (x y : Element) : Res Element := do
  validateFields x y
  match Big.exp x.value y.value (some x.modulus) with
  | none => .panic
  | some z => newElement x.modulus z

/-- core/curves/field.go:224-226 `Invert`; a nil result is dereferenced by `IsValid` (panic). -/
def invert (x : Element) : Res Element :=
  match Big.modInverse x.value x.modulus with
  | none => .panic
  | some z => newElement x.modulus z

/-- core/curves/field.go:238-240 `Bytes` -/
def bytes (x : Element) : List UInt8 := Big.bytes x.value

/-- core/curves/field.go:243-249 `IsEqual` -/
def isEqual (x y : Element) : Bool := if x.modulus = y.modulus then decide (x.value = y.value) else false

/-- core/curves/field.go:252-254 `Clone` -/
def clone (x : Element) : Res Element := elementFromBytes x.modulus (bytes x)

/-- core/curves/field.go:49-66 `UnmarshalJSON`, after parsing the two decimal strings: no range
check is made. -/
def unmarshalJSON (modulus value : Int) : Res Element := .ok ⟨modulus, value⟩

/-- One API call of the package on elements already obtained. -/
inductive Op where
  | new (v : Int)
  | fromBytes (b : List UInt8)
  | reduced (b : List UInt8)
  | zero | one
  | add (i j : Nat) | sub (i j : Nat) | neg (i : Nat) | mul (i j : Nat) | div (i j : Nat)
  | pow (i j : Nat) | invert (i : Nat) | clone (i : Nat)
deriving Repr

/-- Perform one call in the field `f`; `pool` holds the elements obtained so far (an index out of
range stands for no call being made). -/
def step (f : Int) (pool : List Element) (op : Op) : Res (List Element) :=
  let un (g : Element → Res Element) (i : Nat) : Res (List Element) :=
    match pool[i]? with
    | some x => g x >>= fun z => .ok (pool ++ [z])
    | none => .ok pool
  let bin (g : Element → Element → Res Element) (i j : Nat) : Res (List Element) :=
    match pool[i]?, pool[j]? with
    | some x, some y => g x y >>= fun z => .ok (pool ++ [z])
    | _, _ => .ok pool
  let nul (g : Res Element) : Res (List Element) := g >>= fun z => .ok (pool ++ [z])
  match op with
  | .new v => nul (newElement f v)
  | .fromBytes b => nul (elementFromBytes f b)
  | .reduced b => nul (reducedElementFromBytes f b)
  | .zero => nul (Elem.zero f)
  | .one => nul (Elem.one f)
  | .add i j => bin Elem.add i j
  | .sub i j => bin Elem.sub i j
  | .neg i => un Elem.neg i
  | .mul i j => bin Elem.mul i j
  | .div i j => bin Elem.div i j
  | .pow i j => bin Elem.pow i j
  | .invert i => un Elem.invert i
  | .clone i => un Elem.clone i

/-- A whole history of calls. -/
def run (f : Int) : List Element → List Op → Res (List Element)
  | pool, [] => .ok pool
  | pool, op :: ops => step f pool op >>= fun p => run f p ops

end Verif.Elem
