import Verif.Base.BigInt

/-! Model of `/repo/crypto/core/mod.go`.  `*big.Int` arguments are `Option Int` (`none` = nil). -/

namespace Verif.CoreMod

/-- core/mod.go:171-178 `AnyNil` -/
def anyNil (l : List (Option Int)) : Bool := l.any Option.isNone

/-- core/mod.go:38-63 `ConstantTimeEqByte` -/
def constantTimeEqByte (a b : Option Int) : UInt8 :=
  match a, b with
  | none, none => 1
  | none, some _ => 0
  | some _, none => 0
  | some a, some b =>
    let sameBytes : UInt8 := if Big.bytes a = Big.bytes b then 1 else 0
    let sameSign : UInt8 := if Big.sign a = Big.sign b then 1 else 0
    sameBytes &&& sameSign

/-- core/mod.go:68-70 `ConstantTimeEq` -/
def constantTimeEq (a b : Option Int) : Bool := constantTimeEqByte a b == 1

/-- core/mod.go:74-85 `In`; `true` is the nil error -/
def inZm (x m : Option Int) : Bool :=
  match x, m with
  | some x, some m => decide (¬ x < 0) && decide (x < m)
  | _, _ => false

/-- core/mod.go:88-99 `Add` -/
def add (x y m : Option Int) : Res Int :=
  match x, y with
  | some x, some y =>
    match m with
    | some m => Big.mod (x + y) m
    | none => .ok (x + y)
  | _, _ => .err

/-- core/mod.go:102-114 `Mul` -/
def mul (x y m : Option Int) : Res Int :=
  match x, y with
  | some x, some y =>
    match m with
    | some m => Big.mod (x * y) m
    | none => .ok (x * y)
  | _, _ => .err

/-- core/mod.go:117-123 `Exp`; the returned pointer may be nil together with a nil error. -/
def exp (x y m : Option Int) : Res (Option Int) :=
  match x, y with
  | some x, some y => .ok (Big.exp x y m)
  | _, _ => .err

/-- core/mod.go:126-133 `Neg` -/
def neg (x m : Option Int) : Res Int :=
  match x, m with
  | some x, some m => Big.mod (-x) m
  | _, _ => .err

/-- core/mod.go:136-145 `Inv` -/
def inv (x m : Option Int) : Res Int :=
  match x, m with
  | some x, some m =>
    match Big.modInverse x m with
    | none => .err
    | some z => .ok z
  | _, _ => .err

/-- core/mod.go:148-168 `Rand`: the loop over the successive values `draws` read from
`crand.Int(reader, m)`; `none` when the (finite prefix of the) stream has no acceptable value.
`crand.Int` panics for `m ≤ 0`. -/
def rand (m : Option Int) (draws : List Int) : Res (Option Int) :=
  match m with
  | none => .err
  | some m =>
    if m ≤ 0 then .panic
    else .ok (draws.find? fun r => decide (1 < r))

end Verif.CoreMod
