import Verif.Core.Mod
import Verif.Base.Bytes
import Mathlib.Data.Nat.Size

/-! Model of `/repo/crypto/paillier/paillier.go` and `/repo/crypto/paillier/psf.go`.

Integers are `Int` (non-nil `*big.Int`; a nil argument is an immediate `ErrNilArguments` in every
function, except where `Option` is used below).  JSON (un)marshalling is not modelled. -/

namespace Verif.Paillier

/-- paillier.go:36-39 `PublicKey` -/
structure PublicKey where
  N : Int
  N2 : Int
deriving DecidableEq, Repr

/-- paillier.go:47-52 `SecretKey` -/
structure SecretKey extends PublicKey where
  Lambda : Int
  Totient : Int
  U : Int
deriving DecidableEq, Repr

/-- paillier.go:168-179 `lcm` -/
def lcm (x y : Int) : Int :=
  let gcd : Int := Int.gcd x y
  if CoreMod.constantTimeEq (some gcd) (some 0) then 0
  else |x / gcd * y|

/-- paillier.go:184-206 `l` -/
def PublicKey.l (pk : PublicKey) (x : Int) : Res Int :=
  if CoreMod.constantTimeEq (some pk.N) (some 0) then .err
  else do
    let r ← Big.mod x pk.N
    if !CoreMod.constantTimeEq (some r) (some 1) then .err
    else if !CoreMod.inZm (some x) (some pk.N2) then .err
    else .ok ((x - 1) / pk.N)

/-- paillier.go:209-217 `NewPubkey` -/
def newPubkey (n : Int) : PublicKey := { N := n, N2 := n * n }

/-- `z.Exp(x, y, m)` assigned to a pointer that is dereferenced afterwards: a nil result panics. -/
def expDeref (x y m : Int) : Res Int :=
  match Big.exp x y (some m) with
  | some z => .ok z
  | none => .panic

/-- paillier.go:112-145 `NewSecretKey`.  `u.ModInverse(u, n)` leaves `u` unchanged when there is no
inverse (documented behaviour of `math/big`), and the code does not check for that. -/
def newSecretKey (p q : Int) : Res SecretKey := do
  let pm1 := p - 1
  let qm1 := q - 1
  let n := p * q
  let nn := n * n
  let lambda := lcm pm1 qm1
  let totient := pm1 * qm1
  let pk : PublicKey := { N := n, N2 := nn }
  let t ← expDeref (n + 1) lambda nn
  let u ← pk.l t
  let u := match Big.modInverse u n with
    | some v => v
    | none => u
  .ok { N := n, N2 := nn, Lambda := lambda, Totient := totient, U := u }

/-- paillier.go:79-109 `keyGenerator`; `p`, `q` are the values received from the two goroutines.
The loop condition `p == q` compares *pointers*: it is true only before the first iteration, so the
loop body runs exactly once whenever the generator returns non-nil values. -/
def keyGenerator (p q : Res Int) : Res SecretKey := do
  let p ← p
  let q ← q
  newSecretKey p q

/-- paillier.go:220-245 `Add` -/
def PublicKey.add (pk : PublicKey) (c d : Int) : Res Int :=
  let cErr := !CoreMod.inZm (some c) (some pk.N2)
  let dErr := !CoreMod.inZm (some d) (some pk.N2)
  if cErr || dErr then .err
  else CoreMod.mul (some c) (some d) (some pk.N2)

/-- paillier.go:248-271 `Mul`; `none` is a nil result of `Exp` (only for a negative exponent). -/
def PublicKey.mul (pk : PublicKey) (a c : Int) : Res (Option Int) :=
  let aErr := !CoreMod.inZm (some a) (some pk.N)
  let cErr := !CoreMod.inZm (some c) (some pk.N2)
  if aErr || cErr then .err
  else .ok (Big.exp c a (some pk.N2))

/-- paillier.go:287-319 `encrypt` -/
def PublicKey.encrypt (pk : PublicKey) (msg r : Int) : Res Int :=
  if !CoreMod.inZm (some msg) (some pk.N) then .err
  else if !CoreMod.inZm (some r) (some pk.N) then .err
  else if CoreMod.constantTimeEq (some r) (some 0) then .err
  else do
    let a ← expDeref (pk.N + 1) msg pk.N2
    let b ← expDeref r pk.N pk.N2
    CoreMod.mul (some a) (some b) (some pk.N2)

/-- paillier.go:274-284 `Encrypt`; `draws` is the stream consumed by `core.Rand`.  `ok none`: the
given prefix of the stream contains no acceptable value. -/
def PublicKey.Encrypt (pk : PublicKey) (msg : Int) (draws : List Int) : Res (Option (Int × Int)) := do
  let r ← CoreMod.rand (some pk.N) draws
  match r with
  | none => .ok none
  | some r => do
    let ct ← pk.encrypt msg r
    .ok (some (ct, r))

/-- paillier.go:322-349 `Decrypt` -/
def SecretKey.decrypt (sk : SecretKey) (c : Int) : Res Int :=
  if !CoreMod.inZm (some c) (some sk.N2) then .err
  else do
    let a ← expDeref c sk.Lambda sk.N2
    let ell ← sk.toPublicKey.l a
    CoreMod.mul (some ell) (some sk.U) (some sk.N)

/-! ### psf.go -/

/-- psf.go:16-20 `PsfProofLength` -/
def psfProofLength : Nat := 13

/-- psf.go:168-206: the concatenation `ej` of the `s` hash outputs for counters `j`, `m`. `fs j k m`
is `FiatShamir(Gx, Gy, q, y.X, y.Y, Pi, j, k, m)` with the first six arguments fixed. -/
def psfBytes (fs : Nat → Nat → Nat → List UInt8) (s j m : Nat) : List UInt8 :=
  ((List.range s).map fun k => fs j (k + 1) m).flatten

/-- psf.go:184-220: the inner retry loop for one index `j`, starting at counter `m`; `fuel` bounds
the number of retries, `none`: not finished within the fuel. -/
def psfChallenge (fs : Nat → Nat → Nat → List UInt8) (N : Int) (b j : Nat) : Nat → Nat → Option Int
  | 0, _ => none
  | fuel + 1, m =>
    let s := (b + 256 - 1) / 256
    let xj := Big.setBytes ((psfBytes fs s j m).take (b / 8))
    if 0 < xj ∧ xj < N then some xj else psfChallenge fs N b j fuel (m + 1)

/-- psf.go:148-222 `generateChallenges`.  `b` is the bit length of `N`. -/
def generateChallenges (fs : Nat → Nat → Nat → List UInt8) (fuel : Nat) (N : Int) :
    Option (Res (List Int)) :=
  let b := Nat.size N.natAbs
  if b < 8 then some .err
  else ((List.range psfProofLength).mapM fun j => psfChallenge fs N b j fuel 0).map .ok

/-- psf.go:44-93 `Prove`, given the challenge list `x` returned by `generateChallenges`. -/
def psfProve (x : Res (List Int)) (sk : SecretKey) : Res (List (Option Int)) := do
  let M ← CoreMod.inv (some sk.N) (some sk.Totient)
  let x ← x
  if x.length ≠ psfProofLength then .err
  else x.mapM fun xj => CoreMod.exp (some xj) (some M) (some sk.N)

/-- psf.go:127-140: the loop of `Verify`; `p[j]` out of range panics, and so does dereferencing a
nil `lhs` (impossible for a positive exponent). -/
def psfVerifyLoop (p : List (Option Int)) (N : Int) : Nat → List Int → Res Unit
  | _, [] => .ok ()
  | j, xj :: xs =>
    match p[j]? with
    | none => .panic
    | some yj => do
      let lhs ← CoreMod.exp yj (some N) (some N)
      match lhs with
      | none => .panic
      | some lhs => if lhs ≠ xj then .err else psfVerifyLoop p N (j + 1) xs

/-- psf.go:97-143 `Verify`, given the challenge list; `q` is the order of the curve subgroup. -/
def psfVerify (x : Res (List Int)) (q : Int) (pk : PublicKey) (p : List (Option Int)) : Res Unit := do
  let r ← Big.mod pk.N q
  if r = 0 then .err
  else do
    let x ← x
    if x.length ≠ psfProofLength then .err
    else psfVerifyLoop p pk.N 0 x

end Verif.Paillier
