import Verif.OT.Simplest

/-! Model of `binaryFieldMul` in `/repo/crypto/ot/extension/kos/kos.go:78-131`.
Machine words are `BitVec 64` (Go `uint64`); arrays of words are functions on indices. -/

namespace Verif.OT.BinaryField

abbrev Word := BitVec 64

/-- kos.go:91-94: word `w` of the condensed input; the loop over `i = 8w+k` performs exactly these
eight updates on it. Go parses `i & 0x07 << 3` as `(i & 7) << 3`. -/
def condense (A : Nat → UInt8) (w : Nat) : Word :=
  (List.range 8).foldl (fun acc k => acc ||| ((A (8 * w + k)).toBitVec.setWidth 64) <<< (k * 8)) 0

/-- kos.go:102: `-(a[j] >> k & 0x01)` -/
def mask (a : Word) (k : Nat) : Word := -((a >>> k) &&& 1)

/-- kos.go:103-105: `for i < t+1 { c[j+i] ^= b[i] & mask }` -/
def addRow (c b : Nat → Word) (j : Nat) (m : Word) : Nat → Word :=
  fun n => if j ≤ n ∧ n < j + 5 then c n ^^^ (b (n - j) &&& m) else c n

/-- kos.go:107-110: `b` shifted left by one bit across its five words -/
def shift1 (b : Nat → Word) : Nat → Word :=
  fun i => if i = 0 then b 0 <<< 1 else (b i <<< 1) ||| (b (i - 1) >>> 63)

/-- kos.go:95-111: one iteration of the outer loop -/
def combStep (a : Nat → Word) (st : (Nat → Word) × (Nat → Word)) (k : Nat) :
    (Nat → Word) × (Nat → Word) :=
  ((List.range 4).foldl (fun c j => addRow c st.2 j (mask (a j) k)) st.1, shift1 st.2)

/-- kos.go:88-111: the product words `c` -/
def combMul (A B : Nat → UInt8) : Nat → Word :=
  let a := condense A
  let b : Nat → Word := fun i => if i < 4 then condense B i else 0
  ((List.range 64).foldl (combStep a) ((fun _ => 0), b)).1

/-- kos.go:118-124: the body of the reduction loop for index `i` -/
def reduceStep (c : Nat → Word) (i : Nat) : Nat → Word :=
  fun n =>
    if n = i - 4 then c n ^^^ (c i <<< 10) ^^^ (c i <<< 5) ^^^ (c i <<< 2) ^^^ c i
    else if n = i - 3 then c n ^^^ (c i >>> 54) ^^^ (c i >>> 59) ^^^ (c i >>> 62)
    else c n

/-- kos.go:117-125: `for i := 7; i >= 4; i--` -/
def reduce (c : Nat → Word) : Nat → Word := [7, 6, 5, 4].foldl reduceStep c

/-- kos.go:126-129: words back to bytes (`byte(..)` truncates) -/
def toBytes (c : Nat → Word) : Digest :=
  fun i => UInt8.ofBitVec ((c (i.val / 8) >>> ((i.val % 8) * 8)).setWidth 8)

/-- total indexing of a 32-byte slice -/
def at' (d : Digest) (i : Nat) : UInt8 := if h : i < 32 then d ⟨i, h⟩ else 0

/-- kos.go:78-131 `binaryFieldMul` -/
def binaryFieldMul (A B : Digest) : Digest := toBytes (reduce (combMul (at' A) (at' B)))

end Verif.OT.BinaryField
