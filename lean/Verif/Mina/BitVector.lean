import Verif.Base.GoRes

/-! Model of `/repo/crypto/signatures/schnorr/mina/bitvector.go`. -/

namespace Verif.Mina

/-- signatures/schnorr/mina/bitvector.go:35-38 `BitVector`.  `int` is a 64-bit integer; the model does
not bound `length` at `2^63`. Slice aliasing with the caller's buffer is not modelled. -/
structure BitVector where
  data : List UInt8
  length : Nat
deriving DecidableEq, Repr

namespace BitVector

/-- signatures/schnorr/mina/bitvector.go:90-94 `BitVector.bytesLength`: `((length-1) >> 3) + 1` with an
arithmetic shift, on the new length. -/
def bytesLength (length : Nat) : Nat := (((length : Int) - 1) / 8 + 1).toNat

/-- signatures/schnorr/mina/bitvector.go:64-73 `shiftLower`; returns the shifted-out bit and the new
slice.  The Go loop runs from the last byte down. -/
def shiftLower (bit : UInt8) : List UInt8 → UInt8 × List UInt8
  | [] => ((bit <<< 7) >>> 7, [])
  | b :: rest =>
    let r := shiftLower bit rest
    (b &&& 1, ((b >>> 1) ||| (r.1 <<< 7)) :: r.2)

/-- signatures/schnorr/mina/bitvector.go:79-87 `shiftHigher` (only the new slice is used). -/
def shiftHigher (bit : UInt8) : List UInt8 → List UInt8
  | [] => []
  | b :: rest => ((b <<< 1) ||| bit) :: shiftHigher ((b &&& 0x80) >>> 7) rest

/-- signatures/schnorr/mina/bitvector.go:97-101 `BitVector.indexAssert` -/
def inRange (v : BitVector) (i : Int) : Bool := !(decide (i < 0) || decide (i ≥ v.length))

/-- the byte with the bit at `off` replaced (bitvector.go:115-121 and 147-154) -/
def putBit (bit old off : UInt8) : UInt8 :=
  if bit = 1 then old ||| ((1 : UInt8) <<< off) else old &&& ~~~((1 : UInt8) <<< off)

/-- signatures/schnorr/mina/bitvector.go:104-125 `BitVector.Append`.  `index` is `uint32(length)`. -/
def append (v : BitVector) (bit : UInt8) : Res BitVector :=
  let index := v.length % 2 ^ 32
  let length := v.length + 1
  let data := if bytesLength length > v.data.length then v.data ++ [0] else v.data
  match data[index / 8]? with
  | none => .panic
  | some old => .ok ⟨data.set (index / 8) (putBit bit old (UInt8.ofNat (index % 8))), length⟩

/-- signatures/schnorr/mina/bitvector.go:129-136 `BitVector.Element` -/
def element (v : BitVector) (i : Int) : Res UInt8 :=
  if !v.inRange i then .panic
  else match v.data[i.toNat / 8]? with
    | none => .panic
    | some b => .ok ((b >>> UInt8.ofNat (i.toNat % 8)) &&& 1)

/-- signatures/schnorr/mina/bitvector.go:140-157 `BitVector.Set`.  The byte index is a `uint32`. -/
def set (v : BitVector) (bit : UInt8) (index : Int) : Res BitVector :=
  if !v.inRange index then .panic
  else
    let byteIndex := (index.toNat / 8) % 2 ^ 32
    match v.data[byteIndex]? with
    | none => .panic
    | some old => .ok ⟨v.data.set byteIndex (putBit bit old (UInt8.ofNat (index.toNat % 8))), v.length⟩

/-- signatures/schnorr/mina/bitvector.go:172-188: the byte with a bit inserted at `off`. -/
def insByte (bit old off : UInt8) : UInt8 :=
  let bitToInsert := if bit = 1 then (1 : UInt8) <<< off else 0
  let bottomMask := ((1 : UInt8) <<< off) - 1
  let topMask := ~~~bottomMask
  let top := (old &&& topMask) <<< 1
  bitToInsert ||| (old &&& bottomMask) ||| top

/-- signatures/schnorr/mina/bitvector.go:162-193 `BitVector.Insert` -/
def insert (v : BitVector) (bit : UInt8) (index : Int) : Res BitVector :=
  if !v.inRange index then .panic
  else
    let length := v.length + 1
    let data := if bytesLength length > v.data.length then v.data ++ [0] else v.data
    let byteIndex := (index.toNat / 8) % 2 ^ 32
    match data[byteIndex]? with
    | none => .panic
    | some old =>
      let newByte := insByte bit old (UInt8.ofNat (index.toNat % 8))
      .ok ⟨data.take byteIndex ++ newByte :: shiftHigher ((old &&& 0x80) >>> 7) (data.drop (byteIndex + 1)),
        length⟩

/-- signatures/schnorr/mina/bitvector.go:208-221: the byte with the bit at `off` removed and `bit`
shifted in at the top.  `1 << (byteOffset + 1)` is a byte, so it is zero when `byteOffset = 7`. -/
def delByte (bit old off : UInt8) : UInt8 :=
  let bottomMask := ((1 : UInt8) <<< off) - 1
  let topMask := ~~~((if off = 7 then (0 : UInt8) else (1 : UInt8) <<< (off + 1)) - 1)
  let newTop := ((old &&& topMask) >>> 1) ||| (bit <<< 7)
  (bottomMask &&& old) ||| newTop

/-- signatures/schnorr/mina/bitvector.go:197-232 `BitVector.Delete` -/
def delete (v : BitVector) (index : Int) : Res BitVector :=
  if !v.inRange index then .panic
  else
    let length := v.length - 1
    let byteIndex := (index.toNat / 8) % 2 ^ 32
    match v.data[byteIndex]? with
    | none => .panic
    | some old =>
      let s := shiftLower 0 (v.data.drop (byteIndex + 1))
      let data := v.data.take byteIndex ++
        delByte s.1 old (UInt8.ofNat (index.toNat % 8)) :: s.2
      let byteLength := bytesLength length
      .ok ⟨if byteLength < data.length then data.take byteLength else data, length⟩

end BitVector
end Verif.Mina
