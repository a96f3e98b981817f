import Verif.Base.GoRes
import Verif.Base.Bytes

/-! Model of the byte-level hash helpers: `/repo/crypto/core/hash.go`, `/repo/crypto/internal/hash.go` and
`/repo/crypto/core/curves/native/hash2field.go`. -/

namespace Verif.Hash

open Verif.Bytes

/-- A fixed-size hash: `Size`, `BlockSize` and the digest of a byte string (`hash.Hash` with one `Write`
per part is the digest of the concatenation). -/
structure HashFn where
  h : List UInt8 → List UInt8
  size : Nat
  block : Nat
  len_h : ∀ m, (h m).length = size
  size_pos : 0 < size

/-- core/hash.go:78-87 `I2OSP` -/
def i2osp (b : Int) (n : Nat) : List UInt8 :=
  let os := natToBE b.natAbs
  if n > os.length then List.replicate (n - os.length) 0 ++ os
  else os.take n

/-- core/hash.go:89-91 `OS2IP` -/
def os2ip (os : List UInt8) : Nat := beToNat os

/-- core/hash.go:113-121 `xor`, on slices of the same length -/
def xorB (a b : List UInt8) : List UInt8 := List.zipWith (· ^^^ ·) a b

/-- core/hash.go:123-174 `ExpandMessageXmd`.  The float ceiling of the block count is the integer ceiling.
`b[1]` does not exist when no block is needed; a slice bound beyond the concatenation panics. -/
def expandXmd (H : HashFn) (msg dst : List UInt8) (lenInBytes : Nat) : Res (List UInt8) :=
  let ell := (lenInBytes + H.size - 1) / H.size
  if ell > 255 then .err
  else
    let dstPrime := dst ++ i2osp dst.length 1
    let zPad := i2osp 0 H.block
    let msgPrime := zPad ++ msg ++ i2osp lenInBytes 2 ++ i2osp 0 1 ++ dstPrime
    let b0 := H.h msgPrime
    if ell < 1 then .panic
    else
      let b1 := H.h (b0 ++ i2osp 1 1 ++ dstPrime)
      let bs := (List.range' 2 (ell - 1)).foldl (fun (bs : List (List UInt8)) (i : Nat) =>
        bs ++ [H.h (xorB b0 (bs.getLastD []) ++ i2osp i 1 ++ dstPrime)]) [b1]
      let uniform := bs.flatten
      if lenInBytes ≤ uniform.length then .ok (uniform.take lenInBytes) else .panic

/-- core/hash.go:174-218 `hashToField` with extension degree 1 (`m = 1`) and `L = 48`, as `getParams`
gives for every supported curve; each `u[i]` is a one-element slice. -/
def hashToField (H : HashFn) (p : Nat) (dst msg : List UInt8) (count : Nat) : Res (List Nat) := do
  let uniform ← expandXmd H msg dst (count * 48)
  Res.ok ((List.range count).map fun i => os2ip ((uniform.drop (48 * i)).take 48) % p)

/-- core/hash.go:220-226 `Hash` -/
def hash (H : HashFn) (p : Nat) (dst msg : List UInt8) : Res Nat := do
  let u ← hashToField H p dst msg 1
  match u with
  | [] => Res.panic
  | x :: _ => Res.ok x

/-! ### native expanders -/

/-- core/curves/native/hash2field.go:10 `OversizeDstSalt` -/
def oversizeSalt : List UInt8 := [72, 50, 67, 45, 79, 86, 69, 82, 83, 73, 90, 69, 45, 68, 83, 84, 45]

/-- core/curves/native/hash2field.go:15-26 `getDomainXmd` -/
def getDomainXmd (H : HashFn) (domain : List UInt8) : List UInt8 :=
  if domain.length > 255 then H.h (oversizeSalt ++ domain) else domain

/-- `copy(out[off:], src)` -/
def copyAt (out : List UInt8) (off : Nat) (src : List UInt8) : List UInt8 :=
  out.take off ++ src.take (out.length - off) ++ out.drop (off + src.length)

/-- core/curves/native/hash2field.go:46-91 `ExpandMsgXmd`.  The state of the loop is the output buffer and
the current block. The last copy has a negative offset when no block is needed. -/
def expandNative (H : HashFn) (msg domain0 : List UInt8) (outLen : Nat) : Res (List UInt8) :=
  let domain := getDomainXmd H domain0
  let domainLen := UInt8.ofNat domain.length
  let b0 := H.h (List.replicate H.block (0 : UInt8) ++ msg ++ [UInt8.ofNat (outLen >>> 8), UInt8.ofNat outLen] ++
    ([0] : List UInt8) ++ domain ++ [domainLen])
  let b1 := H.h (b0 ++ ([1] : List UInt8) ++ domain ++ [domainLen])
  let ell := (outLen + H.size - 1) / H.size
  let st := (List.range' 1 (ell - 1)).foldl (fun (st : List UInt8 × List UInt8) (i : Nat) =>
    (copyAt st.1 ((i - 1) * H.size) st.2,
      H.h (xorB b0 st.2 ++ [1 + UInt8.ofNat i] ++ domain ++ [domainLen])))
    (List.replicate outLen 0, b1)
  if ell < 1 then .panic
  else .ok ((copyAt st.1 ((ell - 1) * H.size) st.2).take outLen)

/-- core/curves/native/hash2field.go:28-41 `getDomainXof`; `xof m n` is the first `n` bytes of the
extendable output on `m`. -/
def getDomainXof (xof : List UInt8 → Nat → List UInt8) (domain : List UInt8) : List UInt8 :=
  if domain.length > 255 then xof (oversizeSalt ++ domain) 64 else domain

/-- core/curves/native/hash2field.go:96-107 `ExpandMsgXof` -/
def expandXof (xof : List UInt8 → Nat → List UInt8) (msg domain0 : List UInt8) (outLen : Nat) : List UInt8 :=
  let domain := getDomainXof xof domain0
  xof (msg ++ [UInt8.ofNat (outLen >>> 8), UInt8.ofNat outLen] ++ domain ++ [UInt8.ofNat domain.length]) outLen

/-! ### counter-separated chaining hash -/

/-- internal/hash.go:79-84: the byte `s`: 1 if `b = 0`, else 0, by sign-extending shifts. -/
def isZeroByte (b : UInt8) : UInt8 :=
  let s1 := b.toInt8 >>> 7
  let s2 := (-b.toInt8) >>> 7
  ((s1 ||| s2) + 1).toUInt8

/-- internal/hash.go:74-93 `ByteSub`, the loop with borrow `m`. -/
def byteSubAux (m : UInt8) : List UInt8 → List UInt8
  | [] => []
  | b :: rest =>
    let b := b - m
    let s := isZeroByte b
    (b ||| -s) :: byteSubAux (s &&& m) rest

/-- internal/hash.go:74-93 `ByteSub` -/
def byteSub (b : List UInt8) : List UInt8 := byteSubAux 1 b

/-- internal/hash.go:34-60 `Hash`, after the nil check.  `kdf` is 32 bytes of HKDF-SHA256 with the zero
salt and the given info.  State: previous output and counter. -/
def chainHash (kdf : List UInt8 → List UInt8) (values : List (List UInt8)) : List UInt8 :=
  (values.foldl (fun (st : List UInt8 × List UInt8) b => (kdf (st.2 ++ b ++ st.1), byteSub st.2))
    (List.replicate 32 0, List.replicate 32 0xFF)).1

/-- core/hash.go:247-272 `FiatShamir`, after the nil check: `b.Bytes()` is the absolute value. -/
def fiatShamir (kdf : List UInt8 → List UInt8) (values : List Int) : List UInt8 :=
  chainHash kdf (values.map fun v => natToBE v.natAbs)

end Verif.Hash
