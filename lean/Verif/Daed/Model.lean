import Verif.Base.GoRes
import Verif.Base.Bytes

/-! Model of `/repo/crypto/daed/aes_siv.go` (deterministic authenticated encryption). -/

namespace Verif.Daed

open Verif.Bytes

/-- What the package imports: AES under the two halves of the key, as functions on 16-byte blocks
(`cipher.Block.Encrypt`).  Invertibility is not needed by the code. -/
structure Ciphers where
  E1 : List UInt8 → List UInt8
  E2 : List UInt8 → List UInt8
  len1 : ∀ b, (E1 b).length = 16
  len2 : ∀ b, (E2 b).length = 16

/-- daed/aes_siv.go:240-244 `xorBlock` (arguments `x`, `block`; the new `block`) -/
def xorBlock (x block : List UInt8) : List UInt8 := List.zipWith (· ^^^ ·) block x

/-- `for i: block[off+i] ^= src[i]` -/
def xorAt (block : List UInt8) (off : Nat) (src : List UInt8) : List UInt8 :=
  block.take off ++ List.zipWith (· ^^^ ·) (block.drop off) src ++ block.drop (off + src.length)

/-- daed/aes_siv.go:85-92 `multiplyByX`: `block[i] = block[i]<<1 | block[i+1]>>7`, the last byte gets the
reduction constant when the first byte's top bit was set. -/
def shiftBytes (carry : UInt8) : List UInt8 → List UInt8
  | [] => []
  | [b] => [(b <<< 1) ^^^ (if carry = 1 then 0x87 else 0x00)]
  | b :: c :: rest => ((b <<< 1) ||| (c >>> 7)) :: shiftBytes carry (c :: rest)

/-- daed/aes_siv.go:85-92 `multiplyByX` -/
def multiplyByX (block : List UInt8) : List UInt8 := shiftBytes (block.getD 0 0 >>> 7) block

/-- daed/aes_siv.go:35-41 `AESSIV`: the two CMAC subkeys computed by `NewAESSIV` (lines 60-68) -/
structure Siv extends Ciphers where
  cmacK1 : List UInt8
  cmacK2 : List UInt8

/-- daed/aes_siv.go:52-80 `NewAESSIV`; `aes` maps a 32-byte key to its block function.  `aes.NewCipher` never
fails on 32 bytes. -/
def newAESSIV (aes : List UInt8 → List UInt8 → List UInt8) (hlen : ∀ k b, (aes k b).length = 16)
    (key : List UInt8) : Res Siv :=
  if key.length ≠ 64 then .err
  else
    let k1 := key.take 32
    let k2 := key.drop 32
    let block := aes k1 (List.replicate 16 0)
    let c1 := multiplyByX block
    let c2 := multiplyByX c1
    .ok { E1 := aes k1, E2 := aes k2, len1 := hlen k1, len2 := hlen k2, cmacK1 := c1, cmacK2 := c2 }

/-- daed/aes_siv.go:205-237 `AESSIV.cmac` -/
def Siv.cmac (A : Siv) (data : List UInt8) : List UInt8 :=
  let numBs0 := (data.length + 15) / 16
  let numBs := if numBs0 = 0 then 1 else numBs0
  let lastBSize := data.length - (numBs - 1) * 16
  let st := (List.range (numBs - 1)).foldl (fun (st : List UInt8 × Nat) _ =>
    (A.E1 (xorBlock ((data.drop st.2).take 16) st.1), st.2 + 16)) (List.replicate 16 0, 0)
  let block := xorAt st.1 0 ((data.drop st.2).take lastBSize)
  let block :=
    if lastBSize = 16 then xorBlock A.cmacK1 block
    else xorBlock A.cmacK2 (xorAt block lastBSize [0x80])
  A.E1 block

/-- daed/aes_siv.go:176-180: the loop of `cmacLong` on the data that remains -/
def Siv.longLoop (A : Siv) : Nat → List UInt8 → List UInt8 → List UInt8 × List UInt8
  | 0, block, rest => (block, rest)
  | fuel + 1, block, rest =>
    if 16 ≤ rest.length then A.longLoop fuel (xorBlock (rest.take 16) (A.E1 block)) (rest.drop 16)
    else (block, rest)

/-- daed/aes_siv.go:180-208 `AESSIV.cmacLong` -/
def Siv.cmacLong (A : Siv) (data last : List UInt8) : List UInt8 :=
  let st := A.longLoop data.length (data.take 16) (data.drop 16)
  let rest := st.2
  let remaining := rest.length
  let block := xorAt st.1 remaining (last.take (16 - remaining))
  let block :=
    if remaining = 0 then xorBlock A.cmacK1 block
    else
      let block := A.E1 block
      let block := xorAt block 0 (last.drop (16 - remaining))
      let block := xorAt block 0 rest
      let block := xorAt block remaining [0x80]
      xorBlock A.cmacK2 block
  A.E1 block

/-- daed/aes_siv.go:155-174 `AESSIV.s2v` -/
def Siv.s2v (A : Siv) (msg ad : List UInt8) : List UInt8 :=
  let block := A.cmac (List.replicate 16 0)
  let block := multiplyByX block
  let adMac := A.cmac ad
  let block := xorBlock adMac block
  if msg.length ≥ 16 then A.cmacLong msg block
  else
    let block := multiplyByX block
    let block := xorAt block 0 msg
    let block := xorAt block msg.length [0x80]
    A.cmac block

/-- `cipher.NewCTR`: block `i` of the key stream encrypts the initial vector plus `i`, as a 128-bit
big-endian integer. -/
def keyStream (E : List UInt8 → List UInt8) (iv : List UInt8) (n : Nat) : List UInt8 :=
  (((List.range ((n + 15) / 16)).map fun i => E (natToBEfix 16 (beToNat iv + i))).flatten).take n

/-- daed/aes_siv.go:136-151 `AESSIV.ctrCrypt` -/
def Siv.ctrCrypt (A : Siv) (siv input : List UInt8) : List UInt8 :=
  let iv := siv.set 8 (siv.getD 8 0 &&& 0x7f)
  let iv := iv.set 12 (iv.getD 12 0 &&& 0x7f)
  List.zipWith (· ^^^ ·) input (keyStream A.E2 iv input.length)

/-- daed/aes_siv.go:95-109 `AESSIV.EncryptDeterministically`; the length limit `maxInt - 16` is not modelled
(no slice is that long). -/
def Siv.encrypt (A : Siv) (plaintext ad : List UInt8) : List UInt8 :=
  let siv := A.s2v plaintext ad
  siv ++ A.ctrCrypt siv plaintext

/-- daed/aes_siv.go:112-132 `AESSIV.DecryptDeterministically` -/
def Siv.decrypt (A : Siv) (ciphertext ad : List UInt8) : Res (List UInt8) :=
  if ciphertext.length < 16 then .err
  else
    let siv := ciphertext.take 16
    let pt := A.ctrCrypt siv (ciphertext.drop 16)
    let s := A.s2v pt ad
    let diff := (List.range 16).foldl (fun (d : UInt8) i => d ||| (siv.getD i 0 ^^^ s.getD i 0)) 0
    if diff ≠ 0 then .err else .ok pt

end Verif.Daed
