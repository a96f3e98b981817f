import Verif.OT.BinaryField

/-! Model of `/repo/crypto/ot/extension/kos/kos.go`: correlated OT extension.

Fixed-size byte matrices are functions `Nat → Nat → UInt8` (row, byte); the sizes appear where the code
loops.  `H` stands for SHA3-256; `shake sid input` for the output stream of cSHAKE256 with function name
`sid`, customisation `"Coinbase_DKLs_cOT"` and absorbed `input`: both are arbitrary functions. -/

namespace Verif.OT.Kos
open Verif Verif.OT Verif.OT.BinaryField

/-- kos.go:30 -/
def Kappa : Nat := 256
/-- kos.go:47 -/
def s : Nat := 80
/-- kos.go:36 -/
def L : Nat := 2 * Kappa + 2 * s
/-- kos.go:39 -/
def COtBlockSizeBytes : Nat := L >>> 3
/-- kos.go:48 -/
def kappaOT : Nat := Kappa + s
/-- kos.go:49 -/
def lPrime : Nat := L + kappaOT
/-- kos.go:50 -/
def extBytes : Nat := lPrime >>> 3

/-- byte matrix -/
abbrev Mat := Nat → Nat → UInt8

/-- curve scalars, hash and XOF used by the protocol -/
structure Env (F : Type) where
  sc : Sharing.Codec F
  H : List UInt8 → Digest
  shake : Digest → List UInt8 → Nat → UInt8

/-- kos.go:167-169 `convertBitToBitmask` -/
def bitmask (bit : UInt8) : UInt8 := ~~~(bit - 1)

/-- kos.go:177-199 `transposeBooleanMatrix`: the cell `output[j][rb]`.  The four nested loops update this
cell exactly for `rowBitWithinByte = 0..7` (with `rowByte = rb`, `columnByte = j >> 3`,
`columnBitWithinByte = j & 7`), in this order. -/
def transposeCell (M : Mat) (j rb : Nat) : UInt8 :=
  (List.range 8).foldl
    (fun acc r => acc ||| ((((M (8 * rb + r) (j / 8)) >>> UInt8.ofNat (j % 8)) &&& 1) <<< UInt8.ofNat r)) 0

/-- kos.go:177-199: row `j` of the transposed matrix -/
def transpose (M : Mat) (j : Nat) : Digest := fun rb => transposeCell M j rb.val

/-- kos.go:245-246, 296-297, 322-323: `uint16(j)` big-endian -/
def be16 (j : Nat) : List UInt8 := [UInt8.ofNat (j / 256), UInt8.ofNat j]

/-- kos.go:219, 237-239, 242, 271, 287-289, 292: hash of the matrix `U`, row by row -/
def hashU {F : Type} (E : Env F) (U : Mat) : Digest :=
  E.H ((List.range Kappa).flatMap fun i => (List.range extBytes).map (U i))

/-- kos.go:244-253, 295-304: `chi_j` -/
def chi {F : Type} (E : Env F) (digest : Digest) (j : Nat) : Digest := E.H (be16 j ++ bytesOf digest)

/-- kos.go:153-157 `Round1Output` -/
structure Round1Output where
  U : Mat
  WPrime : Digest
  VPrime : Digest

/-- kos.go:53-66 `Receiver` after `Round1Initialize` -/
structure Receiver where
  ext : Nat → UInt8
  psi : Nat → Digest
  sid : Digest

def zeroD : Digest := fun _ => 0

/-- bit `j` of a byte vector: `simplest.ExtractBitFromByteVector` (simplest/util.go:26-29) on an array -/
def bitAt (v : Nat → UInt8) (j : Nat) : UInt8 := ((v (j / 8)) >>> UInt8.ofNat (j % 8)) &&& 1

/-- kos.go:203-262 `Round1Initialize`; `keys` the seed OT sender output, `choice` the packed choices,
`rnd` the random extension bytes.  Fewer than `Kappa` seed keys panic (index out of range). -/
def round1 {F : Type} (E : Env F) (keys : List (Digest × Digest)) (sid : Digest) (choice rnd : Nat → UInt8) :
    Res (Receiver × Round1Output) := do
  let ks ← (List.range Kappa).mapM (idx keys)
  let ext : Nat → UInt8 := fun j => if j < COtBlockSizeBytes then choice j else rnd (j - COtBlockSizeBytes)
  let v0 : Mat := fun i => E.shake sid (bytesOf (ks.getD i (zeroD, zeroD)).1)
  let v1 : Mat := fun i => E.shake sid (bytesOf (ks.getD i (zeroD, zeroD)).2)
  let U : Mat := fun i j => v0 i j ^^^ v1 i j ^^^ ext j
  let psi := transpose v0
  let digest := hashU E U
  let W := (List.range lPrime).foldl (fun acc j =>
    xorBytes acc (fun k => bitmask (bitAt ext j) &&& chi E digest j k)) zeroD
  let V := (List.range lPrime).foldl (fun acc j =>
    xorBytes acc (binaryFieldMul (psi j) (chi E digest j))) zeroD
  .ok ({ ext := ext, psi := psi, sid := sid }, { U := U, WPrime := W, VPrime := V })

/-- kos.go:273-290: the matrix `z`, from the receiver's seeds `ks` and choice bits `bs` -/
def zMat {F : Type} (E : Env F) (sid : Digest) (ks : List Digest) (bs : List Nat) (U : Mat) : Mat :=
  fun i j => E.shake sid (bytesOf (ks.getD i zeroD)) j ^^^ (bitmask (UInt8.ofNat (bs.getD i 0)) &&& U i j)

/-- kos.go:293-309 `zPrime` -/
def zPrime {F : Type} (E : Env F) (digest : Digest) (zeta : Nat → Digest) : Digest :=
  (List.range lPrime).foldl (fun acc j => xorBytes acc (binaryFieldMul (zeta j) (chi E digest j))) zeroD

/-- a slice used as 32 bytes: fewer panic, more are ignored -/
def take32 (l : List UInt8) : Res Digest :=
  if l.length < 32 then .panic else .ok (fun i => l.getD i.val 0)

/-- kos.go:320-339, 343-358, 370-389: scalar `k` of the column derived from row `x` -/
def column {F : Type} (E : Env F) (sid : Digest) (j : Nat) (x : Digest) (k : Nat) : Option F :=
  E.sc.setBytes ((List.range 32).map fun t => E.shake sid (be16 j ++ bytesOf x) (k * 32 + t))

/-- kos.go:319-363: the transfer for column `j` (`OtWidth = 2` is written out); returns tA_j and tau_j -/
def transferStep {F : Type} [Field F] (E : Env F) (sid : Digest) (nabla : Digest) (zeta : Nat → Digest)
    (input : List (F × F)) (j : Nat) : Res ((F × F) × (F × F)) := do
  let a0 ← Res.ofOption (column E sid j (zeta j) 0)
  let a1 ← Res.ofOption (column E sid j (zeta j) 1)
  let zeta' := xorBytes (zeta j) nabla
  let t0 ← Res.ofOption (column E sid j zeta' 0)
  let t1 ← Res.ofOption (column E sid j zeta' 1)
  let i ← idx input j
  .ok ((a0, a1), (t0 - a0 + i.1, t1 - a1 + i.2))

/-- kos.go:269-365 `Round2Transfer`: on success the shares `tA` and the message `Tau` -/
def round2 {F : Type} [Field F] (E : Env F) (o : ReceiverOutput) (sid : Digest) (input : List (F × F))
    (m : Round1Output) : Res (List (F × F) × List (F × F)) := do
  let ks ← (List.range Kappa).mapM (idx o.keys)
  let bs ← (List.range Kappa).mapM (idx o.bits)
  let zeta := transpose (zMat E sid ks bs m.U)
  let digest := hashU E m.U
  let nabla ← take32 o.packed
  let rhs := xorBytes m.VPrime (binaryFieldMul nabla m.WPrime)
  if zPrime E digest zeta ≠ rhs then .err
  else do
    let res ← (List.range L).mapM (transferStep E sid nabla zeta input)
    .ok (res.map Prod.fst, res.map Prod.snd)

/-- kos.go:390-396: one output share. `Scalar.Bytes()` has the same length for all scalars of a curve, so
`ConstantTimeCopy` does not panic. -/
def outShare {F : Type} [Field F] (E : Env F) (bit : Nat) (x : F) (tau : F) : Res F :=
  let out := -x
  let wj0 := E.sc.toBytes out
  let wj1 := E.sc.toBytes (out + tau)
  Res.ofOption (E.sc.setBytes (ctSel bit wj0 wj1))

/-- kos.go:369-398: iteration `j` -/
def round3Step {F : Type} [Field F] (E : Env F) (r : Receiver) (tau : List (F × F)) (j : Nat) :
    Res (F × F) := do
  let bit := (bitAt r.ext j).toNat
  let t ← idx tau j
  let x0 ← Res.ofOption (column E r.sid j (r.psi j) 0)
  let y0 ← outShare E bit x0 t.1
  let x1 ← Res.ofOption (column E r.sid j (r.psi j) 1)
  let y1 ← outShare E bit x1 t.2
  .ok (y0, y1)

/-- kos.go:368-400 `Round3Transfer` -/
def round3 {F : Type} [Field F] (E : Env F) (r : Receiver) (tau : List (F × F)) : Res (List (F × F)) :=
  (List.range L).mapM (round3Step E r tau)

end Verif.OT.Kos
