import Verif.Dkls.Dkg

/-! Model of `/repo/crypto/tecdsa/dklsv1/dealer/dealer.go`: key generation by a trusted dealer.

Simplification: the two `rand.Read` calls of one iteration (dealer.go:61-66) are one value `pads i`, `none` if either
of them fails.  The scalars are the values `Scalar.Random` returns (dealer.go:47-48). -/

namespace Verif.Dkls.Dealer
open Verif Verif.OT

variable {F G : Type} [Field F] [DecidableEq F] [AddCommGroup G] [Module F G]

/-- crypto/tecdsa/dklsv1/dealer/dealer.go:46-51 `produceKeyShares`: Alice's share, Bob's share, the public key -/
def produceKeyShares (E : Env F G) (skA skB : F) : F × F × G := (skA, skB, (skA * skB) • E.g)

/-- crypto/tecdsa/dklsv1/dealer/dealer.go:60-68: one iteration; `bits` the receiver's choice bits -/
def padStep (pads : Nat → Option (Digest × Digest)) (bits : List Nat) (i : Nat) :
    Res ((Digest × Digest) × Digest) := do
  let p ← Res.ofOption (pads i)
  let w ← idx bits i
  let k ← sel p w
  .ok (p, k)

/-- crypto/tecdsa/dklsv1/dealer/dealer.go:53-79 `produceOTResults`: `rnd` the choice bytes the receiver's constructor
draws (its session id is all zero) -/
def produceOTResults (rnd : Nat → UInt8) (pads : Nat → Option (Digest × Digest)) :
    Res (ReceiverOutput × List (Digest × Digest)) := do
  let r ← newReceiver (G := G) kappa (fun _ => 0) rnd
  let ks ← (List.range kappa).mapM (padStep pads r.out.bits)
  .ok (⟨r.out.packed, r.out.bits, ks.map (·.2)⟩, ks.map (·.1))

/-- crypto/tecdsa/dklsv1/dealer/dealer.go:27-44 `GenerateAndDeal` -/
def generateAndDeal (E : Env F G) (skA skB : F) (rnd : Nat → UInt8) (pads : Nat → Option (Digest × Digest)) :
    Res (AliceOutput F G × BobOutput F G) := do
  let (a, b, pk) := produceKeyShares E skA skB
  let (ro, so) ← produceOTResults (G := G) rnd pads
  .ok (⟨pk, a, ro⟩, ⟨pk, b, so⟩)

end Verif.Dkls.Dealer
