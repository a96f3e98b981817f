import Verif.Base.Group
import Verif.Sharing.Model

/-! Model of `/repo/crypto/zkp/schnorr/schnorr.go`.  `H` stands for SHA3-256. -/

namespace Verif.Schnorr

open Verif.Sharing (Codec)

variable {F G : Type*} [Field F] [AddCommGroup G] [Module F G]

/-- zkp/schnorr/schnorr.go:32-36 `Proof` -/
structure Proof (F G : Type*) where
  c : F
  s : F
  statement : G

/-- The fixed parameters of prover and verifier: scalar encoding, point encoding and hash. -/
structure Params (F G : Type*) where
  sc : Codec F
  pc : PointCodec G
  H : List UInt8 → List UInt8

/-- zkp/schnorr/schnorr.go:60-72 (and 90-102): the hashed transcript. -/
def transcript (P : Params F G) (sid : List UInt8) (base statement random : G) : List UInt8 :=
  sid ++ P.pc.enc base ++ P.pc.enc statement ++ P.pc.enc random

/-- zkp/schnorr/schnorr.go:53-79 `Prover.Prove`; `k` is the random scalar. -/
def prove (P : Params F G) (base : G) (sid : List UInt8) (x k : F) : Option (Proof F G) :=
  let statement := x • base
  let random := k • base
  match P.sc.setBytes (P.H (transcript P sid base statement random)) with
  | none => none
  | some c => some ⟨c, c * x + k, statement⟩

/-- zkp/schnorr/schnorr.go:83-107 `Verify`; `true` is the nil error. -/
def verify (P : Params F G) (pf : Proof F G) (base : G) (sid : List UInt8) : Bool :=
  let gs := pf.s • base
  let xc := (-pf.c) • pf.statement
  let random := gs + xc
  decide (P.sc.toBytes pf.c = P.H (transcript P sid base pf.statement random))

/-- zkp/schnorr/schnorr.go:116-123 (and 129-135) -/
def commitment (P : Params F G) (pf : Proof F G) : List UInt8 :=
  P.H (P.sc.toBytes pf.c ++ P.sc.toBytes pf.s)

/-- zkp/schnorr/schnorr.go:111-124 `ProveCommit` -/
def proveCommit (P : Params F G) (base : G) (sid : List UInt8) (x k : F) :
    Option (Proof F G × List UInt8) :=
  match prove P base sid x k with
  | none => none
  | some pf => some (pf, commitment P pf)

/-- zkp/schnorr/schnorr.go:128-140 `DecommitVerify` -/
def decommitVerify (P : Params F G) (pf : Proof F G) (com : List UInt8) (base : G)
    (sid : List UInt8) : Bool :=
  if commitment P pf = com then verify P pf base sid else false

end Verif.Schnorr
