import Verif.Accumulator.Lemmas
import Verif.Accumulator.Model
import Verif.Accumulator.MultiProps
import Verif.Accumulator.ProofProps
import Verif.Accumulator.Props
import Verif.App.Actor
import Verif.App.Did
import Verif.App.Fs
import Verif.App.Identifier
import Verif.App.MsgFilter
import Verif.App.Oracle
import Verif.App.PubKey
import Verif.App.Vault
import Verif.Base.BigInt
import Verif.Base.Bytes
import Verif.Base.GoRes
import Verif.Base.Group
import Verif.Base.Interp
import Verif.Base.Pairing
import Verif.Base.Tactics
import Verif.Bbs.Blind
import Verif.Bbs.Codec
import Verif.Bbs.Drbg
import Verif.Bbs.Examples
import Verif.Bbs.Lemmas
import Verif.Bbs.Model
import Verif.Bbs.Pok
import Verif.Bbs.Props
import Verif.Bls.Examples
import Verif.Bls.Model
import Verif.Bls.Props
import Verif.Bls.Threshold
import Verif.Bls381.Ate
import Verif.Bls381.AteFrob
import Verif.Bls381.AteK12
import Verif.Bls381.AtePoint
import Verif.Bls381.AteTower
import Verif.Bls381.CofactorPrime
import Verif.Bls381.Count
import Verif.Bls381.Cubic
import Verif.Bls381.Cyclo
import Verif.Bls381.Fp
import Verif.Bls381.Fp12
import Verif.Bls381.Fp2
import Verif.Bls381.Fp6
import Verif.Bls381.FpApi
import Verif.Bls381.FpWide
import Verif.Bls381.Fq
import Verif.Bls381.FqApi
import Verif.Bls381.FqChain
import Verif.Bls381.FqWide
import Verif.Bls381.G1
import Verif.Bls381.G1Api
import Verif.Bls381.G1Order
import Verif.Bls381.G2
import Verif.Bls381.G2Api
import Verif.Bls381.G2Nat
import Verif.Bls381.G2Order
import Verif.Bls381.Group
import Verif.Bls381.GroupSpec
import Verif.Bls381.Gt
import Verif.Bls381.GtApi
import Verif.Bls381.HashBase
import Verif.Bls381.HashG1
import Verif.Bls381.HashG1Api
import Verif.Bls381.HashG2
import Verif.Bls381.HashG2Api
import Verif.Bls381.KeyGen
import Verif.Bls381.Limbs
import Verif.Bls381.Nat12
import Verif.Bls381.PairApi
import Verif.Bls381.PairEval
import Verif.Bls381.PairInst
import Verif.Bls381.PairMiller
import Verif.Bls381.PairSteps
import Verif.Bls381.PairValue
import Verif.Bls381.Pairing
import Verif.Bls381.Prime
import Verif.Bls381.Quad
import Verif.Bls381.Sig
import Verif.Bls381.SigApi
import Verif.Bls381.SigAug
import Verif.Bls381.SigFull
import Verif.Bls381.SigHash
import Verif.Bls381.SigRefine
import Verif.Bls381.TowerApi
import Verif.Bls381.Twist
import Verif.Bls381.Wire
import Verif.Bls381.Word
import Verif.Bulletproof.Batch
import Verif.Bulletproof.BatchProps
import Verif.Bulletproof.Bits
import Verif.Bulletproof.Code
import Verif.Bulletproof.Codec
import Verif.Bulletproof.Examples
import Verif.Bulletproof.Ipp
import Verif.Bulletproof.Lemmas
import Verif.Bulletproof.Range
import Verif.Bulletproof.RangeProps
import Verif.Bulletproof.SVec
import Verif.Core.Element
import Verif.Core.Mod
import Verif.Core.Props
import Verif.Curves.Bls377PairApi
import Verif.Curves.Bls377Point
import Verif.Curves.Bls377PointApi
import Verif.Curves.Bls377Prime
import Verif.Curves.Bls377Scalar
import Verif.Curves.Bls377ScalarApi
import Verif.Curves.EcPoint
import Verif.Curves.EcPointApi
import Verif.Curves.EcPointWire
import Verif.Curves.EcScalar
import Verif.Curves.EcScalarApi
import Verif.Curves.EdField
import Verif.Curves.EdGroup
import Verif.Curves.EdHash
import Verif.Curves.EdHashApi
import Verif.Curves.EdLib
import Verif.Curves.EdReal
import Verif.Curves.EdScalar
import Verif.Curves.EdScalarApi
import Verif.Curves.EdSig
import Verif.Curves.EdSigApi
import Verif.Curves.Named
import Verif.Curves.NamedApi
import Verif.Curves.NamedProps
import Verif.Curves.PairCurve
import Verif.Curves.PairCurveApi
import Verif.Curves.V1Bls
import Verif.Curves.V1BlsApi
import Verif.Curves.V1Ed
import Verif.Curves.V1EdApi
import Verif.Curves.V1Feldman
import Verif.Daed.Model
import Verif.Daed.Props
import Verif.Dkls.Dealer
import Verif.Dkls.DealerApi
import Verif.Dkls.Dkg
import Verif.Dkls.DkgProps
import Verif.Dkls.Multiply
import Verif.Dkls.MultiplyProps
import Verif.Dkls.Sign
import Verif.Dkls.SignProps
import Verif.FrostDkg.Lemmas
import Verif.FrostDkg.Model
import Verif.FrostDkg.Props
import Verif.FrostSign.Model
import Verif.FrostSign.Props
import Verif.Gennaro.Lemmas
import Verif.Gennaro.Model
import Verif.Gennaro.Props
import Verif.Gennaro.TwoParty
import Verif.Gennaro.TwoPartyApi
import Verif.Hash.Counter
import Verif.Hash.Model
import Verif.Hash.Props
import Verif.Kdf.Commit
import Verif.Kdf.Hkdf
import Verif.Kdf.Hmac
import Verif.Kdf.Names
import Verif.Mina.BitVector
import Verif.Mina.BitVectorProps
import Verif.Mina.Examples
import Verif.Mina.Lemmas
import Verif.Mina.Model
import Verif.Mina.Props
import Verif.Mina.Props2
import Verif.Mina.Wire
import Verif.Mpc.Keyshare
import Verif.Mpc.Model
import Verif.Mpc.Props
import Verif.Mpc.SigProps
import Verif.Mpc.Wire
import Verif.Mpc.WireApi
import Verif.Native.Chains
import Verif.Native.Codec
import Verif.Native.Curves
import Verif.Native.Field
import Verif.Native.GroupAlg
import Verif.Native.HashCurve
import Verif.Native.HashCurveExamples
import Verif.Native.Instances
import Verif.Native.Jacobian
import Verif.Native.K256Fp.Code
import Verif.Native.K256Fp.Proof
import Verif.Native.K256Fq.Code
import Verif.Native.K256Fq.Proof
import Verif.Native.Limbs
import Verif.Native.Order
import Verif.Native.P256Fp.Code
import Verif.Native.P256Fp.Proof
import Verif.Native.P256Fq.Code
import Verif.Native.P256Fq.Proof
import Verif.Native.Pallas
import Verif.Native.PallasApi
import Verif.Native.PallasCurve
import Verif.Native.PallasExamples
import Verif.Native.PallasHash
import Verif.Native.Pasta
import Verif.Native.PastaFp.Code
import Verif.Native.PastaFp.Proof
import Verif.Native.PastaFq.Code
import Verif.Native.PastaFq.Proof
import Verif.Native.Point
import Verif.Native.PointApi
import Verif.Native.PointCode
import Verif.Native.PointDev
import Verif.Native.Primes
import Verif.Native.Roots
import Verif.Native.Scalars
import Verif.Native.Sswu
import Verif.Native.SswuCode
import Verif.Native.Weier
import Verif.Native.Word
import Verif.OT.BinaryField
import Verif.OT.BinaryFieldProps
import Verif.OT.Kos
import Verif.OT.KosProps
import Verif.OT.KosStream
import Verif.OT.Simplest
import Verif.OT.SimplestProps
import Verif.OT.Stream
import Verif.Paillier.Lemmas
import Verif.Paillier.Model
import Verif.Paillier.Props
import Verif.Paillier.SafePrime
import Verif.Schnorr.Model
import Verif.Schnorr.Props
import Verif.Secret.Encrypt
import Verif.Secret.Props
import Verif.Sharing.Codec
import Verif.Sharing.Lemmas
import Verif.Sharing.Model
import Verif.Sharing.Props
import Verif.SharingV1.Lemmas
import Verif.SharingV1.Model
import Verif.SharingV1.Props
import Verif.Ted25519.KeyGen
import Verif.Ted25519.KeyGenApi
import Verif.Ted25519.Model
import Verif.Ted25519.Props
import Verif.Wallet.Bip32
import Verif.Wallet.Octets
import Verif.Audit
