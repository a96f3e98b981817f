import Verif.Native.Roots
import Verif.Native.Primes
import Verif.Native.K256Fp.Proof
import Verif.Native.K256Fq.Proof
import Verif.Native.P256Fp.Proof
import Verif.Native.P256Fq.Proof
import Verif.Native.PastaFp.Proof
import Verif.Native.PastaFq.Proof

/-!
# The six fields (generated by `tools/goinst.py`)

The parameter blocks are transcribed from the Go sources, every constant is checked by the kernel, and the generated
arithmetic is shown to be lawful.
-/

set_option maxRecDepth 20000
set_option exponentiation.threshold 1000

namespace Verif.Native

/-- `new(big.Int).SetBytes` of the 32-byte literal (package math/big). -/
def bigOfBytes (b : List UInt8) : Int := (Bytes.beToNat b : Int)

/-! ## K256Fp -/

/-- The modulus. -/
abbrev K256Fp.prime : Nat := 115792089237316195423570985008687907853269984665640564039457584007908834671663

instance : Fact (Nat.Prime K256Fp.prime) := ⟨Primes.prime_115792089237316195423570985008687907853269984665640564039457584007908834671663⟩

/-- The constants (crypto/core/curves/native/k256/fp/fp.go:29-39). -/
def K256Fp.params : Params where
  R := ⟨0x00000001000003d1, 0x0000000000000000, 0x0000000000000000, 0x0000000000000000⟩
  R2 := ⟨0x000007a2000e90a1, 0x0000000000000001, 0x0000000000000000, 0x0000000000000000⟩
  R3 := ⟨0x002bb1e33795f671, 0x0000000100000b73, 0x0000000000000000, 0x0000000000000000⟩
  modulus := ⟨0xfffffffefffffc2f, 0xffffffffffffffff, 0xffffffffffffffff, 0xffffffffffffffff⟩
  biModulus := bigOfBytes [0xff, 0xff, 0xff, 0xff, 0xff, 0xff, 0xff, 0xff, 0xff, 0xff, 0xff, 0xff, 0xff, 0xff, 0xff, 0xff,
    0xff, 0xff, 0xff, 0xff, 0xff, 0xff, 0xff, 0xff, 0xff, 0xff, 0xff, 0xfe, 0xff, 0xff, 0xfc, 0x2f]

/-- The arithmetic backend. -/
def K256Fp.arith : Arith where
  toMont := K256Fp.toMont
  fromMont := K256Fp.fromMont
  neg := K256Fp.opp
  square := K256Fp.square
  mul := K256Fp.mul
  add := K256Fp.add
  sub := K256Fp.sub

theorem K256Fp.lawful : Lawful K256Fp.arith K256Fp.params K256Fp.prime where
  one_lt := by norm_num
  lt := by norm_num
  odd := by norm_num
  R := by decide +kernel
  R2 := by decide +kernel
  R3 := by decide +kernel
  modulus := by decide +kernel
  bi := by decide +kernel
  mul := K256Fp.mul_spec
  square := K256Fp.square_spec
  add := K256Fp.add_spec
  sub := K256Fp.sub_spec
  neg := K256Fp.opp_spec
  fromMont := K256Fp.fromMont_spec
  toMont a := by
    have h := K256Fp.toMont_spec a
    rwa [← (by decide +kernel : 2 ^ 512 % K256Fp.prime = 18446752466076602529)] at h

/-! ## K256Fq -/

/-- The modulus. -/
abbrev K256Fq.prime : Nat := 115792089237316195423570985008687907852837564279074904382605163141518161494337

instance : Fact (Nat.Prime K256Fq.prime) := ⟨Primes.prime_115792089237316195423570985008687907852837564279074904382605163141518161494337⟩

/-- The constants (crypto/core/curves/native/k256/fq/fq.go:29-40). -/
def K256Fq.params : Params where
  R := ⟨0x402da1732fc9bebf, 0x4551231950b75fc4, 0x0000000000000001, 0x0000000000000000⟩
  R2 := ⟨0x896cf21467d7d140, 0x741496c20e7cf878, 0xe697f5e45bcd07c6, 0x9d671cd581c69bc5⟩
  R3 := ⟨0x7bc0cfe0e9ff41ed, 0x0017648444d4322c, 0xb1b31347f1d0b2da, 0x555d800c18ef116d⟩
  modulus := ⟨0xbfd25e8cd0364141, 0xbaaedce6af48a03b, 0xfffffffffffffffe, 0xffffffffffffffff⟩
  biModulus := bigOfBytes [0xff, 0xff, 0xff, 0xff, 0xff, 0xff, 0xff, 0xff, 0xff, 0xff, 0xff, 0xff, 0xff, 0xff, 0xff, 0xfe,
    0xba, 0xae, 0xdc, 0xe6, 0xaf, 0x48, 0xa0, 0x3b, 0xbf, 0xd2, 0x5e, 0x8c, 0xd0, 0x36, 0x41, 0x41]

/-- The arithmetic backend. -/
def K256Fq.arith : Arith where
  toMont := K256Fq.toMont
  fromMont := K256Fq.fromMont
  neg := K256Fq.opp
  square := K256Fq.square
  mul := K256Fq.mul
  add := K256Fq.add
  sub := K256Fq.sub

theorem K256Fq.lawful : Lawful K256Fq.arith K256Fq.params K256Fq.prime where
  one_lt := by norm_num
  lt := by norm_num
  odd := by norm_num
  R := by decide +kernel
  R2 := by decide +kernel
  R3 := by decide +kernel
  modulus := by decide +kernel
  bi := by decide +kernel
  mul := K256Fq.mul_spec
  square := K256Fq.square_spec
  add := K256Fq.add_spec
  sub := K256Fq.sub_spec
  neg := K256Fq.opp_spec
  fromMont := K256Fq.fromMont_spec
  toMont a := by
    have h := K256Fq.toMont_spec a
    rwa [← (by decide +kernel : 2 ^ 512 % K256Fq.prime = 71195301480278335217902614543643724933430614355449737089222010364394701574464)] at h

/-! ## P256Fp -/

/-- The modulus. -/
abbrev P256Fp.prime : Nat := 115792089210356248762697446949407573530086143415290314195533631308867097853951

instance : Fact (Nat.Prime P256Fp.prime) := ⟨Primes.prime_115792089210356248762697446949407573530086143415290314195533631308867097853951⟩

/-- The constants (crypto/core/curves/native/p256/fp/fp.go:29-40). -/
def P256Fp.params : Params where
  R := ⟨0x0000000000000001, 0xffffffff00000000, 0xffffffffffffffff, 0x00000000fffffffe⟩
  R2 := ⟨0x0000000000000003, 0xfffffffbffffffff, 0xfffffffffffffffe, 0x00000004fffffffd⟩
  R3 := ⟨0xfffffffd0000000a, 0xffffffedfffffff7, 0x00000005fffffffc, 0x0000001800000001⟩
  modulus := ⟨0xffffffffffffffff, 0x00000000ffffffff, 0x0000000000000000, 0xffffffff00000001⟩
  biModulus := bigOfBytes [0xff, 0xff, 0xff, 0xff, 0x00, 0x00, 0x00, 0x01, 0x00, 0x00, 0x00, 0x00, 0x00, 0x00, 0x00, 0x00,
    0x00, 0x00, 0x00, 0x00, 0xff, 0xff, 0xff, 0xff, 0xff, 0xff, 0xff, 0xff, 0xff, 0xff, 0xff, 0xff]

/-- The arithmetic backend. -/
def P256Fp.arith : Arith where
  toMont := P256Fp.toMont
  fromMont := P256Fp.fromMont
  neg := P256Fp.opp
  square := P256Fp.square
  mul := P256Fp.mul
  add := P256Fp.add
  sub := P256Fp.sub

theorem P256Fp.lawful : Lawful P256Fp.arith P256Fp.params P256Fp.prime where
  one_lt := by norm_num
  lt := by norm_num
  odd := by norm_num
  R := by decide +kernel
  R2 := by decide +kernel
  R3 := by decide +kernel
  modulus := by decide +kernel
  bi := by decide +kernel
  mul := P256Fp.mul_spec
  square := P256Fp.square_spec
  add := P256Fp.add_spec
  sub := P256Fp.sub_spec
  neg := P256Fp.opp_spec
  fromMont := P256Fp.fromMont_spec
  toMont a := by
    have h := P256Fp.toMont_spec a
    rwa [← (by decide +kernel : 2 ^ 512 % P256Fp.prime = 134799733323198995502561713907086292154532538166959272814710328655875)] at h

/-! ## P256Fq -/

/-- The modulus. -/
abbrev P256Fq.prime : Nat := 115792089210356248762697446949407573529996955224135760342422259061068512044369

instance : Fact (Nat.Prime P256Fq.prime) := ⟨Primes.prime_115792089210356248762697446949407573529996955224135760342422259061068512044369⟩

/-- The constants (crypto/core/curves/native/p256/fq/fq.go:29-40). -/
def P256Fq.params : Params where
  R := ⟨0x0c46353d039cdaaf, 0x4319055258e8617b, 0x0000000000000000, 0x00000000ffffffff⟩
  R2 := ⟨0x83244c95be79eea2, 0x4699799c49bd6fa6, 0x2845b2392b6bec59, 0x66e12d94f3d95620⟩
  R3 := ⟨0xac8ebec90b65a624, 0x111f28ae0c0555c9, 0x2543b9246ba5e93f, 0x503a54e76407be65⟩
  modulus := ⟨0xf3b9cac2fc632551, 0xbce6faada7179e84, 0xffffffffffffffff, 0xffffffff00000000⟩
  biModulus := bigOfBytes [0xff, 0xff, 0xff, 0xff, 0x00, 0x00, 0x00, 0x00, 0xff, 0xff, 0xff, 0xff, 0xff, 0xff, 0xff, 0xff,
    0xbc, 0xe6, 0xfa, 0xad, 0xa7, 0x17, 0x9e, 0x84, 0xf3, 0xb9, 0xca, 0xc2, 0xfc, 0x63, 0x25, 0x51]

/-- The arithmetic backend. -/
def P256Fq.arith : Arith where
  toMont := P256Fq.toMont
  fromMont := P256Fq.fromMont
  neg := P256Fq.opp
  square := P256Fq.square
  mul := P256Fq.mul
  add := P256Fq.add
  sub := P256Fq.sub

theorem P256Fq.lawful : Lawful P256Fq.arith P256Fq.params P256Fq.prime where
  one_lt := by norm_num
  lt := by norm_num
  odd := by norm_num
  R := by decide +kernel
  R2 := by decide +kernel
  R3 := by decide +kernel
  modulus := by decide +kernel
  bi := by decide +kernel
  mul := P256Fq.mul_spec
  square := P256Fq.square_spec
  add := P256Fq.add_spec
  sub := P256Fq.sub_spec
  neg := P256Fq.opp_spec
  fromMont := P256Fq.fromMont_spec
  toMont a := by
    have h := P256Fq.toMont_spec a
    rwa [← (by decide +kernel : 2 ^ 512 % P256Fq.prime = 46533765739406314298121036767150998762426774378559716911348521029833835802274)] at h

/-! ## PastaFp -/

/-- The modulus. -/
abbrev PastaFp.prime : Nat := 28948022309329048855892746252171976963363056481941560715954676764349967630337

instance : Fact (Nat.Prime PastaFp.prime) := ⟨Primes.prime_28948022309329048855892746252171976963363056481941560715954676764349967630337⟩

/-- The constants (crypto/core/curves/native/pasta/fp/fp.go:20-43). -/
def PastaFp.params : Params where
  R := ⟨0x34786d38fffffffd, 0x992c350be41914ad, 0xffffffffffffffff, 0x3fffffffffffffff⟩
  R2 := ⟨0x8c78ecb30000000f, 0xd7d30dbd8b0de0e7, 0x7797a99bc3c95d18, 0x096d41af7b9cb714⟩
  R3 := ⟨0xf185a5993a9e10f9, 0xf6a68f3b6ac5b1d1, 0xdf8d1014353fd42c, 0x2ae309222d2d9910⟩
  modulus := ⟨0x992d30ed00000001, 0x224698fc094cf91b, 0x0000000000000000, 0x4000000000000000⟩
  biModulus := bigOfBytes [0x40, 0x00, 0x00, 0x00, 0x00, 0x00, 0x00, 0x00, 0x00, 0x00, 0x00, 0x00, 0x00, 0x00, 0x00, 0x00,
    0x22, 0x46, 0x98, 0xfc, 0x09, 0x4c, 0xf9, 0x1b, 0x99, 0x2d, 0x30, 0xed, 0x00, 0x00, 0x00, 0x01]

/-- The arithmetic backend. -/
def PastaFp.arith : Arith where
  toMont := PastaFp.toMont
  fromMont := PastaFp.fromMont
  neg := PastaFp.opp
  square := PastaFp.square
  mul := PastaFp.mul
  add := PastaFp.add
  sub := PastaFp.sub

theorem PastaFp.lawful : Lawful PastaFp.arith PastaFp.params PastaFp.prime where
  one_lt := by norm_num
  lt := by norm_num
  odd := by norm_num
  R := by decide +kernel
  R2 := by decide +kernel
  R3 := by decide +kernel
  modulus := by decide +kernel
  bi := by decide +kernel
  mul := PastaFp.mul_spec
  square := PastaFp.square_spec
  add := PastaFp.add_spec
  sub := PastaFp.sub_spec
  neg := PastaFp.opp_spec
  fromMont := PastaFp.fromMont_spec
  toMont a := by
    have h := PastaFp.toMont_spec a
    rwa [← (by decide +kernel : 2 ^ 512 % PastaFp.prime = 4263855311831330276397237192126260515652039413828781833859739249380679483407)] at h

/-! ## PastaFq -/

/-- The modulus. -/
abbrev PastaFq.prime : Nat := 28948022309329048855892746252171976963363056481941647379679742748393362948097

instance : Fact (Nat.Prime PastaFq.prime) := ⟨Primes.prime_28948022309329048855892746252171976963363056481941647379679742748393362948097⟩

/-- The constants (crypto/core/curves/native/pasta/fq/fq.go:20-43). -/
def PastaFq.params : Params where
  R := ⟨0x5b2b3e9cfffffffd, 0x992c350be3420567, 0xffffffffffffffff, 0x3fffffffffffffff⟩
  R2 := ⟨0xfc9678ff0000000f, 0x67bb433d891a16e3, 0x7fae231004ccf590, 0x096d41af7ccfdaa9⟩
  R3 := ⟨0x008b421c249dae4c, 0xe13bda50dba41326, 0x88fececb8e15cb63, 0x07dd97a06e6792c8⟩
  modulus := ⟨0x8c46eb2100000001, 0x224698fc0994a8dd, 0x0000000000000000, 0x4000000000000000⟩
  biModulus := bigOfBytes [0x40, 0x00, 0x00, 0x00, 0x00, 0x00, 0x00, 0x00, 0x00, 0x00, 0x00, 0x00, 0x00, 0x00, 0x00, 0x00,
    0x22, 0x46, 0x98, 0xfc, 0x09, 0x94, 0xa8, 0xdd, 0x8c, 0x46, 0xeb, 0x21, 0x00, 0x00, 0x00, 0x01]

/-- The arithmetic backend. -/
def PastaFq.arith : Arith where
  toMont := PastaFq.toMont
  fromMont := PastaFq.fromMont
  neg := PastaFq.opp
  square := PastaFq.square
  mul := PastaFq.mul
  add := PastaFq.add
  sub := PastaFq.sub

theorem PastaFq.lawful : Lawful PastaFq.arith PastaFq.params PastaFq.prime where
  one_lt := by norm_num
  lt := by norm_num
  odd := by norm_num
  R := by decide +kernel
  R2 := by decide +kernel
  R3 := by decide +kernel
  modulus := by decide +kernel
  bi := by decide +kernel
  mul := PastaFq.mul_spec
  square := PastaFq.square_spec
  add := PastaFq.add_spec
  sub := PastaFq.sub_spec
  neg := PastaFq.opp_spec
  fromMont := PastaFq.fromMont_spec
  toMont a := by
    have h := PastaFq.toMont_spec a
    rwa [← (by decide +kernel : 2 ^ 512 % PastaFq.prime = 4263855311957679929489659445116329028194309752796460188622876710448966664207)] at h

end Verif.Native
