# Formal model of di-dao/sonr in Lean 4

## Trusted base

* Lean 4.33.0's kernel; the Mathlib modules imported one at a time (their theorems are
  re-checked by the same kernel).
* Axioms: every property theorem may depend only on `propext`, `Classical.choice`,
  `Quot.sound`. `lean/Verif/Audit.lean` prints the axioms of the property theorems at build time.
* The reading of the Go source. The code cannot be run here; each definition cites the
  file and lines it models, and simplifications are named in that comment.

### Parameters of the model (assumed behaviour of things not modelled)

* **Curve groups**: points of a prime-order curve group are an `F`-module `G` over the
  scalar field `F` (`[Field F] [AddCommGroup G] [Module F G]`). Point addition, negation and
  scalar multiplication are the module operations. Where the order/generator matters the
  theorem has the hypothesis "`g ≠ 0`" (a non-zero element of a vector space over a field has
  trivial annihilator), or an `isId`/`onCurve` predicate. The limb-level point formulas are *separately* modelled.
* **Pairings**: a bilinear map `e : G1 →ₗ[F] G2 →ₗ[F] GT` (target written additively), non-degenerate where
  soundness is claimed. The BLS12-381 engine is proved to compute such a map (C98), on the groups of
  order q of the modelled curves (C94-C97); `Bls381/PairInst.lean` is the instance.
* **Hash functions / PRGs / block ciphers / HMAC**: arbitrary functions (universally quantified
  parameters), so every theorem holds for every hash; collision-resistance never assumed; when a
  property needs it, the conclusion is "or a collision / discrete log is exhibited".
* **Randomness**: an explicit argument (all coefficient lists, nonces, ... are quantified over).
* **Go runtime**: panics are modelled as a distinct outcome where the property is about them;
  pointers/aliasing, memory, timing (constant-time claims), goroutines not modelled.

## Layout

`lean/Verif/<Area>/Model.lean` – definitions with citations; `Lemmas.lean` – helper lemmas;
`Props.lean` – the property theorems `C..`, each followed by a non-vacuity `example`. Small areas
use `Verif/<Area>.lean` with the same internal order, the property theorems being in `Verif/<Area>Props.lean`.

## Plan per property
* **C01** Shamir split then combine returns the secret. Shamir over abstract field with byte codec; Mathlib Lagrange interpolation gives Combine = f(0).
* **C02** Shamir Combine accepts exactly the well-formed share sets. case analysis of Combine's guard loop against an independent `WellFormed` predicate (iff).
* **C03** Fewer than threshold Shamir shares reveal nothing. existence/uniqueness by Lagrange interpolation through t points including x=0.
* **C04** Feldman verification accepts a share iff it lies on the committed polynomial. module argument: Σ x^j·(a_j G) = f(x)·G, and g ≠ 0 gives the converse.
* **C05** Pedersen verification: completeness and binding. same with two generators; binding: (v-v')G = (b'-b)H.
* **C06** Combining point shares interpolates in the exponent. Lagrange basis at 0 in the module.
* **C07** Legacy (v1) Shamir split/combine round trip on byte strings. v1 model over ZMod p with Nat byte encodings.
* **C08** v1 share addition is secret addition. linearity of interpolation.
* **C09** v1 Feldman and Pedersen verifiers accept honest shares and reject off-polynomial shares. as C04/C05 for v1 verifiers.
* **C10** FROST DKG honest run: all parties agree and the shares reconstruct the key. n-party run as functions from party index to polynomial; sums of polynomials.
* **C11** FROST DKG Round2 aborts on a share that does not match its sender's commitments. decision logic of Round2 with adversarial inputs.
* **C12** FROST DKG proofs are bound to the session context. expected false (Atoi of a non numeric context gives 0; byte truncation): prove negation with witness, and a _partial theorem for numeric contexts below 256.
* **C13** Gennaro DKG honest run agreement. as C10 with Pedersen+Feldman rounds.
* **C14** Gennaro DKG public shares match the secret shares. expected false for threshold ≥ 3 or in general: negation with witness, characterise what is computed.
* **C15** Round-based protocol objects never run a round out of order or twice. state machine, induction on call list.
* **C16** FROST threshold signing yields a valid Schnorr signature. algebraic identity over signer set with Lagrange coefficients; both signs of R.
* **C17** FROST signing rejects a bad partial signature. module argument with g ≠ 0.
* **C18** ted25519 threshold signatures aggregate to a verifying Ed25519-style signature. linearity of v1 interpolation.
* **C19** ted25519 VerifyVSS accepts every honestly dealt share. expected false (big-endian bytes used as little-endian): witness, partial for id^j < 256.
* **C20** Schnorr proof of knowledge: completeness, special soundness, session binding. algebra over module, arbitrary hash.
* **C21** Paillier decrypt inverts encrypt. number theory in ZMod (N^2): (1+N)^m, Carmichael exponent.
* **C22** Paillier homomorphisms. as C21.
* **C23** Paillier square-freeness proofs: completeness. Euler's theorem.
* **C24** Seed OT correctness. module algebra and XOR algebra, arbitrary hash.
* **C25** Correlated OT extension correctness. bit-matrix transposition, additivity of the field product, arbitrary PRG.
* **C26** KOS field multiplication is multiplication in GF(2)[X]/(X^256+X^10+X^5+X^2+1). word vectors as polynomials over ZMod 2, loop invariants of comb multiplication and reduction.
* **C27** Two-party multiplication yields additive shares of the product. linear algebra over F with gadget vector.
* **C28** Two-party DKG produces one key. module algebra on top of Schnorr model.
* **C29** Key refresh preserves the public key and changes the shares consistently. invariant over list of refreshes.
* **C30** Two-party ECDSA signing yields a valid signature. ECDSA verification equation from multiplication outputs.
* **C31** Protocol runner terminates and delivers messages in order. loop with an iteration bound proved sufficient for all step lists; equality with an independent specification (alternating turns), then the step lists of the DKLs boilerplate and the life cycle GenerateKss → refreshes → sign.
* **C32** Accumulator state depends only on the net multiset of elements. fold invariant over operation list.
* **C33** Membership witness verification is exactly the accumulator relation. bilinear map, non-degenerate.
* **C34** Batch witness update tracks accumulator update. polynomial identity vA-vD by induction over lists.
* **C35** Membership proof completeness. module/bilinear algebra; also exact acceptance condition, transcript binding and special soundness (extractor).
* **C36** BLS signatures: completeness, uniqueness, aggregation. `Bls/Model.lean` is generic in the two variants (usual/tiny); curve points outside the subgroup are modelled, the pairing is abstract and specified on the subgroups only. Bilinear algebra; exact acceptance conditions for Verify, AggregateVerify, Aug, Pop, FastAggregateVerify; the rogue-key attack without PoP check as a negative theorem. Key generation (HKDF) and point (de)compression are not modelled.
* **C37** BLS threshold signatures combine to the ordinary signature. Lagrange interpolation in the signature module; exact success condition of combineSigs; tampering detection; identifier 0 takeover as a negative theorem; key-share codec.
* **C38** Bit vector behaves as a list of bits. Refinement of the byte-packed vector (`Mina/BitVector.lean`) to `List Bool` for each operation and for histories (induction over the operation list), independent of spare bytes.
* **C39** Mina signing verifies, and transaction binary encoding round-trips. `Mina/Model.lean` models packing, sponge framing (the permutation is a parameter), transactions, signing and verification over an abstract curve with x/y projections and parity; theorems: completeness, exact acceptance condition, binding up to sponge collisions, wire round trips, addresses, threshold challenge, and the negative findings (trailing zero bytes, no sponge padding, memo beyond 32 bytes, byte overflow panic, parity of threshold nonces). Not modelled: BLAKE2b, Poseidon constants, base58, JSON.
* **C40** Modular arithmetic helpers compute in Z/m. Int emod lemmas.
* **C41** Field elements stay canonical and satisfy the field laws. invariant over operations.
* **C42** Hash-to-field byte helpers. List byte arithmetic; the hash function is an arbitrary function with fixed output length; the RFC 9380 formula is a separate specification.
* **C43** Fiat-Shamir domain counter never repeats. base-255 positional numeral argument.
* **C44** AES-SIV round trip and authenticity check. byte-level model of S2V/CMAC/CTR over an arbitrary 16-byte block function; RFC 4493 / RFC 5297 written as separate specifications and the optimised loops proved equal to them; decrypt accepts exactly the ciphertexts encrypt produces.
* **C45** Message-filter ante decorator blocks every disallowed message at any nesting depth. nested inductive messages, structural induction.
* **C46** Module parameters can only be changed by the authority. state machine over messages.
* **C47** Secret sharing of vault data: Encrypt then Decrypt. expected false (wire layouts of Encrypt and Decrypt disagree): negation, and partial theorem on the AEAD layer.
* **C48** RFC 6979 octet conversions. byte-list arithmetic.
* **C49** Child key derivation separates inputs. expected false (chain code truncated to a byte, index to 32 bits): negation + partial.
* **C50** Native field comparison, canonical decoding and exponentiation. Nat/UInt64 arithmetic; loop invariants.
* **C51** Scalar comparison. Montgomery form of the limbs; expected false: negation with explicit witness.
* **C53** Signature serialisation is a canonical round trip. byte-list model, padding lemma.
* **C54** Serialised accumulator witnesses and deltas are canonical. payload split, abstract codecs (the outer `bare` envelope is a dependency and not modelled).
* **C55** Native XMD/XOF expanders. same specification as C42, plus agreement with core's expander and the never-refusing length behaviour.
* **C52** Gennaro adversarial soundness. decision logic of Round2/Round3; the identifier check is missing in the code: negation with witness, _partial for what is checked.
* **C56** The oracle IBC middleware is transparent. `App/Oracle.lean`: the wrapped application is an arbitrary record of functions; each callback proved equal to the wrapped one; SendPacket swaps port and channel: exact description and negation unless they coincide.
* **C57** InitializeController stores the submitted records. `App/Did.lean`: state machine of the ORM tables; the code's inverted error test means well-formed entries are skipped: negation (C57_wellformed_stores_nothing) and what is stored instead.
* **C58** Credential linking and unlinking keep an exact credential set. `App/Vault.lean`: list state machine of Link/Unlink; invariant over histories in the duplicate-free case (_partial); duplicates panic or survive: negations.
* **C59** Authenticator clone detection is sound. `App/Vault.lean`: counter state machine, induction over histories.
* **C60** Email and phone identifiers. `App/Identifier.lean`: string grammar predicates as specification; the hash is an arbitrary function; coincidences are reduced to explicit collisions.
* **C61** Loading a saved folder tree restores it and stays inside the target directory. `App/Fs.lean`: IPFS nodes as finite trees with arbitrary names and an abstract path-indexed file system; File.Load always fails (negation), names with separators escape the folder (negation), `_partial` for plain names.
* **C62** File write, append and copy. `App/Fs.lean`: abstract file system (path → file/dir), all operations; aliasing and failed copies are negative findings.
* **C63** The signing actor answers every request exactly once. `App/Actor.lean`: the handler as a function to the list of responses and a crash flag; exact characterisation; the missing `return`s make the failure half false (negation).
* **C64** Public-key signature verification. `App/PubKey.lean`: byte-level model of key and signature parsing over an abstract curve with coordinates, Go's generic ECDSA verification transcribed; exact acceptance condition, link to the DKLs life cycle of C31; crashes on short/off-curve keys and the zero-key forgery as negative theorems.
* **C65** Membership through the primary key. PrimaryKey operations composed from the accumulator model; membership of the witnessed value expected false (CreateWitness never checks it): negation, the rest proved.
* **C66** K-256 and P-256 scalars are the field of integers modulo the group order. `Native/*`: limb-by-limb translation (generated from the Go text by tools/gofield.py) of the fiat-crypto arithmetic on UInt64, symbolic verification of every carry, Montgomery representation `Rep`, inversion addition chains with tracked exponents, Tonelli–Shanks invariant, primality by kernel-checked Pratt certificates; then the scalar API.
* **C67** Pallas field elements and scalars. `Native/Pasta.lean`: same for the pasta fields; the limb comparison is wrong, so canonical decoding is expected false: exact acceptance set and refutations with concrete inputs.
* **C68** K-256 and P-256 point arithmetic is the group law, without exceptional cases. The generated projective formulas of `point.go` (translated line by line into `Native/PointCode.lean`), the windowed `Mul` and the bucketed `SumOfProducts` on limbs (`Native/Point.lean`), against Mathlib's `WeierstrassCurve.Affine.Point` group through a representation relation (`Native/Weier.lean`). Completeness of the formulas from the absence of 2-torsion, itself proved for both curves. Hypotheses of the generic theorems are met by `C68_k256` and `C68_p256`, the constants of the repository.
* **C69** The groups of K-256 and P-256 have prime order equal to the scalar modulus. No point counting: a point of prime order n is exhibited (300-step double-and-add evaluated by the kernel), the group has at most 2p+1 < 3n elements and odd order, so exactly n (`Native/Order.lean`, `Native/Curves.lean`).
* **C70** Coordinates and SEC 1 encodings of K-256 and P-256 points. `Native/PointApi.lean` (generic) and `Native/PointDev.lean` (the two curves, deviations) on top of C50 and C68. SEC 1 stated separately as `sec1c`/`sec1u`.
* **C71** The elliptic.Curve wrappers of K-256 and P-256. Same files; `Names` and `coords` state the integer convention of `crypto/elliptic`. Calling `btcec.S256()`/`elliptic.P256()` only for `Params()` is not modelled.
* **C72** Inner product arguments: honest proofs verify, and only for their statement. `Bulletproof/Code.lean` models helpers, generators, prover recursion and both verifiers over an abstract field and module; the transcript is its history, challenges an arbitrary function of it. Specification: `msm`, `dot`, `IppEq`, `challenges` (how challenges are drawn from a proof). Induction on the recursion depth (`proveRec_spec`), the verifier's index formulas against the folded vector (`SVec.lean`). `C.silent` (inversion of zero unreported) is used only to name the challenges of the run.
* **C73** Range proofs: which values are provable, and which proofs verify. `rangeProve`, `rangeVerify` of the same file; specification `rchal` (challenges), `THatEq`, `rangeP`, `hPrimes`. `C73_honest` is exact: the answer on an honest proof is a formula in the little-endian reading of the value's encoding, from which completeness and the defects follow. Soundness (extraction) of the range proof itself is not stated.
* **C74** Batched range proofs. `batchProve`, `verifyBatched`; specification `THatEqB`, `batchP`, `commits`, `weights`. Same method; overflow of n*m is not modelled.
* **C75** Encodings of inner product and range proofs. `marshalIpp`, `unmarshalIpp`, `marshalRange`, `unmarshalRange` over an abstract codec (`FullCodec`, `Canonical`), with slices that panic past the end.
* **C76** BBS+ signatures: what verifies, and what a signature does not bind. `Bbs/Model.lean` models the package over `Verif.Pairing` and an abstract environment of hashes and encodings; nil points are `Option`. `C76_verify_exact` is over arbitrary generators `H i = Get(i)`; the negations use `C77_get_constant`.
* **C77** BBS+ message generators. `Generators.init`/`get` with the unused local copy of the state as in the code; specification: explicit byte string.
* **C78** Blind BBS+ signatures. A Go map is the list of its entries in iteration order; theorems hold for every order (`List.Perm` against the index list). Extraction is special soundness for two runs with different challenge functions.
* **C79** Proofs of knowledge of a BBS+ signature. Specification: `T1`, `T2` (recomputed commitments), `hiddenIdx`, `msm`. Completeness by computing both transcripts; extraction by dividing the difference of the equations; the second disjunct of `C79_extract` is the case in which the extracted inverse exponent vanishes.
* **C80** HMAC-DRBG follows the standard; only whole blocks can be read. `Bbs/Drbg.lean`; HMAC is an arbitrary function with outputs of one positive length; specification: `nistUpdate`, `nistInstantiate`, `nistBlocks`, `nistV` written from the standard. Induction on the number of blocks.
* **C81** Encodings of BBS+ signatures, contexts, proofs and keys. Element codecs are abstract (`Enc`, `Canon`, sizes of BLS12-381); that the curve's codecs satisfy them is assumed here.
* **C82** The Pallas point operations are the group law. `Native/Jacobian.lean` proves the Jacobian formulas against Mathlib's `WeierstrassCurve.Affine.Point`, `Native/GroupAlg.lean` proves fixed-window multiplication and Pippenger over any representation of a group, `Native/Pallas.lean` models the methods on 64-bit limbs.
* **C83** Pallas has prime order q. As C69: Hasse-free counting from an element of prime order q and the bound on the number of points (`Native/Order.lean`).
* **C84** Pallas point encodings round-trip. `Native/PallasApi.lean`. Decoders are characterised exactly; refuted in general: the field decoder refuses an interval of canonical values and accepts values above the modulus (C67), and zero bytes encode the neutral element but do not decode. Proved: the round trip for all other points.
* **C85** Pallas coordinates as integers. `Native/PallasCurve.lean`. Exact characterisations with the set of integers the field decoder accepts; refuted for the others: a refused scalar is replaced by zero, a refused coordinate by zero.
* **C86** Hashing to Pallas. `Native/Sswu.lean` states RFC 9380 6.6.2 over a field and proves the algebra; the isogeny is certified by a polynomial identity on coefficient lists evaluated by the kernel and an evaluation homomorphism; `Native/PallasHash.lean` models the code. That the isogeny is a group homomorphism is not needed and not stated.
* **C87** Hashing to secp256k1 and P-256. `Native/SswuCode.lean` models `Osswu3mod4` and `IsogenyParams.Map` on limbs and proves them against `Native/Sswu.lean` for any constants meeting `SswuOK`; `Native/HashCurve.lean` checks the constants of both curves by kernel evaluation and models `Hash`. The expanders are those of C55.
* **C88** Hash-to-curve tags separate domains and Random depends on its reader. `Native/HashCurve.lean`: the eight constructors over arbitrary hash functions. Refuted: `EllipticPointHasherShake256` carries the name SHAKE-128; the curve-level `Random` ignores the outcome of the read. Proved for the seven other hashers and for the native `Random`.
* **C89** The base field of BLS12-381 is arithmetic modulo p. `Bls381/{Word,Limbs,FpWide,Prime,Fp,FpApi}.lean`: fp.go function by function on six 64-bit words, proved against `ZMod p`; primality of p by a kernel-checked Pratt certificate. Not modelled: Hash, Random.
* **C90** BLS12-381 scalars are the integers modulo the group order. `Bls381/{FqWide,FqChain,Fq,FqApi}.lean`: the hand-written backend of fq.go under the generic native.Field layer of C50 and the scalar API of C66. Refuted: the negation of zero is the modulus itself, so IsZero says no, Invert accepts it and Div by it returns zero. Proved with negation of non-zero elements.
* **C91** The quadratic extension field of BLS12-381 is a field and its operations compute in it. `Bls381/{Quad,Fp2,TowerApi}.lean`: fp2.go function by function over the base field of C89, proved against Mathlib's `QuadraticAlgebra (ZMod p) (-1) 0`, a field because p ≡ 3 mod 4; the square root algorithm is proved in Quad.lean. Not modelled: Random.
* **C92** The degree six and degree twelve extension fields of BLS12-381 compute in the tower. `Bls381/{Cubic,Fp6,Fp12,TowerApi}.lean`: fp6.go and fp12.go against `Cubic K2 (1+u)` (a field because 1+u is not a cube) and `QuadraticAlgebra K6 v 0` (a field because v is not a square); the Frobenius constants are checked by kernel evaluation of the powers. Refuted: the test for one of the sixth-degree field looks at the second coordinate twice. Not modelled: Random.
* **C93** Elements of the pairing target group behave like a group of prime order. `Bls381/{Cyclo,Nat12,Gt,GtApi}.lean`: gt.go and ScalarBls12381Gt; the cyclotomic square is proved on the elements of the cyclotomic subgroup and the exponent of the final exponentiation is computed exactly (3 (p^12-1)/q). Refuted: multiplication by a scalar is always zero; IsOne and Square are wrong outside the subgroup, which SetBytes, Random and New can produce; New(1) is not one; SetBytes of the scalar view does not check the length.
* **C94** G1 of BLS12-381 is a group of prime order and its operations compute in it. `Bls381/{Group,GroupSpec,Count,G1,G1Order,Wire,G1Api}.lean`: g1.go function by function, the formulas written once over a record of field operations that G2 shares; proved against Mathlib's group of the points of a Weierstrass curve. The order of the whole curve is computed from explicit points of prime order (their products give a divisor of the number of points) and a bound by counting abscissae; it gives the subgroup and the cofactor. Refuted: the affine form of the neutral element is (0, 0, 0), no point, and adding to it gives (0, 0, 0). Random and Hash are not here.
* **C95** Encodings of G1 points are faithful and only the subgroup is accepted. `Bls381/{Wire,G1Api}.lean`: the byte level with the three flag bits. Refuted: with the infinity flag set the other bits are not looked at, and the uncompressed form ignores the compression and sign bits, so encodings are not unique. Which error is returned is not modelled.
* **C96** G2 of BLS12-381 is a group of prime order and its operations compute in it. `Bls381/{Group,GroupSpec,Twist,Count,G2,G2Nat,G2Order,G2Api}.lean`: as C94 over the field of C91. The order of the whole curve is found from explicit points of every prime order dividing it (the 450-bit prime factor of the cofactor has a Pratt certificate, `CofactorPrime.lean`), which the kernel checks by running the point functions on pairs of naturals; since ClearCofactor kills those of order prime to q it maps the whole curve into the subgroup. Refuted: the affine form of the neutral element. Random and Hash are not here.
* **C97** Encodings of G2 points are faithful and only the subgroup is accepted. `Bls381/{Wire,G2Api}.lean`: the byte level, shared with C95. Refuted: BigInt writes a fresh variable instead of the receiver, so it gives the same integers for every point; flag bits are ignored as in C95; SetBigInt panics on integers over 96 bytes. Which error is returned is not modelled.
* **C98** The pairing engine computes a bilinear, non-degenerate pairing. `Bls381/{Ate,AtePoint,AteFrob,AteTower,AteK12}.lean` build the pairing mathematically: functions on the curve are elements of its coordinate ring evaluated at points of the sextic twist in the target field; values of lines after the final exponentiation are a cocycle (units, vertical lines and constants are killed), so Miller values are linear, first in the point of order q (the endomorphism psi acts on it as multiplication by the curve parameter), then in the evaluation point (three collinear points have product one). `Pairing.lean` is the code, over a record of the operations it calls; `PairSteps.lean`, `PairMiller.lean`, `PairValue.lean` prove that the projective steps give the lines up to constants of the subfield and the loop the product of the Miller values, then `C93`'s final exponentiation applies. `PairEval.lean` runs the same text on naturals in the kernel for the generators, which gives the value at the generators and with it non-degeneracy. `PairApi.lean` states the property, also in terms of discrete logarithms. Points of the twist outside the subgroup are not covered.
* **C99** A pairing check that passes binds the points it was given. `Bls381/PairApi.lean`: for points of order q from C98. For other points of the curve it is false: the engine does not check the subgroup, and points of order prime to q have value one.
* **C100** BLS signatures on the stored BLS12-381 points accept exactly the honest signatures. `Bls381/Sig.lean` is the code of both variants over the stored points of `G1.lean`/`G2.lean` and the engine of `Pairing.lean`; `PairInst.lean` shows that the engine's pairing is an instance of the abstract `Verif.Pairing` used by C36 and following; `SigRefine.lean` proves function by function that the stored-level code refines the abstract BLS model, and `SigApi.lean` states the properties on stored values. The hash to the group is a parameter whose values lie in the subgroup.
* **C101** Hashing to BLS12-381 G1 is the RFC 9380 suite and always lands in the subgroup. `Bls381/HashBase.lean` (isogeny evaluation, message expansion), `HashG1.lean` (the code and its constants, the SWU map as a relation `IsMap`), `HashG1Api.lean`. The isogeny is checked as a polynomial identity by a verified kernel evaluation; the sixteen exceptional elements (kernel of the isogeny) are computed.
* **C102** Hashing to BLS12-381 G2 is the RFC 9380 suite and always lands in the subgroup. `Bls381/HashG2.lean`, `HashG2Api.lean`, in the same way over the quadratic field.
* **C103** BLS signatures end to end: with the actual hash to the curve, Verify accepts exactly the key's multiple of the RFC 9380 point of the message. `Bls381/SigHash.lean` instantiates C100 with the hash of C101/C102, for each message separately.
* **C104** Points and scalars carry the name of their curve through binary, text and JSON, and come back as the same value of the same curve. `Curves/Named.lean` models the registry, the six codecs and the type assertions over abstract per-curve encodings; `Curves/NamedProps.lean` characterises exactly what each decoder accepts (including hexadecimal of either case and buffer overruns); `Curves/NamedApi.lean` instantiates it with the stored K-256, P-256, Pallas and BLS12-381 values of C66-C97; Ed25519 and BLS12-377 points are external libraries with stated assumptions; JSON is a parameter that keeps the two strings.
* **C105** BLS12-381 points behind the generic interfaces follow the group law, pair correctly and refuse values of other types. `Curves/PairCurve.lean` models the interface methods with their type assertions as a sum type of possible arguments over the stored G1/G2/Gt/Fq models; `Curves/PairCurveApi.lean` proves them against Mathlib's group law and the pairing of C98 (e existentially given with its bilinearity and non-degeneracy).
* **C106** Commitments open for what was committed and for nothing else. `Kdf/Hmac.lean` models HMAC and HKDF as the Go libraries compute them over an arbitrary hash function and proves them equal to RFC 2104/5869; `Kdf/Commit.lean` models commit.go. Hiding is a computational property and not stated. JSON is a parameter that keeps the two values.
* **C107** Key derivation is RFC 5869 and never returns less than was asked for. `Kdf/Hkdf.lean`; the hash functions are arbitrary functions of the sizes of SHA-1, SHA-224, SHA-256, SHA-384 and SHA-512.
* **C108** BLS key generation follows the draft's KeyGen and gives usable key pairs. `Bls381/KeyGen.lean`, on slices with their backing arrays, over the stored scalars (C90), points (C94, C96) and the hash of the curve (C103); `sha256` is an arbitrary function of its size.
* **C109** The legacy point type is the group of its curve and its encodings are faithful. `Curves/EcPoint.lean` is the file function by function over an `elliptic.Curve` whose methods satisfy the contract `Is C n G` (Go's and btcec's curves are libraries; the contract is the group law of a Weierstrass curve in the stored representation); theorems in `EcPointApi.lean` and `EcPointWire.lean`. `C109_secp256k1` shows the contract is met, by the curve of C68.
* **C110** The legacy scalar arithmetic is the prime field of the curve order. `Curves/EcScalar.lean`; K-256 and P-256 over `math/big`, BLS12-381 over the stored scalars of C90, Ed25519 over the documented behaviour of `edwards25519.Scalar`. The theorems quantify over the list of the four implementations.
* **C111** The BLS12-381 curve of the first-generation sharing is a group, and Feldman verification over it accepts exactly consistent shares. `Curves/V1Bls.lean` models the wrapper over the stored points of C94/C95 and Feldman.Verify on the point objects of C109. `Stands x y P` relates a pair of integers to a point of the subgroup; theorems in `V1BlsApi.lean` (wrapper, parameters, accessors) and `V1Feldman.lean` (the verification over any `elliptic.Curve` satisfying the contract of C109, and over this one). The methods of `Bls12381G2Curve` are unreachable through the accessor and not modelled; Hash is C101.
* **C112** The Ed25519 curve of the first-generation sharing is a group behind elliptic.Curve. `Curves/V1Ed.lean` models the wrapper over `EdLib` (`Curves/EdLib.lean`), the contract of filippo.io/edwards25519, which is a library: a group killed by 8 ell, a base point of order ell, 32-byte encodings with their decoder, and the encodings of the neutral element, the base point and the point with y = 0. `toyEd` meets the contract, and so does the curve itself (`Ed25519.lib`, C114). Theorems in `V1EdApi.lean`; the hash to the curve is a parameter.
* **C113** Single-party Ed25519 signatures: correct, non-malleable, proofs of knowledge of the key. `Curves/EdSig.lean` models both packages as one program with four parameters (`Suite`: hash, treatment of the seed, two maskings), instantiated as `rfc` and `nem`, over `EdLib`. The hash functions are arbitrary with 64 bytes of output. Theorems in `EdSigApi.lean`.
* **C114** Ed25519 points: a group with faithful encodings and a hash into the prime order subgroup. `Curves/EdField.lean` (the field, `sqrtRatio`, `elligatorEncode`), `EdHash.lean` (points as affine coordinates, encodings, `Set`, `Hash`); `EdGroup.lean` proves that the complete addition law on a twisted Edwards curve with non-square `d` is a commutative group over any field, `EdReal.lean` that the group of Ed25519 has order `8 ell` (the base point and a point of order eight give a divisor, at most two points for each second coordinate the bound). Field elements of the library are residues; its limb arithmetic is not modelled. `C114_contract` proves that this group with these encodings meets the contract `Ed.EdLib` that C112 and C113 assume. Theorems in `EdHashApi.lean`.
* **C115** Ed25519 scalars are the field of ell elements and act on points. `Curves/EdScalar.lean` models the wrapper over residues modulo `ell` (the library keeps scalars reduced) and points of the real curve (`EdReal`); arguments of interface type are an inductive type with the foreign and nil cases; `ModSqrt` is modelled by the formula of `math/big` for primes five modulo eight. Statements are on the integers `BigInt` returns. Theorems in `EdScalarApi.lean`.
* **C116** Threshold Ed25519 works from key generation to the verified signature on the real curve. `Ted25519/KeyGen.lean` models key and nonce generation over an `EdLib` (C114: met by the curve itself) with SHA-512 and SHA-256 as functions and HKDF as in C107; `KeyGenApi.lean` instantiates the abstract group of C18 with the subgroup of prime order, proves that the verification of C18 implies that of C113, and composes: deal, add nonces, sign, aggregate, verify.
* **C117** BLS12-377 scalars are the integers modulo a prime. `Curves/Bls377Prime.lean` holds a Pratt certificate for the order (generated, checked by the kernel). `Bls377Scalar.lean` is the wrapper over `big.Int`, with the nil pointer `ModInverse` and `ModSqrt` return kept as a value; `Bls377ScalarApi.lean` relates it to ZMod of the order. `big.Int.ModSqrt` is a function with its documented property.
* **C118** BLS12-377 points: group, encodings, coordinates, sums. `Curves/Bls377Point.lean` is the wrapper over a contract for a gnark-crypto group (`GLib`: order, the two encodings with their flag bits, and what SetBytes accepts); the loops of sumOfProductsPippenger run over values that may be nil or a panic, and are shown to compute the sum with the generic bucket lemmas of `Native/GroupAlg.lean`. `toyG` meets the contract.
* **C119** BLS12-377 pairing is bilinear and its target is a field. The pairing is a bilinear map with nonzero values into a field with twelve coordinates (`PLib`, `TLib`); `toyE`, `toyT` meet the contract in a field with p^12 elements for a prime p of 377 bits with r | p - 1.
* **C120** A trusted dealer hands out working key material. Modelled in Dkls/Dealer.lean: dealer.go function by function over the same output types as key generation, a failing read of pads is `none`. Proved in Dkls/DealerApi.lean with the existing predicate `Matching`, the key generation run (C28), the refresh histories (C29) and the signing theorem (C30). `C120_zero_share_violated`: nothing refuses a zero share.
* **C121** Protocol messages survive the wire. Modelled in Mpc/Wire.lean: the 23 encoders and 23 decoders as one encoder and one decoder over a table (type, version test, labels, registration), gob as a parameter `Gob` whose behaviour depends on the registration flag of the process; the flag is the state. Specification `IsGob` (Mpc/WireApi.lean) says what gob does, with a concrete instance. Negated: the labels are never checked, refresh accepts later versions, Alice's fresh process cannot decode Bob's second message of a key generation, Bob's output cannot be decoded after a restart, a nil message panics.
* **C122** Distributed key generation between two parties. Modelled in Gennaro/TwoParty.lean: genarro2p.go function by function around the participant of Gennaro/Model.lean. Proved in Gennaro/TwoPartyApi.lean from the honest run of n parties (C52) at n = t = 2. The counterparty's blinding generator is ignored and the identifier inside a share is not compared with the receiver's.
* **C123** Paillier keys are made of safe primes of the right size. Modelled in Paillier/SafePrime.lean: the loop over a prefix of the results of rand.Prime, ProbablyPrime a parameter. Proved by induction over the prefix, with C21 for the keys. rand.Prime (exact length, two top bits set) and a right primality test are hypotheses (PrimeSource, RightTest); 'ends with probability one' is expressed as: it ends at the first draw q with 2q+1 prime (C123_terminates). Negated: equal primes are accepted, and lengths 4 and 5 never end.
* **C124** The seed transfer over a stream. Modelled in OT/Stream.lean: each side as a process that reads messages in order, two FIFO queues, a step relation for any interleaving, gob as transparent with a flag for the registered types; the rounds are those of OT/Simplest.lean. Proved: all schedules end in one state (EndsIn: reachable, final, and reachable from everything reachable), which is that of the rounds; C24 gives the honest case. Negated: the peer of a refusing side waits for ever, as does the receiver on a curve other than K-256.
* **C125** The correlated transfer over a stream. Modelled in OT/KosStream.lean like C124, over the rounds of OT/Kos.lean; gob as transparent with a flag for the registered scalar type. Proved with C25. Negated: the receiver waits for ever for a sender that refuses, and in a process that has not registered the scalar type.
* **C126** Keyshare sets survive being stored. Modelled in Mpc/Keyshare.lean over the messages of Mpc/Wire.lean; encoding/json and gob are parameters with specifications (IsJson, IsGob), shown to be satisfiable. Proved with C121. Negated: the user's keyshare panics after a restart when asked first; loading checks neither that a keyshare is usable nor that the two are of one key; nil keyshares are accepted.
* **C127** Names of hashes and curves, numbers in hexadecimal. Modelled in Kdf/Names.lean with the tables of Kdf/Hkdf.lean; hex.DecodeString and SetBytes of the Go library as functions. Proved by induction over pairs of digits, against Nat.ofDigits. Negated: a converted name converted again is the empty name.
