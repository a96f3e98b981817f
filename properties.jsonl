{"id": "C01", "title": "Shamir split then combine returns the secret", "statement": "For every valid (threshold, limit), every non-zero secret and every random polynomial, Split returns exactly `limit` shares with identifiers 1..limit, and Combine on any list of at least `threshold` distinct of those shares (in any order) returns exactly the secret, provided none of the supplied shares has value zero; if a supplied honest share has value zero Combine returns an error, never a wrong secret.", "quantifier": "all fields, thresholds, limits, secrets, coefficient choices, and sub-lists/orders of shares", "why_tests_cant": "the number of share subsets, orders and coefficient choices is unbounded; a unit test samples a few", "anchors": ["crypto/sharing/shamir.go:Shamir.Split", "crypto/sharing/shamir.go:Shamir.Combine", "crypto/sharing/shamir.go:Shamir.interpolate", "crypto/sharing/polynomial.go:Polynomial.Evaluate"]}
{"id": "C02", "title": "Shamir Combine accepts exactly the well-formed share sets", "statement": "Combine returns a value if and only if it is given at least `threshold` shares, all with identifiers in 1..limit, pairwise distinct, with values that decode to non-zero scalars; every other input yields an error (never a value).", "quantifier": "all lists of arbitrary (possibly adversarial) shares", "why_tests_cant": "the set of malformed inputs is infinite", "anchors": ["crypto/sharing/shamir.go:ShamirShare.Validate", "crypto/sharing/shamir.go:Shamir.Combine"]}
{"id": "C03", "title": "Fewer than threshold Shamir shares reveal nothing", "statement": "For any set of fewer than `threshold` distinct identifiers and any observed values at those identifiers, for every candidate secret there is a dealer polynomial of the right degree that has that secret and produces exactly those values; with exactly threshold-1 shares that polynomial is unique, so every secret is equally likely.", "quantifier": "all fields, thresholds, identifier sets, observed values and candidate secrets", "why_tests_cant": "secrecy is a statement about all secrets at once", "anchors": ["crypto/sharing/shamir.go:Shamir.Split", "crypto/sharing/polynomial.go:Polynomial.Init"]}
{"id": "C04", "title": "Feldman verification accepts a share iff it lies on the committed polynomial", "statement": "For commitments produced by Split, Verify accepts every honest share, and accepts a share (id, v) if and only if v equals the dealer's polynomial at id; hence any threshold accepted shares with distinct non-zero ids interpolate to the dealt secret.", "quantifier": "all polynomials, identifiers, values", "why_tests_cant": "soundness quantifies over every forged share", "anchors": ["crypto/sharing/feldman.go:Feldman.Split", "crypto/sharing/feldman.go:FeldmanVerifier.Verify"]}
{"id": "C05", "title": "Pedersen verification: completeness and binding", "statement": "Verify accepts every honest (share, blind share) pair of the same identifier; and if it accepts two different pairs for one identifier under the same commitments then those pairs reveal the discrete log between the two generators (computational binding made explicit).", "quantifier": "all polynomials, blindings, identifiers and accepted pairs", "why_tests_cant": "quantifies over every forged pair", "anchors": ["crypto/sharing/pedersen.go:Pedersen.Split", "crypto/sharing/pedersen.go:PedersenVerifier.Verify"]}
{"id": "C06", "title": "Combining point shares interpolates in the exponent", "statement": "CombinePoints on at least threshold distinct honest shares returns secret*G; the Lagrange coefficients returned by LagrangeCoeffs for ids satisfy sum(coeff_i * f(id_i)) = f(0) for every polynomial f of degree < number of ids.", "quantifier": "all polynomials, id lists, share sub-lists", "why_tests_cant": "unbounded id sets and degrees", "anchors": ["crypto/sharing/shamir.go:Shamir.CombinePoints", "crypto/sharing/shamir.go:Shamir.LagrangeCoeffs"]}
{"id": "C07", "title": "Legacy (v1) Shamir split/combine round trip on byte strings", "statement": "For every secret byte string that is non-empty and smaller than the field modulus, v1 Combine of any list whose first `threshold` entries are distinct honest shares returns the canonical (leading-zero-stripped) big-endian encoding of the secret; later entries are ignored.", "quantifier": "all secrets, coefficient choices, share lists", "why_tests_cant": "unbounded subsets/orders and byte lengths", "anchors": ["crypto/sharing/v1/shamir.go:Shamir.Split", "crypto/sharing/v1/shamir.go:Shamir.Combine", "crypto/sharing/v1/polynomial.go"]}
{"id": "C08", "title": "v1 share addition is secret addition", "statement": "Adding two v1 shares with the same identifier gives a share of the sum of the two secrets: combining the pointwise sums equals (secret1+secret2) mod the field order; adding shares with different identifiers aborts.", "quantifier": "all pairs of sharings", "why_tests_cant": "universally quantified homomorphism", "anchors": ["crypto/sharing/v1/shamir.go:ShamirShare.Add"]}
{"id": "C09", "title": "v1 Feldman and Pedersen verifiers accept honest shares and reject off-polynomial shares", "statement": "With at least threshold verifiers, Verify returns true exactly when the share lies on the committed polynomial (for Pedersen: honest pairs always accepted); with fewer verifiers it returns an error.", "quantifier": "all dealers, shares", "why_tests_cant": "soundness over all forged shares", "anchors": ["crypto/sharing/v1/feldman.go", "crypto/sharing/v1/pedersen.go"]}
{"id": "C10", "title": "FROST DKG honest run: all parties agree and the shares reconstruct the key", "statement": "If all n participants follow the protocol, every participant ends Round2 successfully with the same verification key, that key equals (sum of all secrets)*G, each public share equals secret_share*G, and any threshold of secret shares interpolate to the group secret.", "quantifier": "all thresholds, limits, polynomials, nonces, hash functions", "why_tests_cant": "n-party, all randomness", "anchors": ["crypto/dkg/frost/dkg_round1.go", "crypto/dkg/frost/dkg_round2.go"]}
{"id": "C11", "title": "FROST DKG Round2 aborts on a share that does not match its sender's commitments", "statement": "Round2 returns an error if any peer's proof of knowledge fails, any commitment point is invalid, or the received share does not lie on the peer's committed polynomial at the receiver's identifier.", "quantifier": "all adversarial messages", "why_tests_cant": "adversarial inputs unbounded", "anchors": ["crypto/dkg/frost/dkg_round2.go:DkgParticipant.Round2"]}
{"id": "C12", "title": "FROST DKG proofs are bound to the session context", "statement": "A Round1 broadcast made under one context string must not verify under a different context string.", "quantifier": "all pairs of contexts", "why_tests_cant": "collision over all context strings", "anchors": ["crypto/dkg/frost/participant.go:NewDkgParticipant", "crypto/dkg/frost/dkg_round1.go"]}
{"id": "C13", "title": "Gennaro DKG honest run agreement", "statement": "If all participants are honest, every participant finishes Round3 with the same verification key = (sum of secrets)*G and threshold many secret shares interpolate to the sum of secrets.", "quantifier": "all thresholds, participant counts, polynomials", "why_tests_cant": "n-party, all randomness", "anchors": ["crypto/dkg/gennaro/round1.go", "crypto/dkg/gennaro/round2.go", "crypto/dkg/gennaro/round3.go"]}
{"id": "C14", "title": "Gennaro DKG public shares match the secret shares", "statement": "After Round4 the public share reported for participant j equals (secret share of j)*G.", "quantifier": "all honest runs", "why_tests_cant": "property of every run", "anchors": ["crypto/dkg/gennaro/round4.go"]}
{"id": "C15", "title": "Round-based protocol objects never run a round out of order or twice", "statement": "A participant object performs round k only if rounds 1..k-1 completed successfully, each at most once; any other call returns an error and leaves the object unchanged; nonces are used for at most one signature share.", "quantifier": "all call sequences", "why_tests_cant": "unbounded call histories", "anchors": ["crypto/dkg/frost/dkg_round1.go", "crypto/ted25519/frost/round1.go", "crypto/ted25519/frost/round2.go"]}
{"id": "C16", "title": "FROST threshold signing yields a valid Schnorr signature", "statement": "For every threshold set of signers holding shares of a key, if all are honest, Round3 succeeds for each and outputs the same signature (z,c), which verifies under the group key for the message.", "quantifier": "all signer subsets, nonces, messages, hash functions, keys", "why_tests_cant": "unbounded signer sets and randomness", "anchors": ["crypto/ted25519/frost/round1.go", "crypto/ted25519/frost/round2.go", "crypto/ted25519/frost/round3.go"]}
{"id": "C17", "title": "FROST signing rejects a bad partial signature", "statement": "Round3 returns an error whenever some cosigner's response z_j differs from the honest value for the commitments it sent.", "quantifier": "all adversarial responses", "why_tests_cant": "adversarial", "anchors": ["crypto/ted25519/frost/round3.go"]}
{"id": "C18", "title": "ted25519 threshold signatures aggregate to a verifying Ed25519-style signature", "statement": "For every sharing of a key and of a nonce, aggregating any threshold of partial signatures gives (R,s) satisfying s*G = R + c*A.", "quantifier": "all keys, nonces, subsets, messages", "why_tests_cant": "unbounded", "anchors": ["crypto/ted25519/ted25519/sigagg.go", "crypto/ted25519/ted25519/partialsig.go", "crypto/ted25519/ted25519/noncegen.go"]}
{"id": "C19", "title": "ted25519 VerifyVSS accepts every honestly dealt share", "statement": "For every honest dealing, every share verifies against the commitments.", "quantifier": "all dealings, thresholds, identifiers", "why_tests_cant": "fails only for large id^j", "anchors": ["crypto/ted25519/ted25519/keygen.go:VerifyVSS"]}
{"id": "C20", "title": "Schnorr proof of knowledge: completeness, special soundness, session binding", "statement": "Prove produces proofs that Verify accepts for every secret, base point, session id and hash; two accepted transcripts with the same first message and different challenges determine the witness; commit-then-reveal verification accepts honest proofs and rejects any proof whose (c,s) encoding differs from the committed one unless the hash collides.", "quantifier": "all witnesses, sessions, hashes", "why_tests_cant": "soundness is about all provers", "anchors": ["crypto/zkp/schnorr/schnorr.go"]}
{"id": "C21", "title": "Paillier decrypt inverts encrypt", "statement": "For a key built from distinct primes p,q with gcd(pq,(p-1)(q-1))=1, Decrypt(Encrypt(m)) = m for every m in [0,N) and every unit r; messages and ciphertexts out of range are rejected.", "quantifier": "all keys, messages, nonces", "why_tests_cant": "astronomically many", "anchors": ["crypto/paillier/paillier.go:NewSecretKey", "crypto/paillier/paillier.go:PublicKey.encrypt", "crypto/paillier/paillier.go:SecretKey.Decrypt"]}
{"id": "C22", "title": "Paillier homomorphisms", "statement": "Decrypt(Add(E(a),E(b))) = a+b mod N and Decrypt(Mul(a,E(b))) = a*b mod N.", "quantifier": "all keys, messages, nonces", "why_tests_cant": "universally quantified", "anchors": ["crypto/paillier/paillier.go:PublicKey.Add", "crypto/paillier/paillier.go:PublicKey.Mul"]}
{"id": "C23", "title": "Paillier square-freeness proofs: completeness", "statement": "PsfProve with a secret key whose modulus is coprime to its totient produces a proof that PsfVerify accepts; PsfVerify accepts only if every y_j^N = x_j mod N.", "quantifier": "all keys", "why_tests_cant": "universally quantified", "anchors": ["crypto/paillier/psf.go"]}
{"id": "C24", "title": "Seed OT correctness", "statement": "After an honest run, for every index the receiver's key equals the sender's key selected by its choice bit, the verification rounds succeed, and decrypting the encrypted message pair returns exactly the chosen message.", "quantifier": "all batch sizes, choices, randomness, hash functions", "why_tests_cant": "unbounded", "anchors": ["crypto/ot/base/simplest/ot.go"]}
{"id": "C25", "title": "Correlated OT extension correctness", "statement": "In an honest run the sender's consistency check passes, and for every j,k the two output shares add up to choice_j * input_{j,k}.", "quantifier": "all seeds, choices, inputs, PRG/hash functions", "why_tests_cant": "unbounded", "anchors": ["crypto/ot/extension/kos/kos.go"]}
{"id": "C26", "title": "KOS field multiplication is multiplication in GF(2)[X]/(X^256+X^10+X^5+X^2+1)", "statement": "binaryFieldMul(A,B) computes the product of the polynomials encoded by A and B modulo the polynomial, for all 32-byte inputs.", "quantifier": "all 2^512 inputs", "why_tests_cant": "exhaustive testing impossible", "anchors": ["crypto/ot/extension/kos/kos.go:binaryFieldMul"]}
{"id": "C27", "title": "Two-party multiplication yields additive shares of the product", "statement": "After an honest run of the multiplication protocol, Alice's and Bob's outputs sum to alpha*beta and Bob's check passes.", "quantifier": "all inputs and randomness", "why_tests_cant": "unbounded", "anchors": ["crypto/tecdsa/dklsv1/sign/multiply.go"]}
{"id": "C28", "title": "Two-party DKG produces one key", "statement": "After an honest DKG both parties hold the same public key equal to (skA*skB)*G.", "quantifier": "all randomness", "why_tests_cant": "unbounded", "anchors": ["crypto/tecdsa/dklsv1/dkg/dkg.go"]}
{"id": "C29", "title": "Key refresh preserves the public key and changes the shares consistently", "statement": "After refresh the product of the secret shares and the public key are unchanged, and refreshed shares remain usable for signing, for any number of successive refreshes.", "quantifier": "all keys, all numbers of refreshes", "why_tests_cant": "unbounded histories", "anchors": ["crypto/tecdsa/dklsv1/refresh/refresh.go"]}
{"id": "C30", "title": "Two-party ECDSA signing yields a valid signature", "statement": "After an honest signing run Bob's check values match, and the output (r,s) verifies as an ECDSA signature on the message under the joint key.", "quantifier": "all keys, nonces, messages", "why_tests_cant": "unbounded", "anchors": ["crypto/tecdsa/dklsv1/sign/sign.go"]}
{"id": "C31", "title": "Protocol runner terminates and delivers messages in order", "statement": "RunProtocol on two step-based parties always terminates, calls each party's steps in order each exactly once feeding each output to the other party, returns success iff no step failed, and stops at the first failing step; Result is available only after all steps completed.", "quantifier": "all step lists, step failures", "why_tests_cant": "unbounded step lists", "anchors": ["crypto/mpc/mpc.go:RunProtocol", "crypto/tecdsa/dklsv1/protocol.go:protoStepper.Next"]}
{"id": "C32", "title": "Accumulator state depends only on the net multiset of elements", "statement": "Any sequence of Add/Remove/AddElements/Update leaves the accumulator at value (prod of (y+alpha) over net elements)*V0; Add then Remove of the same element is the identity, and order does not matter.", "quantifier": "all operation sequences", "why_tests_cant": "unbounded histories", "anchors": ["crypto/accumulator/accumulator.go"]}
{"id": "C33", "title": "Membership witness verification is exactly the accumulator relation", "statement": "A witness issued for y verifies against the accumulator that issued it; Verify accepts (C,y) iff (y+alpha)C = V (and none is zero/identity).", "quantifier": "all elements, accumulators, keys", "why_tests_cant": "soundness over all forged witnesses", "anchors": ["crypto/accumulator/witness.go:MembershipWitness.Verify", "crypto/accumulator/witness.go:MembershipWitness.New"]}
{"id": "C34", "title": "Batch witness update tracks accumulator update", "statement": "If a witness verifies before Update(additions, deletions), then after BatchUpdate with the published coefficients it verifies against the updated accumulator, whenever y is not among the deletions; if y was deleted the update fails. The same for multi-batch updates over any number of epochs.", "quantifier": "all batches, all epoch sequences", "why_tests_cant": "unbounded", "anchors": ["crypto/accumulator/key.go:SecretKey.CreateCoefficients", "crypto/accumulator/witness.go:MembershipWitness.BatchUpdate", "crypto/accumulator/witness.go:MembershipWitness.MultiBatchUpdate"]}
{"id": "C35", "title": "Membership proof completeness", "statement": "A zero-knowledge membership proof generated from a valid witness finalizes to exactly the commitments hashed by the prover, so the recomputed challenge matches.", "quantifier": "all witnesses, randomness, challenges", "why_tests_cant": "unbounded", "anchors": ["crypto/accumulator/proof.go"]}
{"id": "C36", "title": "BLS signatures: completeness, uniqueness, aggregation", "statement": "Verify accepts Sign's output; for fixed key and message exactly one group element verifies; an aggregate of valid signatures on distinct messages verifies and messages that are not distinct are refused by the Basic scheme.", "quantifier": "all keys, messages, aggregate sizes", "why_tests_cant": "unbounded", "anchors": ["crypto/signatures/bls/bls_sig/usual_bls_sig.go", "crypto/signatures/bls/bls_sig/usual_bls.go"]}
{"id": "C37", "title": "BLS threshold signatures combine to the ordinary signature", "statement": "Combining partial signatures from any threshold distinct shares yields exactly the signature of the shared secret key; duplicates are refused.", "quantifier": "all keys, subsets", "why_tests_cant": "unbounded", "anchors": ["crypto/signatures/bls/bls_sig/usual_bls_sig.go:combineSigs", "crypto/signatures/bls/bls_sig/lib.go:thresholdizeSecretKey"]}
{"id": "C38", "title": "Bit vector behaves as a list of bits", "statement": "Any sequence of Append/Set/Insert/Delete/Element on a BitVector behaves like the corresponding operations on a list of bits, independent of the contents of spare bytes.", "quantifier": "all operation sequences", "why_tests_cant": "unbounded histories", "anchors": ["crypto/signatures/schnorr/mina/bitvector.go"]}
{"id": "C39", "title": "Mina signing verifies, and transaction binary encoding round-trips", "statement": "VerifyTransaction/VerifyMessage accept the signatures produced by the matching secret key; UnmarshalBinary(MarshalBinary(t)) = t for every transaction whose memo fits the 32-byte field.", "quantifier": "all keys, transactions, memos", "why_tests_cant": "unbounded", "anchors": ["crypto/signatures/schnorr/mina/keys.go", "crypto/signatures/schnorr/mina/txn.go"]}
{"id": "C40", "title": "Modular arithmetic helpers compute in Z/m", "statement": "Add, Mul, Neg, Exp, Inv return the canonical representative in [0,m) of the mathematical result (Inv: the inverse when it exists, an error otherwise).", "quantifier": "all integers and moduli", "why_tests_cant": "unbounded integers", "anchors": ["crypto/core/mod.go"]}
{"id": "C41", "title": "Field elements stay canonical and satisfy the field laws", "statement": "Every Element reachable through the API has value in [0,m); operations compute in Z/m; mixing moduli panics.", "quantifier": "all operation sequences", "why_tests_cant": "unbounded", "anchors": ["crypto/core/curves/field.go"]}
{"id": "C42", "title": "Hash-to-field byte helpers", "statement": "I2OSP/OS2IP are inverse for fitting values; ExpandMessageXmd returns exactly the requested number of bytes (or an error when more than 255 blocks are required) and every output byte block depends on b0 and its index as in RFC 9380.", "quantifier": "all messages, DSTs, lengths", "why_tests_cant": "unbounded", "anchors": ["crypto/core/hash.go"]}
{"id": "C43", "title": "Fiat-Shamir domain counter never repeats", "statement": "The counter prefixes used by Hash are pairwise distinct for the first 255^n iterations, never contain a zero byte.", "quantifier": "all iteration counts", "why_tests_cant": "unbounded", "anchors": ["crypto/internal/hash.go:ByteSub"]}
{"id": "C44", "title": "AES-SIV round trip and authenticity check", "statement": "Decrypt(Encrypt(pt,ad),ad) = pt for every plaintext and associated data; Decrypt succeeds only on ciphertexts whose embedded SIV equals S2V of the recovered plaintext, and in particular only on exactly the ciphertext Encrypt would produce.", "quantifier": "all keys, plaintexts, associated data", "why_tests_cant": "unbounded lengths", "anchors": ["crypto/daed/aes_siv.go"]}
{"id": "C45", "title": "Message-filter ante decorator blocks every disallowed message at any nesting depth", "statement": "A transaction containing a disallowed message type, directly or inside any depth of authz exec wrapping, is rejected and the next handler is not run; a transaction with none is passed on unchanged.", "quantifier": "all transactions, all nesting depths", "why_tests_cant": "unbounded nesting", "anchors": ["app/decorators/msg_filter_template.go"]}
{"id": "C46", "title": "Module parameters can only be changed by the authority", "statement": "For every sequence of messages, the stored x/did parameters change only through UpdateParams signed by the module authority; genesis export/import round-trips parameters.", "quantifier": "all message sequences", "why_tests_cant": "unbounded histories", "anchors": ["x/did/keeper/server.go", "x/did/keeper/genesis.go"]}
{"id": "C47", "title": "Secret sharing of vault data: Encrypt then Decrypt", "statement": "Decrypting the output of Encrypt with the right witness returns the original message.", "quantifier": "all messages, keys", "why_tests_cant": "all inputs", "anchors": ["crypto/secret/encrypt.go"]}
{"id": "C48", "title": "RFC 6979 octet conversions", "statement": "int2octets returns exactly rolen bytes for every value; it is injective on values below 256^rolen; bits2octets returns the reduced value's encoding.", "quantifier": "all integers and lengths", "why_tests_cant": "unbounded", "anchors": ["crypto/data.go"]}
{"id": "C49", "title": "Child key derivation separates inputs", "statement": "Distinct chain codes or distinct indices give distinct derivation inputs.", "quantifier": "all chain codes and indices", "why_tests_cant": "unbounded", "anchors": ["crypto/bip32"]}
{"id": "C50", "title": "Native field comparison, canonical decoding and exponentiation", "statement": "cmpHelper orders any two 256-bit values as integers; SetBytes accepts exactly the canonical encodings (value < modulus); Pow computes base^exp for all 256-bit exponents.", "quantifier": "all limb values", "why_tests_cant": "2^512 inputs", "anchors": ["crypto/core/curves/native/field.go"]}
{"id": "C51", "title": "Scalar comparison orders scalars by value", "statement": "For the native-field scalars (k256, p256, bls12-381, pallas), Cmp(a,b) is -1, 0 or 1 according to a<b, a=b, a>b as integers.", "quantifier": "all pairs of scalars", "why_tests_cant": "tests compare a few small values; the stored form is Montgomery-encoded", "anchors": ["crypto/core/curves/native/field.go:Cmp", "crypto/core/curves/k256_curve.go:Cmp"]}
{"id": "C52", "title": "Gennaro DKG aborts on shares inconsistent with the sender's commitments", "statement": "For arbitrary (adversarial) messages, Round2 and Round3 succeed only if every received share lies, at the receiver's identifier, on the polynomial committed to by its sender, and the verification key is the sum of the constant-term commitments and not the identity.", "quantifier": "all message maps", "why_tests_cant": "adversarial", "anchors": ["crypto/dkg/gennaro/round2.go", "crypto/dkg/gennaro/round3.go"]}
{"id": "C53", "title": "Signature serialisation is a canonical round trip", "statement": "SerializeSecp256k1Signature followed by DeserializeSecp256k1Signature returns the same (V, R, S) for every signature with V < 256, R < 2^256, S < 2^264; every 66 byte string deserialises to a signature that serialises to the same string; other lengths are refused.", "quantifier": "all signatures and byte strings", "why_tests_cant": "the value space is astronomically large and the short-integer cases (leading zero bytes) are rare", "anchors": ["crypto/signatures/ecdsa/ecdsa_signature.go:SerializeSecp256k1Signature", "crypto/signatures/ecdsa/ecdsa_signature.go:DeserializeSecp256k1Signature"]}
{"id": "C54", "title": "Serialised accumulator witnesses and deltas are canonical", "statement": "Parsing a marshalled membership witness (or update delta) returns the same point and scalar; strings of any other length are rejected, and with canonical point/scalar decoders two different strings never parse to the same value.", "quantifier": "all points, scalars and byte strings", "why_tests_cant": "ranges over all byte strings", "anchors": ["crypto/accumulator/witness.go:MembershipWitness.MarshalBinary", "crypto/accumulator/witness.go:MembershipWitness.UnmarshalBinary", "crypto/accumulator/witness.go:Delta.UnmarshalBinary"]}
{"id": "C55", "title": "Hash-to-curve expanders follow RFC 9380 and agree", "statement": "The native XMD and XOF expanders return the RFC 9380 expand_message output for every message, tag (long tags are hashed first) and positive length, and agree with core.ExpandMessageXmd on every request legal there.", "quantifier": "all messages, tags, output lengths, hash functions", "why_tests_cant": "test vectors fix a handful of lengths and tags; block-boundary arithmetic must hold for all", "anchors": ["crypto/core/curves/native/hash2field.go:ExpandMsgXmd", "crypto/core/curves/native/hash2field.go:ExpandMsgXof"]}
{"id": "C56", "title": "The oracle IBC middleware is transparent", "statement": "Every channel and packet callback of the oracle middleware behaves exactly as the wrapped application's: same arguments, same result, same state change. Sending a packet through the middleware must reach the wrapped channel keeper with the caller's port, channel, timeouts and data.", "quantifier": "all wrapped applications, states, channels, packets and argument values", "why_tests_cant": "the wrapped application and channel keeper are arbitrary; mock tests fix one return value and usually identical port/channel strings", "anchors": ["x/oracle/ibc_middleware.go"]}
{"id": "C57", "title": "InitializeController stores the submitted records", "statement": "After a successful InitializeController the assertion, keyshare and verification entries contained in the message are in the module's state; entries of earlier calls are never lost or altered.", "quantifier": "all message sequences and payload contents", "why_tests_cant": "unbounded histories, and every combination of well-formed and malformed entries", "anchors": ["x/did/keeper/server.go:InitializeController"]}
{"id": "C58", "title": "Credential linking and unlinking keep an exact credential set", "statement": "Link adds a credential once per (id, origin), Unlink removes it again; after any sequence of Link/Unlink calls the stored list for an origin is the set of linked and not yet unlinked credentials, and a second Link of the same credential is refused.", "quantifier": "all histories of Link/Unlink", "why_tests_cant": "unbounded histories including repeated and interleaved calls", "anchors": ["internal/motr/models/credential.go"]}
{"id": "C59", "title": "Authenticator clone detection is sound", "statement": "The stored signature counter never decreases, and the clone warning is raised exactly when a non-increasing counter is presented (with the WebAuthn exception for both zero); a replayed assertion is always flagged.", "quantifier": "all histories of counter updates", "why_tests_cant": "unbounded histories", "anchors": ["internal/motr/models/authenticator.go"]}
{"id": "C60", "title": "Email and phone identifiers", "statement": "An identifier is accepted exactly when it parses by its stated grammar; two identifiers compare equal exactly when they have the same method and the same hash; email and phone identifiers never coincide unless the hash function collides.", "quantifier": "all strings and hash functions", "why_tests_cant": "ranges over all strings", "anchors": ["pkg/did/identifier.go"]}
{"id": "C61", "title": "Loading a saved folder tree restores it and stays inside the target directory", "statement": "A folder that was saved as an IPFS node can be loaded again, giving the same file tree, and loading never creates or changes paths outside the target folder.", "quantifier": "all directory trees with arbitrary entry names", "why_tests_cant": "unbounded trees, adversarial names", "anchors": ["pkg/fs/folder.go:Folder", "pkg/fs/file.go:File"]}
{"id": "C62", "title": "File write, append and copy", "statement": "Reading after Write returns exactly the data; WriteAppend appends; Touch creates without changing; Copy makes the destination equal to the source and leaves the source and every other path unchanged.", "quantifier": "all file-system states, paths and contents", "why_tests_cant": "aliasing (source = destination) and partial failures range over all states", "anchors": ["pkg/fs/file.go"]}
{"id": "C63", "title": "The signing actor answers every request exactly once", "statement": "For every request the controller actor sends exactly one response: the signature if both keyshares and the protocol succeed, otherwise an error; it never crashes. A signature it sends verifies under the public key of the user keyshare.", "quantifier": "all keyshares, messages and protocol outcomes", "why_tests_cant": "failures inside the protocol depend on randomness and on the peer; every combination of failures must be covered", "anchors": ["internal/actor/controller.go:runSignProtocol"]}
{"id": "C64", "title": "Public-key signature verification", "statement": "VerifySignature returns true exactly for 66 byte signatures satisfying the ECDSA equation under the key, returns false (never crashes) otherwise, and accepts every signature the keyshare protocols produce for the set's public key over the whole life cycle (generation, refreshes, signing). No signature is accepted under a degenerate key.", "quantifier": "all key strings, messages, signature strings, and all protocol randomness", "why_tests_cant": "ranges over all byte strings and all protocol runs", "anchors": ["x/did/types/pubkey.go:VerifySignature", "x/did/types/pubkey.go:BuildEcPoint", "crypto/core/curves/ecdsa.go:VerifyEcdsa", "crypto/core/curves/k256_curve.go:Koblitz256"]}
{"id": "C65", "title": "Membership through the primary key", "statement": "An accumulator created from values contains exactly them; UpdateAccumulator adds and removes exactly the named values; CreateWitness for a value yields a witness that VerifyWitness accepts, exactly for members; a witness stops verifying once the accumulator changes.", "quantifier": "all value lists, keys, update sequences", "why_tests_cant": "ranges over all sets of values and all keys", "anchors": ["crypto/secret/key.go"]}
{"id": "C66", "title": "K-256 and P-256 scalars are the field of integers modulo the group order", "statement": "Every ScalarK256/ScalarP256 method computes in Z/q: New and SetBigInt give the residue of any integer, Add/Sub/Mul/Neg/Square/Cube/Double/MulAdd the ring operations, Invert and Div succeed exactly on non-zero divisors with the quotient, Sqrt exactly on squares with a root, SetBytes exactly on 32-byte big-endian values below q with Bytes as inverse, SetBytesWide and hash-to-scalar reduce their whole input, IsZero/IsOne/IsOdd/IsEven read the value.", "quantifier": "all scalars, integers and byte strings", "why_tests_cant": "the carry chains of 64-bit limb code fail only on rare limb patterns; 2^256 scalars", "anchors": ["crypto/core/curves/k256_curve.go:ScalarK256", "crypto/core/curves/p256_curve.go:ScalarP256", "crypto/core/curves/native/field.go", "crypto/core/curves/native/k256/fq", "crypto/core/curves/native/p256/fq"]}
{"id": "C67", "title": "Pallas field elements and scalars", "statement": "Arithmetic, Invert, Sqrt and Exp of the pasta fields compute in Z/p; SetBytes accepts exactly canonical encodings and inverts Bytes; SetBigInt gives the residue; IsOdd is the parity of the value.", "quantifier": "all field elements, integers and 32-byte strings", "why_tests_cant": "the failing inputs are confined to intervals of size about 2^63 and to values above the modulus", "anchors": ["crypto/core/curves/native/pasta/fp/fp.go", "crypto/core/curves/native/pasta/fq/fq.go", "crypto/core/curves/pallas_curve.go:ScalarPallas"]}
{"id": "C68", "title": "K-256 and P-256 point arithmetic is the group law, without exceptional cases", "statement": "Add, Double, Neg, Sub, Mul and SumOfProducts of points, IsIdentity and Equal compute in the group of points of the curve: for every pair of points (equal, opposite or neutral ones included), every projective representation and every scalar; SumOfProducts equals the sum of the multiples for lists of every length and fails on unequal lengths.", "quantifier": "all points, representations, scalars and list lengths", "why_tests_cant": "addition formulas fail on special pairs (P+P, P-P, neutral) and windowed multiplication on rare nibble patterns; 2^512 pairs", "anchors": ["crypto/core/curves/native/point.go", "crypto/core/curves/native/k256/point.go", "crypto/core/curves/native/p256/point.go", "crypto/core/curves/k256_curve.go:PointK256", "crypto/core/curves/p256_curve.go:PointP256"]}
{"id": "C69", "title": "The groups of K-256 and P-256 have prime order equal to the scalar modulus", "statement": "The set of points accepted by the curve has exactly n elements, n the modulus of the scalar type; every point is a multiple of the generator, n annihilates every point, and multiples i*P and j*P of a non-neutral P agree exactly when i and j agree modulo n.", "quantifier": "all points and all integers", "why_tests_cant": "the group has about 2^256 elements", "anchors": ["crypto/core/curves/native/k256/point.go:k256PointParamsInit", "crypto/core/curves/native/p256/point.go", "crypto/core/curves/native/k256/fq/fq.go", "crypto/core/curves/native/p256/fq/fq.go"]}
{"id": "C70", "title": "Coordinates and SEC 1 encodings of K-256 and P-256 points", "statement": "Affine coordinates do not depend on the projective representation; IsOnCurve and Set accept exactly the points of the curve; compressed and uncompressed encodings are SEC 1 and decoding inverts them for every point other than the neutral element; decoding is characterised for every byte string, including the deviations (non-points decode to the neutral element, P-256's encoding of the neutral element decodes to another point, uncompressed decoding checks nothing, IsNegative is not the encoded sign).", "quantifier": "all points and all byte strings", "why_tests_cant": "2^264 strings; half of all abscissas are no points", "anchors": ["crypto/core/curves/k256_curve.go:FromAffineCompressed", "crypto/core/curves/p256_curve.go:FromAffineCompressed", "crypto/core/curves/native/point.go:SetBigInt", "crypto/core/curves/native/point.go:BigInt"]}
{"id": "C71", "title": "The elliptic.Curve wrappers of K-256 and P-256", "statement": "Add, Double, ScalarMult and ScalarBaseMult on integer coordinates return the coordinates of the sum or multiple for every pair naming a point and nil otherwise; IsOnCurve is true exactly of pairs naming a point (with the departures: (0,0) and unreduced coordinates are accepted, scalars at or above the order give nil, longer scalars are truncated).", "quantifier": "all integer pairs and byte strings", "why_tests_cant": "unbounded integers and byte strings", "anchors": ["crypto/core/curves/k256_curve.go:Koblitz256", "crypto/core/curves/p256_curve.go:NistP256"]}
{"id": "C72", "title": "Inner product arguments: honest proofs verify, and only for their statement", "statement": "For vectors of equal power-of-two length covered by the generators the inner product prover returns a proof that the verifier accepts for P = g^a h^b u^<a,b> and for no other P, for every transcript none of whose drawn challenges is zero; the verifier accepts exactly the proofs satisfying the paper's final equation; bad lengths are refused; a proof with 63 or more cross terms, or (in the range-proof variant) a number of cross terms that does not match, crashes the verifier.", "quantifier": "all vectors, generators, statements, proofs, transcripts and lengths", "why_tests_cant": "the recursion depth and all vectors vary; the verifier's s-vector is computed by an index formula that must agree with the prover's recursive folding at every size", "anchors": ["crypto/bulletproof/ipp_prover.go:Prove", "crypto/bulletproof/ipp_prover.go:recursive", "crypto/bulletproof/ipp_verifier.go:Verify", "crypto/bulletproof/ipp_verifier.go:VerifyFromRangeProof", "crypto/bulletproof/helpers.go", "crypto/bulletproof/generators.go"]}
{"id": "C73", "title": "Range proofs: which values are provable, and which proofs verify", "statement": "On curves with little-endian scalars every value in [0,2^n) committed as g^v h^gamma gets a proof that verifies; v = 2^n gets a proof that is rejected, larger values are refused; on curves with big-endian scalars (K-256, P-256, BLS12-381) no proof of a non-zero value in range of up to 128 bits verifies; the verifier accepts exactly the proofs satisfying the two equations of the paper; a bit length below 2 or a wrong number of cross terms crashes it, other bit lengths that are not powers of two never yield a proof.", "quantifier": "all values, blinding factors, bit lengths, generators, proofs, randomness and transcripts", "why_tests_cant": "2^n values, every randomness and every proof byte string; the endianness defect hides behind curve choice", "anchors": ["crypto/bulletproof/range_prover.go:Prove", "crypto/bulletproof/range_prover.go:getaL", "crypto/bulletproof/range_verifier.go:Verify"]}
{"id": "C74", "title": "Batched range proofs", "statement": "A batch of m >= 2 values in [0,2^n), n*m a power of two covered by the generators, with a blinding factor each, gets a proof that the batch verifier accepts for the m commitments (little-endian curves); on big-endian curves the answer is that of a random polynomial identity, and it is true only if the challenge is a root; the verifier accepts exactly the proofs satisfying the two equations of the paper; a batch of one value crashes both sides, fewer blinding factors than values crash the prover, values above 2^n are refused.", "quantifier": "all batches, bit lengths, proofs, randomness and transcripts", "why_tests_cant": "batch size, bit length and values are unbounded", "anchors": ["crypto/bulletproof/range_batch_prover.go:BatchProve", "crypto/bulletproof/range_batch_verifier.go:VerifyBatched"]}
{"id": "C75", "title": "Encodings of inner product and range proofs", "statement": "MarshalBinary followed by UnmarshalBinary returns the same proof, for every proof with equally many left and right cross terms; UnmarshalBinary accepts nothing but such encodings (where scalars and points have one encoding each); input shorter than the fixed part never yields a proof and can crash.", "quantifier": "all proofs and all byte strings", "why_tests_cant": "byte strings of every length and proofs of every depth", "anchors": ["crypto/bulletproof/ipp_prover.go:MarshalBinary", "crypto/bulletproof/ipp_prover.go:UnmarshalBinary", "crypto/bulletproof/range_prover.go:MarshalBinary", "crypto/bulletproof/range_prover.go:UnmarshalBinary"]}
{"id": "C76", "title": "BBS+ signatures: what verifies, and what a signature does not bind", "statement": "An issued signature verifies under the issuer's public key for every key, message list and generator count (unless the signature point is the identity); Verify accepts exactly when the pairing equation over the generators holds and never panics; empty or too long message lists and the zero key are refused. Because all generators of a key are equal, a signature binds only the sum of the messages: from one signature anyone obtains one on any other message list, and it verifies unchanged on every list with the same sum.", "quantifier": "all keys, messages, generator counts, signatures", "why_tests_cant": "the acceptance condition ranges over all group elements and message vectors; a test of one tampered message misses reorderings and equal sums", "anchors": ["crypto/signatures/bbs/secret_key.go:Sign", "crypto/signatures/bbs/public_key.go:Verify", "crypto/signatures/bbs/signature.go"]}
{"id": "C77", "title": "BBS+ message generators", "statement": "Init refuses negative counts, and otherwise hashes the 192 byte public key, five zero bytes and the count; Get returns the same point for every index from the smallest integer up to the count and nil above; two parties with the same key and count agree on all generators. Hence the generators of one key are not independent.", "quantifier": "all keys, counts and indices", "why_tests_cant": "every index of every count", "anchors": ["crypto/signatures/bbs/message_generators.go:Init", "crypto/signatures/bbs/message_generators.go:Get"]}
{"id": "C78", "title": "Blind BBS+ signatures", "statement": "For every split of the messages into hidden and known ones, in every map order, the holder's context is accepted by the signer and the unblinded result verifies on the whole list; the context verifier accepts exactly when the challenge is the hash of the recomputed commitment; two answers to different challenges determine an opening; a signer that signs two requests with the same known messages reuses e and s; contexts with a wrong number of responses crash the signer, a hidden index equal to the count crashes the holder, other indices out of range are refused by the holder.", "quantifier": "all message lists, splits, map orders, keys, nonces, randomness, contexts", "why_tests_cant": "map iteration order is random and the split of indices is arbitrary", "anchors": ["crypto/signatures/bbs/blind_signature_context.go:NewBlindSignatureContext", "crypto/signatures/bbs/blind_signature_context.go:Verify", "crypto/signatures/bbs/blind_signature_context.go:ToBlindSignature", "crypto/signatures/bbs/blind_signature.go:ToUnblinded"]}
{"id": "C79", "title": "Proofs of knowledge of a BBS+ signature", "statement": "A holder of a valid signature can disclose any subset of the messages: the proof verifies for the disclosed set in every map order; the verifier accepts exactly when the pairing equation and the challenge equation hold and panics exactly on malformed sets or too few responses; two accepted answers to different challenges yield a signature (or a degenerate relation) on messages that contain the disclosed ones; additional responses are ignored; because all generators of a key are equal, a holder can prove the disclosure of arbitrary messages.", "quantifier": "all signatures, message lists, disclosure sets, map orders, nonces, transcripts, proofs", "why_tests_cant": "soundness and completeness quantify over all proofs and all challenges", "anchors": ["crypto/signatures/bbs/pok_signature.go:NewPokSignature", "crypto/signatures/bbs/pok_signature.go:GenerateProof", "crypto/signatures/bbs/pok_signature_proof.go:GetChallengeContribution", "crypto/signatures/bbs/pok_signature_proof.go:VerifySigPok", "crypto/signatures/bbs/pok_signature_proof.go:Verify", "crypto/signatures/common/proof_committed_builder.go", "crypto/signatures/common/proof_message.go"]}
{"id": "C80", "title": "HMAC-DRBG follows the standard; only whole blocks can be read", "statement": "Instantiation and reseeding compute HMAC_DRBG_Update of NIST SP 800-90A on the concatenated seed material (so the boundaries between entropy, nonce and personalization do not matter); reading a positive multiple of the block size fills the buffer with the standard's blocks, reports its length and leaves the standard's state; an empty read changes nothing; any other length panics; shorter outputs are prefixes of longer ones.", "quantifier": "all seeds, buffers, lengths and generator states, any HMAC", "why_tests_cant": "every length and every reachable state", "anchors": ["crypto/signatures/common/hmacdrbg.go:NewHmacDrbg", "crypto/signatures/common/hmacdrbg.go:Read", "crypto/signatures/common/hmacdrbg.go:Reseed"]}
{"id": "C81", "title": "Encodings of BBS+ signatures, contexts, proofs and keys", "statement": "Signatures are 112 bytes, contexts 80+32k, proofs 208+32k, keys 32 and 96; decoding inverts encoding, refuses every other length, never panics, and (element decoding being canonical) accepts only encodings of its result.", "quantifier": "all values and all byte strings", "why_tests_cant": "byte strings of every length", "anchors": ["crypto/signatures/bbs/signature.go:UnmarshalBinary", "crypto/signatures/bbs/blind_signature.go:UnmarshalBinary", "crypto/signatures/bbs/blind_signature_context.go:UnmarshalBinary", "crypto/signatures/bbs/pok_signature_proof.go:UnmarshalBinary", "crypto/signatures/bbs/secret_key.go:UnmarshalBinary", "crypto/signatures/bbs/public_key.go:UnmarshalBinary"]}
{"id": "C82", "title": "The Pallas point operations are the group law", "statement": "Add, Sub, Neg, Double, Mul, IsIdentity, Equal and SumOfProducts compute the group law of y\u00b2=x\u00b3+5 over the Pasta base field on all points, in every Jacobian representation, equal, opposite and neutral operands included; a sum of products of lists of any length is the sum of the multiples, and unequal lengths give nil; IsOnCurve holds exactly of the triples that represent a point.", "quantifier": "all points, all representations, all scalars, all list lengths", "why_tests_cant": "about 2^254 points and lists of every length; representation-dependent branches", "anchors": ["crypto/core/curves/pallas_curve.go:Add", "crypto/core/curves/pallas_curve.go:Double", "crypto/core/curves/pallas_curve.go:Mul", "crypto/core/curves/pallas_curve.go:Equal", "crypto/core/curves/pallas_curve.go:SumOfProducts", "crypto/core/curves/pallas_curve.go:sumOfProductsPippengerPallas", "crypto/core/curves/pallas_curve.go:IsOnCurve"]}
{"id": "C83", "title": "Pallas has prime order q", "statement": "The group of points has exactly q elements, q the prime modulus of the scalar field; Generator generates it; multiples of a non-neutral point by two scalars are Equal exactly when the scalars are.", "quantifier": "all points and scalars", "why_tests_cant": "a statement about all 2^254 points", "anchors": ["crypto/core/curves/pallas_curve.go:Generator", "crypto/core/curves/pallas_curve.go:Mul", "crypto/core/curves/pallas_curve.go:Equal"]}
{"id": "C84", "title": "Pallas point encodings round-trip", "statement": "Every point decodes from its compressed and uncompressed encodings to itself, different byte strings decode to different points, and only encodings of points are accepted.", "quantifier": "all points and all byte strings", "why_tests_cant": "every point and every 32 or 64 byte string", "anchors": ["crypto/core/curves/pallas_curve.go:ToAffineCompressed", "crypto/core/curves/pallas_curve.go:ToAffineUncompressed", "crypto/core/curves/pallas_curve.go:FromAffineCompressed", "crypto/core/curves/pallas_curve.go:FromAffineUncompressed"]}
{"id": "C85", "title": "Pallas coordinates as integers", "statement": "Set(x,y) yields the point with these coordinates and refuses all others (with y=0: the point with even ordinate, the neutral element for x=0); IsNegative is the parity of the ordinate; IsOnCurve, Add, Double, ScalarMult and ScalarBaseMult of the elliptic.Curve interface compute the group law on affine integer coordinates for all points and all big-endian scalars.", "quantifier": "all integers, points and scalars of every length", "why_tests_cant": "all coordinates and scalars", "anchors": ["crypto/core/curves/pallas_curve.go:Set", "crypto/core/curves/pallas_curve.go:IsNegative", "crypto/core/curves/pallas_curve.go:IsOnCurve", "crypto/core/curves/pallas_curve.go:Add", "crypto/core/curves/pallas_curve.go:Double", "crypto/core/curves/pallas_curve.go:ScalarMult", "crypto/core/curves/pallas_curve.go:ScalarBaseMult"]}
{"id": "C86", "title": "Hashing to Pallas", "statement": "Hash succeeds on every message and returns the sum of the images of two field elements, read from 128 bytes of RFC 9380 expand_message_xmd, under the simplified SWU map (exceptional cases included) followed by the 3-isogeny; the isogeny map sends every affine point of the isogenous curve to an affine point of Pallas; each field element has exactly one image.", "quantifier": "all messages, field elements and points of the isogenous curve; any digest function", "why_tests_cant": "every field element, in particular the exceptional ones", "anchors": ["crypto/core/curves/pallas_curve.go:Hash", "crypto/core/curves/pallas_curve.go:mapSswu", "crypto/core/curves/pallas_curve.go:isoMap", "crypto/core/curves/curve.go:expandMsgXmd"]}
{"id": "C87", "title": "Hashing to secp256k1 and P-256", "statement": "Point.Hash succeeds on every message, with every hash function, and returns the sum of the images of the two field elements RFC 9380 derives from the message and the tag (expand_message, 48 bytes big-endian each) under the simplified SWU map with Z=-11 followed by the 3-isogeny (secp256k1) or with Z=-10 (P-256); every field element, the exceptional ones included, has exactly one image and it is a point of the curve.", "quantifier": "all messages, tags of at most 255 bytes, hash functions and field elements", "why_tests_cant": "every field element, in particular the exceptional ones, and both branches of the square-root test", "anchors": ["crypto/core/curves/native/osswu.go:Osswu3mod4", "crypto/core/curves/native/isogeny.go:Map", "crypto/core/curves/native/isogeny.go:computeIsoK", "crypto/core/curves/native/k256/point.go:Hash", "crypto/core/curves/native/p256/point.go:Hash", "crypto/core/curves/native/point.go:Hash"]}
{"id": "C88", "title": "Hash-to-curve tags separate domains and Random depends on its reader", "statement": "The tag under which a point is hashed names the curve, the expander and the hash function, so that no two of the offered hashers share one; Random returns the hash of the bytes read and reports a reader that fails or is short.", "quantifier": "all curves and hashers, all readers", "why_tests_cant": "all readers, and a table of constructors each of which looks right on its own", "anchors": ["crypto/core/curves/native/point.go:Hash", "crypto/core/curves/native/point.go:EllipticPointHasherShake256", "crypto/core/curves/native/point.go:Random", "crypto/core/curves/k256_curve.go:Random", "crypto/core/curves/p256_curve.go:Random"]}
{"id": "C89", "title": "The base field of BLS12-381 is arithmetic modulo p", "statement": "Every operation on base-field elements of BLS12-381 (addition, subtraction, multiplication, squaring, negation, powers, inversion, square root, comparisons, byte and integer conversions) computes what the integers modulo the 381-bit prime prescribe, on every input including 0, 1 and p-1; encodings are canonical and decoding inverts encoding.", "quantifier": "all field elements, all 48-byte strings, all integers", "why_tests_cant": "carry and borrow patterns of six 64-bit limbs cannot be enumerated", "anchors": ["crypto/core/curves/native/bls12381/fp.go:Add", "crypto/core/curves/native/bls12381/fp.go:Mul", "crypto/core/curves/native/bls12381/fp.go:Invert", "crypto/core/curves/native/bls12381/fp.go:Sqrt", "crypto/core/curves/native/bls12381/fp.go:SetBytes", "crypto/core/curves/native/bls12381/fp.go:SetBigInt"]}
{"id": "C90", "title": "BLS12-381 scalars are the integers modulo the group order", "statement": "The scalars of BLS12-381 compute the field operations of the integers modulo the group order on every input; every value they return is in canonical form; Invert and Div refuse zero; encodings round trip and only canonical ones are accepted.", "quantifier": "all scalars, byte strings and integers", "why_tests_cant": "the failing input is a single value of 2^255", "anchors": ["crypto/core/curves/native/bls12381/fq.go:Bls12381FqNew", "crypto/core/curves/native/bls12381/fq.go:Neg", "crypto/core/curves/bls12381_curve.go:ScalarBls12381"]}
{"id": "C91", "title": "The quadratic extension field of BLS12-381 is a field and its operations compute in it", "statement": "Every operation on elements of the field of p^2 elements (sum, product, square, negation, powers, inverse, square root, Frobenius map, tests, sign, conditional move) computes what the field with u^2 = -1 prescribes, on every input; a square root is found exactly for the squares; zero is reported by inversion; of an element and its negative exactly one is called the larger.", "quantifier": "all pairs of base-field elements and all exponents", "why_tests_cant": "2^762 inputs, and the failing ones (squares of special shape, zero coordinates) are not hit by sampling", "anchors": ["crypto/core/curves/native/bls12381/fp2.go:Mul", "crypto/core/curves/native/bls12381/fp2.go:Square", "crypto/core/curves/native/bls12381/fp2.go:Sqrt", "crypto/core/curves/native/bls12381/fp2.go:Invert", "crypto/core/curves/native/bls12381/fp2.go:Sgn0", "crypto/core/curves/native/bls12381/fp2.go:LexicographicallyLargest"]}
{"id": "C92", "title": "The degree six and degree twelve extension fields of BLS12-381 compute in the tower", "statement": "Every operation on elements of the fields of p^6 and p^12 elements (sum, product, the sparse products of the Miller loop, square, inverse, Frobenius map, conjugation, tests) computes what the tower v^3 = 1 + u, w^2 = v prescribes, on every input; the tests for zero, one and equality answer yes exactly when the elements are equal.", "quantifier": "all field elements", "why_tests_cant": "the failing elements form a set of negligible density", "anchors": ["crypto/core/curves/native/bls12381/fp6.go:Mul", "crypto/core/curves/native/bls12381/fp6.go:IsOne", "crypto/core/curves/native/bls12381/fp6.go:Invert", "crypto/core/curves/native/bls12381/fp6.go:FrobeniusMap", "crypto/core/curves/native/bls12381/fp12.go:Mul", "crypto/core/curves/native/bls12381/fp12.go:MulByABD", "crypto/core/curves/native/bls12381/fp12.go:Invert", "crypto/core/curves/native/bls12381/fp12.go:FrobeniusMap"]}
{"id": "C93", "title": "Elements of the pairing target group behave like a group of prime order", "statement": "The final exponentiation sends every non-zero value into the subgroup of order q by a fixed power prime to q; on that subgroup the sum, difference, double, negation, square, tests, multiplication by a scalar and the encoding are those of the group; encodings round trip; decoding rejects malformed strings; the scalar view creates the integers it is asked for.", "quantifier": "all group elements, all byte strings, all scalars", "why_tests_cant": "one wrong table entry or flag affects inputs tests do not compute by hand", "anchors": ["crypto/core/curves/native/bls12381/gt.go:FinalExponentiation", "crypto/core/curves/native/bls12381/gt.go:Mul", "crypto/core/curves/native/bls12381/gt.go:Square", "crypto/core/curves/native/bls12381/gt.go:SetBytes", "crypto/core/curves/native/bls12381/gt.go:IsOne", "crypto/core/curves/bls12381_curve.go:ScalarBls12381Gt"]}
{"id": "C94", "title": "G1 of BLS12-381 is a group of prime order and its operations compute in it", "statement": "On every stored point, whatever its projective coordinates, sum, difference, double, negation, tests, scalar multiplication, multi-scalar multiplication and the affine form compute in the group of the curve y^2 = x^3 + 4 over the base field, doubled and opposite points and the neutral element included; the generator has the prime order q of the scalar field; the subgroup test accepts exactly the multiples of the generator; clearing the cofactor takes every point of the curve into the subgroup and loses nothing on it.", "quantifier": "all points of the curve in all projective coordinates, all scalars, lists of any length", "why_tests_cant": "the curve has 2^381 points; the exceptional cases of the formulas and the points of small order outside the subgroup are not hit by sampling", "anchors": ["crypto/core/curves/native/bls12381/g1.go:Add", "crypto/core/curves/native/bls12381/g1.go:Double", "crypto/core/curves/native/bls12381/g1.go:Mul", "crypto/core/curves/native/bls12381/g1.go:SumOfProducts", "crypto/core/curves/native/bls12381/g1.go:InCorrectSubgroup", "crypto/core/curves/native/bls12381/g1.go:ClearCofactor", "crypto/core/curves/native/bls12381/g1.go:ToAffine"]}
{"id": "C95", "title": "Encodings of G1 points are faithful and only the subgroup is accepted", "statement": "The compressed and uncompressed forms of a point of the subgroup decode to that point; points have equal encodings exactly if they are equal; every accepted byte string is the encoding of the point it decodes to, which lies in the subgroup; the big integer coordinates are the affine coordinates, and reading them back gives the point or an error when it is not in the subgroup.", "quantifier": "all points, all byte strings of the right length, all pairs of integers", "why_tests_cant": "invalid encodings and points outside the subgroup must be refused for every one of 2^384 and 2^768 strings", "anchors": ["crypto/core/curves/native/bls12381/g1.go:ToCompressed", "crypto/core/curves/native/bls12381/g1.go:FromCompressed", "crypto/core/curves/native/bls12381/g1.go:ToUncompressed", "crypto/core/curves/native/bls12381/g1.go:FromUncompressed", "crypto/core/curves/native/bls12381/g1.go:BigInt", "crypto/core/curves/native/bls12381/g1.go:SetBigInt"]}
{"id": "C96", "title": "G2 of BLS12-381 is a group of prime order and its operations compute in it", "statement": "On every stored point, whatever its projective coordinates, sum, difference, double, negation, tests, scalar multiplication, multi-scalar multiplication, the endomorphism and the affine form compute in the group of the twisted curve y^2 = x^3 + 4(1+u) over the quadratic extension field; the generator has the prime order q of the scalar field; the subgroup test accepts exactly the multiples of the generator; clearing the cofactor takes every point of the curve into the subgroup and loses nothing on it.", "quantifier": "all points of the curve in all projective coordinates, all scalars, lists of any length", "why_tests_cant": "the curve has 2^762 points; the points of small order are 2^-500 of them; one wrong endomorphism constant is invisible on generic tests of the group law", "anchors": ["crypto/core/curves/native/bls12381/g2.go:Add", "crypto/core/curves/native/bls12381/g2.go:Double", "crypto/core/curves/native/bls12381/g2.go:Mul", "crypto/core/curves/native/bls12381/g2.go:SumOfProducts", "crypto/core/curves/native/bls12381/g2.go:InCorrectSubgroup", "crypto/core/curves/native/bls12381/g2.go:ClearCofactor", "crypto/core/curves/native/bls12381/g2.go:psi", "crypto/core/curves/native/bls12381/g2.go:psi2", "crypto/core/curves/native/bls12381/g2.go:ToAffine"]}
{"id": "C97", "title": "Encodings of G2 points are faithful and only the subgroup is accepted", "statement": "The compressed and uncompressed forms of a point of the subgroup decode to that point; points have equal encodings exactly if they are equal; every accepted byte string is the encoding of the point it decodes to, which lies in the subgroup; the big integer coordinates of a point determine it and reading them back gives the point.", "quantifier": "all points, all byte strings of the right length, all pairs of integers", "why_tests_cant": "invalid encodings and points outside the subgroup must be refused for every one of 2^768 and 2^1536 strings", "anchors": ["crypto/core/curves/native/bls12381/g2.go:ToCompressed", "crypto/core/curves/native/bls12381/g2.go:FromCompressed", "crypto/core/curves/native/bls12381/g2.go:ToUncompressed", "crypto/core/curves/native/bls12381/g2.go:FromUncompressed", "crypto/core/curves/native/bls12381/g2.go:BigInt", "crypto/core/curves/native/bls12381/g2.go:SetBigInt"]}
{"id": "C98", "title": "The pairing engine computes a bilinear, non-degenerate pairing", "statement": "There is a map e from points of the curve and points of order q of the twist to the target group that is linear in both arguments, is one on points of order q only if one of them is the neutral element, and takes the two generators to the generator of the target group, such that after any sequence of AddPair, AddPairInvG1 and AddPairInvG2 Result is the product of the values of e, with the inverted pairs inverted, and Check tells whether that product is one. The result does not depend on the order of the calls nor on the coordinates the points are stored in; pairs with the neutral element contribute nothing; an empty or reset engine has result one; the loop never reads or writes outside the stored coefficients.", "quantifier": "all lists of calls of any length, all points of the curve and of the subgroup of the twist in all projective coordinates; for the bounds, all stored values", "why_tests_cant": "bilinearity relates values of a 68-step loop at 2^510 pairs of points; a wrong line at one step or a wrong constant in the final exponentiation still gives deterministic values of order q", "anchors": ["crypto/core/curves/native/bls12381/pairings.go:AddPair", "crypto/core/curves/native/bls12381/pairings.go:AddPairInvG1", "crypto/core/curves/native/bls12381/pairings.go:AddPairInvG2", "crypto/core/curves/native/bls12381/pairings.go:Reset", "crypto/core/curves/native/bls12381/pairings.go:Check", "crypto/core/curves/native/bls12381/pairings.go:Result", "crypto/core/curves/native/bls12381/pairings.go:pairing", "crypto/core/curves/native/bls12381/pairings.go:millerLoop", "crypto/core/curves/native/bls12381/pairings.go:computeCoeffs", "crypto/core/curves/native/bls12381/pairings.go:ell", "crypto/core/curves/native/bls12381/pairings.go:doublingStep", "crypto/core/curves/native/bls12381/pairings.go:additionStep"]}
{"id": "C99", "title": "A pairing check that passes binds the points it was given", "statement": "A check with one pair passes only if one of its points is the neutral element; a check of a pair against an inverted pair with the same second point passes only if the first points are equal, and the same with the sides exchanged.", "quantifier": "all points of both curves", "why_tests_cant": "the points that break it are those of order prime to q, a 2^-125 fraction of the curve", "anchors": ["crypto/core/curves/native/bls12381/pairings.go:AddPair", "crypto/core/curves/native/bls12381/pairings.go:Check"]}
{"id": "C100", "title": "BLS signatures on the stored BLS12-381 points accept exactly the honest signatures", "statement": "On the points as they are stored, with the curve formulas, the encodings and the pairing engine of the code: the bytes accepted as a secret key are exactly the 32-byte big-endian numbers from 1 to q-1, the bytes accepted as a public key or signature are exactly the canonical encodings of the non-neutral points of the subgroup of order q, and writing is inverse to reading. Verify of a public key x\u00b7G accepts a signature exactly when it is x times the hash of the message (and not the neutral element), so the encoding of an accepted signature is unique; Sign of a non-zero key produces it. Aggregate verification over distinct messages accepts exactly the sum of the honest signatures, the fast variant the sum for one message; with augmentation or a proof of possession the message is bound to the key; any threshold of partial signatures made with key shares combines to the signature of the shared key. Wrong lengths, neutral points and zero keys are refused. The same holds with the groups exchanged.", "quantifier": "all keys, messages, domain separation tags, signatures in any projective coordinates, lists of any length, all thresholds and shares, all hash functions into the subgroup", "why_tests_cant": "an accepting forgery or a rejected honest signature is one point in 2^381 and depends on every function from limb addition to the final exponentiation", "anchors": ["crypto/signatures/bls/bls_sig/usual_bls_sig.go:MarshalBinary", "crypto/signatures/bls/bls_sig/usual_bls_sig.go:UnmarshalBinary", "crypto/signatures/bls/bls_sig/usual_bls_sig.go:GetPublicKey", "crypto/signatures/bls/bls_sig/usual_bls_sig.go:createSignature", "crypto/signatures/bls/bls_sig/usual_bls_sig.go:verifySignature", "crypto/signatures/bls/bls_sig/usual_bls_sig.go:coreAggregateVerify", "crypto/signatures/bls/bls_sig/usual_bls_sig.go:aggregateVerify", "crypto/signatures/bls/bls_sig/usual_bls_sig.go:aggregatePublicKeys", "crypto/signatures/bls/bls_sig/usual_bls_sig.go:aggregateSignatures", "crypto/signatures/bls/bls_sig/usual_bls_sig.go:createProofOfPossession", "crypto/signatures/bls/bls_sig/usual_bls_sig.go:partialSign", "crypto/signatures/bls/bls_sig/usual_bls_sig.go:combineSigs", "crypto/signatures/bls/bls_sig/usual_bls_sig.go:splitXY", "crypto/signatures/bls/bls_sig/tiny_bls_sig.go:verifySignatureVt", "crypto/signatures/bls/bls_sig/tiny_bls_sig.go:createSignatureVt", "crypto/signatures/bls/bls_sig/tiny_bls_sig.go:coreAggregateVerify", "crypto/signatures/bls/bls_sig/tiny_bls_sig.go:combineSigsVt", "crypto/signatures/bls/bls_sig/tiny_bls_sig.go:splitXYVt", "crypto/signatures/bls/bls_sig/lib.go:SecretKey.UnmarshalBinary", "crypto/signatures/bls/bls_sig/lib.go:thresholdizeSecretKey", "crypto/signatures/bls/bls_sig/usual_bls.go:SigBasic", "crypto/signatures/bls/bls_sig/usual_bls.go:SigAug", "crypto/signatures/bls/bls_sig/usual_bls.go:SigPop", "crypto/signatures/bls/bls_sig/tiny_bls.go:SigBasicVt"]}
{"id": "C101", "title": "Hashing to BLS12-381 G1 is the RFC 9380 suite and always lands in the subgroup", "statement": "For every hash function, message and domain separation tag, the hash to G1 is the point of RFC 9380: the two field elements taken from the expanded message are mapped by simplified SWU and the 11-isogeny, added, and multiplied by 1 - x, giving a point of the subgroup of order q; equal messages give equal points. A random point is the hash of 64 bytes read, and a failed or short read is an error.", "quantifier": "all hash functions (fixed output and XOF), messages and tags of at most 255 bytes, all reader outcomes", "why_tests_cant": "the images depend on 54 hard-coded constants of 381 bits and a wrong case of the map is met with probability 2^-377", "anchors": ["crypto/core/curves/native/bls12381/g1.go:Hash", "crypto/core/curves/native/bls12381/g1.go:Random", "crypto/core/curves/native/bls12381/g1.go:osswu3mod4", "crypto/core/curves/native/bls12381/g1.go:isogenyMap", "crypto/core/curves/native/bls12381/g1.go:ClearCofactor"]}
{"id": "C102", "title": "Hashing to BLS12-381 G2 is the RFC 9380 suite and always lands in the subgroup", "statement": "For every hash function, message and domain separation tag, the hash to G2 is the point of RFC 9380: the two elements of the quadratic field taken from the expanded message are mapped by simplified SWU and the 3-isogeny, added, and the cofactor is cleared, giving a multiple of the generator. A random point is the hash of 64 bytes read, and a failed or short read is an error.", "quantifier": "all hash functions (fixed output and XOF), messages and tags of at most 255 bytes, all reader outcomes", "why_tests_cant": "the images depend on hard-coded constants of 762 bits and a wrong case of the map is met with probability 2^-762", "anchors": ["crypto/core/curves/native/bls12381/g2.go:Hash", "crypto/core/curves/native/bls12381/g2.go:Random", "crypto/core/curves/native/bls12381/g2.go:sswu", "crypto/core/curves/native/bls12381/g2.go:isogenyMap", "crypto/core/curves/native/bls12381/g2.go:ClearCofactor"]}
{"id": "C103", "title": "BLS signatures end to end: with the actual hash to the curve, Verify accepts exactly the key's multiple of the RFC 9380 point of the message", "statement": "With SHA-256 expansion, simplified SWU, isogeny and cofactor clearing as in the code, Verify of the public key x\u00b7G accepts a signature exactly when it is x times the RFC 9380 point of the message and not the neutral element; Sign produces it, and it verifies also after encoding and decoding. The same with the groups exchanged.", "quantifier": "all keys, messages, tags of at most 255 bytes, signatures in any coordinates, any SHA-256 (as a function)", "why_tests_cant": "the claim composes limb arithmetic, hashing, curve and pairing over all messages", "anchors": ["crypto/signatures/bls/bls_sig/usual_bls_sig.go:createSignature", "crypto/signatures/bls/bls_sig/usual_bls_sig.go:verifySignature", "crypto/signatures/bls/bls_sig/tiny_bls_sig.go:createSignatureVt", "crypto/signatures/bls/bls_sig/tiny_bls_sig.go:verifySignatureVt", "crypto/core/curves/native/bls12381/g1.go:Hash", "crypto/core/curves/native/bls12381/g2.go:Hash"]}
{"id": "C104", "title": "Points and scalars carry the name of their curve through binary, text and JSON, and come back as the same value of the same curve", "statement": "Every point and scalar of the registered curves, marshalled to binary, text or JSON, is unmarshalled as the same value of the same curve; an encoding is refused by the types of every other curve; different values have different encodings; whatever is accepted consists of a registered name, the separator and bytes that this curve's own decoder accepts; no input makes the decoders panic.", "quantifier": "all eight registered curves, all points and scalars, all input strings", "why_tests_cant": "the inputs are arbitrary byte strings sent by others, and the property mixes every curve with every other", "anchors": ["crypto/core/curves/curve.go:GetCurveByName", "crypto/core/curves/curve.go:scalarMarshalBinary", "crypto/core/curves/curve.go:scalarUnmarshalBinary", "crypto/core/curves/curve.go:scalarMarshalText", "crypto/core/curves/curve.go:scalarUnmarshalText", "crypto/core/curves/curve.go:scalarMarshalJson", "crypto/core/curves/curve.go:scalarUnmarshalJson", "crypto/core/curves/curve.go:pointMarshalBinary", "crypto/core/curves/curve.go:pointUnmarshalBinary", "crypto/core/curves/curve.go:pointMarshalText", "crypto/core/curves/curve.go:pointUnmarshalText", "crypto/core/curves/curve.go:pointMarshalJson", "crypto/core/curves/curve.go:pointUnmarshalJson", "crypto/core/curves/bls12381_curve.go:UnmarshalBinary", "crypto/core/curves/bls12377_curve.go:SetBytes"]}
{"id": "C105", "title": "BLS12-381 points behind the generic interfaces follow the group law, pair correctly and refuse values of other types", "statement": "Add, Sub, Mul and Equal on points of the two BLS12-381 groups follow the group law of order q and give nil (or false) exactly for arguments of another group, curve or type; Pairing works with its operands in either order and equals the bilinear, non-degenerate pairing, MultiPairing equals the product of the pairings of the listed pairs and is nil exactly if the list is not an alternation of first- and second-group points; IsNegative tells every non-neutral point from its opposite; SumOfProducts is the sum of the multiples; a scalar hash is the RFC 9380 hash to the scalar field; a random scalar needs a full read of the source.", "quantifier": "all values behind the Point and Scalar interfaces, all list lengths, all scalars", "why_tests_cant": "the arguments are arbitrary interface values in arbitrary lists, over two groups and a target group of 381-bit elements", "anchors": ["crypto/core/curves/bls12381_curve.go:Add", "crypto/core/curves/bls12381_curve.go:Sub", "crypto/core/curves/bls12381_curve.go:Mul", "crypto/core/curves/bls12381_curve.go:Equal", "crypto/core/curves/bls12381_curve.go:IsNegative", "crypto/core/curves/bls12381_curve.go:SumOfProducts", "crypto/core/curves/bls12381_curve.go:Pairing", "crypto/core/curves/bls12381_curve.go:MultiPairing", "crypto/core/curves/bls12381_curve.go:multiPairing", "crypto/core/curves/bls12381_curve.go:Hash", "crypto/core/curves/bls12381_curve.go:Random", "crypto/core/curves/curve.go:ScalarG1BaseMult", "crypto/core/curves/curve.go:ScalarG2BaseMult"]}
{"id": "C106", "title": "Commitments open for what was committed and for nothing else", "statement": "Commit succeeds exactly if its random bytes could be read in full, and the commitment then opens with its witness, also after a JSON round trip; Open is exactly the comparison with HMAC (RFC 2104) keyed by the nonce and refuses commitments of another length; two different witnesses of one commitment give a collision of the hash function.", "quantifier": "all messages, nonces, commitments, witnesses and read outcomes; every hash function", "why_tests_cant": "binding is a statement about all pairs of witnesses, including adversarial ones", "anchors": ["crypto/core/commit.go:Commit", "crypto/core/commit.go:Open", "crypto/core/commit.go:ComputeHMAC", "crypto/core/commit.go:Witness.MarshalJSON", "crypto/core/commit.go:Witness.UnmarshalJSON"]}
{"id": "C107", "title": "Key derivation is RFC 5869 and never returns less than was asked for", "statement": "ComputeHKDF returns the RFC 5869 output for each of its five hash functions and every length from 10 bytes to 255 digests, with zeros for a missing salt; every other name or length is an error and nothing panics; shorter outputs are prefixes of longer ones; zeros appended to a salt do not change the output.", "quantifier": "all names, keys, salts, infos and 32-bit lengths", "why_tests_cant": "the length bound involves 32-bit arithmetic and all block counts up to 255 for each hash function", "anchors": ["crypto/subtle/hkdf.go:ComputeHKDF", "crypto/subtle/hkdf.go:validateHKDFParams", "crypto/subtle/subtle.go:GetHashDigestSize", "crypto/subtle/subtle.go:GetHashFunc"]}
{"id": "C108", "title": "BLS key generation follows the draft's KeyGen and gives usable key pairs", "statement": "From at least 32 bytes of seed, Generate computes HKDF-based KeyGen of draft-irtf-cfrg-bls-signature-04 as a function of those bytes only and leaves the caller's memory alone; KeygenWithSeed returns a key pair that signs and verifies; less than 32 bytes or a failed read of the random source is an error.", "quantifier": "all seeds (of any length and capacity), all outcomes of the random source, both schemes", "why_tests_cant": "an output equal to zero modulo the group order and the array behind a slice cannot be provoked by tests with SHA-256", "anchors": ["crypto/signatures/bls/bls_sig/lib.go:SecretKey.Generate", "crypto/signatures/bls/bls_sig/lib.go:generateRandBytes", "crypto/signatures/bls/bls_sig/usual_bls.go:generateKeys", "crypto/signatures/bls/bls_sig/usual_bls.go:generateKeysWithSeed", "crypto/signatures/bls/bls_sig/tiny_bls.go:generateKeysVt", "crypto/signatures/bls/bls_sig/tiny_bls.go:generateKeysWithSeedVt"]}
{"id": "C109", "title": "The legacy point type is the group of its curve and its encodings are faithful", "statement": "On valid points of one curve, Add, Neg, ScalarMult and NewScalarBaseMult are the group operations for every pair of points and every integer; the predicates say what they are called; nil arguments and mixed curves are errors; the byte, JSON and binary encodings give back the same point, and the byte decoder accepts exactly the encodings of points.", "quantifier": "all points (the neutral element included), integers, byte strings and JSON documents, on each of the five named curves", "why_tests_cant": "equal, opposite and neutral operands, multipliers beyond the order, and all malformed encodings", "anchors": ["crypto/core/curves/ec_point.go:EcPoint.Add", "crypto/core/curves/ec_point.go:EcPoint.Neg", "crypto/core/curves/ec_point.go:EcPoint.ScalarMult", "crypto/core/curves/ec_point.go:NewScalarBaseMult", "crypto/core/curves/ec_point.go:EcPoint.Equals", "crypto/core/curves/ec_point.go:EcPoint.IsValid", "crypto/core/curves/ec_point.go:EcPoint.Bytes", "crypto/core/curves/ec_point.go:PointFromBytesUncompressed", "crypto/core/curves/ec_point.go:EcPoint.MarshalJSON", "crypto/core/curves/ec_point.go:EcPoint.UnmarshalJSON", "crypto/core/curves/ec_point.go:EcPoint.MarshalBinary", "crypto/core/curves/ec_point.go:EcPoint.UnmarshalBinary"]}
{"id": "C110", "title": "The legacy scalar arithmetic is the prime field of the curve order", "statement": "Add, Sub, Neg, Mul and Div of all four EcScalar implementations return the integer in [0, n) that represents the result in the field of n elements, n the prime order; IsValid accepts exactly [0, n); Bytes is the 32-byte big-endian encoding; Random is the residue of all bytes read, or an error.", "quantifier": "all integers (for Ed25519: all in [0, n)), all outcomes of the random source", "why_tests_cant": "boundary integers, negative and unreduced arguments and the quotient of all pairs", "anchors": ["crypto/core/curves/ec_scalar.go:K256Scalar.Add", "crypto/core/curves/ec_scalar.go:K256Scalar.Sub", "crypto/core/curves/ec_scalar.go:K256Scalar.Neg", "crypto/core/curves/ec_scalar.go:K256Scalar.Mul", "crypto/core/curves/ec_scalar.go:K256Scalar.Div", "crypto/core/curves/ec_scalar.go:K256Scalar.Random", "crypto/core/curves/ec_scalar.go:K256Scalar.IsValid", "crypto/core/curves/ec_scalar.go:K256Scalar.Bytes", "crypto/core/curves/ec_scalar.go:P256Scalar", "crypto/core/curves/ec_scalar.go:Bls12381Scalar", "crypto/core/curves/ec_scalar.go:Ed25519Scalar"]}
{"id": "C111", "title": "The BLS12-381 curve of the first-generation sharing is a group, and Feldman verification over it accepts exactly consistent shares", "statement": "IsOnCurve, Add, Double, ScalarMult and ScalarBaseMult of the elliptic.Curve wrapper are the group operations of the prime order subgroup on every pair of integers that stands for a point, and refuse all others; Params are those of the curve; Bls12381G2 gives the second group; Feldman.Verify on point objects of any curve accepts a share exactly if value G = Q0 + x Q1 + x^2 Q2 + ...", "quantifier": "all pairs of integers, all scalar byte strings, all verifier lists, identifiers, thresholds and values", "why_tests_cant": "multi-byte scalars, coordinates beyond the characteristic, points outside the subgroup and all identifiers up to 2^32", "anchors": ["crypto/sharing/v1/bls12381g1curve.go:Bls12381G1", "crypto/sharing/v1/bls12381g1curve.go:Bls12381G1Curve.IsOnCurve", "crypto/sharing/v1/bls12381g1curve.go:Bls12381G1Curve.Add", "crypto/sharing/v1/bls12381g1curve.go:Bls12381G1Curve.Double", "crypto/sharing/v1/bls12381g1curve.go:Bls12381G1Curve.ScalarMult", "crypto/sharing/v1/bls12381g1curve.go:Bls12381G1Curve.ScalarBaseMult", "crypto/sharing/v1/bls12381g1curve.go:Bls12381G1Curve.CompressedBytesFromBigInts", "crypto/sharing/v1/bls12381g1curve.go:bls12381g1InitAll", "crypto/sharing/v1/bls12381g2curve.go:Bls12381G2", "crypto/sharing/v1/feldman.go:Feldman.Verify"]}
{"id": "C112", "title": "The Ed25519 curve of the first-generation sharing is a group behind elliptic.Curve", "statement": "IsOnCurve, Add, Double, Neg, ScalarMult, ScalarBaseMult and Hash of the wrapper are the operations of the Edwards group on the integers that points are passed around as, for every scalar; zero is the neutral element; point objects over it and Feldman.Verify behave as for every other curve.", "quantifier": "all pairs of integers and points, all scalar byte strings, all verifier lists, identifiers, thresholds and values", "why_tests_cant": "scalars beyond 256 bits, the neutral element, points of small order, integers beyond 256 bits", "anchors": ["crypto/sharing/v1/ed25519curve.go:Ed25519", "crypto/sharing/v1/ed25519curve.go:Ed25519Curve.IsOnCurve", "crypto/sharing/v1/ed25519curve.go:Ed25519Curve.Add", "crypto/sharing/v1/ed25519curve.go:Ed25519Curve.Double", "crypto/sharing/v1/ed25519curve.go:Ed25519Curve.Neg", "crypto/sharing/v1/ed25519curve.go:Ed25519Curve.ScalarMult", "crypto/sharing/v1/ed25519curve.go:Ed25519Curve.ScalarBaseMult", "crypto/sharing/v1/ed25519curve.go:Ed25519Curve.Hash", "crypto/internal/point.go:BigInt2Ed25519Point", "crypto/internal/point.go:BigInt2Ed25519Scalar"]}
{"id": "C113", "title": "Single-party Ed25519 signatures: correct, non-malleable, proofs of knowledge of the key", "statement": "In both Ed25519 packages (SHA-512 and NEM's Keccak) every signature made with a key from NewKeyFromSeed verifies; Verify accepts exactly the equation of RFC 8032 without cofactor, with a canonical second half, and never panics; a second half cannot be changed; two signatures with the same first half give the discrete logarithm of the key; wrong lengths are errors.", "quantifier": "all seeds, private keys, public keys (including those with a small order component), messages and signature bytes, all hash functions with 64 bytes of output", "why_tests_cant": "every message and every byte string offered as a key or signature, points of small order", "anchors": ["crypto/ted25519/ted25519/ed25519.go:NewKeyFromSeed", "crypto/ted25519/ted25519/ed25519.go:newKeyFromSeed", "crypto/ted25519/ted25519/ed25519.go:GenerateKey", "crypto/ted25519/ted25519/ed25519.go:Sign", "crypto/ted25519/ted25519/ed25519.go:sign", "crypto/ted25519/ted25519/ed25519.go:Verify", "crypto/ted25519/ted25519/ed25519.go:PrivateKey.Sign", "crypto/ted25519/ted25519/ed25519.go:PrivateKey.Public", "crypto/ted25519/ted25519/ed25519.go:PrivateKey.Seed", "crypto/signatures/schnorr/nem/ed25519_keccak.go:NewKeyFromSeed", "crypto/signatures/schnorr/nem/ed25519_keccak.go:newKeyFromSeed", "crypto/signatures/schnorr/nem/ed25519_keccak.go:GenerateKey", "crypto/signatures/schnorr/nem/ed25519_keccak.go:Sign", "crypto/signatures/schnorr/nem/ed25519_keccak.go:sign", "crypto/signatures/schnorr/nem/ed25519_keccak.go:Verify", "crypto/signatures/schnorr/nem/ed25519_keccak.go:PrivateKey.Sign", "crypto/signatures/schnorr/nem/ed25519_keccak.go:PrivateKey.Public", "crypto/signatures/schnorr/nem/ed25519_keccak.go:PrivateKey.Seed"]}
{"id": "C114", "title": "Ed25519 points: a group with faithful encodings and a hash into the prime order subgroup", "statement": "The points of Ed25519 are a commutative group of order 8 ell under the addition formulas, whose denominators never vanish; compressed and uncompressed encodings of every point decode to it, whatever decodes lies on the curve, and decoding fails exactly when the length is wrong or no such point exists; Set returns the point with the given coordinates or an error; Hash is the Elligator 2 map followed by the cofactor, is defined on every message, never nil, and lands in the subgroup of order ell.", "quantifier": "all points, all byte strings offered as encodings, all integer coordinates, all messages, every hash function with 64 bytes of output", "why_tests_cant": "all 8 ell points and every 32 or 64 byte string; completeness and associativity of the group law over the whole field", "anchors": ["crypto/core/curves/ed25519_curve.go:PointEd25519.Hash", "crypto/core/curves/ed25519_curve.go:PointEd25519.Random", "crypto/core/curves/ed25519_curve.go:PointEd25519.Add", "crypto/core/curves/ed25519_curve.go:PointEd25519.Neg", "crypto/core/curves/ed25519_curve.go:PointEd25519.Set", "crypto/core/curves/ed25519_curve.go:PointEd25519.IsOnCurve", "crypto/core/curves/ed25519_curve.go:PointEd25519.ToAffineCompressed", "crypto/core/curves/ed25519_curve.go:PointEd25519.FromAffineCompressed", "crypto/core/curves/ed25519_curve.go:PointEd25519.ToAffineUncompressed", "crypto/core/curves/ed25519_curve.go:PointEd25519.FromAffineUncompressed", "crypto/core/curves/ed25519_curve.go:toEdwards", "crypto/core/curves/ed25519_curve.go:sqrtRatio", "crypto/core/curves/ed25519_curve.go:elligatorEncode"]}
{"id": "C115", "title": "Ed25519 scalars are the field of ell elements and act on points", "statement": "Scalars of Ed25519 behave as integers modulo ell under every operation of the API; inverses and quotients are those of the field and refused for zero; each scalar has one 32-byte encoding; New, SetBigInt and SetBytesWide reduce their argument; Sqrt returns a root or an error; scalars act on points as integers do, SumOfProducts is the sum of products, and arguments of other curves are refused.", "quantifier": "all scalars, integers, byte strings and points, including points outside the prime order subgroup; all lists of points and scalars of any length", "why_tests_cant": "all ell scalars and 8 ell points, all integers and byte strings", "anchors": ["crypto/core/curves/ed25519_curve.go:ScalarEd25519.Random", "crypto/core/curves/ed25519_curve.go:ScalarEd25519.Hash", "crypto/core/curves/ed25519_curve.go:ScalarEd25519.New", "crypto/core/curves/ed25519_curve.go:ScalarEd25519.Cmp", "crypto/core/curves/ed25519_curve.go:ScalarEd25519.IsZero", "crypto/core/curves/ed25519_curve.go:ScalarEd25519.IsOne", "crypto/core/curves/ed25519_curve.go:ScalarEd25519.IsOdd", "crypto/core/curves/ed25519_curve.go:ScalarEd25519.IsEven", "crypto/core/curves/ed25519_curve.go:ScalarEd25519.Add", "crypto/core/curves/ed25519_curve.go:ScalarEd25519.Sub", "crypto/core/curves/ed25519_curve.go:ScalarEd25519.Mul", "crypto/core/curves/ed25519_curve.go:ScalarEd25519.MulAdd", "crypto/core/curves/ed25519_curve.go:ScalarEd25519.Div", "crypto/core/curves/ed25519_curve.go:ScalarEd25519.Invert", "crypto/core/curves/ed25519_curve.go:ScalarEd25519.Sqrt", "crypto/core/curves/ed25519_curve.go:ScalarEd25519.SetBigInt", "crypto/core/curves/ed25519_curve.go:ScalarEd25519.BigInt", "crypto/core/curves/ed25519_curve.go:ScalarEd25519.Bytes", "crypto/core/curves/ed25519_curve.go:ScalarEd25519.SetBytes", "crypto/core/curves/ed25519_curve.go:ScalarEd25519.SetBytesWide", "crypto/core/curves/ed25519_curve.go:ScalarEd25519.SetBytesClamping", "crypto/core/curves/ed25519_curve.go:PointEd25519.Double", "crypto/core/curves/ed25519_curve.go:PointEd25519.Sub", "crypto/core/curves/ed25519_curve.go:PointEd25519.Mul", "crypto/core/curves/ed25519_curve.go:PointEd25519.Equal", "crypto/core/curves/ed25519_curve.go:PointEd25519.SumOfProducts", "crypto/core/curves/ed25519_curve.go:PointEd25519.VarTimeDoubleScalarBaseMult", "crypto/core/curves/ed25519_curve.go:PointEd25519.MangleScalarBitsAndMulByBasepointToProducePublicKey"]}
{"id": "C116", "title": "Threshold Ed25519 works from key generation to the verified signature on the real curve", "statement": "GenerateSharedKey returns the public key a single signer would have for the same seed and shares of that signer's scalar; GenerateSharedNonce derives a nonzero nonce from the key share, fresh random bytes, the public key and the message, different inputs giving different HKDF inputs; when any number of dealers deal nonces and the public nonces and nonce shares are added, any t or more parties can sign, and the aggregate is accepted by the package's ordinary Verify; shares and commitments survive their byte form.", "quantifier": "all seeds, random coefficients, thresholds 2<=t<=n<=255, messages, numbers of nonce dealers and sets of signers", "why_tests_cant": "all seeds, polynomials, messages, dealers and signer sets; nonces depend on randomness", "anchors": ["crypto/ted25519/ted25519/ext.go:ExpandSeed", "crypto/ted25519/ted25519/ext.go:GeAdd", "crypto/ted25519/ted25519/keygen.go:generateSharableKey", "crypto/ted25519/ted25519/keygen.go:GenerateSharedKey", "crypto/ted25519/ted25519/keygen.go:split", "crypto/ted25519/ted25519/keygen.go:CommitmentsToBytes", "crypto/ted25519/ted25519/keygen.go:CommitmentsFromBytes", "crypto/ted25519/ted25519/keygen.go:KeyShareFromBytes", "crypto/ted25519/ted25519/keygen.go:PublicKeyFromBytes", "crypto/ted25519/ted25519/noncegen.go:generateSharableNonce", "crypto/ted25519/ted25519/noncegen.go:GenerateSharedNonce", "crypto/ted25519/ted25519/noncegen.go:NonceShare.Add", "crypto/ted25519/ted25519/noncegen.go:generateRandomHkdf", "crypto/ted25519/ted25519/partialsig.go:TSign", "crypto/ted25519/ted25519/sigagg.go:Aggregate", "crypto/ted25519/ted25519/ed25519.go:Verify"]}
{"id": "C117", "title": "BLS12-377 scalars are the integers modulo a prime", "statement": "The order written in the source is prime. On reduced scalars Add, Sub, Mul, MulAdd, Neg, Double, Square, Cube, Invert and Div (by nonzero), Sqrt (of squares), the tests and Cmp are those of the field, and results are reduced; New maps a machine integer into the field; SetBigInt and SetBytes accept exactly what is below the order, SetBytesWide reduces 32 to 128 bytes; Bytes is 32 bytes big-endian and SetBytes reads it back; Hash is expand_message_xmd of 48 bytes modulo the order. Operations that have no result say so by an error.", "quantifier": "all scalars, integers, byte strings and messages", "why_tests_cant": "all field elements and all byte lengths", "anchors": ["crypto/core/curves/bls12377_curve.go:ScalarBls12377.Random", "crypto/core/curves/bls12377_curve.go:ScalarBls12377.Hash", "crypto/core/curves/bls12377_curve.go:ScalarBls12377.IsZero", "crypto/core/curves/bls12377_curve.go:ScalarBls12377.IsOne", "crypto/core/curves/bls12377_curve.go:ScalarBls12377.IsOdd", "crypto/core/curves/bls12377_curve.go:ScalarBls12377.IsEven", "crypto/core/curves/bls12377_curve.go:ScalarBls12377.New", "crypto/core/curves/bls12377_curve.go:ScalarBls12377.Cmp", "crypto/core/curves/bls12377_curve.go:ScalarBls12377.Square", "crypto/core/curves/bls12377_curve.go:ScalarBls12377.Double", "crypto/core/curves/bls12377_curve.go:ScalarBls12377.Invert", "crypto/core/curves/bls12377_curve.go:ScalarBls12377.Sqrt", "crypto/core/curves/bls12377_curve.go:ScalarBls12377.Cube", "crypto/core/curves/bls12377_curve.go:ScalarBls12377.Add", "crypto/core/curves/bls12377_curve.go:ScalarBls12377.Sub", "crypto/core/curves/bls12377_curve.go:ScalarBls12377.Mul", "crypto/core/curves/bls12377_curve.go:ScalarBls12377.MulAdd", "crypto/core/curves/bls12377_curve.go:ScalarBls12377.Div", "crypto/core/curves/bls12377_curve.go:ScalarBls12377.Neg", "crypto/core/curves/bls12377_curve.go:ScalarBls12377.SetBigInt", "crypto/core/curves/bls12377_curve.go:ScalarBls12377.BigInt", "crypto/core/curves/bls12377_curve.go:ScalarBls12377.Bytes", "crypto/core/curves/bls12377_curve.go:ScalarBls12377.SetBytes", "crypto/core/curves/bls12377_curve.go:ScalarBls12377.SetBytesWide", "crypto/core/curves/bls12377_curve.go:ScalarBls12377.Clone"]}
{"id": "C118", "title": "BLS12-377 points: group, encodings, coordinates, sums", "statement": "On points of either group Add, Sub, Double, Neg, Mul, Equal and IsIdentity are those of a group on which the scalar field acts, IsNegative tells a point from its negative; a point has exactly one compressed form, the uncompressed form is read back, Set of a point's coordinates is that point and is a function of the coordinates; SumOfProducts of any number of points is the sum of the products.", "quantifier": "all points, scalars, coordinates, byte strings, and lists of points and scalars of any length", "why_tests_cant": "all points and integers, all list lengths", "anchors": ["crypto/core/curves/bls12377_curve.go:PointBls12377G1.IsIdentity", "crypto/core/curves/bls12377_curve.go:PointBls12377G1.IsNegative", "crypto/core/curves/bls12377_curve.go:PointBls12377G1.Double", "crypto/core/curves/bls12377_curve.go:PointBls12377G1.Neg", "crypto/core/curves/bls12377_curve.go:PointBls12377G1.Add", "crypto/core/curves/bls12377_curve.go:PointBls12377G1.Sub", "crypto/core/curves/bls12377_curve.go:PointBls12377G1.Mul", "crypto/core/curves/bls12377_curve.go:PointBls12377G1.Equal", "crypto/core/curves/bls12377_curve.go:PointBls12377G1.Set", "crypto/core/curves/bls12377_curve.go:PointBls12377G1.ToAffineCompressed", "crypto/core/curves/bls12377_curve.go:PointBls12377G1.ToAffineUncompressed", "crypto/core/curves/bls12377_curve.go:PointBls12377G1.FromAffineCompressed", "crypto/core/curves/bls12377_curve.go:PointBls12377G1.FromAffineUncompressed", "crypto/core/curves/bls12377_curve.go:PointBls12377G1.SumOfProducts", "crypto/core/curves/bls12377_curve.go:PointBls12377G1.X", "crypto/core/curves/bls12377_curve.go:PointBls12377G1.Y", "crypto/core/curves/bls12377_curve.go:PointBls12377G2.IsIdentity", "crypto/core/curves/bls12377_curve.go:PointBls12377G2.IsNegative", "crypto/core/curves/bls12377_curve.go:PointBls12377G2.Double", "crypto/core/curves/bls12377_curve.go:PointBls12377G2.Neg", "crypto/core/curves/bls12377_curve.go:PointBls12377G2.Add", "crypto/core/curves/bls12377_curve.go:PointBls12377G2.Sub", "crypto/core/curves/bls12377_curve.go:PointBls12377G2.Mul", "crypto/core/curves/bls12377_curve.go:PointBls12377G2.Equal", "crypto/core/curves/bls12377_curve.go:PointBls12377G2.Set", "crypto/core/curves/bls12377_curve.go:PointBls12377G2.ToAffineCompressed", "crypto/core/curves/bls12377_curve.go:PointBls12377G2.ToAffineUncompressed", "crypto/core/curves/bls12377_curve.go:PointBls12377G2.FromAffineCompressed", "crypto/core/curves/bls12377_curve.go:PointBls12377G2.FromAffineUncompressed", "crypto/core/curves/bls12377_curve.go:PointBls12377G2.SumOfProducts", "crypto/core/curves/bls12377_curve.go:PointBls12377G2.X", "crypto/core/curves/bls12377_curve.go:PointBls12377G2.Y", "crypto/core/curves/curve.go:sumOfProductsPippenger"]}
{"id": "C119", "title": "BLS12-377 pairing is bilinear and its target is a field", "statement": "Pairing gives the same value from either side, bilinear in points and scalars, with values of the order of the scalars; MultiPairing is the product of the pairings and answers exactly for arguments alternating between the groups; the target type's operations are those of a field, its 576-byte form and its integer form are read back, New and Random range over the field.", "quantifier": "all points, scalars, lists of pairs, field elements and byte strings", "why_tests_cant": "all points and all numbers of pairs", "anchors": ["crypto/core/curves/bls12377_curve.go:PointBls12377G1.Pairing", "crypto/core/curves/bls12377_curve.go:PointBls12377G2.Pairing", "crypto/core/curves/bls12377_curve.go:PointBls12377G1.MultiPairing", "crypto/core/curves/bls12377_curve.go:multiPairingBls12377", "crypto/core/curves/bls12377_curve.go:ScalarBls12377Gt.Random", "crypto/core/curves/bls12377_curve.go:ScalarBls12377Gt.Zero", "crypto/core/curves/bls12377_curve.go:ScalarBls12377Gt.One", "crypto/core/curves/bls12377_curve.go:ScalarBls12377Gt.IsZero", "crypto/core/curves/bls12377_curve.go:ScalarBls12377Gt.IsOne", "crypto/core/curves/bls12377_curve.go:ScalarBls12377Gt.IsOdd", "crypto/core/curves/bls12377_curve.go:ScalarBls12377Gt.IsEven", "crypto/core/curves/bls12377_curve.go:ScalarBls12377Gt.New", "crypto/core/curves/bls12377_curve.go:ScalarBls12377Gt.Cmp", "crypto/core/curves/bls12377_curve.go:ScalarBls12377Gt.Square", "crypto/core/curves/bls12377_curve.go:ScalarBls12377Gt.Double", "crypto/core/curves/bls12377_curve.go:ScalarBls12377Gt.Invert", "crypto/core/curves/bls12377_curve.go:ScalarBls12377Gt.Cube", "crypto/core/curves/bls12377_curve.go:ScalarBls12377Gt.Add", "crypto/core/curves/bls12377_curve.go:ScalarBls12377Gt.Sub", "crypto/core/curves/bls12377_curve.go:ScalarBls12377Gt.Mul", "crypto/core/curves/bls12377_curve.go:ScalarBls12377Gt.MulAdd", "crypto/core/curves/bls12377_curve.go:ScalarBls12377Gt.Div", "crypto/core/curves/bls12377_curve.go:ScalarBls12377Gt.Neg", "crypto/core/curves/bls12377_curve.go:ScalarBls12377Gt.SetBigInt", "crypto/core/curves/bls12377_curve.go:ScalarBls12377Gt.BigInt", "crypto/core/curves/bls12377_curve.go:ScalarBls12377Gt.Bytes", "crypto/core/curves/bls12377_curve.go:ScalarBls12377Gt.SetBytes", "crypto/core/curves/bls12377_curve.go:ScalarBls12377Gt.SetBytesWide"]}
{"id": "C120", "title": "A trusted dealer hands out working key material", "statement": "Key material dealt for the two-party ECDSA protocol is consistent: both parties get the same public key, it is the product of their secret shares times the generator, Alice's 256 seed keys are exactly the pads her choice bits select among Bob's, every output of an honest key generation is also an output of the dealer, dealt shares sign under the dealt public key and survive any history of refreshes, and a failing random source gives an error. A share equal to zero must be refused.", "quantifier": "all scalars, choice bits, pads, failing reads, messages, refresh histories", "why_tests_cant": "the pads, bits and scalars range over exponentially many values; two successful signings show nothing about the others", "anchors": ["crypto/tecdsa/dklsv1/dealer/dealer.go GenerateAndDeal", "crypto/tecdsa/dklsv1/dealer/dealer.go produceOTResults"]}
{"id": "C121", "title": "Protocol messages survive the wire", "statement": "Every message of the two-party key generation, signing and refresh that is encoded by its sender is decoded to the same value by its receiver, in whatever process either of them runs and after any history of calls; only version 1 is accepted; a message of another round or protocol, a message without payload and a missing message are refused.", "quantifier": "all message types, values, versions, process histories", "why_tests_cant": "the tests run both parties in one process, where the first call of one registers the types for the other; versions and message substitutions are unbounded", "anchors": ["crypto/tecdsa/dklsv1/dkgserializers.go", "crypto/tecdsa/dklsv1/signserializers.go", "crypto/tecdsa/dklsv1/refreshserializers.go"]}
{"id": "C122", "title": "Distributed key generation between two parties", "statement": "Two parties who run the two-party key generation with a common blinding generator both finish, agree on a public key that is the sum of their secrets times the generator, and hold shares at 1 and 2 of one line through the secret key, whatever scalars they drew; a message whose shares do not satisfy the Pedersen equation at the receiver's identifier, or made with another blinding generator, or missing, is refused; identifiers other than 1 and 2 are refused.", "quantifier": "all scalars drawn, blinding generators, identifiers, messages of the counterparty", "why_tests_cant": "scalars, generators and forged messages are unbounded; one honest run on one curve shows nothing about the others", "anchors": ["crypto/dkg/gennaro2p/genarro2p.go NewParticipant", "crypto/dkg/gennaro2p/genarro2p.go Round1", "crypto/dkg/gennaro2p/genarro2p.go Round2", "crypto/dkg/gennaro2p/genarro2p.go Finalize"]}
{"id": "C123", "title": "Paillier keys are made of safe primes of the right size", "statement": "Safe prime generation returns a prime p of exactly the length asked for with (p-1)/2 prime, the first good candidate of the source; it fails if a read fails or fewer than three bits are asked for, and otherwise it ends with probability one. Keys made of two such primes have a modulus of exactly twice the length and decrypt whatever they encrypt; the two primes must be different.", "quantifier": "all lengths, results of the prime source, primality tests that are right, messages and nonces", "why_tests_cant": "the source is random and the loop unbounded; a test sees a few primes of a few lengths", "anchors": ["crypto/core/primes.go GenerateSafePrime", "crypto/paillier/paillier.go NewKeys", "crypto/paillier/paillier.go keyGenerator"]}
{"id": "C124", "title": "The seed transfer over a stream", "statement": "Run over a stream, the seed oblivious transfer ends on both sides, whatever the interleaving of the two, exactly as its six rounds called by hand: honest sides both succeed, with nothing left on the stream and the receiver holding for every index the sender's key its choice bit selects; a side that reports success has accepted every message it was sent; a side that refuses lets the other end too; it works on every supported curve.", "quantifier": "all interleavings, batch sizes, sessions, choice bits, scalars, messages of a dishonest peer", "why_tests_cant": "interleavings of two processes and messages of a dishonest peer are unbounded; the tests see the schedules that happen", "anchors": ["crypto/ot/base/simplest/stream.go ReceiverStreamOTRun", "crypto/ot/base/simplest/stream.go SenderStreamOTRun"]}
{"id": "C125", "title": "The correlated transfer over a stream", "statement": "Run over a stream, the correlated oblivious transfer ends on both sides, under every schedule, as its three rounds called by hand: with seeds of an honest seed transfer both succeed and for every index the two output shares add up to the sender's input if the receiver chose it and to zero otherwise; the sender sends nothing and reports no success unless the receiver's first message passed its check; a side that refuses lets the other end too; it works in every process.", "quantifier": "all interleavings, seeds, sessions, choice vectors, inputs, messages of a dishonest receiver", "why_tests_cant": "interleavings and dishonest messages are unbounded; the tests run in a process where the seed transfer has registered the types", "anchors": ["crypto/ot/extension/kos/stream.go ReceiverStreamCOtRun", "crypto/ot/extension/kos/stream.go SenderStreamCOtRun"]}
{"id": "C126", "title": "Keyshare sets survive being stored", "statement": "Loading the stored bytes of a set of keyshares gives the same set; loading fails only if one of the two is not the JSON of a message; a loaded set made of the parties' outputs can be asked for its public key, and each of its keyshares signs and refreshes with exactly the output it stores, in every process, also after a restart; the result of a refresh is a keyshare again; a set that is loaded without an error has both keyshares, usable and of the same key.", "quantifier": "all outputs of the key generation, all stored bytes, all processes (which types are registered)", "why_tests_cant": "bytes, keys and restarts are unbounded; the tests ask for the keys in the process that made them", "anchors": ["crypto/kss/kss.go NewKeyshareSet", "crypto/kss/kss.go LoadKeyshareSet", "crypto/kss/val.go PublicKey", "crypto/kss/usr.go PublicKey"]}
{"id": "C127", "title": "Names of hashes and curves, numbers in hexadecimal", "statement": "A string is read as a number exactly if it consists of hexadecimal digits (either case, odd or even number of them), as the number written, and every number is read back with any zeros in front; a name has a hash function exactly if it has a digest size, which is that function's; converting a name gives one that has a function or a curve, and a name already converted is kept.", "quantifier": "all strings, all numbers, all names", "why_tests_cant": "strings and numbers are unbounded", "anchors": ["crypto/subtle/subtle.go NewBigIntFromHex", "crypto/subtle/subtle.go ConvertHashName", "crypto/subtle/subtle.go ConvertCurveName", "crypto/subtle/subtle.go GetHashFunc", "crypto/subtle/subtle.go GetCurve"]}
