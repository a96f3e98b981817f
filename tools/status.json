{
 "C11": {
  "status": "partial",
  "note": "Round2 checks each share at the identifier written inside the share, not at the receiver's own identifier; C11_foreign_share_accepted proves the negation of the full statement with a witness, C11_round2_sound_partial is what Round2 does guarantee."
 },
 "C12": {
  "status": "partial",
  "note": "The context is reduced to byte(Atoi(ctx)), so distinct contexts may coincide (C12_contexts_confused, negation); C12_context_binding_partial holds when the reduced bytes differ."
 },
 "C14": {
  "status": "partial",
  "note": "The code violates the property: C14_public_shares_wrong proves its negation on every curve of order >= 5 (an honest run whose reported public share differs from share*G). What Round4 does compute is part of C13_honest_run."
 },
 "C52": {
  "status": "partial",
  "note": "Equations hold at the identifier written inside the share; that identifier is never compared with the receiver's (C52_foreign_share_accepted, negation)."
 },
 "C17": {
  "status": "partial",
  "note": "Round3 checks each response against the verification share the cosigner itself sends, so the full statement is false: C17_offsetting_accepted (negation). Proved: what acceptance implies (sum verifies under the group key, each response fits the announced share; with the genuine share the response is unique; a wrong sum needs a challenge collision)."
 },
 "C16": {
  "status": "proved",
  "note": "For every challenge deriver that does not distinguish R from -R when R counts as negative (Ed25519: never negative; Mina: hashes x only). C16_negative_R_fails shows the condition is needed."
 },
 "C15": {
  "status": "proved",
  "note": "DKG (FROST, Gennaro) and FROST signer. Out-of-order Round3 on a fresh FROST signer panics rather than returning an error (C15_frost_signer_round3_panics)."
 },
 "C18": {
  "status": "proved",
  "note": "Proved for at most 255 participants and non-zero shares; the excluded cases are findings: C18_zero_share_panics, C18_identifier_truncated."
 },
 "C19": {
  "status": "partial",
  "note": "False in general: VerifyVSS reads the big-endian bytes of id^j as little-endian (C19_honest_share_rejected, C19_dealing_rejected: T=3, participant 16). Exact Feldman check proved when id^(T-1) < 256."
 },
 "C45": {
  "status": "proved",
  "note": "About the decorator itself; app/ante.go's NewAnteHandler does not install it."
 },
 "C46": {
  "status": "proved",
  "note": "Keeper InitGenesis/ExportGenesis round-trip; but the AppModule's InitGenesis ignores the genesis JSON (C46_module_genesis_ignored, C46_module_genesis_loses: negative finding)."
 },
 "C56": {
  "status": "partial",
  "note": "All callbacks and WriteAcknowledgement/GetAppVersion are transparent; SendPacket passes the source channel where the port belongs (C56_send_packet_port), so it is transparent iff the two coincide (C56_send_packet_iff)."
 },
 "C57": {
  "status": "partial",
  "note": "The code violates the property: a message whose entries all parse stores nothing (C57_wellformed_stores_nothing); C57_stored_on_error and C57_rows_permanent say what does happen."
 },
 "C58": {
  "status": "partial",
  "note": "Holds for histories without duplicate links (C58_history, C58_unlink_partial); duplicates are not handled: C58_duplicate_panics, C58_link_twice_unlink_panics, C58_duplicate_survives."
 },
 "C61": {
  "status": "partial",
  "note": "A folder containing a file never loads (C61_folder_with_file_never_loads), and names with separators escape the target (C61_escapes); C61_stays_inside_partial holds for plain names."
 },
 "C62": {
  "status": "proved",
  "note": "Copy onto itself erases the file and a failed copy truncates the destination: C62_copy_onto_itself_erases, C62_failed_copy_truncates."
 },
 "C63": {
  "status": "partial",
  "note": "The success half holds (C63_served, C63_sent_signature_verifies); the failure half is false: missing returns send an error followed by an empty signature or crash (C63_failure_not_single_error, C63_protocol_error)."
 },
 "C64": {
  "status": "partial",
  "note": "Exact acceptance condition and life-cycle theorem proved; false parts as negative theorems: short keys and off-curve keys crash (C64_short_key_panics, C64_offcurve_panics), the identity key accepts forgeries (C64_zero_key_forgery), signatures are malleable."
 },
 "C47": {
  "status": "partial",
  "note": "The code violates the property: Encrypt and Decrypt use different layouts, C47_roundtrip_fails / C47_not_roundtrip prove decryption of every honest output fails (any success is an AES-GCM forgery, C47_roundtrip_is_forgery). The secret key is unused and the witness check authorises anybody. C47_roundtrip_partial: the layout Decrypt expects works."
 },
 "C48": {
  "status": "proved",
  "note": "RFC 6979 conversions, SignCompact (least recovery id), hexadecimal text."
 },
 "C49": {
  "status": "partial",
  "note": "False of the code: chain codes are reduced to a byte and indices to 32 bits (C49_chain_code_truncated, C49_index_truncated); hardened and negative indices pass. C49_separation_partial: separation up to that reduction and HMAC collisions."
 },
 "C65": {
  "status": "partial",
  "note": "C65_nonmember_verifies: CreateWitness issues a verifying witness for values never added, so 'exactly for members' is false. Creation, update, issued witnesses and staleness are proved."
 },
 "C50": {
  "status": "proved",
  "note": "All 256-bit limb values; arithmetic, decoding, Pow, Invert and Sqrt of the four native fields on the repository's constants."
 },
 "C51": {
  "status": "partial",
  "note": "False of the code: C51_cmp_not_by_value (K-256, P-256, Pallas witnesses). C51_cmp_exact: what Cmp computes instead. BLS12-381 not modelled."
 },
 "C66": {
  "status": "proved",
  "note": ""
 },
 "C67": {
  "status": "partial",
  "note": "Arithmetic proved. Canonical decoding, round trip, SetBigInt and ScalarPallas parity are false of the code (C67_accepts_noncanonical, C67_two_encodings, C67_refuses_canonical, C67_parity_wrong); exact behaviour in C67_setBytes_exact and C67_setBigInt_exact."
 },
 "C68": {
  "status": "proved",
  "note": ""
 },
 "C69": {
  "status": "proved",
  "note": ""
 },
 "C70": {
  "status": "proved",
  "note": ""
 },
 "C71": {
  "status": "proved",
  "note": ""
 },
 "C72": {
  "status": "proved",
  "note": ""
 },
 "C73": {
  "status": "proved",
  "note": ""
 },
 "C74": {
  "status": "proved",
  "note": ""
 },
 "C75": {
  "status": "proved",
  "note": ""
 },
 "C76": {
  "status": "proved",
  "note": ""
 },
 "C77": {
  "status": "proved",
  "note": ""
 },
 "C78": {
  "status": "proved",
  "note": ""
 },
 "C79": {
  "status": "proved",
  "note": ""
 },
 "C80": {
  "status": "proved",
  "note": ""
 },
 "C81": {
  "status": "proved",
  "note": ""
 },
 "C82": {
  "status": "proved",
  "note": ""
 },
 "C83": {
  "status": "proved",
  "note": ""
 },
 "C84": {
  "status": "partial",
  "note": "The code violates the property: the neutral element and every point with a coordinate in the interval the field decoder refuses cannot be decoded, and some points have two encodings (proved: C84_identity_not_decodable, C84_point_not_decodable, C84_two_encodings). Proved for all points outside that set, with exact acceptance conditions."
 },
 "C85": {
  "status": "partial",
  "note": "The code violates the property for refused values: C85_on_curve_refused, C85_scalar_dropped. Proved for all coordinates and scalars the field decoder accepts, with exact conditions for Set and IsOnCurve."
 },
 "C86": {
  "status": "proved",
  "note": ""
 },
 "C87": {
  "status": "proved",
  "note": ""
 },
 "C88": {
  "status": "partial",
  "note": "The code violates the property: C88_shake256_tag (the SHAKE-256 hasher runs under the SHAKE-128 tag), C88_api_random_ignores_reader (Random of the curve API returns a fixed public point when the reader delivers nothing). Proved for the other seven hashers and the native Random."
 },
 "C89": {
  "status": "proved",
  "note": ""
 },
 "C90": {
  "status": "partial",
  "note": "The code violates the property: C90_neg_zero_not_canonical (Neg of zero leaves the modulus; IsZero, Cmp, Invert and Div then answer wrongly). Everything else is proved."
 },
 "C91": {
  "status": "proved",
  "note": ""
 },
 "C92": {
  "status": "partial",
  "note": "The code violates the property: C92_fp6_isOne_violated (the test for one ignores the third coordinate, in Fp6 and so in Fp12). Everything else is proved."
 },
 "C93": {
  "status": "partial",
  "note": "The code violates the property: C93_mul_always_zero_violated, C93_isOne_outside_group_violated, C93_square_outside_group_violated, C93_scalar_new_violated, C93_scalar_setBytes_length_violated. The final exponentiation, the group operations on the subgroup, the generator and the encoding are proved."
 },
 "C94": {
  "status": "partial",
  "note": "The code violates the property: C94_affine_identity_violated (ToAffine of the neutral element). Everything else is proved."
 },
 "C95": {
  "status": "partial",
  "note": "The code violates the property: C95_not_canonical_violated. Round trips, injectivity, soundness of what is accepted without the infinity flag, and the integer coordinates are proved."
 },
 "C96": {
  "status": "partial",
  "note": "The code violates the property: C96_affine_identity_violated (ToAffine of the neutral element). Everything else is proved."
 },
 "C97": {
  "status": "partial",
  "note": "The code violates the property: C97_not_canonical_violated, C97_bigInt_constant_violated. Round trips, injectivity, soundness of what is accepted without the infinity flag, and SetBigInt are proved."
 },
 "C98": {
  "status": "proved",
  "note": "For points of the twist of order q; AddPair does not check this. The Go loops over slices are folds over lists."
 },
 "C99": {
  "status": "partial",
  "note": "The code violates the property: C99_subgroup_violated (the engine accepts points outside the subgroup, whose value is one). For points of order q it is proved (C99_binding)."
 },
 "C100": {
  "status": "proved",
  "note": "The hash of a message to the group is a parameter that lands in the subgroup (Hash1/Hash2); basic, augmented and proof-of-possession signatures, aggregates and thresholds. The shares of the threshold theorem are those of the Shamir model."
 },
 "C101": {
  "status": "partial",
  "note": "Proved for all messages none of whose two field elements is one of sixteen exceptional elements (C101_g1_exceptional lists them). For those the code computes a triple that is not on the curve: C101_g1_map_violated, C101_g1_hash_violated."
 },
 "C102": {
  "status": "partial",
  "note": "Proved for all messages with both field elements non-zero. For a zero element the code tests the wrong quantity for zero and leaves the curve: C102_g2_map_violated, C102_g2_hash_violated."
 },
 "C103": {
  "status": "partial",
  "note": "For messages without exceptional (G1) or zero (G2) field elements: basic, augmented, proof of possession, aggregate, fast aggregate and threshold verification in both schemes; the exceptional messages are the violations of C101/C102."
 },
 "C104": {
  "status": "partial",
  "note": "Round trips, no confusion, injectivity and soundness proved (points of the native curves other than the neutral elements, Pallas within what SetBytes accepts). Negations proved: text of a scalar with more than 32 bytes panics and short text is zero-filled (C104_scalar_text_*_violated), UnmarshalJSON leaves the point of pairing-curve scalars nil (C104_json_point_violated), target-group elements are truncated, panic or are never decoded (C104_gt_violated), trailing bytes are ignored (C104_bls_trailing_violated), BLS12-377 scalars have many encodings, neutral elements of Pallas and P-256 do not come back (C104_identity_violated)."
 },
 "C105": {
  "status": "partial",
  "note": "Everything proved; negation: Random ignores the outcome of the read, so a failing or short source gives a scalar computed from the unread (zero) buffer (C105_scalar_random_violated)."
 },
 "C106": {
  "status": "proved",
  "note": "Go's crypto/hmac is modelled (a key longer than a block is hashed, pads); hash functions are arbitrary functions with a fixed output length."
 },
 "C107": {
  "status": "proved",
  "note": "golang.org/x/crypto/hkdf is modelled: extract, the block loop with its byte counter, the limit of 255 blocks."
 },
 "C108": {
  "status": "partial",
  "note": "Proved where the first attempt is not zero (C108_generate, C108_keygen_partial). Negations: a zero attempt is returned as the key and KeygenWithSeed fails instead of trying again (C108_zero_attempt_violated); append overwrites the byte after the seed in the caller's array (C108_overwrites_violated)."
 },
 "C109": {
  "status": "partial",
  "note": "Proved except: Neg of the neutral element is an error (C109_neg_identity_violated); MarshalBinary panics for large coordinates of P-384 and P-521 (C109_binary_large_violated); UnmarshalBinary panics on short input (C109_binary_short_violated); the JSON and binary decoders accept points that are not on the curve (C109_decoders_unchecked_violated)."
 },
 "C110": {
  "status": "partial",
  "note": "Proved except: Ed25519 IsValid accepts negative integers whose sign the arithmetic then drops (C110_ed25519_negative_violated); division by zero panics, returns the dividend or returns zero (C110_div_zero_violated); Bytes drops the sign and panics from 2^256 on (C110_bytes_sign_violated). Hash is that of the curve (C55, C87, C105) and not restated; Random of BLS12-381 is C105."
 },
 "C111": {
  "status": "partial",
  "note": "Feldman.Verify is proved for every elliptic.Curve (C111_feldman); the wrapper is proved except ScalarMult, which reads its scalar backwards (C111_scalar_mult_violated), so that honest shares are refused (C111_bls_feldman_violated) unless the powers of the identifier stay below 256 (C111_bls_feldman_partial). Params hold Montgomery representatives (C111_params_violated); Bls12381G2() returns the first group (C111_g2_is_g1_violated)."
 },
 "C112": {
  "status": "partial",
  "note": "Group law, multiplication by scalars of up to 256 bits, point objects and Feldman.Verify are proved on the prime order subgroup. Negations proved: IsOnCurve panics beyond 256 bits and ignores x and the sign (C112_is_on_curve_violated); zero is both the neutral element and a point of order four (C112_zero_violated); longer scalars are truncated (C112_scalar_truncated_violated); Hash reverses the encoding (C112_hash_violated); EcPoint.Neg and IsIdentity are wrong on this curve (C112_points_violated)."
 },
 "C113": {
  "status": "partial",
  "note": "Keys, signing, verification, uniqueness of the second half and extraction are proved for both packages and every public key. Negations proved: the commitment does not depend on the public half of the private key, so two halves with one seed give the secret scalar away (C113_public_half_violated); public keys of small order have signatures good for many messages, the neutral element for all (C113_small_order_violated). Unforgeability is a computational claim and not expressed."
 },
 "C114": {
  "status": "partial",
  "note": "Group, order, encodings, square roots, Elligator 2 and the hash are proved, as is that the curve meets the contract EdLib of C112 and C113. Negations proved: the neutral element has four compressed encodings and 64 zeros decode to it (C114_encodings_violated); Set gives the neutral element when either coordinate is zero, so (0,-1) cannot be set (C114_set_violated). Library field arithmetic is modelled as residues modulo p."
 },
 "C115": {
  "status": "partial",
  "note": "Field operations, predicates, encodings, roots, action on points and sums are proved. Negations proved: Invert of zero and division by zero give zero without error (C115_invert_violated); Cmp says -2 for any two different scalars (C115_cmp_violated); New keeps 32 bits (C115_new_violated); Sqrt of a non-square gives the non-square itself without error (C115_sqrt_violated); multiplication is not additive in the scalar on points with a small order component (C115_mul_violated); SumOfProducts takes scalars of other curves by their bytes in the wrong order (C115_sums_violated)."
 },
 "C116": {
  "status": "partial",
  "note": "End to end on the curve, nonce derivation, and byte forms are proved. The signers' summed shares are assumed nonzero, because TSign panics on a zero share (C18_zero_share_panics). Negation proved: nonces are not uniform, fewer than half of the scalars can occur, because RandomElement clamps (C116_nonce_uniform_violated)."
 },
 "C117": {
  "status": "partial",
  "note": "Negations proved: Invert of zero and Sqrt of a non-square report no error and return a scalar with a nil pointer, every use of which panics (C117_invert_zero_violated, C117_sqrt_violated); Div by zero panics (C117_div_zero_violated); MulAdd with a foreign factor panics where Mul returns nil (C117_mulAdd_foreign_violated); SetBytes accepts any length (C117_setBytes_length_violated); Random ignores what Read reports (C117_random_violated)."
 },
 "C118": {
  "status": "partial",
  "note": "gnark-crypto is a contract. Negations proved: FromAffineUncompressed accepts a compressed point with anything behind it, and the string of zeros (C118_uncompressed_violated); Set drops signs and, where the abscissa carries a compressed point, ignores the ordinate (C118_set_violated), and panics on large coordinates (C118_set_panics_violated); X of the identity is its flag byte, not 0 (C118_identity_x_violated); the empty sum panics (C118_empty_sum_violated); a sum over both groups is nil or a panic depending on the scalars (C118_mixed_violated)."
 },
 "C119": {
  "status": "partial",
  "note": "gnark-crypto is a contract. Negations proved: Pairing with the identity is the field's zero, not one, so it is not bilinear and disagrees with MultiPairing (C119_identity_violated); MultiPairing of nothing is nil (C119_empty_violated); Gt's Invert of zero reports no error and MulAdd with a foreign factor panics (C119_gt_zero_violated); Gt's New(1) is not one (C119_gt_new_violated); Gt's Random cannot reach most of the field (C119_gt_random_violated)."
 },
 "C120": {
  "status": "partial",
  "note": "Consistency, error behaviour, agreement with key generation, signing and refresh proved; negated part: C120_zero_share_violated (a zero share is dealt with the identity as public key). The two reads of one pad pair are one event in the model."
 },
 "C121": {
  "status": "partial",
  "note": "Round trips within registered processes, versions of key generation and signing, malformed messages, and the exact condition for registration proved; negated parts: C121_refresh_version_violated, C121_labels_ignored_violated, C121_cross_protocol_violated, C121_replays_violated, C121_alice_fresh_process_violated, C121_bob_restart_violated. encoding/gob is assumed (IsGob)."
 },
 "C122": {
  "status": "partial",
  "note": "Creation and the honest run proved; Round2 soundness is partial: the Pedersen equation is checked at the identifier inside the share, which nothing compares with the receiver's (see C52). Negated: C122_blind_ignored_violated, C122_nil_message_violated. The public shares returned are those of C14/C52."
 },
 "C123": {
  "status": "partial",
  "note": "Result, errors, termination and keys proved under PrimeSource and RightTest (math/big and crypto/rand are not modelled). Negated: C123_equal_primes_violated (the comparison is of pointers), C123_small_sizes_violated (lengths 4 and 5 never end)."
 },
 "C124": {
  "status": "partial",
  "note": "Honest runs under every schedule and soundness of each side against arbitrary peers proved; negated: C124_peer_waits_violated (no error is sent to the other side), C124_other_curves_violated (only K-256 types are registered with gob). encoding/gob and the transport are modelled as reliable FIFO queues of values."
 },
 "C125": {
  "status": "partial",
  "note": "Honest runs under every schedule and the sender's check proved (columns that decode is a hypothesis, see C25); negated: C125_peer_waits_violated, C125_unregistered_violated. encoding/gob and the transport are modelled as reliable FIFO queues of values."
 },
 "C126": {
  "status": "partial",
  "note": "Round trip, when loading fails and the key of the set proved; the user's key proved in a process that has registered the types; negated: C126_user_after_restart_violated, C126_user_sign_after_restart_violated, C126_unusable_loaded_violated, C126_nil_accepted_violated, C126_mixed_keys_violated. encoding/json and encoding/gob are assumed to read back what they wrote."
 },
 "C127": {
  "status": "partial",
  "note": "Proved except that a converted name is kept: negated by C127_convert_twice_violated. encoding/hex and big.Int.SetBytes are modelled from their documentation."
 }
}