{
 "claims": [
  {
   "property": "C01",
   "status": "proved",
   "theorems": [
    "Verif.Sharing.C01_split_combine",
    "Verif.Sharing.C01_split_zero"
   ],
   "note": ""
  },
  {
   "property": "C02",
   "status": "proved",
   "theorems": [
    "Verif.Sharing.C02_combine_isSome_iff",
    "Verif.Sharing.C02_combine_value"
   ],
   "note": ""
  },
  {
   "property": "C03",
   "status": "proved",
   "theorems": [
    "Verif.Sharing.C03_perfect_secrecy"
   ],
   "note": ""
  },
  {
   "property": "C04",
   "status": "proved",
   "theorems": [
    "Verif.Sharing.C04_feldman_verify_iff",
    "Verif.Sharing.C04_accepted_shares_agree"
   ],
   "note": ""
  },
  {
   "property": "C05",
   "status": "proved",
   "theorems": [
    "Verif.Sharing.C05_pedersen_complete",
    "Verif.Sharing.C05_pedersen_feldman",
    "Verif.Sharing.C05_pedersen_binding",
    "Verif.Sharing.C05_blind_id_unchecked"
   ],
   "note": ""
  },
  {
   "property": "C06",
   "status": "proved",
   "theorems": [
    "Verif.Sharing.C06_combinePoints",
    "Verif.Sharing.C06_lagrangeCoeffs"
   ],
   "note": ""
  },
  {
   "property": "C07",
   "status": "proved",
   "theorems": [
    "Verif.SharingV1.C07_combine_spec",
    "Verif.SharingV1.C07_split_combine",
    "Verif.SharingV1.C07_split_err",
    "Verif.SharingV1.C07_combine_err",
    "Verif.SharingV1.C07_leading_zeros_lost"
   ],
   "note": ""
  },
  {
   "property": "C08",
   "status": "proved",
   "theorems": [
    "Verif.SharingV1.C08_add_combine",
    "Verif.SharingV1.C08_add_mismatch_panics"
   ],
   "note": ""
  },
  {
   "property": "C09",
   "status": "proved",
   "theorems": [
    "Verif.SharingV1.C09_feldman_verify_iff",
    "Verif.SharingV1.C09_pedersen_feldman",
    "Verif.SharingV1.C09_pedersen"
   ],
   "note": ""
  },
  {
   "property": "C10",
   "status": "proved",
   "theorems": [
    "Verif.FrostDkg.C10_honest_run",
    "Verif.FrostDkg.C10_reconstruct"
   ],
   "note": ""
  },
  {
   "property": "C11",
   "status": "partial",
   "theorems": [
    "Verif.FrostDkg.C11_round2_sound_partial",
    "Verif.FrostDkg.C11_round2_outcome_partial",
    "Verif.FrostDkg.C11_foreign_share_accepted"
   ],
   "note": "Round2 checks each share at the identifier written inside the share, not at the receiver's own identifier; C11_foreign_share_accepted proves the negation of the full statement with a witness, C11_round2_sound_partial is what Round2 does guarantee."
  },
  {
   "property": "C12",
   "status": "partial",
   "theorems": [
    "Verif.FrostDkg.C12_contexts_confused",
    "Verif.FrostDkg.C12_context_binding_partial"
   ],
   "note": "The context is reduced to byte(Atoi(ctx)), so distinct contexts may coincide (C12_contexts_confused, negation); C12_context_binding_partial holds when the reduced bytes differ."
  },
  {
   "property": "C13",
   "status": "proved",
   "theorems": [
    "Verif.Gennaro.C13_honest_run",
    "Verif.Gennaro.C13_caller_secret",
    "Verif.Gennaro.C13_reconstruct"
   ],
   "note": ""
  },
  {
   "property": "C14",
   "status": "partial",
   "theorems": [
    "Verif.Gennaro.C14_public_shares_wrong"
   ],
   "note": "The code violates the property: C14_public_shares_wrong proves its negation on every curve of order >= 5 (an honest run whose reported public share differs from share*G). What Round4 does compute is part of C13_honest_run."
  },
  {
   "property": "C15",
   "status": "proved",
   "theorems": [
    "Verif.FrostDkg.C15_frost_dkg_rounds",
    "Verif.FrostSign.C15_frost_signer_rounds",
    "Verif.FrostSign.C15_frost_signer_round3_panics",
    "Verif.Gennaro.C15_gennaro_rounds"
   ],
   "note": "DKG (FROST, Gennaro) and FROST signer. Out-of-order Round3 on a fresh FROST signer panics rather than returning an error (C15_frost_signer_round3_panics)."
  },
  {
   "property": "C16",
   "status": "proved",
   "theorems": [
    "Verif.FrostSign.C16_honest_signing",
    "Verif.FrostSign.C16_negative_R_fails"
   ],
   "note": "For every challenge deriver that does not distinguish R from -R when R counts as negative (Ed25519: never negative; Mina: hashes x only). C16_negative_R_fails shows the condition is needed."
  },
  {
   "property": "C17",
   "status": "partial",
   "theorems": [
    "Verif.FrostSign.C17_round2_sound_partial",
    "Verif.FrostSign.C17_round3_sound_partial",
    "Verif.FrostSign.C17_bad_response_rejected_partial",
    "Verif.FrostSign.C17_wrong_sum_needs_collision_partial",
    "Verif.FrostSign.C17_offsetting_accepted"
   ],
   "note": "Round3 checks each response against the verification share the cosigner itself sends, so the full statement is false: C17_offsetting_accepted (negation). Proved: what acceptance implies (sum verifies under the group key, each response fits the announced share; with the genuine share the response is unique; a wrong sum needs a challenge collision)."
  },
  {
   "property": "C18",
   "status": "proved",
   "theorems": [
    "Verif.Ted25519.C18_deal",
    "Verif.Ted25519.C18_aggregate_verifies",
    "Verif.Ted25519.C18_nonce_add",
    "Verif.Ted25519.C18_end_to_end",
    "Verif.Ted25519.C18_nonce_mismatch",
    "Verif.Ted25519.C18_zero_share_panics",
    "Verif.Ted25519.C18_identifier_truncated"
   ],
   "note": "Proved for at most 255 participants and non-zero shares; the excluded cases are findings: C18_zero_share_panics, C18_identifier_truncated."
  },
  {
   "property": "C19",
   "status": "partial",
   "theorems": [
    "Verif.Ted25519.C19_vss_small_partial",
    "Verif.Ted25519.C19_honest_share_rejected",
    "Verif.Ted25519.C19_dealing_rejected"
   ],
   "note": "False in general: VerifyVSS reads the big-endian bytes of id^j as little-endian (C19_honest_share_rejected, C19_dealing_rejected: T=3, participant 16). Exact Feldman check proved when id^(T-1) < 256."
  },
  {
   "property": "C20",
   "status": "proved",
   "theorems": [
    "Verif.Schnorr.C20_complete",
    "Verif.Schnorr.C20_special_soundness",
    "Verif.Schnorr.C20_session_binding",
    "Verif.Schnorr.C20_commit_binding"
   ],
   "note": ""
  },
  {
   "property": "C21",
   "status": "proved",
   "theorems": [
    "Verif.Paillier.C21_decrypt_encrypt",
    "Verif.Paillier.C21_range_rejected",
    "Verif.Paillier.C21_decrypt_range",
    "Verif.Paillier.C21_safe_primes",
    "Verif.Paillier.C21_nonunit_nonce",
    "Verif.Paillier.C21_nonunit_nonce_reachable",
    "Verif.Paillier.C21_noninvertible_key",
    "Verif.Paillier.C21_equal_primes_accepted"
   ],
   "note": ""
  },
  {
   "property": "C22",
   "status": "proved",
   "theorems": [
    "Verif.Paillier.C22_homomorphic",
    "Verif.Paillier.C22_range_rejected",
    "Verif.Paillier.C22_encryptions"
   ],
   "note": ""
  },
  {
   "property": "C23",
   "status": "proved",
   "theorems": [
    "Verif.Paillier.C23_verify_iff",
    "Verif.Paillier.C23_complete",
    "Verif.Paillier.C23_nonsquarefree",
    "Verif.Paillier.C23_short_proof_panics",
    "Verif.Paillier.C23_challenges",
    "Verif.Paillier.C23_end_to_end",
    "Verif.Paillier.C23_challenges_ignore_modulus"
   ],
   "note": ""
  },
  {
   "property": "C24",
   "status": "proved",
   "theorems": [
    "Verif.OT.C24_honest_run",
    "Verif.OT.C24_transfer",
    "Verif.OT.C24_round5_iff",
    "Verif.OT.C24_round6_iff",
    "Verif.OT.C24_choice_hidden",
    "Verif.OT.C24_index_wraps",
    "Verif.OT.C24_batch_multiple_of_8",
    "Verif.OT.C24_refusals"
   ],
   "note": ""
  },
  {
   "property": "C25",
   "status": "proved",
   "theorems": [
    "Verif.OT.Kos.C25_check_iff",
    "Verif.OT.Kos.C25_honest",
    "Verif.OT.Kos.C25_tampered_check_value",
    "Verif.OT.Kos.C25_challenge_binds"
   ],
   "note": ""
  },
  {
   "property": "C26",
   "status": "proved",
   "theorems": [
    "Verif.OT.BinaryField.C26_binaryFieldMul",
    "Verif.OT.BinaryField.C26_ring_laws"
   ],
   "note": ""
  },
  {
   "property": "C27",
   "status": "proved",
   "theorems": [
    "Verif.Dkls.C27_check_iff",
    "Verif.Dkls.C27_honest",
    "Verif.Dkls.C27_tail_rows_unchecked"
   ],
   "note": ""
  },
  {
   "property": "C28",
   "status": "proved",
   "theorems": [
    "Verif.Dkls.Dkg.C28_honest",
    "Verif.Dkls.Dkg.C28_alice_accepts_iff",
    "Verif.Dkls.Dkg.C28_bob_accepts",
    "Verif.Dkls.Dkg.C28_identity_key_accepted"
   ],
   "note": ""
  },
  {
   "property": "C29",
   "status": "proved",
   "theorems": [
    "Verif.Dkls.Refresh.C29_refresh",
    "Verif.Dkls.Refresh.C29_success_preserves_key",
    "Verif.Dkls.Refresh.C29_any_history",
    "Verif.Dkls.Refresh.C29_zero_multiplier"
   ],
   "note": ""
  },
  {
   "property": "C30",
   "status": "proved",
   "theorems": [
    "Verif.Dkls.Sign.C30_honest",
    "Verif.Dkls.Sign.C30_output_verifies",
    "Verif.Dkls.Sign.C30_nonce_bound",
    "Verif.Dkls.Sign.C30_progress",
    "Verif.Dkls.Sign.C30_low_s_not_guaranteed"
   ],
   "note": ""
  },
  {
   "property": "C31",
   "status": "proved",
   "theorems": [
    "Verif.Mpc.C31_terminates",
    "Verif.Mpc.C31_in_order",
    "Verif.Mpc.C31_no_pause",
    "Verif.Mpc.C31_extra_steps_get_nil",
    "Verif.Mpc.C31_sentinel_from_step",
    "Verif.Mpc.C31_generateKss",
    "Verif.Mpc.C31_runRefresh",
    "Verif.Mpc.C31_runSign",
    "Verif.Mpc.C31_lifecycle_sound",
    "Verif.Mpc.C31_lifecycle_complete"
   ],
   "note": ""
  },
  {
   "property": "C32",
   "status": "proved",
   "theorems": [
    "Verif.Accumulator.C32_step",
    "Verif.Accumulator.C32_value",
    "Verif.Accumulator.C32_net",
    "Verif.Accumulator.C32_succeeds",
    "Verif.Accumulator.C32_add_remove",
    "Verif.Accumulator.C32_withElements",
    "Verif.Accumulator.C32_poisoned"
   ],
   "note": ""
  },
  {
   "property": "C33",
   "status": "proved",
   "theorems": [
    "Verif.Accumulator.C33_verify_iff",
    "Verif.Accumulator.C33_issued_verifies",
    "Verif.Accumulator.C33_issue_iff",
    "Verif.Accumulator.C33_unique",
    "Verif.Accumulator.C33_revoked"
   ],
   "note": ""
  },
  {
   "property": "C34",
   "status": "proved",
   "theorems": [
    "Verif.Accumulator.C34_multi_is_sequence",
    "Verif.Accumulator.C34_multi",
    "Verif.Accumulator.C34_multi_deleted_fails",
    "Verif.Accumulator.C34_multi_lengths",
    "Verif.Accumulator.C34_multi_empty_panics",
    "Verif.Accumulator.C34_batch",
    "Verif.Accumulator.C34_batch_verify",
    "Verif.Accumulator.C34_batch_sound",
    "Verif.Accumulator.C34_added_from_anything",
    "Verif.Accumulator.C34_deleted_fails",
    "Verif.Accumulator.C34_empty_batch_panics"
   ],
   "note": ""
  },
  {
   "property": "C35",
   "status": "proved",
   "theorems": [
    "Verif.Accumulator.C35_finalize_iff",
    "Verif.Accumulator.C35_complete",
    "Verif.Accumulator.C35_bytes_binding",
    "Verif.Accumulator.C35_invalid_witness_rejected",
    "Verif.Accumulator.C35_extract",
    "Verif.Accumulator.C35_params_inputs"
   ],
   "note": ""
  },
  {
   "property": "C36",
   "status": "proved",
   "theorems": [
    "Verif.Bls.C36_verify_iff",
    "Verif.Bls.C36_complete",
    "Verif.Bls.C36_unique",
    "Verif.Bls.C36_guards",
    "Verif.Bls.C36_aggregate_iff",
    "Verif.Bls.C36_aggregate_complete",
    "Verif.Bls.C36_repeated_messages_refused",
    "Verif.Bls.C36_aug_verify_iff",
    "Verif.Bls.C36_aug_aggregate_iff",
    "Verif.Bls.C36_pop_iff",
    "Verif.Bls.C36_pop_tags",
    "Verif.Bls.C36_fast_iff",
    "Verif.Bls.C36_constituent",
    "Verif.Bls.C36_rogue_key"
   ],
   "note": ""
  },
  {
   "property": "C37",
   "status": "proved",
   "theorems": [
    "Verif.Bls.C37_combine_iff",
    "Verif.Bls.C37_duplicates_refused",
    "Verif.Bls.C37_thresholdize_iff",
    "Verif.Bls.C37_threshold",
    "Verif.Bls.C37_tamper",
    "Verif.Bls.C37_identifier_zero",
    "Verif.Bls.C37_keyshare_roundtrip",
    "Verif.Bls.C37_keyshare_decode"
   ],
   "note": ""
  },
  {
   "property": "C38",
   "status": "proved",
   "theorems": [
    "Verif.Mina.BitVector.C38_append",
    "Verif.Mina.BitVector.C38_element",
    "Verif.Mina.BitVector.C38_set",
    "Verif.Mina.BitVector.C38_insert",
    "Verif.Mina.BitVector.C38_delete",
    "Verif.Mina.BitVector.C38_history",
    "Verif.Mina.BitVector.C38_spare_irrelevant"
   ],
   "note": ""
  },
  {
   "property": "C39",
   "status": "proved",
   "theorems": [
    "Verif.Mina.C39_sign_verifies_txn",
    "Verif.Mina.C39_sign_verifies_msg",
    "Verif.Mina.C39_verify_iff",
    "Verif.Mina.C39_verify_msg_iff",
    "Verif.Mina.C39_unique_s",
    "Verif.Mina.C39_txn_binding",
    "Verif.Mina.C39_txn_sound",
    "Verif.Mina.C39_message_binding",
    "Verif.Mina.C39_message_zero_pad",
    "Verif.Mina.C39_sponge_no_padding",
    "Verif.Mina.C39_empty_message",
    "Verif.Mina.C39_network_panic",
    "Verif.Mina.C39_sign_total",
    "Verif.Mina.C39_marshal_roundtrip",
    "Verif.Mina.C39_marshal_long_memo_panics",
    "Verif.Mina.C39_long_memo_collision",
    "Verif.Mina.C39_threshold_challenge",
    "Verif.Mina.C39_threshold_verifies_iff_even",
    "Verif.Mina.C39_sig_roundtrip",
    "Verif.Mina.C39_sig_canonical",
    "Verif.Mina.C39_address_roundtrip",
    "Verif.Mina.C39_address_checked",
    "Verif.Mina.C39_address_aliases"
   ],
   "note": ""
  },
  {
   "property": "C40",
   "status": "proved",
   "theorems": [
    "Verif.CoreMod.C40_add_mul_neg",
    "Verif.CoreMod.C40_nil",
    "Verif.CoreMod.C40_inv",
    "Verif.CoreMod.C40_exp",
    "Verif.CoreMod.C40_exp_neg",
    "Verif.CoreMod.C40_exp_missing_error",
    "Verif.CoreMod.C40_in_eq",
    "Verif.CoreMod.C40_rand"
   ],
   "note": ""
  },
  {
   "property": "C41",
   "status": "proved",
   "theorems": [
    "Verif.Elem.C41_canonical_reachable",
    "Verif.Elem.C41_json_not_canonical",
    "Verif.Elem.C41_field_ops",
    "Verif.Elem.C41_mixed_moduli_panic"
   ],
   "note": ""
  },
  {
   "property": "C42",
   "status": "proved",
   "theorems": [
    "Verif.Hash.C42_i2osp_length",
    "Verif.Hash.C42_i2osp_roundtrip",
    "Verif.Hash.C42_os2ip_roundtrip",
    "Verif.Hash.C42_i2osp_overflow",
    "Verif.Hash.C42_expand_rfc",
    "Verif.Hash.C42_expand_length",
    "Verif.Hash.C42_expand_zero_panics",
    "Verif.Hash.C42_expand_binding",
    "Verif.Hash.C42_hash_value",
    "Verif.Hash.C42_hash_to_field",
    "Verif.Hash.C42_hash_to_field_value"
   ],
   "note": ""
  },
  {
   "property": "C43",
   "status": "proved",
   "theorems": [
    "Verif.Hash.C43_no_zero_byte",
    "Verif.Hash.C43_counter_period",
    "Verif.Hash.C43_counter_distinct",
    "Verif.Hash.C43_chain_step",
    "Verif.Hash.C43_hash_binding",
    "Verif.Hash.C43_fiat_shamir_binding",
    "Verif.Hash.C43_fiat_shamir_sign"
   ],
   "note": ""
  },
  {
   "property": "C44",
   "status": "proved",
   "theorems": [
    "Verif.Daed.C44_double",
    "Verif.Daed.C44_new",
    "Verif.Daed.C44_cmac_rfc",
    "Verif.Daed.C44_cmac_long",
    "Verif.Daed.C44_s2v_rfc",
    "Verif.Daed.C44_decrypt_iff",
    "Verif.Daed.C44_round_trip",
    "Verif.Daed.C44_decrypt_total",
    "Verif.Daed.C44_ciphertext_shape",
    "Verif.Daed.C44_ad_binding"
   ],
   "note": ""
  },
  {
   "property": "C45",
   "status": "proved",
   "theorems": [
    "Verif.App.MsgFilter.C45_filter_iff",
    "Verif.App.MsgFilter.C45_blocked_rejected",
    "Verif.App.MsgFilter.C45_malformed_rejected",
    "Verif.App.MsgFilter.C45_clean_passed"
   ],
   "note": "About the decorator itself; app/ante.go's NewAnteHandler does not install it."
  },
  {
   "property": "C46",
   "status": "proved",
   "theorems": [
    "Verif.App.Did.C46_handle",
    "Verif.App.Did.C46_other_refused",
    "Verif.App.Did.C46_history",
    "Verif.App.Did.C46_authority_never_empty",
    "Verif.App.Did.C46_genesis_roundtrip",
    "Verif.App.Did.C46_module_genesis_ignored",
    "Verif.App.Did.C46_module_genesis_loses"
   ],
   "note": "Keeper InitGenesis/ExportGenesis round-trip; but the AppModule's InitGenesis ignores the genesis JSON (C46_module_genesis_ignored, C46_module_genesis_loses: negative finding)."
  },
  {
   "property": "C47",
   "status": "partial",
   "theorems": [
    "Verif.Secret.C47_decrypt_iff",
    "Verif.Secret.C47_decrypt_no_panic",
    "Verif.Secret.C47_encrypt_iff",
    "Verif.Secret.C47_roundtrip_fails",
    "Verif.Secret.C47_roundtrip_is_forgery",
    "Verif.Secret.C47_roundtrip_partial",
    "Verif.Secret.C47_secret_key_unused",
    "Verif.Secret.C47_anyone_authorised",
    "Verif.Secret.C47_seed_binding",
    "Verif.Secret.C47_key_concat",
    "Verif.Secret.C47_key_binding",
    "Verif.Secret.C47_not_roundtrip"
   ],
   "note": "The code violates the property: Encrypt and Decrypt use different layouts, C47_roundtrip_fails / C47_not_roundtrip prove decryption of every honest output fails (any success is an AES-GCM forgery, C47_roundtrip_is_forgery). The secret key is unused and the witness check authorises anybody. C47_roundtrip_partial: the layout Decrypt expects works."
  },
  {
   "property": "C48",
   "status": "proved",
   "theorems": [
    "Verif.Octets.C48_int2octets",
    "Verif.Octets.C48_int2octets_inj",
    "Verif.Octets.C48_hashToInt",
    "Verif.Octets.C48_bits2octets",
    "Verif.Octets.C48_signCompact",
    "Verif.Octets.C48_hex",
    "Verif.Octets.C48_hex_inj",
    "Verif.Octets.C48_newSignatureData"
   ],
   "note": "RFC 6979 conversions, SignCompact (least recovery id), hexadecimal text."
  },
  {
   "property": "C49",
   "status": "partial",
   "theorems": [
    "Verif.Bip32.C49_child",
    "Verif.Bip32.C49_consistent",
    "Verif.Bip32.C49_chain_code_truncated",
    "Verif.Bip32.C49_index_truncated",
    "Verif.Bip32.C49_hardened_not_refused",
    "Verif.Bip32.C49_negative_accepted",
    "Verif.Bip32.C49_identity_child",
    "Verif.Bip32.C49_separation_partial"
   ],
   "note": "False of the code: chain codes are reduced to a byte and indices to 32 bits (C49_chain_code_truncated, C49_index_truncated); hardened and negative indices pass. C49_separation_partial: separation up to that reduction and HMAC collisions."
  },
  {
   "property": "C50",
   "status": "proved",
   "theorems": [
    "Verif.Native.C50_fromBytes_value",
    "Verif.Native.C50_toBytes_value",
    "Verif.Native.C50_mul",
    "Verif.Native.C50_square",
    "Verif.Native.C50_add",
    "Verif.Native.C50_sub",
    "Verif.Native.C50_neg",
    "Verif.Native.C50_double",
    "Verif.Native.C50_constants",
    "Verif.Native.C50_setLimbs",
    "Verif.Native.C50_setUint64",
    "Verif.Native.C50_setBytesWide",
    "Verif.Native.C50_setBytes",
    "Verif.Native.C50_bytes",
    "Verif.Native.C50_raw",
    "Verif.Native.C50_bigInt",
    "Verif.Native.C50_bytes_roundtrip",
    "Verif.Native.C50_setBigInt",
    "Verif.Native.C50_equal",
    "Verif.Native.C50_pow",
    "Verif.Native.C50_exp",
    "Verif.Native.C50_pow2k",
    "Verif.Native.C50_cmp_is_integer_order",
    "Verif.Native.C50_equal_iff",
    "Verif.Native.C50_zero_tests",
    "Verif.Native.C50_k256Fp",
    "Verif.Native.C50_p256Fp",
    "Verif.Native.C50_k256Fq",
    "Verif.Native.C50_p256Fq"
   ],
   "note": "All 256-bit limb values; arithmetic, decoding, Pow, Invert and Sqrt of the four native fields on the repository's constants."
  },
  {
   "property": "C51",
   "status": "partial",
   "theorems": [
    "Verif.Native.C51_cmp_exact",
    "Verif.Native.C51_cmp_not_by_value"
   ],
   "note": "False of the code: C51_cmp_not_by_value (K-256, P-256, Pallas witnesses). C51_cmp_exact: what Cmp computes instead. BLS12-381 not modelled."
  },
  {
   "property": "C52",
   "status": "partial",
   "theorems": [
    "Verif.Gennaro.C52_round2_sound_partial",
    "Verif.Gennaro.C52_round3_sound_partial",
    "Verif.Gennaro.C52_foreign_share_accepted"
   ],
   "note": "Equations hold at the identifier written inside the share; that identifier is never compared with the receiver's (C52_foreign_share_accepted, negation)."
  },
  {
   "property": "C53",
   "status": "proved",
   "theorems": [
    "Verif.Mpc.C53_roundtrip",
    "Verif.Mpc.C53_canonical",
    "Verif.Mpc.C53_wide_r_overwrites_v"
   ],
   "note": ""
  },
  {
   "property": "C54",
   "status": "proved",
   "theorems": [
    "Verif.Accumulator.C54_roundtrip",
    "Verif.Accumulator.C54_canonical"
   ],
   "note": ""
  },
  {
   "property": "C55",
   "status": "proved",
   "theorems": [
    "Verif.Hash.C55_native_rfc",
    "Verif.Hash.C55_expanders_agree",
    "Verif.Hash.C55_native_never_refuses",
    "Verif.Hash.C55_native_zero_panics",
    "Verif.Hash.C55_xof_rfc"
   ],
   "note": ""
  },
  {
   "property": "C56",
   "status": "partial",
   "theorems": [
    "Verif.App.Oracle.C56_callbacks_transparent",
    "Verif.App.Oracle.C56_ack_version_transparent",
    "Verif.App.Oracle.C56_keeper_transparent",
    "Verif.App.Oracle.C56_send_packet_port",
    "Verif.App.Oracle.C56_send_packet_iff"
   ],
   "note": "All callbacks and WriteAcknowledgement/GetAppVersion are transparent; SendPacket passes the source channel where the port belongs (C56_send_packet_port), so it is transparent iff the two coincide (C56_send_packet_iff)."
  },
  {
   "property": "C57",
   "status": "partial",
   "theorems": [
    "Verif.App.Did.C57_wellformed_stores_nothing",
    "Verif.App.Did.C57_stored_on_error",
    "Verif.App.Did.C57_rows_permanent"
   ],
   "note": "The code violates the property: a message whose entries all parse stores nothing (C57_wellformed_stores_nothing); C57_stored_on_error and C57_rows_permanent say what does happen."
  },
  {
   "property": "C58",
   "status": "partial",
   "theorems": [
    "Verif.App.Vault.C58_link",
    "Verif.App.Vault.C58_unlink_partial",
    "Verif.App.Vault.C58_history",
    "Verif.App.Vault.C58_duplicate_panics",
    "Verif.App.Vault.C58_link_twice_unlink_panics",
    "Verif.App.Vault.C58_duplicate_survives"
   ],
   "note": "Holds for histories without duplicate links (C58_history, C58_unlink_partial); duplicates are not handled: C58_duplicate_panics, C58_link_twice_unlink_panics, C58_duplicate_survives."
  },
  {
   "property": "C59",
   "status": "proved",
   "theorems": [
    "Verif.App.Vault.C59_update",
    "Verif.App.Vault.C59_history",
    "Verif.App.Vault.C59_replay"
   ],
   "note": ""
  },
  {
   "property": "C60",
   "status": "proved",
   "theorems": [
    "Verif.App.Identifier.C60_email_accepts",
    "Verif.App.Identifier.C60_phone_accepts",
    "Verif.App.Identifier.C60_did_is_hex",
    "Verif.App.Identifier.C60_equals_iff",
    "Verif.App.Identifier.C60_equals_binding",
    "Verif.App.Identifier.C60_kinds_disjoint"
   ],
   "note": ""
  },
  {
   "property": "C61",
   "status": "partial",
   "theorems": [
    "Verif.App.Fs.C61_file_never_loads",
    "Verif.App.Fs.C61_folder_with_file_never_loads",
    "Verif.App.Fs.C61_stays_inside_partial",
    "Verif.App.Fs.C61_escapes",
    "Verif.App.Fs.C61_vault_path"
   ],
   "note": "A folder containing a file never loads (C61_folder_with_file_never_loads), and names with separators escape the target (C61_escapes); C61_stays_inside_partial holds for plain names."
  },
  {
   "property": "C62",
   "status": "proved",
   "theorems": [
    "Verif.App.Fs.C62_read_after_write",
    "Verif.App.Fs.C62_append",
    "Verif.App.Fs.C62_touch",
    "Verif.App.Fs.C62_copy",
    "Verif.App.Fs.C62_copy_onto_itself_erases",
    "Verif.App.Fs.C62_failed_copy_truncates"
   ],
   "note": "Copy onto itself erases the file and a failed copy truncates the destination: C62_copy_onto_itself_erases, C62_failed_copy_truncates."
  },
  {
   "property": "C63",
   "status": "partial",
   "theorems": [
    "Verif.Actor.C63_served",
    "Verif.Actor.C63_failure_not_single_error",
    "Verif.Actor.C63_protocol_error",
    "Verif.Actor.C63_sent_signature_verifies"
   ],
   "note": "The success half holds (C63_served, C63_sent_signature_verifies); the failure half is false: missing returns send an error followed by an empty signature or crash (C63_failure_not_single_error, C63_protocol_error)."
  },
  {
   "property": "C64",
   "status": "partial",
   "theorems": [
    "Verif.PubKey.C64_accepts_iff",
    "Verif.PubKey.C64_short_key_panics",
    "Verif.PubKey.C64_offcurve_panics",
    "Verif.PubKey.C64_tags_ignored",
    "Verif.PubKey.C64_malleable",
    "Verif.PubKey.C64_zero_key_forgery",
    "Verif.PubKey.C64_keyshare_signature_verifies",
    "Verif.PubKey.C64_sign_serialises"
   ],
   "note": "Exact acceptance condition and life-cycle theorem proved; false parts as negative theorems: short keys and off-curve keys crash (C64_short_key_panics, C64_offcurve_panics), the identity key accepts forgeries (C64_zero_key_forgery), signatures are malleable."
  },
  {
   "property": "C65",
   "status": "partial",
   "theorems": [
    "Verif.Secret.C65_create",
    "Verif.Secret.C65_witness_verifies",
    "Verif.Secret.C65_nonmember_verifies",
    "Verif.Secret.C65_stale_witness",
    "Verif.Secret.C65_update"
   ],
   "note": "C65_nonmember_verifies: CreateWitness issues a verifying witness for values never added, so 'exactly for members' is false. Creation, update, issued witnesses and staleness are proved."
  },
  {
   "property": "C66",
   "status": "proved",
   "theorems": [
    "Verif.Native.C66_scalar_ring",
    "Verif.Native.C66_scalar_division",
    "Verif.Native.C66_scalar_sqrt",
    "Verif.Native.C66_scalar_integers",
    "Verif.Native.C66_scalar_bytes",
    "Verif.Native.C66_scalar_wide",
    "Verif.Native.C66_scalar_tests"
   ],
   "note": ""
  },
  {
   "property": "C67",
   "status": "partial",
   "theorems": [
    "Verif.Native.C67_cmp_exact",
    "Verif.Native.C67_setBytes_exact",
    "Verif.Native.C67_setBigInt_exact",
    "Verif.Native.C67_equal",
    "Verif.Native.C67_exp",
    "Verif.Native.C67_isOdd",
    "Verif.Native.C67_invert",
    "Verif.Native.C67_sqrt",
    "Verif.Native.C67_instances",
    "Verif.Native.C67_accepts_noncanonical",
    "Verif.Native.C67_two_encodings",
    "Verif.Native.C67_refuses_canonical",
    "Verif.Native.C67_parity_wrong"
   ],
   "note": "Arithmetic proved. Canonical decoding, round trip, SetBigInt and ScalarPallas parity are false of the code (C67_accepts_noncanonical, C67_two_encodings, C67_refuses_canonical, C67_parity_wrong); exact behaviour in C67_setBytes_exact and C67_setBigInt_exact."
  },
  {
   "property": "C68",
   "status": "proved",
   "theorems": [
    "Verif.Native.C68_k256",
    "Verif.Native.C68_p256",
    "Verif.Native.C68_group",
    "Verif.Native.C68_equal",
    "Verif.Native.C68_mul",
    "Verif.Native.C68_sumOfProducts"
   ],
   "note": ""
  },
  {
   "property": "C69",
   "status": "proved",
   "theorems": [
    "Verif.Native.C69_k256_order",
    "Verif.Native.C69_p256_order"
   ],
   "note": ""
  },
  {
   "property": "C70",
   "status": "proved",
   "theorems": [
    "Verif.Native.C70_affine",
    "Verif.Native.C70_isOnCurve",
    "Verif.Native.C70_setBigInt",
    "Verif.Native.C70_encode",
    "Verif.Native.C70_decompress",
    "Verif.Native.C70_compressed_roundtrip",
    "Verif.Native.C70_uncompressed",
    "Verif.Native.C70_uncompressed_roundtrip",
    "Verif.Native.C70_isNegative",
    "Verif.Native.C70_k256_identity",
    "Verif.Native.C70_p256_identity",
    "Verif.Native.C70_uncompressed_unchecked",
    "Verif.Native.C70_isNegative_not_sign"
   ],
   "note": ""
  },
  {
   "property": "C71",
   "status": "proved",
   "theorems": [
    "Verif.Native.C71_isOnCurve",
    "Verif.Native.C71_add_double",
    "Verif.Native.C71_scalarMult",
    "Verif.Native.C71_wrapper_departures"
   ],
   "note": ""
  },
  {
   "property": "C72",
   "status": "proved",
   "theorems": [
    "Verif.Bulletproof.C72_completeness",
    "Verif.Bulletproof.C72_generators",
    "Verif.Bulletproof.C72_getP",
    "Verif.Bulletproof.C72_verify_exact",
    "Verif.Bulletproof.C72_verify_refuses",
    "Verif.Bulletproof.C72_input_checks",
    "Verif.Bulletproof.C72_verify_overflow",
    "Verif.Bulletproof.C72_fromRange_mismatch"
   ],
   "note": ""
  },
  {
   "property": "C73",
   "status": "proved",
   "theorems": [
    "Verif.Bulletproof.C73_verify_exact",
    "Verif.Bulletproof.C73_verify_crash",
    "Verif.Bulletproof.C73_bit_length",
    "Verif.Bulletproof.C73_honest",
    "Verif.Bulletproof.C73_domain",
    "Verif.Bulletproof.C73_completeness",
    "Verif.Bulletproof.C73_upper_bound",
    "Verif.Bulletproof.C73_big_endian_rejected"
   ],
   "note": ""
  },
  {
   "property": "C74",
   "status": "proved",
   "theorems": [
    "Verif.Bulletproof.C74_verify_exact",
    "Verif.Bulletproof.C74_honest",
    "Verif.Bulletproof.C74_single_panics",
    "Verif.Bulletproof.C74_short_gamma",
    "Verif.Bulletproof.C74_refused",
    "Verif.Bulletproof.C74_completeness",
    "Verif.Bulletproof.C74_big_endian"
   ],
   "note": ""
  },
  {
   "property": "C75",
   "status": "proved",
   "theorems": [
    "Verif.Bulletproof.C75_ipp_roundtrip",
    "Verif.Bulletproof.C75_range_roundtrip",
    "Verif.Bulletproof.C75_canonical",
    "Verif.Bulletproof.C75_truncated"
   ],
   "note": ""
  },
  {
   "property": "C76",
   "status": "proved",
   "theorems": [
    "Verif.Bbs.C76_verify_exact",
    "Verif.Bbs.C76_accepted_equation",
    "Verif.Bbs.C76_verify_total",
    "Verif.Bbs.C76_sign_value",
    "Verif.Bbs.C76_sign_refuses",
    "Verif.Bbs.C76_sign_verify",
    "Verif.Bbs.C76_forgery",
    "Verif.Bbs.C76_same_sum",
    "Verif.Bbs.C76_sum_binding"
   ],
   "note": ""
  },
  {
   "property": "C77",
   "status": "proved",
   "theorems": [
    "Verif.Bbs.C77_init",
    "Verif.Bbs.C77_get_constant",
    "Verif.Bbs.C77_deterministic"
   ],
   "note": ""
  },
  {
   "property": "C78",
   "status": "proved",
   "theorems": [
    "Verif.Bbs.C78_verify_exact",
    "Verif.Bbs.C78_new_context",
    "Verif.Bbs.C78_context_verifies",
    "Verif.Bbs.C78_blind_sign_verify",
    "Verif.Bbs.C78_signer_succeeds",
    "Verif.Bbs.C78_context_extract",
    "Verif.Bbs.C78_same_exponent",
    "Verif.Bbs.C78_signer_panics",
    "Verif.Bbs.C78_index_length_panics",
    "Verif.Bbs.C78_index_refused",
    "Verif.Bbs.C78_negative_index"
   ],
   "note": ""
  },
  {
   "property": "C79",
   "status": "proved",
   "theorems": [
    "Verif.Bbs.C79_verify_exact",
    "Verif.Bbs.C79_extra_responses",
    "Verif.Bbs.C79_completeness",
    "Verif.Bbs.C79_new_refuses",
    "Verif.Bbs.C79_new_succeeds",
    "Verif.Bbs.C79_extract",
    "Verif.Bbs.C79_arbitrary_disclosure"
   ],
   "note": ""
  },
  {
   "property": "C80",
   "status": "proved",
   "theorems": [
    "Verif.Bbs.Drbg.C80_seed",
    "Verif.Bbs.Drbg.C80_seed_split",
    "Verif.Bbs.Drbg.C80_read",
    "Verif.Bbs.Drbg.C80_read_other",
    "Verif.Bbs.Drbg.C80_prefix"
   ],
   "note": ""
  },
  {
   "property": "C81",
   "status": "proved",
   "theorems": [
    "Verif.Bbs.C81_signature",
    "Verif.Bbs.C81_context",
    "Verif.Bbs.C81_proof",
    "Verif.Bbs.C81_keys"
   ],
   "note": ""
  },
  {
   "property": "C82",
   "status": "proved",
   "theorems": [
    "Verif.Native.Pallas.C82_group",
    "Verif.Native.Pallas.C82_equal",
    "Verif.Native.Pallas.C82_mul",
    "Verif.Native.Pallas.C82_sumOfProducts",
    "Verif.Native.Pallas.C82_isOnCurve"
   ],
   "note": ""
  },
  {
   "property": "C83",
   "status": "proved",
   "theorems": [
    "Verif.Native.Pallas.C83_generator",
    "Verif.Native.Pallas.C83_order",
    "Verif.Native.Pallas.C83_mul_injective"
   ],
   "note": ""
  },
  {
   "property": "C84",
   "status": "partial",
   "theorems": [
    "Verif.Native.Pallas.C84_encode",
    "Verif.Native.Pallas.C84_decompress",
    "Verif.Native.Pallas.C84_uncompressed",
    "Verif.Native.Pallas.C84_roundtrip",
    "Verif.Native.Pallas.C84_identity_not_decodable",
    "Verif.Native.Pallas.C84_point_not_decodable",
    "Verif.Native.Pallas.C84_two_encodings"
   ],
   "note": "The code violates the property: the neutral element and every point with a coordinate in the interval the field decoder refuses cannot be decoded, and some points have two encodings (proved: C84_identity_not_decodable, C84_point_not_decodable, C84_two_encodings). Proved for all points outside that set, with exact acceptance conditions."
  },
  {
   "property": "C85",
   "status": "partial",
   "theorems": [
    "Verif.Native.Pallas.C85_set",
    "Verif.Native.Pallas.C85_set_zero",
    "Verif.Native.Pallas.C85_isNegative",
    "Verif.Native.Pallas.C85_isOnCurve",
    "Verif.Native.Pallas.C85_add_double",
    "Verif.Native.Pallas.C85_scalarMult",
    "Verif.Native.Pallas.C85_on_curve_refused",
    "Verif.Native.Pallas.C85_scalar_dropped"
   ],
   "note": "The code violates the property for refused values: C85_on_curve_refused, C85_scalar_dropped. Proved for all coordinates and scalars the field decoder accepts, with exact conditions for Set and IsOnCurve."
  },
  {
   "property": "C86",
   "status": "proved",
   "theorems": [
    "Verif.Native.Pallas.C86_sswu",
    "Verif.Native.Pallas.C86_isogeny",
    "Verif.Native.Pallas.C86_map_unique",
    "Verif.Native.Pallas.C86_hash"
   ],
   "note": ""
  },
  {
   "property": "C87",
   "status": "proved",
   "theorems": [
    "Verif.Native.C87_k256_map_unique",
    "Verif.Native.C87_k256_hash",
    "Verif.Native.C87_p256_map_unique",
    "Verif.Native.C87_p256_hash"
   ],
   "note": ""
  },
  {
   "property": "C88",
   "status": "partial",
   "theorems": [
    "Verif.Native.C88_tags_partial",
    "Verif.Native.C88_shake256_tag",
    "Verif.Native.C88_native_random",
    "Verif.Native.C88_api_random_ignores_reader"
   ],
   "note": "The code violates the property: C88_shake256_tag (the SHAKE-256 hasher runs under the SHAKE-128 tag), C88_api_random_ignores_reader (Random of the curve API returns a fixed public point when the reader delivers nothing). Proved for the other seven hashers and the native Random."
  },
  {
   "property": "C89",
   "status": "proved",
   "theorems": [
    "Verif.Bls381.Fp.C89_representation",
    "Verif.Bls381.Fp.C89_arithmetic",
    "Verif.Bls381.Fp.C89_invert",
    "Verif.Bls381.Fp.C89_sqrt",
    "Verif.Bls381.Fp.C89_tests",
    "Verif.Bls381.Fp.C89_choice",
    "Verif.Bls381.Fp.C89_bytes",
    "Verif.Bls381.Fp.C89_integers"
   ],
   "note": ""
  },
  {
   "property": "C90",
   "status": "partial",
   "theorems": [
    "Verif.Bls381.Fq.C90_codec",
    "Verif.Bls381.Fq.C90_scalar_ring",
    "Verif.Bls381.Fq.C90_scalar_neg",
    "Verif.Bls381.Fq.C90_neg_zero_not_canonical",
    "Verif.Bls381.Fq.C90_neg_zero_acts_as_zero",
    "Verif.Bls381.Fq.C90_scalar_division",
    "Verif.Bls381.Fq.C90_scalar_sqrt",
    "Verif.Bls381.Fq.C90_scalar_integers",
    "Verif.Bls381.Fq.C90_scalar_bytes",
    "Verif.Bls381.Fq.C90_scalar_wide",
    "Verif.Bls381.Fq.C90_scalar_tests"
   ],
   "note": "The code violates the property: C90_neg_zero_not_canonical (Neg of zero leaves the modulus; IsZero, Cmp, Invert and Div then answer wrongly). Everything else is proved."
  },
  {
   "property": "C91",
   "status": "proved",
   "theorems": [
    "Verif.Bls381.Fp2.C91_representation",
    "Verif.Bls381.Fp2.C91_arithmetic",
    "Verif.Bls381.Fp2.C91_unit",
    "Verif.Bls381.Fp2.C91_invert",
    "Verif.Bls381.Fp2.C91_sqrt",
    "Verif.Bls381.Fp2.C91_tests",
    "Verif.Bls381.Fp2.C91_choice",
    "Verif.Bls381.Fp2.C91_sign"
   ],
   "note": ""
  },
  {
   "property": "C92",
   "status": "partial",
   "theorems": [
    "Verif.Bls381.Fp6.C92_fp6_arithmetic",
    "Verif.Bls381.Fp6.C92_fp6_unit",
    "Verif.Bls381.Fp6.C92_fp6_invert",
    "Verif.Bls381.Fp6.C92_fp6_tests",
    "Verif.Bls381.Fp6.C92_fp6_isOne_violated",
    "Verif.Bls381.Fp6.C92_fp6_isOne_partial",
    "Verif.Bls381.Fp12.C92_representation",
    "Verif.Bls381.Fp12.C92_fp12_arithmetic",
    "Verif.Bls381.Fp12.C92_fp12_invert",
    "Verif.Bls381.Fp12.C92_fp12_tests"
   ],
   "note": "The code violates the property: C92_fp6_isOne_violated (the test for one ignores the third coordinate, in Fp6 and so in Fp12). Everything else is proved."
  },
  {
   "property": "C93",
   "status": "partial",
   "theorems": [
    "Verif.Bls381.Gt.C93_final_exponentiation",
    "Verif.Bls381.Gt.C93_group",
    "Verif.Bls381.Gt.C93_isOne_outside_group_violated",
    "Verif.Bls381.Gt.C93_square_outside_group_violated",
    "Verif.Bls381.Gt.C93_mul_always_zero_violated",
    "Verif.Bls381.Gt.C93_bytes",
    "Verif.Bls381.Gt.C93_generator",
    "Verif.Bls381.Gt.C93_scalar_invert",
    "Verif.Bls381.Gt.C93_scalar_new_violated",
    "Verif.Bls381.Gt.C93_scalar_setBytes_length_violated"
   ],
   "note": "The code violates the property: C93_mul_always_zero_violated, C93_isOne_outside_group_violated, C93_square_outside_group_violated, C93_scalar_new_violated, C93_scalar_setBytes_length_violated. The final exponentiation, the group operations on the subgroup, the generator and the encoding are proved."
  },
  {
   "property": "C94",
   "status": "partial",
   "theorems": [
    "Verif.Bls381.G1.C94_group_law",
    "Verif.Bls381.G1.C94_mul",
    "Verif.Bls381.G1.C94_sum_of_products",
    "Verif.Bls381.G1.C94_order",
    "Verif.Bls381.G1.C94_subgroup",
    "Verif.Bls381.G1.C94_clear_cofactor",
    "Verif.Bls381.G1.C94_on_curve",
    "Verif.Bls381.G1.C94_affine",
    "Verif.Bls381.G1.C94_affine_identity_violated"
   ],
   "note": "The code violates the property: C94_affine_identity_violated (ToAffine of the neutral element). Everything else is proved."
  },
  {
   "property": "C95",
   "status": "partial",
   "theorems": [
    "Verif.Bls381.G1.C95_roundtrip",
    "Verif.Bls381.G1.C95_injective",
    "Verif.Bls381.G1.C95_compressed_sound",
    "Verif.Bls381.G1.C95_uncompressed_sound",
    "Verif.Bls381.G1.C95_not_canonical_violated",
    "Verif.Bls381.G1.C95_bigInt",
    "Verif.Bls381.G1.C95_setBigInt"
   ],
   "note": "The code violates the property: C95_not_canonical_violated. Round trips, injectivity, soundness of what is accepted without the infinity flag, and the integer coordinates are proved."
  },
  {
   "property": "C96",
   "status": "partial",
   "theorems": [
    "Verif.Bls381.G2.C96_group_law",
    "Verif.Bls381.G2.C96_mul",
    "Verif.Bls381.G2.C96_sum_of_products",
    "Verif.Bls381.G2.C96_order",
    "Verif.Bls381.G2.C96_subgroup",
    "Verif.Bls381.G2.C96_clear_cofactor",
    "Verif.Bls381.G2.C96_psi",
    "Verif.Bls381.G2.C96_on_curve",
    "Verif.Bls381.G2.C96_affine",
    "Verif.Bls381.G2.C96_affine_identity_violated"
   ],
   "note": "The code violates the property: C96_affine_identity_violated (ToAffine of the neutral element). Everything else is proved."
  },
  {
   "property": "C97",
   "status": "partial",
   "theorems": [
    "Verif.Bls381.G2.C97_roundtrip",
    "Verif.Bls381.G2.C97_injective",
    "Verif.Bls381.G2.C97_compressed_sound",
    "Verif.Bls381.G2.C97_uncompressed_sound",
    "Verif.Bls381.G2.C97_not_canonical_violated",
    "Verif.Bls381.G2.C97_bigInt_constant_violated",
    "Verif.Bls381.G2.C97_setBigInt"
   ],
   "note": "The code violates the property: C97_not_canonical_violated, C97_bigInt_constant_violated. Round trips, injectivity, soundness of what is accepted without the infinity flag, and SetBigInt are proved."
  },
  {
   "property": "C98",
   "status": "proved",
   "theorems": [
    "Verif.Bls381.Pair.C98_pairing",
    "Verif.Bls381.Pair.C98_result",
    "Verif.Bls381.Pair.C98_order",
    "Verif.Bls381.Pair.C98_bilinear",
    "Verif.Bls381.Pair.C98_empty",
    "Verif.Bls381.Pair.C98_slots"
   ],
   "note": "For points of the twist of order q; AddPair does not check this. The Go loops over slices are folds over lists."
  },
  {
   "property": "C99",
   "status": "partial",
   "theorems": [
    "Verif.Bls381.Pair.C99_binding",
    "Verif.Bls381.Pair.C99_subgroup_violated"
   ],
   "note": "The code violates the property: C99_subgroup_violated (the engine accepts points outside the subgroup, whose value is one). For points of order q it is proved (C99_binding)."
  },
  {
   "property": "C100",
   "status": "proved",
   "theorems": [
    "Verif.Bls381.Sig.C100_secret_key",
    "Verif.Bls381.Sig.C100_decode1",
    "Verif.Bls381.Sig.C100_decode2",
    "Verif.Bls381.Sig.C100_usual_public_key",
    "Verif.Bls381.Sig.C100_usual_verify",
    "Verif.Bls381.Sig.C100_usual_sign",
    "Verif.Bls381.Sig.C100_usual_unique_bytes",
    "Verif.Bls381.Sig.C100_usual_guards",
    "Verif.Bls381.Sig.C100_usual_aggregate",
    "Verif.Bls381.Sig.C100_usual_fast_aggregate",
    "Verif.Bls381.Sig.C100_usual_bound",
    "Verif.Bls381.Sig.C100_usual_threshold",
    "Verif.Bls381.Sig.C100_tiny_public_key",
    "Verif.Bls381.Sig.C100_tiny_verify",
    "Verif.Bls381.Sig.C100_tiny_sign",
    "Verif.Bls381.Sig.C100_tiny_unique_bytes",
    "Verif.Bls381.Sig.C100_tiny_guards",
    "Verif.Bls381.Sig.C100_tiny_aggregate",
    "Verif.Bls381.Sig.C100_tiny_fast_aggregate",
    "Verif.Bls381.Sig.C100_tiny_bound",
    "Verif.Bls381.Sig.C100_tiny_threshold",
    "Verif.Bls381.Sig.C100_usual_bound_sign",
    "Verif.Bls381.Sig.C100_usual_aug_aggregate",
    "Verif.Bls381.Sig.C100_tiny_bound_sign",
    "Verif.Bls381.Sig.C100_tiny_aug_aggregate"
   ],
   "note": "The hash of a message to the group is a parameter that lands in the subgroup (Hash1/Hash2); basic, augmented and proof-of-possession signatures, aggregates and thresholds. The shares of the threshold theorem are those of the Shamir model."
  },
  {
   "property": "C101",
   "status": "partial",
   "theorems": [
    "Verif.Bls381.G1.C101_g1_map_unique",
    "Verif.Bls381.G1.C101_g1_hash_partial",
    "Verif.Bls381.G1.C101_g1_exceptional",
    "Verif.Bls381.G1.C101_g1_map_violated",
    "Verif.Bls381.G1.C101_g1_hash_violated",
    "Verif.Bls381.G1.C101_g1_random"
   ],
   "note": "Proved for all messages none of whose two field elements is one of sixteen exceptional elements (C101_g1_exceptional lists them). For those the code computes a triple that is not on the curve: C101_g1_map_violated, C101_g1_hash_violated."
  },
  {
   "property": "C102",
   "status": "partial",
   "theorems": [
    "Verif.Bls381.G2.C102_g2_map_unique",
    "Verif.Bls381.G2.C102_g2_hash_partial",
    "Verif.Bls381.G2.C102_g2_map_violated",
    "Verif.Bls381.G2.C102_g2_hash_violated",
    "Verif.Bls381.G2.C102_g2_random"
   ],
   "note": "Proved for all messages with both field elements non-zero. For a zero element the code tests the wrong quantity for zero and leaves the curve: C102_g2_map_violated, C102_g2_hash_violated."
  },
  {
   "property": "C103",
   "status": "partial",
   "theorems": [
    "Verif.Bls381.Sig.C103_usual_bound_sign_partial",
    "Verif.Bls381.Sig.C103_tiny_bound_sign_partial",
    "Verif.Bls381.Sig.C103_usual_aggregate_partial",
    "Verif.Bls381.Sig.C103_usual_fast_aggregate_partial",
    "Verif.Bls381.Sig.C103_usual_bound_partial",
    "Verif.Bls381.Sig.C103_usual_threshold_partial",
    "Verif.Bls381.Sig.C103_tiny_aggregate_partial",
    "Verif.Bls381.Sig.C103_tiny_fast_aggregate_partial",
    "Verif.Bls381.Sig.C103_tiny_bound_partial",
    "Verif.Bls381.Sig.C103_tiny_threshold_partial",
    "Verif.Bls381.Sig.C103_usual_verify_partial",
    "Verif.Bls381.Sig.C103_usual_sign_partial",
    "Verif.Bls381.Sig.C103_tiny_verify_partial",
    "Verif.Bls381.Sig.C103_tiny_sign_partial"
   ],
   "note": "For messages without exceptional (G1) or zero (G2) field elements: basic, augmented, proof of possession, aggregate, fast aggregate and threshold verification in both schemes; the exceptional messages are the violations of C101/C102."
  },
  {
   "property": "C104",
   "status": "partial",
   "theorems": [
    "Verif.Curves.C104_registry",
    "Verif.Curves.C104_scalar_roundtrip",
    "Verif.Curves.C104_point_roundtrip_partial",
    "Verif.Curves.C104_no_panic_partial",
    "Verif.Curves.C104_scalar_text_panic_violated",
    "Verif.Curves.C104_scalar_text_truncated_violated",
    "Verif.Curves.C104_point_sound",
    "Verif.Curves.C104_scalar_sound",
    "Verif.Curves.C104_point_no_confusion",
    "Verif.Curves.C104_scalar_no_confusion",
    "Verif.Curves.C104_injective",
    "Verif.Curves.C104_json_point_violated",
    "Verif.Curves.C104_gt_violated",
    "Verif.Curves.C104_bls_trailing_violated",
    "Verif.Curves.C104_bls377_scalar_length_violated",
    "Verif.Curves.C104_identity_violated"
   ],
   "note": "Round trips, no confusion, injectivity and soundness proved (points of the native curves other than the neutral elements, Pallas within what SetBytes accepts). Negations proved: text of a scalar with more than 32 bytes panics and short text is zero-filled (C104_scalar_text_*_violated), UnmarshalJSON leaves the point of pairing-curve scalars nil (C104_json_point_violated), target-group elements are truncated, panic or are never decoded (C104_gt_violated), trailing bytes are ignored (C104_bls_trailing_violated), BLS12-377 scalars have many encodings, neutral elements of Pallas and P-256 do not come back (C104_identity_violated)."
  },
  {
   "property": "C105",
   "status": "partial",
   "theorems": [
    "Verif.Curves.PairCurve.C105_group",
    "Verif.Curves.PairCurve.C105_pairing",
    "Verif.Curves.PairCurve.C105_multi_nil",
    "Verif.Curves.PairCurve.C105_isNegative",
    "Verif.Curves.PairCurve.C105_sum_of_products1",
    "Verif.Curves.PairCurve.C105_sum_of_products2",
    "Verif.Curves.PairCurve.C105_base_mult",
    "Verif.Curves.PairCurve.C105_scalar_hash",
    "Verif.Curves.PairCurve.C105_scalar_random_violated"
   ],
   "note": "Everything proved; negation: Random ignores the outcome of the read, so a failing or short source gives a scalar computed from the unread (zero) buffer (C105_scalar_random_violated)."
  },
  {
   "property": "C106",
   "status": "proved",
   "theorems": [
    "Verif.Kdf.Commit.C106_commit",
    "Verif.Kdf.Commit.C106_open",
    "Verif.Kdf.Commit.C106_binding",
    "Verif.Kdf.Commit.C106_json",
    "Verif.Kdf.Commit.C106_hmac"
   ],
   "note": "Go's crypto/hmac is modelled (a key longer than a block is hashed, pads); hash functions are arbitrary functions with a fixed output length."
  },
  {
   "property": "C107",
   "status": "proved",
   "theorems": [
    "Verif.Kdf.Hkdf.C107_exact",
    "Verif.Kdf.Hkdf.C107_length_prefix",
    "Verif.Kdf.Hkdf.C107_salt_padding"
   ],
   "note": "golang.org/x/crypto/hkdf is modelled: extract, the block loop with its byte counter, the limit of 255 blocks."
  },
  {
   "property": "C108",
   "status": "partial",
   "theorems": [
    "Verif.Bls381.Sig.C108_generate",
    "Verif.Bls381.Sig.C108_keygen_partial",
    "Verif.Bls381.Sig.C108_zero_attempt_violated",
    "Verif.Bls381.Sig.C108_overwrites_violated",
    "Verif.Bls381.Sig.C108_keygen_random"
   ],
   "note": "Proved where the first attempt is not zero (C108_generate, C108_keygen_partial). Negations: a zero attempt is returned as the key and KeygenWithSeed fails instead of trying again (C108_zero_attempt_violated); append overwrites the byte after the seed in the caller's array (C108_overwrites_violated)."
  },
  {
   "property": "C109",
   "status": "partial",
   "theorems": [
    "Verif.Ec.C109_predicates",
    "Verif.Ec.C109_curves_differ",
    "Verif.Ec.C109_add",
    "Verif.Ec.C109_errors",
    "Verif.Ec.C109_neg_partial",
    "Verif.Ec.C109_neg_identity_violated",
    "Verif.Ec.C109_scalar_mult",
    "Verif.Ec.C109_results_valid",
    "Verif.Ec.C109_bytes_roundtrip",
    "Verif.Ec.C109_bytes_accepts",
    "Verif.Ec.C109_json_roundtrip",
    "Verif.Ec.C109_binary_roundtrip_partial",
    "Verif.Ec.C109_binary_large_violated",
    "Verif.Ec.C109_binary_decodes",
    "Verif.Ec.C109_binary_short_violated",
    "Verif.Ec.C109_decoders_unchecked_violated",
    "Verif.Ec.C109_secp256k1"
   ],
   "note": "Proved except: Neg of the neutral element is an error (C109_neg_identity_violated); MarshalBinary panics for large coordinates of P-384 and P-521 (C109_binary_large_violated); UnmarshalBinary panics on short input (C109_binary_short_violated); the JSON and binary decoders accept points that are not on the curve (C109_decoders_unchecked_violated)."
  },
  {
   "property": "C110",
   "status": "partial",
   "theorems": [
    "Verif.Ec.C110_arithmetic",
    "Verif.Ec.C110_unreduced",
    "Verif.Ec.C110_bytes",
    "Verif.Ec.C110_is_valid",
    "Verif.Ec.C110_ed25519_is_valid_partial",
    "Verif.Ec.C110_ed25519_negative_violated",
    "Verif.Ec.C110_ed25519_domain",
    "Verif.Ec.C110_div_zero_violated",
    "Verif.Ec.C110_bytes_sign_violated",
    "Verif.Ec.C110_random",
    "Verif.Ec.C110_clamp"
   ],
   "note": "Proved except: Ed25519 IsValid accepts negative integers whose sign the arithmetic then drops (C110_ed25519_negative_violated); division by zero panics, returns the dividend or returns zero (C110_div_zero_violated); Bytes drops the sign and panics from 2^256 on (C110_bytes_sign_violated). Hash is that of the curve (C55, C87, C105) and not restated; Random of BLS12-381 is C105."
  },
  {
   "property": "C111",
   "status": "partial",
   "theorems": [
    "Verif.V1Bls.C111_is_on_curve",
    "Verif.V1Bls.C111_add",
    "Verif.V1Bls.C111_base_mult",
    "Verif.V1Bls.C111_scalar_mult_partial",
    "Verif.V1Bls.C111_scalar_mult_violated",
    "Verif.V1Bls.C111_compressed",
    "Verif.V1Bls.C111_params_partial",
    "Verif.V1Bls.C111_params_violated",
    "Verif.V1Bls.C111_g2_is_g1_violated",
    "Verif.V1Bls.C111_feldman",
    "Verif.V1Bls.C111_feldman_errors",
    "Verif.V1Bls.C111_points_partial",
    "Verif.V1Bls.C111_bls_feldman_partial",
    "Verif.V1Bls.C111_bls_feldman_violated"
   ],
   "note": "Feldman.Verify is proved for every elliptic.Curve (C111_feldman); the wrapper is proved except ScalarMult, which reads its scalar backwards (C111_scalar_mult_violated), so that honest shares are refused (C111_bls_feldman_violated) unless the powers of the identifier stay below 256 (C111_bls_feldman_partial). Params hold Montgomery representatives (C111_params_violated); Bls12381G2() returns the first group (C111_g2_is_g1_violated)."
  },
  {
   "property": "C112",
   "status": "partial",
   "theorems": [
    "Verif.V1Ed.C112_is_on_curve",
    "Verif.V1Ed.C112_is_on_curve_violated",
    "Verif.V1Ed.C112_group_law",
    "Verif.V1Ed.C112_zero_violated",
    "Verif.V1Ed.C112_scalar_mult",
    "Verif.V1Ed.C112_scalar_truncated_violated",
    "Verif.V1Ed.C112_hash_violated",
    "Verif.V1Ed.C112_points",
    "Verif.V1Ed.C112_points_violated",
    "Verif.V1Ed.C112_feldman"
   ],
   "note": "Group law, multiplication by scalars of up to 256 bits, point objects and Feldman.Verify are proved on the prime order subgroup. Negations proved: IsOnCurve panics beyond 256 bits and ignores x and the sign (C112_is_on_curve_violated); zero is both the neutral element and a point of order four (C112_zero_violated); longer scalars are truncated (C112_scalar_truncated_violated); Hash reverses the encoding (C112_hash_violated); EcPoint.Neg and IsIdentity are wrong on this curve (C112_points_violated)."
  },
  {
   "property": "C113",
   "status": "partial",
   "theorems": [
    "Verif.EdSig.C113_key_from_seed",
    "Verif.EdSig.C113_nem_seed",
    "Verif.EdSig.C113_verify",
    "Verif.EdSig.C113_second_half_unique",
    "Verif.EdSig.C113_extraction",
    "Verif.EdSig.C113_mixed_key",
    "Verif.EdSig.C113_sign_verify",
    "Verif.EdSig.C113_sign_errors",
    "Verif.EdSig.C113_public_half_violated",
    "Verif.EdSig.C113_small_order_violated"
   ],
   "note": "Keys, signing, verification, uniqueness of the second half and extraction are proved for both packages and every public key. Negations proved: the commitment does not depend on the public half of the private key, so two halves with one seed give the secret scalar away (C113_public_half_violated); public keys of small order have signatures good for many messages, the neutral element for all (C113_small_order_violated). Unforgeability is a computational claim and not expressed."
  },
  {
   "property": "C114",
   "status": "partial",
   "theorems": [
    "Verif.Ed25519.C114_group",
    "Verif.Ed25519.C114_contract",
    "Verif.Ed25519.C114_encodings",
    "Verif.Ed25519.C114_encodings_violated",
    "Verif.Ed25519.C114_set",
    "Verif.Ed25519.C114_set_violated",
    "Verif.Ed25519.C114_sqrt_ratio",
    "Verif.Ed25519.C114_hash"
   ],
   "note": "Group, order, encodings, square roots, Elligator 2 and the hash are proved, as is that the curve meets the contract EdLib of C112 and C113. Negations proved: the neutral element has four compressed encodings and 64 zeros decode to it (C114_encodings_violated); Set gives the neutral element when either coordinate is zero, so (0,-1) cannot be set (C114_set_violated). Library field arithmetic is modelled as residues modulo p."
  },
  {
   "property": "C115",
   "status": "partial",
   "theorems": [
    "Verif.Ed25519.C115_field",
    "Verif.Ed25519.C115_invert",
    "Verif.Ed25519.C115_invert_violated",
    "Verif.Ed25519.C115_predicates",
    "Verif.Ed25519.C115_cmp_violated",
    "Verif.Ed25519.C115_encodings",
    "Verif.Ed25519.C115_new",
    "Verif.Ed25519.C115_new_violated",
    "Verif.Ed25519.C115_sqrt",
    "Verif.Ed25519.C115_sqrt_violated",
    "Verif.Ed25519.C115_hash",
    "Verif.Ed25519.C115_points",
    "Verif.Ed25519.C115_mul_violated",
    "Verif.Ed25519.C115_mangle",
    "Verif.Ed25519.C115_sums",
    "Verif.Ed25519.C115_sums_violated"
   ],
   "note": "Field operations, predicates, encodings, roots, action on points and sums are proved. Negations proved: Invert of zero and division by zero give zero without error (C115_invert_violated); Cmp says -2 for any two different scalars (C115_cmp_violated); New keeps 32 bits (C115_new_violated); Sqrt of a non-square gives the non-square itself without error (C115_sqrt_violated); multiplication is not additive in the scalar on points with a small order component (C115_mul_violated); SumOfProducts takes scalars of other curves by their bytes in the wrong order (C115_sums_violated)."
  },
  {
   "property": "C116",
   "status": "partial",
   "theorems": [
    "Verif.Ted25519.C116_key",
    "Verif.Ted25519.C116_nonce",
    "Verif.Ted25519.C116_nonce_inputs",
    "Verif.Ted25519.C116_nonce_uniform_violated",
    "Verif.Ted25519.C116_share_bytes",
    "Verif.Ted25519.C116_commitments_bytes",
    "Verif.Ted25519.C116_end_to_end"
   ],
   "note": "End to end on the curve, nonce derivation, and byte forms are proved. The signers' summed shares are assumed nonzero, because TSign panics on a zero share (C18_zero_share_panics). Negation proved: nonces are not uniform, fewer than half of the scalars can occur, because RandomElement clamps (C116_nonce_uniform_violated)."
  },
  {
   "property": "C117",
   "status": "partial",
   "theorems": [
    "Verif.B377.C117_arith",
    "Verif.B377.C117_mulAdd",
    "Verif.B377.C117_div",
    "Verif.B377.C117_invert_zero_violated",
    "Verif.B377.C117_div_zero_violated",
    "Verif.B377.C117_mulAdd_foreign_violated",
    "Verif.B377.C117_sqrt",
    "Verif.B377.C117_sqrt_violated",
    "Verif.B377.C117_tests",
    "Verif.B377.C117_new",
    "Verif.B377.C117_bigInt",
    "Verif.B377.C117_bytes",
    "Verif.B377.C117_setBytes",
    "Verif.B377.C117_setBytes_length_violated",
    "Verif.B377.C117_wide",
    "Verif.B377.C117_hash",
    "Verif.B377.C117_random_violated"
   ],
   "note": "Negations proved: Invert of zero and Sqrt of a non-square report no error and return a scalar with a nil pointer, every use of which panics (C117_invert_zero_violated, C117_sqrt_violated); Div by zero panics (C117_div_zero_violated); MulAdd with a foreign factor panics where Mul returns nil (C117_mulAdd_foreign_violated); SetBytes accepts any length (C117_setBytes_length_violated); Random ignores what Read reports (C117_random_violated)."
  },
  {
   "property": "C118",
   "status": "partial",
   "theorems": [
    "Verif.B377.C118_group",
    "Verif.B377.C118_encodings",
    "Verif.B377.C118_uncompressed_violated",
    "Verif.B377.C118_set",
    "Verif.B377.C118_set_violated",
    "Verif.B377.C118_identity_x_violated",
    "Verif.B377.C118_set_panics_violated",
    "Verif.B377.C118_sums",
    "Verif.B377.C118_empty_sum_violated",
    "Verif.B377.C118_mixed_violated"
   ],
   "note": "gnark-crypto is a contract. Negations proved: FromAffineUncompressed accepts a compressed point with anything behind it, and the string of zeros (C118_uncompressed_violated); Set drops signs and, where the abscissa carries a compressed point, ignores the ordinate (C118_set_violated), and panics on large coordinates (C118_set_panics_violated); X of the identity is its flag byte, not 0 (C118_identity_x_violated); the empty sum panics (C118_empty_sum_violated); a sum over both groups is nil or a panic depending on the scalars (C118_mixed_violated)."
  },
  {
   "property": "C119",
   "status": "partial",
   "theorems": [
    "Verif.B377.C119_pairing",
    "Verif.B377.C119_multi",
    "Verif.B377.C119_identity_violated",
    "Verif.B377.C119_empty_violated",
    "Verif.B377.C119_gt_bytes",
    "Verif.B377.C119_gt_field",
    "Verif.B377.C119_gt_zero_violated",
    "Verif.B377.C119_gt_new_violated",
    "Verif.B377.C119_gt_random_violated"
   ],
   "note": "gnark-crypto is a contract. Negations proved: Pairing with the identity is the field's zero, not one, so it is not bilinear and disagrees with MultiPairing (C119_identity_violated); MultiPairing of nothing is nil (C119_empty_violated); Gt's Invert of zero reports no error and MulAdd with a foreign factor panics (C119_gt_zero_violated); Gt's New(1) is not one (C119_gt_new_violated); Gt's Random cannot reach most of the field (C119_gt_random_violated)."
  },
  {
   "property": "C120",
   "status": "partial",
   "theorems": [
    "Verif.Dkls.Dealer.C120_dealt",
    "Verif.Dkls.Dealer.C120_read_error",
    "Verif.Dkls.Dealer.C120_covers_keygen",
    "Verif.Dkls.Dealer.C120_refreshes",
    "Verif.Dkls.Dealer.C120_zero_share_violated",
    "Verif.Dkls.Dealer.C120_signs"
   ],
   "note": "Consistency, error behaviour, agreement with key generation, signing and refresh proved; negated part: C120_zero_share_violated (a zero share is dealt with the identity as public key). The two reads of one pad pair are one event in the model."
  },
  {
   "property": "C121",
   "status": "partial",
   "theorems": [
    "Verif.Mpc.Wire.C121_roundtrip",
    "Verif.Mpc.Wire.C121_only_version_200",
    "Verif.Mpc.Wire.C121_refresh_version_violated",
    "Verif.Mpc.Wire.C121_labels_ignored_violated",
    "Verif.Mpc.Wire.C121_cross_protocol_violated",
    "Verif.Mpc.Wire.C121_replays_violated",
    "Verif.Mpc.Wire.C121_labels_distinct",
    "Verif.Mpc.Wire.C121_malformed",
    "Verif.Mpc.Wire.C121_registered_iff",
    "Verif.Mpc.Wire.C121_alice_fresh_process_violated",
    "Verif.Mpc.Wire.C121_bob_restart_violated"
   ],
   "note": "Round trips within registered processes, versions of key generation and signing, malformed messages, and the exact condition for registration proved; negated parts: C121_refresh_version_violated, C121_labels_ignored_violated, C121_cross_protocol_violated, C121_replays_violated, C121_alice_fresh_process_violated, C121_bob_restart_violated. encoding/gob is assumed (IsGob)."
  },
  {
   "property": "C122",
   "status": "partial",
   "theorems": [
    "Verif.Gennaro.TwoParty.C122_created",
    "Verif.Gennaro.TwoParty.C122_honest",
    "Verif.Gennaro.TwoParty.C122_round2_sound_partial",
    "Verif.Gennaro.TwoParty.C122_blind_ignored_violated",
    "Verif.Gennaro.TwoParty.C122_nil_message_violated"
   ],
   "note": "Creation and the honest run proved; Round2 soundness is partial: the Pedersen equation is checked at the identifier inside the share, which nothing compares with the receiver's (see C52). Negated: C122_blind_ignored_violated, C122_nil_message_violated. The public shares returned are those of C14/C52."
  },
  {
   "property": "C123",
   "status": "partial",
   "theorems": [
    "Verif.Paillier.C123_result",
    "Verif.Paillier.C123_rounds",
    "Verif.Paillier.C123_error",
    "Verif.Paillier.C123_terminates",
    "Verif.Paillier.C123_safe_prime",
    "Verif.Paillier.C123_keys",
    "Verif.Paillier.C123_equal_primes_violated",
    "Verif.Paillier.C123_small_sizes_violated"
   ],
   "note": "Result, errors, termination and keys proved under PrimeSource and RightTest (math/big and crypto/rand are not modelled). Negated: C123_equal_primes_violated (the comparison is of pointers), C123_small_sizes_violated (lengths 4 and 5 never end)."
  },
  {
   "property": "C124",
   "status": "partial",
   "theorems": [
    "Verif.OT.Stream.C124_as_rounds",
    "Verif.OT.Stream.C124_honest",
    "Verif.OT.Stream.C124_receiver_sound",
    "Verif.OT.Stream.C124_sender_sound",
    "Verif.OT.Stream.C124_peer_waits_violated",
    "Verif.OT.Stream.C124_other_curves_violated"
   ],
   "note": "Honest runs under every schedule and soundness of each side against arbitrary peers proved; negated: C124_peer_waits_violated (no error is sent to the other side), C124_other_curves_violated (only K-256 types are registered with gob). encoding/gob and the transport are modelled as reliable FIFO queues of values."
  },
  {
   "property": "C125",
   "status": "partial",
   "theorems": [
    "Verif.OT.Kos.Stream.C125_as_rounds",
    "Verif.OT.Kos.Stream.C125_honest",
    "Verif.OT.Kos.Stream.C125_sender_sound",
    "Verif.OT.Kos.Stream.C125_tampered",
    "Verif.OT.Kos.Stream.C125_peer_waits_violated",
    "Verif.OT.Kos.Stream.C125_unregistered_violated"
   ],
   "note": "Honest runs under every schedule and the sender's check proved (columns that decode is a hypothesis, see C25); negated: C125_peer_waits_violated, C125_unregistered_violated. encoding/gob and the transport are modelled as reliable FIFO queues of values."
  },
  {
   "property": "C126",
   "status": "partial",
   "theorems": [
    "Verif.Mpc.Keyshare.C126_roundtrip",
    "Verif.Mpc.Keyshare.C126_load_iff",
    "Verif.Mpc.Keyshare.C126_set_public_key",
    "Verif.Mpc.Keyshare.C126_user_public_key",
    "Verif.Mpc.Keyshare.C126_user_after_restart_violated",
    "Verif.Mpc.Keyshare.C126_unusable_loaded_violated",
    "Verif.Mpc.Keyshare.C126_nil_accepted_violated",
    "Verif.Mpc.Keyshare.C126_mixed_keys_violated",
    "Verif.Mpc.Keyshare.C126_val_functions",
    "Verif.Mpc.Keyshare.C126_usr_functions",
    "Verif.Mpc.Keyshare.C126_user_sign_after_restart_violated",
    "Verif.Mpc.Keyshare.C126_refreshed"
   ],
   "note": "Round trip, when loading fails and the key of the set proved; the user's key proved in a process that has registered the types; negated: C126_user_after_restart_violated, C126_user_sign_after_restart_violated, C126_unusable_loaded_violated, C126_nil_accepted_violated, C126_mixed_keys_violated. encoding/json and encoding/gob are assumed to read back what they wrote."
  },
  {
   "property": "C127",
   "status": "partial",
   "theorems": [
    "Verif.Kdf.Names.C127_hex_iff",
    "Verif.Kdf.Names.C127_reads_back",
    "Verif.Kdf.Names.C127_no_prefix",
    "Verif.Kdf.Names.C127_sizes",
    "Verif.Kdf.Names.C127_converted",
    "Verif.Kdf.Names.C127_convert_values",
    "Verif.Kdf.Names.C127_convert_twice_violated"
   ],
   "note": "Proved except that a converted name is kept: negated by C127_convert_twice_violated. encoding/hex and big.Int.SetBytes are modelled from their documentation."
  }
 ]
}