import Verif.Accumulator.Lemmas
import Verif.Accumulator.Model
import Verif.Accumulator.MultiProps
import Verif.Accumulator.ProofProps
import Verif.Accumulator.Props
import Verif.App.Actor
import Verif.App.Did
import Verif.App.Fs
import Verif.App.Identifier
import Verif.App.MsgFilter
import Verif.App.Oracle
import Verif.App.PubKey
import Verif.App.Vault
import Verif.Base.BigInt
import Verif.Base.Bytes
import Verif.Base.GoRes
import Verif.Base.Group
import Verif.Base.Interp
import Verif.Base.Pairing
import Verif.Base.Tactics
import Verif.Bbs.Blind
import Verif.Bbs.Codec
import Verif.Bbs.Drbg
import Verif.Bbs.Examples
import Verif.Bbs.Lemmas
import Verif.Bbs.Model
import Verif.Bbs.Pok
import Verif.Bbs.Props
import Verif.Bls.Examples
import Verif.Bls.Model
import Verif.Bls.Props
import Verif.Bls.Threshold
import Verif.Bls381.Ate
import Verif.Bls381.AteFrob
import Verif.Bls381.AteK12
import Verif.Bls381.AtePoint
import Verif.Bls381.AteTower
import Verif.Bls381.CofactorPrime
import Verif.Bls381.Count
import Verif.Bls381.Cubic
import Verif.Bls381.Cyclo
import Verif.Bls381.Fp
import Verif.Bls381.Fp12
import Verif.Bls381.Fp2
import Verif.Bls381.Fp6
import Verif.Bls381.FpApi
import Verif.Bls381.FpWide
import Verif.Bls381.Fq
import Verif.Bls381.FqApi
import Verif.Bls381.FqChain
import Verif.Bls381.FqWide
import Verif.Bls381.G1
import Verif.Bls381.G1Api
import Verif.Bls381.G1Order
import Verif.Bls381.G2
import Verif.Bls381.G2Api
import Verif.Bls381.G2Nat
import Verif.Bls381.G2Order
import Verif.Bls381.Group
import Verif.Bls381.GroupSpec
import Verif.Bls381.Gt
import Verif.Bls381.GtApi
import Verif.Bls381.HashBase
import Verif.Bls381.HashG1
import Verif.Bls381.HashG1Api
import Verif.Bls381.HashG2
import Verif.Bls381.HashG2Api
import Verif.Bls381.KeyGen
import Verif.Bls381.Limbs
import Verif.Bls381.Nat12
import Verif.Bls381.PairApi
import Verif.Bls381.PairEval
import Verif.Bls381.PairInst
import Verif.Bls381.PairMiller
import Verif.Bls381.PairSteps
import Verif.Bls381.PairValue
import Verif.Bls381.Pairing
import Verif.Bls381.Prime
import Verif.Bls381.Quad
import Verif.Bls381.Sig
import Verif.Bls381.SigApi
import Verif.Bls381.SigAug
import Verif.Bls381.SigFull
import Verif.Bls381.SigHash
import Verif.Bls381.SigRefine
import Verif.Bls381.TowerApi
import Verif.Bls381.Twist
import Verif.Bls381.Wire
import Verif.Bls381.Word
import Verif.Bulletproof.Batch
import Verif.Bulletproof.BatchProps
import Verif.Bulletproof.Bits
import Verif.Bulletproof.Code
import Verif.Bulletproof.Codec
import Verif.Bulletproof.Examples
import Verif.Bulletproof.Ipp
import Verif.Bulletproof.Lemmas
import Verif.Bulletproof.Range
import Verif.Bulletproof.RangeProps
import Verif.Bulletproof.SVec
import Verif.Core.Element
import Verif.Core.Mod
import Verif.Core.Props
import Verif.Curves.Bls377PairApi
import Verif.Curves.Bls377Point
import Verif.Curves.Bls377PointApi
import Verif.Curves.Bls377Prime
import Verif.Curves.Bls377Scalar
import Verif.Curves.Bls377ScalarApi
import Verif.Curves.EcPoint
import Verif.Curves.EcPointApi
import Verif.Curves.EcPointWire
import Verif.Curves.EcScalar
import Verif.Curves.EcScalarApi
import Verif.Curves.EdField
import Verif.Curves.EdGroup
import Verif.Curves.EdHash
import Verif.Curves.EdHashApi
import Verif.Curves.EdLib
import Verif.Curves.EdReal
import Verif.Curves.EdScalar
import Verif.Curves.EdScalarApi
import Verif.Curves.EdSig
import Verif.Curves.EdSigApi
import Verif.Curves.Named
import Verif.Curves.NamedApi
import Verif.Curves.NamedProps
import Verif.Curves.PairCurve
import Verif.Curves.PairCurveApi
import Verif.Curves.V1Bls
import Verif.Curves.V1BlsApi
import Verif.Curves.V1Ed
import Verif.Curves.V1EdApi
import Verif.Curves.V1Feldman
import Verif.Daed.Model
import Verif.Daed.Props
import Verif.Dkls.Dealer
import Verif.Dkls.DealerApi
import Verif.Dkls.Dkg
import Verif.Dkls.DkgProps
import Verif.Dkls.Multiply
import Verif.Dkls.MultiplyProps
import Verif.Dkls.Sign
import Verif.Dkls.SignProps
import Verif.FrostDkg.Lemmas
import Verif.FrostDkg.Model
import Verif.FrostDkg.Props
import Verif.FrostSign.Model
import Verif.FrostSign.Props
import Verif.Gennaro.Lemmas
import Verif.Gennaro.Model
import Verif.Gennaro.Props
import Verif.Gennaro.TwoParty
import Verif.Gennaro.TwoPartyApi
import Verif.Hash.Counter
import Verif.Hash.Model
import Verif.Hash.Props
import Verif.Kdf.Commit
import Verif.Kdf.Hkdf
import Verif.Kdf.Hmac
import Verif.Kdf.Names
import Verif.Mina.BitVector
import Verif.Mina.BitVectorProps
import Verif.Mina.Examples
import Verif.Mina.Lemmas
import Verif.Mina.Model
import Verif.Mina.Props
import Verif.Mina.Props2
import Verif.Mina.Wire
import Verif.Mpc.Keyshare
import Verif.Mpc.Model
import Verif.Mpc.Props
import Verif.Mpc.SigProps
import Verif.Mpc.Wire
import Verif.Mpc.WireApi
import Verif.Native.Chains
import Verif.Native.Codec
import Verif.Native.Curves
import Verif.Native.Field
import Verif.Native.GroupAlg
import Verif.Native.HashCurve
import Verif.Native.HashCurveExamples
import Verif.Native.Instances
import Verif.Native.Jacobian
import Verif.Native.K256Fp.Code
import Verif.Native.K256Fp.Proof
import Verif.Native.K256Fq.Code
import Verif.Native.K256Fq.Proof
import Verif.Native.Limbs
import Verif.Native.Order
import Verif.Native.P256Fp.Code
import Verif.Native.P256Fp.Proof
import Verif.Native.P256Fq.Code
import Verif.Native.P256Fq.Proof
import Verif.Native.Pallas
import Verif.Native.PallasApi
import Verif.Native.PallasCurve
import Verif.Native.PallasExamples
import Verif.Native.PallasHash
import Verif.Native.Pasta
import Verif.Native.PastaFp.Code
import Verif.Native.PastaFp.Proof
import Verif.Native.PastaFq.Code
import Verif.Native.PastaFq.Proof
import Verif.Native.Point
import Verif.Native.PointApi
import Verif.Native.PointCode
import Verif.Native.PointDev
import Verif.Native.Primes
import Verif.Native.Roots
import Verif.Native.Scalars
import Verif.Native.Sswu
import Verif.Native.SswuCode
import Verif.Native.Weier
import Verif.Native.Word
import Verif.OT.BinaryField
import Verif.OT.BinaryFieldProps
import Verif.OT.Kos
import Verif.OT.KosProps
import Verif.OT.KosStream
import Verif.OT.Simplest
import Verif.OT.SimplestProps
import Verif.OT.Stream
import Verif.Paillier.Lemmas
import Verif.Paillier.Model
import Verif.Paillier.Props
import Verif.Paillier.SafePrime
import Verif.Schnorr.Model
import Verif.Schnorr.Props
import Verif.Secret.Encrypt
import Verif.Secret.Props
import Verif.Sharing.Codec
import Verif.Sharing.Lemmas
import Verif.Sharing.Model
import Verif.Sharing.Props
import Verif.SharingV1.Lemmas
import Verif.SharingV1.Model
import Verif.SharingV1.Props
import Verif.Ted25519.KeyGen
import Verif.Ted25519.KeyGenApi
import Verif.Ted25519.Model
import Verif.Ted25519.Props
import Verif.Wallet.Bip32
import Verif.Wallet.Octets

/-! Prints the axioms every property theorem depends on (generated by tools/manifest.py). -/

#print axioms Verif.Sharing.C01_split_combine
#print axioms Verif.Sharing.C01_split_zero
#print axioms Verif.Sharing.C02_combine_isSome_iff
#print axioms Verif.Sharing.C02_combine_value
#print axioms Verif.Sharing.C03_perfect_secrecy
#print axioms Verif.Sharing.C04_feldman_verify_iff
#print axioms Verif.Sharing.C04_accepted_shares_agree
#print axioms Verif.Sharing.C05_pedersen_complete
#print axioms Verif.Sharing.C05_pedersen_feldman
#print axioms Verif.Sharing.C05_pedersen_binding
#print axioms Verif.Sharing.C05_blind_id_unchecked
#print axioms Verif.Sharing.C06_combinePoints
#print axioms Verif.Sharing.C06_lagrangeCoeffs
#print axioms Verif.SharingV1.C07_combine_spec
#print axioms Verif.SharingV1.C07_split_combine
#print axioms Verif.SharingV1.C07_split_err
#print axioms Verif.SharingV1.C07_combine_err
#print axioms Verif.SharingV1.C07_leading_zeros_lost
#print axioms Verif.SharingV1.C08_add_combine
#print axioms Verif.SharingV1.C08_add_mismatch_panics
#print axioms Verif.SharingV1.C09_feldman_verify_iff
#print axioms Verif.SharingV1.C09_pedersen_feldman
#print axioms Verif.SharingV1.C09_pedersen
#print axioms Verif.FrostDkg.C10_honest_run
#print axioms Verif.FrostDkg.C10_reconstruct
#print axioms Verif.FrostDkg.C11_round2_sound_partial
#print axioms Verif.FrostDkg.C11_round2_outcome_partial
#print axioms Verif.FrostDkg.C11_foreign_share_accepted
#print axioms Verif.FrostDkg.C12_contexts_confused
#print axioms Verif.FrostDkg.C12_context_binding_partial
#print axioms Verif.Gennaro.C13_honest_run
#print axioms Verif.Gennaro.C13_caller_secret
#print axioms Verif.Gennaro.C13_reconstruct
#print axioms Verif.Gennaro.C14_public_shares_wrong
#print axioms Verif.FrostDkg.C15_frost_dkg_rounds
#print axioms Verif.FrostSign.C15_frost_signer_rounds
#print axioms Verif.FrostSign.C15_frost_signer_round3_panics
#print axioms Verif.Gennaro.C15_gennaro_rounds
#print axioms Verif.FrostSign.C16_honest_signing
#print axioms Verif.FrostSign.C16_negative_R_fails
#print axioms Verif.FrostSign.C17_round2_sound_partial
#print axioms Verif.FrostSign.C17_round3_sound_partial
#print axioms Verif.FrostSign.C17_bad_response_rejected_partial
#print axioms Verif.FrostSign.C17_wrong_sum_needs_collision_partial
#print axioms Verif.FrostSign.C17_offsetting_accepted
#print axioms Verif.Ted25519.C18_deal
#print axioms Verif.Ted25519.C18_aggregate_verifies
#print axioms Verif.Ted25519.C18_nonce_add
#print axioms Verif.Ted25519.C18_end_to_end
#print axioms Verif.Ted25519.C18_nonce_mismatch
#print axioms Verif.Ted25519.C18_zero_share_panics
#print axioms Verif.Ted25519.C18_identifier_truncated
#print axioms Verif.Ted25519.C19_vss_small_partial
#print axioms Verif.Ted25519.C19_honest_share_rejected
#print axioms Verif.Ted25519.C19_dealing_rejected
#print axioms Verif.Schnorr.C20_complete
#print axioms Verif.Schnorr.C20_special_soundness
#print axioms Verif.Schnorr.C20_session_binding
#print axioms Verif.Schnorr.C20_commit_binding
#print axioms Verif.Paillier.C21_decrypt_encrypt
#print axioms Verif.Paillier.C21_range_rejected
#print axioms Verif.Paillier.C21_decrypt_range
#print axioms Verif.Paillier.C21_safe_primes
#print axioms Verif.Paillier.C21_nonunit_nonce
#print axioms Verif.Paillier.C21_nonunit_nonce_reachable
#print axioms Verif.Paillier.C21_noninvertible_key
#print axioms Verif.Paillier.C21_equal_primes_accepted
#print axioms Verif.Paillier.C22_homomorphic
#print axioms Verif.Paillier.C22_range_rejected
#print axioms Verif.Paillier.C22_encryptions
#print axioms Verif.Paillier.C23_verify_iff
#print axioms Verif.Paillier.C23_complete
#print axioms Verif.Paillier.C23_nonsquarefree
#print axioms Verif.Paillier.C23_short_proof_panics
#print axioms Verif.Paillier.C23_challenges
#print axioms Verif.Paillier.C23_end_to_end
#print axioms Verif.Paillier.C23_challenges_ignore_modulus
#print axioms Verif.OT.C24_honest_run
#print axioms Verif.OT.C24_transfer
#print axioms Verif.OT.C24_round5_iff
#print axioms Verif.OT.C24_round6_iff
#print axioms Verif.OT.C24_choice_hidden
#print axioms Verif.OT.C24_index_wraps
#print axioms Verif.OT.C24_batch_multiple_of_8
#print axioms Verif.OT.C24_refusals
#print axioms Verif.OT.Kos.C25_check_iff
#print axioms Verif.OT.Kos.C25_honest
#print axioms Verif.OT.Kos.C25_tampered_check_value
#print axioms Verif.OT.Kos.C25_challenge_binds
#print axioms Verif.OT.BinaryField.C26_binaryFieldMul
#print axioms Verif.OT.BinaryField.C26_ring_laws
#print axioms Verif.Dkls.C27_check_iff
#print axioms Verif.Dkls.C27_honest
#print axioms Verif.Dkls.C27_tail_rows_unchecked
#print axioms Verif.Dkls.Dkg.C28_honest
#print axioms Verif.Dkls.Dkg.C28_alice_accepts_iff
#print axioms Verif.Dkls.Dkg.C28_bob_accepts
#print axioms Verif.Dkls.Dkg.C28_identity_key_accepted
#print axioms Verif.Dkls.Refresh.C29_refresh
#print axioms Verif.Dkls.Refresh.C29_success_preserves_key
#print axioms Verif.Dkls.Refresh.C29_any_history
#print axioms Verif.Dkls.Refresh.C29_zero_multiplier
#print axioms Verif.Dkls.Sign.C30_honest
#print axioms Verif.Dkls.Sign.C30_output_verifies
#print axioms Verif.Dkls.Sign.C30_nonce_bound
#print axioms Verif.Dkls.Sign.C30_progress
#print axioms Verif.Dkls.Sign.C30_low_s_not_guaranteed
#print axioms Verif.Mpc.C31_terminates
#print axioms Verif.Mpc.C31_in_order
#print axioms Verif.Mpc.C31_no_pause
#print axioms Verif.Mpc.C31_extra_steps_get_nil
#print axioms Verif.Mpc.C31_sentinel_from_step
#print axioms Verif.Mpc.C31_generateKss
#print axioms Verif.Mpc.C31_runRefresh
#print axioms Verif.Mpc.C31_runSign
#print axioms Verif.Mpc.C31_lifecycle_sound
#print axioms Verif.Mpc.C31_lifecycle_complete
#print axioms Verif.Accumulator.C32_step
#print axioms Verif.Accumulator.C32_value
#print axioms Verif.Accumulator.C32_net
#print axioms Verif.Accumulator.C32_succeeds
#print axioms Verif.Accumulator.C32_add_remove
#print axioms Verif.Accumulator.C32_withElements
#print axioms Verif.Accumulator.C32_poisoned
#print axioms Verif.Accumulator.C33_verify_iff
#print axioms Verif.Accumulator.C33_issued_verifies
#print axioms Verif.Accumulator.C33_issue_iff
#print axioms Verif.Accumulator.C33_unique
#print axioms Verif.Accumulator.C33_revoked
#print axioms Verif.Accumulator.C34_multi_is_sequence
#print axioms Verif.Accumulator.C34_multi
#print axioms Verif.Accumulator.C34_multi_deleted_fails
#print axioms Verif.Accumulator.C34_multi_lengths
#print axioms Verif.Accumulator.C34_multi_empty_panics
#print axioms Verif.Accumulator.C34_batch
#print axioms Verif.Accumulator.C34_batch_verify
#print axioms Verif.Accumulator.C34_batch_sound
#print axioms Verif.Accumulator.C34_added_from_anything
#print axioms Verif.Accumulator.C34_deleted_fails
#print axioms Verif.Accumulator.C34_empty_batch_panics
#print axioms Verif.Accumulator.C35_finalize_iff
#print axioms Verif.Accumulator.C35_complete
#print axioms Verif.Accumulator.C35_bytes_binding
#print axioms Verif.Accumulator.C35_invalid_witness_rejected
#print axioms Verif.Accumulator.C35_extract
#print axioms Verif.Accumulator.C35_params_inputs
#print axioms Verif.Bls.C36_verify_iff
#print axioms Verif.Bls.C36_complete
#print axioms Verif.Bls.C36_unique
#print axioms Verif.Bls.C36_guards
#print axioms Verif.Bls.C36_aggregate_iff
#print axioms Verif.Bls.C36_aggregate_complete
#print axioms Verif.Bls.C36_repeated_messages_refused
#print axioms Verif.Bls.C36_aug_verify_iff
#print axioms Verif.Bls.C36_aug_aggregate_iff
#print axioms Verif.Bls.C36_pop_iff
#print axioms Verif.Bls.C36_pop_tags
#print axioms Verif.Bls.C36_fast_iff
#print axioms Verif.Bls.C36_constituent
#print axioms Verif.Bls.C36_rogue_key
#print axioms Verif.Bls.C37_combine_iff
#print axioms Verif.Bls.C37_duplicates_refused
#print axioms Verif.Bls.C37_thresholdize_iff
#print axioms Verif.Bls.C37_threshold
#print axioms Verif.Bls.C37_tamper
#print axioms Verif.Bls.C37_identifier_zero
#print axioms Verif.Bls.C37_keyshare_roundtrip
#print axioms Verif.Bls.C37_keyshare_decode
#print axioms Verif.Mina.BitVector.C38_append
#print axioms Verif.Mina.BitVector.C38_element
#print axioms Verif.Mina.BitVector.C38_set
#print axioms Verif.Mina.BitVector.C38_insert
#print axioms Verif.Mina.BitVector.C38_delete
#print axioms Verif.Mina.BitVector.C38_history
#print axioms Verif.Mina.BitVector.C38_spare_irrelevant
#print axioms Verif.Mina.C39_sign_verifies_txn
#print axioms Verif.Mina.C39_sign_verifies_msg
#print axioms Verif.Mina.C39_verify_iff
#print axioms Verif.Mina.C39_verify_msg_iff
#print axioms Verif.Mina.C39_unique_s
#print axioms Verif.Mina.C39_txn_binding
#print axioms Verif.Mina.C39_txn_sound
#print axioms Verif.Mina.C39_message_binding
#print axioms Verif.Mina.C39_message_zero_pad
#print axioms Verif.Mina.C39_sponge_no_padding
#print axioms Verif.Mina.C39_empty_message
#print axioms Verif.Mina.C39_network_panic
#print axioms Verif.Mina.C39_sign_total
#print axioms Verif.Mina.C39_marshal_roundtrip
#print axioms Verif.Mina.C39_marshal_long_memo_panics
#print axioms Verif.Mina.C39_long_memo_collision
#print axioms Verif.Mina.C39_threshold_challenge
#print axioms Verif.Mina.C39_threshold_verifies_iff_even
#print axioms Verif.Mina.C39_sig_roundtrip
#print axioms Verif.Mina.C39_sig_canonical
#print axioms Verif.Mina.C39_address_roundtrip
#print axioms Verif.Mina.C39_address_checked
#print axioms Verif.Mina.C39_address_aliases
#print axioms Verif.CoreMod.C40_add_mul_neg
#print axioms Verif.CoreMod.C40_nil
#print axioms Verif.CoreMod.C40_inv
#print axioms Verif.CoreMod.C40_exp
#print axioms Verif.CoreMod.C40_exp_neg
#print axioms Verif.CoreMod.C40_exp_missing_error
#print axioms Verif.CoreMod.C40_in_eq
#print axioms Verif.CoreMod.C40_rand
#print axioms Verif.Elem.C41_canonical_reachable
#print axioms Verif.Elem.C41_json_not_canonical
#print axioms Verif.Elem.C41_field_ops
#print axioms Verif.Elem.C41_mixed_moduli_panic
#print axioms Verif.Hash.C42_i2osp_length
#print axioms Verif.Hash.C42_i2osp_roundtrip
#print axioms Verif.Hash.C42_os2ip_roundtrip
#print axioms Verif.Hash.C42_i2osp_overflow
#print axioms Verif.Hash.C42_expand_rfc
#print axioms Verif.Hash.C42_expand_length
#print axioms Verif.Hash.C42_expand_zero_panics
#print axioms Verif.Hash.C42_expand_binding
#print axioms Verif.Hash.C42_hash_value
#print axioms Verif.Hash.C42_hash_to_field
#print axioms Verif.Hash.C42_hash_to_field_value
#print axioms Verif.Hash.C43_no_zero_byte
#print axioms Verif.Hash.C43_counter_period
#print axioms Verif.Hash.C43_counter_distinct
#print axioms Verif.Hash.C43_chain_step
#print axioms Verif.Hash.C43_hash_binding
#print axioms Verif.Hash.C43_fiat_shamir_binding
#print axioms Verif.Hash.C43_fiat_shamir_sign
#print axioms Verif.Daed.C44_double
#print axioms Verif.Daed.C44_new
#print axioms Verif.Daed.C44_cmac_rfc
#print axioms Verif.Daed.C44_cmac_long
#print axioms Verif.Daed.C44_s2v_rfc
#print axioms Verif.Daed.C44_decrypt_iff
#print axioms Verif.Daed.C44_round_trip
#print axioms Verif.Daed.C44_decrypt_total
#print axioms Verif.Daed.C44_ciphertext_shape
#print axioms Verif.Daed.C44_ad_binding
#print axioms Verif.App.MsgFilter.C45_filter_iff
#print axioms Verif.App.MsgFilter.C45_blocked_rejected
#print axioms Verif.App.MsgFilter.C45_malformed_rejected
#print axioms Verif.App.MsgFilter.C45_clean_passed
#print axioms Verif.App.Did.C46_handle
#print axioms Verif.App.Did.C46_other_refused
#print axioms Verif.App.Did.C46_history
#print axioms Verif.App.Did.C46_authority_never_empty
#print axioms Verif.App.Did.C46_genesis_roundtrip
#print axioms Verif.App.Did.C46_module_genesis_ignored
#print axioms Verif.App.Did.C46_module_genesis_loses
#print axioms Verif.Secret.C47_decrypt_iff
#print axioms Verif.Secret.C47_decrypt_no_panic
#print axioms Verif.Secret.C47_encrypt_iff
#print axioms Verif.Secret.C47_roundtrip_fails
#print axioms Verif.Secret.C47_roundtrip_is_forgery
#print axioms Verif.Secret.C47_roundtrip_partial
#print axioms Verif.Secret.C47_secret_key_unused
#print axioms Verif.Secret.C47_anyone_authorised
#print axioms Verif.Secret.C47_seed_binding
#print axioms Verif.Secret.C47_key_concat
#print axioms Verif.Secret.C47_key_binding
#print axioms Verif.Secret.C47_not_roundtrip
#print axioms Verif.Octets.C48_int2octets
#print axioms Verif.Octets.C48_int2octets_inj
#print axioms Verif.Octets.C48_hashToInt
#print axioms Verif.Octets.C48_bits2octets
#print axioms Verif.Octets.C48_signCompact
#print axioms Verif.Octets.C48_hex
#print axioms Verif.Octets.C48_hex_inj
#print axioms Verif.Octets.C48_newSignatureData
#print axioms Verif.Bip32.C49_child
#print axioms Verif.Bip32.C49_consistent
#print axioms Verif.Bip32.C49_chain_code_truncated
#print axioms Verif.Bip32.C49_index_truncated
#print axioms Verif.Bip32.C49_hardened_not_refused
#print axioms Verif.Bip32.C49_negative_accepted
#print axioms Verif.Bip32.C49_identity_child
#print axioms Verif.Bip32.C49_separation_partial
#print axioms Verif.Native.C50_fromBytes_value
#print axioms Verif.Native.C50_toBytes_value
#print axioms Verif.Native.C50_mul
#print axioms Verif.Native.C50_square
#print axioms Verif.Native.C50_add
#print axioms Verif.Native.C50_sub
#print axioms Verif.Native.C50_neg
#print axioms Verif.Native.C50_double
#print axioms Verif.Native.C50_constants
#print axioms Verif.Native.C50_setLimbs
#print axioms Verif.Native.C50_setUint64
#print axioms Verif.Native.C50_setBytesWide
#print axioms Verif.Native.C50_setBytes
#print axioms Verif.Native.C50_bytes
#print axioms Verif.Native.C50_raw
#print axioms Verif.Native.C50_bigInt
#print axioms Verif.Native.C50_bytes_roundtrip
#print axioms Verif.Native.C50_setBigInt
#print axioms Verif.Native.C50_equal
#print axioms Verif.Native.C50_pow
#print axioms Verif.Native.C50_exp
#print axioms Verif.Native.C50_pow2k
#print axioms Verif.Native.C50_cmp_is_integer_order
#print axioms Verif.Native.C50_equal_iff
#print axioms Verif.Native.C50_zero_tests
#print axioms Verif.Native.C50_k256Fp
#print axioms Verif.Native.C50_p256Fp
#print axioms Verif.Native.C50_k256Fq
#print axioms Verif.Native.C50_p256Fq
#print axioms Verif.Native.C51_cmp_exact
#print axioms Verif.Native.C51_cmp_not_by_value
#print axioms Verif.Gennaro.C52_round2_sound_partial
#print axioms Verif.Gennaro.C52_round3_sound_partial
#print axioms Verif.Gennaro.C52_foreign_share_accepted
#print axioms Verif.Mpc.C53_roundtrip
#print axioms Verif.Mpc.C53_canonical
#print axioms Verif.Mpc.C53_wide_r_overwrites_v
#print axioms Verif.Accumulator.C54_roundtrip
#print axioms Verif.Accumulator.C54_canonical
#print axioms Verif.Hash.C55_native_rfc
#print axioms Verif.Hash.C55_expanders_agree
#print axioms Verif.Hash.C55_native_never_refuses
#print axioms Verif.Hash.C55_native_zero_panics
#print axioms Verif.Hash.C55_xof_rfc
#print axioms Verif.App.Oracle.C56_callbacks_transparent
#print axioms Verif.App.Oracle.C56_ack_version_transparent
#print axioms Verif.App.Oracle.C56_keeper_transparent
#print axioms Verif.App.Oracle.C56_send_packet_port
#print axioms Verif.App.Oracle.C56_send_packet_iff
#print axioms Verif.App.Did.C57_wellformed_stores_nothing
#print axioms Verif.App.Did.C57_stored_on_error
#print axioms Verif.App.Did.C57_rows_permanent
#print axioms Verif.App.Vault.C58_link
#print axioms Verif.App.Vault.C58_unlink_partial
#print axioms Verif.App.Vault.C58_history
#print axioms Verif.App.Vault.C58_duplicate_panics
#print axioms Verif.App.Vault.C58_link_twice_unlink_panics
#print axioms Verif.App.Vault.C58_duplicate_survives
#print axioms Verif.App.Vault.C59_update
#print axioms Verif.App.Vault.C59_history
#print axioms Verif.App.Vault.C59_replay
#print axioms Verif.App.Identifier.C60_email_accepts
#print axioms Verif.App.Identifier.C60_phone_accepts
#print axioms Verif.App.Identifier.C60_did_is_hex
#print axioms Verif.App.Identifier.C60_equals_iff
#print axioms Verif.App.Identifier.C60_equals_binding
#print axioms Verif.App.Identifier.C60_kinds_disjoint
#print axioms Verif.App.Fs.C61_file_never_loads
#print axioms Verif.App.Fs.C61_folder_with_file_never_loads
#print axioms Verif.App.Fs.C61_stays_inside_partial
#print axioms Verif.App.Fs.C61_escapes
#print axioms Verif.App.Fs.C61_vault_path
#print axioms Verif.App.Fs.C62_read_after_write
#print axioms Verif.App.Fs.C62_append
#print axioms Verif.App.Fs.C62_touch
#print axioms Verif.App.Fs.C62_copy
#print axioms Verif.App.Fs.C62_copy_onto_itself_erases
#print axioms Verif.App.Fs.C62_failed_copy_truncates
#print axioms Verif.Actor.C63_served
#print axioms Verif.Actor.C63_failure_not_single_error
#print axioms Verif.Actor.C63_protocol_error
#print axioms Verif.Actor.C63_sent_signature_verifies
#print axioms Verif.PubKey.C64_accepts_iff
#print axioms Verif.PubKey.C64_short_key_panics
#print axioms Verif.PubKey.C64_offcurve_panics
#print axioms Verif.PubKey.C64_tags_ignored
#print axioms Verif.PubKey.C64_malleable
#print axioms Verif.PubKey.C64_zero_key_forgery
#print axioms Verif.PubKey.C64_keyshare_signature_verifies
#print axioms Verif.PubKey.C64_sign_serialises
#print axioms Verif.Secret.C65_create
#print axioms Verif.Secret.C65_witness_verifies
#print axioms Verif.Secret.C65_nonmember_verifies
#print axioms Verif.Secret.C65_stale_witness
#print axioms Verif.Secret.C65_update
#print axioms Verif.Native.C66_scalar_ring
#print axioms Verif.Native.C66_scalar_division
#print axioms Verif.Native.C66_scalar_sqrt
#print axioms Verif.Native.C66_scalar_integers
#print axioms Verif.Native.C66_scalar_bytes
#print axioms Verif.Native.C66_scalar_wide
#print axioms Verif.Native.C66_scalar_tests
#print axioms Verif.Native.C67_cmp_exact
#print axioms Verif.Native.C67_setBytes_exact
#print axioms Verif.Native.C67_setBigInt_exact
#print axioms Verif.Native.C67_equal
#print axioms Verif.Native.C67_exp
#print axioms Verif.Native.C67_isOdd
#print axioms Verif.Native.C67_invert
#print axioms Verif.Native.C67_sqrt
#print axioms Verif.Native.C67_instances
#print axioms Verif.Native.C67_accepts_noncanonical
#print axioms Verif.Native.C67_two_encodings
#print axioms Verif.Native.C67_refuses_canonical
#print axioms Verif.Native.C67_parity_wrong
#print axioms Verif.Native.C68_k256
#print axioms Verif.Native.C68_p256
#print axioms Verif.Native.C68_group
#print axioms Verif.Native.C68_equal
#print axioms Verif.Native.C68_mul
#print axioms Verif.Native.C68_sumOfProducts
#print axioms Verif.Native.C69_k256_order
#print axioms Verif.Native.C69_p256_order
#print axioms Verif.Native.C70_affine
#print axioms Verif.Native.C70_isOnCurve
#print axioms Verif.Native.C70_setBigInt
#print axioms Verif.Native.C70_encode
#print axioms Verif.Native.C70_decompress
#print axioms Verif.Native.C70_compressed_roundtrip
#print axioms Verif.Native.C70_uncompressed
#print axioms Verif.Native.C70_uncompressed_roundtrip
#print axioms Verif.Native.C70_isNegative
#print axioms Verif.Native.C70_k256_identity
#print axioms Verif.Native.C70_p256_identity
#print axioms Verif.Native.C70_uncompressed_unchecked
#print axioms Verif.Native.C70_isNegative_not_sign
#print axioms Verif.Native.C71_isOnCurve
#print axioms Verif.Native.C71_add_double
#print axioms Verif.Native.C71_scalarMult
#print axioms Verif.Native.C71_wrapper_departures
#print axioms Verif.Bulletproof.C72_completeness
#print axioms Verif.Bulletproof.C72_generators
#print axioms Verif.Bulletproof.C72_getP
#print axioms Verif.Bulletproof.C72_verify_exact
#print axioms Verif.Bulletproof.C72_verify_refuses
#print axioms Verif.Bulletproof.C72_input_checks
#print axioms Verif.Bulletproof.C72_verify_overflow
#print axioms Verif.Bulletproof.C72_fromRange_mismatch
#print axioms Verif.Bulletproof.C73_verify_exact
#print axioms Verif.Bulletproof.C73_verify_crash
#print axioms Verif.Bulletproof.C73_bit_length
#print axioms Verif.Bulletproof.C73_honest
#print axioms Verif.Bulletproof.C73_domain
#print axioms Verif.Bulletproof.C73_completeness
#print axioms Verif.Bulletproof.C73_upper_bound
#print axioms Verif.Bulletproof.C73_big_endian_rejected
#print axioms Verif.Bulletproof.C74_verify_exact
#print axioms Verif.Bulletproof.C74_honest
#print axioms Verif.Bulletproof.C74_single_panics
#print axioms Verif.Bulletproof.C74_short_gamma
#print axioms Verif.Bulletproof.C74_refused
#print axioms Verif.Bulletproof.C74_completeness
#print axioms Verif.Bulletproof.C74_big_endian
#print axioms Verif.Bulletproof.C75_ipp_roundtrip
#print axioms Verif.Bulletproof.C75_range_roundtrip
#print axioms Verif.Bulletproof.C75_canonical
#print axioms Verif.Bulletproof.C75_truncated
#print axioms Verif.Bbs.C76_verify_exact
#print axioms Verif.Bbs.C76_accepted_equation
#print axioms Verif.Bbs.C76_verify_total
#print axioms Verif.Bbs.C76_sign_value
#print axioms Verif.Bbs.C76_sign_refuses
#print axioms Verif.Bbs.C76_sign_verify
#print axioms Verif.Bbs.C76_forgery
#print axioms Verif.Bbs.C76_same_sum
#print axioms Verif.Bbs.C76_sum_binding
#print axioms Verif.Bbs.C77_init
#print axioms Verif.Bbs.C77_get_constant
#print axioms Verif.Bbs.C77_deterministic
#print axioms Verif.Bbs.C78_verify_exact
#print axioms Verif.Bbs.C78_new_context
#print axioms Verif.Bbs.C78_context_verifies
#print axioms Verif.Bbs.C78_blind_sign_verify
#print axioms Verif.Bbs.C78_signer_succeeds
#print axioms Verif.Bbs.C78_context_extract
#print axioms Verif.Bbs.C78_same_exponent
#print axioms Verif.Bbs.C78_signer_panics
#print axioms Verif.Bbs.C78_index_length_panics
#print axioms Verif.Bbs.C78_index_refused
#print axioms Verif.Bbs.C78_negative_index
#print axioms Verif.Bbs.C79_verify_exact
#print axioms Verif.Bbs.C79_extra_responses
#print axioms Verif.Bbs.C79_completeness
#print axioms Verif.Bbs.C79_new_refuses
#print axioms Verif.Bbs.C79_new_succeeds
#print axioms Verif.Bbs.C79_extract
#print axioms Verif.Bbs.C79_arbitrary_disclosure
#print axioms Verif.Bbs.Drbg.C80_seed
#print axioms Verif.Bbs.Drbg.C80_seed_split
#print axioms Verif.Bbs.Drbg.C80_read
#print axioms Verif.Bbs.Drbg.C80_read_other
#print axioms Verif.Bbs.Drbg.C80_prefix
#print axioms Verif.Bbs.C81_signature
#print axioms Verif.Bbs.C81_context
#print axioms Verif.Bbs.C81_proof
#print axioms Verif.Bbs.C81_keys
#print axioms Verif.Native.Pallas.C82_group
#print axioms Verif.Native.Pallas.C82_equal
#print axioms Verif.Native.Pallas.C82_mul
#print axioms Verif.Native.Pallas.C82_sumOfProducts
#print axioms Verif.Native.Pallas.C82_isOnCurve
#print axioms Verif.Native.Pallas.C83_generator
#print axioms Verif.Native.Pallas.C83_order
#print axioms Verif.Native.Pallas.C83_mul_injective
#print axioms Verif.Native.Pallas.C84_encode
#print axioms Verif.Native.Pallas.C84_decompress
#print axioms Verif.Native.Pallas.C84_uncompressed
#print axioms Verif.Native.Pallas.C84_roundtrip
#print axioms Verif.Native.Pallas.C84_identity_not_decodable
#print axioms Verif.Native.Pallas.C84_point_not_decodable
#print axioms Verif.Native.Pallas.C84_two_encodings
#print axioms Verif.Native.Pallas.C85_set
#print axioms Verif.Native.Pallas.C85_set_zero
#print axioms Verif.Native.Pallas.C85_isNegative
#print axioms Verif.Native.Pallas.C85_isOnCurve
#print axioms Verif.Native.Pallas.C85_add_double
#print axioms Verif.Native.Pallas.C85_scalarMult
#print axioms Verif.Native.Pallas.C85_on_curve_refused
#print axioms Verif.Native.Pallas.C85_scalar_dropped
#print axioms Verif.Native.Pallas.C86_sswu
#print axioms Verif.Native.Pallas.C86_isogeny
#print axioms Verif.Native.Pallas.C86_map_unique
#print axioms Verif.Native.Pallas.C86_hash
#print axioms Verif.Native.C87_k256_map_unique
#print axioms Verif.Native.C87_k256_hash
#print axioms Verif.Native.C87_p256_map_unique
#print axioms Verif.Native.C87_p256_hash
#print axioms Verif.Native.C88_tags_partial
#print axioms Verif.Native.C88_shake256_tag
#print axioms Verif.Native.C88_native_random
#print axioms Verif.Native.C88_api_random_ignores_reader
#print axioms Verif.Bls381.Fp.C89_representation
#print axioms Verif.Bls381.Fp.C89_arithmetic
#print axioms Verif.Bls381.Fp.C89_invert
#print axioms Verif.Bls381.Fp.C89_sqrt
#print axioms Verif.Bls381.Fp.C89_tests
#print axioms Verif.Bls381.Fp.C89_choice
#print axioms Verif.Bls381.Fp.C89_bytes
#print axioms Verif.Bls381.Fp.C89_integers
#print axioms Verif.Bls381.Fq.C90_codec
#print axioms Verif.Bls381.Fq.C90_scalar_ring
#print axioms Verif.Bls381.Fq.C90_scalar_neg
#print axioms Verif.Bls381.Fq.C90_neg_zero_not_canonical
#print axioms Verif.Bls381.Fq.C90_neg_zero_acts_as_zero
#print axioms Verif.Bls381.Fq.C90_scalar_division
#print axioms Verif.Bls381.Fq.C90_scalar_sqrt
#print axioms Verif.Bls381.Fq.C90_scalar_integers
#print axioms Verif.Bls381.Fq.C90_scalar_bytes
#print axioms Verif.Bls381.Fq.C90_scalar_wide
#print axioms Verif.Bls381.Fq.C90_scalar_tests
#print axioms Verif.Bls381.Fp2.C91_representation
#print axioms Verif.Bls381.Fp2.C91_arithmetic
#print axioms Verif.Bls381.Fp2.C91_unit
#print axioms Verif.Bls381.Fp2.C91_invert
#print axioms Verif.Bls381.Fp2.C91_sqrt
#print axioms Verif.Bls381.Fp2.C91_tests
#print axioms Verif.Bls381.Fp2.C91_choice
#print axioms Verif.Bls381.Fp2.C91_sign
#print axioms Verif.Bls381.Fp6.C92_fp6_arithmetic
#print axioms Verif.Bls381.Fp6.C92_fp6_unit
#print axioms Verif.Bls381.Fp6.C92_fp6_invert
#print axioms Verif.Bls381.Fp6.C92_fp6_tests
#print axioms Verif.Bls381.Fp6.C92_fp6_isOne_violated
#print axioms Verif.Bls381.Fp6.C92_fp6_isOne_partial
#print axioms Verif.Bls381.Fp12.C92_representation
#print axioms Verif.Bls381.Fp12.C92_fp12_arithmetic
#print axioms Verif.Bls381.Fp12.C92_fp12_invert
#print axioms Verif.Bls381.Fp12.C92_fp12_tests
#print axioms Verif.Bls381.Gt.C93_final_exponentiation
#print axioms Verif.Bls381.Gt.C93_group
#print axioms Verif.Bls381.Gt.C93_isOne_outside_group_violated
#print axioms Verif.Bls381.Gt.C93_square_outside_group_violated
#print axioms Verif.Bls381.Gt.C93_mul_always_zero_violated
#print axioms Verif.Bls381.Gt.C93_bytes
#print axioms Verif.Bls381.Gt.C93_generator
#print axioms Verif.Bls381.Gt.C93_scalar_invert
#print axioms Verif.Bls381.Gt.C93_scalar_new_violated
#print axioms Verif.Bls381.Gt.C93_scalar_setBytes_length_violated
#print axioms Verif.Bls381.G1.C94_group_law
#print axioms Verif.Bls381.G1.C94_mul
#print axioms Verif.Bls381.G1.C94_sum_of_products
#print axioms Verif.Bls381.G1.C94_order
#print axioms Verif.Bls381.G1.C94_subgroup
#print axioms Verif.Bls381.G1.C94_clear_cofactor
#print axioms Verif.Bls381.G1.C94_on_curve
#print axioms Verif.Bls381.G1.C94_affine
#print axioms Verif.Bls381.G1.C94_affine_identity_violated
#print axioms Verif.Bls381.G1.C95_roundtrip
#print axioms Verif.Bls381.G1.C95_injective
#print axioms Verif.Bls381.G1.C95_compressed_sound
#print axioms Verif.Bls381.G1.C95_uncompressed_sound
#print axioms Verif.Bls381.G1.C95_not_canonical_violated
#print axioms Verif.Bls381.G1.C95_bigInt
#print axioms Verif.Bls381.G1.C95_setBigInt
#print axioms Verif.Bls381.G2.C96_group_law
#print axioms Verif.Bls381.G2.C96_mul
#print axioms Verif.Bls381.G2.C96_sum_of_products
#print axioms Verif.Bls381.G2.C96_order
#print axioms Verif.Bls381.G2.C96_subgroup
#print axioms Verif.Bls381.G2.C96_clear_cofactor
#print axioms Verif.Bls381.G2.C96_psi
#print axioms Verif.Bls381.G2.C96_on_curve
#print axioms Verif.Bls381.G2.C96_affine
#print axioms Verif.Bls381.G2.C96_affine_identity_violated
#print axioms Verif.Bls381.G2.C97_roundtrip
#print axioms Verif.Bls381.G2.C97_injective
#print axioms Verif.Bls381.G2.C97_compressed_sound
#print axioms Verif.Bls381.G2.C97_uncompressed_sound
#print axioms Verif.Bls381.G2.C97_not_canonical_violated
#print axioms Verif.Bls381.G2.C97_bigInt_constant_violated
#print axioms Verif.Bls381.G2.C97_setBigInt
#print axioms Verif.Bls381.Pair.C98_pairing
#print axioms Verif.Bls381.Pair.C98_result
#print axioms Verif.Bls381.Pair.C98_order
#print axioms Verif.Bls381.Pair.C98_bilinear
#print axioms Verif.Bls381.Pair.C98_empty
#print axioms Verif.Bls381.Pair.C98_slots
#print axioms Verif.Bls381.Pair.C99_binding
#print axioms Verif.Bls381.Pair.C99_subgroup_violated
#print axioms Verif.Bls381.Sig.C100_secret_key
#print axioms Verif.Bls381.Sig.C100_decode1
#print axioms Verif.Bls381.Sig.C100_decode2
#print axioms Verif.Bls381.Sig.C100_usual_public_key
#print axioms Verif.Bls381.Sig.C100_usual_verify
#print axioms Verif.Bls381.Sig.C100_usual_sign
#print axioms Verif.Bls381.Sig.C100_usual_unique_bytes
#print axioms Verif.Bls381.Sig.C100_usual_guards
#print axioms Verif.Bls381.Sig.C100_usual_aggregate
#print axioms Verif.Bls381.Sig.C100_usual_fast_aggregate
#print axioms Verif.Bls381.Sig.C100_usual_bound
#print axioms Verif.Bls381.Sig.C100_usual_threshold
#print axioms Verif.Bls381.Sig.C100_tiny_public_key
#print axioms Verif.Bls381.Sig.C100_tiny_verify
#print axioms Verif.Bls381.Sig.C100_tiny_sign
#print axioms Verif.Bls381.Sig.C100_tiny_unique_bytes
#print axioms Verif.Bls381.Sig.C100_tiny_guards
#print axioms Verif.Bls381.Sig.C100_tiny_aggregate
#print axioms Verif.Bls381.Sig.C100_tiny_fast_aggregate
#print axioms Verif.Bls381.Sig.C100_tiny_bound
#print axioms Verif.Bls381.Sig.C100_tiny_threshold
#print axioms Verif.Bls381.Sig.C100_usual_bound_sign
#print axioms Verif.Bls381.Sig.C100_usual_aug_aggregate
#print axioms Verif.Bls381.Sig.C100_tiny_bound_sign
#print axioms Verif.Bls381.Sig.C100_tiny_aug_aggregate
#print axioms Verif.Bls381.G1.C101_g1_map_unique
#print axioms Verif.Bls381.G1.C101_g1_hash_partial
#print axioms Verif.Bls381.G1.C101_g1_exceptional
#print axioms Verif.Bls381.G1.C101_g1_map_violated
#print axioms Verif.Bls381.G1.C101_g1_hash_violated
#print axioms Verif.Bls381.G1.C101_g1_random
#print axioms Verif.Bls381.G2.C102_g2_map_unique
#print axioms Verif.Bls381.G2.C102_g2_hash_partial
#print axioms Verif.Bls381.G2.C102_g2_map_violated
#print axioms Verif.Bls381.G2.C102_g2_hash_violated
#print axioms Verif.Bls381.G2.C102_g2_random
#print axioms Verif.Bls381.Sig.C103_usual_bound_sign_partial
#print axioms Verif.Bls381.Sig.C103_tiny_bound_sign_partial
#print axioms Verif.Bls381.Sig.C103_usual_aggregate_partial
#print axioms Verif.Bls381.Sig.C103_usual_fast_aggregate_partial
#print axioms Verif.Bls381.Sig.C103_usual_bound_partial
#print axioms Verif.Bls381.Sig.C103_usual_threshold_partial
#print axioms Verif.Bls381.Sig.C103_tiny_aggregate_partial
#print axioms Verif.Bls381.Sig.C103_tiny_fast_aggregate_partial
#print axioms Verif.Bls381.Sig.C103_tiny_bound_partial
#print axioms Verif.Bls381.Sig.C103_tiny_threshold_partial
#print axioms Verif.Bls381.Sig.C103_usual_verify_partial
#print axioms Verif.Bls381.Sig.C103_usual_sign_partial
#print axioms Verif.Bls381.Sig.C103_tiny_verify_partial
#print axioms Verif.Bls381.Sig.C103_tiny_sign_partial
#print axioms Verif.Curves.C104_registry
#print axioms Verif.Curves.C104_scalar_roundtrip
#print axioms Verif.Curves.C104_point_roundtrip_partial
#print axioms Verif.Curves.C104_no_panic_partial
#print axioms Verif.Curves.C104_scalar_text_panic_violated
#print axioms Verif.Curves.C104_scalar_text_truncated_violated
#print axioms Verif.Curves.C104_point_sound
#print axioms Verif.Curves.C104_scalar_sound
#print axioms Verif.Curves.C104_point_no_confusion
#print axioms Verif.Curves.C104_scalar_no_confusion
#print axioms Verif.Curves.C104_injective
#print axioms Verif.Curves.C104_json_point_violated
#print axioms Verif.Curves.C104_gt_violated
#print axioms Verif.Curves.C104_bls_trailing_violated
#print axioms Verif.Curves.C104_bls377_scalar_length_violated
#print axioms Verif.Curves.C104_identity_violated
#print axioms Verif.Curves.PairCurve.C105_group
#print axioms Verif.Curves.PairCurve.C105_pairing
#print axioms Verif.Curves.PairCurve.C105_multi_nil
#print axioms Verif.Curves.PairCurve.C105_isNegative
#print axioms Verif.Curves.PairCurve.C105_sum_of_products1
#print axioms Verif.Curves.PairCurve.C105_sum_of_products2
#print axioms Verif.Curves.PairCurve.C105_base_mult
#print axioms Verif.Curves.PairCurve.C105_scalar_hash
#print axioms Verif.Curves.PairCurve.C105_scalar_random_violated
#print axioms Verif.Kdf.Commit.C106_commit
#print axioms Verif.Kdf.Commit.C106_open
#print axioms Verif.Kdf.Commit.C106_binding
#print axioms Verif.Kdf.Commit.C106_json
#print axioms Verif.Kdf.Commit.C106_hmac
#print axioms Verif.Kdf.Hkdf.C107_exact
#print axioms Verif.Kdf.Hkdf.C107_length_prefix
#print axioms Verif.Kdf.Hkdf.C107_salt_padding
#print axioms Verif.Bls381.Sig.C108_generate
#print axioms Verif.Bls381.Sig.C108_keygen_partial
#print axioms Verif.Bls381.Sig.C108_zero_attempt_violated
#print axioms Verif.Bls381.Sig.C108_overwrites_violated
#print axioms Verif.Bls381.Sig.C108_keygen_random
#print axioms Verif.Ec.C109_predicates
#print axioms Verif.Ec.C109_curves_differ
#print axioms Verif.Ec.C109_add
#print axioms Verif.Ec.C109_errors
#print axioms Verif.Ec.C109_neg_partial
#print axioms Verif.Ec.C109_neg_identity_violated
#print axioms Verif.Ec.C109_scalar_mult
#print axioms Verif.Ec.C109_results_valid
#print axioms Verif.Ec.C109_bytes_roundtrip
#print axioms Verif.Ec.C109_bytes_accepts
#print axioms Verif.Ec.C109_json_roundtrip
#print axioms Verif.Ec.C109_binary_roundtrip_partial
#print axioms Verif.Ec.C109_binary_large_violated
#print axioms Verif.Ec.C109_binary_decodes
#print axioms Verif.Ec.C109_binary_short_violated
#print axioms Verif.Ec.C109_decoders_unchecked_violated
#print axioms Verif.Ec.C109_secp256k1
#print axioms Verif.Ec.C110_arithmetic
#print axioms Verif.Ec.C110_unreduced
#print axioms Verif.Ec.C110_bytes
#print axioms Verif.Ec.C110_is_valid
#print axioms Verif.Ec.C110_ed25519_is_valid_partial
#print axioms Verif.Ec.C110_ed25519_negative_violated
#print axioms Verif.Ec.C110_ed25519_domain
#print axioms Verif.Ec.C110_div_zero_violated
#print axioms Verif.Ec.C110_bytes_sign_violated
#print axioms Verif.Ec.C110_random
#print axioms Verif.Ec.C110_clamp
#print axioms Verif.V1Bls.C111_is_on_curve
#print axioms Verif.V1Bls.C111_add
#print axioms Verif.V1Bls.C111_base_mult
#print axioms Verif.V1Bls.C111_scalar_mult_partial
#print axioms Verif.V1Bls.C111_scalar_mult_violated
#print axioms Verif.V1Bls.C111_compressed
#print axioms Verif.V1Bls.C111_params_partial
#print axioms Verif.V1Bls.C111_params_violated
#print axioms Verif.V1Bls.C111_g2_is_g1_violated
#print axioms Verif.V1Bls.C111_feldman
#print axioms Verif.V1Bls.C111_feldman_errors
#print axioms Verif.V1Bls.C111_points_partial
#print axioms Verif.V1Bls.C111_bls_feldman_partial
#print axioms Verif.V1Bls.C111_bls_feldman_violated
#print axioms Verif.V1Ed.C112_is_on_curve
#print axioms Verif.V1Ed.C112_is_on_curve_violated
#print axioms Verif.V1Ed.C112_group_law
#print axioms Verif.V1Ed.C112_zero_violated
#print axioms Verif.V1Ed.C112_scalar_mult
#print axioms Verif.V1Ed.C112_scalar_truncated_violated
#print axioms Verif.V1Ed.C112_hash_violated
#print axioms Verif.V1Ed.C112_points
#print axioms Verif.V1Ed.C112_points_violated
#print axioms Verif.V1Ed.C112_feldman
#print axioms Verif.EdSig.C113_key_from_seed
#print axioms Verif.EdSig.C113_nem_seed
#print axioms Verif.EdSig.C113_verify
#print axioms Verif.EdSig.C113_second_half_unique
#print axioms Verif.EdSig.C113_extraction
#print axioms Verif.EdSig.C113_mixed_key
#print axioms Verif.EdSig.C113_sign_verify
#print axioms Verif.EdSig.C113_sign_errors
#print axioms Verif.EdSig.C113_public_half_violated
#print axioms Verif.EdSig.C113_small_order_violated
#print axioms Verif.Ed25519.C114_group
#print axioms Verif.Ed25519.C114_contract
#print axioms Verif.Ed25519.C114_encodings
#print axioms Verif.Ed25519.C114_encodings_violated
#print axioms Verif.Ed25519.C114_set
#print axioms Verif.Ed25519.C114_set_violated
#print axioms Verif.Ed25519.C114_sqrt_ratio
#print axioms Verif.Ed25519.C114_hash
#print axioms Verif.Ed25519.C115_field
#print axioms Verif.Ed25519.C115_invert
#print axioms Verif.Ed25519.C115_invert_violated
#print axioms Verif.Ed25519.C115_predicates
#print axioms Verif.Ed25519.C115_cmp_violated
#print axioms Verif.Ed25519.C115_encodings
#print axioms Verif.Ed25519.C115_new
#print axioms Verif.Ed25519.C115_new_violated
#print axioms Verif.Ed25519.C115_sqrt
#print axioms Verif.Ed25519.C115_sqrt_violated
#print axioms Verif.Ed25519.C115_hash
#print axioms Verif.Ed25519.C115_points
#print axioms Verif.Ed25519.C115_mul_violated
#print axioms Verif.Ed25519.C115_mangle
#print axioms Verif.Ed25519.C115_sums
#print axioms Verif.Ed25519.C115_sums_violated
#print axioms Verif.Ted25519.C116_key
#print axioms Verif.Ted25519.C116_nonce
#print axioms Verif.Ted25519.C116_nonce_inputs
#print axioms Verif.Ted25519.C116_nonce_uniform_violated
#print axioms Verif.Ted25519.C116_share_bytes
#print axioms Verif.Ted25519.C116_commitments_bytes
#print axioms Verif.Ted25519.C116_end_to_end
#print axioms Verif.B377.C117_arith
#print axioms Verif.B377.C117_mulAdd
#print axioms Verif.B377.C117_div
#print axioms Verif.B377.C117_invert_zero_violated
#print axioms Verif.B377.C117_div_zero_violated
#print axioms Verif.B377.C117_mulAdd_foreign_violated
#print axioms Verif.B377.C117_sqrt
#print axioms Verif.B377.C117_sqrt_violated
#print axioms Verif.B377.C117_tests
#print axioms Verif.B377.C117_new
#print axioms Verif.B377.C117_bigInt
#print axioms Verif.B377.C117_bytes
#print axioms Verif.B377.C117_setBytes
#print axioms Verif.B377.C117_setBytes_length_violated
#print axioms Verif.B377.C117_wide
#print axioms Verif.B377.C117_hash
#print axioms Verif.B377.C117_random_violated
#print axioms Verif.B377.C118_group
#print axioms Verif.B377.C118_encodings
#print axioms Verif.B377.C118_uncompressed_violated
#print axioms Verif.B377.C118_set
#print axioms Verif.B377.C118_set_violated
#print axioms Verif.B377.C118_identity_x_violated
#print axioms Verif.B377.C118_set_panics_violated
#print axioms Verif.B377.C118_sums
#print axioms Verif.B377.C118_empty_sum_violated
#print axioms Verif.B377.C118_mixed_violated
#print axioms Verif.B377.C119_pairing
#print axioms Verif.B377.C119_multi
#print axioms Verif.B377.C119_identity_violated
#print axioms Verif.B377.C119_empty_violated
#print axioms Verif.B377.C119_gt_bytes
#print axioms Verif.B377.C119_gt_field
#print axioms Verif.B377.C119_gt_zero_violated
#print axioms Verif.B377.C119_gt_new_violated
#print axioms Verif.B377.C119_gt_random_violated
#print axioms Verif.Dkls.Dealer.C120_dealt
#print axioms Verif.Dkls.Dealer.C120_read_error
#print axioms Verif.Dkls.Dealer.C120_covers_keygen
#print axioms Verif.Dkls.Dealer.C120_refreshes
#print axioms Verif.Dkls.Dealer.C120_zero_share_violated
#print axioms Verif.Dkls.Dealer.C120_signs
#print axioms Verif.Mpc.Wire.C121_roundtrip
#print axioms Verif.Mpc.Wire.C121_only_version_200
#print axioms Verif.Mpc.Wire.C121_refresh_version_violated
#print axioms Verif.Mpc.Wire.C121_labels_ignored_violated
#print axioms Verif.Mpc.Wire.C121_cross_protocol_violated
#print axioms Verif.Mpc.Wire.C121_replays_violated
#print axioms Verif.Mpc.Wire.C121_labels_distinct
#print axioms Verif.Mpc.Wire.C121_malformed
#print axioms Verif.Mpc.Wire.C121_registered_iff
#print axioms Verif.Mpc.Wire.C121_alice_fresh_process_violated
#print axioms Verif.Mpc.Wire.C121_bob_restart_violated
#print axioms Verif.Gennaro.TwoParty.C122_created
#print axioms Verif.Gennaro.TwoParty.C122_honest
#print axioms Verif.Gennaro.TwoParty.C122_round2_sound_partial
#print axioms Verif.Gennaro.TwoParty.C122_blind_ignored_violated
#print axioms Verif.Gennaro.TwoParty.C122_nil_message_violated
#print axioms Verif.Paillier.C123_result
#print axioms Verif.Paillier.C123_rounds
#print axioms Verif.Paillier.C123_error
#print axioms Verif.Paillier.C123_terminates
#print axioms Verif.Paillier.C123_safe_prime
#print axioms Verif.Paillier.C123_keys
#print axioms Verif.Paillier.C123_equal_primes_violated
#print axioms Verif.Paillier.C123_small_sizes_violated
#print axioms Verif.OT.Stream.C124_as_rounds
#print axioms Verif.OT.Stream.C124_honest
#print axioms Verif.OT.Stream.C124_receiver_sound
#print axioms Verif.OT.Stream.C124_sender_sound
#print axioms Verif.OT.Stream.C124_peer_waits_violated
#print axioms Verif.OT.Stream.C124_other_curves_violated
#print axioms Verif.OT.Kos.Stream.C125_as_rounds
#print axioms Verif.OT.Kos.Stream.C125_honest
#print axioms Verif.OT.Kos.Stream.C125_sender_sound
#print axioms Verif.OT.Kos.Stream.C125_tampered
#print axioms Verif.OT.Kos.Stream.C125_peer_waits_violated
#print axioms Verif.OT.Kos.Stream.C125_unregistered_violated
#print axioms Verif.Mpc.Keyshare.C126_roundtrip
#print axioms Verif.Mpc.Keyshare.C126_load_iff
#print axioms Verif.Mpc.Keyshare.C126_set_public_key
#print axioms Verif.Mpc.Keyshare.C126_user_public_key
#print axioms Verif.Mpc.Keyshare.C126_user_after_restart_violated
#print axioms Verif.Mpc.Keyshare.C126_unusable_loaded_violated
#print axioms Verif.Mpc.Keyshare.C126_nil_accepted_violated
#print axioms Verif.Mpc.Keyshare.C126_mixed_keys_violated
#print axioms Verif.Mpc.Keyshare.C126_val_functions
#print axioms Verif.Mpc.Keyshare.C126_usr_functions
#print axioms Verif.Mpc.Keyshare.C126_user_sign_after_restart_violated
#print axioms Verif.Mpc.Keyshare.C126_refreshed
#print axioms Verif.Kdf.Names.C127_hex_iff
#print axioms Verif.Kdf.Names.C127_reads_back
#print axioms Verif.Kdf.Names.C127_no_prefix
#print axioms Verif.Kdf.Names.C127_sizes
#print axioms Verif.Kdf.Names.C127_converted
#print axioms Verif.Kdf.Names.C127_convert_values
#print axioms Verif.Kdf.Names.C127_convert_twice_violated
