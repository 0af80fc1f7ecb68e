import Verif.Props.Alias
import Verif.Props.BlockCipher
import Verif.Props.BlockDirect
import Verif.Props.CipherAny
import Verif.Props.CipherStore
import Verif.Props.Clear
import Verif.Props.Collision
import Verif.Props.CommonPrefix
import Verif.Props.Compromise
import Verif.Props.CurveCheck
import Verif.Props.Depth
import Verif.Props.Destroy
import Verif.Props.Dialog
import Verif.Props.Diffusion
import Verif.Props.Examples
import Verif.Props.Field
import Verif.Props.Hash
import Verif.Props.HashDiffusion
import Verif.Props.HashPerm
import Verif.Props.Hex
import Verif.Props.Hmac
import Verif.Props.HmacStore
import Verif.Props.Ident
import Verif.Props.KeystreamReuse
import Verif.Props.Lengths
import Verif.Props.Mac
import Verif.Props.MacChange
import Verif.Props.MacExtend
import Verif.Props.MacMask
import Verif.Props.MacStore
import Verif.Props.Malleability
import Verif.Props.Masks
import Verif.Props.Memory
import Verif.Props.Modes
import Verif.Props.New
import Verif.Props.Oid
import Verif.Props.OidName
import Verif.Props.Pbkdf
import Verif.Props.PbkdfStore
import Verif.Props.PbkdfWork
import Verif.Props.Random
import Verif.Props.RandomStore
import Verif.Props.Reflection
import Verif.Props.RegisterEq
import Verif.Props.RelatedKeys
import Verif.Props.RoundTrip
import Verif.Props.SboxDiff
import Verif.Props.SboxLinear
import Verif.Props.SeveralModes
import Verif.Props.Signature
import Verif.Props.SignatureBuiltin
import Verif.Props.SignatureCompromise
import Verif.Props.SignatureDraws
import Verif.Props.SignatureExamples
import Verif.Props.SignatureForge
import Verif.Props.SignatureKeys
import Verif.Props.SignatureNonce
import Verif.Props.SignatureOwner
import Verif.Props.SignatureWrap
import Verif.Props.SourceAnyCurve
import Verif.Props.SourceBasePoint
import Verif.Props.SourceBlock
import Verif.Props.SourceBounds
import Verif.Props.SourceContents
import Verif.Props.SourceContentsCipher
import Verif.Props.SourceContentsSig
import Verif.Props.SourceDefects
import Verif.Props.SourceDefectsMore
import Verif.Props.SourceDefectsSig
import Verif.Props.SourceDestroy
import Verif.Props.SourceDialog
import Verif.Props.SourceExceptions
import Verif.Props.SourceExceptionsCases
import Verif.Props.SourceExceptionsCipher
import Verif.Props.SourceExceptionsOther
import Verif.Props.SourceFresh
import Verif.Props.SourceHash
import Verif.Props.SourceHmac
import Verif.Props.SourceIsolation
import Verif.Props.SourceMac
import Verif.Props.SourceModes
import Verif.Props.SourceNames
import Verif.Props.SourceNonce
import Verif.Props.SourceOid
import Verif.Props.SourceParties
import Verif.Props.SourcePaths
import Verif.Props.SourcePbkdf
import Verif.Props.SourceProgram
import Verif.Props.SourcePublicKey
import Verif.Props.SourceRandom
import Verif.Props.SourceSealed
import Verif.Props.SourceSignature
import Verif.Props.SourceSignatureStd
import Verif.Props.SourceSigned
import Verif.Props.SourceThings
import Verif.Props.SourceTogether
import Verif.Props.SourceTogetherSig
import Verif.Props.SourceUtils
import Verif.Props.Timing
import Verif.Props.Together
import Verif.Props.TwoObjects
import Verif.Props.Utils
import Verif.Props.Version
import Verif.Props.WeakKeys

/-! The axioms on which the theorems of `MANIFEST.json` depend. The build prints them. -/

#print axioms Gost.C01_kuznechik_inverse
#print axioms Gost.C02_magma_inverse
#print axioms Gost.C03_kuznechik_standard
#print axioms Gost.C03_kuznechik_decrypt
#print axioms Gost.C03_kuznechik_round_keys
#print axioms Gost.C03_gf_tables
#print axioms Gost.C03_s_box
#print axioms Gost.C03_pi_algebraic
#print axioms Gost.C04_magma_standard
#print axioms Gost.C04_magma_decrypt
#print axioms Gost.C05_ecb_round_trip
#print axioms Gost.C06_cbc_round_trip
#print axioms Gost.C07_cfb_round_trip
#print axioms Gost.C08_ofb_round_trip
#print axioms Gost.C09_ctr_round_trip
#print axioms Gost.C10_cbc_encrypt
#print axioms Gost.C10_cbc_decrypt
#print axioms Gost.C10_cfb
#print axioms Gost.C10_ofb
#print axioms Gost.C10_ctr
#print axioms Gost.C10_pad_mode_2_not_streaming
#print axioms Gost.Src.C100_new
#print axioms Gost.Src.C100_defaults
#print axioms Gost.Src.C100_methods
#print axioms Gost.Src.C100_reset_default
#print axioms Gost.Src.C100_standard
#print axioms Gost.Src.C101_new
#print axioms Gost.Src.C101_methods
#print axioms Gost.Src.C101_clear
#print axioms Gost.Src.C101_oid
#print axioms Gost.Src.C101_properties
#print axioms Gost.Src.C101_calls
#print axioms Gost.Src.C101_ecb
#print axioms Gost.Src.C101_cbc
#print axioms Gost.Src.C101_cfb
#print axioms Gost.Src.C101_ofb
#print axioms Gost.Src.C101_ctr
#print axioms Gost.Src.C102_methods
#print axioms Gost.Src.C102_calls
#print axioms Gost.Src.C102_history
#print axioms Gost.Src.C102_standard
#print axioms Gost.Src.C103_new
#print axioms Gost.Src.C103_name
#print axioms Gost.Src.C103_digit
#print axioms Gost.Src.C103_octet
#print axioms Gost.Src.C103_refused
#print axioms Gost.Src.C104_new
#print axioms Gost.Src.C104_new_any
#print axioms Gost.Src.C104_public_key
#print axioms Gost.Src.C104_verify
#print axioms Gost.Src.C104_sign
#print axioms Gost.Src.C104_sign_default
#print axioms Gost.Src.C104_table
#print axioms Gost.Src.C105_public_key
#print axioms Gost.Src.C105_sign
#print axioms Gost.Src.C105_verify
#print axioms Gost.Src.C105_run
#print axioms Gost.Src.C105_excluded
#print axioms Gost.Src.C106_zero_fill
#print axioms Gost.Src.C106_hash_updates
#print axioms Gost.Src.C106_hmac_empty
#print axioms Gost.Src.C106_ctr
#print axioms Gost.Src.C106_feedback
#print axioms Gost.Src.C106_padding
#print axioms Gost.Src.C106_truncated
#print axioms Gost.Src.C106_short_mac
#print axioms Gost.Src.C106_empty_iv
#print axioms Gost.Src.C106_refused
#print axioms Gost.Src.C106_pbkdf
#print axioms Gost.Src.C106_oid
#print axioms Gost.Src.C106_verify_infinity
#print axioms Gost.Src.C106_private_key_q
#print axioms Gost.Src.C106_endless
#print axioms Gost.Src.C106_sign_range
#print axioms Gost.Src.C106_key_off_curve
#print axioms Gost.Src.C106_weak_curve
#print axioms Gost.Src.C107_send
#print axioms Gost.Src.C107_password
#print axioms Gost.Src.C107_document
#print axioms Gost.Src.C108_frame
#print axioms Gost.Src.C108_frame_quiet
#print axioms Gost.Src.C108_isolated
#print axioms Gost.Src.C109_block
#print axioms Gost.Src.C109_modes
#print axioms Gost.Src.C109_hmac
#print axioms Gost.Src.C109_pbkdf
#print axioms Gost.Src.C109_random
#print axioms Gost.Src.C109_left
#print axioms Gost.C11_pad_mode_2_recover
#print axioms Gost.C11_ecb_injective
#print axioms Gost.C11_cbc_injective
#print axioms Gost.Src.C110_fresh
#print axioms Gost.Src.C110_fresh_quiet
#print axioms Gost.Src.C110_fresh_error
#print axioms Gost.Src.C110_apart
#print axioms Gost.Src.C110_depends
#print axioms Gost.Src.C111_mac_updates
#print axioms Gost.Src.C111_mac_clear
#print axioms Gost.Src.C111_cleared
#print axioms Gost.Src.C111_hmac_updates
#print axioms Gost.Src.C111_hmac_clear
#print axioms Gost.Src.C111_hmac_key
#print axioms Gost.Src.C111_ctr_counter
#print axioms Gost.Src.C111_counter_later
#print axioms Gost.Src.C111_pbkdf_salt
#print axioms Gost.Src.C111_random_limit
#print axioms Gost.Src.C111_growth_hmac
#print axioms Gost.Src.C111_growth_cipher
#print axioms Gost.Src.C111_oid_name
#print axioms Gost.Src.C111_curve_names
#print axioms Gost.Src.C112_bounds
#print axioms Gost.Src.C112_one_outcome
#print axioms Gost.Src.C112_call
#print axioms Gost.Src.C112_endless
#print axioms Gost.Src.C112_hash
#print axioms Gost.Src.C113_names
#print axioms Gost.Src.C113_raises
#print axioms Gost.Src.C113_members
#print axioms Gost.Src.C113_arity
#print axioms Gost.Src.C113_modules
#print axioms Gost.C114_ctr_apart
#print axioms Gost.C114_default
#print axioms Gost.C114_streams_equal
#print axioms Gost.C114_default_streams
#print axioms Gost.C114_cbc_equal
#print axioms Gost.C114_cfb_equal
#print axioms Gost.Src.C115_call
#print axioms Gost.Src.C115_client
#print axioms Gost.Src.C115_compare
#print axioms Gost.Src.C115_compare_to_zero
#print axioms Gost.Src.C115_cipher
#print axioms Gost.Src.C115_hash
#print axioms Gost.Src.C115_hmac
#print axioms Gost.Src.C115_pbkdf
#print axioms Gost.Src.C115_rest
#print axioms Gost.Src.C115_mac_key
#print axioms Gost.Src.C116_hash
#print axioms Gost.Src.C116_hmac
#print axioms Gost.Src.C116_pbkdf_partial
#print axioms Gost.Src.C116_random
#print axioms Gost.Src.C116_cipher_new_partial
#print axioms Gost.Src.C116_cipher_partial
#print axioms Gost.Src.C116_mac_partial
#print axioms Gost.Src.C116_oid_partial
#print axioms Gost.Src.C116_signature_partial
#print axioms Gost.Src.C116_mac_negation
#print axioms Gost.Src.C116_pbkdf_negation
#print axioms Gost.Src.C116_oid_negation
#print axioms Gost.Src.C116_signature_negation
#print axioms Gost.Src.C116_cipher_negation
#print axioms Gost.Src.C117_hash
#print axioms Gost.Src.C117_hmac
#print axioms Gost.Src.C117_pbkdf
#print axioms Gost.Src.C117_random
#print axioms Gost.Src.C117_new
#print axioms Gost.Src.C117_cipher
#print axioms Gost.Src.C117_mac
#print axioms Gost.Src.C117_signature
#print axioms Gost.Kuz.C118_kuznechik
#print axioms Gost.Kuz.C118_kuznechik_one
#print axioms Gost.Magma.C118_magma
#print axioms Gost.C118_random
#print axioms Gost.Sig.C118_signature
#print axioms Gost.Sig.C118_key
#print axioms Gost.C119_zeros
#print axioms Gost.C119_read
#print axioms Gost.C119_ctr
#print axioms Gost.C119_mac_keys
#print axioms Gost.C119_mac_cbc
#print axioms Gost.C12_pad_mode_2_exact
#print axioms Gost.C12_procedure_2_partial
#print axioms Gost.C12_negation
#print axioms Gost.Sig.C120_uniform
#print axioms Gost.Sig.C120_count
#print axioms Gost.Sig.C120_share
#print axioms Gost.Sig.C120_signature
#print axioms Gost.Sig.C120_zero
#print axioms Gost.Kuz.C121_linear
#print axioms Gost.Kuz.C121_linear_reverse
#print axioms Gost.Kuz.C121_round
#print axioms Gost.Kuz.C121_active
#print axioms Gost.Kuz.C121_field
#print axioms Gost.C121_sbox
#print axioms Gost.C121_sbox_magma
#print axioms Gost.Hash.C122_lps
#print axioms Gost.Hash.C122_two
#print axioms Gost.Hash.C122_active
#print axioms Gost.Hash.C122_keys
#print axioms Gost.C123_block
#print axioms Gost.C123_modes
#print axioms Gost.C123_ecb
#print axioms Gost.Sig.C124_second_key
#print axioms Gost.Sig.C124_which
#print axioms Gost.Sig.C124_negative
#print axioms Gost.Sig.C124_builtin
#print axioms Gost.Sig.C124_example
#print axioms Gost.Kuz.C125_masks
#print axioms Gost.Kuz.C125_masks_reverse
#print axioms Gost.Kuz.C125_masks_exist
#print axioms Gost.C125_sbox
#print axioms Gost.C125_sbox_magma
#print axioms Gost.C125_reached
#print axioms Gost.C126_involution
#print axioms Gost.C126_reflection
#print axioms Gost.C126_count
#print axioms Gost.C126_fixed
#print axioms Gost.C127_ecb
#print axioms Gost.C127_cbc
#print axioms Gost.C127_cfb
#print axioms Gost.C127_ofb
#print axioms Gost.C127_ctr
#print axioms Gost.C128_ecb
#print axioms Gost.C128_cbc
#print axioms Gost.C128_cfb
#print axioms Gost.C128_ofb
#print axioms Gost.C128_ctr
#print axioms Gost.C129_extend
#print axioms Gost.C129_any_end
#print axioms Gost.C129_exist
#print axioms Gost.C13_exact
#print axioms Gost.C13_standard_partial
#print axioms Gost.C13_negation
#print axioms Gost.Src.C130_program
#print axioms Gost.Src.C130_parties
#print axioms Gost.Src.C130_key
#print axioms Gost.Src.C131_program
#print axioms Gost.Src.C131_sealed
#print axioms Gost.Src.C131_generator
#print axioms Gost.Src.C131_signed
#print axioms Gost.Src.C132_standard
#print axioms Gost.Src.C132_default
#print axioms Gost.Src.C132_default_returns
#print axioms Gost.Src.C132_known
#print axioms Gost.Src.C132_related
#print axioms Gost.Src.C132_reuse
#print axioms Gost.Src.C132_seed
#print axioms Gost.Src.C133_form
#print axioms Gost.Src.C133_default
#print axioms Gost.Src.C133_first
#print axioms Gost.Src.C133_known
#print axioms Gost.Src.C133_reuse
#print axioms Gost.Src.C134_accepted_partial
#print axioms Gost.Src.C134_public_key_partial
#print axioms Gost.Src.C134_sign_partial
#print axioms Gost.Src.C134_verify_partial
#print axioms Gost.Src.C134_public_key_negation
#print axioms Gost.Src.C134_sign_negation
#print axioms Gost.Src.C135_verify
#print axioms Gost.Src.C135_two_keys
#print axioms Gost.C14_exact
#print axioms Gost.C14_distinct_partial
#print axioms Gost.C14_negation
#print axioms Gost.C15_negation
#print axioms Gost.C15_ctr_partial
#print axioms Gost.C15_ofb_exact
#print axioms Gost.C15_ofb_blocks
#print axioms Gost.C15_cfb_exact
#print axioms Gost.C15_cfb_blocks
#print axioms Gost.C15_cfb_negation
#print axioms Gost.C16_cbc_encrypt
#print axioms Gost.C16_cbc_decrypt
#print axioms Gost.C16_cfb_encrypt
#print axioms Gost.C16_cfb_decrypt
#print axioms Gost.C16_ofb
#print axioms Gost.C17_omac_partial
#print axioms Gost.C17_negation
#print axioms Gost.C18_exact
#print axioms Gost.C18_concat_partial
#print axioms Gost.C18_negation
#print axioms Gost.C19_digest_observation
#print axioms Gost.C19_mac_final_changes
#print axioms Gost.C20_exact
#print axioms Gost.C20_documented_partial
#print axioms Gost.C20_defaults
#print axioms Gost.C20_negation
#print axioms Gost.C20_short_mac
#print axioms Gost.C21_attributes_partial
#print axioms Gost.C21_negation
#print axioms Gost.C21_negation_any
#print axioms Gost.C22_later_calls_partial
#print axioms Gost.C22_new_partial
#print axioms Gost.C22_magma_known_key
#print axioms Gost.C22_zero_negation
#print axioms Gost.C22_mac_negation
#print axioms Gost.C23_new
#print axioms Gost.C23_update
#print axioms Gost.C23_reset
#print axioms Gost.C23_variants
#print axioms Gost.C24_tables
#print axioms Gost.C24_lps
#print axioms Gost.C24_constants
#print axioms Gost.C25_exact
#print axioms Gost.C25_concat_partial
#print axioms Gost.C25_negation
#print axioms Gost.C25_statement_false
#print axioms Gost.C26_histories
#print axioms Gost.C26_digest_size
#print axioms Gost.C26_digest_length
#print axioms Gost.C27_hmac
#print axioms Gost.C27_accepts
#print axioms Gost.C27_rejects
#print axioms Gost.C28_exact
#print axioms Gost.C28_update_partial
#print axioms Gost.C28_negation
#print axioms Gost.C28_statement_false
#print axioms Gost.C29_exact
#print axioms Gost.C29_concat_partial
#print axioms Gost.C29_negation
#print axioms Gost.C29_statement_false
#print axioms Gost.C30_reset
#print axioms Gost.C30_clear_partial
#print axioms Gost.C30_clear_key
#print axioms Gost.C30_negation
#print axioms Gost.C30_clear_reset
#print axioms Gost.Alias.C31_captured_partial
#print axioms Gost.Alias.C31_exact
#print axioms Gost.Alias.C31_negation
#print axioms Gost.Alias.C31_statement_false
#print axioms Gost.Alias.C31_caller
#print axioms Gost.C32_pbkdf2
#print axioms Gost.C32_length
#print axioms Gost.C32_prefix
#print axioms Gost.C32_block
#print axioms Gost.C32_hexderive
#print axioms Gost.C33_new
#print axioms Gost.C33_errors
#print axioms Gost.C33_salt
#print axioms Gost.C33_derive
#print axioms Gost.C34_attribute_partial
#print axioms Gost.C34_exact
#print axioms Gost.C34_negation
#print axioms Gost.C34_statement_false
#print axioms Gost.C35_random
#print axioms Gost.C35_exact
#print axioms Gost.C35_system_seed
#print axioms Gost.C35_length
#print axioms Gost.C35_continues
#print axioms Gost.C35_huge_seed
#print axioms Gost.C36_distinct
#print axioms Gost.C36_values
#print axioms Gost.C37_seed_kept_partial
#print axioms Gost.C37_never_raised
#print axioms Gost.C37_overflow
#print axioms Gost.C37_negation
#print axioms Gost.C37_statement_false
#print axioms Gost.C38_reset
#print axioms Gost.C38_new
#print axioms Gost.C38_zero_seed
#print axioms Gost.C38_clear
#print axioms Gost.C39_octet_partial
#print axioms Gost.C39_iff
#print axioms Gost.C39_shape
#print axioms Gost.C39_der_injective
#print axioms Gost.C39_injective_partial
#print axioms Gost.C39_negation
#print axioms Gost.C39_statement_false
#print axioms Gost.C39_registered
#print axioms Gost.C40_digit
#print axioms Gost.C40_digit_iff
#print axioms Gost.C40_digit_error
#print axioms Gost.C40_digit_total
#print axioms Gost.C40_octet_invalid
#print axioms Gost.C40_first
#print axioms Gost.C40_second_partial
#print axioms Gost.C40_single
#print axioms Gost.C40_second_negative
#print axioms Gost.C40_second_overflow
#print axioms Gost.C40_negation
#print axioms Gost.C40_statement_false
#print axioms Gost.Sig.C41_sign_std
#print axioms Gost.Sig.C41_sign_returns
#print axioms Gost.Sig.C41_sign_verify_partial
#print axioms Gost.Sig.C41_example
#print axioms Gost.Sig.C41_statement_false
#print axioms Gost.Sig.C42_verify_partial
#print axioms Gost.Sig.C42_key_point
#print axioms Gost.Sig.C42_zero_x
#print axioms Gost.Sig.C42_infinity
#print axioms Gost.Sig.C42_statement_false
#print axioms Gost.Sig.C43_private_key
#print axioms Gost.Sig.C43_point
#print axioms Gost.Sig.C43_result
#print axioms Gost.Sig.C43_mod_q_partial
#print axioms Gost.Sig.C43_multiple_of_q
#print axioms Gost.Sig.C43_key_q
#print axioms Gost.Sig.C43_wrap_top
#print axioms Gost.Sig.C43_wrap_second
#print axioms Gost.Sig.C43_wrap_third
#print axioms Gost.Sig.C43_wrap_builtin
#print axioms Gost.Sig.C43_all_keys
#print axioms Gost.Sig.C43_statement_false
#print axioms Gost.Sig.C44_terminates_partial
#print axioms Gost.Sig.C44_public_key
#print axioms Gost.Sig.C44_sign
#print axioms Gost.Sig.C44_sign_random
#print axioms Gost.Sig.C44_verify
#print axioms Gost.Sig.C44_zero_k
#print axioms Gost.Sig.C44_statement_false
#print axioms Gost.Sig.C45_accepted_partial
#print axioms Gost.Sig.C45_accepted_edwards
#print axioms Gost.Sig.C45_rejected
#print axioms Gost.Sig.C45_builtin
#print axioms Gost.Sig.C45_statement_false
#print axioms Gost.Sig.C46_formulas
#print axioms Gost.Sig.C46_on_curve
#print axioms Gost.Sig.C46_birational
#print axioms Gost.Sig.C46_example_c256A
#print axioms Gost.Sig.C46_example_c512C
#print axioms Gost.Sig.C46_hypotheses_c256A
#print axioms Gost.Sig.C46_hypotheses_c512C
#print axioms Gost.Sig.C47_public_key_generate
#print axioms Gost.Sig.C47_verify
#print axioms Gost.Sig.C47_verify_range
#print axioms Gost.Sig.C47_sign
#print axioms Gost.Sig.C47_sign_output
#print axioms Gost.C48_helpers_partial
#print axioms Gost.C48_compare
#print axioms Gost.C48_compare_to_zero
#print axioms Gost.C48_bytes_int_bytes
#print axioms Gost.C48_int_bytes_int
#print axioms Gost.C48_int_fits
#print axioms Gost.C48_conversions
#print axioms Gost.C48_xor_involution
#print axioms Gost.C48_xor_bytes
#print axioms Gost.C48_zero_fill
#print axioms Gost.C48_statement_false
#print axioms Gost.Alias.C49_iv
#print axioms Gost.Alias.C49_callers_buffers
#print axioms Gost.Alias.C49_methods
#print axioms Gost.Alias.C49_arguments_partial
#print axioms Gost.Alias.C49_counter_negation
#print axioms Gost.Alias.C49_salt_negation
#print axioms Gost.Alias.C49_statement_false
#print axioms Gost.C50_truncated_exact
#print axioms Gost.C50_negation
#print axioms Gost.C50_aligned_partial
#print axioms Gost.C50_negation_modes
#print axioms Gost.C50_aligned_modes_partial
#print axioms Gost.C51_ofb_keystream
#print axioms Gost.C51_ctr_keystream
#print axioms Gost.C51_bit_flip
#print axioms Gost.C52_cbc_local
#print axioms Gost.C52_cfb_local
#print axioms Gost.C52_wrong_iv
#print axioms Gost.C53_stream_reverse
#print axioms Gost.C53_cbc_reverse
#print axioms Gost.C54_ecb_blockwise
#print axioms Gost.C54_ecb_equal_blocks
#print axioms Gost.C55_histories
#print axioms Gost.C55_log_is_hmac
#print axioms Gost.C56_hash
#print axioms Gost.C56_hmac
#print axioms Gost.C56_mac
#print axioms Gost.C56_pbkdf
#print axioms Gost.C56_injective
#print axioms Gost.C57_hmac
#print axioms Gost.C57_pbkdf
#print axioms Gost.C58_histories
#print axioms Gost.Sig.C59_paramSetA
#print axioms Gost.Sig.C59_paramSetB
#print axioms Gost.Sig.C59_paramSetC
#print axioms Gost.Sig.C59_paramSetD
#print axioms Gost.Sig.C59_paramSet512A
#print axioms Gost.Sig.C59_paramSet512B
#print axioms Gost.Sig.C59_paramSet512C
#print axioms Gost.Sig.C59_paramSetA_all
#print axioms Gost.Sig.C59_paramSetB_all
#print axioms Gost.Sig.C59_paramSetC_all
#print axioms Gost.Sig.C59_paramSetD_all
#print axioms Gost.Sig.C59_paramSet512A_all
#print axioms Gost.Sig.C59_paramSet512B_all
#print axioms Gost.Sig.C59_paramSet512C_all
#print axioms Gost.Sig.C59_all
#print axioms Gost.Sig.C60_explicit
#print axioms Gost.Sig.C60_drawn
#print axioms Gost.Sig.C60_draws_used
#print axioms Gost.Sig.C61_digest
#print axioms Gost.Sig.C62_reuse
#print axioms Gost.Sig.C63_length_partial
#print axioms Gost.Sig.C63_mod_q
#print axioms Gost.Sig.C63_statement_false
#print axioms Gost.Sig.C64_length_partial
#print axioms Gost.Sig.C64_any_key
#print axioms Gost.Sig.C64_statement_false
#print axioms Gost.C65_ecb
#print axioms Gost.C65_cbc
#print axioms Gost.C65_cfb
#print axioms Gost.C65_ofb
#print axioms Gost.C65_ctr
#print axioms Gost.C66_new
#print axioms Gost.C66_update
#print axioms Gost.C67_cipher
#print axioms Gost.C67_hash
#print axioms Gost.C67_hmac
#print axioms Gost.C67_sign
#print axioms Gost.C67_distinct
#print axioms Gost.C68_registered_partial
#print axioms Gost.C68_statement_false
#print axioms Gost.C69_cipher
#print axioms Gost.C69_hash
#print axioms Gost.C70_history
#print axioms Gost.C71_ecb
#print axioms Gost.C71_cbc
#print axioms Gost.C71_cfb
#print axioms Gost.C71_ofb
#print axioms Gost.C71_ctr
#print axioms Gost.C72_history
#print axioms Gost.C72_standard
#print axioms Gost.C73_kuznechik
#print axioms Gost.C73_magma
#print axioms Gost.Sig.C74_injective
#print axioms Gost.Sig.C74_on_curve
#print axioms Gost.Sig.C74_builtin
#print axioms Gost.Sig.C75_digests
#print axioms Gost.Sig.C75_opposite
#print axioms Gost.Sig.C75_second_half
#print axioms Gost.Sig.C75_keys
#print axioms Gost.Sig.C75_builtin
#print axioms Gost.C76_one_block
#print axioms Gost.C77_ecb
#print axioms Gost.C77_cbc
#print axioms Gost.C77_cfb
#print axioms Gost.C77_ofb
#print axioms Gost.C77_ctr
#print axioms Gost.roundUp_least
#print axioms Gost.C78_refused
#print axioms Gost.C78_cbc_decrypt
#print axioms Gost.Sig.C79_enough
#print axioms Gost.Sig.C79_not_enough
#print axioms Gost.Sig.C79_limits
#print axioms Gost.C80_sign_document
#print axioms Gost.C80_password
#print axioms Gost.C81_cipher_partial
#print axioms Gost.C81_cipher
#print axioms Gost.C81_unbounded
#print axioms Gost.C81_refused
#print axioms Gost.C81_statement_false
#print axioms Gost.C81_hmac
#print axioms Gost.C81_random
#print axioms Gost.C81_pbkdf
#print axioms Gost.C82_512
#print axioms Gost.C82_256
#print axioms Gost.C82_standard
#print axioms Gost.C82_hmac
#print axioms Gost.C82_pieces
#print axioms Gost.C83_lps
#print axioms Gost.C83_get_key
#print axioms Gost.C83_hash_e
#print axioms Gost.C83_hash_g
#print axioms Gost.C84_block
#print axioms Gost.C84_fixed
#print axioms Gost.C84_ecb
#print axioms Gost.C85_partial
#print axioms Gost.C85_exact
#print axioms Gost.C85_statement_false
#print axioms Gost.C86_gf
#print axioms Gost.C86_mac_keys
#print axioms Gost.C87_keys
#print axioms Gost.C87_padding
#print axioms Gost.C88_exact
#print axioms Gost.C88_dotted_partial
#print axioms Gost.C88_unique
#print axioms Gost.C88_statement_false
#print axioms Gost.C89_partial
#print axioms Gost.C89_cipher
#print axioms Gost.C89_hmac
#print axioms Gost.C89_random
#print axioms Gost.C89_pbkdf
#print axioms Gost.C89_kuznechik
#print axioms Gost.C89_magma
#print axioms Gost.C89_statement_false
#print axioms Gost.C89_negation
#print axioms Gost.C89_left_behind
#print axioms Gost.Sig.C90_forge
#print axioms Gost.Sig.C90_all
#print axioms Gost.Sig.C90_exists
#print axioms Gost.Sig.C90_example
#print axioms Gost.C91_results
#print axioms Gost.C91_compare
#print axioms Gost.C91_reads
#print axioms Gost.Sig.C92_results
#print axioms Gost.Sig.C92_public_key
#print axioms Gost.Sig.C92_count
#print axioms Gost.Sig.C92_sign
#print axioms Gost.C93_exact
#print axioms Gost.C93_partial
#print axioms Gost.C93_statement_false
#print axioms Gost.C94_results
#print axioms Gost.C94_messages
#print axioms Gost.C94_count
#print axioms Gost.C94_none
#print axioms Gost.Src.C95_utils
#print axioms Gost.Src.C96_new
#print axioms Gost.Src.C96_methods
#print axioms Gost.Src.C96_standard
#print axioms Gost.Src.C97_new
#print axioms Gost.Src.C97_methods
#print axioms Gost.Src.C97_standard
#print axioms Gost.Src.C97_updates
#print axioms Gost.Src.C98_new
#print axioms Gost.Src.C98_methods
#print axioms Gost.Src.C98_standard
#print axioms Gost.Src.C98_updates
#print axioms Gost.Src.C99_new
#print axioms Gost.Src.C99_defaults
#print axioms Gost.Src.C99_methods
#print axioms Gost.Src.C99_standard
