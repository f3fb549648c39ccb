{
 "claims": [
  {
   "property": "C01",
   "status": "proved",
   "theorems": [
    "Ed.C01_multiply"
   ],
   "note": ""
  },
  {
   "property": "C02",
   "status": "proved",
   "theorems": [
    "Ed.C02_square"
   ],
   "note": ""
  },
  {
   "property": "C03",
   "status": "proved",
   "theorems": [
    "Ed.C03_add_sub_neg",
    "Ed.C03_documented"
   ],
   "note": ""
  },
  {
   "property": "C04",
   "status": "proved",
   "theorems": [
    "Ed.C04_encode",
    "Ed.C04_encode_eq_iff"
   ],
   "note": ""
  },
  {
   "property": "C05",
   "status": "proved",
   "theorems": [
    "Ed.C05_decode",
    "Ed.C05_decode_encode",
    "Ed.C05_encode_decode"
   ],
   "note": ""
  },
  {
   "property": "C06",
   "status": "proved",
   "theorems": [
    "Ed.C06_invert",
    "Ed.C06_pow"
   ],
   "note": ""
  },
  {
   "property": "C07",
   "status": "proved",
   "theorems": [
    "Ed.C07_predicates"
   ],
   "note": ""
  },
  {
   "property": "C08",
   "status": "proved",
   "theorems": [
    "Ed.C08_modQ"
   ],
   "note": ""
  },
  {
   "property": "C09",
   "status": "proved",
   "theorems": [
    "Ed.C09_multiplyAndAddModQ"
   ],
   "note": ""
  },
  {
   "property": "C10",
   "status": "proved",
   "theorems": [
    "Ed.C10_toRadix16",
    "Ed.C10_toRadix16_large"
   ],
   "note": "C10_toRadix16_large gives the exact boundary from which on the last digit leaves the range of the lookup table."
  },
  {
   "property": "C11",
   "status": "proved",
   "theorems": [
    "Ed.C11_slide",
    "Ed.C11_slide_large",
    "Ed.C11_slide_exact",
    "Ed.C11_both_cases"
   ],
   "note": "C11_slide_exact is the exact value for every 32-byte string (Spec/Naf: IsNaf5); C11_both_cases: 2^255 fits, 2^256-1 does not."
  },
  {
   "property": "C12",
   "status": "proved",
   "theorems": [
    "Ed.C12_decode",
    "Ed.C12_decode_length"
   ],
   "note": "Lengths other than 32 or 64 give an error (C12_decode_length); 64-byte strings are outside the English claim."
  },
  {
   "property": "C13",
   "status": "proved",
   "theorems": [
    "Ed.C13_roundtrip",
    "Ed.C13_encode",
    "Ed.C13_reencode"
   ],
   "note": ""
  },
  {
   "property": "C14",
   "status": "proved",
   "theorems": [
    "Ed.C14_dbl",
    "Ed.C14_add_subtract",
    "Ed.C14_precomputed",
    "Ed.C14_negate",
    "Ed.C14_law",
    "Ed.C14_add_bytes"
   ],
   "note": ""
  },
  {
   "property": "C15",
   "status": "proved",
   "theorems": [
    "Ed.C15_scalarMultiply",
    "Ed.C15_basePoint",
    "Ed.C15_any_scalar",
    "Ed.C15_large_scalar"
   ],
   "note": "C15_any_scalar gives the result for every 32-byte scalar, C15_large_scalar what it means from 2^255 on, where the English claim stops."
  },
  {
   "property": "C16",
   "status": "proved",
   "theorems": [
    "Ed.C16_doubleScalar",
    "Ed.C16_doubleScalar_any",
    "Ed.C16_doubleScalar_large"
   ],
   "note": ""
  },
  {
   "property": "C17",
   "status": "proved",
   "theorems": [
    "Ed.C17_basePoint",
    "Ed.C17_constants"
   ],
   "note": ""
  },
  {
   "property": "C18",
   "status": "proved",
   "theorems": [
    "Ed.C18_sign_verify",
    "Ed.C18_keypair"
   ],
   "note": "Verify is stated for the pair with the derived public key; the hash is any function with 64-byte output (Env)."
  },
  {
   "property": "C19",
   "status": "proved",
   "theorems": [
    "Ed.C19_sign",
    "Ed.C19_nokey",
    "Ed.C19_never_panics",
    "Ed.C19_well_formed"
   ],
   "note": ""
  },
  {
   "property": "C20",
   "status": "proved",
   "theorems": [
    "Ed.C20_malformed_key",
    "Ed.C20_total",
    "Ed.C20_accepts_iff",
    "Ed.C20_short_S_panics",
    "Ed.C20_accepts_iff_any",
    "Ed.C20_S_ones"
   ],
   "note": "C20_accepts_iff_any gives the exact condition for every 64-byte signature, also S of 2^255 and more (nafVal in Spec/Naf).  A signature whose S is shorter than 32 bytes cannot be built by the constructors; C20_short_S_panics covers it."
  },
  {
   "property": "C21",
   "status": "proved",
   "theorems": [
    "Ed.C21_add_order",
    "Ed.C21_malleable"
   ],
   "note": "The wished behaviour is false of the code; proved is the negation: C21_malleable exhibits an accepted signature that stays accepted after adding L to S, C21_add_order says for which signatures this happens (all with S + L < 2^255 that pass the 64-bit filter)."
  },
  {
   "property": "C22",
   "status": "proved",
   "theorems": [
    "Ed.C22_preserves_iff",
    "Ed.C22_large_refused",
    "Ed.C22_canonicalizes",
    "Ed.C22_bad_R",
    "Ed.C22_idempotent",
    "Ed.C22_identity_iff",
    "Ed.C22_identity_on_signed",
    "Ed.C22_preserves_verify",
    "Ed.C22_canonical_form_refused"
   ],
   "note": "The full claim; C22_canonical_form_refused shows that the proviso on the filter is needed."
  },
  {
   "property": "C23",
   "status": "proved",
   "theorems": [
    "Ed.C23_decides_low_bits",
    "Ed.C23_not_the_range_check",
    "Ed.C23_zero_and_order_refused",
    "Ed.C23_signed_in_range"
   ],
   "note": "The wished behaviour is false of the code; proved is what the code decides (low 64 bits) and that it differs from the range check in both directions."
  },
  {
   "property": "C24",
   "status": "proved",
   "theorems": [
    "Ed.C24_agree",
    "Ed.C24_value",
    "Ed.C24_bad_key",
    "Ed.C24_nil_private_panics",
    "Ed.C24_short_salt_panics"
   ],
   "note": ""
  },
  {
   "property": "C25",
   "status": "proved",
   "theorems": [
    "Ed.C25_roundtrip"
   ],
   "note": ""
  },
  {
   "property": "C26",
   "status": "proved",
   "theorems": [
    "Ed.C26_short",
    "Ed.C26_multiple_of_16",
    "Ed.C26_accepts",
    "Ed.C26_bad_length_panics",
    "Ed.C26_no_private_key_panics",
    "Ed.C26_other_key_length_panics",
    "Ed.C26_key_lengths"
   ],
   "note": "The wished totality is false; proved is the exact outcome for short inputs, whole blocks and the panics for the other lengths, a nil private key and a key length other than 32."
  },
  {
   "property": "C27",
   "status": "proved",
   "theorems": [
    "Ed.C27_accepts_iff",
    "Ed.C27_unique",
    "Ed.C27_total",
    "Ed.C27_encode_decode"
   ],
   "note": ""
  },
  {
   "property": "C28",
   "status": "proved",
   "theorems": [
    "Ed.C28_generate",
    "Ed.C28_generate_short",
    "Ed.C28_encrypt",
    "Ed.C28_encrypt_short",
    "Ed.C28_encrypt_any_reader",
    "Ed.C28_chunking_irrelevant",
    "Ed.C28_history",
    "Ed.C28_encrypt_bad_recipient"
   ],
   "note": "Readers are sequences of answers (bytes, error) as io.ReadFull sees them; any chunking."
  },
  {
   "property": "C29",
   "status": "proved",
   "theorems": [
    "Ed.C29_derived",
    "Ed.C29_not_small_order",
    "Ed.C29_nil"
   ],
   "note": ""
  },
  {
   "property": "C30",
   "status": "proved",
   "theorems": [
    "Ed.C30_generated",
    "Ed.C30_derive",
    "Ed.C30_given",
    "Ed.C30_given_error",
    "Ed.C30_no_consistency_check",
    "Ed.C30_nil_nil"
   ],
   "note": ""
  },
  {
   "property": "C31",
   "status": "proved",
   "theorems": [
    "Ed.C31_private_accepts",
    "Ed.C31_private_total",
    "Ed.C31_public_accepts",
    "Ed.C31_public_total",
    "Ed.C31_private_complete",
    "Ed.C31_public_complete",
    "Ed.C31_private_print",
    "Ed.C31_public_print",
    "Ed.C31_public_hex",
    "Ed.C31_print_injective"
   ],
   "note": ""
  },
  {
   "property": "C32",
   "status": "proved",
   "theorems": [
    "Ed.C32_roundtrip_iff",
    "Ed.C32_value",
    "Ed.C32_nil_panics",
    "Ed.C32_shortened",
    "Ed.C32_sign_lost"
   ],
   "note": "The exact condition (no leading zero byte) is proved, both directions."
  },
  {
   "property": "C33",
   "status": "proved",
   "theorems": [
    "Ed.C33_parse",
    "Ed.C33_parse_total",
    "Ed.C33_roundtrip",
    "Ed.C33_new",
    "Ed.C33_string",
    "Ed.C33_values"
   ],
   "note": ""
  },
  {
   "property": "C34",
   "status": "proved",
   "theorems": [
    "Ed.C34_value",
    "Ed.C34_frame",
    "Ed.C34_parsed",
    "Ed.C34_parse_outcome",
    "Ed.C34_signed",
    "Ed.C34_canonical",
    "Ed.C34_canonical_overwrites",
    "Ed.C34_original_changed_iff"
   ],
   "note": "Heap model with slices.  The wished frame property fails; C34_original_changed_iff is the exact condition."
  },
  {
   "property": "C35",
   "status": "proved",
   "theorems": [
    "Ed.C35_fits",
    "Ed.C35_nil",
    "Ed.C35_refuses",
    "Ed.C35_not_a_range"
   ],
   "note": "The wished range is false of the code; proved is the exact acceptance condition.  go-xpx-utils BigIntToByteArray is a parameter that is only specified on integers that fit."
  },
  {
   "property": "C36",
   "status": "proved",
   "theorems": [
    "Ed.C36_key_independent",
    "Ed.C36_known_to_everybody",
    "Ed.C36_accepted"
   ],
   "note": "The wished property fails; proved for every public key of order dividing 8."
  },
  {
   "property": "C37",
   "status": "proved",
   "theorems": [
    "Ed.C37_one_signature_for_all_messages"
   ],
   "note": "The wished property fails; proved with the neutral element as public key, for every hash."
  },
  {
   "property": "C38",
   "status": "proved",
   "theorems": [
    "Ed.C38_equals_same",
    "Ed.C38_equals_mixed",
    "Ed.C38_not_symmetric",
    "Ed.C38_equals_unconvertible",
    "Ed.C38_equals_affine_panics",
    "Ed.C38_equals_mixed_total",
    "Ed.C38_equals_recovers",
    "Ed.C38_equals_panics_iff",
    "Ed.C38_equals_nilT"
   ],
   "note": "Symmetry fails: C38_not_symmetric."
  },
  {
   "property": "C39",
   "status": "proved",
   "theorems": [
    "Ed.C39_point_unique",
    "Ed.C39_convert",
    "Ed.C39_unsupported_panics",
    "Ed.C39_encode",
    "Ed.C39_encode_panics"
   ],
   "note": ""
  },
  {
   "property": "C40",
   "status": "proved",
   "theorems": [
    "Ed.C40_satisfies_any",
    "Ed.C40_satisfies",
    "Ed.C40_satisfies_p1xp1",
    "Ed.C40_decoded",
    "Ed.C40_zero_z",
    "Ed.C40_zero_p1xp1"
   ],
   "note": ""
  },
  {
   "property": "C41",
   "status": "proved",
   "theorems": [
    "Ed.C41_precompute_history",
    "Ed.C41_idempotent",
    "Ed.C41_select",
    "Ed.C41_no_table_panics",
    "Ed.C41_copy_breaks_precompute",
    "Ed.C41_cmov",
    "Ed.C41_reports",
    "Ed.C41_copy_reports",
    "Ed.C41_select_all"
   ],
   "note": "C41_copy_breaks_precompute records that a copy() of an element without table cannot be precomputed (copy makes the table non-nil)."
  },
  {
   "property": "C42",
   "status": "proved",
   "theorems": [
    "Ed.C42_clamped",
    "Ed.C42_only_hash",
    "Ed.C42_nil"
   ],
   "note": ""
  },
  {
   "property": "C43",
   "status": "proved",
   "theorems": [
    "Ed.C43_concat",
    "Ed.C43_split_irrelevant",
    "Ed.C43_lengths",
    "Ed.C43_pieces"
   ],
   "note": ""
  },
  {
   "property": "C44",
   "status": "proved",
   "theorems": [
    "Ed.C44_bytesToBigInteger",
    "Ed.C44_intsToBigInteger",
    "Ed.C44_fieldToBigInteger",
    "Ed.C44_reduceModGroupOrder",
    "Ed.C44_reduce_agrees",
    "Ed.C44_reduce_differs",
    "Ed.C44_multiplyAndAdd",
    "Ed.C44_multiplyAndAdd_agrees",
    "Ed.C44_toFieldElement",
    "Ed.C44_bytes",
    "Ed.C44_tooLarge",
    "Ed.C44_roundTrip",
    "Ed.C44_addGroupElements_exact",
    "Ed.C44_addGroupElements",
    "Ed.C44_doubleGroupElement",
    "Ed.C44_add_panics",
    "Ed.C44_negateGroupElement",
    "Ed.C44_negate_panics",
    "Ed.C44_scalarMultiply",
    "Ed.C44_scalarMultiply_zero",
    "Ed.C44_doubleScalarMultiply",
    "Ed.C44_toRepresentation",
    "Ed.C44_toRepresentation_nilT",
    "Ed.C44_fromPrecomputed",
    "Ed.C44_fromPrecomputed_wrong",
    "Ed.C44_add_neutral_wrong"
   ],
   "note": "The wished claim (agreement for all group elements) is false of the code.  C44_addGroupElements_exact gives the exact outcome of AddGroupElements for all points and every math/big that meets the contract Big; C44_addGroupElements and the multiplications the coordinates for which the sharing of memory cannot do harm, C44_add_neutral_wrong and C44_fromPrecomputed_wrong the two defects.  What math/big leaves in shared memory depends on its version and is a parameter (Big.xAfter, Big.resAfter)."
  },
  {
   "property": "C45",
   "status": "proved",
   "theorems": [
    "Ed.C45_getAffineX",
    "Ed.C45_never_correct",
    "Ed.C45_toGroupElement",
    "Ed.C45_short",
    "Ed.C45_correct_iff",
    "Ed.C45_rejects"
   ],
   "note": "The wished behaviour is false of the code; proved is the exact result for every y and which y (only 0, 1, -1 modulo p) give a correct point."
  },
  {
   "property": "C46",
   "status": "proved",
   "theorems": [
    "Ed.C46_signer",
    "Ed.C46_signer_ed25519",
    "Ed.C46_sign_verify",
    "Ed.C46_keypair",
    "Ed.C46_keypair_other",
    "Ed.C46_cipher",
    "Ed.C46_random",
    "Ed.C46_random_sources",
    "Ed.C46_wrap"
   ],
   "note": ""
  },
  {
   "property": "C47",
   "status": "proved",
   "theorems": [
    "Ed.C47_byteEq",
    "Ed.C47_negative",
    "Ed.C47_negative_limit",
    "Ed.C47_isEqualConstantTime",
    "Ed.C47_negative_all"
   ],
   "note": "C47_negative_limit shows that the range -256..255 of isNegativeConstantTime is sharp."
  },
  {
   "property": "C48",
   "status": "proved",
   "theorems": [
    "Ed.C48_history",
    "Ed.C48_init",
    "Ed.C48_basePoint",
    "Ed.C48_precompute_view",
    "Ed.C48_coordinate_shared",
    "Ed.C48_select_shared",
    "Ed.C48_select_init",
    "Ed.C48_select_view"
   ],
   "note": "The frame property on the tables holds for all histories of the modelled operations; the wished property on the coordinates fails (C48_coordinate_shared, C48_select_shared)."
  },
  {
   "property": "C49",
   "status": "proved",
   "theorems": [
    "Ed.C49_byteArray",
    "Ed.C49_fieldElement_constant",
    "Ed.C49_fieldElement_reads",
    "Ed.C49_encodedFieldElement",
    "Ed.C49_groupElement",
    "Ed.C49_encodedGroupElement",
    "Ed.C49_int64"
   ],
   "note": "GetRandomFieldElement is constant: the wished randomness fails."
  },
  {
   "property": "C50",
   "status": "proved",
   "theorems": [
    "Ed.C50_new",
    "Ed.C50_isNonZero",
    "Ed.C50_modulus_nonzero",
    "Ed.C50_isNegative",
    "Ed.C50_equals",
    "Ed.C50_of_encode",
    "Ed.C50_decode",
    "Ed.C50_modQ",
    "Ed.C50_multiplyAndAddModQ",
    "Ed.C50_literal"
   ],
   "note": ""
  },
  {
   "property": "C51",
   "status": "proved",
   "theorems": [
    "Ed.C51_field",
    "Ed.C51_field_eq",
    "Ed.C51_text_unique",
    "Ed.C51_point",
    "Ed.C51_point_length",
    "Ed.C51_group",
    "Ed.C51_ascii",
    "Ed.C51_p2_panics"
   ],
   "note": ""
  },
  {
   "property": "C52",
   "status": "proved",
   "theorems": [
    "Ed.C52_history",
    "Ed.C52_key_ignored"
   ],
   "note": ""
  },
  {
   "property": "C53",
   "status": "proved",
   "theorems": [
    "Ed.C53_race_free",
    "Ed.C53_memory",
    "Ed.C53_results",
    "Ed.C53_finishes"
   ],
   "note": ""
  },
  {
   "property": "C54",
   "status": "proved",
   "theorems": [
    "Ed.C54_results",
    "Ed.C54_partition",
    "Ed.C54_got",
    "Ed.C54_generate"
   ],
   "note": ""
  },
  {
   "property": "C55",
   "status": "proved",
   "theorems": [
    "Ed.C55_memory",
    "Ed.C55_race_free",
    "Ed.C55_results",
    "Ed.C55_finishes"
   ],
   "note": ""
  },
  {
   "property": "C56",
   "status": "proved",
   "theorems": [
    "Ed.C56_alone",
    "Ed.C56_race_neutral",
    "Ed.C56_race_error"
   ],
   "note": ""
  },
  {
   "property": "C57",
   "status": "proved",
   "theorems": [
    "Ed.C57_panic_leaves_table",
    "Ed.C57_which"
   ],
   "note": ""
  },
  {
   "property": "C58",
   "status": "proved",
   "theorems": [
    "Ed.C58_two_public_keys",
    "Ed.C58_pairs_accepted"
   ],
   "note": ""
  },
  {
   "property": "C59",
   "status": "proved",
   "theorems": [
    "Ed.C59_torn",
    "Ed.C59_leak",
    "Ed.C59_untorn"
   ],
   "note": ""
  },
  {
   "property": "C60",
   "status": "proved",
   "theorems": [
    "Ed.C60_same_results",
    "Ed.C60_scalar",
    "Ed.C60_not_secret",
    "Ed.C60_derive",
    "Ed.C60_shared_key",
    "Ed.C60_nonce",
    "Ed.C60_sign"
   ],
   "note": ""
  },
  {
   "property": "C61",
   "status": "proved",
   "theorems": [
    "Ed.C61_messages",
    "Ed.C61_collision"
   ],
   "note": ""
  },
  {
   "property": "C62",
   "status": "proved",
   "theorems": [
    "Ed.C62_forms",
    "Ed.C62_forms_any",
    "Ed.C62_reduced_unique",
    "Ed.C62_R_canonical",
    "Ed.C62_at_most_eight",
    "Ed.C62_at_most_24"
   ],
   "note": ""
  },
  {
   "property": "C63",
   "status": "proved",
   "theorems": [
    "Ed.C63_extract",
    "Ed.C63_extract_any"
   ],
   "note": ""
  },
  {
   "property": "C64",
   "status": "proved",
   "theorems": [
    "Ed.C64_image",
    "Ed.C64_unique"
   ],
   "note": ""
  },
  {
   "property": "C65",
   "status": "proved",
   "theorems": [
    "Ed.C65_flip",
    "Ed.C65_drop_first",
    "Ed.C65_prepend"
   ],
   "note": ""
  },
  {
   "property": "C66",
   "status": "proved",
   "theorems": [
    "Ed.C66_oracle",
    "Ed.C66_questions"
   ],
   "note": ""
  },
  {
   "property": "C67",
   "status": "proved",
   "theorems": [
    "Ed.C67_direction",
    "Ed.C67_reflect",
    "Ed.C67_same_bytes"
   ],
   "note": ""
  },
  {
   "property": "C68",
   "status": "proved",
   "theorems": [
    "Ed.C68_useless",
    "Ed.C68_accepted_iff",
    "Ed.C68_other_key",
    "Ed.C68_genuine"
   ],
   "note": ""
  },
  {
   "property": "C69",
   "status": "proved",
   "theorems": [
    "Ed.C69_follows",
    "Ed.C69_wiped",
    "Ed.C69_public_follows",
    "Ed.C69_given",
    "Ed.C69_hex_own",
    "Ed.C69_hex_own_public"
   ],
   "note": ""
  },
  {
   "property": "C70",
   "status": "proved",
   "theorems": [
    "Ed.C70_sign",
    "Ed.C70_verify",
    "Ed.C70_canonical",
    "Ed.C70_derive",
    "Ed.C70_shared_key",
    "Ed.C70_decrypt",
    "Ed.C70_encrypt",
    "Ed.C70_sign_once",
    "Ed.C70_sign_stable",
    "Ed.C70_writers",
    "Ed.C70_ends"
   ],
   "note": ""
  },
  {
   "property": "C71",
   "status": "proved",
   "theorems": [
    "Ed.C71_accepts",
    "Ed.C71_neither"
   ],
   "note": ""
  },
  {
   "property": "C72",
   "status": "proved",
   "theorems": [
    "Ed.C72_points",
    "Ed.C72_parts",
    "Ed.C72_non_canonical",
    "Ed.C72_accepted"
   ],
   "note": ""
  },
  {
   "property": "C73",
   "status": "proved",
   "theorems": [
    "Ed.C73_strings",
    "Ed.C73_contributory",
    "Ed.C73_derived"
   ],
   "note": ""
  },
  {
   "property": "C74",
   "status": "proved",
   "theorems": [
    "Ed.C74_equivalent",
    "Ed.C74_eight",
    "Ed.C74_only_if",
    "Ed.C74_decrypt"
   ],
   "note": ""
  },
  {
   "property": "C75",
   "status": "proved",
   "theorems": [
    "Ed.C75_same_public",
    "Ed.C75_shared"
   ],
   "note": ""
  },
  {
   "property": "C76",
   "status": "proved",
   "theorems": [
    "Ed.C76_cofactored",
    "Ed.C76_not_conversely",
    "Ed.C76_shifted_key"
   ],
   "note": ""
  },
  {
   "property": "C77",
   "status": "proved",
   "theorems": [
    "Ed.C77_unclamp",
    "Ed.C77_forge",
    "Ed.C77_shared",
    "Ed.C77_from_two_signatures"
   ],
   "note": ""
  },
  {
   "property": "C78",
   "status": "proved",
   "theorems": [
    "Ed.C78_parsers",
    "Ed.C78_fromBigInt",
    "Ed.C78_derive",
    "Ed.C78_newKeyPair",
    "Ed.C78_generate",
    "Ed.C78_sign",
    "Ed.C78_verify",
    "Ed.C78_verify_parsed",
    "Ed.C78_makeCanonical",
    "Ed.C78_sharedKey",
    "Ed.C78_encrypt",
    "Ed.C78_decrypt",
    "Ed.C78_decrypt_remote"
   ],
   "note": ""
  },
  {
   "property": "C79",
   "status": "proved",
   "theorems": [
    "Ed.C79_public_text",
    "Ed.C79_sign_verify",
    "Ed.C79_sign_only_filter",
    "Ed.C79_encrypt_decrypt"
   ],
   "note": ""
  },
  {
   "property": "C80",
   "status": "proved",
   "theorems": [
    "Ed.C80_no_nil_sign",
    "Ed.C80_no_nil_verify",
    "Ed.C80_no_nil_canonical",
    "Ed.C80_no_nil_sharedKey",
    "Ed.C80_no_nil_cipher",
    "Ed.C80_no_nil_keyPair",
    "Ed.C80_no_nil_engine",
    "Ed.C80_methods",
    "Ed.C80_methods_values",
    "Ed.C80_sign",
    "Ed.C80_sign_no_private",
    "Ed.C80_verify",
    "Ed.C80_newCipher",
    "Ed.C80_sharedKey",
    "Ed.C80_encrypt",
    "Ed.C80_decrypt",
    "Ed.C80_nil_cipher",
    "Ed.C80_nil_interface",
    "Ed.C80_nil_pointer",
    "Ed.C80_result_sign",
    "Ed.C80_result_verify",
    "Ed.C80_result_sharedKey",
    "Ed.C80_result_encrypt",
    "Ed.C80_result_decrypt"
   ],
   "note": ""
  },
  {
   "property": "C81",
   "status": "proved",
   "theorems": [
    "Ed.C81_commitment",
    "Ed.C81_signature"
   ],
   "note": ""
  },
  {
   "property": "C82",
   "status": "proved",
   "theorems": [
    "Ed.C82_equal_blocks",
    "Ed.C82_prefix"
   ],
   "note": ""
  },
  {
   "property": "C83",
   "status": "proved",
   "theorems": [
    "Ed.C83_form",
    "Ed.C83_salts"
   ],
   "note": ""
  },
  {
   "property": "C84",
   "status": "proved",
   "theorems": [
    "Ed.C84_guess",
    "Ed.C84_zero_key",
    "Ed.C84_universal",
    "Ed.C84_neutral_strings"
   ],
   "note": ""
  },
  {
   "property": "C85",
   "status": "proved",
   "theorems": [
    "Ed.C85_points",
    "Ed.C85_derived"
   ],
   "note": ""
  },
  {
   "property": "C86",
   "status": "proved",
   "theorems": [
    "Ed.C86_complete",
    "Ed.C86_no_nil",
    "Ed.C86_encode",
    "Ed.C86_satisfies",
    "Ed.C86_string",
    "Ed.C86_equals_nil",
    "Ed.C86_equals_panics_iff",
    "Ed.C86_equals_true"
   ],
   "note": ""
  },
  {
   "property": "C87",
   "status": "proved",
   "theorems": [
    "Ed.C87_full",
    "Ed.C87_scalar_panics",
    "Ed.C87_double_panics",
    "Ed.C87_never_repaired",
    "Ed.C87_select_full",
    "Ed.C87_select_broken",
    "Ed.C87_first_cell"
   ],
   "note": ""
  },
  {
   "property": "C88",
   "status": "proved",
   "theorems": [
    "Ed.C88_calls",
    "Ed.C88_call",
    "Ed.C88_group",
    "Ed.C88_results",
    "Ed.C88_modest_calls",
    "Ed.C88_modest_group",
    "Ed.C88_modest_writer"
   ],
   "note": "Accesses are counted as in Model/PGroup: an operation loads each coordinate of an operand once, and a store into a table looks up the table again. Work on values (limb arithmetic, hashing, AES) is not counted."
  },
  {
   "property": "C89",
   "status": "proved",
   "theorems": [
    "Ed.C89_nonce",
    "Ed.C89_nonce_even",
    "Ed.C89_scalar",
    "Ed.C89_salt"
   ],
   "note": ""
  },
  {
   "property": "C90",
   "status": "proved",
   "theorems": [
    "Ed.C90_transcripts",
    "Ed.C90_sign",
    "Ed.C90_refusals"
   ],
   "note": ""
  },
  {
   "property": "C91",
   "status": "proved",
   "theorems": [
    "Ed.C91_silent",
    "Ed.C91_same_results",
    "Ed.C91_verify",
    "Ed.C91_verify_public",
    "Ed.C91_equals_same_results",
    "Ed.C91_equals_text",
    "Ed.C91_equals_complete"
   ],
   "note": ""
  },
  {
   "property": "C92",
   "status": "proved",
   "theorems": [
    "Ed.C92_forge",
    "Ed.C92_questions"
   ],
   "note": ""
  },
  {
   "property": "C93",
   "status": "proved",
   "theorems": [
    "Ed.C93_public_key",
    "Ed.C93_sign",
    "Ed.C93_accepted",
    "Ed.C93_valid",
    "Ed.C93_subgroup",
    "Ed.C93_interop",
    "Ed.C93_cofactored",
    "Ed.C93_beyond",
    "Ed.C93_below"
   ],
   "note": ""
  },
  {
   "property": "C94",
   "status": "proved",
   "theorems": [
    "Ed.C94_same_results",
    "Ed.C94_derive",
    "Ed.C94_sign",
    "Ed.C94_shared",
    "Ed.C94_shared_bound",
    "Ed.C94_verify_bound",
    "Ed.C94_verify",
    "Ed.C94_verify_early",
    "Ed.C94_shared_price",
    "Ed.C94_decrypt",
    "Ed.C94_decrypt_bound",
    "Ed.C94_encrypt",
    "Ed.C94_encrypt_bound"
   ],
   "note": "Counted are the operations named in Step (Model/Cost), not the machine instructions in them. The work of the conditional moves is not counted: C60 shows that it depends on the secret."
  },
  {
   "property": "C95",
   "status": "proved",
   "theorems": [
    "Ed.C95_negative",
    "Ed.C95_byte_eq",
    "Ed.C95_select",
    "Ed.C95_scalarMultiply",
    "Ed.C95_keys",
    "Ed.C95_sign",
    "Ed.C95_shared_key",
    "Ed.C95_encrypt",
    "Ed.C95_decrypt",
    "Ed.C95_encrypt_large",
    "Ed.C95_encrypt_large_never",
    "Ed.C95_cross"
   ],
   "note": "C95_encrypt_large is about the length computations in encode; the memory that such a message needs is not modelled."
  },
  {
   "property": "C96",
   "status": "proved",
   "theorems": [
    "Ed.C96_soundness",
    "Ed.C96_soundness_subgroup",
    "Ed.C96_simulation"
   ],
   "note": ""
  },
  {
   "property": "C97",
   "status": "proved",
   "theorems": [
    "Ed.C97_forking",
    "Ed.C97_key",
    "Ed.C97_bound"
   ],
   "note": "The hash is a uniformly random function on an arbitrary finite set that contains the attacker's questions and the input of the final Verify (such a set exists for every attacker, exists_domain_all); attackers that see signatures: C98."
  },
  {
   "property": "C98",
   "status": "proved",
   "theorems": [
    "Ed.C98_unforgeable",
    "Ed.C98_strong",
    "Ed.C98_generated"
   ],
   "note": "The hash is a uniformly random function on a finite set that contains all byte strings of at most N + 64 bytes, where N bounds the attacker's messages and N + 64 its hash inputs (N is arbitrary; exists_short). The same random function serves the key derivation, the nonces, the challenges and the attacker. SHA3-512 itself is not a random function: this is the usual idealisation."
  },
  {
   "property": "C99",
   "status": "proved",
   "theorems": [
    "Ed.C99_random",
    "Ed.C99_hides"
   ],
   "note": "AES is idealised as a family of independent random permutations which the observer cannot evaluate itself; that the shared key is unknown to the observer is part of this idealisation (the Diffie-Hellman problem is not modelled). Passive observers only. C101 lifts this: there the observer evaluates AES and the hash itself."
  },
  {
   "property": "C100",
   "status": "proved",
   "theorems": [
    "Ed.C100_point",
    "Ed.C100_conversation",
    "Ed.C100_unasked",
    "Ed.C100_knowing"
   ],
   "note": "SHA3-256 on 32 bytes is idealised as a random function which the eavesdropper can ask; that the shared point is hard to find (the Diffie-Hellman problem) is the quantity d of the statement, not an assumption. One pair of parties; inputs of the hash with another length do not occur in the calls."
  },
  {
   "property": "C101",
   "status": "proved",
   "theorems": [
    "Ed.C101_hides"
   ],
   "note": "SHA3-256 on 32 bytes and AES are idealised, both open to the wiretapper; the Diffie-Hellman problem is the quantity e of the statement, not an assumption. One pair of parties, both directions; passive wiretappers only."
  },
  {
   "property": "C102",
   "status": "proved",
   "theorems": [
    "Ed.C102_lengths",
    "Ed.C102_accepted"
   ],
   "note": ""
  },
  {
   "property": "C103",
   "status": "proved",
   "theorems": [
    "Ed.C103_find_keys",
    "Ed.C103_find_messages",
    "Ed.C103_two_keys",
    "Ed.C103_generated",
    "Ed.C103_two_signatures",
    "Ed.C103_signatures"
   ],
   "note": ""
  },
  {
   "property": "C104",
   "status": "proved",
   "theorems": [
    "Ed.C104_seed",
    "Ed.C104_second",
    "Ed.C104_any"
   ],
   "note": ""
  },
  {
   "property": "C105",
   "status": "proved",
   "theorems": [
    "Ed.C105_one_claim",
    "Ed.C105_long_key"
   ],
   "note": ""
  },
  {
   "property": "C106",
   "status": "proved",
   "theorems": [
    "Ed.C106_all_succeed",
    "Ed.C106_two_salts",
    "Ed.C106_two_ivs",
    "Ed.C106_two_prefixes",
    "Ed.C106_salts",
    "Ed.C106_ciphertexts"
   ],
   "note": ""
  },
  {
   "property": "C107",
   "status": "proved",
   "theorems": [
    "Ed.C107_at_most",
    "Ed.C107_at_least",
    "Ed.C107_which",
    "Ed.C107_any_key"
   ],
   "note": ""
  },
  {
   "property": "C108",
   "status": "proved",
   "theorems": [
    "Ed.C108_wrong_keys",
    "Ed.C108_wrong_message"
   ],
   "note": ""
  },
  {
   "property": "C109",
   "status": "proved",
   "theorems": [
    "Ed.C109_many",
    "Ed.C109_generated",
    "Ed.C109_seeds"
   ],
   "note": "As for C98. \u03b4 bounds the probability of finding the discrete logarithm of the key of user i by rewinding `single i` of the attacker, a definite program; the private keys of the other users are among its random choices. The number of signatures s counts those of all users."
  },
  {
   "property": "C110",
   "status": "proved",
   "theorems": [
    "Ed.C110_any_public_key",
    "Ed.C110_refused",
    "Ed.C110_some",
    "Ed.C110_works"
   ],
   "note": "The hash is a uniformly random function on a finite set that contains all byte strings of at most |m| + 64 bytes. The messages are fixed before the hash function is drawn."
  },
  {
   "property": "C111",
   "status": "proved",
   "theorems": [
    "Ed.C111_never"
   ],
   "note": "The hash is a uniformly random function on a finite set that contains all byte strings of at most N + 64 bytes, where N bounds the attacker's messages (N is arbitrary). The attacker is not limited in time, only in its questions; it may depend on the private key."
  },
  {
   "property": "C112",
   "status": "proved",
   "theorems": [
    "Ed.C112_two_public_keys",
    "Ed.C112_overwritten"
   ],
   "note": "The hash is a uniformly random function on a finite set that contains all byte strings of at most |m| + 64 bytes. The message and the rule that gives the public keys (it may use the digest of the private key) are fixed before the hash function is drawn; that a schedule with the overwritten message exists is C59_torn, the probability is that of its formula."
  }
 ]
}