{
 "claims": [
  {
   "property": "C01",
   "status": "proved",
   "theorems": [
    "Verif.Props.C01_signed",
    "Verif.Props.C01_s1",
    "Verif.Props.C01_s2",
    "Verif.Props.C01_s4",
    "Verif.Props.C01_s1_signed",
    "Verif.Props.C01_s2_signed",
    "Verif.Props.C01_s4_signed",
    "Verif.Props.C01_u1_s1",
    "Verif.Props.C01_s1_u1",
    "Verif.Props.C01_signed_congr",
    "Verif.Props.C01_s1_outside"
   ],
   "note": ""
  },
  {
   "property": "C02",
   "status": "proved",
   "theorems": [
    "Verif.Props.C02_makeShort",
    "Verif.Props.C02_low_bits",
    "Verif.Props.C02_range"
   ],
   "note": ""
  },
  {
   "property": "C03",
   "status": "proved",
   "theorems": [
    "Verif.Props.C03_setShort_getShort",
    "Verif.Props.C03_roundtrip",
    "Verif.Props.C03_byte_order",
    "Verif.Props.C03_getShort"
   ],
   "note": ""
  },
  {
   "property": "C04",
   "status": "proved",
   "theorems": [
    "Verif.Props.C04_arrayCompare",
    "Verif.Props.C04_zero_iff",
    "Verif.Props.C04_antisymm"
   ],
   "note": ""
  },
  {
   "property": "C05",
   "status": "proved",
   "theorems": [
    "Verif.Props.C05_arrayCopy",
    "Verif.Props.C05_arrayCopyNonAtomic",
    "Verif.Props.C05_nonpositive"
   ],
   "note": ""
  },
  {
   "property": "C06",
   "status": "proved",
   "theorems": [
    "Verif.Props.C06_as_if_temporary",
    "Verif.Props.C06_periodic",
    "Verif.Props.C06_overlap_wrong",
    "Verif.Props.C06_references"
   ],
   "note": "True as stated for copies that do not overlap destructively; a forward-overlapping self-copy repeats the source periodically (C06_periodic), so the Java Card contract is violated (C06_overlap_wrong)."
  },
  {
   "property": "C07",
   "status": "proved",
   "theorems": [
    "Verif.Props.C07_failed_copy",
    "Verif.Props.C07_not_atomic",
    "Verif.Props.C07_abort_keeps",
    "Verif.Props.C07_failed_self_copy"
   ],
   "note": "The failed copy leaves the partial result in place (C07_not_atomic); abort does not restore it (C07_abort_keeps)."
  },
  {
   "property": "C08",
   "status": "proved",
   "theorems": [
    "Verif.Props.C08_arrayCopy",
    "Verif.Props.C08_arrayCopyNonAtomic",
    "Verif.Props.C08_frame",
    "Verif.Props.C08_arrayFill",
    "Verif.Props.C08_getShort",
    "Verif.Props.C08_setShort",
    "Verif.Props.C08_arrayCompare",
    "Verif.Props.C08_arrayCompare_total",
    "Verif.Props.C08_negative_source",
    "Verif.Props.C08_negative_dest",
    "Verif.Props.C08_negative_fill",
    "Verif.Props.C08_negative_getShort",
    "Verif.Props.C08_negative_setShort",
    "Verif.Props.C08_setShort_overrun_store"
   ],
   "note": ""
  },
  {
   "property": "C09",
   "status": "proved",
   "theorems": [
    "Verif.Props.C09_fill",
    "Verif.Props.C09_overrun"
   ],
   "note": ""
  },
  {
   "property": "C10",
   "status": "proved",
   "theorems": [
    "Verif.Props.C10_construct",
    "Verif.Props.C10_valid",
    "Verif.Props.C10_complete"
   ],
   "note": "What happens when the array given to the constructor is changed later is C120_aid and C114."
  },
  {
   "property": "C11",
   "status": "proved",
   "theorems": [
    "Verif.Props.C11_getBytes",
    "Verif.Props.C11_equals",
    "Verif.Props.C11_eq",
    "Verif.Props.C11_roundtrip"
   ],
   "note": ""
  },
  {
   "property": "C12",
   "status": "proved",
   "theorems": [
    "Verif.Props.C12_partialEquals",
    "Verif.Props.C12_RIDEquals",
    "Verif.Props.C12_equivalence"
   ],
   "note": ""
  },
  {
   "property": "C13",
   "status": "proved",
   "theorems": [
    "Verif.Props.C13_never_succeeds",
    "Verif.Props.C13_documented_domain",
    "Verif.Props.C13_which"
   ],
   "note": "getPartialBytes never succeeds: every call raises ArrayIndexOutOfBoundsException or NameError."
  },
  {
   "property": "C14",
   "status": "proved",
   "theorems": [
    "Verif.Props.C14_counter"
   ],
   "note": ""
  },
  {
   "property": "C15",
   "status": "proved",
   "theorems": [
    "Verif.Props.C15_blocked",
    "Verif.Props.C15_validated_not_blocked",
    "Verif.Props.C15_history",
    "Verif.Props.C15_forced_unblock",
    "Verif.Props.C15_check_blocked",
    "Verif.Props.C15_unblock"
   ],
   "note": ""
  },
  {
   "property": "C16",
   "status": "proved",
   "theorems": [
    "Verif.Props.C16_every_answer_costs",
    "Verif.Props.C16_admissible_answered",
    "Verif.Props.C16_bound",
    "Verif.Props.C16_at_most_t"
   ],
   "note": ""
  },
  {
   "property": "C17",
   "status": "proved",
   "theorems": [
    "Verif.Props.C17_string_pin",
    "Verif.Props.C17_same_length",
    "Verif.Props.C17_no_zero"
   ],
   "note": ""
  },
  {
   "property": "C18",
   "status": "proved",
   "theorems": [
    "Verif.Props.C18_accept_iff",
    "Verif.Props.C18_first_byte_only",
    "Verif.Props.C18_full_size",
    "Verif.Props.C18_wrong_pin_accepted",
    "Verif.Props.C18_right_pin_refused"
   ],
   "note": "Finding: with array PINs only some of the bytes are compared, so a wrong PIN can be accepted (C18_wrong_pin_accepted) and the right one refused (C18_right_pin_refused)."
  },
  {
   "property": "C19",
   "status": "proved",
   "theorems": [
    "Verif.Props.C19_cost",
    "Verif.Props.C19_free_only_too_long",
    "Verif.Props.C19_overrun",
    "Verif.Props.C19_string_too_long",
    "Verif.Props.C19_array_too_long"
   ],
   "note": ""
  },
  {
   "property": "C20",
   "status": "proved",
   "theorems": [
    "Verif.Props.C20_validated",
    "Verif.Props.C20_update_validates"
   ],
   "note": ""
  },
  {
   "property": "C21",
   "status": "proved",
   "theorems": [
    "Verif.Props.C21_short",
    "Verif.Props.C21_unambiguous"
   ],
   "note": ""
  },
  {
   "property": "C22",
   "status": "proved",
   "theorems": [
    "Verif.Props.C22_case4",
    "Verif.Props.C22_case4_refused",
    "Verif.Props.C22_case3_refused",
    "Verif.Props.C22_case2"
   ],
   "note": "Finding: case 3E is always refused, 4E with Le a multiple of 256 below 65536 is refused, 2E with such an Le is misread as 256."
  },
  {
   "property": "C23",
   "status": "proved",
   "theorems": [
    "Verif.Props.C23_too_short",
    "Verif.Props.C23_short",
    "Verif.Props.C23_six",
    "Verif.Props.C23_constructor_total",
    "Verif.Props.C23_extended",
    "Verif.Props.C23_malformed_accepted"
   ],
   "note": "Finding: two malformed extended families are accepted (C23_malformed_accepted)."
  },
  {
   "property": "C24",
   "status": "proved",
   "theorems": [
    "Verif.Props.C24_blocks",
    "Verif.Props.C24_concatenation"
   ],
   "note": ""
  },
  {
   "property": "C25",
   "status": "proved",
   "theorems": [
    "Verif.Props.C25_full_iff",
    "Verif.Props.C25_counts",
    "Verif.Props.C25_minus_one",
    "Verif.Props.C25_case2"
   ],
   "note": ""
  },
  {
   "property": "C26",
   "status": "proved",
   "theorems": [
    "Verif.Props.C26_forward",
    "Verif.Props.C26_no_more_receiving",
    "Verif.Props.C26_set_incoming_once",
    "Verif.Props.C26_set_outgoing_once",
    "Verif.Props.C26_rejected_unchanged",
    "Verif.Props.C26_set_outgoing_and_send_rejected"
   ],
   "note": ""
  },
  {
   "property": "C27",
   "status": "proved",
   "theorems": [
    "Verif.Props.C27_response",
    "Verif.Props.C27_send",
    "Verif.Props.C27_set_outgoing_and_send",
    "Verif.Props.C27_out_of_range_silent",
    "Verif.Props.C27_cells_that_exist"
   ],
   "note": ""
  },
  {
   "property": "C28",
   "status": "proved",
   "theorems": [
    "Verif.Props.C28_set_outgoing_length",
    "Verif.Props.C28_before_outgoing",
    "Verif.Props.C28_set_outgoing",
    "Verif.Props.C28_send_bytes_long",
    "Verif.Props.C28_send_bytes_long_before"
   ],
   "note": ""
  },
  {
   "property": "C29",
   "status": "proved",
   "theorems": [
    "Verif.Props.C29_command_cla",
    "Verif.Props.C29_response_byte",
    "Verif.Props.C29_answer_changes",
    "Verif.Props.C29_channel",
    "Verif.Props.C29_channel_initial",
    "Verif.Props.C29_protocol"
   ],
   "note": ""
  },
  {
   "property": "C30",
   "status": "proved",
   "theorems": [
    "Verif.Props.C30_init",
    "Verif.Props.C30_init_refused",
    "Verif.Props.C30_services",
    "Verif.Props.C30_add",
    "Verif.Props.C30_independent",
    "Verif.Props.C30_capacity_ignored"
   ],
   "note": ""
  },
  {
   "property": "C31",
   "status": "proved",
   "theorems": [
    "Verif.Props.C31_hex",
    "Verif.Props.C31_bcd",
    "Verif.Props.C31_length_zero",
    "Verif.Props.C31_null",
    "Verif.Props.C31_unknown_format",
    "Verif.Props.C31_overrun_destroys",
    "Verif.Props.C31_bcd_overrun_destroys",
    "Verif.Props.C31_offset_past_end",
    "Verif.Props.C31_bcd_nibbles_unchecked"
   ],
   "note": ""
  },
  {
   "property": "C32",
   "status": "proved",
   "theorems": [
    "Verif.Props.C32_succeeds_iff",
    "Verif.Props.C32_hex",
    "Verif.Props.C32_bcd",
    "Verif.Props.C32_too_big",
    "Verif.Props.C32_out_of_range",
    "Verif.Props.C32_init_toBytes",
    "Verif.Props.C32_toBytes_init_hex",
    "Verif.Props.C32_toBytes_init_bcd",
    "Verif.Props.C32_max_bytes_is_no_bound"
   ],
   "note": ""
  },
  {
   "property": "C33",
   "status": "proved",
   "theorems": [
    "Verif.Props.C33_exact",
    "Verif.Props.C33_bad_operand",
    "Verif.Props.C33_uninitialised",
    "Verif.Props.C33_negative_written_as_zero",
    "Verif.Props.C33_max_bytes"
   ],
   "note": ""
  },
  {
   "property": "C34",
   "status": "proved",
   "theorems": [
    "Verif.Props.C34_compare",
    "Verif.Props.C34_antisymmetric",
    "Verif.Props.C34_transitive",
    "Verif.Props.C34_array_form",
    "Verif.Props.C34_uninitialised"
   ],
   "note": ""
  },
  {
   "property": "C35",
   "status": "proved",
   "theorems": [
    "Verif.Props.C35_setInt",
    "Verif.Props.C35_setInt_overrun",
    "Verif.Props.C35_getInt_setInt",
    "Verif.Props.C35_getInt_wrong",
    "Verif.Props.C35_getInt_borrow",
    "Verif.Props.C35_makeInt",
    "Verif.Props.C35_makeInt_shorts",
    "Verif.Props.C35_transient",
    "Verif.Props.C35_setInt_overrun_store",
    "Verif.Props.C35_sanatize"
   ],
   "note": ""
  },
  {
   "property": "C36",
   "status": "proved",
   "theorems": [
    "Verif.Props.C36_encode",
    "Verif.Props.C36_encodable",
    "Verif.Props.C36_decode",
    "Verif.Props.C36_roundtrip",
    "Verif.Props.C36_static",
    "Verif.Props.C36_equal",
    "Verif.Props.C36_static_queries"
   ],
   "note": ""
  },
  {
   "property": "C37",
   "status": "proved",
   "theorems": [
    "Verif.Props.C37_read",
    "Verif.Props.C37_built",
    "Verif.Props.C37_static"
   ],
   "note": ""
  },
  {
   "property": "C38",
   "status": "proved",
   "theorems": [
    "Verif.Props.C38_frame",
    "Verif.Props.C38_signed_frame",
    "Verif.Props.C38_does_not_fit"
   ],
   "note": ""
  },
  {
   "property": "C39",
   "status": "proved",
   "theorems": [
    "Verif.Props.C39_static_queries",
    "Verif.Props.C39_total",
    "Verif.Props.C39_exact"
   ],
   "note": ""
  },
  {
   "property": "C40",
   "status": "proved",
   "theorems": [
    "Verif.Props.C40_decode",
    "Verif.Props.C40_encode",
    "Verif.Props.C40_roundtrip",
    "Verif.Props.C40_size"
   ],
   "note": ""
  },
  {
   "property": "C41",
   "status": "proved",
   "theorems": [
    "Verif.Props.C41_never",
    "Verif.Props.C41_name_error"
   ],
   "note": ""
  },
  {
   "property": "C42",
   "status": "proved",
   "theorems": [
    "Verif.Props.C42_misread",
    "Verif.Props.C42_right_length_iff",
    "Verif.Props.C42_value_shifted",
    "Verif.Props.C42_signed_negative"
   ],
   "note": ""
  },
  {
   "property": "C43",
   "status": "proved",
   "theorems": [
    "Verif.Props.C43_find",
    "Verif.Props.C43_find_none",
    "Verif.Props.C43_primitive"
   ],
   "note": ""
  },
  {
   "property": "C44",
   "status": "proved",
   "theorems": [
    "Verif.Props.C44_findNext",
    "Verif.Props.C44_findNext_none"
   ],
   "note": ""
  },
  {
   "property": "C45",
   "status": "proved",
   "theorems": [
    "Verif.Props.C45_terminates",
    "Verif.Props.C45_loops_forever"
   ],
   "note": ""
  },
  {
   "property": "C46",
   "status": "proved",
   "theorems": [
    "Verif.Props.C46_append",
    "Verif.Props.C46_children",
    "Verif.Props.C46_built_tag_refused"
   ],
   "note": ""
  },
  {
   "property": "C47",
   "status": "proved",
   "theorems": [
    "Verif.Props.C47_static_findNext",
    "Verif.Props.C47_well_formed_use",
    "Verif.Props.C47_outcomes"
   ],
   "note": ""
  },
  {
   "property": "C48",
   "status": "proved",
   "theorems": [
    "Verif.Props.C48_init_no_effect",
    "Verif.Props.C48_fresh_object"
   ],
   "note": ""
  },
  {
   "property": "C49",
   "status": "proved",
   "theorems": [
    "Verif.Props.C49_roundtrip",
    "Verif.Props.C49_low_bits",
    "Verif.Props.C49_identity"
   ],
   "note": ""
  },
  {
   "property": "C50",
   "status": "proved",
   "theorems": [
    "Verif.Props.C50_py2",
    "Verif.Props.C50_py3",
    "Verif.Props.C50_digits",
    "Verif.Props.C50_bytes_back",
    "Verif.Props.C50_little_endian",
    "Verif.Props.C50_signed_negative"
   ],
   "note": ""
  },
  {
   "property": "C51",
   "status": "proved",
   "theorems": [
    "Verif.Props.C51_read_back",
    "Verif.Props.C51_short_source",
    "Verif.Props.C51_new_and_clear"
   ],
   "note": ""
  },
  {
   "property": "C52",
   "status": "proved",
   "theorems": [
    "Verif.Props.C52_initialized_iff",
    "Verif.Props.C52_wrong_length",
    "Verif.Props.C52_setters_succeed",
    "Verif.Props.C52_uninitialised_getters",
    "Verif.Props.C52_without_library",
    "Verif.Props.C52_stays",
    "Verif.Props.C52_last_exponent",
    "Verif.Props.C52_last_modulus"
   ],
   "note": ""
  },
  {
   "property": "C53",
   "status": "proved",
   "theorems": [
    "Verif.Props.C53_cipher",
    "Verif.Props.C53_cipher_history",
    "Verif.Props.C53_private_unusable",
    "Verif.Props.C53_sticky",
    "Verif.Props.C53_first_pair",
    "Verif.Props.C53_private_never"
   ],
   "note": ""
  },
  {
   "property": "C54",
   "status": "proved",
   "theorems": [
    "Verif.Props.C54_buildKey",
    "Verif.Props.C54_buildKey_arity",
    "Verif.Props.C54_pair",
    "Verif.Props.C54_genKeyPair",
    "Verif.Props.C54_generated_components",
    "Verif.Props.C54_ofKeys",
    "Verif.Props.C54_without_library"
   ],
   "note": ""
  },
  {
   "property": "C55",
   "status": "proved",
   "theorems": [
    "Verif.Props.C55_rsa_init",
    "Verif.Props.C55_rsa_failed_init",
    "Verif.Props.C55_rsa_initialised_iff",
    "Verif.Props.C55_des_init",
    "Verif.Props.C55_des_initialised_iff",
    "Verif.Props.C55_failed_init_changes_mode"
   ],
   "note": ""
  },
  {
   "property": "C56",
   "status": "proved",
   "theorems": [
    "Verif.Props.C56_two_arguments",
    "Verif.Props.C56_three_arguments",
    "Verif.Props.C56_arity"
   ],
   "note": ""
  },
  {
   "property": "C57",
   "status": "proved",
   "theorems": [
    "Verif.Props.C57_standard",
    "Verif.Props.C57_library"
   ],
   "note": ""
  },
  {
   "property": "C58",
   "status": "proved",
   "theorems": [
    "Verif.Props.C58_block",
    "Verif.Props.C58_key_schedule"
   ],
   "note": ""
  },
  {
   "property": "C59",
   "status": "proved",
   "theorems": [
    "Verif.Props.C59_constructor",
    "Verif.Props.C59_ecb",
    "Verif.Props.C59_cbc",
    "Verif.Props.C59_roundtrip",
    "Verif.Props.C59_other_lengths",
    "Verif.Props.C59_cbc_without_iv"
   ],
   "note": ""
  },
  {
   "property": "C60",
   "status": "proved",
   "theorems": [
    "Verif.Props.C60_padding",
    "Verif.Props.C60_roundtrip",
    "Verif.Props.C60_unvalidated",
    "Verif.Props.C60_zero_deletes"
   ],
   "note": ""
  },
  {
   "property": "C61",
   "status": "proved",
   "theorems": [
    "Verif.Props.C61_constructor",
    "Verif.Props.C61_default_iv",
    "Verif.Props.C61_ecb",
    "Verif.Props.C61_cbc",
    "Verif.Props.C61_standard",
    "Verif.Props.C61_single",
    "Verif.Props.C61_roundtrip",
    "Verif.Props.C61_pkcs5",
    "Verif.Props.C61_other_lengths"
   ],
   "note": ""
  },
  {
   "property": "C62",
   "status": "proved",
   "theorems": [
    "Verif.Props.C62_init",
    "Verif.Props.C62_encrypt",
    "Verif.Props.C62_decrypt",
    "Verif.Props.C62_roundtrip",
    "Verif.Props.C62_refused",
    "Verif.Props.C62_failed_init_switches_mode"
   ],
   "note": ""
  },
  {
   "property": "C63",
   "status": "proved",
   "theorems": [
    "Verif.Props.C63_too_long",
    "Verif.Props.C63_block",
    "Verif.Props.C63_unpad",
    "Verif.Props.C63_unpad_block",
    "Verif.Props.C63_roundtrip",
    "Verif.Props.C63_no_minimum"
   ],
   "note": ""
  },
  {
   "property": "C64",
   "status": "proved",
   "theorems": [
    "Verif.Props.C64_ready",
    "Verif.Props.C64_pkcs1_roundtrip",
    "Verif.Props.C64_nopad_roundtrip",
    "Verif.Props.C64_wrong_length",
    "Verif.Props.C64_short_ciphertext",
    "Verif.Props.C64_py3_pkcs1",
    "Verif.Props.C64_py3_digit_lost",
    "Verif.Props.C64_signed_input"
   ],
   "note": ""
  },
  {
   "property": "C65",
   "status": "proved",
   "theorems": [
    "Verif.Props.C65_history",
    "Verif.Props.C65_splitting",
    "Verif.Props.C65_failures",
    "Verif.Props.C65_getInstance"
   ],
   "note": ""
  },
  {
   "property": "C66",
   "status": "proved",
   "theorems": [
    "Verif.Props.C66_generate",
    "Verif.Props.C66_other_lengths",
    "Verif.Props.C66_unsigned",
    "Verif.Props.C66_getInstance"
   ],
   "note": ""
  },
  {
   "property": "C67",
   "status": "proved",
   "theorems": [
    "Verif.Props.C67_never"
   ],
   "note": ""
  },
  {
   "property": "C68",
   "status": "proved",
   "theorems": [
    "Verif.Props.C68_arrays",
    "Verif.Props.C68_refused",
    "Verif.Props.C68_memory",
    "Verif.Props.C68_arguments",
    "Verif.Props.C68_cells"
   ],
   "note": ""
  },
  {
   "property": "C69",
   "status": "proved",
   "theorems": [
    "Verif.Props.C69_misread"
   ],
   "note": ""
  },
  {
   "property": "C70",
   "status": "proved",
   "theorems": [
    "Verif.Props.C70_static_getLength",
    "Verif.Props.C70_getValueOffset"
   ],
   "note": ""
  },
  {
   "property": "C71",
   "status": "proved",
   "theorems": [
    "Verif.Props.C71_getValue",
    "Verif.Props.C71_getValue_does_not_fit",
    "Verif.Props.C71_replaceValue",
    "Verif.Props.C71_constructed",
    "Verif.Props.C71_fresh",
    "Verif.Props.C71_failed_replace_corrupts"
   ],
   "note": ""
  },
  {
   "property": "C72",
   "status": "proved",
   "theorems": [
    "Verif.Props.C72_static_find",
    "Verif.Props.C72_static_find_any",
    "Verif.Props.C72_static_append",
    "Verif.Props.C72_static_append_corrupts"
   ],
   "note": ""
  },
  {
   "property": "C73",
   "status": "proved",
   "theorems": [
    "Verif.Props.C73_pad_character",
    "Verif.Props.C73_lost_byte"
   ],
   "note": ""
  },
  {
   "property": "C74",
   "status": "proved",
   "theorems": [
    "Verif.Props.C74_des",
    "Verif.Props.C74_triple",
    "Verif.Props.C74_triple_default_iv"
   ],
   "note": ""
  },
  {
   "property": "C75",
   "status": "proved",
   "theorems": [
    "Verif.Props.C75_standard",
    "Verif.Props.C75_library",
    "Verif.Props.C75_triple"
   ],
   "note": ""
  },
  {
   "property": "C76",
   "status": "proved",
   "theorems": [
    "Verif.Props.C76_standard",
    "Verif.Props.C76_library"
   ],
   "note": ""
  },
  {
   "property": "C77",
   "status": "proved",
   "theorems": [
    "Verif.Props.C77_degenerate",
    "Verif.Props.C77_sixteen"
   ],
   "note": ""
  },
  {
   "property": "C78",
   "status": "proved",
   "theorems": [
    "Verif.Props.C78_ecb",
    "Verif.Props.C78_cbc_encrypt",
    "Verif.Props.C78_cbc_error"
   ],
   "note": ""
  },
  {
   "property": "C79",
   "status": "proved",
   "theorems": [
    "Verif.Props.C79_des",
    "Verif.Props.C79_setKey_lengths",
    "Verif.Props.C79_pad_and_pkcs5",
    "Verif.Props.C79_triple",
    "Verif.Props.C79_cbc_without_iv",
    "Verif.Props.C79_stale_iv",
    "Verif.Props.C79_getters",
    "Verif.Props.C79_triple_getters"
   ],
   "note": ""
  },
  {
   "property": "C80",
   "status": "proved",
   "theorems": [
    "Verif.Props.C80_encrypt",
    "Verif.Props.C80_decrypt",
    "Verif.Props.C80_asymmetry"
   ],
   "note": ""
  },
  {
   "property": "C81",
   "status": "proved",
   "theorems": [
    "Verif.Props.C81_current",
    "Verif.Props.C81_construct",
    "Verif.Props.C81_channel",
    "Verif.Props.C81_isolated",
    "Verif.Props.C81_shared",
    "Verif.Props.C81_half_made",
    "Verif.Props.C81_half_calls",
    "Verif.Props.C81_none"
   ],
   "note": ""
  },
  {
   "property": "C82",
   "status": "proved",
   "theorems": [
    "Verif.Props.C82_echo",
    "Verif.Props.C82_echo_extended",
    "Verif.Props.C82_too_big"
   ],
   "note": ""
  },
  {
   "property": "C83",
   "status": "proved",
   "theorems": [
    "Verif.Props.C83_status_words",
    "Verif.Props.C83_too_short",
    "Verif.Props.C83_exception",
    "Verif.Props.C83_defaults",
    "Verif.Props.C83_default"
   ],
   "note": ""
  },
  {
   "property": "C84",
   "status": "proved",
   "theorems": [
    "Verif.Props.C84_roundtrip",
    "Verif.Props.C84_py3",
    "Verif.Props.C84_lengths",
    "Verif.Props.C84_library",
    "Verif.Props.C84_dispatch"
   ],
   "note": ""
  },
  {
   "property": "C85",
   "status": "proved",
   "theorems": [
    "Verif.Props.C85_des",
    "Verif.Props.C85_triple",
    "Verif.Props.C85_half_set_key",
    "Verif.Props.C85_empty"
   ],
   "note": ""
  },
  {
   "property": "C86",
   "status": "proved",
   "theorems": [
    "Verif.Props.C86_throwIt",
    "Verif.Props.C86_caught",
    "Verif.Props.C86_clauses",
    "Verif.Props.C86_first_clause",
    "Verif.Props.C86_reasons",
    "Verif.Props.C86_escaping",
    "Verif.Props.C86_raised",
    "Verif.Props.C86_memory"
   ],
   "note": ""
  },
  {
   "property": "C87",
   "status": "proved",
   "theorems": [
    "Verif.Props.C87_own_calls",
    "Verif.Props.C87_make",
    "Verif.Props.C87_roles",
    "Verif.Props.C87_generate",
    "Verif.Props.C87_generate_raises",
    "Verif.Props.C87_once",
    "Verif.Props.C87_ofKeys",
    "Verif.Props.C87_ofKeys_kinds",
    "Verif.Props.C87_without_pycrypto"
   ],
   "note": ""
  },
  {
   "property": "C88",
   "status": "proved",
   "theorems": [
    "Verif.Props.C88_findPath",
    "Verif.Props.C88_getInstance",
    "Verif.Props.C88_read",
    "Verif.Props.C88_unambiguous",
    "Verif.Props.C88_build_roundtrip",
    "Verif.Props.C88_too_long"
   ],
   "note": ""
  },
  {
   "property": "C89",
   "status": "proved",
   "theorems": [
    "Verif.Props.C89_string_then_array",
    "Verif.Props.C89_array_then_string",
    "Verif.Props.C89_full_size_reversed",
    "Verif.Props.C89_short_refused"
   ],
   "note": ""
  },
  {
   "property": "C90",
   "status": "proved",
   "theorems": [
    "Verif.Props.C90_history",
    "Verif.Props.C90_written",
    "Verif.Props.C90_max_bytes_ignored",
    "Verif.Props.C90_total",
    "Verif.Props.C90_toBytes_total",
    "Verif.Props.C90_compare_total",
    "Verif.Props.C90_compare_array_total"
   ],
   "note": ""
  },
  {
   "property": "C91",
   "status": "proved",
   "theorems": [
    "Verif.Props.C91_right_kind",
    "Verif.Props.C91_wrong_kind",
    "Verif.Props.C91_out_of_range",
    "Verif.Props.C91_truncated",
    "Verif.Props.C91_str",
    "Verif.Props.C91_text",
    "Verif.Props.C91_fresh"
   ],
   "note": ""
  },
  {
   "property": "C92",
   "status": "proved",
   "theorems": [
    "Verif.Props.C92_copy_succeeds_iff",
    "Verif.Props.C92_copy_effect",
    "Verif.Props.C92_copy_wraps",
    "Verif.Props.C92_fill",
    "Verif.Props.C92_getShort",
    "Verif.Props.C92_setShort",
    "Verif.Props.C92_compare"
   ],
   "note": ""
  },
  {
   "property": "C93",
   "status": "proved",
   "theorems": [
    "Verif.Props.C93_update",
    "Verif.Props.C93_accepts_iff",
    "Verif.Props.C93_array_accepted_back"
   ],
   "note": ""
  },
  {
   "property": "C94",
   "status": "proved",
   "theorems": [
    "Verif.Props.C94_never_initialised",
    "Verif.Props.C94_every_accessor_raises",
    "Verif.Props.C94_unusable"
   ],
   "note": ""
  },
  {
   "property": "C95",
   "status": "proved",
   "theorems": [
    "Verif.Props.C95_both",
    "Verif.Props.C95_two_functions",
    "Verif.Props.C95_override_bound",
    "Verif.Props.C95_tags",
    "Verif.Props.C95_tlvs",
    "Verif.Props.C95_getLength"
   ],
   "note": ""
  },
  {
   "property": "C96",
   "status": "proved",
   "theorems": [
    "Verif.Props.C96_construct_accepts",
    "Verif.Props.C96_construct_inside",
    "Verif.Props.C96_construct_empty",
    "Verif.Props.C96_construct_length",
    "Verif.Props.C96_equals",
    "Verif.Props.C96_getBytes",
    "Verif.Props.C96_getBytes_length"
   ],
   "note": ""
  },
  {
   "property": "C97",
   "status": "proved",
   "theorems": [
    "Verif.Props.C97_random",
    "Verif.Props.C97_memory",
    "Verif.Props.C97_setInt",
    "Verif.Props.C97_toBytes",
    "Verif.Props.C97_getKey",
    "Verif.Props.C97_digest_output",
    "Verif.Props.C97_digest_update",
    "Verif.Props.C97_digest_update_fails",
    "Verif.Props.C97_bignumber_init",
    "Verif.Props.C97_bignumber_init_fails",
    "Verif.Props.C97_getInt"
   ],
   "note": ""
  },
  {
   "property": "C98",
   "status": "proved",
   "theorems": [
    "Verif.Props.C98_inverts",
    "Verif.Props.C98_cipher_roundtrip",
    "Verif.Props.C98_applet"
   ],
   "note": ""
  },
  {
   "property": "C99",
   "status": "proved",
   "theorems": [
    "Verif.Props.C99_init",
    "Verif.Props.C99_unready",
    "Verif.Props.C99_encrypt",
    "Verif.Props.C99_decrypt",
    "Verif.Props.C99_refused",
    "Verif.Props.C99_rsa"
   ],
   "note": ""
  },
  {
   "property": "C100",
   "status": "proved",
   "theorems": [
    "Verif.Props.C100_export",
    "Verif.Props.C100_py3",
    "Verif.Props.C100_encrypt",
    "Verif.Props.C100_private",
    "Verif.Props.C100_private_rebuilt"
   ],
   "note": ""
  },
  {
   "property": "C101",
   "status": "proved",
   "theorems": [
    "Verif.Props.C101_lengths",
    "Verif.Props.C101_one_byte",
    "Verif.Props.C101_encrypt",
    "Verif.Props.C101_never_restored",
    "Verif.Props.C101_leftover",
    "Verif.Props.C101_whole_blocks",
    "Verif.Props.C101_own_pad",
    "Verif.Props.C101_triple_one_byte",
    "Verif.Props.C101_triple_encrypt",
    "Verif.Props.C101_triple_never_restored"
   ],
   "note": ""
  },
  {
   "property": "C102",
   "status": "proved",
   "theorems": [
    "Verif.Props.C102_aid_equals",
    "Verif.Props.C102_aid_found",
    "Verif.Props.C102_aid_partial_equals",
    "Verif.Props.C102_pin_update",
    "Verif.Props.C102_pin_then_empty",
    "Verif.Props.C102_pin_check",
    "Verif.Props.C102_digest",
    "Verif.Props.C102_random",
    "Verif.Props.C102_bignumber",
    "Verif.Props.C102_cipher",
    "Verif.Props.C102_keys",
    "Verif.Props.C102_tlv",
    "Verif.Props.C102_outgoing_length",
    "Verif.Props.C102_command_sent_back",
    "Verif.Props.C102_send"
   ],
   "note": ""
  },
  {
   "property": "C103",
   "status": "proved",
   "theorems": [
    "Verif.Props.C103_find",
    "Verif.Props.C103_static_find",
    "Verif.Props.C103_findNext",
    "Verif.Props.C103_counts_again"
   ],
   "note": ""
  },
  {
   "property": "C104",
   "status": "proved",
   "theorems": [
    "Verif.Props.C104_tlv",
    "Verif.Props.C104_tags_and_arrays",
    "Verif.Props.C104_changes",
    "Verif.Props.C104_results",
    "Verif.Props.C104_getTag_shares"
   ],
   "note": ""
  },
  {
   "property": "C105",
   "status": "proved",
   "theorems": [
    "Verif.Props.C105_apdu",
    "Verif.Props.C105_apdu_kinds",
    "Verif.Props.C105_apdu_attained",
    "Verif.Props.C105_next_block",
    "Verif.Props.C105_pin",
    "Verif.Props.C105_pin_effects",
    "Verif.Props.C105_pin_destroyed",
    "Verif.Props.C105_tlv",
    "Verif.Props.C105_tlv_attained",
    "Verif.Props.C105_tlv_static"
   ],
   "note": ""
  },
  {
   "property": "C106",
   "status": "proved",
   "theorems": [
    "Verif.Props.C106_decrypt_any",
    "Verif.Props.C106_reaches",
    "Verif.Props.C106_des_verdict",
    "Verif.Props.C106_des_init_verdict"
   ],
   "note": ""
  },
  {
   "property": "C107",
   "status": "proved",
   "theorems": [
    "Verif.Props.C107_refused",
    "Verif.Props.C107_result",
    "Verif.Props.C107_kinds"
   ],
   "note": ""
  },
  {
   "property": "C108",
   "status": "proved",
   "theorems": [
    "Verif.Props.CW.C108_generate_refused",
    "Verif.Props.CW.C108_generate",
    "Verif.Props.CW.C108_generate_given",
    "Verif.Props.CW.C108_des_key",
    "Verif.Props.CW.C108_rsa_key",
    "Verif.Props.CW.C108_the_key",
    "Verif.Props.CW.C108_wrong_class",
    "Verif.Props.CW.C108_frame",
    "Verif.Props.CW.C108_encrypt",
    "Verif.Props.CW.C108_decrypt",
    "Verif.Props.CW.C108_roundtrip",
    "Verif.Props.CW.C108_keys_last",
    "Verif.Props.CW.C108_rsa_live",
    "Verif.Props.CW.C108_rsa_roundtrip",
    "Verif.Props.CW.C108_digest",
    "Verif.Props.CW.C108_setup"
   ],
   "note": ""
  },
  {
   "property": "C109",
   "status": "proved",
   "theorems": [
    "Verif.Props.C109_same_signature",
    "Verif.Props.C109_verify_is_encrypt",
    "Verif.Props.C109_verify_value",
    "Verif.Props.C109_restores_iff",
    "Verif.Props.C109_not_restored",
    "Verif.Props.C109_pkcs1_verify",
    "Verif.Props.C109_private_undoes"
   ],
   "note": ""
  },
  {
   "property": "C110",
   "status": "proved",
   "theorems": [
    "Verif.Props.C110_any_order",
    "Verif.Props.C110_values",
    "Verif.Props.C110_missing",
    "Verif.Props.C110_one_meaning",
    "Verif.Props.C110_once",
    "Verif.Props.C110_stable",
    "Verif.Props.C110_order_irrelevant",
    "Verif.Props.C110_without_pyDes"
   ],
   "note": ""
  },
  {
   "property": "C111",
   "status": "proved",
   "theorems": [
    "Verif.Props.C111_globals"
   ],
   "note": ""
  },
  {
   "property": "C112",
   "status": "proved",
   "theorems": [
    "Verif.Props.C112_size",
    "Verif.Props.C112_long",
    "Verif.Props.C112_find",
    "Verif.Props.C112_findNext",
    "Verif.Props.C112_findNext_none"
   ],
   "note": ""
  },
  {
   "property": "C113",
   "status": "proved",
   "theorems": [
    "Verif.Props.C113_erase",
    "Verif.Props.C113_getters",
    "Verif.Props.C113_short_key",
    "Verif.Props.C113_text",
    "Verif.Props.C113_unusable",
    "Verif.Props.C113_standard",
    "Verif.Props.C113_crypt",
    "Verif.Props.C113_kinds",
    "Verif.Props.C113_pads",
    "Verif.Props.C113_triple_pads"
   ],
   "note": ""
  },
  {
   "property": "C114",
   "status": "proved",
   "theorems": [
    "Verif.Props.C114_frame",
    "Verif.Props.C114_reads",
    "Verif.Props.C114_alone",
    "Verif.Props.C114_order"
   ],
   "note": ""
  },
  {
   "property": "C115",
   "status": "proved",
   "theorems": [
    "Verif.Props.C115_kinds",
    "Verif.Props.C115_private",
    "Verif.Props.C115_keeps",
    "Verif.Props.C115_lists",
    "Verif.Props.C115_returns"
   ],
   "note": ""
  },
  {
   "property": "C116",
   "status": "proved",
   "theorems": [
    "Verif.Props.C116_pin",
    "Verif.Props.C116_digest",
    "Verif.Props.C116_number",
    "Verif.Props.C116_key",
    "Verif.Props.C116_des",
    "Verif.Props.C116_rsa",
    "Verif.Props.C116_pin_tries",
    "Verif.Props.C116_pin_blocked",
    "Verif.Props.C116_encrypts",
    "Verif.Props.C116_decrypts"
   ],
   "note": ""
  },
  {
   "property": "C117",
   "status": "proved",
   "theorems": [
    "Verif.Props.C117_receive",
    "Verif.Props.C117_length",
    "Verif.Props.C117_apdu",
    "Verif.Props.C117_response"
   ],
   "note": ""
  },
  {
   "property": "C118",
   "status": "proved",
   "theorems": [
    "Verif.Props.C118_cells",
    "Verif.Props.C118_program"
   ],
   "note": ""
  },
  {
   "property": "C119",
   "status": "proved",
   "theorems": [
    "Verif.Props.C119_short",
    "Verif.Props.C119_int",
    "Verif.Props.C119_aid",
    "Verif.Props.C119_tag",
    "Verif.Props.C119_tlv",
    "Verif.Props.C119_des_key",
    "Verif.Props.C119_rsa_key",
    "Verif.Props.C119_big",
    "Verif.Props.C119_copy",
    "Verif.Props.C119_signed_modulus"
   ],
   "note": ""
  },
  {
   "property": "C120",
   "status": "proved",
   "theorems": [
    "Verif.Props.C120_aid",
    "Verif.Props.C120_tag",
    "Verif.Props.C120_tag_new",
    "Verif.Props.C120_tlv",
    "Verif.Props.C120_tlv_new",
    "Verif.Props.C120_des_key",
    "Verif.Props.C120_pair",
    "Verif.Props.C120_pair_new",
    "Verif.Props.C120_load",
    "Verif.Props.C120_literal",
    "Verif.Props.C120_store",
    "Verif.Props.C120_fill",
    "Verif.Props.C120_compare",
    "Verif.Props.C120_numbers",
    "Verif.Props.C120_number_array",
    "Verif.Props.C120_rsa_key",
    "Verif.Props.C120_new",
    "Verif.Props.C120_generate",
    "Verif.Props.C120_memory"
   ],
   "note": ""
  },
  {
   "property": "C121",
   "status": "proved",
   "theorems": [
    "Verif.Props.C121_learns",
    "Verif.Props.C121_attacker",
    "Verif.Props.C121_array_pin_found"
   ],
   "note": ""
  },
  {
   "property": "C122",
   "status": "proved",
   "theorems": [
    "Verif.Props.C122_only",
    "Verif.Props.C122_each",
    "Verif.Props.C122_java",
    "Verif.Props.C122_builtin"
   ],
   "note": ""
  },
  {
   "property": "C123",
   "status": "proved",
   "theorems": [
    "Verif.Props.C123_learns",
    "Verif.Props.C123_attacker"
   ],
   "note": ""
  },
  {
   "property": "C124",
   "status": "proved",
   "theorems": [
    "Verif.Props.C124_agree",
    "Verif.Props.C124_tag_history",
    "Verif.Props.C124_tlv_history",
    "Verif.Props.C124_write_static",
    "Verif.Props.C124_tag_written",
    "Verif.Props.C124_tag_written_static",
    "Verif.Props.C124_tlv_written",
    "Verif.Props.C124_find_next"
   ],
   "note": ""
  },
  {
   "property": "C125",
   "status": "proved",
   "theorems": [
    "Verif.Props.C125_in_place",
    "Verif.Props.C125_pkcs1",
    "Verif.Props.C125_nopad",
    "Verif.Props.C125_signature",
    "Verif.Props.C125_cipher",
    "Verif.Props.C125_py3",
    "Verif.Props.C125_textbook"
   ],
   "note": ""
  },
  {
   "property": "C126",
   "status": "proved",
   "theorems": [
    "Verif.Props.C126_roundtrip",
    "Verif.Props.C126_in_place",
    "Verif.Props.C126_key_kept"
   ],
   "note": ""
  },
  {
   "property": "C127",
   "status": "proved",
   "theorems": [
    "Verif.Props.C127_exchange",
    "Verif.Props.C127_answer",
    "Verif.Props.C127_encrypt",
    "Verif.Props.C127_decrypt",
    "Verif.Props.C127_digest",
    "Verif.Props.C127_rsa"
   ],
   "note": ""
  },
  {
   "property": "C128",
   "status": "proved",
   "theorems": [
    "Verif.Props.C128_views",
    "Verif.Props.C128_eq_ne",
    "Verif.Props.C128_none",
    "Verif.Props.C128_in",
    "Verif.Props.C128_index",
    "Verif.Props.C128_count",
    "Verif.Props.C128_dict_py3",
    "Verif.Props.C128_dict_py2",
    "Verif.Props.C128_dict_missed",
    "Verif.Props.C128_numbers"
   ],
   "note": ""
  },
  {
   "property": "C129",
   "status": "proved",
   "theorems": [
    "Verif.Props.PINText.C129_like_codes",
    "Verif.Props.PINText.C129_accept_iff",
    "Verif.Props.PINText.C129_first_only",
    "Verif.Props.PINText.C129_text_set",
    "Verif.Props.PINText.C129_text_presented",
    "Verif.Props.PINText.C129_costs",
    "Verif.Props.PINText.C129_text_blocks",
    "Verif.Props.PINText.C129_str_blocks"
   ],
   "note": ""
  }
 ]
}