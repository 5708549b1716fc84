# Axioms of the property theorems

Generated by tools/axioms.py with Lean's `collectAxioms`. All are axioms of Lean itself; the project adds none.

## none (6 theorems)

C07_abort_keeps, C128_dict_py3, C13_never_succeeds, C66_getInstance, C83_defaults, C86_memory

## propext (57 theorems)

C01_s1_outside, C07_not_atomic, C105_pin_destroyed, C105_tlv_attained, C11_eq, C128_eq_ne, C128_none, C128_views, C15_forced_unblock, C17_same_length, C18_wrong_pin_accepted, C29_protocol, C30_add, C30_init_refused, C30_services, C31_length_zero, C31_null, C31_unknown_format, C33_bad_operand, C33_max_bytes, C35_getInt_wrong, C35_transient, C37_built, C39_static_queries, C41_name_error, C43_primitive, C48_init_no_effect, C51_new_and_clear, C52_uninitialised_getters, C52_wrong_length, C53_sticky, C54_buildKey_arity, C54_generated_components, C54_ofKeys, C54_without_library, C55_failed_init_changes_mode, C56_arity, C56_three_arguments, C59_constructor, C67_never, C71_constructed, C71_fresh, C83_default, C86_caught, C86_clauses, C86_raised, C86_throwIt, C90_compare_total, C94_every_accessor_raises, C94_never_initialised, C94_unusable, C95_both, C95_getLength, C95_override_bound, C95_tags, C95_tlvs, C95_two_functions

## propext, Classical.choice, Quot.sound (426 theorems)

C01_s1, C01_s1_signed, C01_s1_u1, C01_s2, C01_s2_signed, C01_s4, C01_s4_signed, C01_signed, C01_signed_congr, C01_u1_s1, C02_low_bits, C02_makeShort, C02_range, C03_byte_order, C03_getShort, C03_roundtrip, C03_setShort_getShort, C04_antisymm, C04_arrayCompare, C04_zero_iff, C05_arrayCopy, C05_arrayCopyNonAtomic, C06_as_if_temporary, C06_overlap_wrong, C06_periodic, C07_failed_copy, C07_failed_self_copy, C08_arrayCompare, C08_arrayCompare_total, C08_arrayCopy, C08_arrayCopyNonAtomic, C08_arrayFill, C08_setShort_overrun_store, C09_fill, C09_overrun, C100_encrypt, C100_export, C100_private, C100_private_rebuilt, C100_py3, C101_leftover, C101_lengths, C101_own_pad, C101_triple_encrypt, C102_cipher, C102_command_sent_back, C102_digest, C102_outgoing_length, C102_pin_check, C102_pin_then_empty, C102_pin_update, C102_send, C102_tlv, C103_find, C103_findNext, C103_static_find, C104_changes, C104_getTag_shares, C104_tags_and_arrays, C104_tlv, C105_apdu, C105_apdu_attained, C105_apdu_kinds, C105_next_block, C105_pin, C105_tlv, C105_tlv_static, C106_decrypt_any, C106_des_init_verdict, C106_des_verdict, C106_reaches, C107_kinds, C107_refused, C107_result, C109_not_restored, C109_pkcs1_verify, C109_private_undoes, C109_restores_iff, C109_verify_value, C10_valid, C112_find, C112_findNext, C112_findNext_none, C112_long, C112_size, C113_crypt, C113_getters, C113_kinds, C113_standard, C113_triple_pads, C114_alone, C114_order, C114_reads, C115_keeps, C115_kinds, C115_lists, C115_private, C115_returns, C116_decrypts, C116_des, C116_digest, C116_encrypts, C116_key, C116_number, C116_pin, C116_pin_blocked, C116_pin_tries, C116_rsa, C117_apdu, C117_length, C117_receive, C117_response, C118_cells, C118_program, C119_aid, C119_big, C119_copy, C119_des_key, C119_int, C119_rsa_key, C119_short, C119_tag, C119_tlv, C11_roundtrip, C120_aid, C120_compare, C120_des_key, C120_fill, C120_literal, C120_memory, C120_pair, C120_rsa_key, C120_store, C120_tag, C120_tlv, C121_array_pin_found, C121_attacker, C121_learns, C122_java, C122_only, C123_attacker, C123_learns, C124_agree, C124_tag_history, C124_tag_written, C124_tag_written_static, C124_tlv_history, C124_tlv_written, C125_cipher, C125_in_place, C125_nopad, C125_pkcs1, C125_py3, C125_signature, C125_textbook, C126_in_place, C126_key_kept, C126_roundtrip, C127_answer, C127_decrypt, C127_digest, C127_encrypt, C127_exchange, C127_rsa, C128_numbers, C13_which, C14_counter, C15_blocked, C15_history, C16_admissible_answered, C16_bound, C17_string_pin, C18_accept_iff, C18_first_byte_only, C18_full_size, C18_right_pin_refused, C19_free_only_too_long, C20_update_validates, C21_short, C21_unambiguous, C22_case2, C22_case3_refused, C22_case4, C22_case4_refused, C23_constructor_total, C23_extended, C23_malformed_accepted, C23_short, C23_six, C24_blocks, C24_concatenation, C25_case2, C25_counts, C25_full_iff, C25_minus_one, C26_forward, C26_no_more_receiving, C26_set_incoming_once, C26_set_outgoing_and_send_rejected, C26_set_outgoing_once, C27_cells_that_exist, C27_response, C27_send, C27_set_outgoing_and_send, C28_send_bytes_long_before, C29_answer_changes, C29_channel, C29_channel_initial, C29_command_cla, C29_response_byte, C31_bcd, C31_bcd_nibbles_unchecked, C31_bcd_overrun_destroys, C31_hex, C31_overrun_destroys, C32_bcd, C32_hex, C32_init_toBytes, C32_max_bytes_is_no_bound, C32_out_of_range, C32_succeeds_iff, C32_toBytes_init_bcd, C32_toBytes_init_hex, C33_exact, C33_negative_written_as_zero, C33_uninitialised, C34_antisymmetric, C34_compare, C34_transitive, C35_getInt_borrow, C35_getInt_setInt, C35_makeInt, C35_makeInt_shorts, C35_sanatize, C35_setInt, C35_setInt_overrun, C35_setInt_overrun_store, C36_decode, C36_encode, C36_roundtrip, C36_static, C36_static_queries, C37_read, C37_static, C38_does_not_fit, C38_frame, C38_signed_frame, C39_exact, C39_total, C40_decode, C40_encode, C40_roundtrip, C40_size, C42_misread, C42_right_length_iff, C42_signed_negative, C42_value_shifted, C43_find, C43_find_none, C44_findNext, C44_findNext_none, C45_terminates, C46_append, C46_built_tag_refused, C46_children, C47_outcomes, C47_well_formed_use, C48_fresh_object, C49_identity, C49_low_bits, C49_roundtrip, C51_read_back, C51_short_source, C52_last_exponent, C52_last_modulus, C55_des_init, C55_des_initialised_iff, C55_rsa_initialised_iff, C59_cbc_without_iv, C60_roundtrip, C61_cbc, C61_constructor, C61_ecb, C61_other_lengths, C61_pkcs5, C61_roundtrip, C62_decrypt, C62_encrypt, C62_init, C62_refused, C62_roundtrip, C63_block, C63_roundtrip, C64_nopad_roundtrip, C64_pkcs1_roundtrip, C64_py3_digit_lost, C64_py3_pkcs1, C64_short_ciphertext, C64_signed_input, C64_wrong_length, C65_failures, C65_getInstance, C65_history, C66_generate, C66_unsigned, C68_arguments, C68_cells, C68_memory, C68_refused, C69_misread, C70_getValueOffset, C70_static_getLength, C71_failed_replace_corrupts, C71_getValue, C71_getValue_does_not_fit, C71_replaceValue, C72_static_append, C72_static_append_corrupts, C72_static_find, C72_static_find_any, C73_lost_byte, C73_pad_character, C75_library, C75_standard, C75_triple, C77_degenerate, C77_sixteen, C79_cbc_without_iv, C79_getters, C79_stale_iv, C79_triple, C79_triple_getters, C80_asymmetry, C81_channel, C81_construct, C81_current, C81_half_calls, C81_half_made, C81_isolated, C81_none, C82_echo, C82_echo_extended, C82_too_big, C83_exception, C83_status_words, C84_dispatch, C84_lengths, C84_library, C84_py3, C84_roundtrip, C85_des, C85_half_set_key, C85_triple, C87_generate, C87_generate_raises, C87_ofKeys, C87_once, C87_without_pycrypto, C88_build_roundtrip, C88_findPath, C88_getInstance, C88_read, C88_too_long, C88_unambiguous, C89_array_then_string, C89_full_size_reversed, C89_short_refused, C89_string_then_array, C90_compare_array_total, C90_history, C90_toBytes_total, C90_total, C90_written, C91_fresh, C91_right_kind, C91_str, C91_text, C91_truncated, C91_wrong_kind, C92_compare, C92_copy_effect, C92_copy_succeeds_iff, C92_copy_wraps, C92_fill, C92_getShort, C92_setShort, C93_accepts_iff, C93_array_accepted_back, C93_update, C96_construct_accepts, C96_construct_length, C96_getBytes_length, C97_bignumber_init, C97_bignumber_init_fails, C97_digest_output, C97_digest_update, C97_digest_update_fails, C97_getInt, C97_getKey, C97_memory, C97_random, C97_setInt, C97_toBytes, C98_applet, C98_cipher_roundtrip, C98_inverts, C99_decrypt, C99_encrypt, C99_init, C99_refused, C99_unready, CW.C108_decrypt, CW.C108_des_key, CW.C108_digest, CW.C108_encrypt, CW.C108_roundtrip, CW.C108_rsa_key, CW.C108_rsa_roundtrip, CW.C108_setup, CW.C108_the_key, PINText.C129_accept_iff, PINText.C129_first_only, PINText.C129_str_blocks, PINText.C129_text_blocks, PINText.C129_text_presented, PINText.C129_text_set

## propext, Quot.sound (181 theorems)

C05_nonpositive, C06_references, C08_frame, C08_getShort, C08_negative_dest, C08_negative_fill, C08_negative_getShort, C08_negative_setShort, C08_negative_source, C08_setShort, C101_encrypt, C101_never_restored, C101_one_byte, C101_triple_never_restored, C101_triple_one_byte, C101_whole_blocks, C102_aid_equals, C102_aid_found, C102_aid_partial_equals, C102_bignumber, C102_keys, C102_random, C103_counts_again, C104_results, C105_pin_effects, C109_same_signature, C109_verify_is_encrypt, C10_complete, C10_construct, C110_any_order, C110_missing, C110_once, C110_one_meaning, C110_order_irrelevant, C110_stable, C110_values, C110_without_pyDes, C111_globals, C113_erase, C113_pads, C113_short_key, C113_text, C113_unusable, C114_frame, C119_signed_modulus, C11_equals, C11_getBytes, C120_generate, C120_load, C120_new, C120_number_array, C120_numbers, C120_pair_new, C120_tag_new, C120_tlv_new, C122_builtin, C122_each, C124_find_next, C124_write_static, C128_count, C128_dict_missed, C128_dict_py2, C128_in, C128_index, C12_RIDEquals, C12_equivalence, C12_partialEquals, C13_documented_domain, C15_check_blocked, C15_unblock, C15_validated_not_blocked, C16_at_most_t, C16_every_answer_costs, C17_no_zero, C19_array_too_long, C19_cost, C19_overrun, C19_string_too_long, C20_validated, C23_too_short, C26_rejected_unchanged, C27_out_of_range_silent, C28_before_outgoing, C28_send_bytes_long, C28_set_outgoing, C28_set_outgoing_length, C30_capacity_ignored, C30_independent, C30_init, C31_offset_past_end, C32_too_big, C34_array_form, C34_uninitialised, C36_encodable, C36_equal, C41_never, C45_loops_forever, C47_static_findNext, C50_bytes_back, C50_digits, C50_little_endian, C50_py2, C50_py3, C50_signed_negative, C52_initialized_iff, C52_setters_succeed, C52_stays, C52_without_library, C53_cipher, C53_cipher_history, C53_first_pair, C53_private_never, C53_private_unusable, C54_buildKey, C54_genKeyPair, C54_pair, C55_rsa_failed_init, C55_rsa_init, C56_two_arguments, C57_library, C57_standard, C58_block, C58_key_schedule, C59_cbc, C59_ecb, C59_other_lengths, C59_roundtrip, C60_padding, C60_unvalidated, C60_zero_deletes, C61_default_iv, C61_single, C61_standard, C62_failed_init_switches_mode, C63_no_minimum, C63_too_long, C63_unpad, C63_unpad_block, C64_ready, C65_splitting, C66_other_lengths, C68_arrays, C74_des, C74_triple, C74_triple_default_iv, C76_library, C76_standard, C78_cbc_encrypt, C78_cbc_error, C78_ecb, C79_des, C79_pad_and_pkcs5, C79_setKey_lengths, C80_decrypt, C80_encrypt, C81_shared, C83_too_short, C85_empty, C86_escaping, C86_first_clause, C86_reasons, C87_make, C87_ofKeys_kinds, C87_own_calls, C87_roles, C90_max_bytes_ignored, C91_out_of_range, C96_construct_empty, C96_construct_inside, C96_equals, C96_getBytes, C99_rsa, CW.C108_frame, CW.C108_generate, CW.C108_generate_given, CW.C108_generate_refused, CW.C108_keys_last, CW.C108_rsa_live, CW.C108_wrong_class, PINText.C129_costs, PINText.C129_like_codes
