'Nat20.C01_stream_contents' depends on axioms: [propext, Classical.choice, Quot.sound]
'Nat20.C02_null_size_ignored' does not depend on any axioms
'Nat20.C02_sizing_exact' depends on axioms: [propext, Classical.choice, Quot.sound]
'Nat20.C02_two_pass' depends on axioms: [propext, Quot.sound]
'Nat20.C03_flags_exact' depends on axioms: [propext, Classical.choice, Quot.sound]
'Nat20.C03_flags_sticky' depends on axioms: [propext, Classical.choice, Quot.sound]
'Nat20.C04_all_or_nothing' depends on axioms: [propext, Classical.choice, Quot.sound]
'Nat20.C04_committed_bytes_stay' depends on axioms: [propext, Classical.choice, Quot.sound]
'Nat20.C04_stays_inside' depends on axioms: [propext, Classical.choice, Quot.sound]
'Nat20.C05_null_stream' depends on axioms: [propext, Classical.choice, Quot.sound]
'Nat20.C05_renderers' depends on axioms: [propext, Classical.choice, Quot.sound]
'Nat20.C05_sequences' depends on axioms: [propext, Classical.choice, Quot.sound]
'Nat20.C06_base128' depends on axioms: [propext, Classical.choice, Quot.sound]
'Nat20.C07_header' depends on axioms: [propext, Classical.choice, Quot.sound]
'Nat20.C07_header_canonical' depends on axioms: [propext, Classical.choice, Quot.sound]
'Nat20.C08_header_with_content' depends on axioms: [propext, Classical.choice, Quot.sound]
'Nat20.C08_nesting' depends on axioms: [propext, Classical.choice, Quot.sound]
'Nat20.C08_null_callback' depends on axioms: [propext, Classical.choice, Quot.sound]
'Nat20.C08_sequence' depends on axioms: [propext, Classical.choice, Quot.sound]
'Nat20.C09_tag_info_helpers' depends on axioms: [propext, Classical.choice, Quot.sound]
'Nat20.C09_tag_overrides' depends on axioms: [propext, Classical.choice, Quot.sound]
'Nat20.C10_integer_partial' depends on axioms: [propext, Classical.choice, Quot.sound]
'Nat20.C11_int64_partial' depends on axioms: [propext, Classical.choice, Quot.sound]
'Nat20.C11_reads_outside' depends on axioms: [propext, Classical.choice, Quot.sound]
'Nat20.C11_uint64_partial' depends on axioms: [propext, Classical.choice, Quot.sound]
'Nat20.C12_empty' depends on axioms: [propext, Classical.choice, Quot.sound]
'Nat20.C12_output_depends_on_surroundings' depends on axioms: [propext, Quot.sound]
'Nat20.C12_reads_outside' depends on axioms: [propext, Classical.choice, Quot.sound]
'Nat20.C12_reads_outside_witness' depends on axioms: [propext, Quot.sound]
'Nat20.C12_slice_only_partial' depends on axioms: [propext, Classical.choice, Quot.sound]
'Nat20.C13_bitstring_null' depends on axioms: [propext, Classical.choice, Quot.sound]
'Nat20.C13_bitstring_partial' depends on axioms: [propext, Classical.choice, Quot.sound]
'Nat20.C13_wraps' depends on axioms: [propext, Classical.choice, Quot.sound]
'Nat20.C14_exact' depends on axioms: [propext, Classical.choice, Quot.sound]
'Nat20.C14_large_second_arc' depends on axioms: [propext, Classical.choice, Quot.sound]
'Nat20.C14_oid_injective_partial' depends on axioms: [propext, Classical.choice, Quot.sound]
'Nat20.C14_oid_partial' depends on axioms: [propext, Classical.choice, Quot.sound]
'Nat20.C14_standard_content_partial' depends on axioms: [propext, Quot.sound]
'Nat20.C15_null_fallback' depends on axioms: [propext, Classical.choice, Quot.sound]
'Nat20.C16_bytes' does not depend on any axioms
'Nat20.C16_strings' depends on axioms: [propext, Classical.choice, Quot.sound]
'Nat20.C17_boolean_null' depends on axioms: [propext, Classical.choice, Quot.sound]
'Nat20.C17_boolean_null_overrides' depends on axioms: [propext, Classical.choice, Quot.sound]
'Nat20.C18_equivalence' depends on axioms: [propext, Quot.sound]
'Nat20.C18_oid_equals' depends on axioms: [propext, Quot.sound]
'Nat20.C18_unchecked_count' depends on axioms: [propext, Quot.sound]
'Nat20.C19_header_partial' depends on axioms: [propext, Classical.choice, Quot.sound]
'Nat20.C19_reserved_simple' depends on axioms: [propext, Classical.choice, Quot.sound]
'Nat20.C20_invalid_type' depends on axioms: [propext, Classical.choice, Quot.sound]
'Nat20.C21_int_min_undefined' depends on axioms: [propext, Quot.sound]
'Nat20.C21_int_partial' depends on axioms: [propext, Classical.choice, Quot.sound]
'Nat20.C21_uint' depends on axioms: [propext, Classical.choice, Quot.sound]
'Nat20.C22_empty_null_string' depends on axioms: [propext, Classical.choice, Quot.sound]
'Nat20.C22_null_bool' depends on axioms: [propext, Classical.choice, Quot.sound]
'Nat20.C22_null_string' depends on axioms: [propext, Classical.choice, Quot.sound]
'Nat20.C22_strings_partial' depends on axioms: [propext, Classical.choice, Quot.sound]
'Nat20.C23_injective' depends on axioms: [propext, Classical.choice, Quot.sound]
'Nat20.C23_structures' depends on axioms: [propext, Classical.choice, Quot.sound]
'Nat20.C24_attribute_value' does not depend on any axioms
'Nat20.C24_name' depends on axioms: [propext, Classical.choice, Quot.sound]
'Nat20.C24_null_name' depends on axioms: [propext, Classical.choice, Quot.sound]
'Nat20.C25_digits' depends on axioms: [propext, Classical.choice, Quot.sound]
'Nat20.C25_distinct' depends on axioms: [propext, Classical.choice, Quot.sound]
'Nat20.C25_serial_hex' depends on axioms: [propext, Classical.choice, Quot.sound]
'Nat20.C26_extensions' depends on axioms: [propext, Classical.choice, Quot.sound]
'Nat20.C26_none' depends on axioms: [propext, Quot.sound]
'Nat20.C27_basic_constraints_partial' depends on axioms: [propext, Classical.choice, Quot.sound]
'Nat20.C27_null' depends on axioms: [propext, Quot.sound]
'Nat20.C27_reads_outside' depends on axioms: [propext, Classical.choice, Quot.sound]
'Nat20.C28_distinct' depends on axioms: [propext, Classical.choice, Quot.sound]
'Nat20.C28_key_usage' depends on axioms: [propext, Classical.choice, Quot.sound]
'Nat20.C28_null' depends on axioms: [propext, Quot.sound]
'Nat20.C29_algorithm' depends on axioms: [propext, Classical.choice, Quot.sound]
'Nat20.C29_null' depends on axioms: [propext, Classical.choice, Quot.sound]
'Nat20.C29_public_key' depends on axioms: [propext, Classical.choice, Quot.sound]
'Nat20.C30_validity' depends on axioms: [propext, Classical.choice, Quot.sound]
'Nat20.C31_reads_outside' depends on axioms: [propext, Classical.choice, Quot.sound]
'Nat20.C31_serial' depends on axioms: [propext, Quot.sound]
'Nat20.C31_tbs_partial' depends on axioms: [propext, Classical.choice, Quot.sound]
'Nat20.C32_tbs_embedded' depends on axioms: [propext, Classical.choice, Quot.sound]
'Nat20.C32_tbs_recovered' depends on axioms: [propext, Classical.choice, Quot.sound]
'Nat20.C33_certificate_partial' depends on axioms: [propext, Classical.choice, Quot.sound]
'Nat20.C33_reads_outside' depends on axioms: [propext, Classical.choice, Quot.sound]
'Nat20.C33_unambiguous_partial' depends on axioms: [propext, Classical.choice, Quot.sound]
'Nat20.C34_null' depends on axioms: [propext, Quot.sound]
'Nat20.C34_open_dice_input_partial' depends on axioms: [propext, Classical.choice, Quot.sound]
'Nat20.C34_reads_outside' depends on axioms: [propext, Classical.choice, Quot.sound]
'Nat20.C34_unambiguous_partial' depends on axioms: [propext, Classical.choice, Quot.sound]
'Nat20.C35_null' depends on axioms: [propext, Quot.sound]
'Nat20.C35_reads_outside' depends on axioms: [propext, Classical.choice, Quot.sound]
'Nat20.C35_tcb_info_partial' depends on axioms: [propext, Classical.choice, Quot.sound]
'Nat20.C35_unambiguous_partial' depends on axioms: [propext, Classical.choice, Quot.sound]
'Nat20.C36_freshness' depends on axioms: [propext, Classical.choice, Quot.sound]
'Nat20.C36_multi_tcb_info_partial' depends on axioms: [propext, Classical.choice, Quot.sound]
'Nat20.C36_null' depends on axioms: [propext, Quot.sound]
'Nat20.C36_reads_outside' depends on axioms: [propext, Classical.choice, Quot.sound]
'Nat20.C36_ueid' depends on axioms: [propext, Classical.choice, Quot.sound]
'Nat20.C37_chunking' depends on axioms: [propext, Classical.choice, Quot.sound]
'Nat20.C37_null' depends on axioms: [propext, Quot.sound]
'Nat20.C37_sha224' depends on axioms: [propext, Classical.choice, Quot.sound]
'Nat20.C37_sha256' depends on axioms: [propext, Classical.choice, Quot.sound]
'Nat20.C38_chunking' depends on axioms: [propext, Classical.choice, Quot.sound]
'Nat20.C38_sha384' depends on axioms: [propext, Classical.choice, Quot.sound]
'Nat20.C38_sha512' depends on axioms: [propext, Classical.choice, Quot.sound]
'Nat20.C39_constants' depends on axioms: [propext, Classical.choice, Quot.sound]
'Nat20.C40_digest' depends on axioms: [propext, Classical.choice, Quot.sound]
'Nat20.C40_split' depends on axioms: [propext, Classical.choice, Quot.sound]
'Nat20.C41_digest_contract_partial' depends on axioms: [propext, Classical.choice, Quot.sound]
'Nat20.C41_later_null_list' depends on axioms: [propext, Classical.choice, Quot.sound]
'Nat20.C42_empty_null_key' depends on axioms: [propext, Quot.sound]
'Nat20.C42_hmac_partial' depends on axioms: [propext, Classical.choice, Quot.sound]
'Nat20.C43_hmac_contract_partial' depends on axioms: [propext, Classical.choice, Quot.sound]
'Nat20.C44_expand_partial' depends on axioms: [propext, Classical.choice, Quot.sound]
'Nat20.C44_extract_partial' depends on axioms: [propext, Classical.choice, Quot.sound]
'Nat20.C44_hkdf_partial' depends on axioms: [propext, Classical.choice, Quot.sound]
'Nat20.C44_null_salt' depends on axioms: [propext, Quot.sound]
'Nat20.C44_prefix' depends on axioms: [propext, Quot.sound]
'Nat20.C44_too_long' depends on axioms: [propext, Classical.choice, Quot.sound]
'Nat20.C45_expand_contract_partial' depends on axioms: [propext, Classical.choice, Quot.sound]
'Nat20.C45_extract_contract_partial' depends on axioms: [propext, Classical.choice, Quot.sound]
'Nat20.C45_hkdf_contract_partial' depends on axioms: [propext, Classical.choice, Quot.sound]
'Nat20.C46_digest' depends on axioms: [propext, Classical.choice, Quot.sound]
'Nat20.C46_expand' depends on axioms: [propext, Classical.choice, Quot.sound]
'Nat20.C46_extract' depends on axioms: [propext, Classical.choice, Quot.sound]
'Nat20.C46_hkdf' depends on axioms: [propext, Classical.choice, Quot.sound]
'Nat20.C46_hmac' depends on axioms: [propext, Classical.choice, Quot.sound]
'Nat20.C47_ecdsa_format' depends on axioms: [propext, Classical.choice, Quot.sound]
'Nat20.C48_curve_orders' depends on axioms: [propext, Quot.sound]
'Nat20.C48_deterministic' depends on axioms: [propext, Classical.choice, Quot.sound]
'Nat20.C48_nonce' depends on axioms: [propext, Classical.choice, Quot.sound]
'Nat20.C49_free' depends on axioms: [propext]
'Nat20.C49_kdf' depends on axioms: [propext, Classical.choice, Quot.sound]
'Nat20.C49_public_key' depends on axioms: [propext, Quot.sound]
'Nat20.C49_secret' depends on axioms: [propext, Quot.sound]
'Nat20.C49_sign' depends on axioms: [propext, Classical.choice, Quot.sound]
'Nat20.C49_sign_failure_size' depends on axioms: [propext, Quot.sound]
'Nat20.C50_constants' depends on axioms: [propext, Classical.choice, Quot.sound]
'Nat20.C50_distinct' depends on axioms: [propext]
'Nat20.C51_operational_flags' depends on axioms: [propext, Classical.choice, Quot.sound]
'Nat20.C52_expand_ignores_errors' depends on axioms: [propext, Classical.choice, Quot.sound]
'Nat20.C52_expand_last_block_partial' depends on axioms: [propext, Classical.choice, Quot.sound]
'Nat20.C52_extract_propagates' depends on axioms: [propext]
'Nat20.C52_hkdf_expand_result' depends on axioms: [propext]
'Nat20.C52_hkdf_propagates' depends on axioms: [propext]
'Nat20.C52_hmac_failing_call' depends on axioms: [propext, Quot.sound]
'Nat20.C52_hmac_propagates' depends on axioms: [propext, Quot.sound]
'Nat20.C53_bssl_open_close' does not depend on any axioms
'Nat20.C53_open_close' depends on axioms: [propext, Quot.sound]
'Nat20.C54_context_free' depends on axioms: [propext, Classical.choice, Quot.sound]
'Nat20.C54_render_once_render_everywhere' depends on axioms: [propext, Classical.choice, Quot.sound]
'Nat20.C55_rendering_stays_inside' depends on axioms: [propext, Classical.choice, Quot.sound]
'Nat20.C56_digest_later_null_list' depends on axioms: [propext, Classical.choice, Quot.sound]
'Nat20.C56_digest_partial' depends on axioms: [propext, Classical.choice, Quot.sound]
'Nat20.C56_digest_unchecked_allocation' depends on axioms: [propext, Quot.sound]
'Nat20.C56_expand' depends on axioms: [propext, Classical.choice, Quot.sound]
'Nat20.C56_extract' depends on axioms: [propext, Classical.choice, Quot.sound]
'Nat20.C56_hkdf' depends on axioms: [propext, Classical.choice, Quot.sound]
'Nat20.C56_hmac' depends on axioms: [propext, Classical.choice, Quot.sound]
'Nat20.C57_histories' depends on axioms: [propext, Classical.choice, Quot.sound]
'Nat20.C57_step' depends on axioms: [propext, Classical.choice, Quot.sound]
'Nat20.C58_kdf_deterministic' depends on axioms: [propext, Classical.choice, Quot.sound]
'Nat20.C59_ecdsa_der' depends on axioms: [propext, Classical.choice, Quot.sound]
'Nat20.C60_chain' depends on axioms: [propext, Classical.choice, Quot.sound]
'Nat20.C60_issue' depends on axioms: [propext, Classical.choice, Quot.sound]
'Nat20.C60_succeeds' depends on axioms: [propext, Classical.choice, Quot.sound]
'Nat20.C61_hex' depends on axioms: [propext, Classical.choice, Quot.sound]
'Nat20.C61_parse' depends on axioms: [propext, Classical.choice, Quot.sound]
'Nat20.C62_accepts_other_characters' depends on axioms: [propext, Classical.choice, Quot.sound]
'Nat20.C62_rejects_partial' depends on axioms: [propext, Classical.choice, Quot.sound]
'Nat20.C63_errors' depends on axioms: [propext, Quot.sound]
'Nat20.C63_every_file' depends on axioms: [propext, Classical.choice, Quot.sound]
'Nat20.C63_no_file' depends on axioms: [propext, Quot.sound]
'Nat20.C63_vectors' depends on axioms: [propext, Quot.sound]
'Nat20.C64_incomplete_accepted' depends on axioms: [propext, Quot.sound]
'Nat20.C64_no_fields' depends on axioms: [propext, Quot.sound]
'Nat20.C64_nothing_lost_partial' depends on axioms: [propext, Classical.choice, Quot.sound]
'Nat20.C65_content' depends on axioms: [propext, Classical.choice, Quot.sound]
'Nat20.C65_hexdump' depends on axioms: [propext, Classical.choice, Quot.sound]
'Nat20.C66_name' depends on axioms: [propext, Classical.choice, Quot.sound]
'Nat20.C66_oid' depends on axioms: [propext, Classical.choice, Quot.sound]
'Nat20.C66_string' depends on axioms: [propext, Quot.sound]
'Nat20.C67_restart' depends on axioms: [propext, Classical.choice, Quot.sound]
'Nat20.C68_ec_from_cdi' depends on axioms: [propext, Classical.choice, Quot.sound]
'Nat20.C68_ec_partial' depends on axioms: [propext, Classical.choice, Quot.sound]
'Nat20.C68_ed25519_is_cdi' depends on axioms: [propext, Classical.choice, Quot.sound]
'Nat20.C68_long_secret' depends on axioms: [propext, Classical.choice, Quot.sound]
'Nat20.C68_partial' depends on axioms: [propext, Classical.choice, Quot.sound]
'Nat20.C68_zero_padding' depends on axioms: [propext, Classical.choice, Quot.sound]
'Nat20.C69_interleaving' depends on axioms: [propext, Classical.choice, Quot.sound]
'Nat20.C70_digest' depends on axioms: [propext, Classical.choice, Quot.sound]
'Nat20.C70_digest_all' depends on axioms: [propext, Classical.choice, Quot.sound]
'Nat20.C70_exact_right' depends on axioms: [propext, Quot.sound]
'Nat20.C70_expand_exact' depends on axioms: [propext, Classical.choice, Quot.sound]
'Nat20.C70_expand_in_place' depends on axioms: [propext, Classical.choice, Quot.sound]
'Nat20.C70_expand_in_place_wrong' depends on axioms: [propext, Classical.choice, Quot.sound]
'Nat20.C70_expand_partial' depends on axioms: [propext, Classical.choice, Quot.sound]
'Nat20.C70_extract' depends on axioms: [propext, Classical.choice, Quot.sound]
'Nat20.C70_hkdf_exact' depends on axioms: [propext, Classical.choice, Quot.sound]
'Nat20.C70_hkdf_partial' depends on axioms: [propext, Classical.choice, Quot.sound]
'Nat20.C70_hmac' depends on axioms: [propext, Classical.choice, Quot.sound]
'Nat20.C70_hmac_all' depends on axioms: [propext, Classical.choice, Quot.sound]
'Nat20.C70_one_block' depends on axioms: [propext, Classical.choice, Quot.sound]
'Nat20.C71_digest' depends on axioms: [propext, Classical.choice, Quot.sound]
'Nat20.C71_expand' depends on axioms: [propext, Classical.choice, Quot.sound]
'Nat20.C71_extract' depends on axioms: [propext, Classical.choice, Quot.sound]
'Nat20.C71_hkdf' depends on axioms: [propext, Classical.choice, Quot.sound]
'Nat20.C71_hmac' depends on axioms: [propext, Classical.choice, Quot.sound]
'Nat20.C72_digest' depends on axioms: [propext, Classical.choice, Quot.sound]
'Nat20.C72_expand' depends on axioms: [propext, Classical.choice, Quot.sound]
'Nat20.C72_extract' depends on axioms: [propext, Classical.choice, Quot.sound]
'Nat20.C72_hkdf' depends on axioms: [propext, Classical.choice, Quot.sound]
'Nat20.C72_hmac' depends on axioms: [propext, Classical.choice, Quot.sound]
'Nat20.C72_threads' depends on axioms: [propext, Classical.choice, Quot.sound]
'Nat20.C72_variables' depends on axioms: [propext, Classical.choice, Quot.sound]
'Nat20.C73_alone' depends on axioms: [propext, Classical.choice, Quot.sound]
'Nat20.C73_any_schedule' depends on axioms: [propext, Classical.choice, Quot.sound]
'Nat20.C73_digest' depends on axioms: [propext, Classical.choice, Quot.sound]
'Nat20.C73_footprint' depends on axioms: [propext, Quot.sound]
'Nat20.C73_hkdf' depends on axioms: [propext, Classical.choice, Quot.sound]
'Nat20.C73_output' depends on axioms: [propext, Classical.choice, Quot.sound]
'Nat20.C73_shared_output' depends on axioms: [propext, Classical.choice, Quot.sound]
'Nat20.C74_reply' depends on axioms: [propext, Quot.sound]
'Nat20.C74_trace' depends on axioms: [propext, Quot.sound]
'Nat20.C75_certificate' depends on axioms: [propext, Classical.choice, Quot.sound]
'Nat20.C75_footprint' depends on axioms: [propext, Classical.choice, Quot.sound]
'Nat20.C75_init' does not depend on any axioms
'Nat20.C75_like_copies' depends on axioms: [propext, Classical.choice, Quot.sound]
'Nat20.C75_memory' depends on axioms: [propext, Classical.choice, Quot.sound]
'Nat20.C75_new_stream' depends on axioms: [propext, Classical.choice, Quot.sound]
'Nat20.C75_null_buffer' depends on axioms: [propext, Classical.choice, Quot.sound]
'Nat20.C75_overlap_undefined' depends on axioms: [propext, Quot.sound]
'Nat20.C75_prepends' depends on axioms: [propext, Classical.choice, Quot.sound]
'Nat20.C75_sizing' depends on axioms: [propext, Classical.choice, Quot.sound]
'Nat20.C75_too_small' depends on axioms: [propext, Classical.choice, Quot.sound]
'Nat20.C76_any_schedule' depends on axioms: [propext, Classical.choice, Quot.sound]
'Nat20.C76_render' depends on axioms: [propext, Classical.choice, Quot.sound]
'Nat20.C77_basic_constraints' depends on axioms: [propext, Classical.choice, Quot.sound]
'Nat20.C77_certificate' depends on axioms: [propext, Classical.choice, Quot.sound]
'Nat20.C77_dice' depends on axioms: [propext, Classical.choice, Quot.sound]
'Nat20.C77_fits' depends on axioms: [propext, Classical.choice, Quot.sound]
'Nat20.C77_key_usage' depends on axioms: [propext, Classical.choice, Quot.sound]
'Nat20.C77_signature' depends on axioms: [propext, Classical.choice, Quot.sound]
'Nat20.C77_tbs' depends on axioms: [propext, Classical.choice, Quot.sound]
'Nat20.C78_calls' depends on axioms: [propext, Classical.choice, Quot.sound]
'Nat20.C78_histories' depends on axioms: [propext, Classical.choice, Quot.sound]
'Nat20.C78_legal_calls' depends on axioms: [propext, Classical.choice, Quot.sound]
'Nat20.C78_no_leak' depends on axioms: [propext, Classical.choice, Quot.sound]
'Nat20.C79_chain' depends on axioms: [propext, Classical.choice, Quot.sound]
'Nat20.C79_exists' depends on axioms: [propext, Classical.choice, Quot.sound]
'Nat20.C79_leaf' depends on axioms: [propext, Quot.sound]
'Nat20.C80_certificates' depends on axioms: [propext, Classical.choice, Quot.sound]
'Nat20.C80_numbers' depends on axioms: [propext, Classical.choice, Quot.sound]
'Nat20.C81_keys' depends on axioms: [propext, Classical.choice, Quot.sound]
'Nat20.C81_one_after_the_other' depends on axioms: [propext, Classical.choice, Quot.sound]
'Nat20.C81_undefined' depends on axioms: [propext, Classical.choice, Quot.sound]
'Nat20.C82_calls' depends on axioms: [propext, Classical.choice, Quot.sound]
'Nat20.C82_certificate' depends on axioms: [propext, Classical.choice, Quot.sound]
'Nat20.C82_digest' depends on axioms: [propext, Classical.choice, Quot.sound]
'Nat20.C82_hkdf' depends on axioms: [propext, Classical.choice, Quot.sound]
'Nat20.C82_once' depends on axioms: [propext, Classical.choice, Quot.sound]
'Nat20.C82_rendering' depends on axioms: [propext, Classical.choice, Quot.sound]
'Nat20.C86_call' depends on axioms: [propext, Quot.sound]
'Nat20.C86_effect' depends on axioms: [propext, Quot.sound]
'Nat20.C86_history' depends on axioms: [propext, Quot.sound]
'Nat20.C86_kept' depends on axioms: [propext, Quot.sound]
'Nat20.C86_safe' depends on axioms: [propext, Classical.choice, Quot.sound]
'Nat20.C86_threads' depends on axioms: [propext, Classical.choice, Quot.sound]
'Nat20.C86_threads_undefined' depends on axioms: [propext, Classical.choice, Quot.sound]
'Nat20.C87_calls_partial' depends on axioms: [propext, Classical.choice, Quot.sound]
'Nat20.C87_enough' depends on axioms: [propext, Classical.choice, Quot.sound]
'Nat20.C87_exception' depends on axioms: [propext, Quot.sound]
'Nat20.C87_histories_partial' depends on axioms: [propext, Classical.choice, Quot.sound]
'Nat20.C87_leak' depends on axioms: [propext, Quot.sound]
'Nat20.C87_legal_calls_partial' depends on axioms: [propext, Classical.choice, Quot.sound]
'Nat20.C88_alone' depends on axioms: [propext, Classical.choice, Quot.sound]
'Nat20.C88_calls' depends on axioms: [propext, Classical.choice, Quot.sound]
'Nat20.C88_rendering' depends on axioms: [propext, Classical.choice, Quot.sound]
'Nat20.C88_result' depends on axioms: [propext, Classical.choice, Quot.sound]
'Nat20.C88_wait_free' depends on axioms: [propext, Classical.choice, Quot.sound]
'Nat20.C89_no_race' depends on axioms: [propext, Classical.choice, Quot.sound]
'Nat20.C89_weak_memory' depends on axioms: [propext, Classical.choice, Quot.sound]
'Nat20.C90_any_memory' depends on axioms: [propext, Classical.choice, Quot.sound]
'Nat20.C90_calls' depends on axioms: [propext, Classical.choice, Quot.sound]
'Nat20.C90_defined' depends on axioms: [propext, Classical.choice, Quot.sound]
'Nat20.C90_results' depends on axioms: [propext, Classical.choice, Quot.sound]
'Nat20.C91_certificate_partial' depends on axioms: [propext, Classical.choice, Quot.sound]
'Nat20.C91_extension_partial' depends on axioms: [propext, Classical.choice, Quot.sound]
'Nat20.C91_hash_algorithm' depends on axioms: [propext, Classical.choice, Quot.sound]
'Nat20.C91_signed_partial' depends on axioms: [propext, Classical.choice, Quot.sound]
'Nat20.C92_big_endian' depends on axioms: [propext, Classical.choice, Quot.sound]
'Nat20.C92_data' depends on axioms: [propext, Quot.sound]
'Nat20.C92_data_overflow' depends on axioms: [propext, Quot.sound]
'Nat20.C92_expand' depends on axioms: [propext, Classical.choice, Quot.sound]
'Nat20.C92_little_endian' depends on axioms: [propext, Quot.sound]
'Nat20.C92_little_endian_partial' depends on axioms: [propext, Classical.choice, Quot.sound]
'Nat20.C92_prepend' depends on axioms: [propext, Quot.sound]
'Nat20.C93_any_time_partial' depends on axioms: [propext, Classical.choice, Quot.sound]
'Nat20.C93_before_2050' depends on axioms: [propext, Classical.choice, Quot.sound]
'Nat20.C93_default_start' depends on axioms: [propext, Classical.choice, Quot.sound]
'Nat20.C93_no_tbs' depends on axioms: [propext, Classical.choice, Quot.sound]
'Nat20.C93_profile_partial' depends on axioms: [propext, Classical.choice, Quot.sound]
'Nat20.C94_certificate' depends on axioms: [propext, Classical.choice, Quot.sound]
'Nat20.C94_growing' depends on axioms: [propext, Quot.sound]
'Nat20.C94_header_with_content' depends on axioms: [propext, Classical.choice, Quot.sound]
'Nat20.C94_twice' depends on axioms: [propext, Classical.choice, Quot.sound]
'Nat20.C94_without_memory' depends on axioms: [propext, Classical.choice, Quot.sound]
'Nat20.Sized.C83_asn1' depends on axioms: [propext, Classical.choice, Quot.sound]
'Nat20.Sized.C83_bitstring_partial' depends on axioms: [propext, Classical.choice, Quot.sound]
'Nat20.Sized.C83_cbor' depends on axioms: [propext, Classical.choice, Quot.sound]
'Nat20.Sized.C83_certificate_partial' depends on axioms: [propext, Classical.choice, Quot.sound]
'Nat20.Sized.C83_contents' depends on axioms: [propext, Classical.choice, Quot.sound]
'Nat20.Sized.C83_dice' depends on axioms: [propext, Classical.choice, Quot.sound]
'Nat20.Sized.C83_stream' depends on axioms: [propext, Classical.choice, Quot.sound]
'Nat20.Sized.C83_then' depends on axioms: [propext]
'Nat20.Sized.C83_wraps' depends on axioms: [propext, Classical.choice, Quot.sound]
'Nat20.Sized.C83_write' depends on axioms: [propext, Classical.choice, Quot.sound]
'Nat20.Sized.C83_x509' depends on axioms: [propext, Classical.choice, Quot.sound]
'Nat20.Sized.C84_context' depends on axioms: [propext, Classical.choice, Quot.sound]
'Nat20.Sized.C84_members' depends on axioms: [propext, Quot.sound]
'Nat20.Sized.C84_no_context' depends on axioms: [propext, Quot.sound]
'Nat20.Sized.C84_sha2' depends on axioms: [propext, Classical.choice, Quot.sound]
'Nat20.Sized.C84_states' depends on axioms: [propext, Classical.choice, Quot.sound]
'Nat20.Sized.C85_call' depends on axioms: [propext, Quot.sound]
'Nat20.Sized.C85_history' depends on axioms: [propext, Quot.sound]
'Nat20.filePairs_unique' depends on axioms: [propext, Quot.sound]
'Nat20.prog_alone' depends on axioms: [propext, Quot.sound]
'Nat20.sigUnwrap_ok' depends on axioms: [propext, Classical.choice, Quot.sound]
