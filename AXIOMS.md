# Axioms of the theorems of MANIFEST.json

Written by `tools/gen_axioms.py` from the output of `#print axioms`. All names are in the namespace `Verif.Props`.

## none (4)

C15_empty, C18_counterexample_overshoot, C18_counterexample_code, C101_set

## propext (12)

C07_encode_append, C09_counterexample, C15_ies, C16_counterexample, C16_counterexample_empty, C18_code_roundtrip_partial, C18_code_exact, C52_idempotent, C64_counterexample, C75_counterexample, C83_counterexample_ignored, C83_counterexample_hidden

## Quot.sound, propext (168)

C01_pack_empty, C03_ussd_counterexample, C03_ussd_counterexample_at, C03_empty, C04_decodeSigned_encode, C05_encode_error, C06_decode_safe, C10_without_ext, C11_total, C11_character, C11_without_ext, C12_unknown, C12_order, C13_invalid_digit, C13_bound, C14_bound, C15_ie_some, C15_ie_none, C17_accepts, C17_window, C18_codes, C18_floor_partial, C18_step_partial, C18_monotone, C18_decode_monotone, C18_floor_exact, C20_with_alphabet, C20_reserved, C20_int, C20_int_kept, C20_alphabet_of_group, C21_with_class, C21_unknown, C22_set_smsType, C22_set_smsType_invalid, C22_set_vp, C22_set_udh_some, C22_set_udh_none, C22_set_ud, C22_set_pid_dcs, C22_indicators, C26_counterexample, C27_counterexample, C30_counterexample, C32_encodes, C33_single, C33_empty, C34_counterexample, C36_single, C37_submit_deliver, C38_counterexample, C38_matching, C38_as, C39_counterexample, C42_counterexample, C44_wraps, C45_any_cut, C51_expired, C52_unchanged, C53_keys, C54_counterexample, C55_invalid_digit, C55_counterexample, C55_bound, C56_short, C57_number, C58_counterexample, C59_few, C60_total_not_exact, C61_counterexample, C62_decode_counterexample, C62_segment_counterexample, C63_user_data_shared, C63_counterexample, C65_counterexample_long, C66_counterexample, C67_counterexample, C68_counterexample, C69_alphabet, C69_class, C69_compressed, C69_errors_partial, C69_counterexample_reserved, C69_counterexample_class, C69_compression_ignored, C70_flags, C70_vpf, C70_type, C70_counterexample, C70_single, C72_counterexample_dcs, C72_counterexample_header, C72_counterexample_overrun, C72_counterexample_period, C72_counterexample_time, C72_counterexample_reports, C73_counterexample_header, C73_counterexample_address, C73_counterexample_period, C73_counterexample_septets, C74_counterexample, C76_last_writer, C76_fields, C76_new, C76_announced_partial, C76_counterexample, C77_counterexample, C78_counterexample, C79_octets, C81_counterexample, C83_exact, C83_standard_partial, C83_counterexample_kinds, C85_counterexample, C88_package, C88_command, C93_new_partial, C93_udl_false, C93_header_false, C93_pi_false, C93_dcs_false, C94_counterexample, C95_decode_counterexample, C95_encode_counterexample, C97_exact, C97_unique, C97_counterexample, C97_order, C98_refines, C99_counterexample, C100_counterexample, C101_relative_partial, C101_enhanced_relative_partial, C102_toa, C102_type_of_number, C102_numbering_plan, C102_set_number, C102_bit7_partial, C102_first_octet_partial, C102_first_octet_exact, C102_counterexample, C103_unambiguous, C103_traps, C104_counterexample, C106_false, C106_mixed, C107_ambiguous, C108_false, C109_repeat, C110_false, C111_empty, C112_skip, C115_pipes_false, C116_counterexample, C116_half, C117_escape_false, C118_pdumode_shared, C119_append, C119_messages, C119_error, C120_element, C121_handler, C122_fresh, C122_calls, C126_complete, C126_counterexample, C127_ways, C128_counterexample

## Classical.choice, Quot.sound, propext (410)

C01_pack_layout, C02_unpack_layout, C02_unpack_pack, C03_ussd_roundtrip_partial, C03_exact, C04_encode, C04_encode_error, C04_roundtrip, C04_decode, C04_decode_encode, C04_encodeSigned, C04_encodeSigned_error, C04_roundtripSigned, C04_decodeSigned, C05_encode, C05_roundtrip, C05_roundtrip_exact, C07_roundtrip, C07_encode_bmp, C07_encode_supplementary, C08_invalid_length, C08_success, C08_dangling, C09_roundtrip_partial, C09_exact, C10_succeeds, C10_output, C10_error, C11_strict, C11_strict_exact, C11_compositional, C11_options, C12_section, C12_complete, C12_functional, C13_numeric_roundtrip, C14_alphanumeric_roundtrip, C15_udh_roundtrip, C16_within_partial, C16_only_last_overruns_partial, C16_exact_partial, C16_accepts_exact, C16_reproduced_exact, C17_roundtrip, C17_calendar, C17_clock, C19_roundtrip, C20_int_fails, C23_submit_roundtrip, C24_deliver_roundtrip, C25_status_report_roundtrip, C26_command_roundtrip_partial, C26_exact, C27_deliver_report_roundtrip_partial, C27_submit_report_roundtrip_partial, C27_deliver_report_exact, C27_submit_report_exact, C28_no_panic, C28_sms_no_panic, C29_submit_truncated, C29_deliver_truncated, C30_submit_partial, C30_deliver_partial, C30_submit_exact, C30_deliver_exact, C31_offset, C31_field, C32_exact, C33_pieces, C33_multi, C34_boundaries_partial, C34_exact, C34_decode7_partial, C34_text_partial, C34_ucs2, C35_concat_partial, C35_too_many, C35_counterexample, C35_counterexample_template, C35_exact, C36_multi, C37_returns_partial, C37_exact, C37_counterexample, C37_counterexample_type, C38_text_partial, C38_octets, C38_utf16, C38_submit_partial, C38_no_escape, C38_exact, C38_replaced, C39_text_partial, C39_octets, C39_utf16, C39_submit_partial, C39_exact, C39_submit_exact, C40_default, C40_language, C40_fallback, C40_alphabet, C40_decodes, C41_chosen, C41_error_iff, C42_header_kept_partial, C42_header_replaced, C43_mr, C43_concat, C43_distinct, C44_distinct_partial, C44_values_partial, C44_read_partial, C44_read_quiet_partial, C45_rejoin, C46_exact, C46_errors, C46_no_ucs2, C47_complete_iff, C48_any_order, C48_repeated, C49_complete, C50_balance, C50_one_place, C50_rejected, C50_genuine, C50_duplicate, C50_errors, C51_once, C51_incomplete, C51_not_returned, C51_never, C51_timer, C51_restart, C52_closed, C53_alone, C53_isolated, C53_pipes, C54_supported_partial, C54_exact, C55_exact, C55_roundtrip_partial, C55_hex_partial, C56_no_smsc, C56_smsc, C56_safe, C56_hex, C56_hex_reject, C56_hex_safe, C58_minimal_partial, C58_encoded, C58_minimal_septets_octets, C58_malformed_partial, C59_once, C59_once_no_timeout, C59_always_exact, C59_limit, C59_messages, C59_texts_partial, C59_submit_partial, C59_as_encoded, C59_exact, C59_submit_exact, C60_count, C60_empty, C61_pipes_partial, C61_unrelated_partial, C61_removed, C62_decode_partial, C62_segment_partial, C62_segment_exact, C63_headers_partial, C64_calls_partial, C64_exact, C65_submit_partial, C65_invalid_number, C65_exact, C65_usage, C66_deliver_partial, C66_plain_partial, C66_exact, C66_plain_exact, C67_decode, C67_deliver_partial, C67_fed, C67_exact, C68_locking_partial, C68_shift, C68_decode_partial, C68_encoder_partial, C70_reserved_partial, C71_no_panic, C71_exact, C71_period, C71_rounding, C72_stable_partial, C72_settles_partial, C72_exact, C73_layout_partial, C73_exact_partial, C73_unique, C73_counterexample_command, C74_submit_partial, C74_deliver_partial, C74_status_report_partial, C74_command_partial, C74_deliver_report_partial, C74_submit_report_partial, C74_deliver_report_exact, C74_submit_report_exact, C74_command_exact, C75_results_partial, C75_no_panic_partial, C75_progress_partial, C75_exact, C75_after_first_use_partial, C76_build_exact, C76_submit_roundtrip_partial, C76_deliver_roundtrip_partial, C76_submit_exact, C76_deliver_exact, C76_status_exact, C77_command_exact, C77_deliver_report_exact, C77_submit_report_exact, C77_status_report_exact, C77_status_report_bare, C78_command_partial, C78_deliver_report_partial, C78_submit_report_partial, C78_status_report_exact, C78_accepted, C79_utf8, C80_mr, C80_mr_distinct, C80_concat, C80_distinct, C81_exact, C81_texts_partial, C82_exact, C82_idents, C82_texts_partial, C84_exact, C85_partial, C85_exact, C86_errors, C86_partial, C86_exact, C86_counterexample, C87_exact, C87_octets, C87_inverse, C88_exact, C88_page, C89_printed, C89_exact, C90_exact, C90_total, C91_exact, C91_unmarshal, C91_marshal, C91_utf8, C91_printable, C92_exact, C92_ok, C93_exact_partial, C93_again_partial, C93_smsc_partial, C94_segments_exact, C94_decoder_exact, C94_exact, C94_segments_partial, C95_reads_partial, C95_default_partial, C95_never_announced, C95_encode_exact, C96_lines, C96_exact, C96_usage, C97_plain_partial, C98_partially, C99_never_more, C99_encode, C100_named, C100_submit, C100_encoder, C100_same, C100_tpdus, C101_absolute, C101_seconds_partial, C101_seconds_exact, C101_hms_partial, C101_hms_wraps, C101_other_kinds, C101_float_partial, C101_counterexample, C102_names, C103_grammar, C103_refused, C103_submit, C103_counter, C103_deliver, C103_decode, C103_pdus, C103_any_message, C104_decode, C104_counter, C104_submit, C104_submit_exact, C104_pipeline, C104_deliver, C105_exact, C105_submit, C105_deliver, C105_command, C105_status, C105_deliver_report, C105_submit_report, C106_answers, C106_deliveries, C106_repeats_partial, C106_once, C107_injective, C107_prefix, C107_stream, C108_texts_partial, C108_separate_partial, C109_answers, C109_kept, C109_within, C109_chained, C109_reuse, C109_forgotten, C109_settled, C110_epochs, C110_messages, C110_texts_partial, C110_reuse, C110_paced_partial, C111_pack_layout, C111_pack_over, C111_pack_under, C111_same, C111_unpack_over, C111_unpack_under, C111_round, C111_octets, C111_ussd, C112_exact, C112_fatal, C113_exact, C114_size, C114_limit_partial, C114_tight, C114_encode, C114_counterexample, C115_returned, C115_handled, C115_fired, C115_given, C116_segment, C116_given, C116_ucs2, C116_longer_partial, C116_same_tables, C116_language_partial, C117_received, C117_septets, C117_settles, C117_exact, C118_unmarshal, C118_apart, C118_one_buffer, C118_decode, C118_pdumode, C118_modem, C119_cut, C119_each, C120_decode, C120_complete, C120_collect, C120_text, C121_idle, C123_numbers, C123_failure, C124_tables, C124_same, C124_unnamed, C125_answers, C125_whole_partial, C125_singly, C125_cut, C125_counterexample, C126_present, C126_decode, C126_returned_partial, C126_handled, C126_pending, C126_smsdeliver, C127_timers, C127_divided, C127_only, C127_apart, C128_agree_partial, C128_single, C129_alphabet, C129_decodes, C129_same_partial, C129_length, C129_counterexample
