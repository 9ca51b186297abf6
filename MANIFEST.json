{"claims": [
 {"property": "C01", "status": "proved", "theorems": ["Spdm.c01_writer_call", "Spdm.c01_writer_history"], "note": ""},
 {"property": "C02", "status": "proved", "theorems": ["Spdm.c02_integers_round_trip"], "note": ""},
 {"property": "C03", "status": "proved", "theorems": ["Spdm.c03_bit_stream"], "note": ""},
 {"property": "C04", "status": "proved", "theorems": ["Spdm.c04_reader_total"], "note": ""},
 {"property": "C05", "status": "proved", "theorems": ["Spdm.c05_transcript_log"], "note": ""},
 {"property": "C06", "status": "proved", "theorems": ["Spdm.c06_parse_header", "Spdm.c06_written_message_recognised"], "note": ""},
 {"property": "C07", "status": "partial", "theorems": ["Spdm.c07_two_byte_buffer_panics", "Spdm.c07_no_panic_partial"], "note": "The stated property is false of the code: c07_two_byte_buffer_panics is the negation; c07_no_panic_partial covers every longer buffer."},
 {"property": "C08", "status": "proved", "theorems": ["Spdm.c08_version_roundtrip", "Spdm.c08_too_many_entries", "Spdm.c08_too_many_entries_code"], "note": ""},
 {"property": "C09", "status": "proved", "theorems": ["Spdm.c09_capabilities_roundtrip", "Spdm.c09_undefined_flags_rejected", "Spdm.c09_accepted_flags_defined"], "note": ""},
 {"property": "C10", "status": "proved", "theorems": ["Spdm.c10_negotiate_algorithms_roundtrip"], "note": ""},
 {"property": "C11", "status": "proved", "theorems": ["Spdm.c11_algorithms_roundtrip"], "note": ""},
 {"property": "C12", "status": "proved", "theorems": ["Spdm.c12_parsed_algorithms_single_selection"], "note": ""},
 {"property": "C13", "status": "proved", "theorems": ["Spdm.c13_digests_roundtrip"], "note": ""},
 {"property": "C14", "status": "proved", "theorems": ["Spdm.c14_certificate_roundtrip", "Spdm.c14_oversized_portion_rejected", "Spdm.c14_certificate_bounded"], "note": ""},
 {"property": "C15", "status": "proved", "theorems": ["Spdm.c15_chain_roundtrip", "Spdm.c15_oversized_chain_refused"], "note": ""},
 {"property": "C16", "status": "proved", "theorems": ["Spdm.c16_chain_parse_lossless"], "note": ""},
 {"property": "C17", "status": "proved", "theorems": ["Spdm.c17_challenge_roundtrip", "Spdm.c17_undefined_type_rejected"], "note": ""},
 {"property": "C18", "status": "partial", "theorems": ["Spdm.c18_challenge_auth_roundtrip_partial", "Spdm.c18_reader_inverts_layout", "Spdm.c18_mutual_auth_lost"], "note": "False of the code when mutual authentication is requested (c18_mutual_auth_lost); proved without it, and the reader inverts the documented layout with it."},
 {"property": "C19", "status": "proved", "theorems": ["Spdm.c19_opaque_roundtrip"], "note": ""},
 {"property": "C20", "status": "partial", "theorems": ["Spdm.c20_error_roundtrip_partial", "Spdm.c20_vendor_opaque_lost"], "note": "False of the code for vendor-defined errors with opaque data (c20_vendor_opaque_lost); proved for every other ERROR."},
 {"property": "C21", "status": "proved", "theorems": ["Spdm.c21_get_measurements_roundtrip"], "note": ""},
 {"property": "C22", "status": "partial", "theorems": ["Spdm.c22_measurements_roundtrip_partial", "Spdm.c22_maximal_blocks_rejected", "Spdm.c22_unsigned_slot_lost"], "note": "False of the code for maximal block sets, and for a slot without signature (negations proved); proved for the rest."},
 {"property": "C23", "status": "proved", "theorems": ["Spdm.c23_reserved_bytes_zero", "Spdm.c23_challenge_auth_opaque", "Spdm.c23_measurements_opaque", "Spdm.c23_get_measurements_bits", "Spdm.c23_chain_reserved", "Spdm.c23_challenge_auth_bits_ignored"], "note": ""},
 {"property": "C24", "status": "partial", "theorems": ["Spdm.c24_no_panic_partial", "Spdm.c24_no_panic_large_arrays_partial", "Spdm.c24_challenge_auth_panics", "Spdm.c24_opaque_count_panics", "Spdm.c24_block_count_panics", "Spdm.c24_chain_tag_panics"], "note": "False of the code: panic witnesses proved; c24_no_panic_partial covers the other parsers and c24_no_panic_large_arrays_partial the configurations with arrays of 255 entries."},
 {"property": "C25", "status": "proved", "theorems": ["Spdm.c25_truncation", "Spdm.c25_written_messages", "Spdm.c25_chain_truncation"], "note": ""},
 {"property": "C26", "status": "partial", "theorems": ["Spdm.c26_unambiguous_partial", "Spdm.c26_ambiguous_mutual_auth", "Spdm.c26_ambiguous_unsigned_slot"], "note": "False of the code for the messages of C18/C22 (witnesses proved); proved for the rest."},
 {"property": "C27", "status": "proved", "theorems": ["Spdm.c27_highest_common", "Spdm.c27_no_common", "Spdm.c27_common_accepted"], "note": ""},
 {"property": "C28", "status": "proved", "theorems": ["Spdm.c28_selects_offered", "Spdm.c28_nonempty_offer_answered"], "note": ""},
 {"property": "C29", "status": "partial", "theorems": ["Spdm.c29_nonempty_offer_partial", "Spdm.c29_empty_offer_aborts", "Spdm.c29_witness"], "note": "The stated property is false of the code (negations proved for the whole endpoint); the non-empty case is c29_nonempty_offer_partial."},
 {"property": "C30", "status": "proved", "theorems": ["Spdm.c30_selected_offered", "Spdm.c30_agreed_offered", "Spdm.c30_check_alone_insufficient"], "note": ""},
 {"property": "C31", "status": "proved", "theorems": ["Spdm.c31_selection_accepted", "Spdm.c31_duplicate_kinds_rejected"], "note": ""},
 {"property": "C32", "status": "proved", "theorems": ["Spdm.c32_protocol_order", "Spdm.c32_out_of_order_refused", "Spdm.c32_accepted_allowed"], "note": ""},
 {"property": "C33", "status": "proved", "theorems": ["Spdm.c33_get_version_restarts", "Spdm.c33_get_version_state"], "note": ""},
 {"property": "C34", "status": "proved", "theorems": ["Spdm.c34_errors_uniform", "Spdm.c34_errors_final", "Spdm.c34_reset_restarts"], "note": ""},
 {"property": "C35", "status": "proved", "theorems": ["Spdm.c35_transcript_exact"], "note": ""},
 {"property": "C36", "status": "proved", "theorems": ["Spdm.c36_signature_covers_transcript", "Spdm.c36_only_challenge_signs", "Spdm.c36_every_signature"], "note": ""},
 {"property": "C37", "status": "proved", "theorems": ["Spdm.c37_certificate_of_slot", "Spdm.c37_unknown_slot_refused", "Spdm.c37_certificate_served"], "note": ""},
 {"property": "C38", "status": "partial", "theorems": ["Spdm.c38_offset_length_ignored", "Spdm.c38_length_exceeded", "Spdm.c38_whole_chain_partial"], "note": "The stated property is false of the code (negation proved); proved: the portion sent is exactly the whole chain (so offset 0 with a large enough length is honoured)."},
 {"property": "C39", "status": "proved", "theorems": ["Spdm.c39_digests_of_slots", "Spdm.c39_digests_served"], "note": ""},
 {"property": "C40", "status": "proved", "theorems": ["Spdm.c40_unavailable_slot_refused", "Spdm.c40_unavailable_slot_error"], "note": ""},
 {"property": "C41", "status": "proved", "theorems": ["Spdm.c41_completion", "Spdm.c41_history", "Spdm.c41_complete_is_final"], "note": ""},
 {"property": "C42", "status": "proved", "theorems": ["Spdm.c42_authenticated", "Spdm.c42_fresh"], "note": ""},
 {"property": "C43", "status": "proved", "theorems": ["Spdm.c43_failure_final", "Spdm.c43_never_completes"], "note": ""},
 {"property": "C44", "status": "proved", "theorems": ["Spdm.c44_transcript_exact"], "note": ""},
 {"property": "C45", "status": "proved", "theorems": ["Spdm.c45_gates", "Spdm.c45_requests"], "note": ""},
 {"property": "C46", "status": "partial", "theorems": ["Spdm.c46_other_slot_accepted", "Spdm.c46_certificate_slot_partial"], "note": "The stated property is false of the code (negation proved)."},
 {"property": "C47", "status": "partial", "theorems": ["Spdm.c47_slot_count_accepted", "Spdm.c47_challenge_auth_slots_partial", "Spdm.c47_measurements_slots_partial", "Spdm.c47_slot_eight_aborts"], "note": "The stated property is false of the code (negation proved); c47 partial: accepted slot numbers are at most NUM_SLOTS."},
 {"property": "C48", "status": "proved", "theorems": ["Spdm.c48_transcripts_agree"], "note": ""},
 {"property": "C49", "status": "proved", "theorems": ["Spdm.c49_honest_handshake"], "note": ""},
 {"property": "C50", "status": "proved", "theorems": ["Spdm.c50_tampering_detected"], "note": ""},
 {"property": "C51", "status": "proved", "theorems": ["Spdm.c51_der_of_raw", "Spdm.c51_der_unambiguous", "Spdm.c51_der_canonical", "Spdm.c51_reserved_buffer_too_small", "Spdm.c51_reserved_buffer_tight"], "note": ""},
 {"property": "C52", "status": "partial", "theorems": ["Spdm.c52_zero_half_aborts", "Spdm.c52_peer_aborts_requester", "Spdm.c52_nonzero_halves_partial"], "note": "The stated property is false of the code (negation proved); total for signatures with non-zero halves."},
 {"property": "C53", "status": "proved", "theorems": ["Spdm.c53_outcome", "Spdm.c53_accepts_valid", "Spdm.c53_constants"], "note": ""},
 {"property": "C54", "status": "proved", "theorems": ["Spdm.c54_capabilities", "Spdm.c54_algorithms"], "note": ""},
 {"property": "C55", "status": "proved", "theorems": ["Spdm.c55_digest_size", "Spdm.c55_signature_size"], "note": ""},
 {"property": "C56", "status": "proved", "theorems": ["Spdm.c56_codes_distinct", "Spdm.c56_code_written", "Spdm.c56_code_parsed", "Spdm.c56_defined_accepted", "Spdm.c56_undefined_rejected"], "note": ""},
 {"property": "C57", "status": "partial", "theorems": ["Spdm.c57_capabilities_spliced", "Spdm.c57_agreement_partial"], "note": "The stated property is false of the code (negation proved: c57_capabilities_spliced); proved for conversations without trailing bytes."},
 {"property": "C58", "status": "partial", "theorems": ["Spdm.c58_no_abort_partial", "Spdm.c58_short_request_aborts", "Spdm.c58_unusable_hash_aborts", "Spdm.c58_large_signature_aborts", "Spdm.c58_wrong_signature_length_aborts"], "note": "The stated property is false of the code (negations proved for every history); c58_no_abort_partial covers every request outside the listed cases."},
 {"property": "C59", "status": "partial", "theorems": ["Spdm.c59_no_abort_partial", "Spdm.c59_built_no_abort_partial", "Spdm.c59_next_no_abort", "Spdm.c59_short_response_aborts", "Spdm.c59_unsolicited_capabilities_aborts", "Spdm.c59_unsolicited_algorithms_aborts", "Spdm.c59_completed_aborts"], "note": "The stated property is false of the code (negations proved for every history); c59_no_abort_partial and, for accepted configurations, c59_built_no_abort_partial cover every response outside the listed cases; next_request is covered completely."},
 {"property": "C60", "status": "partial", "theorems": ["Spdm.c60_requester_phases", "Spdm.c60_requester_stubs_unused", "Spdm.c60_responder_stubs_unused_partial", "Spdm.c60_responder_stub_called"], "note": "Proved for the requester and for a responder whose slots are all empty; c60_responder_stub_called shows that a filled slot makes GET_DIGESTS abort in the stub."},
 {"property": "C61", "status": "partial", "theorems": ["Spdm.c61_asked_partial", "Spdm.c61_completes_without_challenge", "Spdm.c61_algorithms_after_failed_request"], "note": "Proved for CAPABILITIES and, weaker, for ALGORITHMS; false of the code for the other responses (c61_completes_without_challenge, c61_algorithms_after_failed_request)."},
 {"property": "C62", "status": "proved", "theorems": ["Spdm.c62_failed_request_retry", "Spdm.c62_failed_request_invisible"], "note": ""},
 {"property": "C63", "status": "partial", "theorems": ["Spdm.c63_get_version_again_partial", "Spdm.c63_recorded_twice", "Spdm.c63_retransmission_breaks_authentication"], "note": "True of GET_VERSION only; every other request is recorded twice (c63_recorded_twice) and authentication then fails (c63_retransmission_breaks_authentication)."},
 {"property": "C64", "status": "proved", "theorems": ["Spdm.c64_unexpected_refused"], "note": ""},
 {"property": "C65", "status": "proved", "theorems": ["Spdm.c65_requester_name", "Spdm.c65_responder_name"], "note": ""},
 {"property": "C66", "status": "proved", "theorems": ["Spdm.c66_responder_stale_buffer", "Spdm.c66_requester_stale_buffer"], "note": ""},
 {"property": "C67", "status": "proved", "theorems": ["Spdm.c67_size", "Spdm.c67_view", "Spdm.c67_bytes", "Spdm.c67_eq", "Spdm.c67_read"], "note": ""},
 {"property": "C68", "status": "proved", "theorems": ["Spdm.c68_builder", "Spdm.c68_append", "Spdm.c68_count_overflows", "Spdm.c68_write", "Spdm.c68_eq", "Spdm.c68_parse"], "note": ""},
 {"property": "C69", "status": "partial", "theorems": ["Spdm.c69_digest_not_compared", "Spdm.c69_honest_messages_agree_partial"], "note": "False of the code (c69_digest_not_compared); c69_honest_messages_agree_partial: an honest responder's messages do agree."},
 {"property": "C70", "status": "partial", "theorems": ["Spdm.c70_root_hash_unchecked", "Spdm.c70_configured_root_partial"], "note": "False of the code (c70_root_hash_unchecked); c70_configured_root_partial: the path is always verified to the configured root."},
 {"property": "C71", "status": "partial", "theorems": ["Spdm.c71_remainder_ignored", "Spdm.c71_honest_remainder_partial"], "note": "False of the code (c71_remainder_ignored); c71_honest_remainder_partial: an honest responder sends the whole chain."},
 {"property": "C72", "status": "partial", "theorems": ["Spdm.c72_unadvertised_served", "Spdm.c72_requester_asks_advertised_partial"], "note": "False of the responder (c72_unadvertised_served); c72_requester_asks_advertised_partial: true of the requester."},
 {"property": "C73", "status": "partial", "theorems": ["Spdm.c73_expired_accepted", "Spdm.c73_fixed_time_partial"], "note": "False of the code (c73_expired_accepted); c73_fixed_time_partial: behaviour depends on validity at the fixed time only."},
 {"property": "C74", "status": "proved", "theorems": ["Spdm.c74_no_replay"], "note": ""},
 {"property": "C75", "status": "proved", "theorems": ["Spdm.c75_written_iff_fits"], "note": ""},
 {"property": "C76", "status": "proved", "theorems": ["Spdm.c76_refused_larger_buffer", "Spdm.c76_aborts_larger_buffer", "Spdm.c76_refused_smaller_buffer", "Spdm.c76_responder_larger_buffer", "Spdm.c76_requester_larger_buffer"], "note": ""},
 {"property": "C77", "status": "proved", "theorems": ["Spdm.c77_requests", "Spdm.c77_responses"], "note": ""},
 {"property": "C78", "status": "proved", "theorems": ["Spdm.c78_accepts_iff", "Spdm.c78_one_meaning"], "note": ""},
 {"property": "C79", "status": "partial", "theorems": ["Spdm.c79_reserialised_partial", "Spdm.c79_canonical_layout_partial", "Spdm.c79_not_reserialised"], "note": "Proved for nine message types (c79_reserialised_partial) and, for the others, for the canonical layout (c79_canonical_layout_partial); false in general for six types (c79_not_reserialised)."},
 {"property": "C80", "status": "proved", "theorems": ["Spdm.c80_answered_iff"], "note": ""},
 {"property": "C81", "status": "proved", "theorems": ["Spdm.c81_accepted_iff", "Spdm.c81_built_accepted_iff"], "note": ""},
 {"property": "C82", "status": "proved", "theorems": ["Spdm.c82_aborts_iff", "Spdm.c82_outcome"], "note": ""},
 {"property": "C83", "status": "proved", "theorems": ["Spdm.c83_chain_aborts_iff", "Spdm.c83_parser_aborts_iff"], "note": ""},
 {"property": "C84", "status": "proved", "theorems": ["Spdm.c84_aborts_iff", "Spdm.c84_outcome", "Spdm.c84_built_aborts_iff"], "note": ""},
 {"property": "C85", "status": "proved", "theorems": ["Spdm.c85_outcome", "Spdm.c85_written_iff", "Spdm.c85_writable_no_abort", "Spdm.c85_layout", "Spdm.c85_chain"], "note": ""},
 {"property": "C86", "status": "proved", "theorems": ["Spdm.c86_unexpected", "Spdm.c86_malformed", "Spdm.c86_slot", "Spdm.c86_resources", "Spdm.c86_unexpected_value", "Spdm.c86_sent", "Spdm.c86_sent_unexpected", "Spdm.c86_got_is_not_the_code"], "note": ""},
 {"property": "C87", "status": "partial", "theorems": ["Spdm.c87_call_partial", "Spdm.c87_empty_offer_differs", "Spdm.c87_history_partial", "Spdm.c87_release_history_partial", "Spdm.c87_witness", "Spdm.c87_requester_partial", "Spdm.c87_slot_eight_differs"], "note": "false of the code in two cases, proved as `c87_empty_offer_differs` and `c87_slot_eight_differs`; equality is proved for every other call (`c87_call_partial`, `c87_requester_partial`) and history (`c87_history_partial`, `c87_release_history_partial`)"},
 {"property": "C88", "status": "proved", "theorems": ["Spdm.c88_reason", "Spdm.c88_iff", "Spdm.c88_built_iff"], "note": ""},
 {"property": "C89", "status": "proved", "theorems": ["Spdm.c89_accepts_valid", "Spdm.c89_file", "Spdm.c89_one_meaning"], "note": ""},
 {"property": "C90", "status": "partial", "theorems": ["Spdm.c90_usable", "Spdm.c90_requester", "Spdm.c90_unusable_selected", "Spdm.c90_digest_size_unchecked", "Spdm.c90_responder_partial", "Spdm.c90_built_peer_partial"], "note": "false of the responder (`c90_unusable_selected`) and of configurations with a small MAX_DIGEST_SIZE (`c90_digest_size_unchecked`); proved for the requester (`c90_requester`, MAX_DIGEST_SIZE at least 64) and for the responder when everything offered is usable (`c90_responder_partial`, `c90_built_peer_partial`)"},
 {"property": "C91", "status": "partial", "theorems": ["Spdm.c91_declarations_ignored", "Spdm.c91_not_enforced", "Spdm.c91_forced_partial", "Spdm.c91_built_offer_partial", "Spdm.c91_witness"], "note": "false of the code: the declarations have no effect (`c91_declarations_ignored`, `c91_not_enforced`, `c91_witness`); proved when every accepted offer forces the declared algorithms (`c91_forced_partial`, `c91_built_offer_partial`)"},
 {"property": "C92", "status": "proved", "theorems": ["Spdm.c92_supported", "Spdm.c92_pieces", "Spdm.c92_one_go", "Spdm.c92_endpoint_hash", "Spdm.c92_signer"], "note": ""},
 {"property": "C93", "status": "proved", "theorems": ["Spdm.c93_asym", "Spdm.c93_hash", "Spdm.c93_reqFlags", "Spdm.c93_rspFlags", "Spdm.c93_no_aliases", "Spdm.c93_same_capability", "Spdm.c93_constants"], "note": ""},
 {"property": "C94", "status": "partial", "theorems": ["Spdm.c94_num", "Spdm.c94_blocks", "Spdm.c94_bit_stream", "Spdm.c94_num_travels_partial", "Spdm.c94_blocks_travel_partial", "Spdm.c94_number_refused", "Spdm.c94_challenge"], "note": "false of the code for counts above MAX_MEASUREMENT_BLOCKS (`c94_number_refused`), and, from C22, for unsigned messages with a slot and blocks of maximal size; the rest is proved (`c94_num`, `c94_blocks`, `c94_bit_stream`, `c94_challenge`, `c94_num_travels_partial`, `c94_blocks_travel_partial`)"},
 {"property": "C95", "status": "partial", "theorems": ["Spdm.c95_any_time", "Spdm.c95_witness", "Spdm.c95_after_completion_partial"], "note": "false of the code (`c95_any_time`, `c95_witness`); proved for sessions begun after `handle_msg` returned `true` (`c95_after_completion_partial`)"},
 {"property": "C96", "status": "partial", "theorems": ["Spdm.c96_transcript_partial", "Spdm.c96_transcript_stale", "Spdm.c96_element", "Spdm.c96_element_content", "Spdm.c96_opaque", "Spdm.c96_stream_view", "Spdm.c96_stream_new", "Spdm.c96_stream_read", "Spdm.c96_stream"], "note": "false of the code for a transcript that has been cleared (`c96_transcript_stale`); proved for transcripts that have not (`c96_transcript_partial`), for opaque elements and lists (`c96_element`, `c96_element_content`, `c96_opaque`) and raw measurements (`c96_stream`, `c96_stream_view`, `c96_stream_new`)"},
 {"property": "C97", "status": "proved", "theorems": ["Spdm.c97_builds_interoperate", "Spdm.c97_room_needed"], "note": ""},
 {"property": "C98", "status": "proved", "theorems": ["Spdm.c98_slots_isolated", "Spdm.c98_one_slot"], "note": ""},
 {"property": "C99", "status": "partial", "theorems": ["Spdm.c99_asks_for_buffer_partial", "Spdm.c99_asks_for_nothing"], "note": "false for a buffer of 65536 bytes (c99_asks_for_nothing); proved for every smaller one, and exactly for those"},
 {"property": "C100", "status": "proved", "theorems": ["Spdm.c100_writer", "Spdm.c100_reads", "Spdm.c100_reader", "Spdm.c100_narrow", "Spdm.c100_transcript", "Spdm.c100_chain_written", "Spdm.c100_chain_sum_overflows", "Spdm.c100_chain_parsed", "Spdm.c100_measurements", "Spdm.c100_opaque", "Spdm.c100_extended", "Spdm.c100_signature"], "note": ""},
 {"property": "C101", "status": "partial", "theorems": ["Spdm.c101_challenge_answered_partial", "Spdm.c101_one_signature_one_session_partial", "Spdm.c101_one_signature_two_sessions"], "note": "false of the code (c101_one_signature_two_sessions: one signature, two requesters with different nonces, equal transcripts); proved for conversations in which no message has bytes behind its end"},
 {"property": "C102", "status": "proved", "theorems": ["Spdm.c102_requester", "Spdm.c102_responder", "Spdm.c102_responder_determined"], "note": ""},
 {"property": "C103", "status": "proved", "theorems": ["Spdm.c103_requester", "Spdm.c103_requester_slots", "Spdm.c103_responder", "Spdm.c103_requester_shows", "Spdm.c103_responder_shows"], "note": ""},
 {"property": "C104", "status": "proved", "theorems": ["Spdm.c104_ask_certificate", "Spdm.c104_certificate", "Spdm.c104_digests", "Spdm.c104_transcript", "Spdm.c104_held", "Spdm.c104_conversions", "Spdm.c104_challenge", "Spdm.c104_authenticates", "Spdm.c104_restart", "Spdm.c104_rsp_capabilities", "Spdm.c104_rsp_conversions"], "note": ""},
 {"property": "C105", "status": "proved", "theorems": ["Spdm.c105_survives_iff", "Spdm.c105_distinct", "Spdm.c105_chain_survives_iff", "Spdm.c105_well_formed"], "note": ""},
 {"property": "C106", "status": "proved", "theorems": ["Spdm.c106_reason", "Spdm.c106_same_handle", "Spdm.c106_same_next", "Spdm.c106_iff", "Spdm.c106_built", "Spdm.c106_never", "Spdm.c106_next", "Spdm.c106_built_next"], "note": ""},
 {"property": "C107", "status": "proved", "theorems": ["Spdm.c107_same", "Spdm.c107_sent", "Spdm.c107_reason", "Spdm.c107_kinds", "Spdm.c107_malformed", "Spdm.c107_never", "Spdm.c107_built"], "note": ""},
 {"property": "C108", "status": "proved", "theorems": ["Spdm.c108_getVersion", "Spdm.c108_getDigests", "Spdm.c108_version", "Spdm.c108_getCapabilities", "Spdm.c108_capabilities", "Spdm.c108_negotiateAlgorithms", "Spdm.c108_algorithms", "Spdm.c108_digests", "Spdm.c108_getCertificate", "Spdm.c108_certificate", "Spdm.c108_challenge", "Spdm.c108_chain", "Spdm.c108_challengeAuth", "Spdm.c108_getMeasurements", "Spdm.c108_measurements", "Spdm.c108_error", "Spdm.c108_first_unique", "Spdm.c108_accepted_iff", "Spdm.c108_error_iff", "Spdm.c108_abort_iff", "Spdm.c108_same_algorithms", "Spdm.c108_same_challengeAuth", "Spdm.c108_same_measurements", "Spdm.c108_same_error"], "note": ""},
 {"property": "C109", "status": "proved", "theorems": ["Spdm.c109_requester", "Spdm.c109_trust_unseen", "Spdm.c109_verdict", "Spdm.c109_responder", "Spdm.c109_nothing_signed"], "note": ""},
 {"property": "C110", "status": "proved", "theorems": ["Spdm.c110_responder", "Spdm.c110_requester", "Spdm.c110_chain_size_announced"], "note": ""},
 {"property": "C111", "status": "partial", "theorems": ["Spdm.c111_watched_partial", "Spdm.c111_unedited_partial", "Spdm.c111_stale", "Spdm.c111_stale_wrong"], "note": "a configuration file named by SPDM_CONFIG is not watched by cargo: after an edit the old constants are compiled in (c111_stale, c111_stale_wrong); proved for watched files and for files left alone since the first build"},
 {"property": "C112", "status": "partial", "theorems": ["Spdm.c112_requester_ends", "Spdm.c112_requester_history", "Spdm.c112_vca_only", "Spdm.c112_every_request_answered", "Spdm.c112_responder_bounded", "Spdm.c112_pair_completes_partial", "Spdm.c112_readme_pair_fails", "Spdm.c112_readme_never_authenticates"], "note": "the two loops complete if the message received is passed to handle_msg; with the README's responder loop as written (it passes the whole of req_buf) they do not: c112_readme_pair_fails, c112_readme_never_authenticates (for all inputs, under the assumptions of C50)"},
 {"property": "C113", "status": "proved", "theorems": ["Spdm.c113_negotiation_only", "Spdm.c113_default_config", "Spdm.c113_crypto_config"], "note": ""},
 {"property": "C114", "status": "proved", "theorems": ["Spdm.c114_signer", "Spdm.c114_recent"], "note": ""},
 {"property": "C115", "status": "partial", "theorems": ["Spdm.c115_one_bit", "Spdm.c115_keyless_peer", "Spdm.c115_completion_partial"], "note": "The stated property is false of the code (`c115_one_bit`, `c115_keyless_peer`, for every configuration with a signing algorithm); `c115_completion_partial` says exactly when completion is authentication."},
 {"property": "C116", "status": "proved", "theorems": ["Spdm.c116_one_clean_run"], "note": ""},
 {"property": "C117", "status": "partial", "theorems": ["Spdm.c117_asking_again_fails", "Spdm.c117_first_exchange_partial"], "note": "The stated property is false of the code (`c117_asking_again_fails`); `c117_first_exchange_partial` proves it for the first exchange."},
 {"property": "C118", "status": "proved", "theorems": ["Spdm.c118_serves_everybody"], "note": ""},
 {"property": "C119", "status": "proved", "theorems": ["Spdm.c119_same_settings"], "note": ""},
 {"property": "C120", "status": "proved", "theorems": ["Spdm.c120_one_responder"], "note": ""},
 {"property": "C121", "status": "proved", "theorems": ["Spdm.c121_signed_in_time", "Spdm.c121_one_session"], "note": ""},
 {"property": "C122", "status": "proved", "theorems": ["Spdm.c122_accepted_iff", "Spdm.c122_built_accepted_iff"], "note": ""},
 {"property": "C123", "status": "proved", "theorems": ["Spdm.c123_heard_iff", "Spdm.c123_same_bytes", "Spdm.c123_confused_iff"], "note": ""},
 {"property": "C124", "status": "proved", "theorems": ["Spdm.c124_outcome", "Spdm.c124_sent", "Spdm.c124_mask", "Spdm.c124_dead", "Spdm.c124_built"], "note": ""},
 {"property": "C125", "status": "proved", "theorems": ["Spdm.c125_negotiation_unprotected"], "note": ""},
 {"property": "C126", "status": "proved", "theorems": ["Spdm.c126_negotiation_protected", "Spdm.c126_exactness_needed", "Spdm.c126_single_offer_needed"], "note": ""},
 {"property": "C127", "status": "proved", "theorems": ["Spdm.c127_bit_errors_detected", "Spdm.c127_one_alteration_detected"], "note": ""},
 {"property": "C128", "status": "proved", "theorems": ["Spdm.c128_requests_no_responses", "Spdm.c128_responses_no_requests", "Spdm.c128_mirrored_requester", "Spdm.c128_mirrored_responder"], "note": ""},
 {"property": "C129", "status": "proved", "theorems": ["Spdm.c129_budget", "Spdm.c129_exhausted", "Spdm.c129_digests_exactly", "Spdm.c129_requests_exactly"], "note": ""}
]}
