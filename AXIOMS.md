# Axioms per theorem (`#print axioms`, generated by tools/gen_axioms.py)

## none

`C34_clear`, `C43_not_found_iff`, `C43_resource_error_iff`, `C49_get_var_fails`, `C51_flavorless_raises`, `C53_quiet_overrides`, `C53_spammy`, `C56_ack_of_one`, `C65_stop`, `C65_without_event_queue`, `C66_construction`, `C66_handling_off`, `C66_fallback`, `C102_client`

## propext

`C11_bounds_sharp`, `C16_index_error`, `C16_struct_error`, `C33_unsubscribe_skips`, `C34_subscribers`, `C36_handle_propagates`, `C36_handle_swallows_key_error`, `C36_key_error_example`, `C37_unhandled`, `C49_builder_stale`, `C57_extra_header_not_skipped`, `C58_acks_read_as_content`, `C68_odd_fixed_raises`, `C73_copy`, `C73_field`, `C74_field`, `C75_stray_brackets`, `C86_id`, `C99_self`, `C102_catching`, `C102_not_caught`, `C103_str_hosts`, `C114_skips`

## propext, Classical.choice, Quot.sound

`C01_float`, `C01_int_roundtrip`, `C01_int_out_of_range`, `C03_int_f64`, `C03_int_f32`, `C03_f64_value`, `C03_f32_bytes`, `C03_f32_value`, `C03_f32_rounding`, `C03_vector_bytes`, `C03_vector3_lengths`, `C04_width`, `C04_length`, `C04_vector_arity`, `C05_text`, `C05_data_field_gains_nul`, `C05_too_long`, `C06_uuid_roundtrip`, `C06_uuid_bytes`, `C06_uuid_string_shape`, `C06_uuid_string_length`, `C06_uuid_string_digits`, `C06_uuid_string_accept`, `C06_uuid_string_lenient`, `C06_uuid_field`, `C06_uuid_random`, `C07_uuid_xor`, `C08_reconstructed_w`, `C08_same_rotation`, `C08_wire`, `C08_rounded`, `C08_single`, `C10_zero_decode_total`, `C12_serialized_is_received`, `C12_default`, `C12_roundtrip`, `C13_zero_coded_and_acked`, `C14_only_template_content`, `C14_block_order`, `C14_instances_in_order`, `C16_default`, `C17_message_is_exact_parse`, `C17_truncated_yields_no_message`, `C20_ids_distinct`, `C22_count_nonneg`, `C23_parsed`, `C33_notified_in_order`, `C33_exactly_subscribers`, `C34_unsubscribe`, `C36_failing_handler`, `C36_exception_reaches_caller`, `C37_reaches_its_subscribers`, `C38_posts`, `C38_minus_one_is_not_acknowledged`, `C39_exact`, `C39_any_handler`, `C39_once_in_order`, `C39_failed_polls_redeliver`, `C39_raising_handler_loses_events`, `C40_decoding`, `C40_extra_entry`, `C40_bodyless_event`, `C40_all_lists`, `C40_other_bodies`, `C40_no_events`, `C41_one_pass`, `C41_nothing_lost`, `C42_seed_posts_once`, `C42_seed_result`, `C42_seed_error`, `C42_seed_other_answers`, `C43_get`, `C43_post`, `C43_header_names`, `C43_post_custom`, `C43_payload_type`, `C43_zero_body`, `C43_no_content_type`, `C43_headers`, `C43_header_case`, `C45_format`, `C45_reads_back`, `C45_injective`, `C45_spaces_refused`, `C45_reads_any_spelling`, `C46_u16_monotone`, `C46_u8_monotone`, `C46_range_value`, `C46_exact`, `C46_u16`, `C46_u8`, `C46_near_zero`, `C46_ieee`, `C46_ieee_monotone`, `C46_rounded`, `C46_double`, `C46_double_monotone`, `C46_rounding_leaves_range`, `C47_layout_read`, `C47_layout_read_py27`, `C47_py27_sample`, `C47_version_not_a_number`, `C47_number_not_a_number`, `C47_size_zero`, `C47_unknown_frequency`, `C47_unknown_type`, `C47_blockless_variable`, `C48_embedded`, `C48_embedded_py27`, `C49_blocks`, `C49_values`, `C49_message`, `C49_builder`, `C51_embedded`, `C51_banned`, `C52_parsers`, `C52_ignored`, `C54_all_instances_written`, `C55_no_zero_bytes`, `C56_acks_byte_swapped`, `C57_number_not_shifted`, `C58_complete_body`, `C62_stops`, `C62_final_post_fails`, `C63_agent_domain_never_polls`, `C63_unknown_capability`, `C64_only_receiving_raises`, `C67_receiving`, `C67_sending_fails`, `C67_serializer_fails`, `C68_received`, `C68_received_default`, `C70_layout`, `C70_unique`, `C71_default`, `C71_acks_default`, `C71_arrives`, `C71_acks_arrive`, `C72_ids_increase`, `C73_from_components`, `C73_bytes_roundtrip`, `C73_overflow`, `C73_bytes_back`, `C74_reads_w`, `C74_reconstructs_w`, `C74_length_ignored`, `C75_exact`, `C76_ne`, `C76_copies`, `C76_in_list`, `C76_in_dict`, `C77_wait`, `C77_at_least`, `C77_below_one`, `C77_assertions_forever`, `C78_default`, `C78_in_order_default`, `C78_genuine`, `C78_all_delivered`, `C78_in_order`, `C78_at_most_once`, `C78_never_acknowledged`, `C79_nothing_lost`, `C79_dispatcher_history`, `C79_uninterrupted_pass`, `C80_at_most_one_more_read`, `C80_loops_end`, `C80_nothing_afterwards`, `C80_restart_keeps_the_old_loop`, `C81_stopped_for_ever`, `C81_stopped_too_early`, `C81_not_used`, `C81_like_alone`, `C82_long_message_lost`, `C83_never_confirmed`, `C83_default`, `C83_no_appended_acks`, `C83_what_is_sent`, `C83_in_transit`, `C83_delivered`, `C83_everything_arrives`, `C84_default`, `C84_never_at_rest`, `C84_next_round`, `C84_subscriber_stops`, `C86_listing`, `C86_shown`, `C86_readable`, `C86_files`, `C86_unknown`, `C86_types`, `C86_names`, `C86_template_list`, `C87_first_fault`, `C87_returns`, `C87_missing_block`, `C87_missing_variable`, `C88_default`, `C88_outcome`, `C88_frames`, `C88_frame_unique`, `C89_same_get`, `C89_same_post`, `C89_same_post_custom`, `C89_same_seed`, `C89_get`, `C89_post`, `C89_post_custom`, `C89_payload_type`, `C89_seed`, `C89_determined`, `C90_ids`, `C90_acks_exact`, `C90_not_lost`, `C90_acknowledged_in_the_end`, `C91_new_and_next`, `C91_add_data`, `C91_build`, `C91_is_built`, `C92_complaint`, `C92_unique`, `C92_text`, `C93_sent_in_time`, `C93_bound_is_reached`, `C93_every_message_is_sent`, `C93_urgent_ones_delay`, `C93_keeps_reading`, `C93_keeps_polling`, `C93_endless`, `C94_default`, `C94_attributed`, `C94_all_accepted`, `C94_in_order`, `C94_at_most_once`, `C94_never_acknowledged`, `C95_no_exception_default`, `C95_default`, `C95_in_time`, `C95_no_exception`, `C95_delivered`, `C95_everything_is_delivered`, `C96_in_order`, `C96_nothing_lost`, `C96_exactly_once`, `C97_needs_handler`, `C97_made`, `C98_at_most`, `C98_wraps`, `C99_nonneg`, `C99_monotone`, `C99_accuracy`, `C99_zero`, `C100_base64`, `C100_base64_injective`, `C100_ascii`, `C102_text`, `C102_not_printable`, `C102_types`, `C102_not_found`, `C102_same_sentence`, `C102_host`, `C102_socket_host`, `C102_capabilities`, `C103_history`, `C103_settings`, `C103_results`, `C103_default`, `C103_off`, `C103_unshowable_send`, `C103_unshowable_receive`, `C103_unshowable_example`, `C104_requests`, `C104_result`, `C104_data_once`, `C104_no_redirect`, `C104_capability_post`, `C104_capability_get`, `C104_bound_enough`, `C104_bound_tight`, `C104_redirected_post`, `C105_no_effect`, `C105_unshowable_host`, `C105_unshowable_start`, `C105_other_capability`, `C105_start_failed`, `C105_unshowable_raises`, `C105_unshowable_error`, `C105_unshowable_posts`, `C105_unshowable_quiet`, `C106_queued`, `C107_exchanges`, `C107_bodies`, `C107_simulator`, `C108_same`, `C108_calls`, `C108_calls_alone`, `C108_any_polls`, `C108_returns`, `C109_exact`, `C109_calls`, `C109_returns`, `C110_same_calls`, `C110_same_messages`, `C111_event_queue`, `C111_dispatcher`, `C111_bookkeeping`, `C111_calls`, `C111_returns`, `C111_apart`, `C111_exact`, `C112_in_order`, `C112_nothing_lost`, `C112_exactly_once`, `C113_handed_over`, `C113_called`, `C113_not_sooner`, `C114_by_position`, `C114_in_order`, `C114_unchanged`, `C114_failing`, `C114_at_most_once`, `C114_bounded`, `C116_queued`, `C116_content`, `C116_in_order`, `C117_queued`, `C117_arrives`, `C118_unnoticed`, `C118_watching`, `C118_parsed`, `C118_log_packet`, `C119_events`, `C119_messages`, `C119_event_queue`, `C119_watching`

## propext, Quot.sound

`C02_int_unpack_pack`, `C03_f64_bytes`, `C03_tuple_lengths`, `C04_fixed_too_wide`, `C04_ipaddr_too_wide`, `C09_zero_decode_encode`, `C09_zero_decode_encoder`, `C09_wrapped_runs_not_supported`, `C11_prefix_identifies_template`, `C11_prefixes_distinct`, `C14_variable_order`, `C15_accepted_matches_template`, `C15_none_iff_banned`, `C15_unknown_name_raises`, `C15_mismatch_raises`, `C16_outcomes`, `C16_declared_outcomes`, `C16_truncated`, `C17_header_id`, `C18_no_memory`, `C19_unhandled_skipped`, `C19_banned_skipped`, `C19_otherwise_parsed`, `C19_no_handler`, `C20_ids_sequential`, `C20_kth_id`, `C21_unacked_exact`, `C22_idempotent`, `C22_unknown_id`, `C22_only_the_set_matters`, `C22_packet`, `C23_unparsed_always_queued`, `C23_unreliable_skipped_is_queued`, `C23_malformed_not_queued`, `C24_acks_exact`, `C24_with_outgoing_subscribers`, `C24_exception_keeps_queue`, `C25_right_peer`, `C25_shared_sender`, `C26_payload_unaffected`, `C26_acks_never_written`, `C26_flag_without_ids`, `C27_nothing_retransmitted`, `C27_three_passes`, `C27_send_retry_raises`, `C28_find_circuit`, `C28_one_per_address`, `C28_circuit_exists`, `C28_registry`, `C28_alive`, `C29_invalid_host`, `C29_valid_host`, `C30_failed_send`, `C30_reliable_waits`, `C30_returns`, `C30_failed_send_raises`, `C30_failed_reliable_waits`, `C31_parsed_dropped`, `C31_never_delivered`, `C31_skipped_is_acknowledged`, `C32_counters`, `C32_received_once`, `C33_by_position`, `C35_terminates`, `C35_subscribing`, `C35_self_subscribing`, `C36_last_called_raised`, `C37_register`, `C37_is_message_handled`, `C37_registration_kept`, `C40_values_readable`, `C41_text_can_end_pass`, `C41_invalid_host_drops_messages`, `C44_int_to_bytes`, `C44_int_to_bytes_eq_iff`, `C46_short_buffer`, `C46_ieee_short`, `C48_lookup`, `C50_last_instance`, `C50_single_instances`, `C50_earlier_instances_missing`, `C51_answers`, `C54_single_count_not_enforced`, `C54_missing_single`, `C55_payload_ignores_flags`, `C55_zerocode_flag_breaks_message`, `C57_none_sent`, `C59_nothing_delivered`, `C59_trusted_message_dropped`, `C60_appended_acks_only`, `C60_others_acknowledge_nothing`, `C60_packet_ack_ignored`, `C61_delivered_once`, `C61_retransmission_delivered`, `C64_exception_ends_loop`, `C64_five_bytes_end_loop`, `C68_constructed`, `C68_built`, `C68_text_raises`, `C68_exact`, `C69_pass_acknowledges`, `C72_flags`, `C73_short`, `C75_parse`, `C75_rejects`, `C75_repr`, `C76_eq`, `C82_short_unaffected`, `C85_as_values`, `C85_content`, `C85_fresh`, `C85_kept`, `C87_same_outcome`, `C88_only_header`, `C89_texts`, `C90_includes_operations`, `C90_unacked`, `C90_counts`, `C90_sent`, `C90_overtaking`, `C90_removed_meanwhile`, `C90_lost_acknowledgement`, `C90_acknowledged_twice`, `C92_same_outcome`, `C94_delivered`, `C98_silent`, `C98_send_fails`, `C98_python26`, `C98_reachable`, `C99_symmetric`, `C101_alone`, `C101_results`, `C101_indistinguishable`, `C101_shared_sender`, `C106_bookkeeping`, `C106_content`, `C106_values`, `C106_shared`, `C106_raises`, `C106_sent_on`, `C109_handler`, `C109_same`, `C109_bookkeeping`, `C115_notify`, `C115_program`, `C115_handle`, `C116_same`, `C116_bookkeeping`, `C116_by_position`, `C116_to_the_end`, `C116_started`, `C116_returns`, `C116_forever`, `C117_bookkeeping`, `C117_as_left`, `C117_raises`, `C117_rewritten`, `C117_in_order`, `C117_unusable`, `C117_content`, `C117_values`, `C117_received`, `C117_sent_on`, `C117_endless`, `C117_acks`, `C117_acks_changed`, `C118_raises`, `C118_one_object`, `C119_raises`
