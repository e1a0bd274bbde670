{
 "claims": [
  {
   "property": "C01",
   "status": "proved",
   "theorems": [
    "Pyogp.C01_float",
    "Pyogp.C01_int_roundtrip",
    "Pyogp.C01_int_out_of_range"
   ],
   "note": ""
  },
  {
   "property": "C02",
   "status": "proved",
   "theorems": [
    "Pyogp.C02_int_unpack_pack"
   ],
   "note": ""
  },
  {
   "property": "C03",
   "status": "proved",
   "theorems": [
    "Pyogp.C03_int_f64",
    "Pyogp.C03_int_f32",
    "Pyogp.C03_f64_bytes",
    "Pyogp.C03_f64_value",
    "Pyogp.C03_f32_bytes",
    "Pyogp.C03_f32_value",
    "Pyogp.C03_f32_rounding",
    "Pyogp.C03_vector_bytes",
    "Pyogp.C03_tuple_lengths",
    "Pyogp.C03_vector3_lengths"
   ],
   "note": ""
  },
  {
   "property": "C04",
   "status": "proved",
   "theorems": [
    "Pyogp.C04_width",
    "Pyogp.C04_length",
    "Pyogp.C04_fixed_too_wide",
    "Pyogp.C04_ipaddr_too_wide",
    "Pyogp.C04_vector_arity"
   ],
   "note": "Intended: always sizeof(type). That is false of FIXED, IPADDR and vectors of the wrong arity (C04_fixed_too_wide, C04_ipaddr_too_wide, C04_vector_arity); the property states the exact lengths."
  },
  {
   "property": "C05",
   "status": "proved",
   "theorems": [
    "Pyogp.C05_text",
    "Pyogp.C05_data_field_gains_nul",
    "Pyogp.C05_too_long"
   ],
   "note": "Intended: 'Data' fields are received exactly. False of the code (C05_data_field_gains_nul); the property states what is received."
  },
  {
   "property": "C06",
   "status": "proved",
   "theorems": [
    "Pyogp.C06_uuid_roundtrip",
    "Pyogp.C06_uuid_bytes",
    "Pyogp.C06_uuid_string_shape",
    "Pyogp.C06_uuid_string_length",
    "Pyogp.C06_uuid_string_digits",
    "Pyogp.C06_uuid_string_accept",
    "Pyogp.C06_uuid_string_lenient",
    "Pyogp.C06_uuid_field",
    "Pyogp.C06_uuid_random"
   ],
   "note": ""
  },
  {
   "property": "C07",
   "status": "proved",
   "theorems": [
    "Pyogp.C07_uuid_xor"
   ],
   "note": ""
  },
  {
   "property": "C08",
   "status": "proved",
   "theorems": [
    "Pyogp.C08_reconstructed_w",
    "Pyogp.C08_same_rotation",
    "Pyogp.C08_wire",
    "Pyogp.C08_rounded",
    "Pyogp.C08_single"
   ],
   "note": "C08_wire is about packData/unpackData on bit patterns, with the arithmetic of datatypes.py:150-157 as IEEE operations (Model/Ieee.lean: round to nearest even, subnormals and overflow included). C08_rounded and C08_single are the real-number versions."
  },
  {
   "property": "C09",
   "status": "proved",
   "theorems": [
    "Pyogp.C09_zero_decode_encode",
    "Pyogp.C09_zero_decode_encoder",
    "Pyogp.C09_wrapped_runs_not_supported"
   ],
   "note": "Runs coded with a 0x00 0x00 wrap are outside the statement (C09_wrapped_runs_not_supported)."
  },
  {
   "property": "C10",
   "status": "proved",
   "theorems": [
    "Pyogp.C10_zero_decode_total"
   ],
   "note": ""
  },
  {
   "property": "C11",
   "status": "proved",
   "theorems": [
    "Pyogp.C11_prefix_identifies_template",
    "Pyogp.C11_prefixes_distinct",
    "Pyogp.C11_bounds_sharp"
   ],
   "note": ""
  },
  {
   "property": "C12",
   "status": "proved",
   "theorems": [
    "Pyogp.C12_serialized_is_received",
    "Pyogp.C12_default",
    "Pyogp.C12_roundtrip"
   ],
   "note": ""
  },
  {
   "property": "C13",
   "status": "proved",
   "theorems": [
    "Pyogp.C13_zero_coded_and_acked"
   ],
   "note": ""
  },
  {
   "property": "C14",
   "status": "proved",
   "theorems": [
    "Pyogp.C14_only_template_content",
    "Pyogp.C14_block_order",
    "Pyogp.C14_variable_order",
    "Pyogp.C14_instances_in_order"
   ],
   "note": ""
  },
  {
   "property": "C15",
   "status": "proved",
   "theorems": [
    "Pyogp.C15_accepted_matches_template",
    "Pyogp.C15_none_iff_banned",
    "Pyogp.C15_unknown_name_raises",
    "Pyogp.C15_mismatch_raises"
   ],
   "note": ""
  },
  {
   "property": "C16",
   "status": "proved",
   "theorems": [
    "Pyogp.C16_outcomes",
    "Pyogp.C16_declared_outcomes",
    "Pyogp.C16_truncated",
    "Pyogp.C16_index_error",
    "Pyogp.C16_struct_error",
    "Pyogp.C16_default"
   ],
   "note": "Intended: no other exception. False for short datagrams (C16_index_error, C16_struct_error); C16_truncated says exactly for which."
  },
  {
   "property": "C17",
   "status": "proved",
   "theorems": [
    "Pyogp.C17_message_is_exact_parse",
    "Pyogp.C17_truncated_yields_no_message",
    "Pyogp.C17_header_id"
   ],
   "note": ""
  },
  {
   "property": "C18",
   "status": "proved",
   "theorems": [
    "Pyogp.C18_no_memory"
   ],
   "note": ""
  },
  {
   "property": "C19",
   "status": "proved",
   "theorems": [
    "Pyogp.C19_unhandled_skipped",
    "Pyogp.C19_banned_skipped",
    "Pyogp.C19_otherwise_parsed",
    "Pyogp.C19_no_handler"
   ],
   "note": ""
  },
  {
   "property": "C20",
   "status": "proved",
   "theorems": [
    "Pyogp.C20_ids_sequential",
    "Pyogp.C20_kth_id",
    "Pyogp.C20_ids_distinct"
   ],
   "note": ""
  },
  {
   "property": "C21",
   "status": "proved",
   "theorems": [
    "Pyogp.C21_unacked_exact"
   ],
   "note": ""
  },
  {
   "property": "C22",
   "status": "proved",
   "theorems": [
    "Pyogp.C22_idempotent",
    "Pyogp.C22_unknown_id",
    "Pyogp.C22_only_the_set_matters",
    "Pyogp.C22_packet",
    "Pyogp.C22_count_nonneg"
   ],
   "note": ""
  },
  {
   "property": "C23",
   "status": "proved",
   "theorems": [
    "Pyogp.C23_parsed",
    "Pyogp.C23_unparsed_always_queued",
    "Pyogp.C23_unreliable_skipped_is_queued",
    "Pyogp.C23_malformed_not_queued"
   ],
   "note": "Intended: skipped datagrams are queued only if reliable. False of the code (C23_unreliable_skipped_is_queued)."
  },
  {
   "property": "C24",
   "status": "proved",
   "theorems": [
    "Pyogp.C24_acks_exact",
    "Pyogp.C24_with_outgoing_subscribers",
    "Pyogp.C24_exception_keeps_queue"
   ],
   "note": "C24_acks_exact is for the default setting (subscribers do not see outgoing packets); C24_with_outgoing_subscribers for the other one. Circuits whose host object is invalid are outside the statement."
  },
  {
   "property": "C25",
   "status": "proved",
   "theorems": [
    "Pyogp.C25_right_peer",
    "Pyogp.C25_shared_sender"
   ],
   "note": "Intended: always. False of the code with the shared sender object of NetUDPClient (C25_shared_sender)."
  },
  {
   "property": "C26",
   "status": "proved",
   "theorems": [
    "Pyogp.C26_payload_unaffected",
    "Pyogp.C26_acks_never_written",
    "Pyogp.C26_flag_without_ids"
   ],
   "note": "Intended: a datagram with the ACK flag ends with the ids. False of the code (C26_acks_never_written, C26_flag_without_ids)."
  },
  {
   "property": "C27",
   "status": "proved",
   "theorems": [
    "Pyogp.C27_nothing_retransmitted",
    "Pyogp.C27_three_passes",
    "Pyogp.C27_send_retry_raises"
   ],
   "note": "Intended: unacknowledged reliable packets are sent again by process_acks. False of the code."
  },
  {
   "property": "C28",
   "status": "proved",
   "theorems": [
    "Pyogp.C28_find_circuit",
    "Pyogp.C28_one_per_address",
    "Pyogp.C28_circuit_exists",
    "Pyogp.C28_registry",
    "Pyogp.C28_alive"
   ],
   "note": ""
  },
  {
   "property": "C29",
   "status": "proved",
   "theorems": [
    "Pyogp.C29_invalid_host",
    "Pyogp.C29_valid_host"
   ],
   "note": ""
  },
  {
   "property": "C30",
   "status": "proved",
   "theorems": [
    "Pyogp.C30_failed_send",
    "Pyogp.C30_reliable_waits",
    "Pyogp.C30_returns",
    "Pyogp.C30_failed_send_raises",
    "Pyogp.C30_failed_reliable_waits"
   ],
   "note": "Intended: a failed send always returns None and leaves no packet waiting. False of reliable sends (C30_failed_reliable_waits) and of non-ASCII text (C30_failed_send_raises)."
  },
  {
   "property": "C31",
   "status": "proved",
   "theorems": [
    "Pyogp.C31_parsed_dropped",
    "Pyogp.C31_never_delivered",
    "Pyogp.C31_skipped_is_acknowledged"
   ],
   "note": "Intended: untrusted packets have no effect on a trusted circuit. False of skipped datagrams (C31_skipped_is_acknowledged)."
  },
  {
   "property": "C32",
   "status": "proved",
   "theorems": [
    "Pyogp.C32_counters",
    "Pyogp.C32_received_once"
   ],
   "note": ""
  },
  {
   "property": "C33",
   "status": "proved",
   "theorems": [
    "Pyogp.C33_by_position",
    "Pyogp.C33_notified_in_order",
    "Pyogp.C33_exactly_subscribers",
    "Pyogp.C33_unsubscribe_skips"
   ],
   "note": "Intended: exactly the current subscribers. False when a handler unsubscribes during delivery (C33_unsubscribe_skips)."
  },
  {
   "property": "C34",
   "status": "proved",
   "theorems": [
    "Pyogp.C34_subscribers",
    "Pyogp.C34_unsubscribe",
    "Pyogp.C34_clear"
   ],
   "note": ""
  },
  {
   "property": "C35",
   "status": "proved",
   "theorems": [
    "Pyogp.C35_terminates",
    "Pyogp.C35_subscribing",
    "Pyogp.C35_self_subscribing"
   ],
   "note": "Intended: for all handlers. False of one that subscribes to its own event on every call (C35_self_subscribing); true of handlers that subscribe boundedly often (C35_subscribing)."
  },
  {
   "property": "C36",
   "status": "proved",
   "theorems": [
    "Pyogp.C36_last_called_raised",
    "Pyogp.C36_failing_handler",
    "Pyogp.C36_exception_reaches_caller",
    "Pyogp.C36_handle_propagates",
    "Pyogp.C36_handle_swallows_key_error",
    "Pyogp.C36_key_error_example"
   ],
   "note": "Intended: handle propagates every exception. False of KeyError (C36_handle_swallows_key_error)."
  },
  {
   "property": "C37",
   "status": "proved",
   "theorems": [
    "Pyogp.C37_unhandled",
    "Pyogp.C37_reaches_its_subscribers",
    "Pyogp.C37_register",
    "Pyogp.C37_is_message_handled",
    "Pyogp.C37_registration_kept"
   ],
   "note": "With the proviso that subscribers leave the subscriptions of that name alone."
  },
  {
   "property": "C38",
   "status": "proved",
   "theorems": [
    "Pyogp.C38_posts",
    "Pyogp.C38_minus_one_is_not_acknowledged"
   ],
   "note": "The id -1 is the client's own mark for no id and is excluded (SaneIds, C38_minus_one_is_not_acknowledged)."
  },
  {
   "property": "C39",
   "status": "proved",
   "theorems": [
    "Pyogp.C39_exact",
    "Pyogp.C39_any_handler",
    "Pyogp.C39_once_in_order",
    "Pyogp.C39_failed_polls_redeliver",
    "Pyogp.C39_raising_handler_loses_events"
   ],
   "note": "Intended: each event exactly once. False after failed polls (C39_failed_polls_redeliver) and when a handler raises (C39_raising_handler_loses_events)."
  },
  {
   "property": "C40",
   "status": "proved",
   "theorems": [
    "Pyogp.C40_decoding",
    "Pyogp.C40_values_readable",
    "Pyogp.C40_extra_entry",
    "Pyogp.C40_bodyless_event",
    "Pyogp.C40_all_lists",
    "Pyogp.C40_other_bodies",
    "Pyogp.C40_no_events"
   ],
   "note": "Intended: all responses. False with further entries or a malformed event (C40_extra_entry, C40_bodyless_event)."
  },
  {
   "property": "C41",
   "status": "proved",
   "theorems": [
    "Pyogp.C41_one_pass",
    "Pyogp.C41_text_can_end_pass",
    "Pyogp.C41_nothing_lost",
    "Pyogp.C41_invalid_host_drops_messages"
   ],
   "note": "Intended: all messages. False with non-ASCII text (C41_text_can_end_pass) and hosts without address (C41_invalid_host_drops_messages). C41_one_pass is for the default setting; C41_nothing_lost for every schedule and environment."
  },
  {
   "property": "C42",
   "status": "proved",
   "theorems": [
    "Pyogp.C42_seed_posts_once",
    "Pyogp.C42_seed_result",
    "Pyogp.C42_seed_error",
    "Pyogp.C42_seed_other_answers"
   ],
   "note": ""
  },
  {
   "property": "C43",
   "status": "proved",
   "theorems": [
    "Pyogp.C43_get",
    "Pyogp.C43_post",
    "Pyogp.C43_header_names",
    "Pyogp.C43_post_custom",
    "Pyogp.C43_payload_type",
    "Pyogp.C43_not_found_iff",
    "Pyogp.C43_resource_error_iff",
    "Pyogp.C43_zero_body",
    "Pyogp.C43_no_content_type",
    "Pyogp.C43_headers",
    "Pyogp.C43_header_case"
   ],
   "note": "Intended: without the exceptions named in the statement. llbase's parser is an oracle."
  },
  {
   "property": "C44",
   "status": "proved",
   "theorems": [
    "Pyogp.C44_int_to_bytes",
    "Pyogp.C44_int_to_bytes_eq_iff"
   ],
   "note": ""
  },
  {
   "property": "C45",
   "status": "proved",
   "theorems": [
    "Pyogp.C45_format",
    "Pyogp.C45_reads_back",
    "Pyogp.C45_injective",
    "Pyogp.C45_spaces_refused",
    "Pyogp.C45_reads_any_spelling"
   ],
   "note": ""
  },
  {
   "property": "C46",
   "status": "proved",
   "theorems": [
    "Pyogp.C46_u16_monotone",
    "Pyogp.C46_u8_monotone",
    "Pyogp.C46_range_value",
    "Pyogp.C46_exact",
    "Pyogp.C46_u16",
    "Pyogp.C46_u8",
    "Pyogp.C46_short_buffer",
    "Pyogp.C46_near_zero",
    "Pyogp.C46_ieee",
    "Pyogp.C46_ieee_monotone",
    "Pyogp.C46_ieee_short",
    "Pyogp.C46_rounded",
    "Pyogp.C46_double",
    "Pyogp.C46_double_monotone",
    "Pyogp.C46_rounding_leaves_range"
   ],
   "note": "Intended: the result always lies in the range. False when an end of the range is close to zero (C46_near_zero). Value and range in exact arithmetic; C46_rounded and C46_double bound the result with rounded operations over any ordered field (unbounded exponent); C46_ieee and C46_ieee_monotone are about IEEE doubles, including subnormal intermediate results, for ranges up to 2^1000 (beyond, the intermediate difference can overflow)."
  },
  {
   "property": "C47",
   "status": "proved",
   "theorems": [
    "Pyogp.C47_layout_read",
    "Pyogp.C47_layout_read_py27",
    "Pyogp.C47_py27_sample",
    "Pyogp.C47_version_not_a_number",
    "Pyogp.C47_number_not_a_number",
    "Pyogp.C47_size_zero",
    "Pyogp.C47_unknown_frequency",
    "Pyogp.C47_unknown_type",
    "Pyogp.C47_blockless_variable"
   ],
   "note": "Intended: also on Python 2.7. False of Low messages numbered above 255 (C47_layout_read_py27). Further findings: C47_size_zero, C47_unknown_frequency, C47_unknown_type, C47_blockless_variable."
  },
  {
   "property": "C48",
   "status": "proved",
   "theorems": [
    "Pyogp.C48_lookup",
    "Pyogp.C48_embedded",
    "Pyogp.C48_embedded_py27"
   ],
   "note": "Intended: the embedded template loads on Python 2.7. False (C48_embedded_py27). message_template.msg is transcribed as text and parsed by the model in the kernel. default_configured/default_connected: the embedded files meet the hypotheses of C12-C19, C58."
  },
  {
   "property": "C49",
   "status": "proved",
   "theorems": [
    "Pyogp.C49_blocks",
    "Pyogp.C49_values",
    "Pyogp.C49_message",
    "Pyogp.C49_builder",
    "Pyogp.C49_builder_stale",
    "Pyogp.C49_get_var_fails"
   ],
   "note": "Message, Block and LLSDMessageBuilder for every declaration. Findings: Message.get_var never works (C49_get_var_fails); data added after new_message without next_block is lost silently (C49_builder_stale)."
  },
  {
   "property": "C50",
   "status": "proved",
   "theorems": [
    "Pyogp.C50_last_instance",
    "Pyogp.C50_single_instances",
    "Pyogp.C50_earlier_instances_missing"
   ],
   "note": "Intended: every instance appears. False of the code (C50_earlier_instances_missing)."
  },
  {
   "property": "C51",
   "status": "proved",
   "theorems": [
    "Pyogp.C51_answers",
    "Pyogp.C51_flavorless_raises",
    "Pyogp.C51_embedded",
    "Pyogp.C51_banned"
   ],
   "note": "Intended: it never raises. False of entries without a flavor, which the embedded message.xml has (C51_flavorless_raises, C51_embedded)."
  },
  {
   "property": "C52",
   "status": "proved",
   "theorems": [
    "Pyogp.C52_parsers",
    "Pyogp.C52_ignored"
   ],
   "note": "Intended: a custom message.xml governs the dispatcher. False of UDPDispatcher and MessageManager (C52_ignored)."
  },
  {
   "property": "C53",
   "status": "proved",
   "theorems": [
    "Pyogp.C53_quiet_overrides",
    "Pyogp.C53_spammy"
   ],
   "note": ""
  },
  {
   "property": "C54",
   "status": "proved",
   "theorems": [
    "Pyogp.C54_all_instances_written",
    "Pyogp.C54_single_count_not_enforced",
    "Pyogp.C54_missing_single"
   ],
   "note": "Intended: a second instance is rejected. False of the code (C54_single_count_not_enforced); C54_all_instances_written says what happens."
  },
  {
   "property": "C55",
   "status": "proved",
   "theorems": [
    "Pyogp.C55_payload_ignores_flags",
    "Pyogp.C55_zerocode_flag_breaks_message",
    "Pyogp.C55_no_zero_bytes"
   ],
   "note": "Intended: the payload is zero-coded. False of the code (C55_zerocode_flag_breaks_message)."
  },
  {
   "property": "C56",
   "status": "proved",
   "theorems": [
    "Pyogp.C56_acks_byte_swapped",
    "Pyogp.C56_ack_of_one"
   ],
   "note": "Intended: the same byte order as in the header. False of the code (C56_acks_byte_swapped); ids in the order the receiver reads: C13_zero_coded_and_acked."
  },
  {
   "property": "C57",
   "status": "proved",
   "theorems": [
    "Pyogp.C57_number_not_shifted",
    "Pyogp.C57_extra_header_not_skipped",
    "Pyogp.C57_none_sent"
   ],
   "note": "Intended: extra bytes are skipped. False of the code (C57_extra_header_not_skipped)."
  },
  {
   "property": "C58",
   "status": "proved",
   "theorems": [
    "Pyogp.C58_acks_read_as_content",
    "Pyogp.C58_complete_body"
   ],
   "note": "Intended: the acks are never read as content. False of the code when the body is short (C58_acks_read_as_content)."
  },
  {
   "property": "C59",
   "status": "proved",
   "theorems": [
    "Pyogp.C59_nothing_delivered",
    "Pyogp.C59_trusted_message_dropped"
   ],
   "note": "Intended: trusted packets are accepted. False of the code: no packet is ever marked trusted."
  },
  {
   "property": "C60",
   "status": "proved",
   "theorems": [
    "Pyogp.C60_appended_acks_only",
    "Pyogp.C60_others_acknowledge_nothing",
    "Pyogp.C60_packet_ack_ignored"
   ],
   "note": "Intended: a PacketAck acknowledges the ids it lists. False of the code (C60_packet_ack_ignored)."
  },
  {
   "property": "C61",
   "status": "proved",
   "theorems": [
    "Pyogp.C61_delivered_once",
    "Pyogp.C61_retransmission_delivered"
   ],
   "note": "Intended: a retransmission is not delivered again. False of the code (C61_retransmission_delivered)."
  },
  {
   "property": "C62",
   "status": "proved",
   "theorems": [
    "Pyogp.C62_stops",
    "Pyogp.C62_final_post_fails"
   ],
   "note": "Intended: stopping always completes. False when the final POST fails (C62_final_post_fails)."
  },
  {
   "property": "C63",
   "status": "proved",
   "theorems": [
    "Pyogp.C63_agent_domain_never_polls",
    "Pyogp.C63_unknown_capability"
   ],
   "note": "Intended: the event queue of an agent domain is polled. False of the code."
  },
  {
   "property": "C64",
   "status": "proved",
   "theorems": [
    "Pyogp.C64_exception_ends_loop",
    "Pyogp.C64_five_bytes_end_loop",
    "Pyogp.C64_only_receiving_raises"
   ],
   "note": "Intended: no datagram can stop the loop. False of the code (C64_five_bytes_end_loop)."
  },
  {
   "property": "C65",
   "status": "proved",
   "theorems": [
    "Pyogp.C65_stop",
    "Pyogp.C65_without_event_queue"
   ],
   "note": "Intended: it does not raise. False without an event queue (C65_without_event_queue). What follows for the loops, in every schedule: C80, C81, whose model uses the same function."
  },
  {
   "property": "C66",
   "status": "proved",
   "theorems": [
    "Pyogp.C66_construction",
    "Pyogp.C66_handling_off",
    "Pyogp.C66_fallback"
   ],
   "note": "Intended: all documented configurations. False of the code (C66_handling_off, C66_fallback)."
  },
  {
   "property": "C67",
   "status": "proved",
   "theorems": [
    "Pyogp.C67_receiving",
    "Pyogp.C67_sending_fails",
    "Pyogp.C67_serializer_fails"
   ],
   "note": "Intended: it governs both directions. False for sending (C67_sending_fails, C67_serializer_fails)."
  },
  {
   "property": "C68",
   "status": "proved",
   "theorems": [
    "Pyogp.C68_constructed",
    "Pyogp.C68_built",
    "Pyogp.C68_text_raises",
    "Pyogp.C68_received",
    "Pyogp.C68_exact",
    "Pyogp.C68_received_default",
    "Pyogp.C68_odd_fixed_raises"
   ],
   "note": "Intended: every message. False of the code (C68_text_raises, C68_odd_fixed_raises)."
  },
  {
   "property": "C69",
   "status": "proved",
   "theorems": [
    "Pyogp.C69_pass_acknowledges"
   ],
   "note": ""
  },
  {
   "property": "C70",
   "status": "proved",
   "theorems": [
    "Pyogp.C70_layout",
    "Pyogp.C70_unique"
   ],
   "note": "For flags below 256 and packet ids below 2^31, which is all the library itself uses. The bytes of a fixed-width value are those of pack_data (C01-C07)."
  },
  {
   "property": "C71",
   "status": "proved",
   "theorems": [
    "Pyogp.C71_default",
    "Pyogp.C71_acks_default",
    "Pyogp.C71_arrives",
    "Pyogp.C71_acks_arrive"
   ],
   "note": ""
  },
  {
   "property": "C72",
   "status": "proved",
   "theorems": [
    "Pyogp.C72_flags",
    "Pyogp.C72_ids_increase"
   ],
   "note": ""
  },
  {
   "property": "C73",
   "status": "proved",
   "theorems": [
    "Pyogp.C73_from_components",
    "Pyogp.C73_bytes_roundtrip",
    "Pyogp.C73_overflow",
    "Pyogp.C73_bytes_back",
    "Pyogp.C73_short",
    "Pyogp.C73_copy",
    "Pyogp.C73_field"
   ],
   "note": ""
  },
  {
   "property": "C74",
   "status": "proved",
   "theorems": [
    "Pyogp.C74_field",
    "Pyogp.C74_reads_w",
    "Pyogp.C74_reconstructs_w",
    "Pyogp.C74_length_ignored"
   ],
   "note": "Intended: length tells how many components the buffer holds. False (C74_length_ignored)."
  },
  {
   "property": "C75",
   "status": "proved",
   "theorems": [
    "Pyogp.C75_parse",
    "Pyogp.C75_rejects",
    "Pyogp.C75_exact",
    "Pyogp.C75_repr",
    "Pyogp.C75_stray_brackets"
   ],
   "note": ""
  },
  {
   "property": "C76",
   "status": "proved",
   "theorems": [
    "Pyogp.C76_eq",
    "Pyogp.C76_ne",
    "Pyogp.C76_copies",
    "Pyogp.C76_in_list",
    "Pyogp.C76_in_dict"
   ],
   "note": "Intended: a != b is the negation of a == b. False (C76_ne), because the class defines no __ne__ (Python 2)."
  },
  {
   "property": "C77",
   "status": "proved",
   "theorems": [
    "Pyogp.C77_wait",
    "Pyogp.C77_at_least",
    "Pyogp.C77_below_one",
    "Pyogp.C77_assertions_forever"
   ],
   "note": ""
  },
  {
   "property": "C78",
   "status": "proved",
   "theorems": [
    "Pyogp.C78_default",
    "Pyogp.C78_in_order_default",
    "Pyogp.C78_genuine",
    "Pyogp.C78_all_delivered",
    "Pyogp.C78_in_order",
    "Pyogp.C78_at_most_once",
    "Pyogp.C78_never_acknowledged"
   ],
   "note": "Intended: acknowledgements end the waiting of reliable packets. False of the code (C78_never_acknowledged). Circuits are not made trusted by hand (on a trusted circuit nothing is delivered, C59)."
  },
  {
   "property": "C79",
   "status": "proved",
   "theorems": [
    "Pyogp.C79_nothing_lost",
    "Pyogp.C79_dispatcher_history",
    "Pyogp.C79_uninterrupted_pass"
   ],
   "note": ""
  },
  {
   "property": "C80",
   "status": "proved",
   "theorems": [
    "Pyogp.C80_at_most_one_more_read",
    "Pyogp.C80_loops_end",
    "Pyogp.C80_nothing_afterwards",
    "Pyogp.C80_restart_keeps_the_old_loop"
   ],
   "note": "Intended: after stop_monitors the loops end. False if start_monitors follows quickly (C80_restart_keeps_the_old_loop)."
  },
  {
   "property": "C81",
   "status": "proved",
   "theorems": [
    "Pyogp.C81_stopped_for_ever",
    "Pyogp.C81_stopped_too_early",
    "Pyogp.C81_not_used",
    "Pyogp.C81_like_alone"
   ],
   "note": "Intended: stop_monitors stops the event queue. False before its coroutine has first run (C81_stopped_too_early)."
  },
  {
   "property": "C82",
   "status": "proved",
   "theorems": [
    "Pyogp.C82_short_unaffected",
    "Pyogp.C82_long_message_lost"
   ],
   "note": "Intended: every message serialize accepts can be received. False beyond 10000 bytes."
  },
  {
   "property": "C83",
   "status": "proved",
   "theorems": [
    "Pyogp.C83_never_confirmed",
    "Pyogp.C83_default",
    "Pyogp.C83_no_appended_acks",
    "Pyogp.C83_what_is_sent",
    "Pyogp.C83_in_transit",
    "Pyogp.C83_delivered",
    "Pyogp.C83_everything_arrives"
   ],
   "note": "Appended acknowledgements (which the receiver misreads, C56) are the only reason for which this fails otherwise; the examples beside the theorems show a direct send and a second loop producing them."
  },
  {
   "property": "C84",
   "status": "proved",
   "theorems": [
    "Pyogp.C84_default",
    "Pyogp.C84_never_at_rest",
    "Pyogp.C84_next_round",
    "Pyogp.C84_subscriber_stops"
   ],
   "note": "Intended: acknowledgements end an exchange. False of the code: receive_check queues the id of every packet it does not parse, acknowledgements included."
  },
  {
   "property": "C85",
   "status": "proved",
   "theorems": [
    "Pyogp.C85_as_values",
    "Pyogp.C85_content",
    "Pyogp.C85_fresh",
    "Pyogp.C85_kept"
   ],
   "note": "Intended also: the packet kept under an id is the packet sent with that id. False (example beside C85_as_values). Subscribers do not change the message they are given (C106)."
  },
  {
   "property": "C86",
   "status": "proved",
   "theorems": [
    "Pyogp.C86_listing",
    "Pyogp.C86_shown",
    "Pyogp.C86_readable",
    "Pyogp.C86_files",
    "Pyogp.C86_id",
    "Pyogp.C86_unknown",
    "Pyogp.C86_types",
    "Pyogp.C86_names",
    "Pyogp.C86_template_list"
   ],
   "note": ""
  },
  {
   "property": "C87",
   "status": "proved",
   "theorems": [
    "Pyogp.C87_same_outcome",
    "Pyogp.C87_first_fault",
    "Pyogp.C87_returns",
    "Pyogp.C87_missing_block",
    "Pyogp.C87_missing_variable"
   ],
   "note": ""
  },
  {
   "property": "C88",
   "status": "proved",
   "theorems": [
    "Pyogp.C88_default",
    "Pyogp.C88_outcome",
    "Pyogp.C88_frames",
    "Pyogp.C88_only_header",
    "Pyogp.C88_frame_unique"
   ],
   "note": ""
  },
  {
   "property": "C89",
   "status": "proved",
   "theorems": [
    "Pyogp.C89_same_get",
    "Pyogp.C89_same_post",
    "Pyogp.C89_same_post_custom",
    "Pyogp.C89_same_seed",
    "Pyogp.C89_get",
    "Pyogp.C89_post",
    "Pyogp.C89_post_custom",
    "Pyogp.C89_payload_type",
    "Pyogp.C89_seed",
    "Pyogp.C89_determined",
    "Pyogp.C89_texts"
   ],
   "note": ""
  },
  {
   "property": "C90",
   "status": "proved",
   "theorems": [
    "Pyogp.C90_includes_operations",
    "Pyogp.C90_ids",
    "Pyogp.C90_unacked",
    "Pyogp.C90_counts",
    "Pyogp.C90_sent",
    "Pyogp.C90_overtaking",
    "Pyogp.C90_acks_exact",
    "Pyogp.C90_removed_meanwhile",
    "Pyogp.C90_lost_acknowledgement",
    "Pyogp.C90_not_lost",
    "Pyogp.C90_acknowledged_in_the_end",
    "Pyogp.C90_acknowledged_twice"
   ],
   "note": "Intended: every reliable packet received is acknowledged, once, whatever the switches. False with two loops (C90_lost_acknowledgement, C90_acknowledged_twice); what holds then is C90_not_lost; datagrams may overtake each other (C90_overtaking)."
  },
  {
   "property": "C91",
   "status": "proved",
   "theorems": [
    "Pyogp.C91_new_and_next",
    "Pyogp.C91_add_data",
    "Pyogp.C91_build",
    "Pyogp.C91_is_built"
   ],
   "note": ""
  },
  {
   "property": "C92",
   "status": "proved",
   "theorems": [
    "Pyogp.C92_same_outcome",
    "Pyogp.C92_complaint",
    "Pyogp.C92_unique",
    "Pyogp.C92_text"
   ],
   "note": ""
  },
  {
   "property": "C93",
   "status": "proved",
   "theorems": [
    "Pyogp.C93_sent_in_time",
    "Pyogp.C93_bound_is_reached",
    "Pyogp.C93_every_message_is_sent",
    "Pyogp.C93_urgent_ones_delay",
    "Pyogp.C93_keeps_reading",
    "Pyogp.C93_keeps_polling",
    "Pyogp.C93_endless"
   ],
   "note": ""
  },
  {
   "property": "C94",
   "status": "proved",
   "theorems": [
    "Pyogp.C94_default",
    "Pyogp.C94_attributed",
    "Pyogp.C94_all_accepted",
    "Pyogp.C94_delivered",
    "Pyogp.C94_in_order",
    "Pyogp.C94_at_most_once",
    "Pyogp.C94_never_acknowledged"
   ],
   "note": ""
  },
  {
   "property": "C95",
   "status": "proved",
   "theorems": [
    "Pyogp.C95_no_exception_default",
    "Pyogp.C95_default",
    "Pyogp.C95_in_time",
    "Pyogp.C95_no_exception",
    "Pyogp.C95_delivered",
    "Pyogp.C95_everything_is_delivered"
   ],
   "note": ""
  },
  {
   "property": "C96",
   "status": "proved",
   "theorems": [
    "Pyogp.C96_in_order",
    "Pyogp.C96_nothing_lost",
    "Pyogp.C96_exactly_once"
   ],
   "note": ""
  },
  {
   "property": "C97",
   "status": "proved",
   "theorems": [
    "Pyogp.C97_needs_handler",
    "Pyogp.C97_made"
   ],
   "note": ""
  },
  {
   "property": "C98",
   "status": "proved",
   "theorems": [
    "Pyogp.C98_at_most",
    "Pyogp.C98_silent",
    "Pyogp.C98_send_fails",
    "Pyogp.C98_python26",
    "Pyogp.C98_wraps",
    "Pyogp.C98_reachable"
   ],
   "note": ""
  },
  {
   "property": "C99",
   "status": "proved",
   "theorems": [
    "Pyogp.C99_symmetric",
    "Pyogp.C99_nonneg",
    "Pyogp.C99_self",
    "Pyogp.C99_monotone",
    "Pyogp.C99_accuracy",
    "Pyogp.C99_zero"
   ],
   "note": ""
  },
  {
   "property": "C100",
   "status": "proved",
   "theorems": [
    "Pyogp.C100_base64",
    "Pyogp.C100_base64_injective",
    "Pyogp.C100_ascii"
   ],
   "note": ""
  },
  {
   "property": "C101",
   "status": "proved",
   "theorems": [
    "Pyogp.C101_alone",
    "Pyogp.C101_results",
    "Pyogp.C101_indistinguishable",
    "Pyogp.C101_shared_sender"
   ],
   "note": ""
  },
  {
   "property": "C102",
   "status": "proved",
   "theorems": [
    "Pyogp.C102_text",
    "Pyogp.C102_not_printable",
    "Pyogp.C102_types",
    "Pyogp.C102_not_found",
    "Pyogp.C102_same_sentence",
    "Pyogp.C102_host",
    "Pyogp.C102_socket_host",
    "Pyogp.C102_client",
    "Pyogp.C102_capabilities",
    "Pyogp.C102_catching",
    "Pyogp.C102_not_caught"
   ],
   "note": ""
  },
  {
   "property": "C103",
   "status": "proved",
   "theorems": [
    "Pyogp.C103_history",
    "Pyogp.C103_settings",
    "Pyogp.C103_results",
    "Pyogp.C103_str_hosts",
    "Pyogp.C103_default",
    "Pyogp.C103_off",
    "Pyogp.C103_unshowable_send",
    "Pyogp.C103_unshowable_receive",
    "Pyogp.C103_unshowable_example"
   ],
   "note": ""
  },
  {
   "property": "C104",
   "status": "proved",
   "theorems": [
    "Pyogp.C104_requests",
    "Pyogp.C104_result",
    "Pyogp.C104_data_once",
    "Pyogp.C104_no_redirect",
    "Pyogp.C104_capability_post",
    "Pyogp.C104_capability_get",
    "Pyogp.C104_bound_enough",
    "Pyogp.C104_bound_tight",
    "Pyogp.C104_redirected_post"
   ],
   "note": ""
  },
  {
   "property": "C105",
   "status": "proved",
   "theorems": [
    "Pyogp.C105_no_effect",
    "Pyogp.C105_unshowable_host",
    "Pyogp.C105_unshowable_start",
    "Pyogp.C105_other_capability",
    "Pyogp.C105_start_failed",
    "Pyogp.C105_unshowable_raises",
    "Pyogp.C105_unshowable_error",
    "Pyogp.C105_unshowable_posts",
    "Pyogp.C105_unshowable_quiet"
   ],
   "note": ""
  },
  {
   "property": "C106",
   "status": "proved",
   "theorems": [
    "Pyogp.C106_bookkeeping",
    "Pyogp.C106_queued",
    "Pyogp.C106_content",
    "Pyogp.C106_values",
    "Pyogp.C106_shared",
    "Pyogp.C106_raises",
    "Pyogp.C106_sent_on"
   ],
   "note": ""
  },
  {
   "property": "C107",
   "status": "proved",
   "theorems": [
    "Pyogp.C107_exchanges",
    "Pyogp.C107_bodies",
    "Pyogp.C107_simulator"
   ],
   "note": ""
  },
  {
   "property": "C108",
   "status": "proved",
   "theorems": [
    "Pyogp.C108_same",
    "Pyogp.C108_calls",
    "Pyogp.C108_calls_alone",
    "Pyogp.C108_any_polls",
    "Pyogp.C108_returns"
   ],
   "note": ""
  },
  {
   "property": "C109",
   "status": "proved",
   "theorems": [
    "Pyogp.C109_exact",
    "Pyogp.C109_handler",
    "Pyogp.C109_same",
    "Pyogp.C109_calls",
    "Pyogp.C109_returns",
    "Pyogp.C109_bookkeeping"
   ],
   "note": ""
  },
  {
   "property": "C110",
   "status": "proved",
   "theorems": [
    "Pyogp.C110_same_calls",
    "Pyogp.C110_same_messages"
   ],
   "note": ""
  },
  {
   "property": "C111",
   "status": "proved",
   "theorems": [
    "Pyogp.C111_event_queue",
    "Pyogp.C111_dispatcher",
    "Pyogp.C111_bookkeeping",
    "Pyogp.C111_calls",
    "Pyogp.C111_returns",
    "Pyogp.C111_apart",
    "Pyogp.C111_exact"
   ],
   "note": ""
  },
  {
   "property": "C112",
   "status": "proved",
   "theorems": [
    "Pyogp.C112_in_order",
    "Pyogp.C112_nothing_lost",
    "Pyogp.C112_exactly_once"
   ],
   "note": ""
  },
  {
   "property": "C113",
   "status": "proved",
   "theorems": [
    "Pyogp.C113_handed_over",
    "Pyogp.C113_called",
    "Pyogp.C113_not_sooner"
   ],
   "note": ""
  },
  {
   "property": "C114",
   "status": "proved",
   "theorems": [
    "Pyogp.C114_by_position",
    "Pyogp.C114_in_order",
    "Pyogp.C114_unchanged",
    "Pyogp.C114_failing",
    "Pyogp.C114_at_most_once",
    "Pyogp.C114_bounded",
    "Pyogp.C114_skips"
   ],
   "note": ""
  },
  {
   "property": "C115",
   "status": "proved",
   "theorems": [
    "Pyogp.C115_notify",
    "Pyogp.C115_program",
    "Pyogp.C115_handle"
   ],
   "note": ""
  },
  {
   "property": "C116",
   "status": "proved",
   "theorems": [
    "Pyogp.C116_same",
    "Pyogp.C116_bookkeeping",
    "Pyogp.C116_queued",
    "Pyogp.C116_content",
    "Pyogp.C116_by_position",
    "Pyogp.C116_to_the_end",
    "Pyogp.C116_started",
    "Pyogp.C116_in_order",
    "Pyogp.C116_returns",
    "Pyogp.C116_forever"
   ],
   "note": ""
  },
  {
   "property": "C117",
   "status": "proved",
   "theorems": [
    "Pyogp.C117_bookkeeping",
    "Pyogp.C117_as_left",
    "Pyogp.C117_raises",
    "Pyogp.C117_rewritten",
    "Pyogp.C117_in_order",
    "Pyogp.C117_unusable",
    "Pyogp.C117_content",
    "Pyogp.C117_values",
    "Pyogp.C117_queued",
    "Pyogp.C117_received",
    "Pyogp.C117_sent_on",
    "Pyogp.C117_endless",
    "Pyogp.C117_acks",
    "Pyogp.C117_acks_changed",
    "Pyogp.C117_arrives"
   ],
   "note": ""
  },
  {
   "property": "C118",
   "status": "proved",
   "theorems": [
    "Pyogp.C118_unnoticed",
    "Pyogp.C118_watching",
    "Pyogp.C118_parsed",
    "Pyogp.C118_raises",
    "Pyogp.C118_one_object",
    "Pyogp.C118_log_packet"
   ],
   "note": ""
  },
  {
   "property": "C119",
   "status": "proved",
   "theorems": [
    "Pyogp.C119_events",
    "Pyogp.C119_messages",
    "Pyogp.C119_event_queue",
    "Pyogp.C119_watching",
    "Pyogp.C119_raises"
   ],
   "note": ""
  }
 ]
}