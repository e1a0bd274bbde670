NOTES = {
 'C04': ('proved', 'Intended: always sizeof(type). That is false of FIXED, IPADDR and vectors of the wrong arity (C04_fixed_too_wide, C04_ipaddr_too_wide, C04_vector_arity); the property states the exact lengths.'),
 'C05': ('proved', "Intended: 'Data' fields are received exactly. False of the code (C05_data_field_gains_nul); the property states what is received."),
 'C08': ('proved', 'C08_wire is about packData/unpackData on bit patterns, with the arithmetic of datatypes.py:150-157 as IEEE operations (Model/Ieee.lean: round to nearest even, subnormals and overflow included). C08_rounded and C08_single are the real-number versions.'),
 'C09': ('proved', 'Runs coded with a 0x00 0x00 wrap are outside the statement (C09_wrapped_runs_not_supported).'),
 'C16': ('proved', 'Intended: no other exception. False for short datagrams (C16_index_error, C16_struct_error); C16_truncated says exactly for which.'),
 'C23': ('proved', 'Intended: skipped datagrams are queued only if reliable. False of the code (C23_unreliable_skipped_is_queued).'),
 'C24': ('proved', 'C24_acks_exact is for the default setting (subscribers do not see outgoing packets); C24_with_outgoing_subscribers for the other one. Circuits whose host object is invalid are outside the statement.'),
 'C25': ('proved', 'Intended: always. False of the code with the shared sender object of NetUDPClient (C25_shared_sender).'),
 'C26': ('proved', 'Intended: a datagram with the ACK flag ends with the ids. False of the code (C26_acks_never_written, C26_flag_without_ids).'),
 'C27': ('proved', 'Intended: unacknowledged reliable packets are sent again by process_acks. False of the code.'),
 'C30': ('proved', 'Intended: a failed send always returns None and leaves no packet waiting. False of reliable sends (C30_failed_reliable_waits) and of non-ASCII text (C30_failed_send_raises).'),
 'C31': ('proved', 'Intended: untrusted packets have no effect on a trusted circuit. False of skipped datagrams (C31_skipped_is_acknowledged).'),
 'C33': ('proved', 'Intended: exactly the current subscribers. False when a handler unsubscribes during delivery (C33_unsubscribe_skips).'),
 'C35': ('proved', 'Intended: for all handlers. False of one that subscribes to its own event on every call (C35_self_subscribing); true of handlers that subscribe boundedly often (C35_subscribing).'),
 'C36': ('proved', 'Intended: handle propagates every exception. False of KeyError (C36_handle_swallows_key_error).'),
 'C37': ('proved', 'With the proviso that subscribers leave the subscriptions of that name alone.'),
 'C38': ('proved', "The id -1 is the client's own mark for no id and is excluded (SaneIds, C38_minus_one_is_not_acknowledged)."),
 'C39': ('proved', 'Intended: each event exactly once. False after failed polls (C39_failed_polls_redeliver) and when a handler raises (C39_raising_handler_loses_events).'),
 'C40': ('proved', 'Intended: all responses. False with further entries or a malformed event (C40_extra_entry, C40_bodyless_event).'),
 'C41': ('proved', 'Intended: all messages. False with non-ASCII text (C41_text_can_end_pass) and hosts without address (C41_invalid_host_drops_messages). C41_one_pass is for the default setting; C41_nothing_lost for every schedule and environment.'),
 'C43': ('proved', "Intended: without the exceptions named in the statement. llbase's parser is an oracle."),
 'C46': ('proved', 'Intended: the result always lies in the range. False when an end of the range is close to zero (C46_near_zero). Value and range in exact arithmetic; C46_rounded and C46_double bound the result with rounded operations over any ordered field (unbounded exponent); C46_ieee and C46_ieee_monotone are about IEEE doubles, including subnormal intermediate results, for ranges up to 2^1000 (beyond, the intermediate difference can overflow).'),
 'C47': ('proved', 'Intended: also on Python 2.7. False of Low messages numbered above 255 (C47_layout_read_py27). Further findings: C47_size_zero, C47_unknown_frequency, C47_unknown_type, C47_blockless_variable.'),
 'C48': ('proved', 'Intended: the embedded template loads on Python 2.7. False (C48_embedded_py27). message_template.msg is transcribed as text and parsed by the model in the kernel. default_configured/default_connected: the embedded files meet the hypotheses of C12-C19, C58.'),
 'C49': ('proved', 'Message, Block and LLSDMessageBuilder for every declaration. Findings: Message.get_var never works (C49_get_var_fails); data added after new_message without next_block is lost silently (C49_builder_stale).'),
 'C50': ('proved', 'Intended: every instance appears. False of the code (C50_earlier_instances_missing).'),
 'C51': ('proved', 'Intended: it never raises. False of entries without a flavor, which the embedded message.xml has (C51_flavorless_raises, C51_embedded).'),
 'C52': ('proved', 'Intended: a custom message.xml governs the dispatcher. False of UDPDispatcher and MessageManager (C52_ignored).'),
 'C54': ('proved', 'Intended: a second instance is rejected. False of the code (C54_single_count_not_enforced); C54_all_instances_written says what happens.'),
 'C55': ('proved', 'Intended: the payload is zero-coded. False of the code (C55_zerocode_flag_breaks_message).'),
 'C56': ('proved', 'Intended: the same byte order as in the header. False of the code (C56_acks_byte_swapped); ids in the order the receiver reads: C13_zero_coded_and_acked.'),
 'C57': ('proved', 'Intended: extra bytes are skipped. False of the code (C57_extra_header_not_skipped).'),
 'C58': ('proved', 'Intended: the acks are never read as content. False of the code when the body is short (C58_acks_read_as_content).'),
 'C59': ('proved', 'Intended: trusted packets are accepted. False of the code: no packet is ever marked trusted.'),
 'C60': ('proved', 'Intended: a PacketAck acknowledges the ids it lists. False of the code (C60_packet_ack_ignored).'),
 'C61': ('proved', 'Intended: a retransmission is not delivered again. False of the code (C61_retransmission_delivered).'),
 'C62': ('proved', 'Intended: stopping always completes. False when the final POST fails (C62_final_post_fails).'),
 'C63': ('proved', 'Intended: the event queue of an agent domain is polled. False of the code.'),
 'C64': ('proved', 'Intended: no datagram can stop the loop. False of the code (C64_five_bytes_end_loop).'),
 'C65': ('proved', 'Intended: it does not raise. False without an event queue (C65_without_event_queue). What follows for the loops, in every schedule: C80, C81, whose model uses the same function.'),
 'C66': ('proved', 'Intended: all documented configurations. False of the code (C66_handling_off, C66_fallback).'),
 'C67': ('proved', 'Intended: it governs both directions. False for sending (C67_sending_fails, C67_serializer_fails).'),
 'C68': ('proved', 'Intended: every message. False of the code (C68_text_raises, C68_odd_fixed_raises).'),
 'C70': ('proved', 'For flags below 256 and packet ids below 2^31, which is all the library itself uses. The bytes of a fixed-width value are those of pack_data (C01-C07).'),
 'C76': ('proved', 'Intended: a != b is the negation of a == b. False (C76_ne), because the class defines no __ne__ (Python 2).'),
 'C74': ('proved', 'Intended: length tells how many components the buffer holds. False (C74_length_ignored).'),
 'C78': ('proved', 'Intended: acknowledgements end the waiting of reliable packets. False of the code (C78_never_acknowledged). Circuits are not made trusted by hand (on a trusted circuit nothing is delivered, C59).'),
 'C90': ('proved', 'Intended: every reliable packet received is acknowledged, once, whatever the switches. False with two loops (C90_lost_acknowledgement, C90_acknowledged_twice); what holds then is C90_not_lost; datagrams may overtake each other (C90_overtaking).'),
 'C80': ('proved', 'Intended: after stop_monitors the loops end. False if start_monitors follows quickly (C80_restart_keeps_the_old_loop).'),
 'C82': ('proved', 'Intended: every message serialize accepts can be received. False beyond 10000 bytes.'),
 'C81': ('proved', 'Intended: stop_monitors stops the event queue. False before its coroutine has first run (C81_stopped_too_early).'),
 'C83': ('proved', 'Appended acknowledgements (which the receiver misreads, C56) are the only reason for which this fails otherwise; the examples beside the theorems show a direct send and a second loop producing them.'),
 'C84': ('proved', 'Intended: acknowledgements end an exchange. False of the code: receive_check queues the id of every packet it does not parse, acknowledgements included.'),
 'C85': ('proved', 'Intended also: the packet kept under an id is the packet sent with that id. False (example beside C85_as_values). Subscribers do not change the message they are given (C106).'),
}
