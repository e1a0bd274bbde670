{"id": "C01", "title": "Integer fields survive pack/unpack", "statement": "For every integer wire type (U8, U16, U32, U64, S8, S16, S32, S64, BOOL, IPPORT) and every endianness override, DataPacker.pack_data followed by DataUnpacker.unpack_data returns the integer that was packed whenever it is in the type's range; the packed string has exactly sizeof(type) bytes; a value outside the range never yields a packed string that silently unpacks to the value (Python 2.7: it is rejected; Python 2.5/2.6: it is reduced modulo 2^bits for types up to 32 bits). A float given for an integer field is truncated towards zero and then packed like that integer; if the integer is out of range, or the float is infinite or NaN, Python 2.7 raises an exception (2.6: an exception, or the value modulo 2^bits).", "quantifier": "all integer types, all endiannesses, all integers (in and out of range), all floats, both struct overflow conventions", "why_tests_cant": "the value space is unbounded and the boundary behaviour depends on every type/endianness pair", "anchors": ["pyogp/lib/base/message/data_packer.py:DataPacker.pack_data", "pyogp/lib/base/message/data_unpacker.py:DataUnpacker.unpack_data", "pyogp/lib/base/message/msgtypes.py:sizeof"]}
{"id": "C02", "title": "Unpacking then repacking integer fields is lossless", "statement": "Every byte string of length sizeof(type) is accepted by unpack_data for an integer wire type, the result is in the type's range, and pack_data of the result gives back exactly those bytes; a byte string of any other length raises DataUnpackingError.", "quantifier": "all integer types, endiannesses and byte strings", "why_tests_cant": "2^64 inputs for a single type", "anchors": ["pyogp/lib/base/message/data_packer.py:DataPacker.pack_data", "pyogp/lib/base/message/data_unpacker.py:DataUnpacker.unpack_data"]}
{"id": "C03", "title": "Float fields survive unpack/pack", "statement": "Every F64 byte string round-trips bit-for-bit through unpack_data/pack_data; every 4-byte F32 string that is not a NaN round-trips bit-for-bit (unpacking widens to a double, packing rounds to single, and the rounding is exact); a double that is too large for a single is rejected rather than sent as garbage; Vector3, Vector3d and Vector4 fields inherit this componentwise; an integer given for a float field is rounded to the nearest double (ties to even), or raises struct.error exactly if it is too large for one. unpack_data of a Vector3d or Vector4 takes any string of whole components and returns as many (any other raises DataUnpackingError); of a Vector3 or Quaternion it ignores the bytes it does not need and raises DataUnpackingError for less than 12.", "quantifier": "all 2^32 single and all 2^64 double bit patterns, all vectors, all integers", "why_tests_cant": "bit patterns (subnormals, ties, overflow threshold) cannot be enumerated by tests", "anchors": ["pyogp/lib/base/message/data_packer.py:DataPacker", "pyogp/lib/base/message/data_unpacker.py:DataUnpacker", "pyogp/lib/base/datatypes.py:Vector3"]}
{"id": "C04", "title": "The length of a packed value is determined by its type and shape", "statement": "Every value pack_data accepts is packed into exactly sizeof(type) bytes if the type has a fixed width other than IPADDR and a vector is given with its declared number of components; a vector with k components into k times the component width; a text for a VARIABLE, FIXED or IPADDR field into one byte more than its UTF-8 bytes (so a FIXED field of the declared size and a 4-byte IPADDR are one byte too wide for the receiver).", "quantifier": "all types and all accepted values", "why_tests_cant": "must hold for every value of every type; unit tests only cover a few messages", "anchors": ["pyogp/lib/base/message/data_packer.py:DataPacker.__pack_string", "pyogp/lib/base/message/data_packer.py:DataPacker.__pack_tuple", "pyogp/lib/base/message/msgtypes.py:sizeof"]}
{"id": "C05", "title": "Variable-length text fields: what the receiver sees", "statement": "A str or unicode value put in a variable-length field other than 'Data', whose length prefix has room for it, is received as its UTF-8 bytes with trailing NULs removed (so text without trailing NULs is received exactly); in a field named 'Data' it is received with exactly one NUL appended; if the prefix has no room, Python 2.7 refuses to send it and Python 2.6 sends it with a wrapped length prefix.", "quantifier": "all byte strings and all field names", "why_tests_cant": "all strings, including embedded/trailing NULs", "anchors": ["pyogp/lib/base/message/data_packer.py:DataPacker.__pack_string", "pyogp/lib/base/message/udpdeserializer.py:UDPMessageDeserializer.__decode_data"]}
{"id": "C06", "title": "UUID values survive bytes, string and copy", "statement": "UUID(bytes=u.get_bytes()) == u, UUID(string=str(u)) == u and u.copy() == u for every UUID u; a byte string with fewer than 16 bytes after the offset is rejected; a string of hex digits and dashes is accepted exactly when it has 32 hex digits, which then are the digits of get_bytes(), and so are those of str(u); an LLUUID field is exactly 16 bytes and is received as the UUID sent.", "quantifier": "all 2^128 UUIDs, all byte strings, all offsets", "why_tests_cant": "2^128 values", "anchors": ["pyogp/lib/base/datatypes.py:UUID", "pyogp/lib/base/message/data_packer.py:DataPacker.__pack_uuid", "pyogp/lib/base/message/data_unpacker.py:DataUnpacker.__unpack_uuid"]}
{"id": "C07", "title": "UUID xor is an abelian group operation of order two", "statement": "For all UUIDs a, b, c: a^b is a UUID whose bytes are the bytewise xor of the operands, a^b == b^a, (a^b)^c == a^(b^c), a^null == a, a^a == null.", "quantifier": "all triples of UUIDs", "why_tests_cant": "2^384 triples", "anchors": ["pyogp/lib/base/datatypes.py:UUID.__xor__"]}
{"id": "C08", "title": "A unit quaternion is received as the same rotation", "statement": "Packing a unit quaternion to three components and unpacking it (reconstructing W) yields either the same quaternion or its negation (the same rotation), always with W >= 0. In exact arithmetic exactly. On the wire, for doubles that are a unit quaternion up to h <= 1/64: 12 bytes, X, Y, Z received within 2^-24 and a W >= 0 whose square is within h + 2^-21 of the original's. The W reconstructed from any three finite singles is the one obtained by rounding each of the operations x*x, +, -, sqrt to the nearest double, or 0 if the difference is not positive.", "quantifier": "all unit quaternions (real-number semantics; rounded arithmetic; all bit patterns of doubles with IEEE operations)", "why_tests_cant": "a continuum of rotations, sign boundary at W = 0", "anchors": ["pyogp/lib/base/helpers.py:Helpers.pack_quaternion_to_vector3", "pyogp/lib/base/datatypes.py:Quaternion.unpack_from_bytes", "pyogp/lib/base/message/data_packer.py:DataPacker.__pack_quat"]}
{"id": "C09", "title": "Zero-decoding inverts zero-coding", "statement": "For every payload, zero_code_expand applied to its zero-coded form (each maximal run of zero bytes replaced by 0x00 and run lengths of at most 255) returns the payload.", "quantifier": "all byte strings, runs of any length", "why_tests_cant": "runs across the 255 boundary and positions cannot be enumerated", "anchors": ["pyogp/lib/base/message/udpdeserializer.py:UDPMessageDeserializer.zero_code_expand"]}
{"id": "C10", "title": "Zero-decoding is total and bounded on arbitrary input", "statement": "zero_code_expand never fails; a payload without zero bytes is returned unchanged; the non-zero bytes of the result that are literal are preserved in order; the result never exceeds 255 times the input length.", "quantifier": "all byte strings, including malformed ones", "why_tests_cant": "arbitrary attacker-controlled input", "anchors": ["pyogp/lib/base/message/udpdeserializer.py:UDPMessageDeserializer.zero_code_expand"]}
{"id": "C11", "title": "The message-number prefix identifies the template", "statement": "For every template whose number fits its frequency class (High/Medium 0..254, Low 0..0xFEFF, Fixed 0..255), the prefix the serializer emits has the length the deserializer skips and is resolved by the deserializer to the template registered for that (frequency, number), whatever bytes follow; prefixes of distinct (frequency, number) pairs are never confused.", "quantifier": "all frequency classes, numbers, and following bytes", "why_tests_cant": "prefix-freeness is a statement over all pairs and all continuations", "anchors": ["pyogp/lib/base/message/template_dict.py:TemplateDictionary.build_message_ids", "pyogp/lib/base/message/udpdeserializer.py:UDPMessageDeserializer.__decode_header"]}
{"id": "C12", "title": "A serialized message is received with the same content", "statement": "If serialize succeeds on a message that fills its template (every block the declared number of times, every value representable in its field, zero-code and ack flags off), then deserialize of the resulting datagram (message handled or deferral off) yields a message with the same name, flags, packet id and, for every template block and variable, the values sent (up to the documented normalisation of each type).", "quantifier": "all templates, all messages, all block repetition counts", "why_tests_cant": "must hold for every template and every value combination", "anchors": ["pyogp/lib/base/message/udpserializer.py:UDPMessageSerializer.serialize", "pyogp/lib/base/message/udpdeserializer.py:UDPMessageDeserializer.deserialize"]}
{"id": "C13", "title": "Zero-coded datagrams and datagrams with appended acks decode to the same message", "statement": "If a peer zero-codes the payload of a datagram and/or appends n <= 255 acks (4 bytes each, least significant first, then the count), deserialize yields the same message as for the plain datagram, with exactly the appended ack ids, in order.", "quantifier": "all messages, all payloads, all ack lists of at most 255 ids", "why_tests_cant": "combinations of compression, trailers and payloads are unbounded", "anchors": ["pyogp/lib/base/message/udpdeserializer.py:UDPMessageDeserializer.deserialize"]}
{"id": "C14", "title": "Serialization depends only on template order and content", "statement": "The datagram produced does not depend on the order in which blocks of different names or variables were added to the message, nor on blocks and variables the template does not mention; blocks of one name appear in the order added.", "quantifier": "all templates and messages, all insertion orders", "why_tests_cant": "Python 2 dict/kwargs ordering is arbitrary; all permutations", "anchors": ["pyogp/lib/base/message/udpserializer.py:UDPMessageSerializer.build_block", "pyogp/lib/base/message/template.py:MsgData", "pyogp/lib/base/message/message.py:Block"]}
{"id": "C15", "title": "Serialization rejects messages that do not match the template", "statement": "serialize raises (and produces no datagram) for a message whose name is not in the template, which lacks a block or variable of its template, or whose Multiple block does not have exactly the declared count; a message that message.xml routes away from UDP yields no datagram.", "quantifier": "all templates and messages", "why_tests_cant": "all ways of being malformed", "anchors": ["pyogp/lib/base/message/udpserializer.py:UDPMessageSerializer.serialize", "pyogp/lib/base/message/udpserializer.py:UDPMessageSerializer.build_block", "pyogp/lib/base/message/message_dot_xml.py:MessageDotXML.validate_udp_msg"]}
{"id": "C16", "title": "Deserialization of arbitrary bytes ends in one of a known set of outcomes", "statement": "For every datagram and after every history, deserialize terminates with a message, None or a MessageDeserializationError, except that a datagram which (before its appended acks) ends before the end of its message number raises IndexError or struct.error; which of the two, and exactly for which datagrams, is determined by the bytes alone.", "quantifier": "all byte strings, all well-formed template sets", "why_tests_cant": "all byte strings an attacker may send", "anchors": ["pyogp/lib/base/message/udpdeserializer.py:UDPMessageDeserializer.deserialize"]}
{"id": "C17", "title": "Deserialization never reads outside the datagram", "statement": "If deserialize returns a message, each field was decoded from bytes that lie inside the (expanded) datagram, the fields are consecutive, in template order, and re-encoding the raw field bytes reproduces that part of the datagram; if a declared length exceeds what is left, the result is None and never a partially decoded message.", "quantifier": "all byte strings and templates", "why_tests_cant": "all truncation points and all lengths", "anchors": ["pyogp/lib/base/message/udpdeserializer.py:UDPMessageDeserializer.__decode_data"]}
{"id": "C18", "title": "Deserialization has no memory", "statement": "The outcome of deserialize depends only on the datagram, the templates, message.xml, the settings and the set of registered handlers, never on previously processed datagrams, even ones that failed.", "quantifier": "all histories of datagrams", "why_tests_cant": "all histories", "anchors": ["pyogp/lib/base/message/udpdeserializer.py:UDPMessageDeserializer"]}
{"id": "C19", "title": "Unhandled and UDP-banned messages are skipped without being parsed", "statement": "With deferred parsing on, a datagram whose message has no registered handler yields None whatever its body contains; a message whose flavor in message.xml is not 'template' yields None even when handled; otherwise the body is parsed. A deserializer without a message handler (none given, HANDLE_PACKETS off) raises AttributeError for a message that may come over UDP.", "quantifier": "all datagrams and registrations", "why_tests_cant": "all bodies", "anchors": ["pyogp/lib/base/message/udpdeserializer.py:UDPMessageDeserializer.deserialize", "pyogp/lib/base/message/message_handler.py:MessageHandler.is_message_handled"]}
{"id": "C20", "title": "Packet ids on a circuit are 1, 2, 3, ... without gaps or repeats", "statement": "In every history of sends, receives and ack processing, the k-th packet prepared for a given peer address carries packet id k, independently of traffic to other peers.", "quantifier": "all interleavings of operations on all circuits", "why_tests_cant": "all histories", "anchors": ["pyogp/lib/base/message/circuit.py:Circuit.next_packet_id", "pyogp/lib/base/message/circuit.py:Circuit.prepare_packet", "pyogp/lib/base/message/udpdispatcher.py:UDPDispatcher.__send_message"]}
{"id": "C21", "title": "The unacked set is exactly the reliable packets not yet acknowledged", "statement": "After every history, a circuit's unacked_packets holds exactly the ids of packets prepared reliably on it whose id has not been acknowledged afterwards by a parsed packet from that peer, and unack_packet_count is their number.", "quantifier": "all histories of sends and receives", "why_tests_cant": "all histories, duplicate and bogus acks", "anchors": ["pyogp/lib/base/message/circuit.py:Circuit", "pyogp/lib/base/message/udpdispatcher.py:UDPDispatcher"]}
{"id": "C22", "title": "Acknowledgements are idempotent and commute", "statement": "Acknowledging the same id twice, an unknown id, or a set of ids in any order leaves the circuit in the same state; unack_packet_count never becomes negative.", "quantifier": "all circuits, all ack lists and permutations", "why_tests_cant": "all permutations and duplications", "anchors": ["pyogp/lib/base/message/circuit.py:Circuit.ack_reliable_packet", "pyogp/lib/base/message/circuit.py:Circuit.handle_packet"]}
{"id": "C23", "title": "Which received packets are queued for acknowledgement", "statement": "On a circuit that is not trusted, receive_check of a datagram that parses adds its packet id to the ids to be acknowledged to its sender exactly when the reliable flag is set, once, whatever the subscribers do meanwhile; a datagram that is not parsed (deferred or banned) is queued once whatever its flags, on any circuit; a datagram it raises on is not queued.", "quantifier": "all datagrams and circuit states", "why_tests_cant": "all datagrams", "anchors": ["pyogp/lib/base/message/udpdispatcher.py:UDPDispatcher.receive_check", "pyogp/lib/base/message/circuit.py:Circuit.handle_packet"]}
{"id": "C24", "title": "process_acks acknowledges every queued id exactly once", "statement": "process_acks sends, for every circuit, PacketAck messages whose ids concatenate to exactly the queued ids in order, each message non-empty and with at most 251 ids (so that the 1-byte block count never overflows), and afterwards no ids are queued.", "quantifier": "all dispatcher states, queue lengths and circuit iteration orders", "why_tests_cant": "all queue lengths across the 251 boundary", "anchors": ["pyogp/lib/base/message/udpdispatcher.py:UDPDispatcher.__send_acks", "pyogp/lib/base/message/udpdispatcher.py:UDPDispatcher.has_unacked"]}
{"id": "C25", "title": "Acks are sent to the peer that is owed them", "statement": "If the caller uses one Host object per peer and leaves its address alone, the PacketAck messages that process_acks produces for a circuit go to the address under which that circuit is registered. If one Host object is reused for several peers, as NetUDPClient does with its sender, they go to the address it has last.", "quantifier": "all histories of receives from any number of peers", "why_tests_cant": "depends on aliasing of the sender object across receives from several peers", "anchors": ["pyogp/lib/base/message/udpdispatcher.py:UDPDispatcher.__send_acks", "pyogp/lib/base/network/net.py:NetUDPClient.receive_packet"]}
{"id": "C26", "title": "Pending acks do not reach the datagram", "statement": "Ids waiting to be acknowledged never change what a sent datagram contains: neither they nor their count are in it, its payload is the same, and only the ACK bit of the flag byte differs (so a receiver reads the end of the payload as acks).", "quantifier": "all circuit states and messages", "why_tests_cant": "all pending-ack states", "anchors": ["pyogp/lib/base/message/circuit.py:Circuit.prepare_packet", "pyogp/lib/base/message/udpserializer.py:UDPMessageSerializer.serialize"]}
{"id": "C27", "title": "Nothing is retransmitted", "statement": "process_acks sends nothing but PacketAck messages, whatever packets are unacknowledged and however many retries they have left; send_retry raises AttributeError for all arguments.", "quantifier": "all histories", "why_tests_cant": "all schedules of acks and polls", "anchors": ["pyogp/lib/base/message/udpdispatcher.py:UDPDispatcher.__resend_all_unacked", "pyogp/lib/base/message/udpdispatcher.py:UDPDispatcher.send_retry", "pyogp/lib/base/message/udpdispatcher.py:UDPDispatcher.__send_message"]}
{"id": "C28", "title": "One circuit per peer address", "statement": "find_circuit returns the circuit registered for the host's current (ip, port), creating it only if absent; it never creates two circuits for one address and never disturbs other circuits; is_circuit_alive and remove_circuit_data agree with this registry.", "quantifier": "all histories and addresses", "why_tests_cant": "all histories", "anchors": ["pyogp/lib/base/message/circuit.py:CircuitManager", "pyogp/lib/base/message/udpdispatcher.py:UDPDispatcher.find_circuit"]}
{"id": "C29", "title": "Sending to an invalid host has no effect", "statement": "A send to a host whose ip or port is None or 0 returns None, sends no datagram and changes no circuit; a send to a valid host sends at most one datagram, to that host's address, with the circuit's packet id and the requested reliability flag in it.", "quantifier": "all hosts, messages and dispatcher states", "why_tests_cant": "all states", "anchors": ["pyogp/lib/base/message/udpdispatcher.py:UDPDispatcher.__send_message", "pyogp/lib/base/message/circuit.py:Host.is_ok"]}
{"id": "C30", "title": "What a failed send leaves behind", "statement": "If a send does not return a datagram, no datagram has left and the packet counter of sent datagrams is unchanged; an unreliable one leaves the packets waiting for acknowledgement as they were on all circuits, a reliable one (failed or not) leaves its packet waiting under the next id of its circuit and changes no other circuit. A failed send returns None if all unicode texts of the message are ASCII, and raises ValueError otherwise.", "quantifier": "all failures at all points of a history", "why_tests_cant": "all crash points", "anchors": ["pyogp/lib/base/message/udpdispatcher.py:UDPDispatcher.__send_message", "pyogp/lib/base/message/circuit.py:Circuit.add_reliable_packet"]}
{"id": "C31", "title": "Trusted circuits drop what they parse", "statement": "On a circuit marked trusted, a datagram that parses leaves all circuits as they were, is not queued for acknowledgement, acknowledges nothing and is not delivered; no datagram whatever is delivered; a datagram that is skipped unparsed is still queued for acknowledgement.", "quantifier": "all states and datagrams", "why_tests_cant": "all datagrams", "anchors": ["pyogp/lib/base/message/udpdispatcher.py:UDPDispatcher.receive_check"]}
{"id": "C32", "title": "Traffic counters count", "statement": "packets_in equals the number of non-empty datagrams passed to receive_check and packets_out the number of datagrams handed to the socket successfully, in every history.", "quantifier": "all histories", "why_tests_cant": "all histories", "anchors": ["pyogp/lib/base/message/udpdispatcher.py:UDPDispatcher"]}
{"id": "C33", "title": "Subscribers are notified by position, in subscription order", "statement": "Firing an event calls the subscriber at position 0, then the one then at position 1, and so on to the end of the then current list, each with the event argument followed by its stored arguments, and makes no other calls. Hence if no handler unsubscribes from the event meanwhile, every subscriber, including those added meanwhile, is called exactly once in subscription order; and if one does, others can be left out.", "quantifier": "all subscriber lists, including handlers that subscribe or unsubscribe during notification", "why_tests_cant": "all subscription histories and handler behaviours", "anchors": ["pyogp/lib/base/events.py:Event.notify", "pyogp/lib/base/events.py:Event.subscribe"]}
{"id": "C34", "title": "subscribe/unsubscribe behave as a list of subscriptions", "statement": "In every history of subscribe and unsubscribe calls, the subscribers are those subscribed minus, for each successful unsubscribe, the earliest equal subscription; len(event) is their number; unsubscribing something not subscribed raises and changes nothing; clearSubscribers always raises AttributeError and unsubscribes nobody.", "quantifier": "all histories", "why_tests_cant": "all histories", "anchors": ["pyogp/lib/base/events.py:Event.subscribe", "pyogp/lib/base/events.py:Event.unsubscribe", "pyogp/lib/base/events.py:Event.getSubscriberCount", "pyogp/lib/base/events.py:Event.clearSubscribers"]}
{"id": "C35", "title": "Notification terminates unless handlers keep subscribing", "statement": "If handlers do not subscribe during notifications, a notification ends after at most as many handler calls as there are subscribers, also if handlers unsubscribe and fire other events. If they subscribe to the events that are fired at most c times per call, and not after M calls, it ends after at most c*M more. A handler that subscribes itself again on every call makes it never end.", "quantifier": "all handler behaviours", "why_tests_cant": "termination cannot be tested", "anchors": ["pyogp/lib/base/events.py:Event.notify"]}
{"id": "C36", "title": "A failing handler stops the notification and its exception reaches the caller", "statement": "If a handler raises during a notification, no handler runs after it, those met before it have run, the final state is what it left, and its exception propagates to whoever fired the event; MessageHandler.handle propagates every exception but KeyError, which ends the notification silently.", "quantifier": "all handler lists and failure points", "why_tests_cant": "all failure points and exception types", "anchors": ["pyogp/lib/base/events.py:Event.notify", "pyogp/lib/base/message/message_handler.py:MessageHandler.handle"]}
{"id": "C37", "title": "Messages reach exactly the subscribers of their name", "statement": "MessageHandler.handle(message) invokes the subscribers registered under message.name in order and nobody else; registering the same name twice yields the same notifier and keeps existing subscriptions; is_message_handled is true exactly for names ever registered.", "quantifier": "all registration histories and messages", "why_tests_cant": "all histories", "anchors": ["pyogp/lib/base/message/message_handler.py:MessageHandler"]}
{"id": "C38", "title": "Each event-queue poll acknowledges the last response", "statement": "Every poll posts {} if no response id is known and {'ack': id} with the id of the most recent successful response otherwise; on stop a final {'ack': id, 'done': True} is posted exactly when an id is known.", "quantifier": "all sequences of poll outcomes (response, empty, failure)", "why_tests_cant": "all histories", "anchors": ["pyogp/lib/base/event_queue.py:EventQueueClient._processRegionEventQueue"]}
{"id": "C39", "title": "What is handed over from the event queue", "statement": "Over every sequence of polls each response's messages are handed to the message handler in order, up to the first one the handler raises on; after every failed poll the last response is handed over once more in the same way. Hence if no poll fails and no handler raises, the messages handed over are exactly the events of the responses, once each, in order.", "quantifier": "all sequences of poll outcomes, including failed polls", "why_tests_cant": "all failure schedules", "anchors": ["pyogp/lib/base/event_queue.py:EventQueueClient._processRegionEventQueue", "pyogp/lib/base/event_queue.py:EventQueueClient._parse_result"]}
{"id": "C40", "title": "Event-queue decoding preserves message contents", "statement": "Decoding a response that consists of an id and events yields one message per event, with the event's name, tagged with the response id; a name in the template gives one block per body entry in order with its variables; a name outside it gives a single block Message_Data with the body's variables; and every value of the body can be read back under its block, instance and name. Every further entry that is a list is read as more events, list after list; an empty list, string or binary is a body without entries. A further entry that is not a list, a body that is another string, binary or scalar, or an event without body, makes the whole response undecodable. A response that is not a map with an entry 'events' hands over nothing.", "quantifier": "all responses", "why_tests_cant": "all LLSD bodies", "anchors": ["pyogp/lib/base/event_queue.py:EventQueueClient._decode_eq_result"]}
{"id": "C41", "title": "Outgoing messages leave in queue order", "statement": "For every history of enqueue_message calls of messages without non-ASCII unicode text, one pass of the UDP loop in which receiving does not raise sends the queued messages exactly once each, urgent (now=True) ones first in reverse order of enqueueing, then the others in order, with their reliability flag, and empties the queue. In every history whatsoever, what was enqueued is, up to order, what was handed to send_udp_message and what is still queued, and non-urgent messages are sent in order. (A failed send of non-ASCII text ends the pass; a host without address takes the messages without sending them.)", "quantifier": "all enqueue histories", "why_tests_cant": "all histories", "anchors": ["pyogp/lib/base/message_manager.py:MessageManager.enqueue_message", "pyogp/lib/base/message_manager.py:MessageManager._udp_dispatcher"]}
{"id": "C42", "title": "Seed capability returns exactly the requested capabilities", "statement": "SeedCapability.get(names) posts {'capabilities': names} once and returns one Capability per requested name with the granted URL; a name that was not granted raises KeyError and returns nothing, as does an answer without 'capabilities'; an answer (or its 'capabilities') that is not a map raises TypeError.", "quantifier": "all name lists and server responses", "why_tests_cant": "all responses", "anchors": ["pyogp/lib/base/caps.py:SeedCapability.get"]}
{"id": "C43", "title": "HTTP outcomes map to the declared exceptions", "statement": "Capability.GET and POST make exactly one request of the rest client (which may follow redirects, C104) and raise ResourceNotFound exactly on a 404, ResourceError with the code exactly on any other HTTP error, DeserializerNotFound on an unsupported content type, and otherwise return the parsed body; payloads other than lists and maps are refused without a request. The caller's custom headers of a POST reach the server (those of a GET are ignored: it has none), no others except Content-type do, and an exact 'Content-type' replaces the default, unless names differ only in case; a header arrives with its first letter in upper case and the others in lower case, so names with the same letters are one header. Exceptions: a response without content type raises KeyError, and a body whose value is zero or false raises instead of being returned.", "quantifier": "all responses, status codes, payloads, headers", "why_tests_cant": "all status codes and headers", "anchors": ["pyogp/lib/base/caps.py:Capability.GET", "pyogp/lib/base/caps.py:Capability.POST", "pyogp/lib/base/caps.py:Capability._response_handler"]}
{"id": "C44", "title": "int_to_bytes is little-endian modulo 2^32", "statement": "For every integer n (also negative), Helpers.int_to_bytes(n) is 4 bytes whose little-endian value is n mod 2^32.", "quantifier": "all integers", "why_tests_cant": "unbounded integers", "anchors": ["pyogp/lib/base/helpers.py:Helpers.int_to_bytes"]}
{"id": "C45", "title": "bytes_to_hex is a faithful dump that hex_to_ascii can read back", "statement": "bytes_to_hex is injective, yields two upper-case hex digits per byte separated by single spaces, and hex_to_ascii of it (spaces removed) returns the bytes; hex_to_ascii also accepts any mixture of upper- and lower-case digits and maps it to the bytes it spells.", "quantifier": "all byte strings", "why_tests_cant": "all byte strings", "anchors": ["pyogp/lib/base/helpers.py:Helpers.bytes_to_hex", "pyogp/lib/base/helpers.py:Helpers.hex_to_ascii"]}
{"id": "C46", "title": "Packed floats decode to the point of the range they denote", "statement": "packed_u16_to_float and packed_u8_to_float are monotone in the packed value under every monotone rounding that keeps zero; in exact arithmetic they give the point of the range the number denotes, except that a point closer than one quantisation step to zero gives zero. Hence they map 0 to lower and the maximum to upper and stay in [lower, upper], unless an end of the range is a non-zero number closer than a step to zero. With rounded arithmetic of relative error e (doubles: e = 2^-53) the result is within 7e(|lower|+|upper|) of that point, or zero if it is within a step of zero; it can exceed upper by such an error. On IEEE doubles, for every finite range up to 2^1000 in size, the result is a finite double within 8*2^-53(|lower|+|upper|) + 2^-1072 of the point, or zero for a point within a step of zero, and is monotone in the packed number. A buffer that ends before the number raises struct.error.", "quantifier": "all packed values, all ranges lower < upper, exact arithmetic, every rounding of relative error at most 1/64, and IEEE double arithmetic (all finite doubles up to 2^1000)", "why_tests_cant": "all ranges", "anchors": ["pyogp/lib/base/helpers.py:Helpers.packed_u16_to_float", "pyogp/lib/base/helpers.py:Helpers.packed_u8_to_float"]}
{"id": "C47", "title": "The template parser reads back what a template file says", "statement": "On Python 2.6, parsing a template file written in the layout of message_template.msg yields exactly the declared messages, blocks and variables, in order, with their frequencies, numbers, trust, encoding, deprecation, block counts and variable sizes; comments and blank lines are ignored. On Python 2.7 the same holds if all message numbers are below 256, and otherwise struct.error is raised. Message numbers may be decimal, hexadecimal (0x), octal (0 or 0o) or binary (0b). A version that float() does not read, and a message number that is not written this way, raise ValueError.", "quantifier": "all template files in that layout", "why_tests_cant": "all files", "anchors": ["pyogp/lib/base/message/template_parser.py:MessageTemplateParser"]}
{"id": "C48", "title": "Template lookup by name and by (frequency, number) agree", "statement": "For a template list without duplicate names or duplicate (frequency, number) pairs, TemplateDictionary.get_template and get_template_by_pair return exactly the listed templates (None for anything else) and the id bytes are those of their frequency class; on Python 2.6 the embedded message_template.msg loads, has no such duplicates and all its 475 templates are well-formed; on Python 2.7 loading it raises struct.error.", "quantifier": "all template lists; the entire embedded template", "why_tests_cant": "all lists", "anchors": ["pyogp/lib/base/message/template_dict.py:TemplateDictionary", "pyogp/lib/base/message/data/message_template.msg"]}
{"id": "C49", "title": "Message objects keep every block and variable in order", "statement": "Message(name, blocks...) holds, per block name, the blocks in the order given (lists flattened); msg[block][i][var] is the value given; building through LLSDMessageBuilder gives the same content.", "quantifier": "all messages", "why_tests_cant": "all messages", "anchors": ["pyogp/lib/base/message/message.py:MessageBase.parse_blocks", "pyogp/lib/base/message/template.py:MsgData.add_block", "pyogp/lib/base/message/llsd_builder.py:LLSDMessageBuilder"]}
{"id": "C50", "title": "Message.to_dict represents the last instance of every block", "statement": "Message.to_dict()['body'] has an entry for exactly the blocks of the message, and each is a list with one variable map, that of the last instance of that block. Hence a message in which every block occurs once is represented completely, and other instances are missing.", "quantifier": "all messages", "why_tests_cant": "all repetition counts", "anchors": ["pyogp/lib/base/message/message.py:Message.to_dict"]}
{"id": "C51", "title": "What validate_udp_msg answers", "statement": "validate_udp_msg returns True for names absent from message.xml and for flavor 'template', False for other flavors, and raises KeyError exactly for entries without a flavor. With the embedded message.xml it answers for every message of the embedded template (it raises for four names that are not messages of the template), and bans exactly seventeen of them from UDP.", "quantifier": "all message.xml contents and names", "why_tests_cant": "all names", "anchors": ["pyogp/lib/base/message/message_dot_xml.py:MessageDotXML.validate_udp_msg"]}
{"id": "C52", "title": "Where a custom message.xml has effect", "statement": "A serializer or deserializer that is given a message.xml uses it: what it bans is not serialized. A UDPDispatcher or MessageManager that is given one behaves exactly as without it: its parsers use the embedded message.xml.", "quantifier": "all message.xml contents and messages", "why_tests_cant": "all configurations", "anchors": ["pyogp/lib/base/message/udpdispatcher.py:UDPDispatcher.__init__", "pyogp/lib/base/message_manager.py:MessageManager.__init__"]}
{"id": "C53", "title": "Quiet logging overrides spammy logging", "statement": "For every combination of constructor flags, quiet_logging turns all logging flags off (and spam filtering on) even if spammy_logging is requested, and never changes any non-logging behaviour flag.", "quantifier": "all constructor flag combinations", "why_tests_cant": "cross-product of flags against every setting", "anchors": ["pyogp/lib/base/settings.py:Settings"]}
{"id": "C54", "title": "How often a Single block is sent", "statement": "serialize rejects a message in which a block declared Single is missing; every instance of a Single block that is given is written, one after the other and without a count, so a second instance is not rejected and the receiver takes its bytes for the following blocks.", "quantifier": "all templates and messages", "why_tests_cant": "must hold for every template block and every number of instances", "anchors": ["pyogp/lib/base/message/udpserializer.py:UDPMessageSerializer.build_block"]}
{"id": "C55", "title": "The zero-code flag and the payload", "statement": "The flags of an outgoing message only determine the first byte of the datagram: the payload is never zero-coded, whatever the flags are. With the zero-code flag a payload without zero bytes is still read correctly by the receiver, one with zero bytes in general is not.", "quantifier": "all messages and flags", "why_tests_cant": "depends on every payload byte", "anchors": ["pyogp/lib/base/message/udpserializer.py:UDPMessageSerializer.serialize", "pyogp/lib/base/message/udpdeserializer.py:UDPMessageDeserializer.zero_code_expand"]}
{"id": "C56", "title": "Byte order of appended acks", "statement": "The receiver reads each appended ack least significant byte first. So the ids a peer appends in that order are reported exactly, and an id appended in the byte order of the header packet id (most significant byte first) is reported with its four bytes reversed.", "quantifier": "all ack ids and datagrams", "why_tests_cant": "palindromic ids hide the defect; it must hold for all ids", "anchors": ["pyogp/lib/base/message/udpdeserializer.py:UDPMessageDeserializer.__decode_data"]}
{"id": "C57", "title": "Extra header bytes", "statement": "The library never announces extra header bytes in what it sends. When a received datagram announces k of them (byte 5), the message number is nevertheless the one read directly after the six header bytes; a datagram whose number there is unknown is ignored, and otherwise the blocks are read starting k bytes after that number.", "quantifier": "all k, extra bytes and datagrams", "why_tests_cant": "quantifies over all datagrams of peers that use the field", "anchors": ["pyogp/lib/base/message/udpdeserializer.py:UDPMessageDeserializer.__validate_message", "pyogp/lib/base/message/udpdeserializer.py:UDPMessageDeserializer.__decode_data"]}
{"id": "C58", "title": "Appended acks and message content", "statement": "If the body of a datagram is complete before its appended acks, the blocks received are read from that part only, whatever the acks are; a body that ends too early is completed from the bytes of the acks.", "quantifier": "all datagrams with appended acks", "why_tests_cant": "quantifies over every body length, template and ack list", "anchors": ["pyogp/lib/base/message/udpdeserializer.py:UDPMessageDeserializer.deserialize", "pyogp/lib/base/message/udpdeserializer.py:UDPMessageDeserializer.__decode_data"]}
{"id": "C59", "title": "A trusted circuit accepts nothing", "statement": "On a circuit marked trusted no datagram is accepted or delivered to handlers, not even one of a message the template declares Trusted.", "quantifier": "all states, templates and datagrams", "why_tests_cant": "quantifies over all datagrams on all trusted circuits", "anchors": ["pyogp/lib/base/message/udpdispatcher.py:UDPDispatcher.receive_check", "pyogp/lib/base/message/message.py:Message"]}
{"id": "C60", "title": "Appended acks acknowledge, and nothing else does", "statement": "When a datagram parses on an untrusted circuit, a packet that waited for acknowledgement waits afterwards exactly if it was sent to another peer or its id is not in the ack list appended to the datagram; the blocks of the message are not looked at, not even those of PacketAck. A datagram that is skipped, malformed or dropped acknowledges nothing.", "quantifier": "all circuits, datagrams and subscriber behaviours", "why_tests_cant": "quantifies over all ids and reliability states", "anchors": ["pyogp/lib/base/message/circuit.py:Circuit.handle_packet", "pyogp/lib/base/message/udpdispatcher.py:UDPDispatcher.receive_check"]}
{"id": "C61", "title": "Delivery is once per receipt", "statement": "Every datagram that parses on an untrusted circuit is delivered to the subscribers exactly once per receipt, before anything its subscribers cause; the same packet received again (a retransmission) is delivered again.", "quantifier": "all states, datagrams and subscriber behaviours", "why_tests_cant": "quantifies over all histories and over everything subscribers may do", "anchors": ["pyogp/lib/base/message/udpdispatcher.py:UDPDispatcher.receive_check"]}
{"id": "C62", "title": "When stopping the event queue completes", "statement": "After stop() is called the client finishes its current poll; if the final POST succeeds or nothing has to be acknowledged, start() returns True and the client no longer counts as running; if something has to be acknowledged and the final POST fails, start() returns False and the client counts as running for ever.", "quantifier": "all sequences of poll outcomes and all outcomes of the final POST", "why_tests_cant": "depends on which request fails and on the whole history of ids", "anchors": ["pyogp/lib/base/event_queue.py:EventQueueClient.start", "pyogp/lib/base/event_queue.py:EventQueueClient._processRegionEventQueue"]}
{"id": "C63", "title": "Which capabilities are polled", "statement": "Starting a client with an 'event_queue' capability (agent domain) returns False and makes no request, and so does one with any other name that is not 'EventQueueGet'.", "quantifier": "all capability names and server behaviours", "why_tests_cant": "a claim about every capability name and every server", "anchors": ["pyogp/lib/base/event_queue.py:EventQueueClient.start", "pyogp/lib/base/event_queue.py:EventQueueClient._processADEventQueue"]}
{"id": "C64", "title": "What can end the UDP loop", "statement": "If receiving a datagram raises, the UDP loop ends with that exception and nothing more is sent or read; one five-byte datagram from anyone suffices. If all messages enqueued are built from blocks without non-ASCII unicode text, then (with the default settings) nothing but receiving can end the loop with an exception, in any history.", "quantifier": "all sequences of datagrams and all histories", "why_tests_cant": "one bad datagram among all possible ones, at any point of any history, suffices to break it", "anchors": ["pyogp/lib/base/message_manager.py:MessageManager._udp_dispatcher", "pyogp/lib/base/message/udpdispatcher.py:UDPDispatcher.receive_check"]}
{"id": "C65", "title": "What stop_monitors does", "statement": "stop_monitors ends the UDP loop; with an event queue it stops that exactly if it runs and does not raise; without an event queue it raises AttributeError.", "quantifier": "managers with and without an event queue, running or not", "why_tests_cant": "depends on every combination of monitors and their state", "anchors": ["pyogp/lib/base/message_manager.py:MessageManager.stop_monitors"]}
{"id": "C66", "title": "Which configurations of a message manager can be constructed", "statement": "MessageManager can be constructed exactly if the template and message.xml arguments are files or absent and there is a handler or packet handling is on; any other combination raises (NameError for the documented fallback on something that is not a file).", "quantifier": "all combinations of constructor arguments and settings", "why_tests_cant": "the combinations are not enumerated by the tests", "anchors": ["pyogp/lib/base/message_manager.py:MessageManager.__init__", "pyogp/lib/base/message/udpdispatcher.py:UDPDispatcher.__init__"]}
{"id": "C67", "title": "What a custom message template governs", "statement": "A deserializer, dispatcher or message manager that is given a template file parses received datagrams with the templates of that file; a dispatcher or manager that is given one raises AttributeError on every attempt to serialize a message, and a serializer that is given an unread non-empty file cannot be constructed (AttributeError).", "quantifier": "all template files, messages and settings", "why_tests_cant": "quantifies over every template file and message", "anchors": ["pyogp/lib/base/message/udpserializer.py:UDPMessageSerializer.__init__", "pyogp/lib/base/message/udpdeserializer.py:UDPMessageDeserializer.__init__", "pyogp/lib/base/message/udpdispatcher.py:UDPDispatcher.__init__"]}
{"id": "C68", "title": "Which messages can be shown as text", "statement": "str(message), repr(message) and message.data() return a text for every message built from blocks without non-ASCII unicode values, for every message received in the default configuration, and for every message received with a template in which no Fixed field has an odd length; a message built from blocks with a non-ASCII unicode value raises UnicodeEncodeError, and one received with a Fixed field of odd length can raise struct.error. In general, whatever types its variables are marked with, a message can be shown if and only if each variable can be shown by itself and there are not both unicode text and a str with a byte over 127 among them.", "quantifier": "all messages and all datagrams", "why_tests_cant": "some value among all possible ones suffices to break it", "anchors": ["pyogp/lib/base/message/message.py:Message.data", "pyogp/lib/base/message/message.py:Message.__repr__", "pyogp/lib/base/message/template.py:MsgVariableData.get_data_as_string"]}
{"id": "C69", "title": "Every pass of the UDP loop acknowledges what was received", "statement": "In every history of a manager whose hosts are valid (and whose subscribers do not see outgoing packets, the default), after one pass of the UDP loop that does not raise while receiving, every packet that was waiting to be acknowledged has been acknowledged exactly once in PacketAck messages and none is left waiting.", "quantifier": "all histories, datagrams and queued messages", "why_tests_cant": "depends on the whole history and on everything that is sent in the same pass", "anchors": ["pyogp/lib/base/message_manager.py:MessageManager._udp_dispatcher", "pyogp/lib/base/message/udpdispatcher.py:UDPDispatcher.process_acks", "pyogp/lib/base/message/udpdispatcher.py:UDPDispatcher.has_unacked"]}
{"id": "C70", "title": "serialize produces exactly the datagram the protocol prescribes", "statement": "serialize returns a datagram exactly if the message's template exists, may be sent over UDP and the message fills it, and then the datagram is: the flags byte, the packet id in four bytes (most significant first), a zero byte, the message number of the template, then for every block of the template in order - nothing but the fields of its instances for Single and Multiple, a count byte and the fields for Variable - every field in template order at its declared width, variable-length ones after a length prefix of their declared size (and four zero bytes at the end of RegionHandshakeReply). The datagram is unique.", "quantifier": "all messages, template sets and byte strings", "why_tests_cant": "A test fixes one message; the claim is about every template and message and is an equivalence (nothing else is ever produced, nothing valid is refused).", "anchors": ["pyogp/lib/base/message/udpserializer.py UDPMessageSerializer.serialize", "pyogp/lib/base/message/udpserializer.py build_block", "pyogp/lib/base/message/data_packer.py"]}
{"id": "C71", "title": "A message sent by one dispatcher arrives at the other", "statement": "In the default setting (no subscribers of outgoing packets, the socket accepts what it gets, nothing owed to the peer), every message that fills a template both sides know, sent by a dispatcher with any history to a valid host, becomes one datagram, and receive_check of it in any state of a peer delivers one message with the same content, the id the sender gave it, marked reliable exactly if sent so; that id is then owed exactly if it was sent reliably. What process_acks then sends is read by a peer as PacketAck messages listing exactly the owed ids in order, for the host of each circuit.", "quantifier": "all pairs of dispatcher histories, all templates and messages, all send modes", "why_tests_cant": "composes two independent histories with the codec for all templates", "anchors": ["pyogp/lib/base/message/udpdispatcher.py:UDPDispatcher.send_message", "pyogp/lib/base/message/udpdispatcher.py:UDPDispatcher.receive_check", "pyogp/lib/base/message/udpdispatcher.py:UDPDispatcher.__send_acks", "pyogp/lib/base/message/udpserializer.py:UDPMessageSerializer.serialize", "pyogp/lib/base/message/udpdeserializer.py:UDPMessageDeserializer.deserialize"]}
{"id": "C72", "title": "Flags and ids on the wire", "statement": "Whatever is done with a dispatcher and whatever send_flags the caller sets on messages, the flag byte of every datagram handed to the socket is 0x00, 0x20, 0x40 or one of these with the ACK bit 0x10 (never zero-coded); and until its circuit is removed, the ids in the datagrams sent to one address are strictly increasing.", "quantifier": "all histories of dispatcher operations with any subscribers and any socket behaviour", "why_tests_cant": "all interleavings of sends, receives and callbacks", "anchors": ["pyogp/lib/base/message/circuit.py:Circuit.prepare_packet", "pyogp/lib/base/message/udpdispatcher.py:UDPDispatcher.__send_message"]}
{"id": "C73", "title": "Vectors survive their byte form", "statement": "Vector3.get_bytes yields 12 bytes (OverflowError exactly if a component is too large for a single), from which Vector3(bytes, offset) reads the components rounded to singles, wherever the bytes stand in a buffer; conversely 12 bytes without a NaN are read as a vector whose get_bytes are the same bytes; fewer than 12 bytes from the offset on raise struct.error; a copy has the same components bit for bit; a vector made from numbers and text holds float() of each, integers rounded to the nearest double, and raises OverflowError or ValueError for the first component that has none. A vector field of a message is read in the same way (DataUnpackingError instead of struct.error).", "quantifier": "all vectors of doubles, all byte buffers and offsets", "why_tests_cant": "2^192 vectors, all buffers and offsets", "anchors": ["pyogp/lib/base/datatypes.py:Vector3"]}
{"id": "C74", "title": "Where a quaternion gets its W from", "statement": "Quaternion.get_bytes yields 16 bytes from which Quaternion(bytes, offset) reads all four components rounded to singles; W is reconstructed instead exactly if fewer than 16 bytes follow the offset. The argument length is ignored, so a 12-byte quaternion followed by anything else in the buffer takes the next four bytes as its W. A quaternion field of a message is read in the same way (DataUnpackingError instead of struct.error).", "quantifier": "all quaternions, buffers, offsets and lengths", "why_tests_cant": "all buffers", "anchors": ["pyogp/lib/base/datatypes.py:Quaternion"]}
{"id": "C75", "title": "Vector3.parse reads what repr writes", "statement": "Vector3.parse accepts three comma-separated numbers, in angle brackets or not, padded with white space, and returns the vector of these numbers; any other number of commas, or a field that is not a number, raises ValueError and nothing else is ever raised; parse of repr(v) gives v up to the precision of str(float). Misplaced brackets are accepted.", "quantifier": "all strings, every float and str conversion", "why_tests_cant": "all strings", "anchors": ["pyogp/lib/base/datatypes.py:Vector3.parse", "pyogp/lib/base/datatypes.py:Vector3.__repr__"]}
{"id": "C76", "title": "UUID equality", "statement": "a == b for a UUID a holds exactly if b is a datatypes.UUID with the same 128 bits (in particular copies and UUIDs read back from bytes or text are equal, and a standard uuid.UUID never is); != is not its negation: two different objects of equal value are both == and !=. u in a list of UUIDs holds exactly if an element has the value of u; a dict with UUID keys, however, finds only what was stored under the very same object, because the class has no __hash__.", "quantifier": "all UUID values and operands", "why_tests_cant": "2^256 pairs; object identity", "anchors": ["pyogp/lib/base/datatypes.py:UUID.__eq__"]}
{"id": "C77", "title": "How long Wait waits", "statement": "Wait(duration) returns True after exactly the passes with which the clock first shows int(duration) seconds since the start or stop was called: the fraction of a second is dropped and a duration below 1 does not sleep; AssertionErrors of the sleep never end it (and if every sleep raises one it never returns), any other exception ends it.", "quantifier": "all durations, all sequences of clock readings, sleep outcomes and calls of stop", "why_tests_cant": "all schedules of the sleep and clock", "anchors": ["pyogp/lib/base/helpers.py:Wait"]}
{"id": "C78", "title": "Two programs talking over an unreliable network", "statement": "For two programs that each use the dispatcher and exchange datagrams over a network that may lose, duplicate, delay, reorder and misdirect them (but not invent any), provided the receiver knows the templates and the sender appended no acks: every message delivered to the receiver's subscribers is, with its content, packet id and reliable flag, one the other program sent, and deliveries are in the order of reception; if all is handled, every datagram received is delivered. Over a perfect network the deliveries are exactly the messages sent there, once and in order. If the network duplicates nothing, no packet id is delivered twice (if it does, it is: there is no duplicate detection). No reliable packet is ever considered acknowledged, whatever the other side acknowledges, because acknowledgements are sent as PacketAck messages, which the receiver does not read.", "quantifier": "all interleavings of operations of both programs and of arrivals, all losses, duplications and reorderings by the network, all messages and handler sets", "why_tests_cant": "there are unboundedly many interleavings and network behaviours; a test runs one", "anchors": ["pyogp/lib/base/message/udpdispatcher.py:UDPDispatcher", "pyogp/lib/base/message/circuit.py:Circuit", "pyogp/lib/base/message/udpserializer.py:UDPMessageSerializer", "pyogp/lib/base/message/udpdeserializer.py:UDPMessageDeserializer"]}
{"id": "C79", "title": "Queued messages leave once, whatever the schedule", "statement": "In every history of a MessageManager - start_monitors and stop_monitors called any number of times, any number of UDP loops alive and interrupted at any switch, messages enqueued at any time, the dispatcher used directly in between - each message given to enqueue_message is handed to sending at most once and otherwise still queued; messages not enqueued with now=True leave in the order they were enqueued. The dispatcher has gone through a history of single uses, so all properties of dispatcher histories hold. A pass nobody interrupts is the pass of C41/C64/C69.", "quantifier": "all sequences of actions (enqueue, start, stop, direct use, one loop running to its next switch), all datagrams, socket results and subscribers", "why_tests_cant": "the schedules of several coroutines are unboundedly many and eventlet picks one; a test sees one interleaving", "anchors": ["pyogp/lib/base/message_manager.py:MessageManager._udp_dispatcher", "pyogp/lib/base/message_manager.py:MessageManager.enqueue_message", "pyogp/lib/base/message_manager.py:MessageManager.start_monitors"]}
{"id": "C80", "title": "When the UDP loops stop", "statement": "After stop_monitors, as long as start_monitors is not called again, every UDP loop alive takes at most one more datagram from the socket; if nothing is enqueued either, the loops are run at most four times each plus once per queued message before all have ended; once none is alive nothing is read or sent and enqueued messages wait. If start_monitors is called before a stopped loop has noticed, the old loop goes on next to the new one and neither returns before the next stop_monitors.", "quantifier": "all states of a manager and all schedules after stop_monitors", "why_tests_cant": "it is about every interleaving of stop, start, enqueue and the loops", "anchors": ["pyogp/lib/base/message_manager.py:MessageManager.stop_monitors", "pyogp/lib/base/message_manager.py:MessageManager._udp_dispatcher"]}
{"id": "C81", "title": "When the event queue stops, and what other coroutines can do to it", "statement": "Once the event queue was told to stop, by its stop method or by stop_monitors while it was running, each of its coroutines in its pause makes at most one more poll and no other poll is ever made, even if start_monitors is called again. If stop_monitors is called before the coroutine of the event queue has first run, the event queue is not told and polls on. If start_monitors is called at most once, the event queue behaves in every schedule as if it were alone: polls acknowledge what was known, events are handed over as in C38, C39 and C62. If ENABLE_REGION_EVENT_QUEUE is off or the manager has no event queue, no poll is ever made.", "quantifier": "all states and schedules of a manager with an event queue, all responses and failures", "why_tests_cant": "it is about every interleaving of the polls with the rest of the program", "anchors": ["pyogp/lib/base/event_queue.py:EventQueueClient.start", "pyogp/lib/base/event_queue.py:EventQueueClient.stop", "pyogp/lib/base/event_queue.py:EventQueueClient._processRegionEventQueue", "pyogp/lib/base/message_manager.py:MessageManager.stop_monitors"]}
{"id": "C82", "title": "Datagrams longer than the receive buffer", "statement": "A UDP manager hands datagrams of at most 10000 bytes to its dispatcher whole. A longer datagram is cut off. If it carries a well-formed message for which there is a handler, the message never reaches a subscriber: either it is dropped silently and its packet id is nevertheless queued for acknowledgement, so the sender considers it delivered, or (if the cut falls where a list's count is expected) MessageDeserializationError is raised, which ends the receiving loop, and nothing is acknowledged. serialize has no corresponding limit.", "quantifier": "every message that serialize accepts with a datagram longer than 10000 bytes, every state of the receiving dispatcher, every address", "why_tests_cant": "needs messages of every size and every position of the cut relative to the fields of every template; small messages always work", "anchors": ["pyogp/lib/base/network/net.py: NetUDPClient.receive_packet", "pyogp/lib/base/message_manager.py: MessageManager._udp_dispatcher", "pyogp/lib/base/message/udpdispatcher.py: UDPDispatcher.receive_check"]}
{"id": "C83", "title": "Two programs that send through the queue", "statement": "In a program whose subscribers only look at messages, that sends only through the manager's queue, does not start a second loop while one is alive and has a valid host: no packet carries appended acknowledgements; the packets other than PacketAck are exactly the messages taken from the queue, in that order, to that host, with their content and reliable exactly if asked for; every PacketAck acknowledges between 1 and 251 ids. If two such programs exchange datagrams that fit the receive buffer and the network has so far handed B the first of A's datagrams for it, in order and without gaps, B's subscribers have got exactly the first of the messages A took from its queue, in that order and with the same content and reliability, and all of them if no datagram is on its way; if moreover A's queue is empty, these are all messages A ever enqueued. A direct send by the program or a second loop makes acknowledgements ride on other packets. And no reliable message is ever confirmed: whatever the other program received and acknowledged, over whatever network, every reliable packet sent still waits in unacked_packets, whose size is the number of reliable messages ever taken from the queue.", "quantifier": "all histories of two managers: any interleaving of enqueue, start, stop, loop steps and network transfers, all messages that fill well-formed templates both know, all subscribers that do not use the dispatcher, fewer than 2^31 packets", "why_tests_cant": "it is about every interleaving of two programs and every sequence of messages", "anchors": ["pyogp/lib/base/message_manager.py: MessageManager.enqueue_message", "pyogp/lib/base/message_manager.py: MessageManager._udp_dispatcher", "pyogp/lib/base/message/udpdispatcher.py: UDPDispatcher.receive_check", "pyogp/lib/base/message/udpdispatcher.py: UDPDispatcher.process_acks", "pyogp/lib/base/message/circuit.py: Circuit"]}
{"id": "C84", "title": "Acknowledgements of acknowledgements never end", "statement": "Take two programs as in C83 with the default configuration (deferred parsing, nobody subscribed to PacketAck) over a network that may delay and reorder. Once one of them has acknowledged anything, then in every later state in which all datagrams sent have arrived, at least one of them has something to acknowledge (has_unacked is true), and whenever the loop of such a program comes to acknowledging it sends a PacketAck: the two never fall silent although nobody sends messages any more. A subscriber to PacketAck on the receiving side stops it.", "quantifier": "all histories of two managers over a network that may lose, delay and reorder but not duplicate; all messages and subscribers that do not use the dispatcher; fewer than 2^31 packets, all at most 10000 bytes", "why_tests_cant": "it is about every history: a test sees a finite exchange and cannot tell a long one from one without end", "anchors": ["pyogp/lib/base/message/udpdispatcher.py: UDPDispatcher.receive_check", "pyogp/lib/base/message/udpdispatcher.py: UDPDispatcher.process_acks", "pyogp/lib/base/message/udpdispatcher.py: UDPDispatcher.has_unacked", "pyogp/lib/base/message/circuit.py: Circuit.collect_ack", "pyogp/lib/base/message/udpdeserializer.py: UDPMessageDeserializer.deserialize"]}
{"id": "C85", "title": "A message object may be changed, sent and enqueued again at any time", "statement": "Message objects may be reused freely: whatever a program does with them (changing them, sending or enqueueing the same object several times, also while an earlier packet of it waits for an acknowledgement), what is sent, received, delivered to subscribers, waiting or acknowledged is the same as for separate messages with the content the objects have when they are sent. Sending changes neither name nor blocks. A message from the queue leaves with the content it has when it is sent, not when it was enqueued. An object used before is sent exactly like a newly constructed one with the same name and blocks. Only the messages kept in unacked_packets differ: they are the objects themselves, with the later changes and packet ids.", "quantifier": "all histories of changes to message objects, sends, enqueues, queue passes and other uses of a dispatcher; all subscribers that send or change hosts (used before: when outgoing subscribers are off and the socket does not look at message objects)", "why_tests_cant": "the number of ways in which one object can be shared between program, queue and circuits is unbounded; a test constructs a new message for each send", "anchors": ["pyogp/lib/base/message/circuit.py: Circuit.prepare_packet", "pyogp/lib/base/message/circuit.py: Circuit.add_reliable_packet", "pyogp/lib/base/message/udpdispatcher.py: UDPDispatcher.__send_message", "pyogp/lib/base/message_manager.py: MessageManager.enqueue_message", "pyogp/lib/base/message_manager.py: MessageManager.send_udp_message"]}
{"id": "C86", "title": "Describing templates", "statement": "print_packet_list of the templates parsed from a file in the layout of message_template.msg prints, for every declared message in the order of the file, a rule of 81 '=' signs, a line with name, lower-case frequency, number, the id in hexadecimal, trust, encoding and deprecation, and below it the blocks and their variables in the order of the file, with type names beginning MVT_. Two files with equal listings declare the same messages, blocks and variables except for the sizes of variables. Of Medium and High messages the id shown is the one of the wire; of Low messages it never is (only the low byte of the number is shown, so messages 1 and 257 look alike). The listing is TypeError exactly if some trust, encoding, deprecation or variable type word was unknown to the parser; an unknown block type is shown as 'None'. get_all_types returns the types in use, each once, in increasing order (TypeError for an unknown one). print_packet_names numbers the messages from 1 and ends with how many messages there are of each frequency. get_template_list returns the names in the order of the file.", "quantifier": "every template file in the layout and both Python versions; every list of parsed templates, known or not", "why_tests_cant": "Holds for every file and every combination of words in it; the tests print nothing and look at one file.", "anchors": ["pyogp/lib/base/message/template_parser.py: print_packet_list, print_packet_names, get_all_types", "pyogp/lib/base/message/template.py: *_as_string, get_message_hex_num", "pyogp/lib/base/message/msgtypes.py: MBT_as_string, MVT_as_string", "pyogp/lib/base/message/template_dict.py: get_template_list"]}
{"id": "C87", "title": "An exception of serialize is about the first thing wrong with the message", "statement": "UDPMessageSerializer.serialize raises exactly when something is wrong with the message, and the exception is about the first thing that is wrong, in this order: the name is not in the template (AttributeError); the message.xml entry has no flavor (KeyError 'flavor'); the flags or the packet id do not fit; and then, block by block in template order, instance by instance, variable by variable: a missing block (KeyError with the name of the block), a wrong number of instances of a Multiple block (MessageSerializationError labelled with the name of the block), too many instances of a Variable block to count, a missing variable (KeyError with the name of the variable), a value that cannot be packed, an unknown size of a length (MessageSerializationError labelled 'variable size'), a value too long for its length.", "quantifier": "all templates, message.xml contents and messages; both Python versions", "why_tests_cant": "a test shows the exception for one defective message; that the one reported is always the first defect, and that nothing else raises, is about every combination of defects", "anchors": ["pyogp/lib/base/message/udpserializer.py: UDPMessageSerializer.serialize, build_block", "pyogp/lib/base/message/template.py: MsgData.get_block, MsgBlockData.get_variable", "pyogp/lib/base/message/message_dot_xml.py: MessageDotXML.validate_udp_msg", "pyogp/lib/base/exc.py: MessageSerializationError"]}
{"id": "C88", "title": "What a receiver makes of a datagram", "statement": "Every datagram either has a unique division into flags, packet id, extra header bytes, appended acks, (zero-decoded) packet and message number, or ends before the end of its message number (C16), or is not longer than a header and raises MessageDeserializationError. In the first case the outcome of deserialize is: None if no template has the number, or message.xml bans the message, or it is not handled (and deferred parsing is on), or the body ends within a field; MessageDeserializationError if the body ends where the number of instances of a Variable block should be, or if there is no instance of any block of a template with blocks; and otherwise the message whose blocks are those the bytes of the body spell out in template order. These cases are exhaustive and exclusive, so exactly the datagrams that spell out a message of a handled template are accepted.", "quantifier": "all byte strings, all template sets with well-formed variables, all message.xml contents, all sets of handlers, all histories of the deserializer", "why_tests_cant": "a test gives the outcome for one datagram; this determines the outcome for every byte string", "anchors": ["pyogp/lib/base/message/udpdeserializer.py: UDPMessageDeserializer.deserialize, __decode_data, __decode_template, zero_code_expand", "pyogp/lib/base/message/data_unpacker.py: DataUnpacker.unpack_data", "pyogp/lib/base/message/message_handler.py: MessageHandler.is_message_handled"]}
{"id": "C89", "title": "What the exceptions of a capability tell", "statement": "When GET, POST or POST_CUSTOM of a capability fails, the exception identifies the failure: on HTTP status 404 ResourceNotFound with the URL of the capability; on any other HTTP error ResourceError with that URL, the server's code, message and body, and the method used (GET, or POST for both kinds of POST); on a response of an unsupported type DeserializerNotFound with the media type without its parameters; on a body that is not LLSD DeserializationFailed with the body and the parser's reason, and on one whose value equals false with the reason 'result was False'; posting something that is neither a list nor a dictionary raises, without a request, DeserializerNotFound with the type of the payload. The seed capability's get passes the exception of its POST on unchanged. As strings the exceptions are the URL; \"Error using '<method>' on resource '<url>': <message> (<code>)\"; and \"deserialization for '<type>' not supported\".", "quantifier": "every URL, payload, header dictionary, iteration order of dictionaries, reply of the server and behaviour of the LLSD parser", "why_tests_cant": "a test meets a few status codes and bodies; callers branch on the attributes for every reply", "anchors": ["pyogp/lib/base/caps.py:Capability.GET, POST, POST_CUSTOM, _response_handler, SeedCapability.get", "pyogp/lib/base/exc.py:ResourceNotFound, ResourceError, DeserializerNotFound, DeserializationFailed", "pyogp/lib/base/helpers.py:LLSDDeserializer.deserialize_string"]}
{"id": "C90", "title": "Coroutine switches inside sending", "statement": "While a packet is being sent its coroutine can be suspended, in the subscribers of outgoing packets and in the socket, and other coroutines can send, receive, acknowledge, redirect hosts and remove circuits. Whatever the switches: the packet ids given for an address since its circuit was last removed are 1, 2, ..., n without repetition; the unacked packets of a circuit are exactly the reliable ones not acknowledged since; there is one circuit per address; the packet counters count the datagrams received and accepted by the socket; and every packet given an id leaves at most once, serialized as it was when it got its id, to the address it got the id for. Datagrams may leave in another order than their ids. A process_acks during which other coroutines only send and remove circuits acknowledges, when it ends, exactly the ids queued at its start, also those of circuits removed meanwhile (which come into being anew), and leaves nothing queued. If another coroutine receives meanwhile (a second monitor loop), an id that is queued while every process_acks busy with its circuit is still to read the rest of the queue is not lost: from then on it is acknowledged to the circuit's host, in a packet on its way through the subscribers, or still queued, whatever others send, receive and acknowledge, as long as nobody removes that circuit, redirects its host, or tampers with the acknowledging packets. An id that comes later (while the last packet is being sent) is dropped without being acknowledged, and two process_acks at the same time acknowledge a packet twice.", "quantifier": "every serializer, socket behaviour, host, and every history of starting sends, subscribers changing packets or raising, preparing, accepting or refusing datagrams, receiving, beginning process_acks with any iteration order, and mutations, interleaved at any switch", "why_tests_cant": "a test sees the switches of one schedule; which coroutine runs while a socket blocks or a subscriber sleeps cannot be enumerated", "anchors": ["pyogp/lib/base/message/udpdispatcher.py:UDPDispatcher.__send_message, process_acks, __send_acks, receive_check", "pyogp/lib/base/message/circuit.py:Circuit.prepare_packet, collect_ack", "pyogp/lib/base/network/net.py:NetUDPClient.send_packet", "pyogp/lib/base/event_queue.py (monkey patching of sockets)"]}
{"id": "C91", "title": "Every use of LLSDMessageBuilder", "statement": "After any history of calls of a LLSDMessageBuilder, including calls that raised: new_message works; next_block raises AttributeError if and only if new_message was never called; add_data raises AttributeError if and only if next_block never succeeded (so after new_message it silently goes to a block of the abandoned message); build_message raises AttributeError if new_message was never called, and otherwise returns a map with, for every block name declared since the last new_message, one variable map per declared instance, in order, with the value given last for each variable, together with the number of block names; is_built is true exactly when the last call was a build_message that did not raise.", "quantifier": "every finite sequence of calls with any names and values", "why_tests_cant": "the sequences of calls, and of calls that raise, are unbounded", "anchors": ["pyogp/lib/base/message/llsd_builder.py:LLSDMessageBuilder"]}
{"id": "C92", "title": "An exception of deserialize is about what is wrong with the datagram", "statement": "With a usable configuration, deserialize raises an exception exactly for four kinds of datagrams, and the exception says which: a MessageDeserializationError('packet length', 'template mismatch') for a packet that is no longer than a header; a MessageDeserializationError about the message, whose reason is a DataUnpackingError with no bytes, for a packet that is to be parsed and ends before the number of instances of a Variable block; a MessageDeserializationError('message', 'message is empty') for one without an instance of any block of its template; and an IndexError or struct.error without attributes for one that ends within its message number. No datagram deserves two of them, and leaving out the attributes of the exceptions gives exactly the outcomes of C16 and C88.", "quantifier": "all configurations in which the templates are well formed, all deserializers (whatever they received before), all byte strings", "why_tests_cant": "Only tests for single malformed datagrams can be written; which of the exceptions a byte string gives, and that a body never raises one with other attributes, is about all byte strings and templates.", "anchors": ["pyogp/lib/base/message/udpdeserializer.py: deserialize, __decode_template, __decode_data", "pyogp/lib/base/message/data_unpacker.py: unpack_data", "pyogp/lib/base/exc.py: MessageDeserializationError, DataUnpackingError"]}
{"id": "C93", "title": "Progress of the loops", "statement": "While stop_monitors is not called, a UDP loop that has had four turns, one for every message that was waiting and one for every urgent message that came in meanwhile has got everything that was waiting handed to send_udp_message, unless it was left by an exception; messages that are not urgent, other loops and direct use of the dispatcher do not delay it, and the bound is reached. So in an endless history in which a loop is run again and again without raising and urgent messages come only finitely often, every message that is ever enqueued is sent; but as long as an urgent one comes before every turn, nothing else is. A loop run 4k+3 times plus once per message waiting or coming in has read from the socket at least k times; an event queue that is not stopped and run 2k+1 times has polled at least k times, whatever the responses.", "quantifier": "all states of a manager, all finite and endless schedules of its coroutines, all other activity", "why_tests_cant": "it is about every schedule, also endless ones: a test runs one of them for a finite time", "anchors": ["pyogp/lib/base/message_manager.py:MessageManager._udp_dispatcher", "pyogp/lib/base/message_manager.py:MessageManager.enqueue_message", "pyogp/lib/base/event_queue.py:EventQueueClient._processRegionEventQueue"]}
{"id": "C94", "title": "Any number of programs on one network", "statement": "Any number of programs use the library over a network that may lose, duplicate, delay, reorder and misdirect datagrams but makes none up and names the true sender. If only one program j has an address and i could read what j sends (no appended acks, templates known to both), then the messages i accepts on the circuit of that address are, in order, some of the datagrams received from there, each read as a packet j prepared, with its content, id and reliable flag, whatever the others do; if i has handlers for all of it, all of them. The subscribers get what was accepted, in that order. If i received from j what j sent to it, once and in order, it accepted exactly j's messages in order; if nothing came more often than it was sent and j did not remove the circuit, no two messages accepted on the circuit have the same id. As long as no program sets the ACK flag, no reliable packet of any of them is ever acknowledged.", "quantifier": "all numbers of programs, all their behaviours, all network behaviours except forged content and senders", "why_tests_cant": "it is about every interleaving of any number of programs and every behaviour of the network", "anchors": ["pyogp/lib/base/message/udpdispatcher.py:UDPDispatcher.receive_check", "pyogp/lib/base/message/udpdispatcher.py:UDPDispatcher.find_circuit", "pyogp/lib/base/message/circuit.py:CircuitManager", "pyogp/lib/base/message/udpserializer.py:UDPMessageSerializer.serialize", "pyogp/lib/base/message/udpdeserializer.py:UDPMessageDeserializer.deserialize"]}
{"id": "C95", "title": "What is enqueued is delivered, and how soon", "statement": "Two programs that send only through the queue of their message manager, to a valid host, talk to each other; A's host is B's address, B can read and handles what A enqueues, and the network brings what A sends in order whenever a UDP loop of B reads (it may lose, duplicate and reorder what B sends). Once a UDP loop of A has had four turns, one for every message waiting in A's queue and one for every urgent message coming in, and then a UDP loop of B four turns for every datagram on its way to it, one for every message B's loop may have to send itself and three more, without stop_monitors being called, everything that was in A's queue has been delivered to B's subscribers, unless one of the two loops was left by an exception; and besides acknowledgements the subscribers have got exactly the first messages taken from A's queue, once, in order, with their content. If each understands what the other enqueues, their subscribers return and their sockets take every datagram, then no UDP loop of either is ever left by an exception, whatever the network does with the datagrams. So in an endless history of two such programs in which both loops are run again and again, A enqueues urgent messages only finitely often and B's program enqueues only finitely often, everything A ever enqueues is delivered.", "quantifier": "all finite and endless interleavings of the coroutines of two managers and the network, all messages that fill well-formed templates both know, all subscribers that do not use the dispatcher, fewer than 2^31 packets that fit the receive buffer", "why_tests_cant": "it is about every interleaving of two programs, also endless ones", "anchors": ["pyogp/lib/base/message_manager.py: MessageManager._udp_dispatcher", "pyogp/lib/base/message_manager.py: MessageManager.enqueue_message", "pyogp/lib/base/message/udpdispatcher.py: UDPDispatcher.receive_check", "pyogp/lib/base/message/udpdispatcher.py: UDPDispatcher.process_acks"]}
{"id": "C96", "title": "No event is lost between a simulator and its event-queue clients", "statement": "Let one event-queue client after the other poll a simulator that makes a new response (with an id differing from the previous one and not -1) only once the previous one is acknowledged and otherwise repeats it. Requests, answers and final acknowledgements may get lost, the simulator may answer with errors, clients may crash at any time. Then what the clients hand to their (not raising) message handlers is, in sequence, the responses of the simulator in the order it made them, without a gap: each once or several times in a row, at most the last, unacknowledged one not yet, with at most as many repetitions as failures. Every event is handed over, or in the last unacknowledged response, or still waiting; if nothing fails each is handed over exactly once, in order.", "quantifier": "all simulators of this kind, event histories, sequences of clients, and failures", "why_tests_cant": "unboundedly many polls, losses and crash points", "anchors": ["pyogp/lib/base/event_queue.py:EventQueueClient._processRegionEventQueue", "pyogp/lib/base/event_queue.py:EventQueueClient._parse_result"]}
{"id": "C97", "title": "What a dispatcher or message manager is made of", "statement": "A UDPDispatcher or MessageManager made with HANDLE_PACKETS off and no message handler raises AttributeError. Otherwise it can be made exactly if its template file (the embedded one if none is given) can be read; it then parses received datagrams with the templates of that file, treats a message as handled exactly if it is registered with the handler given (with a new one, none is), and leaves unhandled messages unparsed exactly if ENABLE_DEFERRED_PACKET_PARSING says so; without a template file it serializes with the same templates.", "quantifier": "all settings, handlers, template files and message.xml contents", "why_tests_cant": "quantifies over every combination of settings, handler and template file", "anchors": ["pyogp/lib/base/message/udpdispatcher.py:UDPDispatcher.__init__", "pyogp/lib/base/message_manager.py:MessageManager.__init__", "pyogp/lib/base/message/udpdeserializer.py:UDPMessageDeserializer.__init__"]}
{"id": "C98", "title": "Packet ids run out", "statement": "The ids of the packets for an address are never used again and are written as signed 32-bit numbers. Under Python 2.7 fewer than 2^31 datagrams are therefore ever sent to an address while its circuit is kept; once 2^31 - 1 packets have been prepared for it nothing reaches the socket for it any more (no message, no acknowledgement), whatever is called or received, until its circuit is removed, and a send returns None without raising (unless the message cannot be shown). Under Python 2.6 no send fails because of its id, and the header carries the id modulo 2^32.", "quantifier": "all histories of sends, received datagrams, acknowledgement rounds, removals and host changes; all continuations after the ids have run out", "why_tests_cant": "needs more than two thousand million packets in one history", "anchors": ["pyogp/lib/base/message/circuit.py:Circuit.next_packet_id", "pyogp/lib/base/message/udpserializer.py:UDPMessageSerializer.serialize", "pyogp/lib/base/message/udpdispatcher.py:UDPDispatcher.__send_message"]}
{"id": "C99", "title": "Vector3.dist_squared", "statement": "For vectors with finite components Vector3.dist_squared(a, b) is never negative nor NaN (it may be infinite), is 0 for a and a, is bit by bit the same for b and a, and never larger than that of another pair that is at least as far apart in each coordinate. If no component exceeds 2^500 it differs from the exact square of the distance by at most 8*2^-53 of it plus 2^-1073; so it is 0 only for points at most 2^-536 apart.", "quantifier": "all pairs of vectors with finite double components", "why_tests_cant": "ranges over all pairs of triples of doubles; rounding errors depend on all bits", "anchors": ["pyogp/lib/base/datatypes.py:Vector3.dist_squared"]}
{"id": "C100", "title": "bytes_to_base64 and bytes_to_ascii", "statement": "bytes_to_base64 returns the base64 text of the data (RFC 4648, with padding) followed by one newline: decoding gives the data back, and different data give different text. bytes_to_ascii raises binascii.Error exactly for more than 45 bytes; otherwise it returns one line of uuencoded text that decodes to the data.", "quantifier": "all byte strings (base64: below the limit of about 2^30 bytes of the standard library)", "why_tests_cant": "ranges over all byte strings", "anchors": ["pyogp/lib/base/helpers.py:Helpers.bytes_to_base64", "pyogp/lib/base/helpers.py:Helpers.bytes_to_ascii"]}
{"id": "C101", "title": "Peers do not influence each other", "statement": "As long as host objects keep their addresses (one Host per peer) and the subscribers of a message only answer the peer it came from, everything that happens with one peer address of a dispatcher (datagrams received and parsed, packets prepared with their ids and flags, datagrams sent, the state of the circuit, and what send and receive_check return or raise for it) is exactly what would have happened had the dispatcher had no other peers: the same history with all operations on other peers left out. With the one sender Host object that NetUDPClient overwrites for every datagram this is false: a datagram of a second peer takes the first one's acknowledgements away.", "quantifier": "all environments (templates, socket outcomes and subscribers depending on that peer only), all host objects, all histories of sends, receipts of arbitrary bytes, process_acks, circuit removals and trust changes over any number of peers, every peer address", "why_tests_cant": "a test sees one interleaving of a few peers; the claim compares every history with its projection to each peer", "anchors": ["pyogp/lib/base/message/udpdispatcher.py: receive_check, __send_message, process_acks, __send_acks, find_circuit", "pyogp/lib/base/message/circuit.py: CircuitManager, Circuit", "pyogp/lib/base/network/net.py: NetUDPClient.receive_packet"]}
{"id": "C102", "title": "Exceptions, hosts and capabilities as text", "statement": "str() of every exception of exc.py that has a __str__, and repr() of Host, UDPDispatcher, Capability and SeedCapability, is a fixed sentence with the attributes in their places, provided no shown attribute is unicode or everything shown is ASCII; otherwise printing raises a UnicodeError. The hosts made from socket addresses can always be shown. ResourceNotFound with a URL that is no text cannot be shown, NetUDPClient never. A DataUnpackingError reads like a MessageSerializationError. 'except Error' catches every exception class of the library, and MessageSystemError, NetworkError, DeserializationError and RegionDomainError catch exactly their groups; MessageSerializationError and MessageDeserializationError are not caught as SerializationError and DeserializationError.", "quantifier": "all exceptions with arbitrary attribute values (str of any bytes, unicode of any characters, integers, None, types), all host and capability attributes, all exception classes", "why_tests_cant": "a test prints a few values; which combinations of byte and unicode text cannot be printed is a statement about all of them", "anchors": ["pyogp/lib/base/exc.py: all classes", "pyogp/lib/base/message/circuit.py: Host.__repr__", "pyogp/lib/base/message/udpdispatcher.py: UDPDispatcher.__repr__", "pyogp/lib/base/network/net.py: NetUDPClient.__repr__", "pyogp/lib/base/caps.py: Capability.__repr__, SeedCapability.__repr__"]}
{"id": "C103", "title": "What is logged changes nothing, unless a host cannot be shown", "statement": "Whatever the logging settings are, the same history of sends, datagrams and acknowledgement rounds produces the same datagrams, deliveries, results and state, provided every host used can be written as text (its ip is a str, or an ASCII unicode object). With UDP logging or host logging off (as in quiet settings) it holds for all hosts. With both on (the default) a host with a non-ASCII unicode ip gets nothing: a message to it takes a packet number but is not sent, and an accepted datagram from it is recorded for acknowledgement but receive_check raises UnicodeEncodeError before any subscriber is told.", "quantifier": "all settings, environments (subscribers, socket behaviour), states, histories of operations, hosts", "why_tests_cant": "switching a log setting is tested, if at all, by eye; that it never changes behaviour is a statement about two runs of every history", "anchors": ["pyogp/lib/base/message/udpdispatcher.py: receive_check, __send_message", "pyogp/lib/base/message/circuit.py: Host.__repr__", "pyogp/lib/base/settings.py: Settings"]}
{"id": "C104", "title": "Redirects: the payload is sent once, and the last reply decides", "statement": "A GET or POST of the HTTP client sends the request as given (a POST always with a content type); whatever the server answers, it makes at most 38 requests, each after the first to the place the previous reply redirected to, as a GET without data but with all of the caller's headers that are not about the data. So data is sent exactly once and to the URL it was meant for, while the caller's own headers go to any place the server names. The reply to the last request decides: 2xx is returned with status, joined headers and body, anything else is raised as HTTPError with code, reason and body, connection failures pass through; a redirect is left unfollowed only for a POST with 307, a place visited four times, or ten different places. Capability.GET and POST inherit this.", "quantifier": "all servers (replies may depend on all earlier requests), URLs, data, headers, URL resolution", "why_tests_cant": "a redirecting server is adversarial: the bound and the single transmission of the data are statements about every chain of replies", "anchors": ["pyogp/lib/base/network/stdlib_client.py: StdLibClient.GET, StdLibClient.POST", "pyogp/lib/base/caps.py: Capability.GET, Capability.POST", "pyogp/lib/base/exc.py: HTTPError"]}
{"id": "C105", "title": "The event queue and its log messages", "statement": "If its host, its capability and the exceptions of its posts can be shown as text, the log settings do not change what the event queue posts, delivers and returns. With a host that cannot be shown (a non-ASCII unicode ip) no event is ever delivered, whatever the settings: by default start raises before the first post; with quiet settings the queue is polled and the events are acknowledged, but lost, and start raises at the end: nothing is posted if event queue and host logging are both on, and otherwise exactly what is posted without log messages. When starting or the last post fails, start returns False if host, capability and exception can be shown, and raises ValueError otherwise. An exception that cannot be shown ends the round without handing anything over. With a capability of any other name start returns False and does nothing.", "quantifier": "all settings, hosts, capabilities, poll outcomes, histories of polls, message handlers", "why_tests_cant": "that diagnostics have no effect, and the silent loss when they do, are statements about all histories of responses", "anchors": ["pyogp/lib/base/event_queue.py: EventQueueClient.start, _processRegionEventQueue, _parse_result", "pyogp/lib/base/settings.py: Settings", "pyogp/lib/base/message/circuit.py: Host.__repr__"]}
{"id": "C106", "title": "Received messages as objects", "statement": "receive_check hands one message object to all subscribers of its name, in order, and returns it. What one subscriber makes of it is what the next one gets and what is returned; the first subscriber that raises is the last one called, KeyError being swallowed and other exceptions passed on. Subscribers may change it or send it on with send_message. Whatever they do to it: packet ids for each address are still 1, 2, 3, …, the packets waiting for acknowledgement are still exactly those sent reliably and not acknowledged by the datagrams as received, the id queued for acknowledgement is the id in the datagram (exactly if the datagram has the reliable flag), and the counters count. If no subscriber changes name or blocks, the returned message has the name and blocks received, even if it was sent on. Sending it on transmits exactly what a new message with this name and these blocks would be sent as, with nothing of the received flags, id or acknowledgements, and leaves in the returned object the packet id it was given on the other circuit. Subscribers that only read see and do what they would with a copy.", "quantifier": "all environments, histories, subscribers (programs that read, overwrite, send and forward the message, change hosts or raise), datagrams, hosts and ways of sending", "why_tests_cant": "a test runs a few subscribers; the claim is about every program a subscriber may be, in any number and order, and every history", "anchors": ["pyogp/lib/base/message/udpdispatcher.py: UDPDispatcher.receive_check, send_message", "pyogp/lib/base/message/circuit.py: Circuit.prepare_packet, handle_packet", "pyogp/lib/base/message/message_handler.py: MessageHandler.handle", "pyogp/lib/base/events.py: Event.__call__"]}
{"id": "C107", "title": "The event queue over HTTP", "statement": "Against every HTTP server, however it replies, redirects or breaks connections, the event queue sends a body exactly once per round, at the URL of its capability, labelled application/llsd+xml: the LLSD text of {} if no id is known, otherwise of {'ack': id} with the id of the most recent response that came through, and on stop of {'ack': id, 'done': True} exactly if an id is known. All other requests are redirects without body or headers, at most 37 per POST. A round counts as a response exactly if the last reply has a 2xx status, an LLSD content type and a body that parses to something that does not equal false; everything else (404, other statuses, wrong types, garbage, broken connections) is a failed poll. Hence with a simulator that repeats its last response until it reads an acknowledgement in the body of a POST, clients that poll it one after the other hand over its responses in order and without a gap, with at most as many repetitions as failures; nothing is lost, and without failures everything is handed over exactly once.", "quantifier": "every server (as a function of all requests so far), LLSD codec, message handler, number of rounds, iteration order of dictionaries; all histories of events, failures, crashes and restarts of clients", "why_tests_cant": "tests use a stub capability; a server can reply, redirect and fail in unboundedly many ways at every round, and losses show only in particular histories", "anchors": ["pyogp/lib/base/event_queue.py: EventQueueClient._processRegionEventQueue", "pyogp/lib/base/caps.py: Capability.POST", "pyogp/lib/base/network/stdlib_client.py: StdLibClient.POST"]}
{"id": "C108", "title": "The event queue and the subscribers of its messages", "statement": "With a real message handler in place of an abstract one, the event queue client does what C38, C39 and C62 say, for a handler that never raises KeyError: whatever the subscribers do (subscribe, unsubscribe, fire other events, raise) and whatever other coroutines do to the subscriptions between polls, a KeyError of a subscriber never keeps the rest of a response from being handed over. If the subscribers return normally and leave subscriptions alone, every event (again after every failed poll that follows its response) leads to exactly one call per subscription to its name at that moment, in order of subscription and with the message, to no other calls, and the client never hangs in a handler.", "quantifier": "every template dictionary, every subscriber behaviour (arbitrary programs that may depend on the history of calls), every initial set of subscriptions, every sequence of polls (responses, failures) with arbitrary changes of subscriptions by other coroutines in between, and every outcome of the final POST", "why_tests_cant": "the interleaving of polls, failures and changes of subscriptions is unbounded, and subscribers are arbitrary code", "anchors": ["pyogp/lib/base/event_queue.py: EventQueueClient._processRegionEventQueue, _parse_result", "pyogp/lib/base/message/message_handler.py: MessageHandler.handle, MessageHandler.register", "pyogp/lib/base/events.py: Event.notify"]}
{"id": "C109", "title": "The UDP dispatcher and the subscribers of its messages", "statement": "With a real message handler in place of an abstract one, a UDP dispatcher does in every history, and every operation returns or raises, what it does with some handler and some registered names in the sense of the other properties, a handler that never raises KeyError (the deserializer asks the same message handler which names are registered): whatever the subscribers do (send messages, change hosts, subscribe, unsubscribe, raise) and however the client changes subscriptions in between. If the subscribers return normally and leave subscriptions alone (they may send messages), every message handed to the message handler (received, or outgoing if outgoing messages are handled) leads to exactly one call per subscription to its name at that moment, with the message, and to no other calls; those for received messages are made in the order of the messages and of the subscriptions; and every operation returns. If what each subscriber does depends only on the call and leaves subscriptions alone (it may send, change hosts and raise), the dispatcher always returns and is exactly the dispatcher whose handler runs the subscribers to the name of the message in the order of the subscriptions until one raises, dropping a KeyError. If subscribers only work on subscriptions, the message handler does for each message received what C33 to C37 say of it, and receive_check returns the message or raises what its handle raises.", "quantifier": "every configuration, network, template dictionary, subscriber behaviour (arbitrary programs depending on everything that happened), initial set of subscriptions and history of sends, receptions, acknowledgement rounds, host and circuit changes and changes of subscriptions", "why_tests_cant": "subscribers are arbitrary code called at unbounded nesting (they send messages whose subscribers send messages), interleaved with an unbounded history of operations", "anchors": ["pyogp/lib/base/message/udpdispatcher.py: UDPDispatcher.receive_check, __send_message, process_acks", "pyogp/lib/base/message/message_handler.py: MessageHandler.handle, MessageHandler.register", "pyogp/lib/base/events.py: Event.notify"]}
{"id": "C110", "title": "Deferred parsing does not show to subscribers", "statement": "For a UDP dispatcher whose deserializer shares its message handler: in every history, with whatever datagrams (malformed ones, too) and whatever changes of subscriptions by the client and by subscribers, the subscribers are called with the same messages in the same order, and all subscriptions and registrations come out the same, whether parsing of unhandled messages is deferred (the default) or not. A message that receive_check returns with deferred parsing it also returns without; and conversely if its name is registered from the start. (If outgoing messages are not handled and no circuit is declared trusted; what subscribers do to subscriptions may not depend on what becomes of the messages they send.)", "quantifier": "every template dictionary, network, set of subscriptions, subscriber behaviour (arbitrary programs that send, change hosts, subscribe, unsubscribe, raise) and history of sends, receptions, acknowledgement rounds, host changes, circuit removals and subscription changes", "why_tests_cant": "that an optimisation is invisible is a statement about pairs of runs over all histories and all datagrams", "anchors": ["pyogp/lib/base/message/udpdeserializer.py: UDPMessageDeserializer.deserialize", "pyogp/lib/base/message/udpdispatcher.py: UDPDispatcher.__init__, receive_check", "pyogp/lib/base/message/message_handler.py: MessageHandler.is_message_handled, handle", "pyogp/lib/base/settings.py: Settings.ENABLE_DEFERRED_PACKET_PARSING"]}
{"id": "C111", "title": "One message handler for UDP and the event queue", "statement": "In a message manager the UDP dispatcher and the event queue share one message handler. In every history of datagrams, sends, acknowledgement rounds, subscription changes and replies to polls, whatever the subscribers do (send messages, change hosts and subscriptions, raise): the event queue posts and hands over what it does alone with some handler in the sense of C38 and C39, and the dispatcher does and returns what it does with some handler in the sense of the other properties, where subscribers of events add sends and host changes. If the subscribers return normally and leave subscriptions alone, every message handed over, on either road or outgoing, leads to exactly one call per subscription to its name at that moment and to no other calls; those for received messages are made in the order of arrival on both roads and of the subscriptions; and everything returns. If what each subscriber does depends only on the call and leaves subscriptions alone (it may send, change hosts and raise), the manager always returns and does exactly this: its dispatcher's handler runs the subscribers to the name of the message, and the events of a reply are handed over one after the other to the subscribers to their names, which send with the dispatcher as it is then, until one raises. With subscribers that only work on subscriptions a poll leaves the dispatcher as it was (a PacketAck event acknowledges nothing) and does what C108 says; and no datagram touches the event queue.", "quantifier": "every configuration, network, template dictionary, subscriber behaviour, initial set of subscriptions and interleaving of dispatcher operations, subscription changes and replies to polls", "why_tests_cant": "The interleavings of two coroutines with arbitrary subscribers that send and change subscriptions are unbounded.", "anchors": ["pyogp/lib/base/message_manager.py:MessageManager.__init__", "pyogp/lib/base/event_queue.py:EventQueueClient._processRegionEventQueue", "pyogp/lib/base/event_queue.py:EventQueueClient._parse_result", "pyogp/lib/base/message/message_handler.py:MessageHandler.handle", "pyogp/lib/base/message/udpdispatcher.py:UDPDispatcher.receive_check"]}
{"id": "C112", "title": "From a simulator's events to the subscribers of a manager", "statement": "Let one message handler serve both a manager's UDP dispatcher and its event queue, and let one manager after another poll a simulator that repeats its last response until it is acknowledged. Requests and answers may get lost, the simulator may report errors, managers may crash or stop, and between the polls the dispatchers receive and send anything. For every message name that does not also arrive over UDP, the subscribers to that name are called for the events of that name in the order in which the simulator put them into responses, without a gap, one call per subscription in subscription order; a response is repeated (as a whole, in a row) at most as often as something failed. No event is lost: it has led to a call of every subscriber to its name, or is in a response not acknowledged yet, or still waits in the simulator. If nothing fails, every event leads to exactly one call per subscription.", "quantifier": "Every message template, simulator state without responses, sequence of events, polls with any outcomes, dispatcher operations, manager lifetimes, and behaviours of subscribers that return normally and leave subscriptions alone (they may send messages).", "why_tests_cant": "It is about all interleavings of two inputs, losses and crash points across several manager lifetimes, and about what the subscribers may do meanwhile.", "anchors": ["pyogp/lib/base/event_queue.py:EventQueueClient._processRegionEventQueue", "pyogp/lib/base/event_queue.py:EventQueueClient._parse_result", "pyogp/lib/base/message/message_handler.py:MessageHandler.handle", "pyogp/lib/base/message/udpdispatcher.py:UDPDispatcher.receive_check", "pyogp/lib/base/utilities/events.py:Event"]}
{"id": "C113", "title": "How soon the events of a simulator arrive", "statement": "Let clients (or managers with their subscribers) come and go as in C96 (C112), and take the current one at any moment. However many of its further requests and answers get lost or end in errors, and whatever happens in between: once as many further polls have succeeded as there were events waiting in the simulator, and one more, every event that had happened by then, ever, has been handed over to a client, and every subscriber to its name has been called for it (names that do not also come over UDP). The simulator is one that makes no response without events. The one more is needed: the first success may only repeat a response that an earlier client received without acknowledging it.", "quantifier": "Every message template, simulator state without responses, history of clients or managers, moment in the life of the current one, continuation (with any failures, further events and dispatcher operations), and behaviours of subscribers that return normally and leave subscriptions alone.", "why_tests_cant": "It bounds progress over all continuations of all histories, with failures at any point.", "anchors": ["pyogp/lib/base/event_queue.py:EventQueueClient._processRegionEventQueue", "pyogp/lib/base/event_queue.py:EventQueueClient._parse_result", "pyogp/lib/base/message/message_handler.py:MessageHandler.handle"]}
{"id": "C114", "title": "Notifications that overlap", "statement": "In a program with several coroutines, where a subscriber may sleep while others subscribe, unsubscribe and fire events, also the one being notified: each notification calls the subscriber at position 0, then the one then at position 1, and so on, whatever happens in between, and each with its own argument followed by the stored ones. Hence: if no subscription to its event is cancelled while it is in progress, a notification that ends without an exception has called all subscribers, including those that subscribed meanwhile, once each and in order, however many notifications of the same event overlap with it; if the subscriptions do not change at all, exactly those; and one that ends with an exception has called the first n, at least one. If nobody subscribes meanwhile, those called are among the subscribers at its beginning, in order, each at most as often as it was subscribed, and no more are left out than there were cancellations. At every moment a notification has made at most as many calls as there were subscribers at its beginning and have been added since, so only further subscribing can keep it going for ever. A cancellation by one coroutine can make the notifications of all others pass over a subscriber that stays subscribed.", "quantifier": "Every program of coroutines (that subscribe, unsubscribe, register names, fire events, handle messages, raise), every behaviour of the subscribers, and every schedule, with switches possible everywhere.", "why_tests_cant": "All schedules of all programs of coroutines.", "anchors": ["pyogp/lib/base/events.py:Event.notify", "pyogp/lib/base/events.py:Event.subscribe", "pyogp/lib/base/events.py:Event.unsubscribe", "pyogp/lib/base/message/message_handler.py:MessageHandler.handle"]}
{"id": "C115", "title": "Notifications that do not overlap", "statement": "A coroutine that fires an event or handles a message, and in whose subscribers no switch to another coroutine occurs, makes exactly the calls that it makes in a program without coroutines, in the same order; it leaves the same subscriptions and registered names and gets the same result or exception: in particular a KeyError of a subscriber is swallowed when a message is handled, and not when an event is fired.", "quantifier": "Every event or message name, argument, state, behaviour of subscribers that end, depth of notifications the coroutine is in, other coroutines, and recursion limit.", "why_tests_cant": "All programs and states.", "anchors": ["pyogp/lib/base/events.py:Event.notify", "pyogp/lib/base/message/message_handler.py:MessageHandler.handle"]}
{"id": "C116", "title": "Received messages as objects, and subscribers that work on subscriptions", "statement": "If the subscribers of received messages both treat the message as an object (change it, send it on) and work on subscriptions (subscribe, cancel, register names) while it is handed to them: a call is always made to the subscription that is at that moment in the list of the name the message was received under, at the position which is the number of calls made for the message so far, whatever the message is called now, and the calls end when a subscriber has raised or as many calls were made as there are then subscriptions; the first subscriber gets the message as received, each later one as the earlier ones left it, and receive_check returns it as the last one left it, or raises what a subscriber raised unless that is a KeyError. For the dispatcher the reception is one with given subscribers that leave subscriptions alone, one for each call made. Hence packet ids count up, what waits for acknowledgement is what was sent reliably and not acknowledged, the id queued is the one in the datagram, and a message whose name and blocks no subscriber changes is returned with those received. If nobody works on subscriptions meanwhile, the subscribers are called in order, all of them if none raises. If no subscriber subscribes anything, every reception returns; if all that are called subscribe something to the message's name, receive_check never does.", "quantifier": "Every configuration, network, template dictionary, behaviour of subscribers (programs that depend on everything that happened), initial subscriptions, and history of receptions, sends, acknowledgement rounds, host changes and changes of subscriptions.", "why_tests_cant": "All programs of subscribers in all histories.", "anchors": ["pyogp/lib/base/message/udpdispatcher.py:UDPDispatcher.receive_check", "pyogp/lib/base/message/message_handler.py:MessageHandler.handle", "pyogp/lib/base/events.py:Event.notify", "pyogp/lib/base/events.py:Event.unsubscribe", "pyogp/lib/base/message/circuit.py:Circuit.prepare_packet"]}
{"id": "C117", "title": "Outgoing messages as objects", "statement": "With HANDLE_OUTGOING_PACKETS the message object given to send_message or send_reliable is handed, in order, to the subscribers of its name before it gets a packet id, and each may change it, send it on or send others, which are again handed to subscribers. What leaves is the message as the last subscriber called left it: the packet, the result and the bookkeeping are those of a newly made message with that name and those blocks, and nothing of flags, ids or acknowledgements the object got meanwhile. If the host is not usable nobody is told and nothing changes. If a subscriber raises a KeyError no further one is called and the message leaves; if it raises something else nothing leaves and the sender gets that exception. If no subscriber changes name or blocks, what leaves is what the caller gave, and the caller's object has the name and blocks it had. Whatever subscribers do to received and outgoing messages: packet ids for each address are 1, 2, 3, …, what waits for acknowledgement are exactly the packets sent reliably and not acknowledged since, the id queued for acknowledgement is the one in the datagram, and the counters count. A message that was sent on has, for the subscriber, the packet id and reliable flag it was given there. If outgoing messages are not handled, whole histories are those of C106. If subscribers only read, whole histories are those in which they are given copies. A subscriber that sends on every outgoing message of its name ends in a RuntimeError, with nothing sent. If subscribers change neither the name and blocks of messages nor hosts, a process_acks that returns has sent acknowledgements of exactly the queued ids, in order, with what subscribers sent in between, and nothing is queued any more; a subscriber that changes PacketAck messages can have an id dropped that was never acknowledged. If those subscribers change neither name and blocks nor hosts and nothing is owed to the address, a send that returns arrives at another dispatcher, whatever its history, with the content the caller gave, the next packet id and the reliable flag that was asked for, and that dispatcher queues the id exactly if it is reliable.", "quantifier": "Every configuration with any recursion limit, network, behaviour of subscribers (programs that depend on everything that happened, and read, overwrite, send and forward the message, change hosts or raise), message, host, way of sending and history of sends, receptions, acknowledgement rounds and host changes.", "why_tests_cant": "All programs of subscribers in all histories, at every depth of sending from within subscribers.", "anchors": ["pyogp/lib/base/message/udpdispatcher.py:UDPDispatcher.send_message, send_reliable, __send_message, receive_check, __send_acks", "pyogp/lib/base/message/message_handler.py:MessageHandler.handle", "pyogp/lib/base/events.py:Event.notify", "pyogp/lib/base/message/circuit.py:Circuit.prepare_packet"]}
{"id": "C118", "title": "The callbacks of Helpers", "statement": "Helpers.null_packet_handler and Helpers.log_event_queue_data, each subscribed with one object (or with _object=), are not noticed, however often and to whatever messages they are subscribed or unsubscribed: in every history of a UDP dispatcher in which the other subscribers leave subscriptions alone, the dispatcher's operations return and raise the same, the other subscribers are called with the same messages in the same order, and circuits, queues, traffic and the other subscriptions are the same, as when the client only registers the name of the message instead. This holds for all subscribers that do nothing. What they are for: a received message whose name is registered and that has no other subscribers is parsed also when parsing is deferred, and it is what receive_check returns. All three callbacks must be subscribed with exactly one object: otherwise every such message raises a TypeError. log_packet raises exactly what showing the message raises, and nothing for messages received in the default configuration. If the first subscriber of a received message is one of the three and raises (but not a KeyError), receive_check raises that and calls no other subscriber, after the packet has been recorded and its id queued.", "quantifier": "Every configuration, set of subscriptions, behaviour of the other subscribers (programs that send, change hosts, register names and raise, and may depend on everything that happened but the calls of watchers) and history of sends, receptions of any datagrams, acknowledgement rounds, host changes and changes of subscriptions.", "why_tests_cant": "All histories with all subscriptions and all behaviours of the other subscribers.", "anchors": ["pyogp/lib/base/helpers.py:Helpers.log_packet, log_event_queue_data, null_packet_handler", "pyogp/lib/base/events.py:Event.notify", "pyogp/lib/base/message/message_handler.py:MessageHandler.handle", "pyogp/lib/base/message/udpdispatcher.py:UDPDispatcher.receive_check"]}
{"id": "C119", "title": "Handlers that do nothing", "statement": "A handler of an event that does nothing is not noticed, however often and wherever in the list it is subscribed: if the other handlers cancel no subscription while they are called (they may raise, fire this or other events, register names, and subscribe further handlers), every notification that ends has the same result or exception, makes the same other calls with the same arguments in the same order, also in the notifications fired in between, and leaves the same other subscriptions and registered names, as if it was not subscribed. The same holds for messages given to MessageHandler.handle (as long as the interpreter's recursion limit is not used up), and for the event queue client: it posts and hands over the same messages and returns or raises the same, whatever other coroutines subscribe, cancel and register between the polls. Helpers.log_event_queue_data and Helpers.null_packet_handler, each subscribed with one object, are such handlers. If one of them (or log_packet) is subscribed without one and is first in the list of a name, a message of that name from the event queue raises a TypeError: no other handler is called, and the rest of that response is not handed over.", "quantifier": "Every event and argument, set of subscriptions, behaviour of the other handlers (which may depend on all calls but those of the handlers that do nothing), nesting of notifications, sequence of polls with any outcomes and changes of subscriptions between them.", "why_tests_cant": "All subscriptions, behaviours and nested notifications; that positions in the list that is being walked shift consistently.", "anchors": ["pyogp/lib/base/events.py:Event.notify", "pyogp/lib/base/message/message_handler.py:MessageHandler.handle", "pyogp/lib/base/event_queue.py:EventQueueClient._processRegionEventQueue", "pyogp/lib/base/helpers.py:Helpers.log_event_queue_data, null_packet_handler"]}
