# Design: a Lean 4 model of pyogp.lib.base

## Layout

* `lean/Verif/Model/*.lean` – the model: total, computable functions that mirror the Python functions
  branch by branch. Each definition cites the file and lines of `/repo` it models.
* `lean/Verif/Spec/*.lean`  – small specifications written without the model (wire format of a peer,
  zero-coding encoder, abstract sets/queues).
* `lean/Verif/Proofs/*.lean` – helper lemmas.
* `lean/Verif/Props/*.lean` – the property theorems (`C01_…`), each with a concrete example that meets its hypotheses.
* `lean/Verif/Conformance.lean` – the project's own unit tests, on the model.

Paths below are relative to `/repo/pyogp/lib/base/`.

## Conventions

* Python exceptions are values: every partial function returns `Except Exc α`.
* Python 2 `str` is `List UInt8`. `unicode` values are represented by their UTF-8 encoding.
* Python integers are `Int`/`Nat` (unbounded). Floats are IEEE-754 double *bit patterns* (`BitVec 64`); the
  conversion to and from single precision is modelled on bit patterns, the quaternion arithmetic is an opaque
  function at byte level and is treated over ℝ in a separate model.
* `struct.pack` of an out-of-range integer depends on the Python version: 2.7 raises, 2.5/2.6 (the versions this
  library was written for: with 2.7 the embedded template cannot even be loaded, `template_parser.py:139`) mask.
  The model takes the version as a parameter and the theorems quantify over it.
* Python dicts are association lists. Where the code iterates over a dict, the model either takes the iteration
  order as an argument or the theorem quantifies over all orders.
* Object identity matters in two places and is modelled there: `Host` objects live in a heap and are referenced
  (`NetUDPClient.sender` is one shared, mutated object), and event handlers can mutate the subscriber list that is
  being iterated.
* Logging (except that of the dispatcher and the event queue, C103, C105), `print`, `traceback`, wall-clock time and real sockets/HTTP/XML are not modelled;
  sockets and HTTP are oracles the theorems quantify over.

## Trusted base

* Lean's kernel (4.33.0) and the axioms `propext`, `Classical.choice`, `Quot.sound`; nothing else. `AXIOMS.md` (from `#print axioms`) lists
  them for each theorem of the manifest. No axioms of our own, no unfinished proofs, no `native_decide`/`bv_decide`. Two small elaborators,
  `chars!` and `kernel_rfl`, only build terms: the kernel checks them.
* That the definitions under `Model/` say what the Python code does. They were written by reading; nothing was run. What was simplified is
  said at each definition and summarised below.
* Python semantics as recalled: `struct`, `str.rstrip`, slicing, `dict`, `re` (the regular expressions of the template parser are modelled as
  functions on character lists), IEEE-754 conversion in `struct.pack('<f')`, `urllib2` (redirects, headers).
* The transcription of `data/message_template.msg` and `message.xml` into Lean literals by `tools/gen_template.py`, `tools/gen_xml.py`. The
  *parser* run over that text is inside the proofs (C47, C48). (Outside the project, `#eval` finds the lines of
  `Embedded.file` equal to the file on disk.)

## What is modelled

| file of `/repo/pyogp/lib/base` | model |
|---|---|
| `message/data_packer.py`, `data_unpacker.py`, `msgtypes.py` | `Model/Struct`, `Float`, `Types` |
| `datatypes.py` | `Model/Uuid` (UUID), `Model/Datatypes` (Vector3, Quaternion) |
| `message/message.py`, `template.py`, `template_dict.py`, `message_dot_xml.py` | `Model/Message`, `Types`, `MessageApi` |
| `message/udpserializer.py`, `udpdeserializer.py` | `Model/Serializer`, `Deserializer`, `SerializeErrors`, `DeserializeErrors` |
| `message/circuit.py`, `udpdispatcher.py`, `network/net.py` | `Model/Circuit`, `Dispatcher`, `Switching`, `UdpSubscribers`, `BothRoads` |
| `events.py`, `message/message_handler.py` | `Model/Events`, `Model/Overlap` (with coroutines) |
| `event_queue.py` | `Model/EventQueue`, `Model/EqHttp` (over `Model/Http`), `Model/EqSubscribers` (over `Model/Events`) |
| `message_manager.py` | `Model/Manager`, `Wiring`, `Coroutines` |
| `caps.py` | `Model/Caps`, `CapErrors` |
| `message/template_parser.py`, display functions of `template.py`, `msgtypes.py` | `Model/TemplateParser`, `Describe` |
| `message/llsd_builder.py`, `Message.from_dict` etc. | `Model/MessageApi`, `Builder`, `Llsd` |
| `settings.py` | `Model/Settings` |
| `helpers.py` | `Model/Helpers`, `Ascii`, `Wait`, `Callbacks` |
| `exc.py`, `__repr__` of hosts, dispatcher, UDP client, capabilities | `Model/Printing` |
| the log messages of `udpdispatcher.py` and `event_queue.py` and the settings that govern them | `Model/Logging`, `EqLogging` (on top of `Model/Dispatcher`, `Model/Settings`, `Model/Printing`) |
| `receive_check` with subscribers that change the message object | `Model/Received` (on top of `Model/Dispatcher`, `Model/Objects`) |
| the same, with subscribers that also subscribe and unsubscribe while they are notified | `Model/ReceivedSubs` |
| outgoing messages (and received ones) as objects in the hands of subscribers, at every depth of sending | `Model/Outgoing` |
| `network/stdlib_client.py`, with `urllib2`'s redirects and error processing as recalled | `Model/Http` |
| double arithmetic of CPython (not in `/repo`) | `Model/Ieee` |

## What is not modelled, or simplified

* Oracles the theorems quantify over: sockets (`net`: whether a send is accepted), HTTP servers (with `network/stdlib_client.py` in between in C104 only), subscribers (arbitrary
  programs of sends, host mutations, exceptions), the order in which a dict is iterated, the XML/LLSD library, the clock.
* Socket failures are exceptions other than `AssertionError`. Rendering of hosts and exceptions in log messages is taken not to raise in the main model (C102 says exactly when they do not; `Model/Logging` is the dispatcher with its log messages and C103 the proof that it does the same when the hosts can be shown);
  rendering of *messages* is modelled (C68), because it can raise and is executed on sending and receiving. Names are ASCII there.
* Aliasing: `Host` objects and subscriber lists are modelled with identity. Messages are values, and C85 proves for a model in which they are objects
  (`Model/Objects`) that this makes no difference. Subscribers that change the received message they are given or send it on are in `Model/Received` (C106), and, if they also work on subscriptions, in `Model/ReceivedSubs` (C116); those that change outgoing messages or send them on in `Model/Outgoing` (C117), and switches meanwhile in C90.
* Coroutines: subscribers that sleep in the middle of a notification are in `Model/Overlap` (C114, C115); elsewhere they run to their end. C79–C81 are about all interleavings of the loops with each other and with the rest of the program (`Model/Coroutines`), with switches before and after
  receiving, acknowledging and each message sent. C90 is about switches inside `process_acks` and the sending of one message (a subscriber that sleeps, a UDP
  socket whose buffer is full; `Model/Switching`). In `receive_check` only the subscribers can switch, after everything else has been done. A circuit removed while a
  `process_acks` is in progress stays in its hands. Elsewhere the loops are sequences of passes; C79_uninterrupted_pass, C81_like_alone connect the two.
* `__repr__` of containers, tuples as attributes of exceptions (C102), `message/factory.py` (not imported anywhere;
  it raises `NameError` when used) and `Message.to_llsd` (it calls `as_dict`, which does not exist, so it raises `AttributeError` for every message).
* A float in an integer field is truncated (2.6 and 2.7, with a `DeprecationWarning`). Not modelled: Python 2.6 reports an integer too large for a
  double as `OverflowError` in some formats where the model says `struct.error`; a standard `uuid.UUID` in an integer field (it has an `__int__`).
* Doubles: `struct` conversions are on bit patterns (exact). The arithmetic in the unpacking of quaternions is a parameter
  of the model, instantiated with IEEE operations on bit patterns in C08_wire (`Model/Ieee`: each operation proved to yield the nearest double, ties to even, `Proofs/IeeeRound`; trusted is only that CPython's do, in round-to-nearest mode); that of
  `helpers.py` (C46) is over ordered fields, exact and with rounded operations (`Spec/Rounding`, exponent unbounded), and on IEEE doubles (`Model/Ieee`, `Props/PackedFloat`).

## How claims that are false of the code are handled

Reading the code shows that a number of properties one would like to rely on fail. In `properties.jsonl` such a property is stated as what the code
does guarantee, with the exact exceptions, and the theorems prove the guarantee *and* a concrete failing history. The intended claim and the
theorem refuting it are named in the note of the property in `MANIFEST.json`. The main ones:

* the ids a `PacketAck` lists never acknowledge anything (C60); reliable packets are never resent (C27); appended acks are
  never written though the ACK flag is set, so the receiver cuts the end of the payload off (C26); retransmissions are delivered again (C61);
* the appended acks of received packets are read in the wrong byte order (C56), extra header bytes are not skipped (C57), a short body is
  completed with ack bytes (C58), five bytes from anybody end the receive loop (C64);
* all acks go to the peer that sent last, because `NetUDPClient` re-uses one `Host` object (C25);
* `zerocoded` is a flag without an encoder (C55); FIXED, IPADDR and `Data` fields get a NUL appended (C04, C05);
* unsubscribing inside a handler skips the next handler (C33), a raising handler loses events (C39);
* `start_monitors` shortly after `stop_monitors` leaves two loops running (C80); `stop_monitors` shortly after `start_monitors` leaves the event queue
  polling for ever (C81);
* with two loops the id of a reliable packet can be dropped without being acknowledged (C90);
* messages longer than 10000 bytes are cut off on receipt: lost, and mostly acknowledged all the same (C82);
* in the default configuration acknowledgements are themselves acknowledged, without end (C84);
* a packet kept in `unacked_packets` under one id may carry another id and content, because the object was sent again (C85);
* with Python 2.7 the embedded template cannot be loaded.

## Wrong programs

`seeded/LOG.jsonl`: edits of the model in a scratch copy, what they break, which theorems then fail. A theorem counts as failed if it or a
lemma it needs no longer compiles. Survivors led to new or stronger theorems, named in the log (C69, `C45_reads_any_spelling`, `Expanded` in C17).

## The project's own tests

`Verif/Conformance.lean` transcribes the assertions of the test suite in `/repo` (`message/tests/`, `tests/`, the doctests of capabilities) and checks
them on the model: recorded packets of a simulator, the exact bytes of sent and acknowledged packets, template entries, vectors, UUIDs,
settings, event-queue responses, answers of capabilities. The kernel evaluates them. They say that the model computes what the code is known to compute on
these inputs; no claim rests on them.  Not transcribed: tests of Python object identity, of `llbase`'s own XML, of custom template files (outside the
project, `#eval` gives the 210 templates the test expects of `mock_message_template.msg`), and the coroutine tests, which need a clock.

## Plan per property

| property | model | proof |
|---|---|---|
| C01–C02 | `struct` integer formats (floats truncated), `DataPacker`/`DataUnpacker` tables | algebra on base-256 digits |
| C03 | single/double conversion on bit patterns | case analysis on exponent class, Nat arithmetic |
| C04 | all packers | per-type; false for FIXED and IPADDR (a NUL is appended): exact statement + counterexample |
| C05 | `__pack_string`, decoder `rstrip` | list lemmas; the `Data` half is false (NUL appended) – exact statement + counterexample |
| C06–C07 | `UUID` as 16 bytes, hex printing/parsing | digits lemmas, xor on Nat/BitVec |
| C08 | quaternion pack/unpack over ℝ, exact and with every operation rounded (`Spec/Rounding`); on bit patterns with IEEE operations (`Model/Ieee`) | real arithmetic; error analysis of the rounded operations; the operations on bit patterns are proved to round correctly (C08_reconstructed_w, `Nearest`) |
| C09–C10 | `zero_code_expand` as a fold | induction on runs; encoder is a separate spec |
| C11 | `build_message_ids`, `__decode_frequency`, `__decode_num` | case analysis |
| C12–C13 | `serialize`, `deserialize` | simulation: decoding at position p of `pre ++ enc ++ post` |
| C14–C15 | `serialize` | congruence on dictionary lookups; error branches |
| C16–C19 | `deserialize` with its object state | case analysis; C16 is false (IndexError, struct.error) – exact outcome set + witnesses |
| C20–C32 | `Circuit`, `CircuitManager`, `UDPDispatcher` as a state machine with host heap, network and handler oracles | invariants over all operation histories; C23, C25, C26, C27, C30 are false in general – exact statement + counterexample |
| C33–C37 | `Event`, `MessageHandler`; index-based iteration over the live list | induction; C33, C35, C36 false in general – exact statement + counterexample |
| C38–C40 | event-queue poll loop as a state machine over poll outcomes | induction; C39 false (failed poll redelivers) – exact statement + counterexample |
| C41 | `enqueue_message`, drain loop | induction over histories |
| C42–C43 | capability client over an HTTP oracle | case analysis |
| C44–C46 | helpers | digits; C46 over any ordered field, exact and rounded to 53 bits, and on IEEE doubles |
| C47–C48 | regular expressions of the parser, line state machine, dictionaries; embedded table | induction over files; kernel evaluation for the finite table |
| C49–C53 | message objects, `to_dict`, LLSD builder, message.xml, settings | induction/case analysis; C50, C51, C52 false in general – exact statement + counterexample |
| C54–C58 | `serialize`/`deserialize` corner cases | inversion lemmas, kernel evaluation of counterexamples |
| C59–C61 | trusted circuits, `PacketAck` contents, duplicates | invariants of the dispatcher |
| C62–C67 | loops of the event queue and of the manager, construction | induction on passes; construction as functions |
| C68 | rendering of messages | case analysis on field types |
| C69 | one pass of the manager's outgoing loop | from C24 |
| C70 | the datagram as prescribed by the protocol | inversion of `serialize`; uniqueness |
| C71 | two dispatchers | C12 composed with the dispatcher invariants |
| C72 | datagrams on the wire | invariant relating the socket trace to prepared packets |
| C73–C74 | `Vector3`, `Quaternion` byte forms | slicing lemmas on top of C03 |
| C75 | `Vector3.parse` on character lists, `str(float)` as an oracle | induction on the text |
| C76 | `UUID.__eq__`, `__ne__` | case analysis on the operand |
| C77 | `Wait` as a loop over clock readings and sleep outcomes | induction on passes |
| C79–C81 | several coroutines sharing a manager and its event queue, as a machine whose steps run one coroutine to its next switch | invariants and potentials of all schedules; refinement to the sequential loops |
| C82 | the 10000-byte buffer of `recvfrom` in the manager's receive step | C17 (no partial messages), C16 (declared outcomes), C23 (what is queued), composed |
| C83 | two managers with their loops, queues and subscribers and the network between them (`Spec/Pair.lean`, inductive `Pair`) | invariant of all usual histories (`Tidy`: no acks pending while draining), refinement to `Together` (C78), then C12, C79 |
| C84 | as C83, over a network that duplicates nothing (`Spec/Storm.lean`, inductive `Exchange`) | invariant of all histories: no acknowledgement was sent so far, or one is in flight, or one is owed |
| C85 | messages in a store of objects: edits, sends, the queue, `unacked_packets` holding references (`Model/Objects.lean`); `Spec/Objects.lean` | simulation: every operation of the dispatcher keeps two states alike that differ in the kept messages only; induction over the history |
| C86 | the display functions of `template.py`, `msgtypes.py`, `template_parser.py` (`Model/Describe.lean`); `Spec/Describe.lean` states the lines | lists of lines by `mapM` over the parsed templates, on top of C47; a reader (`Proofs/Describe.lean`) recovers the parts from the lines, which makes the listing injective; insertion into a sorted list for `get_all_types` |
| C87 | `serialize` with the first argument of its exceptions (`Model/SerializeErrors.lean`); `Spec/SerializeErrors.lean` lists what can be wrong | C87_same_outcome connects it to `serialize`; each loop raises what its first failing element raises (`loop_first`), so the exception is characterised both ways |
| C88 | `deserialize`, as in C16–C19; `Spec/Reading.lean` says how a datagram is divided up and where reading its body stops, without positions or decoder | the specification is total (`blocks_cases`, by induction on template and counts) and each of its cases forces the outcome (`decodeBlocks_at/_short/_noCount`), so both directions follow |
| C89 | `caps.py` with the attributes and texts of its exceptions (`Model/CapErrors.lean`); `Spec/CapErrors.lean`: reply ↦ result | C89_same_* connect it to the model of C42, C43; case analysis on the reply, the media type by C43's lemmas |
| C90 | `udpdispatcher.py` with packets as tasks suspended in the subscribers or in the socket, and the rest of a suspended `process_acks` (`Model/Switching.lean`); `Spec/Switching.lean` | C90_includes_operations: every history of C20–C32 is one of these (simulation, by induction on recursion depth, subscriber programs and ids); invariants of all histories; for `process_acks` an invariant saying which parts have been sent; C90_not_lost: an invariant of every interleaving saying where an id can be (`Proofs/SwitchingLoss.lean`) |
| C91 | `llsd_builder.py` with calls that raise and are caught (`Model/Builder.lean`); `Spec/Builder.lean`: the declaration a history of calls amounts to | invariant of all histories relating the builder to the declaration |
| C92 | `udpdeserializer.py`, `data_unpacker.py` with the attributes of exceptions (`Model/DeserializeErrors.lean`); `Spec/DeserializeErrors.lean`: the exception a datagram deserves | forgetting the attributes gives C88's model; well-formed variables never raise, a count raises only on no bytes |
| C93 | the coroutines of C79–C81 under finite and endless schedules; `Spec/Progress.lean`: turns, reads and polls of a coroutine in a history | potential functions (place in the loop, entries ahead in the queue) that every turn decreases, by induction on the history; the endless version from the bounds |
| C94 | any number of dispatchers with their addresses and a network that names the true sender (`Spec/Network.lean`, inductive `Among`) | invariant of all interleavings (`Peer`: each reception from an address is of a datagram a program with that address sent), then the lemmas of C78 per circuit |
| C95 | two managers as in C83 and a network that loses nothing from A to B (`Spec/Delivery.lean`: `Lossless`, `underway`; endless: `JointSchedule`) | the bounds of C93 for the sending and the reading loop, an invariant of lossless histories (what B received is a prefix of what A sent it; every read takes the next), then `C83_in_transit`; no exception: invariant of `Pair` (every datagram of the other is readable, every prepared message serialises) |
| C83, C84, C94, C95 with the embedded template | `Props/DefaultPair.lean`: managers and dispatchers as the library configures them | the hypotheses about templates discharged by C48 and the theorems of `Props/Default.lean` |
| C96 | event-queue clients, one after the other, against a simulator that repeats what is not acknowledged (`Spec/EventServer.lean`: `EqServer`, `Polling`, `Clients`) | induction on the history: an invariant that relates the client's last id and result to the number of responses that came through and to what the simulator holds unacknowledged, then an invariant over clients that merges a repeated response |
| C97 | the constructors (`Model/Wiring.lean`) | case analysis on the handler, the settings and the template file |
| C98 | the dispatcher with long histories (`Spec/Exhaustion.lean`: `sinceRemoval`, the trace of an address since its circuit was last removed) | two invariants of all operations: datagrams sent since the removal ≤ packets prepared, each sent only with an id below 2^31; once the ids are spent every transmission for the address fails |
| C99 | `dist_squared` on IEEE doubles (`Model/Distance.lean`, `Spec/Distance.lean`) | bit level: rounding is monotone and ignores the sign; real level: error bounds of the five operations added up |
| C100 | `helpers.py:50-80` with the loops of `binascii` (`Model/Ascii.lean`); decoders in `Spec/Ascii.lean` | induction in steps of three bytes: four characters decode to them |
| C101 | the dispatcher (`Model/Dispatcher.lean`) run twice; `Spec/Isolation.lean`: the view of one address of a trace, the history with the operations on other peers left out, `Separate` (the environment does not connect peers) | simulation: the two runs agree on the view and the circuit of the address; operations on other addresses keep the relation, operations on it extend both sides equally (`deserialize` has no memory, circuits stay registered under the address of their host); a concrete history for the shared `sender` object |
| C102 | `exc.py` and the `__repr__` methods with Python 2's two kinds of text (`Model/Printing.lean`: `%` with `%s`, ASCII codecs, what `str`/`repr` do to a returned value); the sentences written out in `Spec/Printing.lean` | one lemma on `fmt % args` for all pieces and values (induction), instantiated per class; classes: the chain of base classes is followed |
| C103 | the dispatcher once more with its log messages, which can raise (`Model/Logging.lean`); which hosts can be shown is C102's `Mixable` | the two dispatchers agree on every call in states whose hosts can be shown; such states are closed under all operations (`Closed`); induction over histories. The exception: both calls computed for an arbitrary unshowable host, and an example with the default settings |
| C104 | the client and `urllib2.urlopen` with redirects (`Model/Http.lean`); the server is an oracle depending on all earlier requests, `urljoin` an oracle; the requirements are stated on the list of requests (`Spec/Http.lean`) | invariant of following redirects (table of visits = places gone to; counting argument gives 38); the model's bound on the number of requests is proved irrelevant; tightness by an explicit server |
| C105 | the event queue once more with the log messages that can raise (`Model/EqLogging.lean`); whether the host can be shown is computed by `Model/Printing`, for capability and exceptions it is an oracle | equality with the silent model, round by round; invariant (nothing delivered) for an unshowable host; a concrete run for the loss |
| C106 | `receive_check` once more, with subscribers that are programs on the message object (`Model/Received.lean`); `Spec/Received.lean` | the invariant of the dispatcher is kept by every such program; induction over programs and subscribers; equality with the model of values for subscribers that only read |
| C107 | the event queue with the capability and the HTTP client in place of the oracle for its POSTs (`Model/EqHttp.lean`: `eqPollHttp`, `processRegionHttp`); `Spec/EqHttp.lean` describes the exchanges as the server sees them, and a simulator behind HTTP | refinement: every run is a run of the oracle model (C38) with outcomes read off the server's replies (C104, C89); a simulation of the simulator of C96 by one behind HTTP |
| C108 | the event queue with the message handler of C33–C37 in place of the oracle for what becomes of a message (`Model/EqSubscribers.lean`: `deliverSubs`, `processRegionSubs`); other coroutines change subscriptions between polls; `Spec/EqSubscribers.lean` says which calls should happen | refinement: every run is a run of the oracle model (C38, C39, C62) with a handler read off the recorded results; induction over the polls with C33 and C35 for every message |
| C109 | the dispatcher with the message handler of C33–C37 in place of the oracle `DEnv.handler` (`Model/UdpSubscribers.lean`: `notifySubs`, `handleSubs`, `sendSubs`, `receiveSubs`, `stepSubs`; simplified: a subscriber does not pass messages to the message handler itself); `Spec/UdpSubscribers.lean` says which calls are due | refinement: every history is a history of `Model/Dispatcher` with a handler put together from what the subscribers did at each moment of the trace (`Realised`); induction over nesting levels, subscribers and operations for the calls; `Spec/UdpExact.lean` translates subscribers of fixed behaviour into a handler of `Model/Dispatcher` and subscribers that only work on subscriptions into a behaviour of `Model/Events`, both equalities of runs |
| C110 | two runs of `Model/UdpSubscribers`, with `deferred` true and false (`Spec/UdpDeferred.lean`) | simulation: both runs keep equal message handlers and no trusted circuits; deserialization differs only for names that are not registered, for which `handle` does nothing |
| C111 | the dispatcher and the event queue of a manager with one message handler (`Model/BothRoads.lean`; simplified: the two coroutines run one operation or reply at a time, with the same recursion limit left); `Spec/BothRoads.lean` says which calls are due and what the dispatcher does with the sends of event subscribers | refinement of both `Model/EventQueue` (handler recorded along the run) and `Model/Dispatcher` (`Realised`, sends of subscribers as extra operations); induction over the history for the calls; equality with `Model/EqSubscribers` for subscribers that only work on subscriptions |
| C112 | the managers of C111 together with the simulator of C96: `Spec/RegionEvents.lean` (`Serving`: one manager, `Managers`: one after the other; the dispatcher does anything between polls) | invariant over `Serving`: the manager's event queue is a client in the sense of C96, and the calls for a name that does not come over UDP are those due for the events handed over (calling lemmas of C111); then C96 |
| C113 | clients of C96, managers of C112, and how they go on (`Spec/EventSoon.lean`: `Later`, `ServingLater`, counting the polls that succeed) | potential argument: events not yet in responses, plus the response that has not come through, plus the successes so far never exceed the number of events waiting at the start plus one, until all of them have come through; a concrete history shows that the one is needed |
| C114 | `Model/Overlap.lean`: coroutines that subscribe, unsubscribe, fire events and handle messages, any of which may go on at every step; `Spec/Overlap.lean` (the subscriptions in force after a trace, as in C34; the calls of one notification) | invariant over all schedules: every call, and every end of a notification, is right for the past at that moment; then induction over what happens during one notification; `C114_skips` is a concrete schedule |
| C115 | `Model/Overlap.lean` and the sequential `Model/Events.lean` (C33–C37); `Spec/OverlapAlone.lean` (handlers as programs of a coroutine) | simulation: induction on the recursion level, the rounds of the loop and the program |
| C116 | `Model/ReceivedSubs.lean`: `receive_check` with the live lists of subscribers of the message handler, and programs of subscribers on the message object and on subscriptions (simplified: they do not pass messages to the message handler themselves, and messages they send are handled, if outgoing ones are, by the handler of `Model/Dispatcher`); `Spec/ReceivedSubs.lean` | refinement: every reception is one of `Model/Received` with subscribers read off from the execution (`eraseSubs`, induction on the loop), so that C106 carries over; an invariant of the events at the message handler over histories |
| C117 | `Model/Outgoing.lean`: `__send_message` with the message as an object in the hands of subscribers (`RProg`) at every depth of sending, reception, acknowledging and histories over it (simplified: subscribers do not work on subscriptions and do not look at another message they sent afterwards); `Spec/Outgoing.lean` | invariants of `Model/Dispatcher` kept by the new operations (induction on programs, lists of subscribers and depth); what leaves compared with a new message sent unwatched (C85_fresh); simulation of `Model/Dispatcher` when subscribers only read, and of `Model/Received` when outgoing messages are not handled; induction on depth for the endless subscriber; the invariants of C24 for acknowledging with such subscribers; the round trip of C71 for arrival at another dispatcher |
| C118 | `Model/Callbacks.lean`: the three functions and how Python binds their arguments, as subscribers in `Model/UdpSubscribers` (simplified: log messages have no effect, and a message's `host` can be shown); `Spec/Callbacks.lean`: the same program without some subscriptions | simulation of histories with and without subscribers that do nothing: induction on programs, on the loop over subscribers (the index into the filtered list), the depth of sending, acknowledgement rounds and histories; C68 for `log_packet`; the deferral lemma of C110 |
| C119 | `Model/Events`, `Model/EqSubscribers`, the callbacks of `Model/Callbacks.lean` as handlers of events; `Spec/Unnoticed.lean`: the same program without some subscriptions | simulation with and without handlers that do nothing: induction on programs (subscriptions only grow), on the loop (the index into the filtered list), on the nesting, on responses and polls |
| C78 | two dispatchers and a network that loses, duplicates, delays, reorders (`Spec/System.lean`, inductive `Together`) | invariant of all interleavings (`Side`: each state is reachable by its own operations, each datagram received was sent by the other), then C12, C17, C72 |
