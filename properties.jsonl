{"id": "C01", "title": "Decimal rendering of header numbers", "statement": "vortex_support_itoa, given any 32 bit unsigned value and a buffer of at least ten bytes, returns the number of decimal digits of the value and leaves in the buffer exactly its decimal representation without leading zeros; with a buffer that is too small it returns -1; it never writes outside the first buffer_size bytes.", "quantifier": "every 32 bit value, every buffer content and every buffer size", "why_tests_cant": "2^32 values times all buffer sizes; the interesting boundaries (powers of ten, ten-digit values, buffer one byte short) are easy to miss", "anchors": ["src/vortex_support.c:vortex_support_itoa"]}
{"id": "C02", "title": "Frame header build/parse round trip", "statement": "The header line written for any MSG, RPY, ERR, ANS or NUL frame is parsed by the receiving side back to the same type, channel, message number, continuation flag, sequence number, size and answer number.", "quantifier": "every frame type, channel 0..2^31-1, msgno 0..2^31-1, seqno 0..2^32-1, size 0..2^31-1, ansno 0..2^31-1, both continuation flags", "why_tests_cant": "the product of five 31/32-bit domains cannot be enumerated", "anchors": ["src/vortex_frame_factory.c:vortex_frame_build_header", "src/vortex_frame_factory.c:vortex_frame_get_header_data", "src/vortex_frame_factory.c:get_int_value"]}
{"id": "C03", "title": "SEQ frame round trip", "statement": "Every SEQ frame a peer may legally emit (any channel, any 32 bit ackno, any positive window) is read by the other side as exactly that channel, ackno and window.", "quantifier": "every channel number, every ackno in 0..2^32-1, every window in 1..2^31-1", "why_tests_cant": "only a handful of ackno values out of 2^32 misbehave; tests on small transfers never reach them", "anchors": ["src/vortex_frame_factory.c:vortex_frame_seq_build_up_from_params_buffer", "src/vortex_frame_factory.c:vortex_frame_get_header_data", "src/vortex_frame_factory.c:vortex_frame_get_next"]}
{"id": "C04", "title": "Frame reading does not depend on TCP segmentation", "statement": "Whatever way the network splits the byte stream produced by the sender, repeatedly reading frames from the connection as data becomes available yields exactly the frames that were sent, in order and with identical payload, and never closes the connection.", "quantifier": "every list of well-formed frames, every split of their concatenated bytes into non-empty chunks", "why_tests_cant": "the number of ways to split a stream is exponential, and only some splits fall inside a header line, a payload or a trailer", "anchors": ["src/vortex_frame_factory.c:vortex_frame_get_next", "src/vortex_frame_factory.c:vortex_frame_readline", "src/vortex_frame_factory.c:vortex_frame_receive_raw"]}
{"id": "C05", "title": "Frame builder never overruns its buffer", "statement": "For every message, whatever the numbers in its header, the frame written by the sending thread (header, payload, trailer and terminator) fits in the send buffer whose size was computed from the payload size only.", "quantifier": "every frame type, every field value, every payload size, every initial buffer size", "why_tests_cant": "an overrun needs the longest rendering of every header field at once, i.e. sequence numbers above 10^9 on a very long-lived channel", "anchors": ["src/vortex_sequencer.c:CHECK_AND_INCREASE_BUFFER", "src/vortex_sequencer.c:vortex_sequencer_build_packet_to_send", "src/vortex_frame_factory.c:vortex_frame_build_up_from_params_s_buffer"]}
{"id": "C06", "title": "Parsing a header line never reads outside the line", "statement": "Whatever bytes a remote peer sends as header line, the parser examines only bytes of that line and either yields a frame description or rejects the line.", "quantifier": "every byte string a peer can send as a line", "why_tests_cant": "malformed input space is infinite; the defect shows only as a read of uninitialised memory", "anchors": ["src/vortex_frame_factory.c:vortex_frame_get_header_data", "src/vortex_frame_factory.c:get_int_value", "src/vortex_frame_factory.c:CHECK_INDEX_AND_RETURN"]}
{"id": "C07", "title": "Sender never exceeds the window granted by its peer", "statement": "On any channel, for any history of sends and of window grants (SEQ frames) received, every payload octet put on the wire has a sequence number strictly below the highest limit (ackno + window) granted so far, including across the 2^32 wrap of sequence numbers.", "quantifier": "every interleaving of sends and SEQ frames, every message size, every total number of octets transferred", "why_tests_cant": "histories are unbounded and the wrap needs 4 GB of traffic", "anchors": ["src/vortex_channel.c:vortex_channel_get_next_frame_size", "src/vortex_channel.c:vortex_channel_update_remote_incoming_buffer", "src/vortex_channel.c:vortex_channel_is_stalled", "src/vortex_sequencer.c:__vortex_sequencer_do_send_round"]}
{"id": "C08", "title": "Segmentation preserves the message", "statement": "However a message is cut into frames by the sending thread, the payloads of its frames concatenate to exactly the message content, their sequence numbers are contiguous modulo 2^32 starting at the channel's next sequence number, every frame is non-empty and at most 4096 octets, all but the last carry the continuation flag and the last does not (unless more content was announced).", "quantifier": "every message, every starting sequence number, every sequence of window grants in between", "why_tests_cant": "the cut points depend on the interleaving of window grants with sends", "anchors": ["src/vortex_sequencer.c:vortex_sequencer_build_packet_to_send", "src/vortex_sequencer.c:__vortex_sequencer_do_send_round", "src/vortex_channel.c:vortex_channel_get_next_frame_size"]}
{"id": "C09", "title": "Receiver accepts a frame only if it fits its advertised window, and allocates what it reads", "statement": "A data frame is accepted only if all its octets lie within the window the receiver has advertised for the channel, and the number of octets the receiver then reads into memory never exceeds the number it allocated for them.", "quantifier": "every header a remote peer can send, every receive-window state", "why_tests_cant": "needs sizes above 2^31 on the wire; such a value is accepted or rejected depending on modular arithmetic", "anchors": ["src/vortex_channel.c:vortex_channel_check_incoming_seqno", "src/vortex_frame_factory.c:vortex_frame_get_next", "src/vortex_frame_factory.c:get_int_value"]}
{"id": "C10", "title": "Advertised window never shrinks", "statement": "The highest sequence number a receiver has declared acceptable on a channel never moves backwards, whatever sequence of frames is received and whatever window sizes the application configures, including across the 2^32 wrap.", "quantifier": "every history of received frames and window-size changes", "why_tests_cant": "unbounded histories, wrap at 4 GB", "anchors": ["src/vortex_channel.c:vortex_channel_update_incoming_buffer", "src/vortex_channel.c:vortex_channel_get_max_seq_no_accepted", "src/vortex_channel.c:vortex_channel_incoming_bytes_available"]}
{"id": "C11", "title": "No flow-control deadlock and no spurious protocol error between two peers", "statement": "Between two endpoints running this library, every window update emitted by the receiver is accepted by the sender, and whenever the sender has exhausted its window and the receiver has consumed everything sent, the receiver has emitted an update that lets the sender continue.", "quantifier": "every interleaving of data frames and SEQ frames between the two endpoints, every message size", "why_tests_cant": "a deadlock appears only at particular alignments of frame sizes and window halves", "anchors": ["src/vortex_channel.c:vortex_channel_update_incoming_buffer", "src/vortex_channel.c:vortex_channel_update_remote_incoming_buffer", "src/vortex_reader.c:__vortex_reader_update_incoming_buffer_and_notify"]}
{"id": "C12", "title": "Replies leave in the order the requests arrived", "statement": "For any set of received messages and any order in which the application answers them (RPY, ERR, or ANS...NUL), replies are queued for sending in the order the messages were received, each reply exactly once and with its full content.", "quantifier": "every arrival order, every order of reply calls, every interleaving of both", "why_tests_cant": "the number of interleavings is factorial; reordering only happens with several outstanding messages", "anchors": ["src/vortex_channel.c:__vortex_channel_common_rpy", "src/vortex_channel.c:vortex_channel_get_next_reply_no", "src/vortex_channel.c:vortex_channel_remove_first_pending_msg_no"]}
{"id": "C13", "title": "Answer numbering of one-to-many replies", "statement": "The ANS replies to one message are numbered 0,1,2,... in the order the application issued them, followed by a single NUL, whether they were sent immediately or had to wait for previous messages to be answered.", "quantifier": "every interleaving of ANS/NUL/RPY calls over every set of outstanding messages", "why_tests_cant": "depends on which replies had to be held back", "anchors": ["src/vortex_channel.c:__vortex_channel_common_rpy", "src/vortex_channel.c:vortex_channel_update_status"]}
{"id": "C14", "title": "Outstanding message numbers are unique and bounded by the configured limit", "statement": "Two messages sent on a channel and not yet replied never carry the same message number, they are recorded in the order they were sent, and when an outstanding limit is configured with failure mode their count never exceeds it.", "quantifier": "every history of sends and replies shorter than the message-number space, every limit", "why_tests_cant": "unbounded histories", "anchors": ["src/vortex_channel.c:vortex_channel_get_next_msg_no", "src/vortex_channel.c:vortex_channel_send_msg_common", "src/vortex_channel.c:vortex_channel_remove_first_outstanding_msg_no"]}
{"id": "C15", "title": "Reuse of an unanswered message number by the peer is rejected", "statement": "The library never has two received, unanswered messages with the same number on a channel: a peer starting a new message with a number that has not been answered yet, or interleaving fragments of two messages, has its frame rejected.", "quantifier": "every sequence of received frames and replies sent", "why_tests_cant": "unbounded histories of a hostile peer", "anchors": ["src/vortex_channel.c:vortex_channel_check_msg_no", "src/vortex_reader.c:vortex_reader_check_incoming_msgno"]}
{"id": "C16", "title": "A reply is accepted only for the oldest unanswered request", "statement": "A RPY/ERR/ANS/NUL frame is delivered to the application only if its number equals that of the oldest message sent and not completely answered; replies therefore complete in the order requests were sent and each request is completed at most once.", "quantifier": "every history of sends and received frames", "why_tests_cant": "unbounded histories of a hostile peer", "anchors": ["src/vortex_reader.c:__vortex_reader_process_socket", "src/vortex_channel.c:vortex_channel_get_next_expected_reply_no", "src/vortex_channel.c:vortex_channel_update_status_received"]}
{"id": "C17", "title": "Delivered octets are exactly the sent octets", "statement": "The payload octets accepted on a channel form a contiguous stream: every accepted frame starts exactly where the previous one ended (modulo 2^32), anything else closes the connection before delivery.", "quantifier": "every sequence of received frames, any total size", "why_tests_cant": "wrap-around and out-of-order frames", "anchors": ["src/vortex_reader.c:__vortex_reader_process_socket", "src/vortex_channel.c:vortex_channel_update_status_received"]}
{"id": "C18", "title": "Reassembly of fragmented messages", "statement": "With complete-frame delivery enabled (the default) the application receives one frame per message, whose payload is the concatenation of the payloads of its fragments in order, and a message whose accumulated size exceeds the configured limit is never delivered; fragments of different messages are never merged.", "quantifier": "every sequence of fragments, every configured limit", "why_tests_cant": "number and size of fragments unbounded", "anchors": ["src/vortex_reader.c:__vortex_reader_process_socket", "src/vortex_channel.c:vortex_channel_store_previous_frame", "src/vortex_channel.c:vortex_channel_build_single_pending_frame", "src/vortex_frame_factory.c:vortex_frame_are_joinable"]}
{"id": "C19", "title": "Serialized delivery", "statement": "With serialized delivery enabled on a channel, the frame-received handler is called for every received frame exactly once and in arrival order, whatever order the worker threads pick the frames up.", "quantifier": "every number of frames and every schedule of worker threads", "why_tests_cant": "thread schedules cannot be enumerated by tests", "anchors": ["src/vortex_channel.c:vortex_channel_check_serialize", "src/vortex_channel.c:vortex_channel_check_serialize_pending", "src/vortex_channel.c:__vortex_channel_invoke_received_handler", "src/vortex_channel.c:vortex_channel_invoke_received_handler"]}
{"id": "C20", "title": "A thread blocked waiting for a reply gets exactly its reply", "statement": "When several threads use send-and-wait on one channel, each of them receives the reply carrying its own message number, and a reply nobody waits for goes to the frame-received handler.", "quantifier": "every interleaving of send-and-wait calls and replies", "why_tests_cant": "thread schedules", "anchors": ["src/vortex_channel.c:vortex_channel_invoke_received_handler", "src/vortex_channel.c:vortex_channel_send_msg_and_wait", "src/vortex_channel.c:vortex_channel_wait_reply"]}
{"id": "C21", "title": "Implicit MIME headers are rendered as configured and their size is accounted exactly", "statement": "For every configuration of MIME type and transfer encoding, the headers prepended to a message are the configured Content-Type and Content-Transfer-Encoding followed by an empty line, and occupy exactly the number of octets reserved for them.", "quantifier": "every MIME type and transfer-encoding string at every configuration level", "why_tests_cant": "needs non-default transfer encodings of every length", "anchors": ["src/vortex_channel.c:__vortex_channel_get_mime_headers_size", "src/vortex_channel.c:__vortex_channel_get_mime_headers"]}
{"id": "C22", "title": "MIME parsing splits content into headers and body without losing octets or leaving the buffer", "statement": "For every received content, MIME processing only examines octets of the received content; if it succeeds, headers plus body are exactly the received content and the body is what follows the first empty line.", "quantifier": "every byte string", "why_tests_cant": "malformed MIME input space is infinite", "anchors": ["src/vortex_frame_factory.c:vortex_frame_mime_process", "src/vortex_frame_factory.c:vortex_frame_read_mime_header"]}
{"id": "C23", "title": "MIME headers set on a frame can be read back", "statement": "After any sequence of set operations, reading a header returns the values set for that name (names compared case-insensitively), removing a header removes it, and the reported header size is the size of their rendering.", "quantifier": "every sequence of set/get/remove operations", "why_tests_cant": "unbounded operation histories", "anchors": ["src/vortex_frame_factory.c:vortex_frame_set_mime_header", "src/vortex_frame_factory.c:vortex_frame_mime_find", "src/vortex_frame_factory.c:vortex_frame_get_mime_header"]}
{"id": "C24", "title": "Frame copy, join and equality", "statement": "Copying a frame yields a frame equal to it; joining two joinable frames yields a frame with the concatenated payload that is joinable with exactly the frames the second was joinable with; equality is an equivalence relation that distinguishes frames differing in any field.", "quantifier": "every frame (pair, triple of frames)", "why_tests_cant": "infinite domain; payloads with embedded NUL octets are rarely tested", "anchors": ["src/vortex_frame_factory.c:vortex_frame_copy", "src/vortex_frame_factory.c:__vortex_frame_join_common", "src/vortex_frame_factory.c:vortex_frame_are_equal", "src/vortex_frame_factory.c:vortex_frame_are_joinable"]}
{"id": "C25", "title": "No queued message is forgotten by the sending thread", "statement": "Whenever a channel has queued messages and its peer's window is open, the sending thread has the channel in its work set (or is about to add it), so the message will eventually be sent without needing further application calls.", "quantifier": "every interleaving of the application threads, the reader thread and the sending thread", "why_tests_cant": "lost wake-ups need a precise interleaving of three threads", "anchors": ["src/vortex_sequencer.c:vortex_sequencer_add_channel", "src/vortex_sequencer.c:vortex_sequencer_process_channels", "src/vortex_sequencer.c:vortex_sequencer_signal_update"]}
{"id": "C26", "title": "Messages of a channel are sent in the order they were queued", "statement": "The sending thread completes the messages of one channel in the order they were queued and never interleaves frames of two messages of the same channel.", "quantifier": "every interleaving of queueing and sending rounds", "why_tests_cant": "unbounded interleavings", "anchors": ["src/vortex_sequencer.c:vortex_sequencer_process_channels", "src/vortex_channel.c:vortex_channel_queue_pending_message", "src/vortex_channel.c:vortex_channel_remove_pending_message"]}
{"id": "C27", "title": "Automatic channel numbers", "statement": "The next channel number handed out is never 0, never one in use on the connection, within 1..2^31-1, and odd for the connection initiator, even for the listener.", "quantifier": "every history of channel creations and removals, any number of them", "why_tests_cant": "the wrap needs 2^30 channel creations", "anchors": ["src/vortex_connection.c:vortex_connection_get_next_channel", "src/vortex_connection.c:vortex_connection_channel_exists"]}
{"id": "C28", "title": "Every channel start request gets exactly one answer", "statement": "For every start request received, exactly one positive or negative reply is sent (now, or later if the application deferred the decision), the channel exists afterwards if and only if the reply was positive, and an already used channel number is always refused.", "quantifier": "every registration state, every profile mask decision, every application answer", "why_tests_cant": "combination of configuration, filters, handlers and deferral", "anchors": ["src/vortex_channel.c:__vortex_channel_0_frame_received_start_msg", "src/vortex_channel.c:__vortex_channel_0_handle_start_msg_reply", "src/vortex_channel.c:vortex_channel_notify_start_internal", "src/vortex_connection.c:vortex_connection_add_channel_common"]}
{"id": "C29", "title": "Connection close handlers run exactly once", "statement": "Every close handler installed on a connection and not removed before it breaks is started exactly once, in list order, however many times and from however many threads the connection is shut down.", "quantifier": "every interleaving of install, remove and shutdown operations", "why_tests_cant": "thread schedules", "anchors": ["src/vortex_connection.c:__vortex_connection_set_not_connected", "src/vortex_connection.c:__vortex_connection_invoke_on_close", "src/vortex_connection.c:vortex_connection_set_on_close_full2", "src/vortex_connection.c:vortex_connection_remove_on_close_full"]}
{"id": "C30", "title": "Reference counting", "statement": "An object (frame, channel, connection, queue, feeder, event) is released exactly when the number of references taken equals the number dropped, never earlier, and never twice.", "quantifier": "every balanced interleaving of ref/unref calls", "why_tests_cant": "thread schedules and unbounded histories", "anchors": ["src/vortex_frame_factory.c:vortex_frame_ref", "src/vortex_frame_factory.c:vortex_frame_unref", "src/vortex_channel.c:vortex_channel_ref2", "src/vortex_channel.c:vortex_channel_unref2", "src/vortex_connection.c:vortex_connection_ref_internal", "src/vortex_connection.c:vortex_connection_unref"]}
{"id": "C31", "title": "Channel error stack", "statement": "Errors pushed on a connection are popped in last-in first-out order, each once, and popping an empty stack reports failure.", "quantifier": "every sequence of push and pop operations", "why_tests_cant": "unbounded histories", "anchors": ["src/vortex_connection.c:vortex_connection_push_channel_error", "src/vortex_connection.c:vortex_connection_pop_channel_error"]}
{"id": "C32", "title": "Queue discipline of VortexQueue", "statement": "pop and peek return the oldest element pushed and not popped (elements pushed at the head come first), the length is the number of elements inside, NULL is returned only when empty.", "quantifier": "every sequence of push, head push, pop and peek operations", "why_tests_cant": "unbounded histories", "anchors": ["src/vortex_queue.c:vortex_queue_push", "src/vortex_queue.c:vortex_queue_head_push", "src/vortex_queue.c:vortex_queue_pop", "src/vortex_queue.c:vortex_queue_peek"]}
{"id": "C33", "title": "Asynchronous queue: FIFO, no lost item, no lost wake-up", "statement": "Items pushed on a VortexAsyncQueue are popped in FIFO order (priority items first), each by exactly one consumer, and no consumer stays blocked in pop while the queue holds items that nobody else was woken up for.", "quantifier": "every interleaving of any number of producers and consumers, including spurious wake-ups and timeouts", "why_tests_cant": "thread schedules", "anchors": ["src/vortex_thread.c:vortex_async_queue_push", "src/vortex_thread.c:vortex_async_queue_priority_push", "src/vortex_thread.c:vortex_async_queue_pop", "src/vortex_thread.c:vortex_async_queue_timedpop"]}
{"id": "C34", "title": "Hash table is a finite map", "statement": "VortexHash behaves as a finite map: lookup returns the value of the last insert/replace of the key not followed by its removal, size is the number of keys present, and replaced or removed entries have their destroy handlers run exactly once.", "quantifier": "every sequence of operations", "why_tests_cant": "unbounded histories", "anchors": ["src/vortex_hash.c:vortex_hash_insert", "src/vortex_hash.c:vortex_hash_replace", "src/vortex_hash.c:vortex_hash_lookup", "src/vortex_hash.c:vortex_hash_remove", "src/vortex_hash.c:vortex_hash_delete", "src/vortex_hash.c:vortex_hash_clear"]}
{"id": "C35", "title": "Thread pool size stays within its configured bounds", "statement": "The number of threads of the pool never exceeds the configured maximum because of automatic resizing, and remove operations never leave the pool without threads.", "quantifier": "every sequence of resize checks, remove requests and thread terminations", "why_tests_cant": "depends on timing of pending termination requests", "anchors": ["src/vortex_thread_pool.c:__vortex_thread_pool_automatic_resize", "src/vortex_thread_pool.c:vortex_thread_pool_remove_internal", "src/vortex_thread_pool.c:__vortex_thread_pool_dispatcher"]}
{"id": "C36", "title": "Timers never fire early", "statement": "A timed event of period d microseconds is not run before d microseconds have passed since it was installed or last run, and a timed wait of d microseconds does not give up before d microseconds.", "quantifier": "every start instant and every period", "why_tests_cant": "the failing instants are one microsecond out of a million", "anchors": ["src/vortex_thread_pool.c:__vortex_thread_pool_increase_stamp", "src/vortex_thread_pool.c:__vortex_thread_pool_process_events", "src/vortex_thread.c:vortex_cond_timedwait"]}
{"id": "C37", "title": "Time difference", "statement": "vortex_timeval_substract yields the exact difference of two instants with a microsecond part in 0..999999, tells whether it is negative, and leaves the second instant denoting the same instant.", "quantifier": "every pair of normalised instants", "why_tests_cant": "infinite domain", "anchors": ["src/vortex_support.c:vortex_timeval_substract"]}
{"id": "C38", "title": "Exclusive use of pooled channels", "statement": "Two users of a channel pool never hold the same channel at the same time: a channel handed out is not handed out again until released.", "quantifier": "every interleaving of get-next-ready and release calls from any number of threads", "why_tests_cant": "needs a race between two lookups", "anchors": ["src/vortex_channel_pool.c:vortex_channel_pool_get_next_ready_full", "src/vortex_channel_pool.c:vortex_channel_pool_release_channel", "src/vortex_channel_pool.c:__vortex_channel_pool_is_ready"]}
{"id": "C39", "title": "File feeder delivers the file", "statement": "Sending a file through a payload feeder puts on the wire exactly the MIME separator (if requested) followed by the file content, and the last frame is the only one without continuation flag.", "quantifier": "every file content, every sequence of frame sizes", "why_tests_cant": "cut points depend on window grants", "anchors": ["src/vortex_payload_feeder.c:__vortex_payload_feeder_file", "src/vortex_payload_feeder.c:vortex_payload_feeder_get_content", "src/vortex_sequencer.c:vortex_sequencer_build_packet_to_send"]}
{"id": "C40", "title": "Alive check detects a dead peer and only a dead peer", "statement": "With alive check enabled, if no octet is received any more the failure action is eventually triggered, and it is never triggered while octets keep being received between checks or before the configured number of unanswered probes.", "quantifier": "every sequence of checks, received octets, replies and channel-creation outcomes", "why_tests_cant": "depends on timing", "anchors": ["alive/vortex_alive.c:__vortex_alive_do_check", "alive/vortex_alive.c:__vortex_alive_channel_created", "alive/vortex_alive.c:__vortex_alive_create_channel"]}
{"id": "C41", "title": "Pull API event delivery", "statement": "Events that are not masked are delivered to the puller exactly once and in the order they happened; masked events are never delivered; waiting for an event with a timeout of t milliseconds waits at least t milliseconds.", "quantifier": "every sequence of events, mask changes and pulls", "why_tests_cant": "unbounded histories", "anchors": ["pull/vortex_pull.c:vortex_pull_event_marshaller", "pull/vortex_pull.c:vortex_pull_event_is_filtered", "pull/vortex_pull.c:vortex_pull_next_event"]}
{"id": "C42", "title": "Writing a frame to the socket", "statement": "A frame is either written completely, in order and once, or the send operation reports failure and the connection is closed so that the peer never sees a truncated frame followed by other data.", "quantifier": "every sequence of partial writes, would-block conditions and errors", "why_tests_cant": "depends on socket behaviour", "anchors": ["src/vortex_frame_factory.c:vortex_frame_send_raw", "src/vortex_sequencer.c:vortex_sequencer_direct_send"]}
{"id": "C43", "title": "Channel close handshake", "statement": "A channel that is closed by either side (or by both simultaneously) is removed exactly once on each side, only after all its outstanding messages were answered, and each close request gets exactly one answer.", "quantifier": "every interleaving of close requests, close answers and pending replies of the two peers", "why_tests_cant": "simultaneous close needs a race", "anchors": ["src/vortex_channel.c:__vortex_channel_close", "src/vortex_channel.c:__vortex_channel_0_frame_received_close_msg", "src/vortex_channel.c:vortex_channel_notify_close"]}
{"id": "C44", "title": "Profile masks and registration", "statement": "A start request is offered to the application only if its profile is registered and no installed mask filters it; masks are consulted in installation order until the first that filters.", "quantifier": "every list of masks and registered profiles", "why_tests_cant": "unbounded configurations", "anchors": ["src/vortex_connection.c:vortex_connection_set_profile_mask", "src/vortex_connection.c:vortex_connection_is_profile_filtered", "src/vortex_profiles.c:vortex_profiles_register"]}
{"id": "C45", "title": "End to end message delivery", "statement": "Two endpoints connected by a reliable byte stream: every message queued at one side is, after finitely many steps of both sides, delivered complete and in order at the other side, the receiver never detects a protocol error, for any segmentation by the network.", "quantifier": "every list of messages, every window evolution, every network segmentation", "why_tests_cant": "composition of all of the above", "anchors": ["src/vortex_sequencer.c:__vortex_sequencer_do_send_round", "src/vortex_reader.c:__vortex_reader_process_socket", "src/vortex_frame_factory.c:vortex_frame_get_next"]}
{"id": "C46", "title": "A begun message can be finished", "statement": "On a working connection, a message begun with the send call that announces more parts can always be finished: the call with its last part is neither refused nor blocked because of the outstanding message limit, and carries the number of the message begun.", "quantifier": "every history of sends and received frames, every outstanding limit", "why_tests_cant": "needs limits and multi-part sends combined, over unbounded histories", "anchors": ["src/vortex_channel.c:vortex_channel_send_msg_common", "src/vortex_channel.c:vortex_channel_set_outstanding_limit"]}
{"id": "C47", "title": "A sender blocked by the outstanding limit is released", "statement": "A caller made to wait because the outstanding limit is reached continues when replies bring the number of outstanding messages below the limit, and returns when the connection is broken; no wake-up is lost.", "quantifier": "every interleaving of any number of senders, replies and a connection shutdown", "why_tests_cant": "lost wake-ups depend on the interleaving", "anchors": ["src/vortex_channel.c:vortex_channel_send_msg_common", "src/vortex_channel.c:vortex_channel_remove_first_outstanding_msg_no"]}
{"id": "C48", "title": "The sending thread sleeps when there is nothing to send", "statement": "A channel is in the sending thread's work set, which that thread goes through without sleeping, only while a message is queued on the channel or being queued; so an idle connection costs no processor time.", "quantifier": "every interleaving of the application threads, the reader thread and the sending thread", "why_tests_cant": "a busy loop needs a precise interleaving of the reader and the sending thread and does not change any result", "anchors": ["src/vortex_sequencer.c:vortex_sequencer_signal_update", "src/vortex_sequencer.c:vortex_sequencer_process_channels", "src/vortex_sequencer.c:__vortex_sequencer_do_send_round"]}
{"id": "C49", "title": "The greetings announce the configuration", "statement": "The greetings message built names the features, the localization preferences and exactly the registered profiles that are not hidden from this peer, in order, as well-formed markup; it is refused when it does not fit, and building it never writes outside its buffer.", "quantifier": "every list of profiles of any length and any visibility handlers, every features and localize value", "why_tests_cant": "buffer bounds and quoting depend on the exact lengths and characters of every value", "anchors": ["src/vortex_greetings.c:__vortex_greetings_build_message"]}
{"id": "C50", "title": "Greetings are exchanged", "statement": "Whatever greetings the two sides build and however they are cut into frames, each side ends up with exactly the text of the other; a side accepts only a complete positive reply to message 0 of channel 0 that is the first thing received.", "quantifier": "every pair of greetings, every sequence of frames received, every interleaving of the two sides, greetings sent on accept or afterwards", "why_tests_cant": "combinations of fragments, sizes and interleavings are unbounded", "anchors": ["src/vortex_greetings.c:vortex_greetings_client_process", "src/vortex_greetings.c:vortex_greetings_is_reply_ok", "src/vortex_listener.c:__vortex_listener_second_step_accept", "src/vortex_connection.c:vortex_connection_do_greetings_exchange"]}
{"id": "C51", "title": "A remote method gets the call that was made", "statement": "An XML-RPC call made with a method name and parameters (integers, booleans, doubles, strings, base64 texts, structs and arrays nested to any depth) reaches the receiving side with the same name and the same parameters in the same order.", "quantifier": "every method name, every list of values of any depth, any content of strings", "why_tests_cant": "values nest without bound and strings have any content, including markup", "anchors": ["xml-rpc/vortex_xml_rpc_types.c:vortex_xml_rpc_method_call_marshall", "xml-rpc/vortex_xml_rpc.c:__vortex_xml_rpc_frame_received_parse_method_call", "xml-rpc/vortex_xml_rpc.c:__vortex_xml_rpc_parse_value"]}
{"id": "C52", "title": "The caller gets the answer the method gave", "statement": "The value a remote method returns, or the code and text of the fault it reports, is what its caller receives; every answer given is sent.", "quantifier": "every value of any depth, every fault code and text", "why_tests_cant": "values nest without bound and texts have any content, including markup", "anchors": ["xml-rpc/vortex_xml_rpc_types.c:vortex_xml_rpc_method_response_marshall", "xml-rpc/vortex_xml_rpc.c:__vortex_xml_rpc_invoke_process_reply"]}
{"id": "C53", "title": "A call is handled by one service, which accepts the resource", "statement": "A call received on an XML-RPC channel is handed to exactly one service, one whose validation accepts the resource of the channel; a channel is opened exactly if there is such a service.", "quantifier": "every list of registered services, every combination of accepting and refusing, answering at once and deferring", "why_tests_cant": "any number of services in any order", "anchors": ["xml-rpc/vortex_xml_rpc.c:__vortex_xml_rpc_frame_received", "xml-rpc/vortex_xml_rpc.c:vortex_xml_rpc_accept_negotiation"]}
{"id": "C54", "title": "Values put into calls and arrays are found, sent and released", "statement": "Values added in sequence or set by position to a call or an array, at valid positions, are found there, let the call be sent once all are there, and are released with it, each exactly once.", "quantifier": "every size, every sequence of additions, every sequence of assignments by position", "why_tests_cant": "needs all sequences of operations, and ownership is not visible to a test", "anchors": ["xml-rpc/vortex_xml_rpc_types.c:vortex_xml_rpc_method_call_set_value", "xml-rpc/vortex_xml_rpc_types.c:vortex_xml_rpc_array_set", "xml-rpc/vortex_xml_rpc_types.c:vortex_xml_rpc_array_add"]}
{"id": "C55", "title": "The identity reported by SASL was proved by the peer", "statement": "If a listener reports a connection as authenticated, the authentication id and authorization id it reports are those of one negotiation that the application accepted, in which the peer proved to have the password where the mechanism needs one, and that was answered with complete.", "quantifier": "every history of channel starts, messages and closes by the peer, all mechanisms, every application handler", "why_tests_cant": "an attacker chooses the sequence of attempts; mixtures of failing and succeeding attempts are unbounded", "anchors": ["sasl/vortex_sasl.c:__vortex_sasl_server_iterate", "sasl/vortex_sasl.c:__vortex_sasl_auth_validation", "sasl/vortex_sasl.c:vortex_sasl_is_authenticated"]}
{"id": "C56", "title": "No peer can crash a listener through SASL", "statement": "Whatever messages a peer sends on SASL channels, in whatever order it starts them, the listener goes on.", "quantifier": "every history of channel starts, messages and closes by the peer", "why_tests_cant": "needs all message sequences over several channels that share state", "anchors": ["sasl/vortex_sasl.c:__vortex_sasl_accept_negotiation_frame_receive", "sasl/vortex_sasl.c:__vortex_sasl_server_iterate", "sasl/vortex_sasl.c:__vortex_sasl_accept_negotiation_start"]}
{"id": "C57", "title": "The initiator of SASL is told the outcome once", "statement": "Starting an authentication leads to exactly one notification; success is notified only if the mechanism accepted the last message of the listener; a connection that is authenticated already stays so.", "quantifier": "every sequence of replies of the listener, every failure on the way", "why_tests_cant": "any number of replies, and failures at every point", "anchors": ["sasl/vortex_sasl.c:vortex_sasl_start_auth", "sasl/vortex_sasl.c:__vortex_sasl_initiator_do_steps", "sasl/vortex_sasl.c:__vortex_sasl_notify"]}
{"id": "C58", "title": "A connection reported as secured by TLS had a complete handshake", "statement": "A connection is reported as secured only if the listener agreed to use TLS, the handshake was completed, and the check installed by the application did not object (for the initiator: and a certificate was shown, and greetings were exchanged). The initiator gets exactly one notification, which says success exactly in that case. A secured connection stays secured and refuses another negotiation.", "quantifier": "every sequence of results of the TLS library, every answer of the peer, every check of the application, every history of the listener", "why_tests_cant": "the results of the handshake calls are chosen by the peer and come in any number and order", "anchors": ["tls/vortex_tls.c:vortex_tls_initial_accept", "tls/vortex_tls.c:vortex_tls_invoke_tls_activation", "tls/vortex_tls.c:__vortex_tls_start_negotiation"]}
{"id": "C59", "title": "After TLS was agreed on there is no way back to clear text", "statement": "Once the listener has sent <proceed />, it takes no octets that were not protected as a part of the session. The initiator that got it ends with a secured connection or with one that does not work.", "quantifier": "every history of the listener, every failure of the initiator", "why_tests_cant": "an attacker chooses when and how the handshake fails", "anchors": ["tls/vortex_tls.c:vortex_tls_initial_accept", "tls/vortex_tls.c:vortex_tls_prepare_listener", "tls/vortex_tls.c:vortex_tls_invoke_tls_activation"]}
{"id": "C60", "title": "A request for TLS that is not carried out changes nothing", "statement": "If the peer does not agree to use TLS, the connection works as before. Asking for TLS on a secured connection gives that connection, and it still works.", "quantifier": "every answer of the peer, every timing of the answer, every state of the connection", "why_tests_cant": "must hold for every way to refuse and every timing of the notification", "anchors": ["tls/vortex_tls.c:vortex_tls_start_negotiation", "tls/vortex_tls.c:vortex_tls_start_negotiation_sync", "tls/vortex_tls.c:__vortex_tls_start_negotiation_sync_process"]}
{"id": "C61", "title": "Authentication from before TLS does not count afterwards", "statement": "On the connection that replaces the old one after TLS was agreed on, a peer is reported as authenticated only after a SASL negotiation completed on that connection.", "quantifier": "every history of SASL messages before and after TLS", "why_tests_cant": "needs all pairs of histories; the state of one is carried over to the other", "anchors": ["src/vortex_connection.c:vortex_connection_new_empty_from_connection2", "sasl/vortex_sasl.c:vortex_sasl_is_authenticated"]}
{"id": "C62", "title": "Automatic TLS without allowed failures never gives a connection in clear text", "statement": "With automatic TLS enabled and failures not allowed, opening a connection gives one that is secured with a complete handshake, one that does not work, or none; if the negotiation works in time, it gives a secured one.", "quantifier": "every answer of the peer, every sequence of results of the TLS library, every timing of the result", "why_tests_cant": "every way the negotiation can fail, and every timing", "anchors": ["tls/vortex_tls.c:vortex_tls_auto_tlsfixate_connection", "src/vortex_connection.c:vortex_connection_actions_notify"]}
{"id": "C63", "title": "A connection through an HTTP proxy begins directly behind the answer of the proxy", "statement": "When the proxy opens the way with a 2xx answer, with any header lines, the session begins with the first octet behind the answer, and the connection works exactly if greetings are exchanged there. When the proxy refuses, the connection does not work. The outcome is reported exactly once: to the handler, or by returning the connection. A connection that works is known to go through a proxy.", "quantifier": "every answer of the proxy (status line, any number of header lines), every stream behind it, with and without handler", "why_tests_cant": "the answer is chosen by the proxy; no set of proxies covers the header lines they may send", "anchors": ["http/vortex_http.c:__vortex_http_connection_new", "http/vortex_http.c:vortex_http_connection_is_proxied", "src/vortex_frame_factory.c:vortex_frame_readline"]}
{"id": "C64", "title": "A tunnel passes on every octet unchanged, and closes both sides together", "statement": "A host in the middle of a tunnel writes to each side exactly what it received from the other one, unchanged and in order. When one connection is closed, so is the other one, and they are closed only because a peer closed one or one broke. No memory is used after its release.", "quantifier": "every history of octets, closes and results of reads and writes on both connections, and of the reader dropping connections", "why_tests_cant": "depends on the interleaving of both sides, partial writes and the reader", "anchors": ["tunnel/vortex_tunnel.c:__vortex_tunnel_pass_octets", "src/vortex_frame_factory.c:vortex_frame_receive_raw", "src/vortex_frame_factory.c:vortex_frame_send_raw"]}
{"id": "C65", "title": "Connections handed to the reader are watched and served until they are closed", "statement": "A connection or listener registered is watched, and served whenever it has something to read, until it is closed, taken away, or the reader ends. The reader holds one reference for each registration and releases it exactly once, and never reads a connection it has released. When the reader ended it holds none.", "quantifier": "every interleaving of the reader with threads that register, close, block and take away connections, and every choice of the ones that are ready", "why_tests_cant": "depends on the interleaving of the reader with all other threads", "anchors": ["src/vortex_reader.c:__vortex_reader_run", "src/vortex_reader.c:vortex_reader_watch_connection", "src/vortex_reader.c:vortex_reader_watch_listener", "src/vortex_reader.c:vortex_reader_unwatch_connection", "src/vortex_reader.c:__vortex_reader_build_set_to_watch_aux"]}
{"id": "C66", "title": "A request to end ends the reader", "statement": "Every request to end is taken once. After it was taken the reader does not wait for connections again: it closes and releases all connections it has, notifies the caller, and ends.", "quantifier": "every interleaving of the reader with threads that hand something to it", "why_tests_cant": "a request that is lost needs another thread at one of few moments", "anchors": ["src/vortex_reader.c:vortex_reader_stop", "src/vortex_reader.c:vortex_reader_read_pending", "src/vortex_reader.c:__vortex_reader_stop_process"]}
{"id": "C67", "title": "Visiting all connections calls the handler for each one watched and then notifies the caller", "statement": "Each request to visit all connections is answered exactly once, after the handler was called once for each connection and listener watched that works, and for no other. No caller is left waiting when the reader ends.", "quantifier": "every interleaving of the reader with threads that hand something to it", "why_tests_cant": "depends on what else is in the queue of the reader", "anchors": ["src/vortex_reader.c:vortex_reader_foreach", "src/vortex_reader.c:vortex_reader_foreach_impl"]}
{"id": "C68", "title": "The wait mechanism can be changed while the reader runs", "statement": "Changing the mechanism to wait for connections at any time never makes the reader call the functions of one mechanism with the data of another one.", "quantifier": "every interleaving of the reader, the thread that changes the mechanism, and the threads that register connections", "why_tests_cant": "the change is a hand shake of two threads, disturbed by a third one", "anchors": ["src/vortex_io.c:vortex_io_waiting_use", "src/vortex_reader.c:vortex_reader_notify_change_io_api", "src/vortex_reader.c:__vortex_reader_change_io_mech"]}
{"id": "C69", "title": "The idle handler is called for connections without traffic", "statement": "The idle handler is called for a connection only if nothing was read from it or written to it for longer than the period, nor did the handler return in that time; never twice at a time; and a connection that stays without traffic is reported at the next look of the reader. The reference taken for a call is released after it.", "quantifier": "every history of traffic, looks of the reader, changes of the handler, and progress of the thread pool, at any times", "why_tests_cant": "depends on when the pool runs the call, compared to traffic and changes of the handler", "anchors": ["src/vortex_connection.c:vortex_connection_check_idle_status", "src/vortex_connection.c:vortex_connection_set_receive_stamp", "src/vortex_ctx.c:vortex_ctx_set_idle_handler", "src/vortex_ctx.c:vortex_ctx_notify_idle", "src/vortex_ctx.c:__vortex_ctx_notify_idle"]}
{"id": "C70", "title": "A connection is served only if every accept handler accepted it", "statement": "For a connection that a listener accepted, the accept handlers are called once each, in the order in which they were installed, up to the first one that refuses. The connection is served exactly if all of them accepted and it still works; otherwise it is closed, the peer that is still there is told, and all references are released.", "quantifier": "every list of handlers, every answer of each of them, handlers installed meanwhile, and the connection breaking at any moment", "why_tests_cant": "ranges over all lists and answers, and over the moments in which handlers are added or the connection breaks", "anchors": ["src/vortex_listener.c:vortex_listener_accept_connection", "src/vortex_listener.c:vortex_listener_complete_register", "src/vortex_listener.c:vortex_listener_set_on_connection_accepted"]}
{"id": "C71", "title": "Waiting for listeners ends when they are unlocked", "statement": "vortex_listener_wait does not return before vortex_listener_unlock is called (or a listener fails to start). When that happened every thread that waits returns, and the queue used is not touched after it was released.", "quantifier": "every interleaving of the steps of any number of threads that wait and of calls that unlock", "why_tests_cant": "the faults depend on the step of the waiting thread at which the other thread runs", "anchors": ["src/vortex_listener.c:vortex_listener_wait", "src/vortex_listener.c:vortex_listener_unlock"]}
{"id": "C72", "title": "Port sharing handlers see the first octets of accepted connections only", "statement": "Handlers installed to share a port are asked in the order of installation, only for accepted connections that match their address and port, about the first four octets that the peer sent, until one takes or closes the connection; a session that begins with a BEEP greeting is never offered to them.", "quantifier": "every list of handlers and answers, every way in which the octets of the peer arrive, and every moment of installation", "why_tests_cant": "ranges over all ways to cut the stream and all later reads of a session", "anchors": ["src/vortex_listener.c:__vortex_listener_check_port_sharing", "src/vortex_listener.c:vortex_listener_set_port_sharing_handling", "src/vortex_frame_factory.c:vortex_frame_get_next"]}
{"id": "C73", "title": "Shutting down a listener closes the connections it accepted", "statement": "When vortex_listener_shutdown with the connections included returned, neither the listener nor any connection accepted by it works; no other connection or listener is affected.", "quantifier": "every set of connections and listeners, and connections accepted or lost at any moment of the call", "why_tests_cant": "depends on connections accepted between the steps of the call", "anchors": ["src/vortex_listener.c:vortex_listener_shutdown", "src/vortex_listener.c:__vortex_listener_shutdown_foreach"]}
{"id": "C74", "title": "The waiting sets hold what was added and report what is ready", "statement": "With poll and epoll a waiting set holds exactly the descriptors added since it was cleared, grows without going beyond the memory it has, refuses one only when the limit of the system is reached or memory is missing, and all of its descriptors that are ready, and no others, are handed to the dispatch function.", "quantifier": "every sequence of additions and clearings, every limit, every failure of an allocation, every set of ready descriptors", "why_tests_cant": "ranges over all sizes of the set, up to limits that no test reaches, and all failures of allocations", "anchors": ["src/vortex_io.c:__vortex_io_waiting_poll_add_to", "src/vortex_io.c:__vortex_io_waiting_poll_dispatch", "src/vortex_io.c:__vortex_io_waiting_epoll_add_to", "src/vortex_io.c:__vortex_io_waiting_epoll_dispatch", "src/vortex.c:vortex_conf_get"]}
{"id": "C75", "title": "A round with select serves all that is ready", "statement": "In a round of the reader with select every ready listener is served as with the other mechanisms, and every ready connection that is not closed meanwhile is read, once; nothing else is.", "quantifier": "every list of listeners and connections, every set of ready ones, and connections closed during the round", "why_tests_cant": "ranges over all lists, ready sets and closings during the round", "anchors": ["src/vortex_reader.c:__vortex_reader_check_listener_list", "src/vortex_reader.c:__vortex_reader_check_connection_list", "src/vortex_reader.c:__vortex_reader_dispatch_connection"]}
{"id": "C76", "title": "A profile is registered, and its handlers run, as last set", "statement": "After any sequence of registrations, changes and unregistrations a profile is registered exactly if it was registered after it was last unregistered; starts, closes and frames of its channels go to the handlers last set for it, or to the global or default ones; the content type, encoding and automatic MIME setting are those last set; the list of profiles holds every registered one once; and vortex_profiles_is_defined_received tells whether there is a received handler.", "quantifier": "every history of calls and every profile", "why_tests_cant": "ranges over all histories of calls on all profiles", "anchors": ["src/vortex_profiles.c:vortex_profiles_register", "src/vortex_profiles.c:vortex_profiles_register_extended_start", "src/vortex_profiles.c:vortex_profiles_set_received_handler", "src/vortex_profiles.c:vortex_profiles_unregister", "src/vortex_profiles.c:vortex_profiles_invoke_start", "src/vortex_profiles.c:vortex_profiles_invoke_close", "src/vortex_profiles.c:vortex_profiles_invoke_frame_received", "src/vortex_profiles.c:vortex_profiles_is_defined_received", "src/vortex_profiles.c:vortex_profiles_set_mime_type", "src/vortex_ctx.c:vortex_ctx_set_channel_start_handler"]}
{"id": "C77", "title": "Profiles can be changed while their channels start", "statement": "While some threads register and unregister a profile and others start channels of it, no memory of a released registration is used, every handler is called with the user data that was given with it, and an unregistered profile is released when its last handler returned.", "quantifier": "every interleaving of the steps of any number of threads", "why_tests_cant": "the faults need a particular step of one thread between two of another", "anchors": ["src/vortex_profiles.c:vortex_profiles_register", "src/vortex_profiles.c:vortex_profiles_unregister", "src/vortex_profiles.c:vortex_profiles_invoke_start", "src/vortex_profiles.c:__vortex_profiles_get_and_ref"]}
{"id": "C78", "title": "What is taken for the delivery of a frame is given back", "statement": "While frames are delivered to received handlers of a profile or of a channel the connection, the channel and the profile stay alive; when the connection is down and no delivery goes on, all references taken for deliveries are released and every frame was released exactly once.", "quantifier": "every sequence of frames, every order in which their deliveries begin and end, with or without ordered delivery, and every moment at which the connection fails, the channel is closed or the handler is changed", "why_tests_cant": "leaks depend on the moment of a failure relative to deliveries that wait", "anchors": ["src/vortex_profiles.c:vortex_profiles_invoke_frame_received", "src/vortex_profiles.c:__vortex_profiles_invoke_frame_received", "src/vortex_channel.c:vortex_channel_invoke_received_handler", "src/vortex_channel.c:__vortex_channel_invoke_received_handler", "src/vortex_channel.c:vortex_channel_check_serialize", "src/vortex_channel.c:vortex_channel_check_serialize_pending"]}
{"id": "C79", "title": "A context is ended once, with its cleanup functions", "statement": "vortex_exit_ctx can be called by several threads at the same time: one of them ends the context, once, the others return; every cleanup function that was installed before and not removed is called once, in the order of installation; nothing that was destroyed is used.", "quantifier": "every interleaving of any number of threads that end the context and that install or remove cleanup functions, also from within such functions", "why_tests_cant": "ranges over all interleavings", "anchors": ["src/vortex.c:vortex_exit_ctx", "src/vortex_ctx.c:vortex_ctx_install_cleanup", "src/vortex_ctx.c:vortex_ctx_remove_cleanup"]}
{"id": "C80", "title": "Giving back a reference to a context clears the pointer when it was the last one", "statement": "Threads that only use their own references never use a released context; it is released when the last reference is given back; and vortex_ctx_unref sets the pointer of the caller to NULL exactly if it released the context.", "quantifier": "every interleaving of any number of threads that take references for others and give theirs back", "why_tests_cant": "the fault needs two threads between two steps of the call", "anchors": ["src/vortex_ctx.c:vortex_ctx_ref2", "src/vortex_ctx.c:vortex_ctx_unref2", "src/vortex_ctx.c:vortex_ctx_free2"]}
{"id": "C81", "title": "Frames taken with vortex_channel_get_reply", "statement": "vortex_channel_get_reply returns the piggyback first and then every frame queued for the channel exactly once, in the order of arrival; it returns NULL before its time is over only if the connection is down and no frame is left; a call that waits is ended by a failure of the connection; and a queue may be released when no call goes on.", "quantifier": "every interleaving of the calls, the delivery of frames, the failure of the connection with its notification threads, and the release of the queue", "why_tests_cant": "faults need a failure of the connection between two given steps of the call", "anchors": ["src/vortex_channel.c:vortex_channel_get_reply", "src/vortex_channel.c:vortex_channel_queue_reply", "src/vortex_channel.c:vortex_channel_get_piggyback", "src/vortex_channel.c:__vortex_channel_get_reply_connection_broken", "src/vortex_connection.c:vortex_connection_remove_on_close_full", "src/vortex_connection.c:__vortex_connection_invoke_on_close"]}
{"id": "C82", "title": "Accepting the close of a connection waits for the answer to be written, and ends", "statement": "When the close of a connection is accepted the connection is shut down only after the answer was written (or its write failed); the wait for it always ends, also when the connection fails meanwhile; nothing that was released is used.", "quantifier": "every interleaving of the thread that waits, the one that writes, and the failure of the connection", "why_tests_cant": "ranges over all interleavings, and a wait that never ends is not observed by a test", "anchors": ["src/vortex_channel.c:vortex_channel_wait_until_sent", "src/vortex_channel.c:vortex_channel_install_waiter", "src/vortex_channel.c:vortex_channel_signal_rpy_sent", "src/vortex_channel.c:vortex_channel_notify_close"]}
{"id": "C83", "title": "vortex_channel_block_until_replies_are_sent waits for the replies that are due", "statement": "The function returns at once exactly if every message received was answered completely (RPY, ERR or NUL), otherwise it waits until that is so, and it gives up only if the connection fails or the time asked for is over; it always ends.", "quantifier": "every legal sequence of messages and replies, and every sequence of moments at which the waiting thread is woken up", "why_tests_cant": "ranges over all histories of messages and replies and all timings", "anchors": ["src/vortex_channel.c:vortex_channel_block_until_replies_are_sent", "src/vortex_channel.c:vortex_channel_update_status", "src/vortex_channel.c:vortex_channel_signal_reply_sent_on_close_blocked", "src/vortex_sequencer.c:vortex_sequencer_direct_send"]}
{"id": "C84", "title": "Waiting for a change of a hash", "statement": "vortex_hash_lock_until_changed returns 1 only if the hash was changed since the call began, and a thread that waits when the hash is changed is woken up.", "quantifier": "every interleaving of any number of threads that wait and threads that change the hash", "why_tests_cant": "ranges over all interleavings; a thread that is never woken up is not observed by a test", "anchors": ["src/vortex_hash.c:vortex_hash_lock_until_changed", "src/vortex_hash.c:__vortex_hash_notify_change"]}
{"id": "C85", "title": "Closing a connection gives back the right references", "statement": "vortex_connection_close uses no released connection; it gives back exactly one reference of a connection created by the caller, once the connection is closed, and none of a connection owned by the engine; when a call returns true the connection is not working any more; every call ends once its channels are closed.", "quantifier": "every interleaving of calls, failures of the connection, and the engine giving back its references; any number of references", "why_tests_cant": "the faults need a failure or a release between two given steps of the call", "anchors": ["src/vortex_connection.c:vortex_connection_close", "src/vortex_connection.c:vortex_connection_ref_internal", "src/vortex_connection.c:vortex_connection_unref"]}
{"id": "C86", "title": "Handlers for channels added and removed", "statement": "When a channel is added to or removed from a connection, each handler installed before and not removed is called exactly once, in the order of installation, and no handler is called after vortex_connection_remove_handler returned for it.", "quantifier": "every interleaving of a notification with handlers being installed and removed, by the handlers or by other threads", "why_tests_cant": "handlers that change the list of handlers, and threads between two steps of the loop", "anchors": ["src/vortex_connection.c:__vortex_connection_check_and_notify", "src/vortex_connection.c:vortex_connection_set_channel_added_handler", "src/vortex_connection.c:vortex_connection_set_channel_removed_handler", "src/vortex_connection.c:vortex_connection_remove_handler"]}
{"id": "C87", "title": "Calls to close a channel return, and close it once", "statement": "However many threads call vortex_channel_close for a channel, one request is sent; a call that returns true leaves no channel (or no connection); every call returns when the negotiation is over. vortex_connection_close_all_channels always returns, with true exactly if the peer agreed for all channels asked for.", "quantifier": "every interleaving of calls by any number of threads, answers of the peer, and failure of the connection; every set of channels", "why_tests_cant": "a call that never returns is not observed by a test; ranges over all schedules and sets of channels", "anchors": ["src/vortex_channel.c:__vortex_channel_close_full", "src/vortex_channel.c:__vortex_channel_close", "src/vortex_connection.c:vortex_connection_close_all_channels", "src/vortex_connection.c:__close_channel_aux"]}
{"id": "C88", "title": "A channel is created exactly if the peer accepted the profile asked for", "statement": "vortex_channel_new gives a channel if and only if the answer of the peer is a positive reply that holds the profile asked for, and the piggyback found on the channel is the content the peer sent with it, whatever answers were received before in the same context; and threads that check answers at the same time never use memory that was released.", "quantifier": "every sequence of answers, of any peers, received in a context; every parser; every interleaving of threads that check answers", "why_tests_cant": "ranges over all histories of answers: the result depends on answers received earlier, on other connections", "anchors": ["src/vortex_channel.c:__vortex_channel_validate_start_reply", "src/vortex_channel.c:__vortex_channel_start_reply_free"]}
{"id": "C89", "title": "A call to create a channel is answered once, and only its own channel is touched", "statement": "Every call of vortex_channel_new tells its caller the result exactly once, by its return value or by the handler; references to the connection are given back; a call that fails leaves no channel in the connection; a channel that was created and not closed is known to its connection.", "quantifier": "every interleaving of any number of calls with any numbers, answers of the peer, channels being closed, and failure of the connection", "why_tests_cant": "a call that fails between two steps of another one; handlers that are not called", "anchors": ["src/vortex_channel.c:vortex_channel_new_full", "src/vortex_channel.c:__vortex_channel_new", "src/vortex_connection.c:vortex_connection_add_channel_common", "src/vortex_connection.c:vortex_connection_remove_channel_common"]}
{"id": "C90", "title": "Channel pools and the references to their channels", "statement": "Calls that attach channels to pools, give them away, remove them, close channels and close pools never use a pool that was released and never block for ever; every channel has as many references as there are holders: the connection, the application, each pool it is in.", "quantifier": "every sequence of such calls, with any number of pools and channels", "why_tests_cant": "the fault appears long after the call that caused it, when the last reference is given back", "anchors": ["src/vortex_channel_pool.c:vortex_channel_pool_attach", "src/vortex_channel_pool.c:vortex_channel_pool_deattach", "src/vortex_channel_pool.c:__vortex_channel_pool_close_common", "src/vortex_channel.c:vortex_channel_free", "src/vortex_channel.c:vortex_channel_unref2"]}
{"id": "C91", "title": "The timeouts in force are those set last for the context", "statement": "vortex_connection_get_timeout and vortex_connection_get_connect_timeout return the value set last with vortex_connection_timeout and vortex_connection_connect_timeout for the same context, or the default if none or 0 was set, whatever other contexts are told and whichever threads read the values.", "quantifier": "every history of setting and reading, for any number of contexts, any values, any interleaving of threads that read", "why_tests_cant": "ranges over all values and interleavings; tests use one context and small values", "anchors": ["src/vortex_connection.c:vortex_connection_timeout", "src/vortex_connection.c:vortex_connection_get_timeout", "src/vortex_connection.c:vortex_connection_connect_timeout", "src/vortex_connection.c:vortex_connection_get_connect_timeout", "src/vortex_support.c:vortex_support_getenv_int"]}
{"id": "C92", "title": "A socket is returned exactly when the TCP connection is established in time", "statement": "When the library opens a TCP connection with a connect timeout, it returns a socket only if the connection is established; if it returns none, the socket it created is closed; it reports a timeout only when the whole timeout is over; a connection established in time is returned; the address used is of the transport (IPv4 or IPv6) that was asked for.", "quantifier": "every timeout, every behaviour of the clock that never goes back, every sequence of results of the waiting mechanism, every history of name lookups in a context", "why_tests_cant": "depends on when the network answers and on values left in errno; tests use one local host", "anchors": ["src/vortex_connection.c:vortex_connection_sock_connect_common", "src/vortex_connection.c:__vortex_connection_wait_on", "src/vortex_connection.c:vortex_gethostbyname"]}
{"id": "C93", "title": "A connection attempt is reported once, as working exactly when the greetings were exchanged", "statement": "When a connection is asked for, the caller is told its outcome exactly once: the function given is called, or the connection is returned. It is told as working only if a socket is open and valid greetings of the peer were received; if it is told as not working, no socket is left open. Valid greetings that arrive in time are accepted however the network cuts them. If the peer closes the connection, the call ends.", "quantifier": "every behaviour of the peer and of the network, every cut of the octets, every connect timeout, every outcome of the waits", "why_tests_cant": "depends on how the octets of the greetings are cut by the network and on when they arrive; tests run over a local link, where the greetings arrive in one piece", "anchors": ["src/vortex_connection.c:vortex_connection_do_greetings_exchange", "src/vortex_connection.c:__vortex_connection_new", "src/vortex_connection.c:vortex_connection_new_full_common", "src/vortex_greetings.c:vortex_greetings_process"]}
{"id": "C94", "title": "A connection that is connected again works like a new one", "statement": "When a broken connection is connected again, its outcome is the one a new connection to the same peer would have: nothing that was received before is taken for part of what the peer sends now. Afterwards the connection is read by the reader exactly once per event.", "quantifier": "every point at which the connection broke or was shut down (in the middle of a header line, of a payload, of fragmented greetings, after reads without data), by any thread, every timing of the reconnection relative to the reader thread", "why_tests_cant": "depends on where in the stream the connection broke and on what the reader thread has done when the reconnection starts", "anchors": ["src/vortex_connection.c:vortex_connection_reconnect", "src/vortex_connection.c:__vortex_connection_new", "src/vortex_frame_factory.c:vortex_frame_get_next", "src/vortex_reader.c:vortex_reader_watch_connection"]}
{"id": "C95", "title": "What a connection reports about its peer is what the greetings of that peer said", "statement": "Greetings are accepted exactly if they are a valid greetings document. Afterwards the features, the localize value and the profiles reported for the connection are those of the greetings its own peer sent last, whatever greetings other connections of the context received; what is reported is never memory that was released. Handling greetings never blocks for ever.", "quantifier": "every sequence of greetings received by any number of connections, every interleaving of the threads that handle them and of calls asking for features, localize and profiles, every behaviour of the XML library", "why_tests_cant": "the greetings are kept in a cache shared by all connections of a context; whether an entry is reused depends on all greetings received before, and two threads may miss the same entry at the same time", "anchors": ["src/vortex_connection.c:__vortex_connection_parse_greetings", "src/vortex_connection.c:__vortex_connection_create_greetings_cache", "src/vortex_connection.c:vortex_connection_get_features", "src/vortex_connection.c:vortex_connection_get_localize", "src/vortex_connection.c:vortex_connection_get_remote_profiles", "src/vortex_connection.c:vortex_connection_is_profile_supported"]}
{"id": "C96", "title": "Messages of channel 0 are understood, or refused", "statement": "Whatever octets a peer sends as a message on channel 0, a valid request to start or close a channel is handled for the channel, profile and serverName it names (a close request without a number means the connection); everything else is answered with an error or ends the connection. The process never crashes. A close request leads to the end of the channel exactly if the channel exists, is not being closed already, its closing is not left to the application, and the handler in charge agrees.", "quantifier": "every sequence of octets received on channel 0, every XML library that finds the name of the root element, every set of channels and handlers", "why_tests_cant": "the inputs are all documents a peer can make up, and all octets that are none", "anchors": ["src/vortex_channel.c:vortex_channel_0_frame_received", "src/vortex_channel.c:__vortex_channel_0_frame_received_identify_type", "src/vortex_channel.c:__vortex_channel_0_frame_received_get_start_param", "src/vortex_channel.c:__vortex_channel_0_frame_received_get_close_param", "src/vortex_channel.c:__vortex_channel_0_frame_received_close_msg"]}
{"id": "C97", "title": "Data files are found where the search paths of the domain say", "statement": "Whatever search paths are added, by any number of threads at the same time, looking for a file in a domain returns an existing regular file in a directory added to that domain; if a directory whose addition had completed has the file, then something is found, and it is in no directory added later; and asking whether a path was added tells so.", "quantifier": "every interleaving of any number of threads adding paths to any domains, every moment at which a file is looked for, every content of the file system", "why_tests_cant": "the result depends on the order of all additions of all threads, and on all domains together", "anchors": ["src/vortex_support.c:vortex_support_add_domain_search_path_ref", "src/vortex_support.c:vortex_support_add_domain_search_path", "src/vortex_support.c:vortex_support_add_search_path_ref", "src/vortex_support.c:vortex_support_check_search_path", "src/vortex_support.c:vortex_support_domain_find_data_file"]}
{"id": "C98", "title": "The tasks handed to the thread pool are run once, and the pool can be ended", "statement": "A task accepted by the pool is run exactly once, in the order of acceptance as far as being taken by a thread is concerned, unless the pool is being ended; no task begins after it was declared closed and is not begun twice; ending the pool releases each of its threads exactly once, after that thread ended, uses nothing that was released, and returns if the running tasks return.", "quantifier": "every interleaving of any number of threads of the pool, of callers handing over tasks, of threads added and removed, and of the end of the pool, called from outside or from a task", "why_tests_cant": "the outcome depends on how the steps of all threads interleave with the steps of the end of the pool", "anchors": ["src/vortex_thread_pool.c:vortex_thread_pool_new_task", "src/vortex_thread_pool.c:__vortex_thread_pool_dispatcher", "src/vortex_thread_pool.c:vortex_thread_pool_exit", "src/vortex_thread_pool.c:vortex_thread_pool_remove", "src/vortex_thread_pool.c:vortex_thread_pool_being_closed"]}
{"id": "C99", "title": "A timed event of the pool is run by one thread at a time, ends when its handler says so, and can be removed", "statement": "The handler of a timed event is called only when no other handler of a timed event runs; after a handler said that its event should be removed, or after vortex_thread_pool_remove_event returned true for it, it is not called any more; the function removes the event the identifier was given for, and returns false only if there is no such event any more; the memory of each event is released once, when neither the list nor a thread uses it.", "quantifier": "every interleaving of any number of threads that process the events, of callers that install and remove events, from handlers or from elsewhere, and every choice of addresses by the allocator", "why_tests_cant": "the faults need a removal between the choice of an event and the call of its handler, or two events whose addresses agree in the lower half", "anchors": ["src/vortex_thread_pool.c:__vortex_thread_pool_process_events", "src/vortex_thread_pool.c:__vortex_thread_pool_unref_event", "src/vortex_thread_pool.c:vortex_thread_pool_new_event", "src/vortex_thread_pool.c:vortex_thread_pool_remove_event"]}
{"id": "C100", "title": "The memory of a wait reply object is released once, after its last use", "statement": "A wait reply object and the queue inside it are released when the caller gave it up (by receiving a frame or by freeing it) and the library neither expects nor delivers a reply with it, and not used afterwards; each frame delivered to it is given to the caller or released, once.", "quantifier": "every interleaving of the caller (sending, waiting, time outs, sending again, giving up), the reader, the termination of the channel, threads that answer a close message crossing ours, and the handler that signals a broken connection", "why_tests_cant": "the faults need a release between two lines of another thread, or a reply that comes between a time out and the end of the connection", "anchors": ["src/vortex_channel.c:vortex_channel_create_wait_reply", "src/vortex_channel.c:vortex_channel_wait_reply_ref", "src/vortex_channel.c:vortex_channel_free_wait_reply", "src/vortex_channel.c:vortex_channel_wait_reply", "src/vortex_channel.c:__vortex_channel_close"]}
{"id": "C101", "title": "A tunnel goes through the configured hosts, in order, to the configured end", "statement": "Opening a connection with tunnel settings connects to the hosts of the hops, in the order opposite to the one in which they were added; each host is told exactly the hops behind it; the connection is returned if and only if every host can be reached, speaks TUNNEL, and the last one accepts; only the last one takes the session. Every request is answered, with ok if and only if a host took the session. A hop that is not understood prevents the connection.", "quantifier": "every list of hops, every set of reachable hosts with their profiles and accept handlers, every request content", "why_tests_cant": "chains of any length and any set of hosts; the tests use fixed chains of one or two proxies on the same machine", "anchors": ["tunnel/vortex_tunnel.c:vortex_tunnel_settings_add_hop", "tunnel/vortex_tunnel.c:vortex_tunnel_new", "tunnel/vortex_tunnel.c:__vortex_tunnel_start_request", "tunnel/vortex_tunnel.c:vortex_tunnel_settings_new"]}
{"id": "C102", "title": "Frames are read through TLS and WebSocket as through a plain connection", "statement": "On a connection protected with TLS or carried over WebSocket, the frames the peer sends are handed over, in order and unchanged, however the peer puts them into records (several frames in one record, one frame over several records) and in whatever pieces the records arrive; the connection never waits while octets are held by the transport, and is not closed for the way they arrive.", "quantifier": "every list of legal frames, every division into records, every arrival of the records, every sequence of results of OpenSSL", "why_tests_cant": "divisions and arrivals of any shape; against itself the library sends one frame per record, which is the only division the tests meet", "anchors": ["tls/vortex_tls.c:vortex_tls_ssl_read", "tls/vortex_tls.c:vortex_tls_ssl_write", "web-socket/vortex_websocket.c:vortex_websocket_read", "src/vortex_reader.c:__vortex_reader_process_socket_pending", "src/vortex_frame_factory.c:vortex_frame_get_next"]}
{"id": "C103", "title": "Both sides of a connection agree on its serverName, which is the configured one", "statement": "A channel is asked for with the serverName given, or else with the one configured for the connection (option, host, or none if disabled), unless the connection has one already. The serverName of the connection becomes the one of the first channel created with a name; both sides then report the same name, it never changes, and start handlers are called with it.", "quantifier": "every configuration, every sequence of channels asked for by any number of threads with any names, every decision of the server, every interleaving", "why_tests_cant": "names and interleavings of any number of threads; the tests create channels one after the other with two fixed names", "anchors": ["src/vortex_connection.c:vortex_connection_opts_get_serverName", "src/vortex_connection.c:vortex_connection_set_server_name", "src/vortex_connection.c:__vortex_connection_opts_process", "src/vortex_channel.c:vortex_channel_new_full", "src/vortex_channel.c:__vortex_channel_0_frame_received_start_msg", "src/vortex_channel.c:vortex_channel_notify_start", "src/vortex_ctx.c:vortex_ctx_server_name_acquire"]}
{"id": "C104", "title": "What is configured for a context is what is read back and used", "statement": "After any calls, reading an item of the configuration gives the value of the last accepted change, or the documented default; documented values are accepted, refused calls change nothing, and no item changes another. Channels with profiles the peer did not announce are refused exactly if that is configured, listeners use the configured backlog, and MIME headers are added as the nearest of channel, profile and context says.", "quantifier": "every sequence of calls with any items and values, every limit of the process and kernel policy, every set of channels and profiles", "why_tests_cant": "histories of calls of any length; the tests set three items once", "anchors": ["src/vortex.c:vortex_conf_get", "src/vortex.c:vortex_conf_set", "src/vortex.h:VORTEX_LISTENER_BACKLOG", "src/vortex_channel.c:__vortex_channel_get_mime_headers_size", "src/vortex_channel.c:__vortex_channel_new", "src/vortex_listener.c:vortex_listener_sock_listen", "src/vortex_profiles.c:vortex_profiles_set_automatic_mime", "src/vortex_channel.c:vortex_channel_set_automatic_mime"]}
{"id": "C105", "title": "Connections over an external transport keep their setup, exclude their handlers, and close only their own descriptor", "statement": "A setup object given to connections and listeners over an external transport is kept as long as one of them or the application needs it, and released after that; with mutual exclusion configured no two threads are inside of the handlers of a connection; a connection or listener closes the descriptor it was created with, and no other; what is configured is used.", "quantifier": "every history of calls by the application and of calls of its handlers by any threads, any number of setup objects, connections, listeners and descriptors", "why_tests_cant": "interleavings of threads and reuse of descriptor numbers; the tests use one connection per setup object", "anchors": ["external/vortex_external.c:vortex_external_connection_new", "external/vortex_external.c:vortex_external_listener_new", "external/vortex_external.c:vortex_external_setup_ref", "external/vortex_external.c:vortex_external_setup_unref", "external/vortex_external.c:vortex_external_setup_conf", "external/vortex_external.c:__vortex_external_send_handler", "external/vortex_external.c:__vortex_external_listener_on_accept", "external/vortex_external.c:__vortex_external_listener_data_release", "src/vortex_connection.c:vortex_connection_free"]}
{"id": "C106", "title": "A wait reply object can be used again after a call that gave nothing", "statement": "With wait reply objects used as documented, one message at a time and again after a call that returned NULL, a thread that waits gets the reply to the last message it sent with the object, every such reply is given to its thread, and no object is used after it was released.", "quantifier": "every history of messages, replies, calls to wait, time outs and objects given up, for any number of objects on a channel, until message numbers begin again", "why_tests_cant": "needs a time out followed by late replies in every order; the effects appear only for later messages of other threads", "anchors": ["src/vortex_channel.c:vortex_channel_wait_reply", "src/vortex_channel.c:vortex_channel_free_wait_reply", "src/vortex_channel.c:vortex_channel_create_wait_reply", "src/vortex_channel.c:vortex_channel_invoke_received_handler", "src/vortex_channel.c:vortex_channel_send_msg_and_wait"]}
{"id": "C107", "title": "Requests and replies on channel 0 say what was asked for", "statement": "A request to start or close a channel, a positive reply or an error is read by the peer with the number, serverName, profile, encoding, content, code and text the sending side was given.", "quantifier": "every channel number, serverName, profile, encoding, content of any size, code, language and text", "why_tests_cant": "the texts are put into XML as they are: the values that break the message are unbounded in number, and a test tries a few harmless ones", "anchors": ["src/vortex_frame_factory.c:vortex_frame_get_start_message", "src/vortex_frame_factory.c:vortex_frame_get_close_message", "src/vortex_frame_factory.c:vortex_frame_get_error_message", "src/vortex_frame_factory.c:vortex_frame_get_start_rpy_message", "src/vortex_frame_factory.c:vortex_frame_get_ok_message", "src/vortex_channel.c:vortex_channel_validate_err", "src/vortex_channel.c:__vortex_channel_close_validate_rpy", "src/vortex_channel.c:__vortex_channel_0_frame_received_get_start_param"]}
{"id": "C108", "title": "Fault strings of XML-RPC replies belong to the caller", "statement": "The fault string given by a synchronous XML-RPC call stays valid until the caller releases it, may be released once as documented, and receiving faults does not change the data stored with the channel.", "quantifier": "every sequence of faulty replies with any strings, uses and releases of the strings, data stored and removed under any keys, and the end of the channel", "why_tests_cant": "the strings come from the peer and become keys of the data of the channel; only equal strings, or a release followed by the end of the channel, show a fault, later and elsewhere", "anchors": ["xml-rpc/vortex_xml_rpc.c:__vortex_xml_rpc_unmarshall_common_sync", "xml-rpc/vortex_xml_rpc.c:vortex_xml_rpc_unmarshall_int_sync", "src/vortex_channel.c:vortex_channel_set_data_full", "src/vortex_channel.c:vortex_channel_get_data", "src/vortex_hash.c:vortex_hash_replace_full"]}
{"id": "C109", "title": "XML-RPC values are released exactly once", "statement": "An application that builds, copies, shares, sends and unmarshalls XML-RPC values as documented never makes the library use released memory, release twice or use NULL, and when it has given away or released all that is its own, everything is released.", "quantifier": "every sequence of calls that make, join, share, copy, look at, unmarshall and release strings, values, structs, arrays and responses, nested to any depth", "why_tests_cant": "whether memory is released exactly once depends on the whole history of sharing and nesting; a leak or a late use shows no wrong result", "anchors": ["xml-rpc/vortex_xml_rpc_types.c:vortex_xml_rpc_method_value_new", "xml-rpc/vortex_xml_rpc_types.c:vortex_xml_rpc_method_value_copy", "xml-rpc/vortex_xml_rpc_types.c:vortex_xml_rpc_method_value_free", "xml-rpc/vortex_xml_rpc_types.c:vortex_xml_rpc_struct_free", "xml-rpc/vortex_xml_rpc_types.c:vortex_xml_rpc_array_add", "xml-rpc/vortex_xml_rpc.c:vortex_xml_rpc_unmarshall_struct_sync", "xml-rpc/vortex_xml_rpc.c:vortex_xml_rpc_unmarshall_string_sync"]}
{"id": "C110", "title": "Requests are answered once through the pull API", "statement": "With the pull API, every request of the peer to start or close a channel is answered exactly once: at once if its kind is masked, else with the answer of the application to the event it took; only the application refuses. Installing and removing the pull API at any time loses no request and uses no released queue.", "quantifier": "every interleaving of requests, handlers, calls that wait for events, answers, changes of masks, installation and removal of the pull API", "why_tests_cant": "the handlers, the application and the removal run in different threads; the faults need a removal between two steps of another thread", "anchors": ["pull/vortex_pull.c:vortex_pull_start_handler", "pull/vortex_pull.c:vortex_pull_close_notify", "pull/vortex_pull.c:vortex_pull_event_marshaller", "pull/vortex_pull.c:vortex_pull_cleanup", "pull/vortex_pull.c:vortex_pull_next_event", "src/vortex_channel.c:vortex_channel_notify_close"]}
{"id": "C111", "title": "Starting a listener is reported once, as it ended", "statement": "A call to start a listener calls each handler it was given exactly once: with success and the address in use if the listener was started, with an error otherwise. Without handlers it returns a listener exactly if it made one. The listener is bound to the port asked for. A call that failed leaves no descriptor open and closes none of others. Listeners used as documented are never touched after their release.", "quantifier": "every interleaving of calls to start listeners, the reader, the application using the listeners and opening descriptors of its own; every answer of the operating system and of connection actions; every port", "why_tests_cant": "each system call can fail at each step; the reader and the handlers run in other threads; the faults need a descriptor number used again or a listener dropped between two steps", "anchors": ["src/vortex_listener.c:__vortex_listener_new", "src/vortex_listener.c:vortex_listener_sock_listen_common", "src/vortex_listener.c:__vortex_listener_new_common", "src/vortex_connection.c:vortex_connection_close", "src/vortex_connection.c:vortex_connection_free", "src/vortex_connection.c:vortex_connection_actions_notify"]}
{"id": "C112", "title": "Data stored with a connection, channel or context", "statement": "Reading gives what was stored last under the key and not removed since. What is stored with a destroy function is never destroyed while it is stored, is never destroyed twice, and when the object is gone it was destroyed or had been handed back. Each call returns, also if destroy functions use the same object.", "quantifier": "every number of threads, every history of storing, storing NULL, deleting, reading and of the release of the object, every order of destroy functions, destroy functions that make the same calls, to any depth", "why_tests_cant": "destroy functions run in the middle of calls of other threads and call the library again; the leaks and the wait for ever show only at the release", "anchors": ["src/vortex_connection.c:vortex_connection_set_data_full", "src/vortex_connection.c:vortex_connection_delete_key_data", "src/vortex_channel.c:vortex_channel_set_data_full", "src/vortex_channel.c:vortex_channel_delete_data", "src/vortex_ctx.c:vortex_ctx_set_data_full", "src/vortex_hash.c:vortex_hash_replace_full", "src/vortex_hash.c:vortex_hash_remove", "src/vortex_hash.c:vortex_hash_delete", "src/vortex_hash.c:vortex_hash_destroy"]}
{"id": "C113", "title": "Digests and fingerprints", "statement": "The text returned for a digest has two upper-case hexadecimal digits for each octet, separated by colons, and is built inside its buffer. The fingerprint of the peer is the same text as that of a certificate file exactly if the digests of the certificates are the same. A call returns the text or NULL, and keeps no object of the TLS library.", "quantifier": "every digest function and digest of any length up to 64 octets, every string, size and certificate, present or not", "why_tests_cant": "a wrong offset shows only for some lengths; a comparison of texts decides whether a peer is accepted, so no two digests may share a text; a reference kept per call shows only over time", "anchors": ["tls/vortex_tls.c:__vortex_tls_translateToOctal", "tls/vortex_tls.c:vortex_tls_get_digest", "tls/vortex_tls.c:vortex_tls_get_digest_sized", "tls/vortex_tls.c:vortex_tls_get_peer_ssl_digest", "tls/vortex_tls.c:vortex_tls_get_ssl_digest"]}
{"id": "C114", "title": "XML-RPC invocations on one channel", "statement": "Each invocation made on an XML-RPC channel is told exactly one result: an answer, which is the reply of the peer to that invocation, or a failure. Its method call is released when the library was told to do so. The call returns true exactly if the invocation was accepted. No released memory is used, whatever the peer sends.", "quantifier": "every sequence of invocations by any number of threads, replies and messages of the peer, and order in which the tasks and the received frames are run", "why_tests_cant": "crossed answers need a second invocation at a precise moment; a message of the peer out of turn is not sent by a well-behaved one", "anchors": ["xml-rpc/vortex_xml_rpc.c:vortex_xml_rpc_invoke", "xml-rpc/vortex_xml_rpc.c:__vortex_xml_rpc_invoke", "xml-rpc/vortex_xml_rpc.c:__vortex_xml_rpc_invoke_process_reply"]}
{"id": "C115", "title": "Replies to XML-RPC messages at a listener", "statement": "Whatever a peer sends on an XML-RPC channel, or to start one, no released memory and no null pointer is used. Each message is given to at most one service, one that accepts the resource with which the channel was started. It gets at most one reply, and exactly one once no service is left with a deferred reply.", "quantifier": "every list of services with any handlers, and every sequence of start messages, messages and deferred replies", "why_tests_cant": "a deferred reply may come any time later, after any other messages; which services get a call depends on the handlers of all of them", "anchors": ["xml-rpc/vortex_xml_rpc.c:__vortex_xml_rpc_start_msg", "xml-rpc/vortex_xml_rpc.c:__vortex_xml_rpc_parse_bootmsg", "xml-rpc/vortex_xml_rpc.c:__vortex_xml_rpc_frame_received", "xml-rpc/vortex_xml_rpc.c:vortex_xml_rpc_notify_reply", "xml-rpc/vortex_xml_rpc.c:vortex_xml_rpc_accept_negotiation"]}
{"id": "C116", "title": "Booting XML-RPC channels", "statement": "Each request to boot an XML-RPC channel is told at most one result, and exactly one once it is finished: the ready channel if the peer accepted the resource, or a failure without channel, after which no channel is left open. The text that comes with the result can be read while the connection exists. The library keeps nothing of a finished boot.", "quantifier": "every number of synchronous and asynchronous boots on a connection, every first frame of the peer or none, in every order of the tasks and the calls that wait", "why_tests_cant": "the text is released by another thread; a call that waited long enough races with the task that goes on; what is left shows only over time", "anchors": ["xml-rpc/vortex_xml_rpc.c:vortex_xml_rpc_boot_channel", "xml-rpc/vortex_xml_rpc.c:__vortex_xml_rpc_boot_channel_process", "xml-rpc/vortex_xml_rpc.c:__vortex_xml_rpc_notify", "xml-rpc/vortex_xml_rpc.c:vortex_xml_rpc_boot_channel_sync", "xml-rpc/vortex_xml_rpc.c:__vortex_xml_rpc_boot_channel_sync_process"]}
{"id": "C117", "title": "Verifying the certificate of the peer", "statement": "vortex_tls_verify_cert says yes exactly for a connection secured by TLS whose peer has a certificate that was accepted and whose common name is the server name of the connection. The call always ends and keeps nothing.", "quantifier": "every connection, certificate (common names of any octets and length, or none), server name and content of the stack", "why_tests_cant": "the answers that are wrong need certificates made for the purpose: names with a NUL, without a common name, or very long", "anchors": ["tls/vortex_tls.c:vortex_tls_verify_cert"]}
{"id": "C118", "title": "Pools of XML-RPC channels", "statement": "Every channel of a pool made by vortex_xml_rpc_create_channel_pool is booted with the server name and the resource given in that call, as long as the pool exists. A pool stays until it is closed, and its id is that of no other pool of the connection.", "quantifier": "every number of calls with and without a handler, in any number of threads, every order of the steps of their tasks, of later boots, closes and reconnections", "why_tests_cant": "the names of a pool are lost by a later call for another pool; equal ids need two threads in a window of one instruction", "anchors": ["xml-rpc/vortex_xml_rpc.c:vortex_xml_rpc_create_channel_pool", "xml-rpc/vortex_xml_rpc.c:__vortex_xml_rpc_create_channel", "xml-rpc/vortex_xml_rpc.c:vortex_xml_rpc_channel_pool_get_next", "src/vortex_channel_pool.c:__vortex_channel_pool_new", "src/vortex_connection.c:vortex_connection_next_channel_pool_id"]}
{"id": "C119", "title": "XML-RPC structs and the signatures of calls", "statement": "A struct counts the members added to it; the checks of member names and types say exactly whether they are those of its members in order; every position and every name gives its member or nothing. vortex_xml_rpc_method_call_is says exactly whether a call has the given name, number of parameters and leading types. A parameter that is no number is not given as one.", "quantifier": "every room, list of members added, names and types asked for, and positions; every call received and every signature", "why_tests_cant": "the lists are open ended and the faults need structs that are not full, type names that do not exist, or parameters of another type", "anchors": ["xml-rpc/vortex_xml_rpc_types.c:vortex_xml_rpc_struct_check_member_names", "xml-rpc/vortex_xml_rpc_types.c:vortex_xml_rpc_struct_check_member_types", "xml-rpc/vortex_xml_rpc_types.c:vortex_xml_rpc_struct_get_member_value_at", "xml-rpc/vortex_xml_rpc_types.c:vortex_xml_rpc_method_call_is", "xml-rpc/vortex_xml_rpc_types.c:vortex_xml_rpc_method_call_get_param_value_as_int"]}
{"id": "C120", "title": "What events of the pull API refer to", "statement": "An event of the pull API keeps its connection, channel and frame usable until its last reference is dropped, by the application or by the cleanup; each of them and each event is released once, exactly when nobody has references left. An event names the connection, the channel and the frame it tells about.", "quantifier": "every interleaving of events made, pulled, referenced, dropped and used, connections failing, other references taken and dropped, and cleanups", "why_tests_cant": "the histories are unbounded, and the faults need a connection that fails between the arrival of a frame and the making of its event", "anchors": ["pull/vortex_pull.c:__vortex_event_new_empty", "pull/vortex_pull.c:vortex_pull_event_marshaller", "pull/vortex_pull.c:vortex_event_unref", "pull/vortex_pull.c:vortex_pull_cleanup", "pull/vortex_pull.c:vortex_event_get_conn"]}
{"id": "C121", "title": "Memory of the alive check", "statement": "The reference of the connection that an alive check takes is dropped exactly once, by the close of the connection or by the failure. The failure handler gets a connection that was not released. Once the connection is released no event of the check is left, and nothing of the check is used.", "quantifier": "every interleaving of the pool thread that runs the events, the thread of the close handler, the thread that creates the channel, closes of the connection and references taken and dropped by others", "why_tests_cant": "the faults need a close in a window of a few instructions of another thread", "anchors": ["alive/vortex_alive.c:__vortex_alive_free", "alive/vortex_alive.c:__vortex_alive_free_reference", "alive/vortex_alive.c:__vortex_alive_connection_closed", "alive/vortex_alive.c:__vortex_alive_trigger_failure", "alive/vortex_alive.c:__vortex_alive_channel_created", "alive/vortex_alive.c:vortex_alive_enable_check"]}
{"id": "C122", "title": "BEEP connections over WebSocket are made as configured", "statement": "A connection over WebSocket is made to the host and port given with the last Host and Origin headers configured, with TLS if configured, verifying certificates unless this was disabled, waiting no longer than the connect timeout. It is said to run TLS only if it does. The setup object is released once, when the application and all connections being made dropped it, and nothing configured in it is lost. In a shared port WebSocket is found exactly for requests and TLS.", "quantifier": "every sequence of configurations, host, port, timeout, result of the network, first octets of a connection, and every history of references", "why_tests_cant": "the sequences and timeouts are unbounded; that certificates are not verified is seen only with a peer whose certificate is wrong", "anchors": ["web-socket/vortex_websocket.c:vortex_websocket_setup_conf", "web-socket/vortex_websocket.c:__vortex_websocket_connection_new", "web-socket/vortex_websocket.c:vortex_websocket_connection_new", "web-socket/vortex_websocket.c:__vortex_websocket_detect_and_prepare_transport", "web-socket/vortex_websocket.c:vortex_websocket_setup_unref"]}
{"id": "C123", "title": "A call that waits for SASL returns its outcome and may then be forgotten", "statement": "vortex_sasl_start_auth_sync returns VortexOk exactly if the connection got authenticated. After it returned, the caller can release the connection. Whatever the peer answers and however long it takes, no memory is used after its release and the queue of the call is released.", "quantifier": "every schedule of the caller and the negotiation, every outcome of the negotiation, timeouts at every point, releases of the connection at every point after the return", "why_tests_cant": "needs timeouts and releases between any two steps of the two threads", "anchors": ["sasl/vortex_sasl.c:vortex_sasl_start_auth_sync", "sasl/vortex_sasl.c:__vortex_sasl_start_auth_sync_process", "sasl/vortex_sasl.c:__vortex_sasl_start_auth", "sasl/vortex_sasl.c:__vortex_sasl_notify", "src/vortex_thread.c:vortex_async_queue_unref"]}
{"id": "C124", "title": "Messages that were queued are written in order or released with their channel", "statement": "Every message accepted by vortex_channel_send_msg is written at most once and in the order of the calls, and its memory is released exactly once: after it was written, or when its channel and connection are released. Channels can be closed and references of the connection and of the channel dropped at any moment: the sending thread never uses them after their release.", "quantifier": "every schedule of the sending thread, threads that send, SEQ frames, closes of the channel, broken connections and references taken and dropped", "why_tests_cant": "needs references dropped between any two steps of the sending thread", "anchors": ["src/vortex_sequencer.c:vortex_sequencer_process_channels", "src/vortex_sequencer.c:vortex_sequencer_remove_message_sent", "src/vortex_channel.c:__vortex_channel_nullify_conn", "src/vortex_channel.c:__vortex_channel_release_pending_messages", "src/vortex_connection.c:vortex_connection_remove_channel_common", "src/vortex_connection.c:vortex_connection_free"]}
{"id": "C125", "title": "Actions on connections run in order, once, with a connection", "statement": "Functions installed with vortex_connection_set_connection_actions are called in the order they were installed, each once per connection and stage, with the connection or the one that replaced it and never with NULL. One that reports an error closes the connection and ends the calls with a failure; one that asks to stop ends them without a failure. A connection that is not working is given to none.", "quantifier": "every history of installations, notifications that overlap, results of the functions and connections that break meanwhile", "why_tests_cant": "actions may install actions, replace the connection or notify another before they return, at any nesting", "anchors": ["src/vortex_connection.c:vortex_connection_actions_notify", "src/vortex_connection.c:vortex_connection_set_connection_actions", "tls/vortex_tls.c:vortex_tls_auto_tlsfixate_connection"]}
{"id": "C126", "title": "Connections never take the last descriptor of the process", "statement": "A socket that is accepted or created for a connection is kept only if one more descriptor is free: however many threads connect and accept, connections never use up the descriptors, so that the next peer can still be accepted and turned away. A new socket is turned away only if the limit is reached; closing it touches no other connection.", "quantifier": "every limit, every number of threads and every schedule of accepts, connects, checks, closes and other descriptors", "why_tests_cant": "races of checks at the limit of the process", "anchors": ["src/vortex_connection.c:vortex_connection_check_socket_limit", "src/vortex_connection.c:vortex_connection_sock_connect_common", "src/vortex_listener.c:vortex_listener_accept_connections"]}
{"id": "C127", "title": "The log follows its settings", "statement": "Every message goes, once, to the handlers installed or to the console, if the log is turned on and no filter in force names its level. The last call of each setting decides (log on or off, filter, colors, mutex, handlers), and without a call the environment. When the mutex is asked for, messages of different threads are never mixed; handlers may use the library and read the message they get.", "quantifier": "every history of settings and messages of any number of threads", "why_tests_cant": "settings interact with each other, with the environment and with messages that are being written", "anchors": ["src/vortex.c:_vortex_log_common", "src/vortex.c:vortex_log_filter_level", "src/vortex.c:vortex_color_log_enable", "src/vortex.c:vortex_log_acquire_mutex", "src/vortex_ctx.c:vortex_ctx_free2"]}
{"id": "C128", "title": "WebSocket listeners", "statement": "A connection over WebSocket, accepted by a WebSocket listener or on a shared port, is only given to the profiles if its handshake named a host; its server name is that host and it tells that TLS runs just if it does. Whoever starts a WebSocket listener gets it, from the call or through the handler. The function that checks connections is installed once, and refused connections leave nothing behind.", "quantifier": "every history of threads that start listeners, of connections, handshakes and greetings", "why_tests_cant": "it must hold for every order of the steps of threads and connections", "anchors": ["web-socket/vortex_websocket.c:vortex_websocket_listener_new", "web-socket/vortex_websocket.c:vortex_websocket_listener_post_actions", "web-socket/vortex_websocket.c:__vortex_websocket_install_post_actions", "web-socket/vortex_websocket.c:__vortex_websocket_detect_and_prepare_transport"]}
{"id": "C129", "title": "Looking for channels of a connection", "statement": "A search for a channel by profile gives the first channel of the connection that runs it, or none if there is none; a search with a function of the application asks it for each channel once, in turn, until it says yes; channels of a profile are counted exactly, whatever channels start and end at the same time. The channel found can be used, and the function may use the connection.", "quantifier": "every history of searches of any number of threads and of channels that start and end", "why_tests_cant": "channels end between the search and the use of what was found, and functions are called while a mutex is held", "anchors": ["src/vortex_connection.c:vortex_connection_get_channel_by_uri", "src/vortex_connection.c:vortex_connection_get_channel_by_func", "src/vortex_connection.c:vortex_connection_get_channel_count", "src/vortex_hash.c:vortex_hash_foreach3"]}
{"id": "C130", "title": "Sending while a context ends", "statement": "Messages of any thread are written once, in the order in which they were queued, or the call that sends them says that they were refused; when the context ends, messages that were accepted are written before, and later ones refused. No call touches what the end of the context released, and the thread that writes messages ends.", "quantifier": "every schedule of threads that send messages (among them those of the pool, which end last) and of the end of the context", "why_tests_cant": "a call may be at any of its steps when the context ends", "anchors": ["src/vortex_sequencer.c:vortex_sequencer_queue_data", "src/vortex_sequencer.c:vortex_sequencer_add_channel", "src/vortex_sequencer.c:vortex_sequencer_stop", "src/vortex_sequencer.c:__vortex_sequencer_run", "src/vortex.c:vortex_exit_ctx"]}
{"id": "C131", "title": "The memory of feeders and the notification of their end", "statement": "A feeder is released once, when the application, the messages and the tasks that use it dropped their references, and with it every reference of a channel it took; it is not used afterwards. A function set before the feeder is sent is called exactly once after a message ended with its content, with the channel. A call that sends and answers false leaves the feeder to the application.", "quantifier": "every schedule of the threads of the application, which send, pause and ask the feeder, of the thread that writes messages and of the pool", "why_tests_cant": "the order of the threads decides", "anchors": ["src/vortex_payload_feeder.c:vortex_payload_feeder_is_finished", "src/vortex_payload_feeder.c:vortex_payload_feeder_set_on_finished", "src/vortex_payload_feeder.c:vortex_payload_feeder_pause", "src/vortex_payload_feeder.c:vortex_payload_feeder_ref", "src/vortex_payload_feeder.c:vortex_payload_feeder_free", "src/vortex_thread_pool.c:vortex_thread_pool_new_task", "src/vortex_sequencer.c:vortex_sequencer_remove_message_sent"]}
{"id": "C132", "title": "Starting a context, ending it and starting it again in a child", "statement": "A call that starts a context answers true when its threads run and false otherwise. No call uses released memory or waits for a thread that does not exist; there is never more than one thread that reads and one that sends. A context that was ended left no thread and no memory of its modules, and one that does not run or was ended is released when the application drops its reference, also in a child process and after calls that failed.", "quantifier": "every history of calls that start, end and release a context, of forks, and of failures at each step", "why_tests_cant": "failures of the system and forks at every step", "anchors": ["src/vortex.c:vortex_init_ctx", "src/vortex.c:vortex_exit_ctx", "src/vortex_reader.c:vortex_reader_run", "src/vortex_sequencer.c:vortex_sequencer_run", "src/vortex_thread_pool.c:vortex_thread_pool_init", "src/vortex_thread_pool.c:vortex_thread_pool_add_internal", "src/vortex_ctx.c:vortex_ctx_reinit"]}
{"id": "C133", "title": "Which function of the application decides about a SASL request", "statement": "When a peer gives what its mechanism needs, the function the application set last for that mechanism is called, alone, with the user data the application gave for it, and its answer decides. Without a function the request is refused. No call uses NULL, whatever its order.", "quantifier": "every history of calls that set functions and accept mechanisms, of channels that are opened and of requests, for every answer of the functions", "why_tests_cant": "orders of calls of three families, several mechanisms and connections", "anchors": ["sasl/vortex_sasl.c:__vortex_sasl_auth_validation", "sasl/vortex_sasl.c:vortex_sasl_accept_negotiation_full", "sasl/vortex_sasl.c:vortex_sasl_accept_negotiation_common", "sasl/vortex_sasl.c:vortex_sasl_set_plain_validation", "sasl/vortex_sasl.c:__vortex_sasl_accept_negotiation_start", "sasl/vortex_sasl.c:vortex_sasl_init"]}
{"id": "C134", "title": "What a TLS negotiation uses, reports and gives back", "statement": "A handshake of a listener is made with the SSL context of the function the application set, or with the certificate and the key it named when it accepted the request, if they can be loaded and belong together; with such a function it is not asked for files. Each negotiation that fails calls the failure handler once. What was made for a negotiation or handed over for it is released once, at the latest with the connection. The descriptor is open while the connection is in use and closed when it ends.", "quantifier": "every history of settings, requests, handshakes, failures, shutdowns and releases of a connection of a listener or an initiator; every result of OpenSSL, of the operating system and of the functions of the application", "why_tests_cant": "the failures of OpenSSL and of the system, and an end of the connection between the agreement and the handshake, are hard to produce", "anchors": ["tls/vortex_tls.c:vortex_tls_prepare_listener", "tls/vortex_tls.c:vortex_tls_process_start_msg", "tls/vortex_tls.c:vortex_tls_initial_accept", "tls/vortex_tls.c:vortex_tls_invoke_tls_activation", "tls/vortex_tls.c:vortex_tls_set_common_data", "tls/vortex_tls.c:vortex_tls_notify_failure_handler", "tls/vortex_tls.c:vortex_tls_set_ctx_creation"]}
{"id": "C135", "title": "The code written in an interface file is the code of the generated service", "statement": "The compiler of XML-RPC interfaces writes the code of a service, as it stands between its braces in the interface file or in the XML document, into the function it generates, and goes on behind the closing brace. Code or a file included for the body or the header of a service is written there as it is. A service without code gets a function that returns some value. No interface file makes the compiler crash or run for ever.", "quantifier": "every text of an interface file, every code of a service with any nesting of braces, every content and length of an included file", "why_tests_cant": "the code is cut at its braces, escaped, stored and written as a format; any text of any length can be code, and the examples have no semicolon behind a brace and no percent sign", "anchors": ["xml-rpc-gen/xml-rpc-gen-translate.c:__get_all_user_content", "xml-rpc-gen/xml-rpc-gen-translate.c:xml_rpc_gen_translate_copy_and_escape", "xml-rpc-gen/xml-rpc-gen-translate.c:xml_rpc_gen_translate_invalid_chars", "xml-rpc-gen/xml-rpc-gen-translate.c:__get_all_user_content_from_file", "xml-rpc-gen/xml-rpc-c-server.c:xml_rpc_c_server_create_write_service", "xml-rpc-gen/xml-rpc-support.c:xml_rpc_support_write"]}
{"id": "C136", "title": "The compiler replaces a file only if the user says so", "statement": "The compiler of XML-RPC interfaces writes the files that are not there, leaves those that are the same, and asks the user about those that differ: the first answer decides whether the file is replaced or kept. It changes no other file, leaves no other file behind, always ends, and its status tells whether everything was compiled.", "quantifier": "every content of the directory, every sequence of files written, every text the user types", "why_tests_cant": "what is replaced depends on the files that are there and on all that is typed; the tests run in an empty directory", "anchors": ["xml-rpc-gen/xml-rpc-support.c:xml_rpc_support_open_file", "xml-rpc-gen/xml-rpc-support.c:xml_rpc_support_close_file", "xml-rpc-gen/xml-rpc-support.c:xml_rpc_support_are_equal", "xml-rpc-gen/xml-rpc-support.c:next_line", "xml-rpc-gen/xml-rpc-gen.c:xml_rpc_gen_compile"]}
{"id": "C137", "title": "A call made with the generated client reaches the service it was made for", "statement": "For every interface that the XML-RPC compiler accepts, each service has a function of the client, and its call, made on a channel where the service is offered, runs this service of the generated server with the values in order; a call that is of no service is refused. Services with the same name and other types are told apart. The order in which resources are written makes no difference, and no two services share a file.", "quantifier": "every interface, every service of it, every call received, every resource of the channel, every order of the resources", "why_tests_cant": "which service a call reaches depends on all the services before it; the tests compile a few interfaces", "anchors": ["xml-rpc-gen/xml-rpc-c-server.c:xml_rpc_write_c_server_default_service_dispath", "xml-rpc-gen/xml-rpc-c-server.c:__xml_rpc_c_server_service_dispach", "xml-rpc-gen/xml-rpc-c-server.c:xml_rpc_write_c_server_include_services", "xml-rpc-gen/xml-rpc-c-server.c:xml_rpc_c_server_create_write_service", "xml-rpc-gen/xml-rpc-c-stub.c:xml_rpc_support_write_method_create_values", "xml-rpc-gen/xml-rpc-c-stub.c:xml_rpc_c_stub_write_service_body", "xml-rpc-gen/xml-rpc-support.c:xml_rpc_support_get_function_type_prefix"]}
{"id": "C138", "title": "The structs and arrays of an interface arrive as they were sent", "statement": "A struct or an array of a type declared in an interface, with whatever structs and arrays it contains, is sent by the generated code as an XML-RPC value of that type, and the code of the other side makes of it the same value, with empty strings for NULL. Each string of the value is released once. An XML-RPC struct or array of another shape gives NULL.", "quantifier": "every type made of ints, bools, doubles, strings, base64, structs and arrays, nested to any depth; every value of it; every XML-RPC value received", "why_tests_cant": "there are infinitely many types, and the conversions are written by a program for each of them", "anchors": ["xml-rpc-gen/xml-rpc-c-stub.c:xml_rpc_c_stub_write_struct_def", "xml-rpc-gen/xml-rpc-c-stub.c:xml_rpc_c_stub_write_struct_checkings", "xml-rpc-gen/xml-rpc-c-stub.c:xml_rpc_c_stub_write_array_def", "xml-rpc/vortex_xml_rpc_types.c:vortex_xml_rpc_method_value_get_as_int", "xml-rpc/vortex_xml_rpc_types.c:vortex_xml_rpc_struct_check_member_types"]}
{"id": "C139", "title": "The caller of a generated client gets what the service left", "statement": "A call of a function of the client, with arguments of the declared types, calls the service of the server with these arguments, and the caller gets what it left: the code and the text of its fault, or its result with status OK; a NULL pointer without fault is a fault with code -2. The handler of an asynchronous call gets the same. Every call received is answered, and a struct or array of another shape is answered with a fault without calling the service.", "quantifier": "every list of parameter types and every type of result, nested to any depth; every service, as a function of its arguments; every argument and every call received", "why_tests_cant": "the code between caller and service is written by a program for each interface, and the tests compile a few", "anchors": ["xml-rpc-gen/xml-rpc-c-server.c:xml_rpc_c_server_create_write_service", "xml-rpc-gen/xml-rpc-c-server.c:xml_rpc_c_server_write_temporal_parameter_getting", "xml-rpc-gen/xml-rpc-c-stub.c:xml_rpc_c_stub_write_service_body", "xml-rpc-gen/xml-rpc-c-stub.c:xml_rpc_c_stub_write_service_body_sync_unmarshaller", "xml-rpc/vortex_xml_rpc.c:__vortex_xml_rpc_unmarshall_common_sync", "xml-rpc/vortex_xml_rpc.c:vortex_xml_rpc_unmarshall_string_sync", "xml-rpc/vortex_xml_rpc.c:vortex_xml_rpc_unmarshall_struct"]}
{"id": "C140", "title": "Close handlers of the Python bindings are called once and let go", "statement": "A handler given to set_on_close of a vortex.Connection is called once, with the connection and the data given, if the connection falls while it is installed, handlers of one connection in the order given, and never after remove_on_close returned true. remove_on_close returns true exactly if the handler was installed in that connection. References taken for a handler are dropped once it was called, removed or given too late, and no memory is used after it was freed.", "quantifier": "every number of vortex.Connection objects over any connections; every sequence of set_on_close, remove_on_close with any handle through any connection, close and loss of connections", "why_tests_cant": "whether freed memory is used depends on the order of removals and losses of connections, and on which connection a handle is given to", "anchors": ["py-vortex/src/py_vortex_connection.c:py_vortex_connection_set_on_close", "py-vortex/src/py_vortex_connection.c:py_vortex_connection_set_on_close_handler", "py-vortex/src/py_vortex_connection.c:py_vortex_connection_remove_on_close", "py-vortex/src/py_vortex_handle.c:py_vortex_handle_nullify", "src/vortex_connection.c:vortex_connection_remove_on_close_full", "src/vortex_connection.c:__vortex_connection_invoke_on_close"]}
{"id": "C141", "title": "Python connection objects keep and release their connection", "statement": "A connection used by the Python bindings is kept exactly as long as some vortex.Connection object refers to it or the reader works with it, and no freed connection is used: collecting an object or closing it drops its own reference and no other. Collecting an object made for a handler does not end the session; collecting the object made by the program does.", "quantifier": "every number of connections made, accepted and listeners, started or not; every number of objects for one connection; every order of shutdown, close (agreed by the peer or not), collection, losses and work of the reader", "why_tests_cant": "objects for one connection are made and collected by handlers in other threads, and the count depends on the role and on what happened before", "anchors": ["py-vortex/src/py_vortex_connection.c:py_vortex_connection_close", "py-vortex/src/py_vortex_connection.c:py_vortex_connection_dealloc", "py-vortex/src/py_vortex_connection.c:py_vortex_connection_create", "py-vortex/src/py_vortex_connection.c:py_vortex_connection_new", "py-vortex/src/py_vortex.c:py_vortex_create_listener", "src/vortex_connection.c:vortex_connection_close"]}
{"id": "C142", "title": "Frames of a Python channel reach the handler in force", "statement": "Each frame that arrives at a vortex.Channel with a frame received handler is given once to the handler that is in force when its turn comes, with the data given together with that handler. The bindings hold one reference to the handler in force and one to its data, one more to the data for each call that runs, and none once the channel is gone. Replacing or removing the handler never crashes the process.", "quantifier": "every number of frames and threads and every order of set_frame_received with and without arguments, arrivals, tasks started, calls begun and ended, and the end of the channel", "why_tests_cant": "the handler is replaced or removed by one thread while others hold frames and wait for the lock of the interpreter", "anchors": ["py-vortex/src/py_vortex_channel.c:py_vortex_channel_received", "py-vortex/src/py_vortex_channel.c:py_vortex_channel_configure_frame_received", "py-vortex/src/py_vortex_channel.c:py_vortex_channel_set_frame_received_internal", "py-vortex/src/py_vortex_channel.c:py_vortex_channel_get_frame_received", "src/vortex_channel.c:vortex_channel_invoke_received_handler", "src/vortex_channel.c:vortex_channel_set_data_full"]}
{"id": "C143", "title": "Channel pools of the Python bindings", "statement": "Every object vortex.ChannelPool keeps its connection until the object is collected. When the program asks a pool that has no channel ready for one more, the create handler given for the pool is called once, with the data of the request, whichever object of the pool is used. The handlers and data kept for a pool are released exactly once, when neither the session nor an object of a pool needs the connection, and with the lock of the interpreter held. No freed memory is used.", "quantifier": "every number of pools and objects and every order of channel_pool_new with and without on_created, conn.pool(), next_ready, collection of objects and end of the session", "why_tests_cant": "the program decides which objects of a pool it keeps, and which thread drops the last reference depends on the schedule", "anchors": ["py-vortex/src/py_vortex_channel_pool.c:py_vortex_channel_pool_create", "py-vortex/src/py_vortex_channel_pool.c:py_vortex_channel_pool_create_channel", "py-vortex/src/py_vortex_channel_pool.c:py_vortex_channel_pool_on_created", "py-vortex/src/py_vortex_channel_pool.c:py_vortex_channel_pool_next_ready", "py-vortex/src/py_vortex_channel_pool.c:py_vortex_channel_pool_release_data", "py-vortex/src/py_vortex_channel_pool.c:py_vortex_channel_pool_find_reference"]}
{"id": "C144", "title": "Arguments of the Lua bindings are checked", "statement": "A method of the Lua bindings goes on exactly if the arguments received are those it expects: all that it requires, no more than those it requires and allows, each of the kind stated for its place. With other arguments the caller gets a Lua error.", "quantifier": "every list of required and optional kinds and every list of arguments", "why_tests_cant": "the check is used with many patterns and any Lua value can be given in any place", "anchors": ["lua-vortex/src/lua-vortex.c:lua_vortex_check_params", "lua-vortex/src/lua-vortex-connection.c:lua_vortex_connection_check_internal", "lua-vortex/src/lua-vortex-ctx.c:lua_vortex_ctx_check_internal", "lua-vortex/src/lua-vortex-channel.c:lua_vortex_channel_check_internal"]}
{"id": "C145", "title": "Queues of the Lua bindings", "statement": "Values pushed into a vortex.asyncqueue come out of pop and timedpop in the order pushed, each to one call and unchanged, whatever their Lua type. The queue keeps every value from being collected while it is inside or in the hands of a call, and keeps nothing afterwards, nor after the queue itself is collected. The number of items reported is the number of values not taken.", "quantifier": "every sequence of pushed values and every interleaving of pushes and of the two halves of any number of pop and timedpop calls, and collection", "why_tests_cant": "references are recycled through a free list inside a table while calls that took an item wait for the lock of the state", "anchors": ["lua-vortex/src/lua-vortex-asyncqueue.c:lua_vortex_asyncqueue_push", "lua-vortex/src/lua-vortex-asyncqueue.c:lua_vortex_asyncqueue_pop", "lua-vortex/src/lua-vortex-asyncqueue.c:lua_vortex_asyncqueue_timedpop", "lua-vortex/src/lua-vortex-asyncqueue.c:lua_vortex_asyncqueue_gc", "lua-vortex/src/lua-vortex-object.c:lua_vortex_object_new_from_stack", "lua-vortex/src/lua-vortex-object.c:lua_vortex_object_push"]}
{"id": "C146", "title": "Answers of handlers written in Lua", "statement": "What the library is told after it calls a handler written in Lua (whether to accept a channel, TLS or an authentication, which certificate to use, whether to remove an event) is what this call of the handler returned, whatever other handlers returned or failed before in the same thread; a handler that fails accepts nothing and names nothing; a context that is finishing refuses everything. No value stays behind in the stack of the thread.", "quantifier": "every sequence of handler calls of every kind, in any threads, with any results and errors, and the finish of the context at any point", "why_tests_cant": "the fault shows only in the second handler run by the same thread of the pool, and which thread runs a handler is not under the control of a test", "anchors": ["lua-vortex/src/lua-vortex-ctx.c:lua_vortex_ctx_bridge_event", "lua-vortex/src/lua-vortex-tls.c:lua_vortex_tls_bridge_accept_handler", "lua-vortex/src/lua-vortex-tls.c:lua_vortex_tls_bridge_cert_handler", "lua-vortex/src/lua-vortex-sasl.c:lua_vortex_sasl_auth_handler_bridge", "lua-vortex/src/lua-vortex-channel.c:lua_vortex_channel_bridge_start_received", "lua-vortex/src/lua-vortex.c:lua_vortex_create_thread"]}
{"id": "C147", "title": "Answers of handlers written in Python", "statement": "Every handler that a Python program gives for requests to start or close a channel, for TLS, for certificates and keys and for authentications is called, and what the library is told is what it returned: accepted if it returned True, refused otherwise or if it raised, with the text it returned as the name of the certificate or the password. A connection is shut down exactly if a handler raises at a listener. Nothing made for the call is kept after it.", "quantifier": "every kind of handler, every result (integers of any size, strings with any content and any number of other references, other objects), exceptions, both roles", "why_tests_cant": "a string that is a constant of the test program outlives the call that read it too late; values that do not fit are not tried", "anchors": ["py-vortex/src/py_vortex.c:py_vortex_profile_start", "py-vortex/src/py_vortex.c:py_vortex_profile_close", "py-vortex/src/py_vortex.c:py_vortex_handle_and_clear_exception", "py-vortex/src/py_vortex_sasl.c:py_vortex_sasl_auth_handler_bridge", "py-vortex/src/py_vortex_tls.c:py_vortex_tls_accept_handler_bridge", "py-vortex/src/py_vortex_tls.c:py_vortex_tls_cert_handler_bridge", "py-vortex/src/py_vortex_tls.c:py_vortex_tls_key_handler_bridge"]}
{"id": "C148", "title": "Timed events of Python programs", "statement": "The handler of an event made with new_event is called when its time comes exactly until it asks for its end, raises, is removed or the context is finished. remove_event tells whether it removed the event. Nothing kept for an event is used after its release, and the context and what was given to new_event are kept for installed events only.", "quantifier": "every history of new_event, remove_event, exit and expirations, with any calls made while a handler runs and any end of the handler", "why_tests_cant": "a context that is never collected is not noticed by a program that ends; removals while the handler runs depend on the schedule", "anchors": ["py-vortex/src/py_vortex_ctx.c:py_vortex_ctx_bridge_event", "py-vortex/src/py_vortex_ctx.c:py_vortex_ctx_new_event", "py-vortex/src/py_vortex_ctx.c:py_vortex_ctx_remove_event", "py-vortex/src/py_vortex_ctx.c:py_vortex_ctx_event_free", "src/vortex_thread_pool.c:vortex_thread_pool_new_event", "src/vortex_thread_pool.c:vortex_thread_pool_remove_event"]}
{"id": "C149", "title": "One thread at a time runs Lua code", "statement": "A Lua program and the handlers it gave to the library share one Lua state: in every schedule at most one thread runs Lua code, no thread releases the lock of another, and while the program and the running handlers only wait, a handler that is due can be called.", "quantifier": "every interleaving of any number of threads calling handlers, handlers given by the program or by handlers, and every function that waits, called by the program or by a handler", "why_tests_cant": "two threads in the interpreter at once corrupt it only sometimes; a deadlock needs the handler and the program to wait for each other", "anchors": ["lua-vortex/src/lua-vortex.c:lua_vortex_lock", "lua-vortex/src/lua-vortex.c:lua_vortex_unlock", "lua-vortex/src/lua-vortex.c:lua_vortex_create_thread", "lua-vortex/src/lua-vortex.c:lua_vortex_yield", "lua-vortex/src/lua-vortex.c:lua_vortex_wait_listeners", "lua-vortex/src/lua-vortex-asyncqueue.c:lua_vortex_asyncqueue_pop", "lua-vortex/src/lua-vortex-channelpool.c:lua_vortex_channelpool_bridge_create_handler"]}
{"id": "C150", "title": "Profiles that Python programs register again", "statement": "While frames are received and their handlers called by several threads, a Python program may register a profile again: no frame makes the process call a handler that is not there or use released memory, and every frame handler is called with the data it was registered with.", "quantifier": "every interleaving of registrations (with or without handler and data) and deliveries by any number of threads, every choice of what the program itself keeps", "why_tests_cant": "the window is between two reads made without the interpreter lock; handlers of a test are functions of a module, which are never released", "anchors": ["py-vortex/src/py_vortex.c:py_vortex_register_profile", "py-vortex/src/py_vortex.c:py_vortex_profile_frame_received", "py-vortex/src/py_vortex_ctx.c:py_vortex_ctx_register", "py-vortex/src/py_vortex_ctx.c:py_vortex_ctx_register_get", "src/vortex_profiles.c:vortex_profiles_register"]}
{"id": "C151", "title": "SASL negotiations that overlap on one connection", "statement": "A client may set SASL properties and start SASL negotiations on a connection at any time, also while another one is in progress: no released memory is used, every reply is given to the session of its own negotiation, every first message is built from the values the program set last, the program is told the outcome once, and a connection whose program was told of a success is authenticated.", "quantifier": "every interleaving of property settings, starts, the tasks of any number of negotiations and the replies of the peer, every mechanism and value", "why_tests_cant": "tests authenticate once per connection and wait for the outcome; the faults need a start between two steps of another negotiation", "anchors": ["sasl/vortex_sasl.c:vortex_sasl_set_propertie", "sasl/vortex_sasl.c:vortex_sasl_start_auth", "sasl/vortex_sasl.c:__vortex_sasl_start_auth", "sasl/vortex_sasl.c:__vortex_sasl_create_context", "sasl/vortex_sasl.c:__vortex_sasl_notify", "sasl/vortex_sasl.c:__vortex_sasl_auth_data_sanity_check"]}
{"id": "C152", "title": "References of an asynchronous queue", "statement": "While every call is made through a variable that has a reference, no released memory is used and the queue is released exactly when no variable has a reference any more; after the safe release of a reference the variable of the caller is NULL, so that further calls through it do nothing.", "quantifier": "every sequence of copies with a reference, releases, safe releases and uses through any number of variables", "why_tests_cant": "the tests release safely the last reference only; the fault shows when another holder remains", "anchors": ["src/vortex_thread.c:vortex_async_queue_ref", "src/vortex_thread.c:vortex_async_queue_unref", "src/vortex_thread.c:vortex_async_queue_safe_unref"]}
{"id": "C153", "title": "Profile masks installed while profiles are checked", "statement": "While profiles of a connection are checked by several threads, masks may be installed, by other threads or by the masks themselves: no two masks get the same identifier; a profile that is let through was let through by every mask installed until the check returned, each called once and in order of installation; a profile that is filtered was filtered by the first mask that does not let it through; and a check never blocks and returns once no more masks are installed.", "quantifier": "every interleaving of installations and of any number of checks, every answer of every mask at every call", "why_tests_cant": "the masks are called without the lock, so that the list grows under a check; tests install masks before they check", "anchors": ["src/vortex_connection.c:vortex_connection_set_profile_mask", "src/vortex_connection.c:vortex_connection_is_profile_filtered"]}
{"id": "C154", "title": "A pipe made of two sockets", "statement": "Creating a pipe returns; on success the two descriptors are connected with each other and nothing else is left open, on failure nothing is left open.", "quantifier": "every answer of every system call, any number of connections made to the port by others, before or after that of the process", "why_tests_cant": "tests cannot make the system calls fail one by one, nor have someone else connect in between", "anchors": ["src/vortex_support.c:vortex_support_pipe", "src/vortex_listener.c:vortex_listener_accept"]}
{"id": "C155", "title": "Decimal numbers read whatever the locale", "statement": "In locales with a decimal point and with a decimal comma alike, every decimal number, written with point, comma or no separator and with any sign, is read as that number, nothing else is read as a number, and the text of the caller stays as it is.", "quantifier": "every number of any length, every way of writing it, every other text, both kinds of locale", "why_tests_cant": "tests run in one locale and with a few numbers", "anchors": ["src/vortex_support.c:vortex_support_strtod"]}
{"id": "C156", "title": "Listeners of the configuration file", "statement": "Starting the listeners of the configuration file answers true exactly if the file asks for at least one listener in the documented form and every listener it asks for runs; each of them is tried once, in the order of the file, and a file of any other form starts nothing.", "quantifier": "every document with any number of listeners, every document of another form, every way the listeners can fail to start", "why_tests_cant": "tests use one right file on a machine where the ports are free", "anchors": ["src/vortex_listener.c:vortex_listener_parse_conf_and_start", "src/vortex-listener-conf.dtd.h:VORTEX_LISTENER_CONF_DTD"]}
{"id": "C157", "title": "Tests of files and names of files", "statement": "A test of a path answers true exactly if everything asked for holds of it: that it exists, is a directory, a regular file or a symbolic link, in any combination; and the names built from tokens are the tokens with one separator between each and the next, so different tokens without separators never give the same name.", "quantifier": "every file system with any chains and loops of links, every path, every combination of tests, every list of tokens", "why_tests_cant": "tests use a few paths, and none that is a link", "anchors": ["src/vortex_support.c:vortex_support_file_test", "src/vortex_support.c:vortex_support_build_filename"]}
{"id": "C158", "title": "Environment variables", "statement": "The last call about a variable that was answered with true decides what is read: the value set, or nothing if the variable was unset; a number set as text is read as that number; calls about other variables, and calls that fail, change nothing.", "quantifier": "every history of calls, every name, value and number, lack of memory at any call", "why_tests_cant": "tests set a variable once and read it, or never look at it after unsetting it", "anchors": ["src/vortex_support.c:vortex_support_getenv_int", "src/vortex_support.c:vortex_support_getenv", "src/vortex_support.c:vortex_support_setenv", "src/vortex_support.c:vortex_support_unsetenv"]}
{"id": "C159", "title": "Reports of exceptions of Python programs", "statement": "An exception that a handler written in Python leaves behind is reported, whatever Python can tell about it: the exception handler gets its whole text, without the end of the last line and with every % as #, or else it is logged or printed; no memory beyond the text is touched; and the connection is shut down exactly at the listener side.", "quantifier": "every text of any number of lines, every answer of the interpreter, with and without handler, log and connection", "why_tests_cant": "tests raise one exception with a plain text, and have no interpreter that fails", "anchors": ["py-vortex/src/py_vortex.c:py_vortex_handle_and_clear_exception"]}
{"id": "C160", "title": "Names of SASL mechanisms in the bindings", "statement": "Python and Lua programs may name a SASL mechanism by its profile written in full, which is used as it is, or by its short name in any mix of upper and lower case, which stands for the profile of that mechanism; any other text is refused.", "quantifier": "every text, every mechanism, every mix of cases", "why_tests_cant": "tests use two or three names, and no wrong one", "anchors": ["py-vortex/src/py_vortex_sasl.c:py_vortex_sasl_normalize_profile_name", "lua-vortex/src/lua-vortex-sasl.c:lua_vortex_sasl_normalize_profile_name", "sasl/vortex_sasl.h:VORTEX_SASL_KERBEROS_V4"]}
{"id": "C161", "title": "TLS started by Python programs", "statement": "After tls.start_tls, with or without handler and however the negotiation ends, the program has an object for the connection that is in use, success always comes with such an object, and the references of the connections are exactly those of the objects the program has, so none is lost and none is released too early.", "quantifier": "every sequence of calls with and without handler, every outcome of each negotiation, loss of the peer at any time", "why_tests_cant": "tests start TLS once, on a peer that accepts it", "anchors": ["py-vortex/src/py_vortex_tls.c:py_vortex_tls_start_tls", "py-vortex/src/py_vortex_tls.c:py_vortex_tls_do_notify", "tls/vortex_tls.c:vortex_tls_start_negotiation_sync", "py-vortex/src/py_vortex_connection.c:py_vortex_connection_nullify"]}
