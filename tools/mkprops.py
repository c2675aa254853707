#!/usr/bin/env python3
"""Regenerates /verif/properties.jsonl from the table below (kept as source so that
the English statements are easy to edit)."""
import json, os
P = []
def p(id, title, statement, quantifier, why, *anchors):
    P.append(dict(id=id, title=title, statement=statement, quantifier=quantifier,
                  why_tests_cant=why, anchors=list(anchors)))

p("C01","Decimal rendering of header numbers",
  "vortex_support_itoa, given any 32 bit unsigned value and a buffer of at least ten bytes, returns the number of decimal digits of the value and leaves in the buffer exactly its decimal representation without leading zeros; with a buffer that is too small it returns -1; it never writes outside the first buffer_size bytes.",
  "every 32 bit value, every buffer content and every buffer size",
  "2^32 values times all buffer sizes; the interesting boundaries (powers of ten, ten-digit values, buffer one byte short) are easy to miss",
  "src/vortex_support.c:vortex_support_itoa")
p("C02","Frame header build/parse round trip",
  "The header line written for any MSG, RPY, ERR, ANS or NUL frame is parsed by the receiving side back to the same type, channel, message number, continuation flag, sequence number, size and answer number.",
  "every frame type, channel 0..2^31-1, msgno 0..2^31-1, seqno 0..2^32-1, size 0..2^31-1, ansno 0..2^31-1, both continuation flags",
  "the product of five 31/32-bit domains cannot be enumerated",
  "src/vortex_frame_factory.c:vortex_frame_build_header","src/vortex_frame_factory.c:vortex_frame_get_header_data","src/vortex_frame_factory.c:get_int_value")
p("C03","SEQ frame round trip",
  "Every SEQ frame a peer may legally emit (any channel, any 32 bit ackno, any positive window) is read by the other side as exactly that channel, ackno and window.",
  "every channel number, every ackno in 0..2^32-1, every window in 1..2^31-1",
  "only a handful of ackno values out of 2^32 misbehave; tests on small transfers never reach them",
  "src/vortex_frame_factory.c:vortex_frame_seq_build_up_from_params_buffer","src/vortex_frame_factory.c:vortex_frame_get_header_data","src/vortex_frame_factory.c:vortex_frame_get_next")
p("C04","Frame reading does not depend on TCP segmentation",
  "Whatever way the network splits the byte stream produced by the sender, repeatedly reading frames from the connection as data becomes available yields exactly the frames that were sent, in order and with identical payload, and never closes the connection.",
  "every list of well-formed frames, every split of their concatenated bytes into non-empty chunks",
  "the number of ways to split a stream is exponential, and only some splits fall inside a header line, a payload or a trailer",
  "src/vortex_frame_factory.c:vortex_frame_get_next","src/vortex_frame_factory.c:vortex_frame_readline","src/vortex_frame_factory.c:vortex_frame_receive_raw")
p("C05","Frame builder never overruns its buffer",
  "For every message, whatever the numbers in its header, the frame written by the sending thread (header, payload, trailer and terminator) fits in the send buffer whose size was computed from the payload size only.",
  "every frame type, every field value, every payload size, every initial buffer size",
  "an overrun needs the longest rendering of every header field at once, i.e. sequence numbers above 10^9 on a very long-lived channel",
  "src/vortex_sequencer.c:CHECK_AND_INCREASE_BUFFER","src/vortex_sequencer.c:vortex_sequencer_build_packet_to_send","src/vortex_frame_factory.c:vortex_frame_build_up_from_params_s_buffer")
p("C06","Parsing a header line never reads outside the line",
  "Whatever bytes a remote peer sends as header line, the parser examines only bytes of that line and either yields a frame description or rejects the line.",
  "every byte string a peer can send as a line",
  "malformed input space is infinite; the defect shows only as a read of uninitialised memory",
  "src/vortex_frame_factory.c:vortex_frame_get_header_data","src/vortex_frame_factory.c:get_int_value","src/vortex_frame_factory.c:CHECK_INDEX_AND_RETURN")
p("C07","Sender never exceeds the window granted by its peer",
  "On any channel, for any history of sends and of window grants (SEQ frames) received, every payload octet put on the wire has a sequence number strictly below the highest limit (ackno + window) granted so far, including across the 2^32 wrap of sequence numbers.",
  "every interleaving of sends and SEQ frames, every message size, every total number of octets transferred",
  "histories are unbounded and the wrap needs 4 GB of traffic",
  "src/vortex_channel.c:vortex_channel_get_next_frame_size","src/vortex_channel.c:vortex_channel_update_remote_incoming_buffer","src/vortex_channel.c:vortex_channel_is_stalled","src/vortex_sequencer.c:__vortex_sequencer_do_send_round")
p("C08","Segmentation preserves the message",
  "However a message is cut into frames by the sending thread, the payloads of its frames concatenate to exactly the message content, their sequence numbers are contiguous modulo 2^32 starting at the channel's next sequence number, every frame is non-empty and at most 4096 octets, all but the last carry the continuation flag and the last does not (unless more content was announced).",
  "every message, every starting sequence number, every sequence of window grants in between",
  "the cut points depend on the interleaving of window grants with sends",
  "src/vortex_sequencer.c:vortex_sequencer_build_packet_to_send","src/vortex_sequencer.c:__vortex_sequencer_do_send_round","src/vortex_channel.c:vortex_channel_get_next_frame_size")
p("C09","Receiver accepts a frame only if it fits its advertised window, and allocates what it reads",
  "A data frame is accepted only if all its octets lie within the window the receiver has advertised for the channel, and the number of octets the receiver then reads into memory never exceeds the number it allocated for them.",
  "every header a remote peer can send, every receive-window state",
  "needs sizes above 2^31 on the wire; such a value is accepted or rejected depending on modular arithmetic",
  "src/vortex_channel.c:vortex_channel_check_incoming_seqno","src/vortex_frame_factory.c:vortex_frame_get_next","src/vortex_frame_factory.c:get_int_value")
p("C10","Advertised window never shrinks",
  "The highest sequence number a receiver has declared acceptable on a channel never moves backwards, whatever sequence of frames is received and whatever window sizes the application configures, including across the 2^32 wrap.",
  "every history of received frames and window-size changes",
  "unbounded histories, wrap at 4 GB",
  "src/vortex_channel.c:vortex_channel_update_incoming_buffer","src/vortex_channel.c:vortex_channel_get_max_seq_no_accepted","src/vortex_channel.c:vortex_channel_incoming_bytes_available")
p("C11","No flow-control deadlock and no spurious protocol error between two peers",
  "Between two endpoints running this library, every window update emitted by the receiver is accepted by the sender, and whenever the sender has exhausted its window and the receiver has consumed everything sent, the receiver has emitted an update that lets the sender continue.",
  "every interleaving of data frames and SEQ frames between the two endpoints, every message size",
  "a deadlock appears only at particular alignments of frame sizes and window halves",
  "src/vortex_channel.c:vortex_channel_update_incoming_buffer","src/vortex_channel.c:vortex_channel_update_remote_incoming_buffer","src/vortex_reader.c:__vortex_reader_update_incoming_buffer_and_notify")
p("C12","Replies leave in the order the requests arrived",
  "For any set of received messages and any order in which the application answers them (RPY, ERR, or ANS...NUL), replies are queued for sending in the order the messages were received, each reply exactly once and with its full content.",
  "every arrival order, every order of reply calls, every interleaving of both",
  "the number of interleavings is factorial; reordering only happens with several outstanding messages",
  "src/vortex_channel.c:__vortex_channel_common_rpy","src/vortex_channel.c:vortex_channel_get_next_reply_no","src/vortex_channel.c:vortex_channel_remove_first_pending_msg_no")
p("C13","Answer numbering of one-to-many replies",
  "The ANS replies to one message are numbered 0,1,2,... in the order the application issued them, followed by a single NUL, whether they were sent immediately or had to wait for previous messages to be answered.",
  "every interleaving of ANS/NUL/RPY calls over every set of outstanding messages",
  "depends on which replies had to be held back",
  "src/vortex_channel.c:__vortex_channel_common_rpy","src/vortex_channel.c:vortex_channel_update_status")
p("C14","Outstanding message numbers are unique and bounded by the configured limit",
  "Two messages sent on a channel and not yet replied never carry the same message number, they are recorded in the order they were sent, and when an outstanding limit is configured with failure mode their count never exceeds it.",
  "every history of sends and replies shorter than the message-number space, every limit",
  "unbounded histories",
  "src/vortex_channel.c:vortex_channel_get_next_msg_no","src/vortex_channel.c:vortex_channel_send_msg_common","src/vortex_channel.c:vortex_channel_remove_first_outstanding_msg_no")
p("C15","Reuse of an unanswered message number by the peer is rejected",
  "The library never has two received, unanswered messages with the same number on a channel: a peer starting a new message with a number that has not been answered yet, or interleaving fragments of two messages, has its frame rejected.",
  "every sequence of received frames and replies sent",
  "unbounded histories of a hostile peer",
  "src/vortex_channel.c:vortex_channel_check_msg_no","src/vortex_reader.c:vortex_reader_check_incoming_msgno")
p("C16","A reply is accepted only for the oldest unanswered request",
  "A RPY/ERR/ANS/NUL frame is delivered to the application only if its number equals that of the oldest message sent and not completely answered; replies therefore complete in the order requests were sent and each request is completed at most once.",
  "every history of sends and received frames",
  "unbounded histories of a hostile peer",
  "src/vortex_reader.c:__vortex_reader_process_socket","src/vortex_channel.c:vortex_channel_get_next_expected_reply_no","src/vortex_channel.c:vortex_channel_update_status_received")
p("C17","Delivered octets are exactly the sent octets",
  "The payload octets accepted on a channel form a contiguous stream: every accepted frame starts exactly where the previous one ended (modulo 2^32), anything else closes the connection before delivery.",
  "every sequence of received frames, any total size",
  "wrap-around and out-of-order frames",
  "src/vortex_reader.c:__vortex_reader_process_socket","src/vortex_channel.c:vortex_channel_update_status_received")
p("C18","Reassembly of fragmented messages",
  "With complete-frame delivery enabled (the default) the application receives one frame per message, whose payload is the concatenation of the payloads of its fragments in order, and a message whose accumulated size exceeds the configured limit is never delivered; fragments of different messages are never merged.",
  "every sequence of fragments, every configured limit",
  "number and size of fragments unbounded",
  "src/vortex_reader.c:__vortex_reader_process_socket","src/vortex_channel.c:vortex_channel_store_previous_frame","src/vortex_channel.c:vortex_channel_build_single_pending_frame","src/vortex_frame_factory.c:vortex_frame_are_joinable")
p("C19","Serialized delivery",
  "With serialized delivery enabled on a channel, the frame-received handler is called for every received frame exactly once and in arrival order, whatever order the worker threads pick the frames up.",
  "every number of frames and every schedule of worker threads",
  "thread schedules cannot be enumerated by tests",
  "src/vortex_channel.c:vortex_channel_check_serialize","src/vortex_channel.c:vortex_channel_check_serialize_pending","src/vortex_channel.c:__vortex_channel_invoke_received_handler","src/vortex_channel.c:vortex_channel_invoke_received_handler")
p("C20","A thread blocked waiting for a reply gets exactly its reply",
  "When several threads use send-and-wait on one channel, each of them receives the reply carrying its own message number, and a reply nobody waits for goes to the frame-received handler.",
  "every interleaving of send-and-wait calls and replies",
  "thread schedules",
  "src/vortex_channel.c:vortex_channel_invoke_received_handler","src/vortex_channel.c:vortex_channel_send_msg_and_wait","src/vortex_channel.c:vortex_channel_wait_reply")
p("C21","Implicit MIME headers are rendered as configured and their size is accounted exactly",
  "For every configuration of MIME type and transfer encoding, the headers prepended to a message are the configured Content-Type and Content-Transfer-Encoding followed by an empty line, and occupy exactly the number of octets reserved for them.",
  "every MIME type and transfer-encoding string at every configuration level",
  "needs non-default transfer encodings of every length",
  "src/vortex_channel.c:__vortex_channel_get_mime_headers_size","src/vortex_channel.c:__vortex_channel_get_mime_headers")
p("C22","MIME parsing splits content into headers and body without losing octets or leaving the buffer",
  "For every received content, MIME processing only examines octets of the received content; if it succeeds, headers plus body are exactly the received content and the body is what follows the first empty line.",
  "every byte string",
  "malformed MIME input space is infinite",
  "src/vortex_frame_factory.c:vortex_frame_mime_process","src/vortex_frame_factory.c:vortex_frame_read_mime_header")
p("C23","MIME headers set on a frame can be read back",
  "After any sequence of set operations, reading a header returns the values set for that name (names compared case-insensitively), removing a header removes it, and the reported header size is the size of their rendering.",
  "every sequence of set/get/remove operations",
  "unbounded operation histories",
  "src/vortex_frame_factory.c:vortex_frame_set_mime_header","src/vortex_frame_factory.c:vortex_frame_mime_find","src/vortex_frame_factory.c:vortex_frame_get_mime_header")
p("C24","Frame copy, join and equality",
  "Copying a frame yields a frame equal to it; joining two joinable frames yields a frame with the concatenated payload that is joinable with exactly the frames the second was joinable with; equality is an equivalence relation that distinguishes frames differing in any field.",
  "every frame (pair, triple of frames)",
  "infinite domain; payloads with embedded NUL octets are rarely tested",
  "src/vortex_frame_factory.c:vortex_frame_copy","src/vortex_frame_factory.c:__vortex_frame_join_common","src/vortex_frame_factory.c:vortex_frame_are_equal","src/vortex_frame_factory.c:vortex_frame_are_joinable")
p("C25","No queued message is forgotten by the sending thread",
  "Whenever a channel has queued messages and its peer's window is open, the sending thread has the channel in its work set (or is about to add it), so the message will eventually be sent without needing further application calls.",
  "every interleaving of the application threads, the reader thread and the sending thread",
  "lost wake-ups need a precise interleaving of three threads",
  "src/vortex_sequencer.c:vortex_sequencer_add_channel","src/vortex_sequencer.c:vortex_sequencer_process_channels","src/vortex_sequencer.c:vortex_sequencer_signal_update")
p("C26","Messages of a channel are sent in the order they were queued",
  "The sending thread completes the messages of one channel in the order they were queued and never interleaves frames of two messages of the same channel.",
  "every interleaving of queueing and sending rounds",
  "unbounded interleavings",
  "src/vortex_sequencer.c:vortex_sequencer_process_channels","src/vortex_channel.c:vortex_channel_queue_pending_message","src/vortex_channel.c:vortex_channel_remove_pending_message")
p("C27","Automatic channel numbers",
  "The next channel number handed out is never 0, never one in use on the connection, within 1..2^31-1, and odd for the connection initiator, even for the listener.",
  "every history of channel creations and removals, any number of them",
  "the wrap needs 2^30 channel creations",
  "src/vortex_connection.c:vortex_connection_get_next_channel","src/vortex_connection.c:vortex_connection_channel_exists")
p("C28","Every channel start request gets exactly one answer",
  "For every start request received, exactly one positive or negative reply is sent (now, or later if the application deferred the decision), the channel exists afterwards if and only if the reply was positive, and an already used channel number is always refused.",
  "every registration state, every profile mask decision, every application answer",
  "combination of configuration, filters, handlers and deferral",
  "src/vortex_channel.c:__vortex_channel_0_frame_received_start_msg","src/vortex_channel.c:__vortex_channel_0_handle_start_msg_reply","src/vortex_channel.c:vortex_channel_notify_start_internal","src/vortex_connection.c:vortex_connection_add_channel_common")
p("C29","Connection close handlers run exactly once",
  "Every close handler installed on a connection and not removed before it breaks is started exactly once, in list order, however many times and from however many threads the connection is shut down.",
  "every interleaving of install, remove and shutdown operations",
  "thread schedules",
  "src/vortex_connection.c:__vortex_connection_set_not_connected","src/vortex_connection.c:__vortex_connection_invoke_on_close","src/vortex_connection.c:vortex_connection_set_on_close_full2","src/vortex_connection.c:vortex_connection_remove_on_close_full")
p("C30","Reference counting",
  "An object (frame, channel, connection, queue, feeder, event) is released exactly when the number of references taken equals the number dropped, never earlier, and never twice.",
  "every balanced interleaving of ref/unref calls",
  "thread schedules and unbounded histories",
  "src/vortex_frame_factory.c:vortex_frame_ref","src/vortex_frame_factory.c:vortex_frame_unref","src/vortex_channel.c:vortex_channel_ref2","src/vortex_channel.c:vortex_channel_unref2","src/vortex_connection.c:vortex_connection_ref_internal","src/vortex_connection.c:vortex_connection_unref")
p("C31","Channel error stack",
  "Errors pushed on a connection are popped in last-in first-out order, each once, and popping an empty stack reports failure.",
  "every sequence of push and pop operations",
  "unbounded histories",
  "src/vortex_connection.c:vortex_connection_push_channel_error","src/vortex_connection.c:vortex_connection_pop_channel_error")
p("C32","Queue discipline of VortexQueue",
  "pop and peek return the oldest element pushed and not popped (elements pushed at the head come first), the length is the number of elements inside, NULL is returned only when empty.",
  "every sequence of push, head push, pop and peek operations",
  "unbounded histories",
  "src/vortex_queue.c:vortex_queue_push","src/vortex_queue.c:vortex_queue_head_push","src/vortex_queue.c:vortex_queue_pop","src/vortex_queue.c:vortex_queue_peek")
p("C33","Asynchronous queue: FIFO, no lost item, no lost wake-up",
  "Items pushed on a VortexAsyncQueue are popped in FIFO order (priority items first), each by exactly one consumer, and no consumer stays blocked in pop while the queue holds items that nobody else was woken up for.",
  "every interleaving of any number of producers and consumers, including spurious wake-ups and timeouts",
  "thread schedules",
  "src/vortex_thread.c:vortex_async_queue_push","src/vortex_thread.c:vortex_async_queue_priority_push","src/vortex_thread.c:vortex_async_queue_pop","src/vortex_thread.c:vortex_async_queue_timedpop")
p("C34","Hash table is a finite map",
  "VortexHash behaves as a finite map: lookup returns the value of the last insert/replace of the key not followed by its removal, size is the number of keys present, and replaced or removed entries have their destroy handlers run exactly once.",
  "every sequence of operations",
  "unbounded histories",
  "src/vortex_hash.c:vortex_hash_insert","src/vortex_hash.c:vortex_hash_replace","src/vortex_hash.c:vortex_hash_lookup","src/vortex_hash.c:vortex_hash_remove","src/vortex_hash.c:vortex_hash_delete","src/vortex_hash.c:vortex_hash_clear")
p("C35","Thread pool size stays within its configured bounds",
  "The number of threads of the pool never exceeds the configured maximum because of automatic resizing, and remove operations never leave the pool without threads.",
  "every sequence of resize checks, remove requests and thread terminations",
  "depends on timing of pending termination requests",
  "src/vortex_thread_pool.c:__vortex_thread_pool_automatic_resize","src/vortex_thread_pool.c:vortex_thread_pool_remove_internal","src/vortex_thread_pool.c:__vortex_thread_pool_dispatcher")
p("C36","Timers never fire early",
  "A timed event of period d microseconds is not run before d microseconds have passed since it was installed or last run, and a timed wait of d microseconds does not give up before d microseconds.",
  "every start instant and every period",
  "the failing instants are one microsecond out of a million",
  "src/vortex_thread_pool.c:__vortex_thread_pool_increase_stamp","src/vortex_thread_pool.c:__vortex_thread_pool_process_events","src/vortex_thread.c:vortex_cond_timedwait")
p("C37","Time difference",
  "vortex_timeval_substract yields the exact difference of two instants with a microsecond part in 0..999999, tells whether it is negative, and leaves the second instant denoting the same instant.",
  "every pair of normalised instants",
  "infinite domain",
  "src/vortex_support.c:vortex_timeval_substract")
p("C38","Exclusive use of pooled channels",
  "Two users of a channel pool never hold the same channel at the same time: a channel handed out is not handed out again until released.",
  "every interleaving of get-next-ready and release calls from any number of threads",
  "needs a race between two lookups",
  "src/vortex_channel_pool.c:vortex_channel_pool_get_next_ready_full","src/vortex_channel_pool.c:vortex_channel_pool_release_channel","src/vortex_channel_pool.c:__vortex_channel_pool_is_ready")
p("C39","File feeder delivers the file",
  "Sending a file through a payload feeder puts on the wire exactly the MIME separator (if requested) followed by the file content, and the last frame is the only one without continuation flag.",
  "every file content, every sequence of frame sizes",
  "cut points depend on window grants",
  "src/vortex_payload_feeder.c:__vortex_payload_feeder_file","src/vortex_payload_feeder.c:vortex_payload_feeder_get_content","src/vortex_sequencer.c:vortex_sequencer_build_packet_to_send")
p("C40","Alive check detects a dead peer and only a dead peer",
  "With alive check enabled, if no octet is received any more the failure action is eventually triggered, and it is never triggered while octets keep being received between checks or before the configured number of unanswered probes.",
  "every sequence of checks, received octets, replies and channel-creation outcomes",
  "depends on timing",
  "alive/vortex_alive.c:__vortex_alive_do_check","alive/vortex_alive.c:__vortex_alive_channel_created","alive/vortex_alive.c:__vortex_alive_create_channel")
p("C41","Pull API event delivery",
  "Events that are not masked are delivered to the puller exactly once and in the order they happened; masked events are never delivered; waiting for an event with a timeout of t milliseconds waits at least t milliseconds.",
  "every sequence of events, mask changes and pulls",
  "unbounded histories",
  "pull/vortex_pull.c:vortex_pull_event_marshaller","pull/vortex_pull.c:vortex_pull_event_is_filtered","pull/vortex_pull.c:vortex_pull_next_event")
p("C42","Writing a frame to the socket",
  "A frame is either written completely, in order and once, or the send operation reports failure and the connection is closed so that the peer never sees a truncated frame followed by other data.",
  "every sequence of partial writes, would-block conditions and errors",
  "depends on socket behaviour",
  "src/vortex_frame_factory.c:vortex_frame_send_raw","src/vortex_sequencer.c:vortex_sequencer_direct_send")
p("C43","Channel close handshake",
  "A channel that is closed by either side (or by both simultaneously) is removed exactly once on each side, only after all its outstanding messages were answered, and each close request gets exactly one answer.",
  "every interleaving of close requests, close answers and pending replies of the two peers",
  "simultaneous close needs a race",
  "src/vortex_channel.c:__vortex_channel_close","src/vortex_channel.c:__vortex_channel_0_frame_received_close_msg","src/vortex_channel.c:vortex_channel_notify_close")
p("C44","Profile masks and registration",
  "A start request is offered to the application only if its profile is registered and no installed mask filters it; masks are consulted in installation order until the first that filters.",
  "every list of masks and registered profiles",
  "unbounded configurations",
  "src/vortex_connection.c:vortex_connection_set_profile_mask","src/vortex_connection.c:vortex_connection_is_profile_filtered","src/vortex_profiles.c:vortex_profiles_register")
p("C45","End to end message delivery",
  "Two endpoints connected by a reliable byte stream: every message queued at one side is, after finitely many steps of both sides, delivered complete and in order at the other side, the receiver never detects a protocol error, for any segmentation by the network.",
  "every list of messages, every window evolution, every network segmentation",
  "composition of all of the above",
  "src/vortex_sequencer.c:__vortex_sequencer_do_send_round","src/vortex_reader.c:__vortex_reader_process_socket","src/vortex_frame_factory.c:vortex_frame_get_next")

here = os.path.dirname(os.path.abspath(__file__))
exec(open(os.path.join(here, "moreprops.py")).read()) if os.path.exists(os.path.join(here, "moreprops.py")) else None
with open(os.path.join(here, "..", "properties.jsonl"), "w") as f:
    for x in P: f.write(json.dumps(x) + "\n")
print(len(P))
