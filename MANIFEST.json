{
 "claims": [
  {
   "property": "C01",
   "status": "proved",
   "theorems": [
    "Verif.Props.C01_itoa",
    "Verif.Props.C01_numeral_unique"
   ],
   "note": ""
  },
  {
   "property": "C02",
   "status": "proved",
   "theorems": [
    "Verif.Props.C02_header_text",
    "Verif.Props.C02_header_round_trip",
    "Verif.Props.C02_header_accepted"
   ],
   "note": ""
  },
  {
   "property": "C03",
   "status": "partial",
   "theorems": [
    "Verif.Props.C03_seq_round_trip_partial",
    "Verif.Props.C03_seq_round_trip_fails",
    "Verif.Props.C03_statement_false",
    "Verif.Props.C03_seq_text"
   ],
   "note": "The code violates the full statement: acknos 2^32-1 and 2^32-2 are confused with error codes. Proved for all others; the violation is proved."
  },
  {
   "property": "C04",
   "status": "partial",
   "theorems": [
    "Verif.Props.C04_segmentation_partial",
    "Verif.Props.C04_prefix",
    "Verif.Props.C04_drip_feed_closes",
    "Verif.Props.C04_spurious_wakeup_closes"
   ],
   "note": "Full delivery proved for every segmentation with at most 25 would-blocks per header line; without that bound delivery of a prefix is proved, and the violation (26 would-blocks close the connection) is proved."
  },
  {
   "property": "C05",
   "status": "proved",
   "theorems": [
    "Verif.Props.C05_send_buffer",
    "Verif.Props.C05_seq_buffer",
    "Verif.Props.C05_header_refused",
    "Verif.Props.C05_caller_buffer_overrun"
   ],
   "note": "The sending thread's buffer is always large enough. Also proved: the frame builder itself, when called with a smaller buffer, only protects the header."
  },
  {
   "property": "C06",
   "status": "partial",
   "theorems": [
    "Verif.Props.C06_parser_inside_partial",
    "Verif.Props.C06_short_line_escapes",
    "Verif.Props.C06_statement_false"
   ],
   "note": "The code violates the full statement for data-frame lines ending right after the message number."
  },
  {
   "property": "C07",
   "status": "proved",
   "theorems": [
    "Verif.Props.C07_sender_within_window",
    "Verif.Props.C07_sequence_numbers"
   ],
   "note": "Without user supplied frame size handlers."
  },
  {
   "property": "C08",
   "status": "proved",
   "theorems": [
    "Verif.Props.C08_segmentation",
    "Verif.Props.C08_empty_message_closes"
   ],
   "note": "Messages without feeder. C08_empty_message_closes records that an empty non-NUL message closes the connection."
  },
  {
   "property": "C09",
   "status": "partial",
   "theorems": [
    "Verif.Props.C09_accepts_only_within_window_partial",
    "Verif.Props.C09_negative_size_overflow",
    "Verif.Props.C09_reads_within_allocation_partial",
    "Verif.Props.C09_header_check_wraps"
   ],
   "note": "Proved for header sizes that are non-negative ints. The code violates the full statement: a size that truncates to a negative int overflows the allocation, and the window test at header time wraps; both violations are proved."
  },
  {
   "property": "C10",
   "status": "partial",
   "theorems": [
    "Verif.Props.C10_limit_grows_partial",
    "Verif.Props.C10_limit_before_wrap_partial",
    "Verif.Props.C10_statement_false"
   ],
   "note": "Proved when the application only enlarges its window early, or before the 2^32 wrap; near the wrap a changed window can lower the limit, which is proved."
  },
  {
   "property": "C11",
   "status": "partial",
   "theorems": [
    "Verif.Props.C11_no_deadlock_partial",
    "Verif.Props.C11_equal_limit_closes",
    "Verif.Props.C11_unlucky_ackno_closes",
    "Verif.Props.C11_statement_false"
   ],
   "note": "Proved for every history that only enlarges windows before the wrap and never meets the acknos of C03. Both kinds of violation are proved by concrete histories."
  },
  {
   "property": "C12",
   "status": "partial",
   "theorems": [
    "Verif.Props.C12_statement_false",
    "Verif.Props.C12_order_partial",
    "Verif.Props.C12_call_accepted",
    "Verif.Props.C12_all_sent_partial",
    "Verif.Props.C12_part_lost"
   ],
   "note": "Proved for every interleaving of arrivals, reply calls and the steps of the reply function, when later parts of a multi-part reply are given in turn. Violated otherwise: the first part of an out-of-turn multi-part reply is overwritten."
  },
  {
   "property": "C13",
   "status": "proved",
   "theorems": [
    "Verif.Props.C13_answers",
    "Verif.Props.C13_not_broken"
   ],
   "note": "For every interleaving, including the one that violates C12."
  },
  {
   "property": "C14",
   "status": "proved",
   "theorems": [
    "Verif.Props.C14_outstanding"
   ],
   "note": "Numbers are 0,1,2,... for up to 2^31 messages, the outstanding list is what has been begun minus what has been answered, never above the limit."
  },
  {
   "property": "C15",
   "status": "proved",
   "theorems": [
    "Verif.Props.C15_msgno"
   ],
   "note": "Message numbers are non-negative, as parsed from frames; answers in arrival order is C12."
  },
  {
   "property": "C16",
   "status": "proved",
   "theorems": [
    "Verif.Props.C16_oldest",
    "Verif.Props.C16_in_order"
   ],
   "note": "For frames as the parser hands them over (a number -1 does not get through)."
  },
  {
   "property": "C17",
   "status": "proved",
   "theorems": [
    "Verif.Props.C17_contiguous",
    "Verif.Props.C17_gap_closes"
   ],
   "note": "Any total size, modulo 2^32."
  },
  {
   "property": "C18",
   "status": "partial",
   "theorems": [
    "Verif.Props.C18_reassembly_partial",
    "Verif.Props.C18_fragments_partial",
    "Verif.Props.C18_limit_partial",
    "Verif.Props.C18_merges",
    "Verif.Props.C18_nul_swallowed",
    "Verif.Props.C18_over_limit",
    "Verif.Props.C18_statement_false",
    "Verif.Props.C18_nul_empty"
   ],
   "note": "Holds for peers that do not mix fragments. The last fragment is not compared with the stored ones (answers are merged, a NUL is swallowed) and a message that exceeds the limit with its last fragment is delivered."
  },
  {
   "property": "C19",
   "status": "partial",
   "theorems": [
    "Verif.Props.C19_statement_false",
    "Verif.Props.C19_empty_frame",
    "Verif.Props.C19_frame_lost",
    "Verif.Props.C19_after_wait_reply",
    "Verif.Props.C19_serialized_partial"
   ],
   "note": "Holds for frames with content and no reply taken by a waiting thread, every schedule and wrapping sequence numbers included. An empty frame shares its sequence number with the next one (two calls at once, or a frame lost), and a reply taken by wait_reply stops delivery: the full statement is false of the code."
  },
  {
   "property": "C20",
   "status": "partial",
   "theorems": [
    "Verif.Props.C20_statement_false",
    "Verif.Props.C20_ans_blocks",
    "Verif.Props.C20_to_its_waiter_partial",
    "Verif.Props.C20_own_reply",
    "Verif.Props.C20_at_most_one",
    "Verif.Props.C20_second_wait_ends",
    "Verif.Props.C20_woken_when_broken",
    "Verif.Props.C20_installed_too_late",
    "Verif.Props.C20_returns_when_broken"
   ],
   "note": "A waiting thread never gets a reply that is not its own. That its reply reaches it is false of the code once a message somebody waits for is answered with ANS/NUL; proved for the other histories."
  },
  {
   "property": "C21",
   "status": "partial",
   "theorems": [
    "Verif.Props.C21_reserved_size",
    "Verif.Props.C21_content_partial",
    "Verif.Props.C21_wrong_encoding",
    "Verif.Props.C21_statement_false",
    "Verif.Props.C21_receiver_sees_message"
   ],
   "note": "Size accounting proved for every configuration; rendering proved for the default transfer encoding. For any other encoding the code writes the MIME type instead of the encoding and may overrun the buffer: violation proved."
  },
  {
   "property": "C22",
   "status": "partial",
   "theorems": [
    "Verif.Props.C22_split",
    "Verif.Props.C22_inside_received",
    "Verif.Props.C22_inside_rebuilt_partial",
    "Verif.Props.C22_rebuilt_escapes",
    "Verif.Props.C22_statement_false",
    "Verif.Props.C22_round_trip"
   ],
   "note": "Splitting proved for every content; staying inside memory proved for frames as received, and for rebuilt messages with an empty line. For rebuilt messages without empty line the parser escapes: violation proved."
  },
  {
   "property": "C23",
   "status": "partial",
   "theorems": [
    "Verif.Props.C23_values_partial",
    "Verif.Props.C23_last_value",
    "Verif.Props.C23_repeated_header_lost",
    "Verif.Props.C23_remove_keeps",
    "Verif.Props.C23_size_wrong",
    "Verif.Props.C23_statement_false"
   ],
   "note": "Reading back proved for sequences of sets. Removal, repeated well-known headers and size accounting violate the property: violations proved."
  },
  {
   "property": "C24",
   "status": "partial",
   "theorems": [
    "Verif.Props.C24_statement_false",
    "Verif.Props.C24_equal_iff",
    "Verif.Props.C24_equivalence",
    "Verif.Props.C24_equal_payload_partial",
    "Verif.Props.C24_copy_partial",
    "Verif.Props.C24_copy_not_equal",
    "Verif.Props.C24_equal_ignores_payload",
    "Verif.Props.C24_join"
   ],
   "note": "Equality is proved an equivalence that decides every header field; copy and payload equality are proved except for the violations found: copy drops the more flag, a copied empty frame compares unequal, and payloads are compared as C strings. Joining is proved for frames where the second was not MIME processed."
  },
  {
   "property": "C25",
   "status": "partial",
   "theorems": [
    "Verif.Props.C25_attended_partial",
    "Verif.Props.C25_progress_partial",
    "Verif.Props.C25_lost_wakeup",
    "Verif.Props.C25_statement_false",
    "Verif.Props.C25_forgotten_stays",
    "Verif.Props.C25_paused_forgets"
   ],
   "note": "The code violates the full statement: the reader thread looks at the queue without the mutex, so a wake-up can be lost (C25_lost_wakeup), and then the message stays unsent (C25_forgotten_stays); a paused feeder removes the channel although other messages are queued. Proved for all executions without these two situations."
  },
  {
   "property": "C26",
   "status": "partial",
   "theorems": [
    "Verif.Props.C26_order_partial",
    "Verif.Props.C26_paused_interleaves",
    "Verif.Props.C26_statement_false"
   ],
   "note": "The code violates the full statement when a feeder is paused without closing the transfer. Proved for all interleavings without a paused feeder."
  },
  {
   "property": "C27",
   "status": "partial",
   "theorems": [
    "Verif.Props.C27_initiator",
    "Verif.Props.C27_initiator_found",
    "Verif.Props.C27_listener_partial",
    "Verif.Props.C27_listener_overflow",
    "Verif.Props.C27_statement_false",
    "Verif.Props.C27_add_refused"
   ],
   "note": "In full for the initiator, including termination of the search. For the listener until the numbers have been gone through once: then the sum overflows."
  },
  {
   "property": "C28",
   "status": "partial",
   "theorems": [
    "Verif.Props.C28_one_answer_partial",
    "Verif.Props.C28_used_number_refused",
    "Verif.Props.C28_one_channel_per_number",
    "Verif.Props.C28_deferred_dropped",
    "Verif.Props.C28_closed_before_open",
    "Verif.Props.C28_statement_false",
    "Verif.Props.C28_application_decides_partial"
   ],
   "note": "Proved for histories in which a deferred start is answered once, after the start handler returned, the peer closes only channels it was told are open, and no mask filter asks to skip the answer. False of the code otherwise: C28_deferred_dropped and C28_closed_before_open. Used numbers and uniqueness of numbers hold with no hypothesis."
  },
  {
   "property": "C29",
   "status": "partial",
   "theorems": [
    "Verif.Props.C29_at_most_once",
    "Verif.Props.C29_once_in_order_partial",
    "Verif.Props.C29_shutdown_ends",
    "Verif.Props.C29_statement_false",
    "Verif.Props.C29_out_of_order",
    "Verif.Props.C29_new_socket_closed",
    "Verif.Props.C29_started_while_connected"
   ],
   "note": "At most once and never after removal: every history. Exactly once and in order: connections that are not connected again, while threads can be created and the library is not finishing. With vortex_connection_reconnect the order is not kept (C29_out_of_order) and the new socket may be closed (C29_new_socket_closed)."
  },
  {
   "property": "C30",
   "status": "partial",
   "theorems": [
    "Verif.Props.C30_released_exactly",
    "Verif.Props.C30_table",
    "Verif.Props.C30_lookup_then_ref",
    "Verif.Props.C30_frame_statement_false",
    "Verif.Props.C30_frame_released_twice",
    "Verif.Props.C30_frame_never_released",
    "Verif.Props.C30_frame_released_early",
    "Verif.Props.C30_frame_partial"
   ],
   "note": "Proved for every interleaving for the objects whose counter is protected by a mutex (and for those found in a table and referenced in one critical section). Frames count without a mutex: overlapping calls break it, shown by concrete schedules; channels are looked up and referenced in two steps."
  },
  {
   "property": "C31",
   "status": "proved",
   "theorems": [
    "Verif.Props.C31_lifo",
    "Verif.Props.C31_recorded",
    "Verif.Props.C31_empty",
    "Verif.Props.C31_after_failure"
   ],
   "note": "Order, each once, failure on empty, for every history. The axl stack is trusted."
  },
  {
   "property": "C32",
   "status": "proved",
   "theorems": [
    "Verif.Props.C32_queue"
   ],
   "note": "Results of every history of calls equal those of the reference discipline. The axl list is trusted."
  },
  {
   "property": "C33",
   "status": "partial",
   "theorems": [
    "Verif.Props.C33_order",
    "Verif.Props.C33_each_once",
    "Verif.Props.C33_statement_false",
    "Verif.Props.C33_no_lost_wakeup_partial",
    "Verif.Props.C33_batch_lost"
   ],
   "note": "Order and exactly-once hold for every interleaving. No lost wake-up holds unless several items are pushed under one vortex_async_queue_lock: unlock signals one waiter only."
  },
  {
   "property": "C34",
   "status": "proved",
   "theorems": [
    "Verif.Props.C34_lookup",
    "Verif.Props.C34_size",
    "Verif.Props.C34_destroy_once",
    "Verif.Props.C34_last_reference"
   ],
   "note": "For every history during which a reference is held. The axl hash is trusted as a table with one entry per key."
  },
  {
   "property": "C35",
   "status": "partial",
   "theorems": [
    "Verif.Props.C35_over_limit",
    "Verif.Props.C35_no_threads",
    "Verif.Props.C35_statement_false",
    "Verif.Props.C35_limit_partial",
    "Verif.Props.C35_limit_step_one",
    "Verif.Props.C35_limit_history_partial",
    "Verif.Props.C35_keeps_one_partial",
    "Verif.Props.C35_automatic_partial"
   ],
   "note": "False: a resize adds a whole step without checking the limit, and overlapping removals end every thread. Proved: below limit plus step, exact limit with steps of one, one thread kept when removals do not overlap."
  },
  {
   "property": "C36",
   "status": "partial",
   "theorems": [
    "Verif.Props.C36_statement_false",
    "Verif.Props.C36_wait_partial",
    "Verif.Props.C36_wait_gives_up",
    "Verif.Props.C36_event_early",
    "Verif.Props.C36_catches_up",
    "Verif.Props.C36_event_partial",
    "Verif.Props.C36_installed_once",
    "Verif.Props.C36_clean_long"
   ],
   "note": "False when microseconds add up to exactly 1000000, and since the last run when an event was served late; the rest is proved for every history."
  },
  {
   "property": "C37",
   "status": "proved",
   "theorems": [
    "Verif.Props.C37_difference",
    "Verif.Props.C37_exact_always"
   ],
   "note": ""
  },
  {
   "property": "C38",
   "status": "partial",
   "theorems": [
    "Verif.Props.C38_statement_false",
    "Verif.Props.C38_given_twice",
    "Verif.Props.C38_new_channel_given_twice",
    "Verif.Props.C38_exclusive_partial",
    "Verif.Props.C38_found_if_free",
    "Verif.Props.C38_closed_is_given",
    "Verif.Props.C38_not_closed_partial",
    "Verif.Props.C38_busy_for_ever",
    "Verif.Props.C38_held_not_dropped"
   ],
   "note": "Exclusive use is proved for every history in which threads ask for channels one at a time; two threads that ask at the same time can get the same channel (the channel is marked as busy after the pool is unlocked), shown by concrete runs. A channel somebody holds is never closed by the pool: proved for every interleaving."
  },
  {
   "property": "C39",
   "status": "partial",
   "theorems": [
    "Verif.Props.C39_content",
    "Verif.Props.C39_whole_file_partial",
    "Verif.Props.C39_progress",
    "Verif.Props.C39_within_window",
    "Verif.Props.C39_statement_false",
    "Verif.Props.C39_one_octet_window",
    "Verif.Props.C39_large_file",
    "Verif.Props.C39_resumed_twice"
   ],
   "note": "Order, completeness, flags, sequence numbers and window of the frames of a file proved for every file, window evolution and pause. Faults proved: one-octet window with a MIME separator overruns the buffer, files of 2 to 4 GB shut the connection down, resuming before the pause is seen queues the feeder twice."
  },
  {
   "property": "C40",
   "status": "partial",
   "theorems": [
    "Verif.Props.C40_only_dead_peer",
    "Verif.Props.C40_at_most_once",
    "Verif.Props.C40_dead_peer_detected_partial",
    "Verif.Props.C40_no_channel_detected_partial",
    "Verif.Props.C40_detection_statement_false",
    "Verif.Props.C40_refused_never_fails",
    "Verif.Props.C40_closed_never_fails",
    "Verif.Props.C40_early_failure"
   ],
   "note": "Only a dead peer triggers the failure: proved in full, and once at most. Detection is proved once the alive channel is ready, or while nobody answers to its creation; it does not hold if the peer refuses or closes the channel (the check then ends with no notice)."
  },
  {
   "property": "C41",
   "status": "partial",
   "theorems": [
    "Verif.Props.C41_in_order",
    "Verif.Props.C41_pull_gives",
    "Verif.Props.C41_no_lost_wakeup",
    "Verif.Props.C41_masked_requests",
    "Verif.Props.C41_wait_statement_false",
    "Verif.Props.C41_short_wait",
    "Verif.Props.C41_wait_partial",
    "Verif.Props.C41_stolen_event"
   ],
   "note": "Delivery once and in order, and masks: proved in full. The wait: the milliseconds are taken as microseconds (shown false); the wait lasts at least that many microseconds for one puller and no spurious wake-up."
  },
  {
   "property": "C42",
   "status": "partial",
   "theorems": [
    "Verif.Props.C42_each_call",
    "Verif.Props.C42_whole_frames_partial",
    "Verif.Props.C42_truncated_then_data",
    "Verif.Props.C42_interleaved",
    "Verif.Props.C42_statement_false",
    "Verif.Props.C42_spins_when_closed",
    "Verif.Props.C42_call_returns"
   ],
   "note": "Every call: true means the whole frame was written in order and once, false only a beginning. Whole frames on the wire hold when calls do not overlap and none is given up; the code violates it: a frame abandoned after three incomplete writes leaves the connection open, and the reader thread writes SEQ frames without a lock."
  },
  {
   "property": "C43",
   "status": "partial",
   "theorems": [
    "Verif.Props.C43_agree_partial",
    "Verif.Props.C43_after_replies_partial",
    "Verif.Props.C43_answer_comes_partial",
    "Verif.Props.C43_at_most_one_answer",
    "Verif.Props.C43_removed_once_partial",
    "Verif.Props.C43_one_answer_partial",
    "Verif.Props.C43_marked_for_ever",
    "Verif.Props.C43_half_closed",
    "Verif.Props.C43_refused_then_closed",
    "Verif.Props.C43_message_to_closed_channel",
    "Verif.Props.C43_sent_after_close",
    "Verif.Props.C43_waits_for_ever",
    "Verif.Props.C43_removed_twice",
    "Verif.Props.C43_statement_false"
   ],
   "note": "Two-peer product system. Agreement, replies before removal, one answer per request and single removal proved for every orderly interleaving, simultaneous close included; each excluded step is shown to break the property by a concrete history."
  },
  {
   "property": "C44",
   "status": "proved",
   "theorems": [
    "Verif.Props.C44_offered",
    "Verif.Props.C44_masks_in_order"
   ],
   "note": "For every history of registrations, masks, requests and answers."
  },
  {
   "property": "C45",
   "status": "partial",
   "theorems": [
    "Verif.Props.C45_delivery_partial",
    "Verif.Props.C45_finite_partial",
    "Verif.Props.C45_rest_reachable_partial",
    "Verif.Props.C45_payload_partial",
    "Verif.Props.C45_slow_header",
    "Verif.Props.C45_statement_false",
    "Verif.Props.C45_channels_partial",
    "Verif.Props.C45_channels_finite_partial",
    "Verif.Props.C45_channels_reachable_partial",
    "Verif.Props.C45_slow_header_others"
   ],
   "note": "Two endpoints joined by a byte stream delivered in arbitrary pieces, messages and replies both ways. Proved for all histories with non-empty contents, windows only enlarged, no header line in more than 26 pieces and no SEQ frame with the two numbers the parser takes for errors; the full statement is refuted by C45_slow_header. Also for any number of channels that share the connection, its reader, the buffer of the sequencer and its end (C45_channels_partial and the two after it). send_msg, send_rpy and send_err only; the channels exist from the beginning."
  },
  {
   "property": "C46",
   "status": "partial",
   "theorems": [
    "Verif.Props.C46_can_finish_partial",
    "Verif.Props.C46_limit_one",
    "Verif.Props.C46_statement_false"
   ],
   "note": "Holds while the limit is not reached; with a limit of one a message in two parts can never be finished."
  },
  {
   "property": "C47",
   "status": "partial",
   "theorems": [
    "Verif.Props.C47_not_forgotten_partial",
    "Verif.Props.C47_broken_connection",
    "Verif.Props.C47_statement_false"
   ],
   "note": "No lost wake-up for whole messages on a working connection; a connection shutdown does not release waiting callers."
  },
  {
   "property": "C48",
   "status": "partial",
   "theorems": [
    "Verif.Props.C48_busy_partial",
    "Verif.Props.C48_spins",
    "Verif.Props.C48_statement_false",
    "Verif.Props.C48_spins_forever"
   ],
   "note": "The code violates the full statement: a channel can be inserted after its last message was completed; the sending thread then loops without sleeping. Proved for executions without that race."
  },
  {
   "property": "C49",
   "status": "partial",
   "theorems": [
    "Verif.Props.C49_text",
    "Verif.Props.C49_refused_only_if_large",
    "Verif.Props.C49_inside_partial",
    "Verif.Props.C49_unambiguous_partial",
    "Verif.Props.C49_no_profile_overrun",
    "Verif.Props.C49_filtered_overrun",
    "Verif.Props.C49_statement_false",
    "Verif.Props.C49_apostrophe"
   ],
   "note": "The text built is exactly the rendered greetings, refused only if it does not fit. The bound fails: the closing tag after long attributes is written behind the buffer (C49_no_profile_overrun, C49_filtered_overrun), proved inside it when there is room. Different configurations give different texts unless values hold apostrophes."
  },
  {
   "property": "C50",
   "status": "partial",
   "theorems": [
    "Verif.Props.C50_initiator",
    "Verif.Props.C50_accepted",
    "Verif.Props.C50_listener_partial",
    "Verif.Props.C50_exchange_partial",
    "Verif.Props.C50_broken_greeting_forgotten",
    "Verif.Props.C50_long_greeting_stalls",
    "Verif.Props.C50_statement_false"
   ],
   "note": "Exact characterisation of the frames an initiator accepts; the exchange ends with both texts delivered for greetings up to 4058 octets, on every interleaving. Longer ones stall (C50_long_greeting_stalls); a listener forgets fragments that do not join (C50_broken_greeting_forgotten)."
  },
  {
   "property": "C51",
   "status": "partial",
   "theorems": [
    "Verif.Props.C51_call_partial",
    "Verif.Props.C51_no_excess",
    "Verif.Props.C51_base64_lost",
    "Verif.Props.C51_empty_struct_lost",
    "Verif.Props.C51_string_adds_parameter",
    "Verif.Props.C51_statement_false",
    "Verif.Props.C51_member_lost",
    "Verif.Props.C51_incomplete"
   ],
   "note": "Round trip for sendable values of any depth and names that need no quoting. The full property (C51_statement) is false of the code: base64 parameters, empty structs and strings with the end mark of CDATA sections."
  },
  {
   "property": "C52",
   "status": "partial",
   "theorems": [
    "Verif.Props.C52_value_partial",
    "Verif.Props.C52_fault_partial",
    "Verif.Props.C52_none_not_answered",
    "Verif.Props.C52_fault_changed",
    "Verif.Props.C52_statement_false"
   ],
   "note": "Round trip for values and faults without the end mark of CDATA sections. The full property (C52_statement) is false of the code."
  },
  {
   "property": "C53",
   "status": "partial",
   "theorems": [
    "Verif.Props.C53_who",
    "Verif.Props.C53_first_partial",
    "Verif.Props.C53_all_accept_partial",
    "Verif.Props.C53_boot",
    "Verif.Props.C53_refused_resource",
    "Verif.Props.C53_handed_twice",
    "Verif.Props.C53_statement_false"
   ],
   "note": "Which services get the call, in general, and that it is the first one alone if it accepts. The full property is false: services that refuse the resource get calls."
  },
  {
   "property": "C54",
   "status": "partial",
   "theorems": [
    "Verif.Props.C54_added_partial",
    "Verif.Props.C54_call_set_get",
    "Verif.Props.C54_call_set_partial",
    "Verif.Props.C54_array_set_lost",
    "Verif.Props.C54_array_replace_leaks",
    "Verif.Props.C54_call_set_not_sent",
    "Verif.Props.C54_statement_false"
   ],
   "note": "Holds for values added in sequence. The full property is false of the code for values set by position."
  },
  {
   "property": "C55",
   "status": "partial",
   "theorems": [
    "Verif.Props.C55_identity_partial",
    "Verif.Props.C55_somebody_accepted",
    "Verif.Props.C55_no_second_start",
    "Verif.Props.C55_closed_channel",
    "Verif.Props.C55_malformed_ends",
    "Verif.Props.C55_stale_authzid",
    "Verif.Props.C55_stale_authid",
    "Verif.Props.C55_switch_user",
    "Verif.Props.C55_statement_false"
   ],
   "note": "Holds when the peer sends no wrong proof and completes one negotiation at most; in every case somebody was accepted. The full property (C55_statement) is false of the code: identities of failed attempts are kept."
  },
  {
   "property": "C56",
   "status": "partial",
   "theorems": [
    "Verif.Props.C56_no_crash_partial",
    "Verif.Props.C56_abort_crashes",
    "Verif.Props.C56_second_start_crashes",
    "Verif.Props.C56_statement_false"
   ],
   "note": "Holds without aborts and with mechanisms known to gsasl. The full property is false of the code."
  },
  {
   "property": "C57",
   "status": "partial",
   "theorems": [
    "Verif.Props.C57_once_partial",
    "Verif.Props.C57_notified_twice",
    "Verif.Props.C57_not_verified",
    "Verif.Props.C57_dropped",
    "Verif.Props.C57_statement_false"
   ],
   "note": "Holds when all replies can be parsed. The full property is false of the code."
  },
  {
   "property": "C58",
   "status": "partial",
   "theorems": [
    "Verif.Props.C58_listener_partial",
    "Verif.Props.C58_initiator",
    "Verif.Props.C58_stays",
    "Verif.Props.C58_accept_zero",
    "Verif.Props.C58_statement_false"
   ],
   "note": "Proved in full for the initiator. For the listener it holds if SSL_accept never returns 0; the full property is false of the code."
  },
  {
   "property": "C59",
   "status": "partial",
   "theorems": [
    "Verif.Props.C59_listener_partial",
    "Verif.Props.C59_initiator_partial",
    "Verif.Props.C59_listener_falls_back",
    "Verif.Props.C59_initiator_falls_back",
    "Verif.Props.C59_statement_false"
   ],
   "note": "Holds when the TLS library reports no protocol error (and, for the initiator, objects can be created and a certificate is shown). The full property is false of the code."
  },
  {
   "property": "C60",
   "status": "partial",
   "theorems": [
    "Verif.Props.C60_harmless_partial",
    "Verif.Props.C60_no_more_seq",
    "Verif.Props.C60_sync_kills",
    "Verif.Props.C60_statement_false"
   ],
   "note": "Holds up to the SEQ frames after a refusal, and for the asynchronous request. The full property is false of the code."
  },
  {
   "property": "C61",
   "status": "partial",
   "theorems": [
    "Verif.Props.C61_fresh_partial",
    "Verif.Props.C61_needs_start",
    "Verif.Props.C61_carried_over",
    "Verif.Props.C61_statement_false"
   ],
   "note": "Holds if nothing was completed before TLS. The full property is false of the code."
  },
  {
   "property": "C62",
   "status": "proved",
   "theorems": [
    "Verif.Props.C62_auto_secured",
    "Verif.Props.C62_auto_works",
    "Verif.Props.C62_refused_allowed",
    "Verif.Props.C62_not_wanted"
   ],
   "note": "With the automatic negotiation as the only connection action."
  },
  {
   "property": "C63",
   "status": "partial",
   "theorems": [
    "Verif.Props.C63_session_partial",
    "Verif.Props.C63_header_left",
    "Verif.Props.C63_usual_proxy_fails",
    "Verif.Props.C63_refused",
    "Verif.Props.C63_refused_not_reported",
    "Verif.Props.C63_reported_partial",
    "Verif.Props.C63_async_not_marked",
    "Verif.Props.C63_marked_partial",
    "Verif.Props.C63_statement_false"
   ],
   "note": "Holds for answers without header lines, for refusals without handler, and marking without handler. The full property is false of the code."
  },
  {
   "property": "C64",
   "status": "partial",
   "theorems": [
    "Verif.Props.C64_faithful_partial",
    "Verif.Props.C64_nothing_added",
    "Verif.Props.C64_hole",
    "Verif.Props.C64_released_partner",
    "Verif.Props.C64_nothing_to_read",
    "Verif.Props.C64_statement_false"
   ],
   "note": "Holds while all writes are completed and no read finds nothing; in general octets keep their order. The full property is false of the code."
  },
  {
   "property": "C65",
   "status": "partial",
   "theorems": [
    "Verif.Props.C65_owned_partial",
    "Verif.Props.C65_given_up",
    "Verif.Props.C65_left_down",
    "Verif.Props.C65_kept",
    "Verif.Props.C65_taken",
    "Verif.Props.C65_served",
    "Verif.Props.C65_left_behind",
    "Verif.Props.C65_statement_false"
   ],
   "note": "Holds until the reader ends; what was registered behind the request to end is leaked."
  },
  {
   "property": "C66",
   "status": "partial",
   "theorems": [
    "Verif.Props.C66_stops_partial",
    "Verif.Props.C66_notified_partial",
    "Verif.Props.C66_counted_partial",
    "Verif.Props.C66_stop_lost",
    "Verif.Props.C66_swallowed",
    "Verif.Props.C66_left_behind",
    "Verif.Props.C66_statement_false"
   ],
   "note": "Holds when nothing is handed to the reader behind the request and the mechanism was not changed. The full property is false of the code."
  },
  {
   "property": "C67",
   "status": "partial",
   "theorems": [
    "Verif.Props.C67_visits",
    "Verif.Props.C67_counted_partial",
    "Verif.Props.C67_answered_partial",
    "Verif.Props.C67_swallowed",
    "Verif.Props.C67_never_answered",
    "Verif.Props.C67_statement_false"
   ],
   "note": "The visits are right without condition; answers hold without change of the mechanism and before a request to end. The full property is false of the code."
  },
  {
   "property": "C68",
   "status": "partial",
   "theorems": [
    "Verif.Props.C68_safe_partial",
    "Verif.Props.C68_mixed",
    "Verif.Props.C68_statement_false"
   ],
   "note": "Holds when nothing else is handed to the reader during a change. The full property is false of the code."
  },
  {
   "property": "C69",
   "status": "partial",
   "theorems": [
    "Verif.Props.C69_only_quiet",
    "Verif.Props.C69_one_at_a_time",
    "Verif.Props.C69_told_partial",
    "Verif.Props.C69_forgotten",
    "Verif.Props.C69_late_call",
    "Verif.Props.C69_statement_false"
   ],
   "note": "The condition holds when the reader looks; the rest holds while the handler is not removed and the pool runs. The full property is false of the code."
  },
  {
   "property": "C70",
   "status": "proved",
   "theorems": [
    "Verif.Props.C70_order",
    "Verif.Props.C70_accepted",
    "Verif.Props.C70_settled",
    "Verif.Props.C70_refused"
   ],
   "note": ""
  },
  {
   "property": "C71",
   "status": "partial",
   "theorems": [
    "Verif.Props.C71_waits",
    "Verif.Props.C71_released_partial",
    "Verif.Props.C71_lost",
    "Verif.Props.C71_failure_lost",
    "Verif.Props.C71_released_queue",
    "Verif.Props.C71_statement_false"
   ],
   "note": "Nobody returns too early. Release holds for one thread that waits and calls to unlock that do not come while it is on its way to the queue. The full property is false of the code."
  },
  {
   "property": "C72",
   "status": "partial",
   "theorems": [
    "Verif.Props.C72_order",
    "Verif.Props.C72_only_accepted",
    "Verif.Props.C72_first",
    "Verif.Props.C72_settled_partial",
    "Verif.Props.C72_beep_partial",
    "Verif.Props.C72_filter_ignored",
    "Verif.Props.C72_middle",
    "Verif.Props.C72_statement_false"
   ],
   "note": "Order, accepted connections only and the first read hold; sessions tuned later, split greetings and the filters do not. The full property is false of the code."
  },
  {
   "property": "C73",
   "status": "partial",
   "theorems": [
    "Verif.Props.C73_closed_partial",
    "Verif.Props.C73_others",
    "Verif.Props.C73_left_open",
    "Verif.Props.C73_statement_false"
   ],
   "note": "Holds if no connection is accepted between the visit and the closing of the listener. The full property is false of the code."
  },
  {
   "property": "C74",
   "status": "partial",
   "theorems": [
    "Verif.Props.C74_poll_partial",
    "Verif.Props.C74_epoll_partial",
    "Verif.Props.C74_poll_serves",
    "Verif.Props.C74_unlimited",
    "Verif.Props.C74_overflow",
    "Verif.Props.C74_statement_false"
   ],
   "note": "Holds for limits of at most 2^30. The full property is false of the code."
  },
  {
   "property": "C75",
   "status": "partial",
   "theorems": [
    "Verif.Props.C75_round_partial",
    "Verif.Props.C75_not_served",
    "Verif.Props.C75_statement_false"
   ],
   "note": "Holds in rounds in which no listener is closed, for listeners without preread handler. The full property is false of the code."
  },
  {
   "property": "C76",
   "status": "partial",
   "theorems": [
    "Verif.Props.C76_handlers_partial",
    "Verif.Props.C76_list",
    "Verif.Props.C76_defined_received",
    "Verif.Props.C76_statement_false"
   ],
   "note": "All but vortex_profiles_is_defined_received, which tells only whether the profile is registered. The full property is false of the code."
  },
  {
   "property": "C77",
   "status": "partial",
   "theorems": [
    "Verif.Props.C77_released",
    "Verif.Props.C77_safe_partial",
    "Verif.Props.C77_pairs_partial",
    "Verif.Props.C77_released_used",
    "Verif.Props.C77_wrong_data",
    "Verif.Props.C77_old_data",
    "Verif.Props.C77_statement_false"
   ],
   "note": "Release is exact as long as nothing released is used. No use after release unless a profile is unregistered while it is registered again; right data unless a registered profile is registered again. The full property is false of the code."
  },
  {
   "property": "C78",
   "status": "partial",
   "theorems": [
    "Verif.Props.C78_frames",
    "Verif.Props.C78_closed",
    "Verif.Props.C78_profile",
    "Verif.Props.C78_connection_partial",
    "Verif.Props.C78_channel_partial",
    "Verif.Props.C78_released_partial",
    "Verif.Props.C78_channel_kept",
    "Verif.Props.C78_frame_kept",
    "Verif.Props.C78_same_number",
    "Verif.Props.C78_statement_false"
   ],
   "note": "Frames and profile references are exact in every history. Everything is released without ordered delivery if first level deliveries begin while connection, channel and handler are there. The full property is false of the code."
  },
  {
   "property": "C79",
   "status": "partial",
   "theorems": [
    "Verif.Props.C79_once",
    "Verif.Props.C79_safe_partial",
    "Verif.Props.C79_cleanups_partial",
    "Verif.Props.C79_ends",
    "Verif.Props.C79_destroyed_mutex",
    "Verif.Props.C79_skipped",
    "Verif.Props.C79_statement_false"
   ],
   "note": "Once, in every schedule. The mutex is safe if no thread is between its look at the flag and the mutex when it is destroyed; cleanups are called in order if none is removed meanwhile. The full property is false of the code."
  },
  {
   "property": "C80",
   "status": "partial",
   "theorems": [
    "Verif.Props.C80_safe_partial",
    "Verif.Props.C80_left",
    "Verif.Props.C80_statement_false"
   ],
   "note": "No use after release, release with the last reference, and cleared only by the call that released; not that every such call clears. The full property is false of the code."
  },
  {
   "property": "C81",
   "status": "partial",
   "theorems": [
    "Verif.Props.C81_order",
    "Verif.Props.C81_piggyback",
    "Verif.Props.C81_null_partial",
    "Verif.Props.C81_wakes_partial",
    "Verif.Props.C81_safe_partial",
    "Verif.Props.C81_released",
    "Verif.Props.C81_null_with_frame",
    "Verif.Props.C81_late",
    "Verif.Props.C81_statement_false"
   ],
   "note": "Order and the piggyback in every history; NULL before the time only if the connection is down; a handler taken ends the wait; safe if the queue is released when no notification is under way. The full property is false of the code."
  },
  {
   "property": "C82",
   "status": "partial",
   "theorems": [
    "Verif.Props.C82_safe",
    "Verif.Props.C82_after_write",
    "Verif.Props.C82_ends_partial",
    "Verif.Props.C82_never_ends",
    "Verif.Props.C82_blocked",
    "Verif.Props.C82_statement_false"
   ],
   "note": "Memory and order in every schedule; the wait ends if the answer is written. The full property is false of the code."
  },
  {
   "property": "C83",
   "status": "partial",
   "theorems": [
    "Verif.Props.C83_due_partial",
    "Verif.Props.C83_true",
    "Verif.Props.C83_ends",
    "Verif.Props.C83_time_partial",
    "Verif.Props.C83_error",
    "Verif.Props.C83_same_number",
    "Verif.Props.C83_early",
    "Verif.Props.C83_statement_false"
   ],
   "note": "Exact without error replies and with numbers used once; the wait ends; the time is exact if waits are not interrupted. The full property is false of the code."
  },
  {
   "property": "C84",
   "status": "partial",
   "theorems": [
    "Verif.Props.C84_changed_partial",
    "Verif.Props.C84_wakes_partial",
    "Verif.Props.C84_stale",
    "Verif.Props.C84_taken",
    "Verif.Props.C84_unnoticed",
    "Verif.Props.C84_statement_false"
   ],
   "note": "The result is right for a call that begins when no notification is left or under way; a single waiter is always woken up. The full property is false of the code."
  },
  {
   "property": "C85",
   "status": "partial",
   "theorems": [
    "Verif.Props.C85_initiator_partial",
    "Verif.Props.C85_accepted_partial",
    "Verif.Props.C85_ends",
    "Verif.Props.C85_retry",
    "Verif.Props.C85_refused",
    "Verif.Props.C85_freed",
    "Verif.Props.C85_freed_accepted",
    "Verif.Props.C85_down_listener",
    "Verif.Props.C85_told",
    "Verif.Props.C85_statement_false"
   ],
   "note": "All schedules for connections created by the user, except calls told that another one goes on; accepted connections if not disturbed during the call. The full property is false of the code."
  },
  {
   "property": "C86",
   "status": "partial",
   "theorems": [
    "Verif.Props.C86_partial",
    "Verif.Props.C86_order",
    "Verif.Props.C86_ends",
    "Verif.Props.C86_skipped",
    "Verif.Props.C86_called_removed",
    "Verif.Props.C86_twice",
    "Verif.Props.C86_statement_false"
   ],
   "note": "Holds if handlers are removed only before their turn and new ones go to the end of the list. The full property is false of the code."
  },
  {
   "property": "C87",
   "status": "partial",
   "theorems": [
    "Verif.Props.C87_one_request",
    "Verif.Props.C87_true",
    "Verif.Props.C87_returns_partial",
    "Verif.Props.C87_all_partial",
    "Verif.Props.C87_blocked",
    "Verif.Props.C87_all_again",
    "Verif.Props.C87_statement_false"
   ],
   "note": "One request and the meaning of true in every history; calls return if the peer agrees or the connection fails; closing all channels is exact if none was refused before. The full property is false of the code."
  },
  {
   "property": "C88",
   "status": "partial",
   "theorems": [
    "Verif.Props.C88_accepted",
    "Verif.Props.C88_seen_partial",
    "Verif.Props.C88_partial",
    "Verif.Props.C88_error",
    "Verif.Props.C88_other_profile",
    "Verif.Props.C88_negative_accepted",
    "Verif.Props.C88_memory_partial",
    "Verif.Props.C88_released",
    "Verif.Props.C88_statement_false"
   ],
   "note": "Accepted answers always make a channel; exact for peers that answer as the protocol asks for; released memory is not used if at most one thread at a time is about to store the text. The full property is false of the code."
  },
  {
   "property": "C89",
   "status": "partial",
   "theorems": [
    "Verif.Props.C89_told_partial",
    "Verif.Props.C89_refs",
    "Verif.Props.C89_table",
    "Verif.Props.C89_kept_partial",
    "Verif.Props.C89_lost",
    "Verif.Props.C89_never_told",
    "Verif.Props.C89_statement_false"
   ],
   "note": "Told at most once, references and leftovers for every history; channels are kept if calls for the same number do not overlap. The full property is false of the code."
  },
  {
   "property": "C90",
   "status": "partial",
   "theorems": [
    "Verif.Props.C90_partial",
    "Verif.Props.C90_released",
    "Verif.Props.C90_blocked",
    "Verif.Props.C90_wrong_channel",
    "Verif.Props.C90_statement_false"
   ],
   "note": "Holds if numbers are not used again and no pool is asked to give away a channel it created. The full property is false of the code."
  },
  {
   "property": "C91",
   "status": "partial",
   "theorems": [
    "Verif.Props.C91_partial",
    "Verif.Props.C91_no_reset",
    "Verif.Props.C91_other_context",
    "Verif.Props.C91_too_long",
    "Verif.Props.C91_race",
    "Verif.Props.C91_statement_false"
   ],
   "note": "Holds for one context, values in the range of int, no return to the default, reads that do not overlap. The full property is false of the code."
  },
  {
   "property": "C92",
   "status": "partial",
   "theorems": [
    "Verif.Props.C92_closed",
    "Verif.Props.C92_connected_partial",
    "Verif.Props.C92_timeout_partial",
    "Verif.Props.C92_ready_partial",
    "Verif.Props.C92_ends",
    "Verif.Props.C92_left",
    "Verif.Props.C92_lookup",
    "Verif.Props.C92_lookup_partial",
    "Verif.Props.C92_unfinished",
    "Verif.Props.C92_stale_errno",
    "Verif.Props.C92_early",
    "Verif.Props.C92_family",
    "Verif.Props.C92_statement_false"
   ],
   "note": "Holds for timeouts of full seconds up to one second, errno not EBADF before, no name used with both transports. The full property is false of the code."
  },
  {
   "property": "C93",
   "status": "partial",
   "theorems": [
    "Verif.Props.C93_ok",
    "Verif.Props.C93_told_partial",
    "Verif.Props.C93_whole_partial",
    "Verif.Props.C93_timed_partial",
    "Verif.Props.C93_hangs_iff",
    "Verif.Props.C93_split",
    "Verif.Props.C93_spin",
    "Verif.Props.C93_subsecond",
    "Verif.Props.C93_unnamed",
    "Verif.Props.C93_not_started",
    "Verif.Props.C93_statement_false"
   ],
   "note": "Told exactly once if host, port and own address are known; working only with valid greetings; greetings are accepted however they are cut with a connect timeout of full seconds, and without one if every payload arrives whole. The full property is false of the code."
  },
  {
   "property": "C94",
   "status": "partial",
   "theorems": [
    "Verif.Props.C94_noticed_partial",
    "Verif.Props.C94_once_partial",
    "Verif.Props.C94_owned",
    "Verif.Props.C94_old_line",
    "Verif.Props.C94_old_frame",
    "Verif.Props.C94_old_fragment",
    "Verif.Props.C94_counter",
    "Verif.Props.C94_twice",
    "Verif.Props.C94_twice_breaks",
    "Verif.Props.C94_statement_false"
   ],
   "note": "Holds when the reader itself found the connection closed and has dropped it. The full property is false of the code."
  },
  {
   "property": "C95",
   "status": "partial",
   "theorems": [
    "Verif.Props.C95_said_partial",
    "Verif.Props.C95_done",
    "Verif.Props.C95_mutex",
    "Verif.Props.C95_zero",
    "Verif.Props.C95_zero_first",
    "Verif.Props.C95_kept",
    "Verif.Props.C95_statement_false"
   ],
   "note": "Holds for greetings without zero octets. The full property is false of the code."
  },
  {
   "property": "C96",
   "status": "partial",
   "theorems": [
    "Verif.Props.C96_start",
    "Verif.Props.C96_close_partial",
    "Verif.Props.C96_crash_iff",
    "Verif.Props.C96_malformed_partial",
    "Verif.Props.C96_other",
    "Verif.Props.C96_decide",
    "Verif.Props.C96_refused",
    "Verif.Props.C96_crossed",
    "Verif.Props.C96_close_default",
    "Verif.Props.C96_misread",
    "Verif.Props.C96_silent",
    "Verif.Props.C96_statement_false",
    "Verif.Props.C96_lenient",
    "Verif.Props.C96_malformed_answered_partial"
   ],
   "note": "Valid start requests, and valid close requests with a number, are handled as they say; what is no XML is refused unless it begins like a reply. The full property is false of the code."
  },
  {
   "property": "C97",
   "status": "partial",
   "theorems": [
    "Verif.Props.C97_found_partial",
    "Verif.Props.C97_once",
    "Verif.Props.C97_order",
    "Verif.Props.C97_shadowed",
    "Verif.Props.C97_statement_false"
   ],
   "note": "Proved for the default domain, and for every domain none of whose paths is also one of the default domain. Otherwise the property is false of the code."
  },
  {
   "property": "C98",
   "status": "partial",
   "theorems": [
    "Verif.Props.C98_once",
    "Verif.Props.C98_fate",
    "Verif.Props.C98_run",
    "Verif.Props.C98_order",
    "Verif.Props.C98_closed",
    "Verif.Props.C98_exit_partial",
    "Verif.Props.C98_exit_ends_partial",
    "Verif.Props.C98_released_twice",
    "Verif.Props.C98_late_task",
    "Verif.Props.C98_skip_wait",
    "Verif.Props.C98_late_thread",
    "Verif.Props.C98_no_thread_left",
    "Verif.Props.C98_statement_false",
    "Verif.Props.C98_thread_left_partial",
    "Verif.Props.C98_exiting",
    "Verif.Props.C98_collected"
   ],
   "note": "The part about tasks is proved for all interleavings. The part about the end of the pool is proved if no thread is being added or removed, nobody is about to hand over a task, and the threads are waited for; otherwise it is false of the code."
  },
  {
   "property": "C99",
   "status": "partial",
   "theorems": [
    "Verif.Props.C99_memory",
    "Verif.Props.C99_exclusive",
    "Verif.Props.C99_ends",
    "Verif.Props.C99_remove",
    "Verif.Props.C99_listed",
    "Verif.Props.C99_pass",
    "Verif.Props.C99_removed_partial",
    "Verif.Props.C99_removed_within_partial",
    "Verif.Props.C99_remove_partial",
    "Verif.Props.C99_called_after_removal",
    "Verif.Props.C99_same_identifier",
    "Verif.Props.C99_old_identifier",
    "Verif.Props.C99_passed_over",
    "Verif.Props.C99_statement_false"
   ],
   "note": "Proved for all interleavings, except: after a removal the handler may be called once more, unless a handler was running at that time; and the right event is removed only if no identifier was given twice."
  },
  {
   "property": "C100",
   "status": "partial",
   "theorems": [
    "Verif.Props.C100_object",
    "Verif.Props.C100_object_partial",
    "Verif.Props.C100_queue",
    "Verif.Props.C100_frames",
    "Verif.Props.C100_partial",
    "Verif.Props.C100_kept",
    "Verif.Props.C100_crossing_race",
    "Verif.Props.C100_send_failed",
    "Verif.Props.C100_late_handler",
    "Verif.Props.C100_leak",
    "Verif.Props.C100_statement_false"
   ],
   "note": "Proved for all interleavings, except: objects of channels being closed, where the threads that answer a close message must take their reference at once and the channel must be removed at once; and frames dropped by a caller that waits for the handler of a broken connection."
  },
  {
   "property": "C101",
   "status": "partial",
   "theorems": [
    "Verif.Props.C101_hop",
    "Verif.Props.C101_documented_partial",
    "Verif.Props.C101_connected_partial",
    "Verif.Props.C101_route_partial",
    "Verif.Props.C101_bounded",
    "Verif.Props.C101_ok",
    "Verif.Props.C101_consent",
    "Verif.Props.C101_replies",
    "Verif.Props.C101_not_implemented",
    "Verif.Props.C101_bypassed",
    "Verif.Props.C101_endpoint_taken",
    "Verif.Props.C101_no_content",
    "Verif.Props.C101_handler",
    "Verif.Props.C101_undocumented",
    "Verif.Props.C101_statement_false"
   ],
   "note": "Proved for hops that give a domain name or IPv4 address and a port; the other documented hops are not implemented by the code. Wrong hops are skipped, requests without content crash, and the handler is not called."
  },
  {
   "property": "C102",
   "status": "partial",
   "theorems": [
    "Verif.Props.C102_no_stall",
    "Verif.Props.C102_delivered_partial",
    "Verif.Props.C102_prefix",
    "Verif.Props.C102_frame_per_record_partial",
    "Verif.Props.C102_piece_closes",
    "Verif.Props.C102_left_behind",
    "Verif.Props.C102_statement_false",
    "Verif.Props.C102_ssl"
   ],
   "note": "No octets stay in the transport, and the frames handed over are always the first ones sent. Delivery of all is proved when no incomplete record is met inside of the rest of a frame; there the code closes the connection."
  },
  {
   "property": "C103",
   "status": "partial",
   "theorems": [
    "Verif.Props.C103_requested_partial",
    "Verif.Props.C103_agree_partial",
    "Verif.Props.C103_kept_partial",
    "Verif.Props.C103_acquire_ignored",
    "Verif.Props.C103_feature_ignored",
    "Verif.Props.C103_disagree",
    "Verif.Props.C103_overwritten",
    "Verif.Props.C103_deferred",
    "Verif.Props.C103_port",
    "Verif.Props.C103_statement_false"
   ],
   "note": "Agreement is proved for channels asked for one after the other, with any decisions of the server; that the name stays for all interleavings without deferred starts. The options are not honoured in two cases."
  },
  {
   "property": "C104",
   "status": "partial",
   "theorems": [
    "Verif.Props.C104_read_partial",
    "Verif.Props.C104_hard",
    "Verif.Props.C104_refused",
    "Verif.Props.C104_others",
    "Verif.Props.C104_unknown",
    "Verif.Props.C104_accepted_partial",
    "Verif.Props.C104_enforce",
    "Verif.Props.C104_backlog",
    "Verif.Props.C104_mime_partial",
    "Verif.Props.C104_off",
    "Verif.Props.C104_for_good",
    "Verif.Props.C104_hard_lower",
    "Verif.Props.C104_default",
    "Verif.Props.C104_stale",
    "Verif.Props.C104_statement_false"
   ],
   "note": "Values read are the last ones accepted, for all items but the upper limit of descriptors. 0 is never accepted, the default of the backlog is not the documented one, and MIME settings are fixed by the first message of a channel."
  },
  {
   "property": "C105",
   "status": "partial",
   "theorems": [
    "Verif.Props.C105_exclusive_partial",
    "Verif.Props.C105_waits",
    "Verif.Props.C105_memory_partial",
    "Verif.Props.C105_released_partial",
    "Verif.Props.C105_closed_partial",
    "Verif.Props.C105_shutdown_partial",
    "Verif.Props.C105_foreign_closed",
    "Verif.Props.C105_shared_setup",
    "Verif.Props.C105_own_reference",
    "Verif.Props.C105_accepted_overlap",
    "Verif.Props.C105_switched_overlap",
    "Verif.Props.C105_stuck",
    "Verif.Props.C105_waits_for_itself",
    "Verif.Props.C105_never_reported",
    "Verif.Props.C105_statement_false",
    "Verif.Props.C105_created"
   ],
   "note": "Holds if every connection is given a reference of its own, the option is not changed during calls, and no listener is freed; each of these restrictions is shown to be needed. Accepted connections have no mutual exclusion."
  },
  {
   "property": "C106",
   "status": "partial",
   "theorems": [
    "Verif.Props.C106_memory",
    "Verif.Props.C106_given_up",
    "Verif.Props.C106_own_reply_partial",
    "Verif.Props.C106_reply_partial",
    "Verif.Props.C106_wrong_reply",
    "Verif.Props.C106_blocks",
    "Verif.Props.C106_blocks_documented",
    "Verif.Props.C106_statement_false"
   ],
   "note": "Holds if every object is used for one message; objects used again, which the documentation allows, give wrong replies or block all threads that wait."
  },
  {
   "property": "C107",
   "status": "partial",
   "theorems": [
    "Verif.Props.C107_start_partial",
    "Verif.Props.C107_close_partial",
    "Verif.Props.C107_reply_partial",
    "Verif.Props.C107_error_partial",
    "Verif.Props.C107_ok",
    "Verif.Props.C107_server_name",
    "Verif.Props.C107_section",
    "Verif.Props.C107_zero",
    "Verif.Props.C107_uri",
    "Verif.Props.C107_error_text",
    "Verif.Props.C107_statement_false",
    "Verif.Props.C107_close_answer"
   ],
   "note": "Holds for values that can stand in XML as they are; nothing is escaped."
  },
  {
   "property": "C108",
   "status": "partial",
   "theorems": [
    "Verif.Props.C108_memory_partial",
    "Verif.Props.C108_data_partial",
    "Verif.Props.C108_overwrites",
    "Verif.Props.C108_double",
    "Verif.Props.C108_twice",
    "Verif.Props.C108_statement_false"
   ],
   "note": "Holds for strings never released by the caller (against the documentation), all different and different from the keys in use."
  },
  {
   "property": "C109",
   "status": "partial",
   "theorems": [
    "Verif.Props.C109_memory_partial",
    "Verif.Props.C109_no_leak_partial",
    "Verif.Props.C109_alive_partial",
    "Verif.Props.C109_struct_released",
    "Verif.Props.C109_string_leak",
    "Verif.Props.C109_full_leak",
    "Verif.Props.C109_member_null",
    "Verif.Props.C109_statement_false"
   ],
   "note": "Holds when nothing is added to full structs or arrays, no member is looked at before it is added, strings are taken only from strings, integers and empty values, and structs and arrays only with a function to unmarshall them."
  },
  {
   "property": "C110",
   "status": "partial",
   "theorems": [
    "Verif.Props.C110_answered_partial",
    "Verif.Props.C110_refused",
    "Verif.Props.C110_lost",
    "Verif.Props.C110_released",
    "Verif.Props.C110_waiting",
    "Verif.Props.C110_stuck",
    "Verif.Props.C110_statement_false"
   ],
   "note": "Holds when the pull API is removed only while no handler is at work, no call waits and no event is left."
  },
  {
   "property": "C111",
   "status": "partial",
   "theorems": [
    "Verif.Props.C111_told_partial",
    "Verif.Props.C111_value",
    "Verif.Props.C111_port_partial",
    "Verif.Props.C111_descriptors_partial",
    "Verif.Props.C111_silent",
    "Verif.Props.C111_memory_partial",
    "Verif.Props.C111_wrong_address",
    "Verif.Props.C111_refused_told",
    "Verif.Props.C111_closed_twice",
    "Verif.Props.C111_left_open",
    "Verif.Props.C111_other_port",
    "Verif.Props.C111_released_twice",
    "Verif.Props.C111_shut_by_handler",
    "Verif.Props.C111_close_working",
    "Verif.Props.C111_statement_false"
   ],
   "note": "Success is told once; failures never. Ports 1 to 65535, descriptors above 2, connection objects that can be made, and applications that use a listener only after the call and close it only with a reference of their own."
  },
  {
   "property": "C112",
   "status": "partial",
   "theorems": [
    "Verif.Props.C112_at_most",
    "Verif.Props.C112_all_destroyed_partial",
    "Verif.Props.C112_get",
    "Verif.Props.C112_no_waiting_partial",
    "Verif.Props.C112_ends_partial",
    "Verif.Props.C112_release_ends_partial",
    "Verif.Props.C112_release_stuck",
    "Verif.Props.C112_release_stuck_example",
    "Verif.Props.C112_key_leak",
    "Verif.Props.C112_stored_again",
    "Verif.Props.C112_statement_false"
   ],
   "note": "Keys given with NULL are excluded; calls return before the release, and the release ends if the destroy functions it calls do not use the object."
  },
  {
   "property": "C113",
   "status": "partial",
   "theorems": [
    "Verif.Props.C113_text_injective",
    "Verif.Props.C113_string_partial",
    "Verif.Props.C113_sized_partial",
    "Verif.Props.C113_file",
    "Verif.Props.C113_peer_partial",
    "Verif.Props.C113_match",
    "Verif.Props.C113_no_method",
    "Verif.Props.C113_peer_leak",
    "Verif.Props.C113_null_crash",
    "Verif.Props.C113_negative_size",
    "Verif.Props.C113_statement_false"
   ],
   "note": "The text is as claimed for every digest; NULL strings, negative sizes and the reference to the certificate of the peer are excluded."
  },
  {
   "property": "C114",
   "status": "partial",
   "theorems": [
    "Verif.Props.C114_once_partial",
    "Verif.Props.C114_answered_partial",
    "Verif.Props.C114_told_partial",
    "Verif.Props.C114_returns_false",
    "Verif.Props.C114_crossed",
    "Verif.Props.C114_early",
    "Verif.Props.C114_message_taken",
    "Verif.Props.C114_message_crash",
    "Verif.Props.C114_refused_leak",
    "Verif.Props.C114_failed_other",
    "Verif.Props.C114_statement_false"
   ],
   "note": "Proved when invocations are made one after the other and the peer sends only replies; the code violates the rest."
  },
  {
   "property": "C115",
   "status": "partial",
   "theorems": [
    "Verif.Props.C115_reply_once",
    "Verif.Props.C115_service_partial",
    "Verif.Props.C115_reply_partial",
    "Verif.Props.C115_started",
    "Verif.Props.C115_refused_served",
    "Verif.Props.C115_deferred_twice",
    "Verif.Props.C115_no_content",
    "Verif.Props.C115_no_reply",
    "Verif.Props.C115_statement_false"
   ],
   "note": "At most one reply always; the rest when the first service accepts the resources and peers send well-formed contents. The code violates the rest."
  },
  {
   "property": "C116",
   "status": "partial",
   "theorems": [
    "Verif.Props.C116_once",
    "Verif.Props.C116_success_partial",
    "Verif.Props.C116_accepted_partial",
    "Verif.Props.C116_failure_partial",
    "Verif.Props.C116_sync_none",
    "Verif.Props.C116_queue_partial",
    "Verif.Props.C116_name_partial",
    "Verif.Props.C116_text_partial",
    "Verif.Props.C116_error_text",
    "Verif.Props.C116_second_text",
    "Verif.Props.C116_closed_channel",
    "Verif.Props.C116_left_open",
    "Verif.Props.C116_gave_up",
    "Verif.Props.C116_err_accepted",
    "Verif.Props.C116_name_lost",
    "Verif.Props.C116_unset",
    "Verif.Props.C116_statement_false"
   ],
   "note": "One result per boot, and its meaning, always; texts, open channels, names and queues with the exclusions stated. The code violates the rest."
  },
  {
   "property": "C117",
   "status": "partial",
   "theorems": [
    "Verif.Props.C117_verify_partial",
    "Verif.Props.C117_trusted_partial",
    "Verif.Props.C117_ends_partial",
    "Verif.Props.C117_nul",
    "Verif.Props.C117_no_name",
    "Verif.Props.C117_no_name_crash",
    "Verif.Props.C117_truncated",
    "Verif.Props.C117_kept",
    "Verif.Props.C117_statement_false"
   ],
   "note": "Exact answer for certificates with an ordinary common name; what a yes means in any case. The code violates the rest."
  },
  {
   "property": "C118",
   "status": "partial",
   "theorems": [
    "Verif.Props.C118_sync_partial",
    "Verif.Props.C118_ids_partial",
    "Verif.Props.C118_one_handler_partial",
    "Verif.Props.C118_second_handler",
    "Verif.Props.C118_second_handler_later",
    "Verif.Props.C118_same_id",
    "Verif.Props.C118_default",
    "Verif.Props.C118_statement_false"
   ],
   "note": "Pools made without a handler always work, ids are unique, for applications that are careful; one call with a handler is safe in every schedule. The code violates the rest."
  },
  {
   "property": "C119",
   "status": "partial",
   "theorems": [
    "Verif.Props.C119_added",
    "Verif.Props.C119_names_partial",
    "Verif.Props.C119_types_partial",
    "Verif.Props.C119_by_name",
    "Verif.Props.C119_at_partial",
    "Verif.Props.C119_is",
    "Verif.Props.C119_int_partial",
    "Verif.Props.C119_int_of_pointer",
    "Verif.Props.C119_not_full",
    "Verif.Props.C119_unknown_type",
    "Verif.Props.C119_statement_false"
   ],
   "note": "Full structs: checks and access exact; members by name and signatures of calls exact in any case. The code violates the rest."
  },
  {
   "property": "C120",
   "status": "partial",
   "theorems": [
    "Verif.Props.C120_safe_partial",
    "Verif.Props.C120_released_partial",
    "Verif.Props.C120_events_partial",
    "Verif.Props.C120_names_partial",
    "Verif.Props.C120_no_connection",
    "Verif.Props.C120_channel_of_released_connection",
    "Verif.Props.C120_statement_false"
   ],
   "note": "Releases are exact for every history in which the connection is not asked for through the channel of an event that has none. The code violates the rest."
  },
  {
   "property": "C121",
   "status": "partial",
   "theorems": [
    "Verif.Props.C121_once",
    "Verif.Props.C121_told",
    "Verif.Props.C121_kept_partial",
    "Verif.Props.C121_handler_partial",
    "Verif.Props.C121_tick_of_released",
    "Verif.Props.C121_handler_null",
    "Verif.Props.C121_event_left",
    "Verif.Props.C121_statement_false",
    "Verif.Props.C121_stops_partial"
   ],
   "note": "The reference is dropped once in every schedule; memory is safe if somebody keeps the connection until nothing of the check is left. The code violates the rest."
  },
  {
   "property": "C122",
   "status": "partial",
   "theorems": [
    "Verif.Props.C122_request",
    "Verif.Props.C122_verify_partial",
    "Verif.Props.C122_wait_partial",
    "Verif.Props.C122_connection",
    "Verif.Props.C122_detect",
    "Verif.Props.C122_setup",
    "Verif.Props.C122_lost",
    "Verif.Props.C122_not_verified",
    "Verif.Props.C122_short_timeout",
    "Verif.Props.C122_origin_lost",
    "Verif.Props.C122_tls_not_found",
    "Verif.Props.C122_statement_false"
   ],
   "note": "Headers, TLS and references for every configuration; verification if it was configured, waits from one second on. The code violates the rest."
  },
  {
   "property": "C123",
   "status": "partial",
   "theorems": [
    "Verif.Props.C123_call_partial",
    "Verif.Props.C123_malformed",
    "Verif.Props.C123_late_success",
    "Verif.Props.C123_timeout_release",
    "Verif.Props.C123_no_places",
    "Verif.Props.C123_statement_false"
   ],
   "note": "Every schedule in which the replies can be parsed, places are given and a connection that timed out is kept until the negotiation ended. The code violates the rest."
  },
  {
   "property": "C124",
   "status": "partial",
   "theorems": [
    "Verif.Props.C124_messages_partial",
    "Verif.Props.C124_safe_partial",
    "Verif.Props.C124_held_partial",
    "Verif.Props.C124_released_partial",
    "Verif.Props.C124_race",
    "Verif.Props.C124_closed_race",
    "Verif.Props.C124_closed_leak",
    "Verif.Props.C124_statement_false",
    "Verif.Props.C124_working_partial"
   ],
   "note": "Order and single release hold in every schedule; no use of released memory if the last reference of the connection is not dropped between two steps of the sending thread; release of everything if the channel is not closed before the connection. The code violates the rest."
  },
  {
   "property": "C125",
   "status": "partial",
   "theorems": [
    "Verif.Props.C125_order_partial",
    "Verif.Props.C125_all_partial",
    "Verif.Props.C125_stop_partial",
    "Verif.Props.C125_closed_partial",
    "Verif.Props.C125_conn_partial",
    "Verif.Props.C125_null",
    "Verif.Props.C125_twice",
    "Verif.Props.C125_closed_given",
    "Verif.Props.C125_statement_false"
   ],
   "note": "Order, completeness, ends and connections of every single notification are proved; the code violates the rest (NULL, and twice for one connection)."
  },
  {
   "property": "C126",
   "status": "partial",
   "theorems": [
    "Verif.Props.C126_single_partial",
    "Verif.Props.C126_last_partial",
    "Verif.Props.C126_room_partial",
    "Verif.Props.C126_kept_partial",
    "Verif.Props.C126_both_refused",
    "Verif.Props.C126_spin",
    "Verif.Props.C126_statement_false",
    "Verif.Props.C126_refused_partial"
   ],
   "note": "Proved for every schedule if only checked sockets are opened; sockets may be refused without need, and other descriptors may be the last."
  },
  {
   "property": "C127",
   "status": "partial",
   "theorems": [
    "Verif.Props.C127_settings_partial",
    "Verif.Props.C127_hidden_partial",
    "Verif.Props.C127_separate_partial",
    "Verif.Props.C127_filter_kept",
    "Verif.Props.C127_color_kept",
    "Verif.Props.C127_mutex_on",
    "Verif.Props.C127_arguments",
    "Verif.Props.C127_destroyed",
    "Verif.Props.C127_statement_false"
   ],
   "note": "Proved if all filters name the same levels and colors are not turned off against the environment; levels named by the filter in force are hidden and messages never mixed in every history. The code violates the rest."
  },
  {
   "property": "C128",
   "status": "partial",
   "theorems": [
    "Verif.Props.C128_ready_partial",
    "Verif.Props.C128_name_partial",
    "Verif.Props.C128_once_partial",
    "Verif.Props.C128_twice",
    "Verif.Props.C128_silent",
    "Verif.Props.C128_lost",
    "Verif.Props.C128_statement_false"
   ],
   "note": "Host, server name and TLS proved for every history (server name unless the application set another before), the single installation for one thread. The code violates the rest."
  },
  {
   "property": "C129",
   "status": "partial",
   "theorems": [
    "Verif.Props.C129_table_partial",
    "Verif.Props.C129_uri_partial",
    "Verif.Props.C129_func_partial",
    "Verif.Props.C129_count_partial",
    "Verif.Props.C129_held_partial",
    "Verif.Props.C129_gone",
    "Verif.Props.C129_blocked",
    "Verif.Props.C129_statement_false"
   ],
   "note": "What is found and counted is proved for every history, and that no released channel is used if the functions take a reference of the channel they choose. The code violates the rest."
  },
  {
   "property": "C130",
   "status": "partial",
   "theorems": [
    "Verif.Props.C130_order_partial",
    "Verif.Props.C130_refused_partial",
    "Verif.Props.C130_quiet_partial",
    "Verif.Props.C130_ends_partial",
    "Verif.Props.C130_null",
    "Verif.Props.C130_lost",
    "Verif.Props.C130_statement_false"
   ],
   "note": "Order, refusal and the end of the thread proved for every schedule; safe memory if the calls in progress returned before the release. The code violates the rest."
  },
  {
   "property": "C131",
   "status": "partial",
   "theorems": [
    "Verif.Props.C131_memory_partial",
    "Verif.Props.C131_told_partial",
    "Verif.Props.C131_channel_partial",
    "Verif.Props.C131_with_partial",
    "Verif.Props.C131_twice",
    "Verif.Props.C131_early",
    "Verif.Props.C131_stopped",
    "Verif.Props.C131_owner",
    "Verif.Props.C131_leak",
    "Verif.Props.C131_paused",
    "Verif.Props.C131_statement_false"
   ],
   "note": "Safe memory and single release proved for every schedule; one notification if no thread asks for the status and the pool is not stopped. The code violates the rest."
  },
  {
   "property": "C132",
   "status": "partial",
   "theorems": [
    "Verif.Props.C132_safe_partial",
    "Verif.Props.C132_started_partial",
    "Verif.Props.C132_released_partial",
    "Verif.Props.C132_left",
    "Verif.Props.C132_retry",
    "Verif.Props.C132_modules",
    "Verif.Props.C132_pool",
    "Verif.Props.C132_again",
    "Verif.Props.C132_child",
    "Verif.Props.C132_statement_false"
   ],
   "note": "Proved for every history of an application that follows the documentation, with failures of the DTD and of the threads. The code violates the rest."
  },
  {
   "property": "C133",
   "status": "partial",
   "theorems": [
    "Verif.Props.C133_sound_partial",
    "Verif.Props.C133_simple_partial",
    "Verif.Props.C133_full_partial",
    "Verif.Props.C133_common_partial",
    "Verif.Props.C133_either",
    "Verif.Props.C133_first",
    "Verif.Props.C133_stays",
    "Verif.Props.C133_stale",
    "Verif.Props.C133_null",
    "Verif.Props.C133_statement_false"
   ],
   "note": "Proved for every history in which one family of calls is used for the mechanism after SASL is started. The code violates the rest."
  },
  {
   "property": "C134",
   "status": "partial",
   "theorems": [
    "Verif.Props.C134_sound_partial",
    "Verif.Props.C134_released_partial",
    "Verif.Props.C134_reports_partial",
    "Verif.Props.C134_socket_partial",
    "Verif.Props.C134_source_partial",
    "Verif.Props.C134_asked_partial",
    "Verif.Props.C134_contextLost",
    "Verif.Props.C134_contextLostInitiator",
    "Verif.Props.C134_certificateLost",
    "Verif.Props.C134_peerGone",
    "Verif.Props.C134_unreported",
    "Verif.Props.C134_unreportedInitiator",
    "Verif.Props.C134_descriptorLost",
    "Verif.Props.C134_descriptorClosed",
    "Verif.Props.C134_statement_false"
   ],
   "note": "Proved for every history: nothing is released twice, the context and files used are those of the application. The rest when nothing fails between the context and the handshake. The code violates it otherwise."
  },
  {
   "property": "C135",
   "status": "partial",
   "theorems": [
    "Verif.Props.C135_exact_partial",
    "Verif.Props.C135_code_partial",
    "Verif.Props.C135_when_partial",
    "Verif.Props.C135_room_partial",
    "Verif.Props.C135_xml_partial",
    "Verif.Props.C135_inline_partial",
    "Verif.Props.C135_file_partial",
    "Verif.Props.C135_default_partial",
    "Verif.Props.C135_semicolonLost",
    "Verif.Props.C135_braceInString",
    "Verif.Props.C135_unclosed",
    "Verif.Props.C135_xmlFormat",
    "Verif.Props.C135_xmlHalved",
    "Verif.Props.C135_includeDoubled",
    "Verif.Props.C135_headerLost",
    "Verif.Props.C135_directory",
    "Verif.Props.C135_nothingReturned",
    "Verif.Props.C135_statement_false"
   ],
   "note": "Proved exactly for every text in the structured format: which code is generated, and when it crashes. Code in XML without percent signs, included code without percent signs, all included files for the body. The code violates it otherwise."
  },
  {
   "property": "C136",
   "status": "partial",
   "theorems": [
    "Verif.Props.C136_new_partial",
    "Verif.Props.C136_same_partial",
    "Verif.Props.C136_differs_partial",
    "Verif.Props.C136_kept_partial",
    "Verif.Props.C136_others_partial",
    "Verif.Props.C136_first_partial",
    "Verif.Props.C136_compiled_partial",
    "Verif.Props.C136_asksForever",
    "Verif.Props.C136_draftLeft",
    "Verif.Props.C136_longLine",
    "Verif.Props.C136_asksAboutItself",
    "Verif.Props.C136_status",
    "Verif.Props.C136_statement_false"
   ],
   "note": "Proved for every content of the directory and all typed lines shorter than 1024 octets: what is written, kept and asked. The code violates it at the end of the input, for drafts of skipped files, for long lines and for the status."
  },
  {
   "property": "C137",
   "status": "partial",
   "theorems": [
    "Verif.Props.C137_client_partial",
    "Verif.Props.C137_asked_partial",
    "Verif.Props.C137_refused_partial",
    "Verif.Props.C137_order_partial",
    "Verif.Props.C137_reaches_partial",
    "Verif.Props.C137_files_partial",
    "Verif.Props.C137_overload_partial",
    "Verif.Props.C137_undeclared",
    "Verif.Props.C137_base64",
    "Verif.Props.C137_unreachable",
    "Verif.Props.C137_twoStructs",
    "Verif.Props.C137_sameFile",
    "Verif.Props.C137_unknownType",
    "Verif.Props.C137_statement_false"
   ],
   "note": "Proved for every interface with known types: what the client sends, which service answers, when a call is refused. The code violates it for overloaded services, base64, services without resource and names with underscores."
  },
  {
   "property": "C138",
   "status": "partial",
   "theorems": [
    "Verif.Props.C138_arrives_partial",
    "Verif.Props.C138_struct_partial",
    "Verif.Props.C138_released_partial",
    "Verif.Props.C138_length_partial",
    "Verif.Props.C138_strings",
    "Verif.Props.C138_doubles",
    "Verif.Props.C138_base64",
    "Verif.Props.C138_accepted",
    "Verif.Props.C138_statement_false"
   ],
   "note": "Proved for all types without base64 and with arrays of ints, bools, strings and structs only; releases for types without arrays of strings; shapes one level deep and except bools. The code violates the rest."
  },
  {
   "property": "C139",
   "status": "partial",
   "theorems": [
    "Verif.Props.C139_fault_partial",
    "Verif.Props.C139_null_partial",
    "Verif.Props.C139_value_partial",
    "Verif.Props.C139_async_partial",
    "Verif.Props.C139_marshalling_partial",
    "Verif.Props.C139_nullArgument",
    "Verif.Props.C139_silent",
    "Verif.Props.C139_base64",
    "Verif.Props.C139_bool",
    "Verif.Props.C139_statement_false"
   ],
   "note": "Proved for every service whose types have no base64 and arrays of ints, bools, strings and structs only, for arguments without NULL structs and arrays, bools 0 or 1. The code violates the rest."
  },
  {
   "property": "C140",
   "status": "partial",
   "theorems": [
    "Verif.Props.C140_calls_partial",
    "Verif.Props.C140_handlers_partial",
    "Verif.Props.C140_order_partial",
    "Verif.Props.C140_answers_partial",
    "Verif.Props.C140_removeCalled",
    "Verif.Props.C140_otherConnection",
    "Verif.Props.C140_late",
    "Verif.Props.C140_statement_false"
   ],
   "note": "Proved for every program that removes handlers through their own connection and before it falls, and gives handlers only for connections that have not fallen. The code violates the rest."
  },
  {
   "property": "C141",
   "status": "partial",
   "theorems": [
    "Verif.Props.C141_kept_partial",
    "Verif.Props.C141_exact_partial",
    "Verif.Props.C141_collect_partial",
    "Verif.Props.C141_neverFreed",
    "Verif.Props.C141_listenerTwice",
    "Verif.Props.C141_failedListener",
    "Verif.Props.C141_statement_false"
   ],
   "note": "Proved for every program that calls close neither on fallen listeners nor on accepted connections nor twice on one connection, and closes listeners that failed to start. The code violates the rest."
  },
  {
   "property": "C142",
   "status": "partial",
   "theorems": [
    "Verif.Props.C142_calls_partial",
    "Verif.Props.C142_refs_partial",
    "Verif.Props.C142_once_partial",
    "Verif.Props.C142_safe_partial",
    "Verif.Props.C142_crash",
    "Verif.Props.C142_statement_false"
   ],
   "note": "Proved until the process crashes, and that it does not crash if the handler is removed only while no thread is about to call it. The code violates the rest."
  },
  {
   "property": "C143",
   "status": "partial",
   "theorems": [
    "Verif.Props.C143_kept_partial",
    "Verif.Props.C143_released_partial",
    "Verif.Props.C143_called_partial",
    "Verif.Props.C143_safe_partial",
    "Verif.Props.C143_locked_partial",
    "Verif.Props.C143_freed",
    "Verif.Props.C143_unlocked",
    "Verif.Props.C143_statement_false",
    "Verif.Props.C143_only_partial"
   ],
   "note": "References and releases proved in every history; calls and memory while the object that made the pool exists; the lock if the last reference is dropped by the program. The code violates the rest."
  },
  {
   "property": "C144",
   "status": "partial",
   "theorems": [
    "Verif.Props.C144_accepts_partial",
    "Verif.Props.C144_required_partial",
    "Verif.Props.C144_exact_partial",
    "Verif.Props.C144_lastUnchecked",
    "Verif.Props.C144_tooMany",
    "Verif.Props.C144_forged",
    "Verif.Props.C144_silent",
    "Verif.Props.C144_statement_false",
    "Verif.Props.C144_named_partial"
   ],
   "note": "Arguments expected are accepted; required arguments are checked, and exactly so without optional ones and forged tables (no letter for queues is implemented). The code violates the rest."
  },
  {
   "property": "C145",
   "status": "partial",
   "theorems": [
    "Verif.Props.C145_answers_partial",
    "Verif.Props.C145_fifo_partial",
    "Verif.Props.C145_kept_partial",
    "Verif.Props.C145_collected_partial",
    "Verif.Props.C145_total",
    "Verif.Props.C145_booleanLost",
    "Verif.Props.C145_statement_false"
   ],
   "note": "References and numbers proved in every history, and what calls return exactly; booleans are lost by the code, the rest is first in, first out."
  },
  {
   "property": "C146",
   "status": "partial",
   "theorems": [
    "Verif.Props.C146_left_partial",
    "Verif.Props.C146_finishing_partial",
    "Verif.Props.C146_sound_partial",
    "Verif.Props.C146_tls_partial",
    "Verif.Props.C146_event_partial",
    "Verif.Props.C146_fresh_partial",
    "Verif.Props.C146_total",
    "Verif.Props.C146_event_first",
    "Verif.Props.C146_stuck",
    "Verif.Props.C146_dropped",
    "Verif.Props.C146_messageAsFile",
    "Verif.Props.C146_raisedTrue",
    "Verif.Props.C146_answers_false",
    "Verif.Props.C146_statement_false"
   ],
   "note": "Every answer characterised exactly; channels, authentications and finishing contexts as meant in every history; events and failed TLS handlers are not, by the code."
  },
  {
   "property": "C147",
   "status": "partial",
   "theorems": [
    "Verif.Props.C147_sound_partial",
    "Verif.Props.C147_answers_partial",
    "Verif.Props.C147_text_partial",
    "Verif.Props.C147_effects_partial",
    "Verif.Props.C147_closeIgnored",
    "Verif.Props.C147_freed",
    "Verif.Props.C147_freedOnly",
    "Verif.Props.C147_minusOne",
    "Verif.Props.C147_rest_false",
    "Verif.Props.C147_statement_false"
   ],
   "note": "Nothing accepted or named that the handler did not, in every case; answers as meant outside the cases listed, where the code fails."
  },
  {
   "property": "C148",
   "status": "partial",
   "theorems": [
    "Verif.Props.C148_calls_partial",
    "Verif.Props.C148_safe_partial",
    "Verif.Props.C148_answers_partial",
    "Verif.Props.C148_kept_partial",
    "Verif.Props.C148_orphan_partial",
    "Verif.Props.C148_removedKept",
    "Verif.Props.C148_exitKept",
    "Verif.Props.C148_raisedKept",
    "Verif.Props.C148_afterExit",
    "Verif.Props.C148_statement_false"
   ],
   "note": "Calls and memory safety in full; answers before exit; what is kept is characterised exactly, and is more than the installed events."
  },
  {
   "property": "C149",
   "status": "partial",
   "theorems": [
    "Verif.Props.C149_one_partial",
    "Verif.Props.C149_progress_partial",
    "Verif.Props.C149_handlerWaits",
    "Verif.Props.C149_listeners",
    "Verif.Props.C149_nested",
    "Verif.Props.C149_create",
    "Verif.Props.C149_leftTaken",
    "Verif.Props.C149_statement_false",
    "Verif.Props.C149_released"
   ],
   "note": "Exclusion for every schedule of programs whose handlers are given by their own thread and that use neither wait_listeners nor create handlers; false otherwise."
  },
  {
   "property": "C150",
   "status": "partial",
   "theorems": [
    "Verif.Props.C150_kept_partial",
    "Verif.Props.C150_calm_partial",
    "Verif.Props.C150_removed",
    "Verif.Props.C150_freed",
    "Verif.Props.C150_mixed",
    "Verif.Props.C150_statement_false"
   ],
   "note": "Every schedule for programs that keep what they register and always give a handler; exact delivery if nothing is registered during deliveries; false otherwise."
  },
  {
   "property": "C151",
   "status": "partial",
   "theorems": [
    "Verif.Props.C151_calm_partial",
    "Verif.Props.C151_once_partial",
    "Verif.Props.C151_values_partial",
    "Verif.Props.C151_never_older",
    "Verif.Props.C151_authed_partial",
    "Verif.Props.C151_needs",
    "Verif.Props.C151_freed",
    "Verif.Props.C151_mixed",
    "Verif.Props.C151_lost",
    "Verif.Props.C151_lost_told",
    "Verif.Props.C151_token",
    "Verif.Props.C151_erased",
    "Verif.Props.C151_statement_false",
    "Verif.Props.C151_sessionless"
   ],
   "note": "Memory and sessions for schedules without overlap; values and authentication until a failure or a token; one outcome and no older secrets in every schedule; false in full."
  },
  {
   "property": "C152",
   "status": "partial",
   "theorems": [
    "Verif.Props.C152_proper_partial",
    "Verif.Props.C152_null",
    "Verif.Props.C152_twice",
    "Verif.Props.C152_statement_false"
   ],
   "note": "Memory safety and exact release for every proper sequence of calls; the variable is set to NULL only with the last reference, so false in full."
  },
  {
   "property": "C153",
   "status": "proved",
   "theorems": [
    "Verif.Props.C153_masks",
    "Verif.Props.C153_distinct",
    "Verif.Props.C153_progress",
    "Verif.Props.C153_ends"
   ],
   "note": "Every schedule of installations and checks."
  },
  {
   "property": "C154",
   "status": "partial",
   "theorems": [
    "Verif.Props.C154_own_partial",
    "Verif.Props.C154_good_partial",
    "Verif.Props.C154_listener",
    "Verif.Props.C154_stolen",
    "Verif.Props.C154_leak",
    "Verif.Props.C154_low",
    "Verif.Props.C154_waits",
    "Verif.Props.C154_statement_false",
    "Verif.Props.C154_late"
   ],
   "note": "Ends connected with each other if nobody connects first; documented result if, besides, connecting and accepting work; the listener is always closed; false in full."
  },
  {
   "property": "C155",
   "status": "partial",
   "theorems": [
    "Verif.Props.C155_read_partial",
    "Verif.Props.C155_only",
    "Verif.Props.C155_changed",
    "Verif.Props.C155_spoiled",
    "Verif.Props.C155_sign",
    "Verif.Props.C155_statement_false"
   ],
   "note": "Every number with digits before the separator is read, and nothing else is; the text of the caller is changed, so false in full."
  },
  {
   "property": "C156",
   "status": "partial",
   "theorems": [
    "Verif.Props.C156_tried_partial",
    "Verif.Props.C156_all_partial",
    "Verif.Props.C156_nothing_partial",
    "Verif.Props.C156_refused_partial",
    "Verif.Props.C156_invalid",
    "Verif.Props.C156_deaf",
    "Verif.Props.C156_statement_false"
   ],
   "note": "Every listener of a valid file is tried once in order, other files start nothing; but the answer is yes also for invalid files and when no listener starts, so false in full."
  },
  {
   "property": "C157",
   "status": "partial",
   "theorems": [
    "Verif.Props.C157_tests_partial",
    "Verif.Props.C157_null",
    "Verif.Props.C157_links",
    "Verif.Props.C157_name",
    "Verif.Props.C157_names_differ",
    "Verif.Props.C157_statement_false"
   ],
   "note": "All combinations without the test for links are exact; with it the answer is always false, so false in full. Names built from tokens are proved."
  },
  {
   "property": "C158",
   "status": "partial",
   "theorems": [
    "Verif.Props.C158_quiet",
    "Verif.Props.C158_set",
    "Verif.Props.C158_works",
    "Verif.Props.C158_number_partial",
    "Verif.Props.C158_int_partial",
    "Verif.Props.C158_zero_partial",
    "Verif.Props.C158_null",
    "Verif.Props.C158_wraps",
    "Verif.Props.C158_stays",
    "Verif.Props.C158_kept",
    "Verif.Props.C158_statement_false",
    "Verif.Props.C158_missing"
   ],
   "note": "Setting and reading, also of numbers of type int, is exact; unset variables keep a value, so false in full."
  },
  {
   "property": "C159",
   "status": "partial",
   "theorems": [
    "Verif.Props.C159_none",
    "Verif.Props.C159_found",
    "Verif.Props.C159_handler_partial",
    "Verif.Props.C159_printed_partial",
    "Verif.Props.C159_logged_partial",
    "Verif.Props.C159_before",
    "Verif.Props.C159_directive",
    "Verif.Props.C159_lost",
    "Verif.Props.C159_statement_false"
   ],
   "note": "Answer and shutdown are exact, the texts are complete if Python can format the exception; otherwise memory is touched or the exception lost, so false in full."
  },
  {
   "property": "C160",
   "status": "partial",
   "theorems": [
    "Verif.Props.C160_full",
    "Verif.Props.C160_named",
    "Verif.Props.C160_unknown",
    "Verif.Props.C160_never",
    "Verif.Props.C160_statement_false"
   ],
   "note": "Full profiles and names are exact; unknown names are not refused but stand for KERBEROS_V4, so false in full."
  },
  {
   "property": "C161",
   "status": "partial",
   "theorems": [
    "Verif.Props.C161_careful_partial",
    "Verif.Props.C161_handlers_partial",
    "Verif.Props.C161_twice",
    "Verif.Props.C161_refused",
    "Verif.Props.C161_statement_false"
   ],
   "note": "Holds for programs that always set a handler, and for calls without handler that get as far as a new connection; otherwise the connection is lost, so false in full."
  }
 ]
}