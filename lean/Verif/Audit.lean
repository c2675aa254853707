import Verif.Props.Accept
import Verif.Props.Alive
import Verif.Props.AliveMem
import Verif.Props.C135
import Verif.Props.C136
import Verif.Props.C137
import Verif.Props.C138
import Verif.Props.C139
import Verif.Props.C140
import Verif.Props.C141
import Verif.Props.C142
import Verif.Props.C143
import Verif.Props.C144
import Verif.Props.C145
import Verif.Props.C146
import Verif.Props.C147
import Verif.Props.C148
import Verif.Props.C149
import Verif.Props.C150
import Verif.Props.C151
import Verif.Props.C152
import Verif.Props.C153
import Verif.Props.C154
import Verif.Props.C155
import Verif.Props.C156
import Verif.Props.C157
import Verif.Props.C158
import Verif.Props.C159
import Verif.Props.C160
import Verif.Props.C161
import Verif.Props.Chan0
import Verif.Props.ChanCreate
import Verif.Props.ChanNotify
import Verif.Props.ChannelNumbers
import Verif.Props.ChannelPool
import Verif.Props.ChannelSearch
import Verif.Props.CloseAgain
import Verif.Props.Conf
import Verif.Props.ConnActions
import Verif.Props.ConnClose
import Verif.Props.ConnNew
import Verif.Props.Connect
import Verif.Props.Containers
import Verif.Props.CtxExit
import Verif.Props.CtxStart
import Verif.Props.DeliverRefs
import Verif.Props.Digest
import Verif.Props.External
import Verif.Props.FaultText
import Verif.Props.Feeder
import Verif.Props.FeederRefs
import Verif.Props.Frame
import Verif.Props.FrameOps
import Verif.Props.GetReply
import Verif.Props.GreetCache
import Verif.Props.GreetExchange
import Verif.Props.Greetings
import Verif.Props.Handshake
import Verif.Props.HashWait
import Verif.Props.Idle
import Verif.Props.IoSet
import Verif.Props.Itoa
import Verif.Props.Link
import Verif.Props.LinkMany
import Verif.Props.ListenNew
import Verif.Props.ListenShut
import Verif.Props.ListenWait
import Verif.Props.Log
import Verif.Props.MgmtText
import Verif.Props.Mime
import Verif.Props.OnClose
import Verif.Props.ParseSafe
import Verif.Props.Peers
import Verif.Props.PoolEvents
import Verif.Props.PoolExit
import Verif.Props.PoolRefs
import Verif.Props.PoolTasks
import Verif.Props.PortShare
import Verif.Props.Profiles
import Verif.Props.Proxy
import Verif.Props.Pull
import Verif.Props.PullAnswer
import Verif.Props.PullRefs
import Verif.Props.Queue
import Verif.Props.Reader
import Verif.Props.Reconnect
import Verif.Props.Records
import Verif.Props.Recv
import Verif.Props.RefCount
import Verif.Props.Replies
import Verif.Props.RepliesSent
import Verif.Props.Sasl
import Verif.Props.SaslChoose
import Verif.Props.SaslSync
import Verif.Props.SearchPath
import Verif.Props.Send
import Verif.Props.SendClose
import Verif.Props.SendRaw
import Verif.Props.SendStop
import Verif.Props.Sequencer
import Verif.Props.Serialize
import Verif.Props.ServerName
import Verif.Props.SockLimit
import Verif.Props.Start
import Verif.Props.ThreadPool
import Verif.Props.Time
import Verif.Props.Timeouts
import Verif.Props.Tls
import Verif.Props.TlsObj
import Verif.Props.TunnelRoute
import Verif.Props.UserData
import Verif.Props.VerifyCert
import Verif.Props.WaitAgain
import Verif.Props.WaitMem
import Verif.Props.WaitReply
import Verif.Props.WaitSent
import Verif.Props.Watch
import Verif.Props.WebSocketListen
import Verif.Props.WebSocketNew
import Verif.Props.XmlRpc
import Verif.Props.XmlRpcBoot
import Verif.Props.XmlRpcInvoke
import Verif.Props.XmlRpcOwn
import Verif.Props.XmlRpcPool
import Verif.Props.XmlRpcReply
import Verif.Props.XmlRpcService
import Verif.Props.XmlRpcSlots
import Verif.Props.XmlRpcStruct
/-! Axioms of every property theorem (generated by tools/sync.py). -/
#print axioms Verif.Props.C01_itoa
#print axioms Verif.Props.C01_numeral_unique
#print axioms Verif.Props.C02_header_accepted
#print axioms Verif.Props.C02_header_round_trip
#print axioms Verif.Props.C02_header_text
#print axioms Verif.Props.C03_seq_round_trip_fails
#print axioms Verif.Props.C03_seq_round_trip_partial
#print axioms Verif.Props.C03_seq_text
#print axioms Verif.Props.C03_statement_false
#print axioms Verif.Props.C04_drip_feed_closes
#print axioms Verif.Props.C04_prefix
#print axioms Verif.Props.C04_segmentation_partial
#print axioms Verif.Props.C04_spurious_wakeup_closes
#print axioms Verif.Props.C05_caller_buffer_overrun
#print axioms Verif.Props.C05_header_refused
#print axioms Verif.Props.C05_send_buffer
#print axioms Verif.Props.C05_seq_buffer
#print axioms Verif.Props.C06_parser_inside_partial
#print axioms Verif.Props.C06_short_line_escapes
#print axioms Verif.Props.C06_statement_false
#print axioms Verif.Props.C07_sender_within_window
#print axioms Verif.Props.C07_sequence_numbers
#print axioms Verif.Props.C08_empty_message_closes
#print axioms Verif.Props.C08_segmentation
#print axioms Verif.Props.C09_accepts_only_within_window_partial
#print axioms Verif.Props.C09_header_check_wraps
#print axioms Verif.Props.C09_negative_size_overflow
#print axioms Verif.Props.C09_reads_within_allocation_partial
#print axioms Verif.Props.C100_crossing_race
#print axioms Verif.Props.C100_frames
#print axioms Verif.Props.C100_kept
#print axioms Verif.Props.C100_late_handler
#print axioms Verif.Props.C100_leak
#print axioms Verif.Props.C100_object
#print axioms Verif.Props.C100_object_partial
#print axioms Verif.Props.C100_partial
#print axioms Verif.Props.C100_queue
#print axioms Verif.Props.C100_send_failed
#print axioms Verif.Props.C100_statement_false
#print axioms Verif.Props.C101_bounded
#print axioms Verif.Props.C101_bypassed
#print axioms Verif.Props.C101_connected_partial
#print axioms Verif.Props.C101_consent
#print axioms Verif.Props.C101_documented_partial
#print axioms Verif.Props.C101_endpoint_taken
#print axioms Verif.Props.C101_handler
#print axioms Verif.Props.C101_hop
#print axioms Verif.Props.C101_no_content
#print axioms Verif.Props.C101_not_implemented
#print axioms Verif.Props.C101_ok
#print axioms Verif.Props.C101_replies
#print axioms Verif.Props.C101_route_partial
#print axioms Verif.Props.C101_statement_false
#print axioms Verif.Props.C101_undocumented
#print axioms Verif.Props.C102_delivered_partial
#print axioms Verif.Props.C102_frame_per_record_partial
#print axioms Verif.Props.C102_left_behind
#print axioms Verif.Props.C102_no_stall
#print axioms Verif.Props.C102_piece_closes
#print axioms Verif.Props.C102_prefix
#print axioms Verif.Props.C102_ssl
#print axioms Verif.Props.C102_statement_false
#print axioms Verif.Props.C103_acquire_ignored
#print axioms Verif.Props.C103_agree_partial
#print axioms Verif.Props.C103_deferred
#print axioms Verif.Props.C103_disagree
#print axioms Verif.Props.C103_feature_ignored
#print axioms Verif.Props.C103_kept_partial
#print axioms Verif.Props.C103_overwritten
#print axioms Verif.Props.C103_port
#print axioms Verif.Props.C103_requested_partial
#print axioms Verif.Props.C103_statement_false
#print axioms Verif.Props.C104_accepted_partial
#print axioms Verif.Props.C104_backlog
#print axioms Verif.Props.C104_default
#print axioms Verif.Props.C104_enforce
#print axioms Verif.Props.C104_for_good
#print axioms Verif.Props.C104_hard
#print axioms Verif.Props.C104_hard_lower
#print axioms Verif.Props.C104_mime_partial
#print axioms Verif.Props.C104_off
#print axioms Verif.Props.C104_others
#print axioms Verif.Props.C104_read_partial
#print axioms Verif.Props.C104_refused
#print axioms Verif.Props.C104_stale
#print axioms Verif.Props.C104_statement_false
#print axioms Verif.Props.C104_unknown
#print axioms Verif.Props.C105_accepted_overlap
#print axioms Verif.Props.C105_closed_partial
#print axioms Verif.Props.C105_created
#print axioms Verif.Props.C105_exclusive_partial
#print axioms Verif.Props.C105_foreign_closed
#print axioms Verif.Props.C105_memory_partial
#print axioms Verif.Props.C105_never_reported
#print axioms Verif.Props.C105_own_reference
#print axioms Verif.Props.C105_released_partial
#print axioms Verif.Props.C105_shared_setup
#print axioms Verif.Props.C105_shutdown_partial
#print axioms Verif.Props.C105_statement_false
#print axioms Verif.Props.C105_stuck
#print axioms Verif.Props.C105_switched_overlap
#print axioms Verif.Props.C105_waits
#print axioms Verif.Props.C105_waits_for_itself
#print axioms Verif.Props.C106_blocks
#print axioms Verif.Props.C106_blocks_documented
#print axioms Verif.Props.C106_given_up
#print axioms Verif.Props.C106_memory
#print axioms Verif.Props.C106_own_reply_partial
#print axioms Verif.Props.C106_reply_partial
#print axioms Verif.Props.C106_statement_false
#print axioms Verif.Props.C106_wrong_reply
#print axioms Verif.Props.C107_close_answer
#print axioms Verif.Props.C107_close_partial
#print axioms Verif.Props.C107_error_partial
#print axioms Verif.Props.C107_error_text
#print axioms Verif.Props.C107_ok
#print axioms Verif.Props.C107_reply_partial
#print axioms Verif.Props.C107_section
#print axioms Verif.Props.C107_server_name
#print axioms Verif.Props.C107_start_partial
#print axioms Verif.Props.C107_statement_false
#print axioms Verif.Props.C107_uri
#print axioms Verif.Props.C107_zero
#print axioms Verif.Props.C108_data_partial
#print axioms Verif.Props.C108_double
#print axioms Verif.Props.C108_memory_partial
#print axioms Verif.Props.C108_overwrites
#print axioms Verif.Props.C108_statement_false
#print axioms Verif.Props.C108_twice
#print axioms Verif.Props.C109_alive_partial
#print axioms Verif.Props.C109_full_leak
#print axioms Verif.Props.C109_member_null
#print axioms Verif.Props.C109_memory_partial
#print axioms Verif.Props.C109_no_leak_partial
#print axioms Verif.Props.C109_statement_false
#print axioms Verif.Props.C109_string_leak
#print axioms Verif.Props.C109_struct_released
#print axioms Verif.Props.C10_limit_before_wrap_partial
#print axioms Verif.Props.C10_limit_grows_partial
#print axioms Verif.Props.C10_statement_false
#print axioms Verif.Props.C110_answered_partial
#print axioms Verif.Props.C110_lost
#print axioms Verif.Props.C110_refused
#print axioms Verif.Props.C110_released
#print axioms Verif.Props.C110_statement_false
#print axioms Verif.Props.C110_stuck
#print axioms Verif.Props.C110_waiting
#print axioms Verif.Props.C111_close_working
#print axioms Verif.Props.C111_closed_twice
#print axioms Verif.Props.C111_descriptors_partial
#print axioms Verif.Props.C111_left_open
#print axioms Verif.Props.C111_memory_partial
#print axioms Verif.Props.C111_other_port
#print axioms Verif.Props.C111_port_partial
#print axioms Verif.Props.C111_refused_told
#print axioms Verif.Props.C111_released_twice
#print axioms Verif.Props.C111_shut_by_handler
#print axioms Verif.Props.C111_silent
#print axioms Verif.Props.C111_statement_false
#print axioms Verif.Props.C111_told_partial
#print axioms Verif.Props.C111_value
#print axioms Verif.Props.C111_wrong_address
#print axioms Verif.Props.C112_all_destroyed_partial
#print axioms Verif.Props.C112_at_most
#print axioms Verif.Props.C112_ends_partial
#print axioms Verif.Props.C112_get
#print axioms Verif.Props.C112_key_leak
#print axioms Verif.Props.C112_no_waiting_partial
#print axioms Verif.Props.C112_release_ends_partial
#print axioms Verif.Props.C112_release_stuck
#print axioms Verif.Props.C112_release_stuck_example
#print axioms Verif.Props.C112_statement_false
#print axioms Verif.Props.C112_stored_again
#print axioms Verif.Props.C113_file
#print axioms Verif.Props.C113_match
#print axioms Verif.Props.C113_negative_size
#print axioms Verif.Props.C113_no_method
#print axioms Verif.Props.C113_null_crash
#print axioms Verif.Props.C113_peer_leak
#print axioms Verif.Props.C113_peer_partial
#print axioms Verif.Props.C113_sized_partial
#print axioms Verif.Props.C113_statement_false
#print axioms Verif.Props.C113_string_partial
#print axioms Verif.Props.C113_text_injective
#print axioms Verif.Props.C114_answered_partial
#print axioms Verif.Props.C114_crossed
#print axioms Verif.Props.C114_early
#print axioms Verif.Props.C114_failed_other
#print axioms Verif.Props.C114_message_crash
#print axioms Verif.Props.C114_message_taken
#print axioms Verif.Props.C114_once_partial
#print axioms Verif.Props.C114_refused_leak
#print axioms Verif.Props.C114_returns_false
#print axioms Verif.Props.C114_statement_false
#print axioms Verif.Props.C114_told_partial
#print axioms Verif.Props.C115_deferred_twice
#print axioms Verif.Props.C115_no_content
#print axioms Verif.Props.C115_no_reply
#print axioms Verif.Props.C115_refused_served
#print axioms Verif.Props.C115_reply_once
#print axioms Verif.Props.C115_reply_partial
#print axioms Verif.Props.C115_service_partial
#print axioms Verif.Props.C115_started
#print axioms Verif.Props.C115_statement_false
#print axioms Verif.Props.C116_accepted_partial
#print axioms Verif.Props.C116_closed_channel
#print axioms Verif.Props.C116_err_accepted
#print axioms Verif.Props.C116_error_text
#print axioms Verif.Props.C116_failure_partial
#print axioms Verif.Props.C116_gave_up
#print axioms Verif.Props.C116_left_open
#print axioms Verif.Props.C116_name_lost
#print axioms Verif.Props.C116_name_partial
#print axioms Verif.Props.C116_once
#print axioms Verif.Props.C116_queue_partial
#print axioms Verif.Props.C116_second_text
#print axioms Verif.Props.C116_statement_false
#print axioms Verif.Props.C116_success_partial
#print axioms Verif.Props.C116_sync_none
#print axioms Verif.Props.C116_text_partial
#print axioms Verif.Props.C116_unset
#print axioms Verif.Props.C117_ends_partial
#print axioms Verif.Props.C117_kept
#print axioms Verif.Props.C117_no_name
#print axioms Verif.Props.C117_no_name_crash
#print axioms Verif.Props.C117_nul
#print axioms Verif.Props.C117_statement_false
#print axioms Verif.Props.C117_truncated
#print axioms Verif.Props.C117_trusted_partial
#print axioms Verif.Props.C117_verify_partial
#print axioms Verif.Props.C118_default
#print axioms Verif.Props.C118_ids_partial
#print axioms Verif.Props.C118_one_handler_partial
#print axioms Verif.Props.C118_same_id
#print axioms Verif.Props.C118_second_handler
#print axioms Verif.Props.C118_second_handler_later
#print axioms Verif.Props.C118_statement_false
#print axioms Verif.Props.C118_sync_partial
#print axioms Verif.Props.C119_added
#print axioms Verif.Props.C119_at_partial
#print axioms Verif.Props.C119_by_name
#print axioms Verif.Props.C119_int_of_pointer
#print axioms Verif.Props.C119_int_partial
#print axioms Verif.Props.C119_is
#print axioms Verif.Props.C119_names_partial
#print axioms Verif.Props.C119_not_full
#print axioms Verif.Props.C119_statement_false
#print axioms Verif.Props.C119_types_partial
#print axioms Verif.Props.C119_unknown_type
#print axioms Verif.Props.C11_equal_limit_closes
#print axioms Verif.Props.C11_no_deadlock_partial
#print axioms Verif.Props.C11_statement_false
#print axioms Verif.Props.C11_unlucky_ackno_closes
#print axioms Verif.Props.C120_channel_of_released_connection
#print axioms Verif.Props.C120_events_partial
#print axioms Verif.Props.C120_names_partial
#print axioms Verif.Props.C120_no_connection
#print axioms Verif.Props.C120_released_partial
#print axioms Verif.Props.C120_safe_partial
#print axioms Verif.Props.C120_statement_false
#print axioms Verif.Props.C121_event_left
#print axioms Verif.Props.C121_handler_null
#print axioms Verif.Props.C121_handler_partial
#print axioms Verif.Props.C121_kept_partial
#print axioms Verif.Props.C121_once
#print axioms Verif.Props.C121_statement_false
#print axioms Verif.Props.C121_stops_partial
#print axioms Verif.Props.C121_tick_of_released
#print axioms Verif.Props.C121_told
#print axioms Verif.Props.C122_connection
#print axioms Verif.Props.C122_detect
#print axioms Verif.Props.C122_lost
#print axioms Verif.Props.C122_not_verified
#print axioms Verif.Props.C122_origin_lost
#print axioms Verif.Props.C122_request
#print axioms Verif.Props.C122_setup
#print axioms Verif.Props.C122_short_timeout
#print axioms Verif.Props.C122_statement_false
#print axioms Verif.Props.C122_tls_not_found
#print axioms Verif.Props.C122_verify_partial
#print axioms Verif.Props.C122_wait_partial
#print axioms Verif.Props.C123_call_partial
#print axioms Verif.Props.C123_late_success
#print axioms Verif.Props.C123_malformed
#print axioms Verif.Props.C123_no_places
#print axioms Verif.Props.C123_statement_false
#print axioms Verif.Props.C123_timeout_release
#print axioms Verif.Props.C124_closed_leak
#print axioms Verif.Props.C124_closed_race
#print axioms Verif.Props.C124_held_partial
#print axioms Verif.Props.C124_messages_partial
#print axioms Verif.Props.C124_race
#print axioms Verif.Props.C124_released_partial
#print axioms Verif.Props.C124_safe_partial
#print axioms Verif.Props.C124_statement_false
#print axioms Verif.Props.C124_working_partial
#print axioms Verif.Props.C125_all_partial
#print axioms Verif.Props.C125_closed_given
#print axioms Verif.Props.C125_closed_partial
#print axioms Verif.Props.C125_conn_partial
#print axioms Verif.Props.C125_null
#print axioms Verif.Props.C125_order_partial
#print axioms Verif.Props.C125_statement_false
#print axioms Verif.Props.C125_stop_partial
#print axioms Verif.Props.C125_twice
#print axioms Verif.Props.C126_both_refused
#print axioms Verif.Props.C126_kept_partial
#print axioms Verif.Props.C126_last_partial
#print axioms Verif.Props.C126_refused_partial
#print axioms Verif.Props.C126_room_partial
#print axioms Verif.Props.C126_single_partial
#print axioms Verif.Props.C126_spin
#print axioms Verif.Props.C126_statement_false
#print axioms Verif.Props.C127_arguments
#print axioms Verif.Props.C127_color_kept
#print axioms Verif.Props.C127_destroyed
#print axioms Verif.Props.C127_filter_kept
#print axioms Verif.Props.C127_hidden_partial
#print axioms Verif.Props.C127_mutex_on
#print axioms Verif.Props.C127_separate_partial
#print axioms Verif.Props.C127_settings_partial
#print axioms Verif.Props.C127_statement_false
#print axioms Verif.Props.C128_lost
#print axioms Verif.Props.C128_name_partial
#print axioms Verif.Props.C128_once_partial
#print axioms Verif.Props.C128_ready_partial
#print axioms Verif.Props.C128_silent
#print axioms Verif.Props.C128_statement_false
#print axioms Verif.Props.C128_twice
#print axioms Verif.Props.C129_blocked
#print axioms Verif.Props.C129_count_partial
#print axioms Verif.Props.C129_func_partial
#print axioms Verif.Props.C129_gone
#print axioms Verif.Props.C129_held_partial
#print axioms Verif.Props.C129_statement_false
#print axioms Verif.Props.C129_table_partial
#print axioms Verif.Props.C129_uri_partial
#print axioms Verif.Props.C12_all_sent_partial
#print axioms Verif.Props.C12_call_accepted
#print axioms Verif.Props.C12_order_partial
#print axioms Verif.Props.C12_part_lost
#print axioms Verif.Props.C12_statement_false
#print axioms Verif.Props.C130_ends_partial
#print axioms Verif.Props.C130_lost
#print axioms Verif.Props.C130_null
#print axioms Verif.Props.C130_order_partial
#print axioms Verif.Props.C130_quiet_partial
#print axioms Verif.Props.C130_refused_partial
#print axioms Verif.Props.C130_statement_false
#print axioms Verif.Props.C131_channel_partial
#print axioms Verif.Props.C131_early
#print axioms Verif.Props.C131_leak
#print axioms Verif.Props.C131_memory_partial
#print axioms Verif.Props.C131_owner
#print axioms Verif.Props.C131_paused
#print axioms Verif.Props.C131_statement_false
#print axioms Verif.Props.C131_stopped
#print axioms Verif.Props.C131_told_partial
#print axioms Verif.Props.C131_twice
#print axioms Verif.Props.C131_with_partial
#print axioms Verif.Props.C132_again
#print axioms Verif.Props.C132_child
#print axioms Verif.Props.C132_left
#print axioms Verif.Props.C132_modules
#print axioms Verif.Props.C132_pool
#print axioms Verif.Props.C132_released_partial
#print axioms Verif.Props.C132_retry
#print axioms Verif.Props.C132_safe_partial
#print axioms Verif.Props.C132_started_partial
#print axioms Verif.Props.C132_statement_false
#print axioms Verif.Props.C133_common_partial
#print axioms Verif.Props.C133_either
#print axioms Verif.Props.C133_first
#print axioms Verif.Props.C133_full_partial
#print axioms Verif.Props.C133_null
#print axioms Verif.Props.C133_simple_partial
#print axioms Verif.Props.C133_sound_partial
#print axioms Verif.Props.C133_stale
#print axioms Verif.Props.C133_statement_false
#print axioms Verif.Props.C133_stays
#print axioms Verif.Props.C134_asked_partial
#print axioms Verif.Props.C134_certificateLost
#print axioms Verif.Props.C134_contextLost
#print axioms Verif.Props.C134_contextLostInitiator
#print axioms Verif.Props.C134_descriptorClosed
#print axioms Verif.Props.C134_descriptorLost
#print axioms Verif.Props.C134_peerGone
#print axioms Verif.Props.C134_released_partial
#print axioms Verif.Props.C134_reports_partial
#print axioms Verif.Props.C134_socket_partial
#print axioms Verif.Props.C134_sound_partial
#print axioms Verif.Props.C134_source_partial
#print axioms Verif.Props.C134_statement_false
#print axioms Verif.Props.C134_unreported
#print axioms Verif.Props.C134_unreportedInitiator
#print axioms Verif.Props.C135_braceInString
#print axioms Verif.Props.C135_code_partial
#print axioms Verif.Props.C135_default_partial
#print axioms Verif.Props.C135_directory
#print axioms Verif.Props.C135_exact_partial
#print axioms Verif.Props.C135_file_partial
#print axioms Verif.Props.C135_headerLost
#print axioms Verif.Props.C135_includeDoubled
#print axioms Verif.Props.C135_inline_partial
#print axioms Verif.Props.C135_nothingReturned
#print axioms Verif.Props.C135_room_partial
#print axioms Verif.Props.C135_semicolonLost
#print axioms Verif.Props.C135_statement_false
#print axioms Verif.Props.C135_unclosed
#print axioms Verif.Props.C135_when_partial
#print axioms Verif.Props.C135_xmlFormat
#print axioms Verif.Props.C135_xmlHalved
#print axioms Verif.Props.C135_xml_partial
#print axioms Verif.Props.C136_asksAboutItself
#print axioms Verif.Props.C136_asksForever
#print axioms Verif.Props.C136_compiled_partial
#print axioms Verif.Props.C136_differs_partial
#print axioms Verif.Props.C136_draftLeft
#print axioms Verif.Props.C136_first_partial
#print axioms Verif.Props.C136_kept_partial
#print axioms Verif.Props.C136_longLine
#print axioms Verif.Props.C136_new_partial
#print axioms Verif.Props.C136_others_partial
#print axioms Verif.Props.C136_same_partial
#print axioms Verif.Props.C136_statement_false
#print axioms Verif.Props.C136_status
#print axioms Verif.Props.C137_asked_partial
#print axioms Verif.Props.C137_base64
#print axioms Verif.Props.C137_client_partial
#print axioms Verif.Props.C137_files_partial
#print axioms Verif.Props.C137_order_partial
#print axioms Verif.Props.C137_overload_partial
#print axioms Verif.Props.C137_reaches_partial
#print axioms Verif.Props.C137_refused_partial
#print axioms Verif.Props.C137_sameFile
#print axioms Verif.Props.C137_statement_false
#print axioms Verif.Props.C137_twoStructs
#print axioms Verif.Props.C137_undeclared
#print axioms Verif.Props.C137_unknownType
#print axioms Verif.Props.C137_unreachable
#print axioms Verif.Props.C138_accepted
#print axioms Verif.Props.C138_arrives_partial
#print axioms Verif.Props.C138_base64
#print axioms Verif.Props.C138_doubles
#print axioms Verif.Props.C138_length_partial
#print axioms Verif.Props.C138_released_partial
#print axioms Verif.Props.C138_statement_false
#print axioms Verif.Props.C138_strings
#print axioms Verif.Props.C138_struct_partial
#print axioms Verif.Props.C139_async_partial
#print axioms Verif.Props.C139_base64
#print axioms Verif.Props.C139_bool
#print axioms Verif.Props.C139_fault_partial
#print axioms Verif.Props.C139_marshalling_partial
#print axioms Verif.Props.C139_nullArgument
#print axioms Verif.Props.C139_null_partial
#print axioms Verif.Props.C139_silent
#print axioms Verif.Props.C139_statement_false
#print axioms Verif.Props.C139_value_partial
#print axioms Verif.Props.C13_answers
#print axioms Verif.Props.C13_not_broken
#print axioms Verif.Props.C140_answers_partial
#print axioms Verif.Props.C140_calls_partial
#print axioms Verif.Props.C140_handlers_partial
#print axioms Verif.Props.C140_late
#print axioms Verif.Props.C140_order_partial
#print axioms Verif.Props.C140_otherConnection
#print axioms Verif.Props.C140_removeCalled
#print axioms Verif.Props.C140_statement_false
#print axioms Verif.Props.C141_collect_partial
#print axioms Verif.Props.C141_exact_partial
#print axioms Verif.Props.C141_failedListener
#print axioms Verif.Props.C141_kept_partial
#print axioms Verif.Props.C141_listenerTwice
#print axioms Verif.Props.C141_neverFreed
#print axioms Verif.Props.C141_statement_false
#print axioms Verif.Props.C142_calls_partial
#print axioms Verif.Props.C142_crash
#print axioms Verif.Props.C142_once_partial
#print axioms Verif.Props.C142_refs_partial
#print axioms Verif.Props.C142_safe_partial
#print axioms Verif.Props.C142_statement_false
#print axioms Verif.Props.C143_called_partial
#print axioms Verif.Props.C143_freed
#print axioms Verif.Props.C143_kept_partial
#print axioms Verif.Props.C143_locked_partial
#print axioms Verif.Props.C143_only_partial
#print axioms Verif.Props.C143_released_partial
#print axioms Verif.Props.C143_safe_partial
#print axioms Verif.Props.C143_statement_false
#print axioms Verif.Props.C143_unlocked
#print axioms Verif.Props.C144_accepts_partial
#print axioms Verif.Props.C144_exact_partial
#print axioms Verif.Props.C144_forged
#print axioms Verif.Props.C144_lastUnchecked
#print axioms Verif.Props.C144_named_partial
#print axioms Verif.Props.C144_required_partial
#print axioms Verif.Props.C144_silent
#print axioms Verif.Props.C144_statement_false
#print axioms Verif.Props.C144_tooMany
#print axioms Verif.Props.C145_answers_partial
#print axioms Verif.Props.C145_booleanLost
#print axioms Verif.Props.C145_collected_partial
#print axioms Verif.Props.C145_fifo_partial
#print axioms Verif.Props.C145_kept_partial
#print axioms Verif.Props.C145_statement_false
#print axioms Verif.Props.C145_total
#print axioms Verif.Props.C146_answers_false
#print axioms Verif.Props.C146_dropped
#print axioms Verif.Props.C146_event_first
#print axioms Verif.Props.C146_event_partial
#print axioms Verif.Props.C146_finishing_partial
#print axioms Verif.Props.C146_fresh_partial
#print axioms Verif.Props.C146_left_partial
#print axioms Verif.Props.C146_messageAsFile
#print axioms Verif.Props.C146_raisedTrue
#print axioms Verif.Props.C146_sound_partial
#print axioms Verif.Props.C146_statement_false
#print axioms Verif.Props.C146_stuck
#print axioms Verif.Props.C146_tls_partial
#print axioms Verif.Props.C146_total
#print axioms Verif.Props.C147_answers_partial
#print axioms Verif.Props.C147_closeIgnored
#print axioms Verif.Props.C147_effects_partial
#print axioms Verif.Props.C147_freed
#print axioms Verif.Props.C147_freedOnly
#print axioms Verif.Props.C147_minusOne
#print axioms Verif.Props.C147_rest_false
#print axioms Verif.Props.C147_sound_partial
#print axioms Verif.Props.C147_statement_false
#print axioms Verif.Props.C147_text_partial
#print axioms Verif.Props.C148_afterExit
#print axioms Verif.Props.C148_answers_partial
#print axioms Verif.Props.C148_calls_partial
#print axioms Verif.Props.C148_exitKept
#print axioms Verif.Props.C148_kept_partial
#print axioms Verif.Props.C148_orphan_partial
#print axioms Verif.Props.C148_raisedKept
#print axioms Verif.Props.C148_removedKept
#print axioms Verif.Props.C148_safe_partial
#print axioms Verif.Props.C148_statement_false
#print axioms Verif.Props.C149_create
#print axioms Verif.Props.C149_handlerWaits
#print axioms Verif.Props.C149_leftTaken
#print axioms Verif.Props.C149_listeners
#print axioms Verif.Props.C149_nested
#print axioms Verif.Props.C149_one_partial
#print axioms Verif.Props.C149_progress_partial
#print axioms Verif.Props.C149_released
#print axioms Verif.Props.C149_statement_false
#print axioms Verif.Props.C14_outstanding
#print axioms Verif.Props.C150_calm_partial
#print axioms Verif.Props.C150_freed
#print axioms Verif.Props.C150_kept_partial
#print axioms Verif.Props.C150_mixed
#print axioms Verif.Props.C150_removed
#print axioms Verif.Props.C150_statement_false
#print axioms Verif.Props.C151_authed_partial
#print axioms Verif.Props.C151_calm_partial
#print axioms Verif.Props.C151_erased
#print axioms Verif.Props.C151_freed
#print axioms Verif.Props.C151_lost
#print axioms Verif.Props.C151_lost_told
#print axioms Verif.Props.C151_mixed
#print axioms Verif.Props.C151_needs
#print axioms Verif.Props.C151_never_older
#print axioms Verif.Props.C151_once_partial
#print axioms Verif.Props.C151_sessionless
#print axioms Verif.Props.C151_statement_false
#print axioms Verif.Props.C151_token
#print axioms Verif.Props.C151_values_partial
#print axioms Verif.Props.C152_null
#print axioms Verif.Props.C152_proper_partial
#print axioms Verif.Props.C152_statement_false
#print axioms Verif.Props.C152_twice
#print axioms Verif.Props.C153_distinct
#print axioms Verif.Props.C153_ends
#print axioms Verif.Props.C153_masks
#print axioms Verif.Props.C153_progress
#print axioms Verif.Props.C154_good_partial
#print axioms Verif.Props.C154_late
#print axioms Verif.Props.C154_leak
#print axioms Verif.Props.C154_listener
#print axioms Verif.Props.C154_low
#print axioms Verif.Props.C154_own_partial
#print axioms Verif.Props.C154_statement_false
#print axioms Verif.Props.C154_stolen
#print axioms Verif.Props.C154_waits
#print axioms Verif.Props.C155_changed
#print axioms Verif.Props.C155_only
#print axioms Verif.Props.C155_read_partial
#print axioms Verif.Props.C155_sign
#print axioms Verif.Props.C155_spoiled
#print axioms Verif.Props.C155_statement_false
#print axioms Verif.Props.C156_all_partial
#print axioms Verif.Props.C156_deaf
#print axioms Verif.Props.C156_invalid
#print axioms Verif.Props.C156_nothing_partial
#print axioms Verif.Props.C156_refused_partial
#print axioms Verif.Props.C156_statement_false
#print axioms Verif.Props.C156_tried_partial
#print axioms Verif.Props.C157_links
#print axioms Verif.Props.C157_name
#print axioms Verif.Props.C157_names_differ
#print axioms Verif.Props.C157_null
#print axioms Verif.Props.C157_statement_false
#print axioms Verif.Props.C157_tests_partial
#print axioms Verif.Props.C158_int_partial
#print axioms Verif.Props.C158_kept
#print axioms Verif.Props.C158_missing
#print axioms Verif.Props.C158_null
#print axioms Verif.Props.C158_number_partial
#print axioms Verif.Props.C158_quiet
#print axioms Verif.Props.C158_set
#print axioms Verif.Props.C158_statement_false
#print axioms Verif.Props.C158_stays
#print axioms Verif.Props.C158_works
#print axioms Verif.Props.C158_wraps
#print axioms Verif.Props.C158_zero_partial
#print axioms Verif.Props.C159_before
#print axioms Verif.Props.C159_directive
#print axioms Verif.Props.C159_found
#print axioms Verif.Props.C159_handler_partial
#print axioms Verif.Props.C159_logged_partial
#print axioms Verif.Props.C159_lost
#print axioms Verif.Props.C159_none
#print axioms Verif.Props.C159_printed_partial
#print axioms Verif.Props.C159_statement_false
#print axioms Verif.Props.C15_msgno
#print axioms Verif.Props.C160_full
#print axioms Verif.Props.C160_named
#print axioms Verif.Props.C160_never
#print axioms Verif.Props.C160_statement_false
#print axioms Verif.Props.C160_unknown
#print axioms Verif.Props.C161_careful_partial
#print axioms Verif.Props.C161_handlers_partial
#print axioms Verif.Props.C161_refused
#print axioms Verif.Props.C161_statement_false
#print axioms Verif.Props.C161_twice
#print axioms Verif.Props.C16_in_order
#print axioms Verif.Props.C16_oldest
#print axioms Verif.Props.C17_contiguous
#print axioms Verif.Props.C17_gap_closes
#print axioms Verif.Props.C18_fragments_partial
#print axioms Verif.Props.C18_limit_partial
#print axioms Verif.Props.C18_merges
#print axioms Verif.Props.C18_nul_empty
#print axioms Verif.Props.C18_nul_swallowed
#print axioms Verif.Props.C18_over_limit
#print axioms Verif.Props.C18_reassembly_partial
#print axioms Verif.Props.C18_statement_false
#print axioms Verif.Props.C19_after_wait_reply
#print axioms Verif.Props.C19_empty_frame
#print axioms Verif.Props.C19_frame_lost
#print axioms Verif.Props.C19_serialized_partial
#print axioms Verif.Props.C19_statement_false
#print axioms Verif.Props.C20_ans_blocks
#print axioms Verif.Props.C20_at_most_one
#print axioms Verif.Props.C20_installed_too_late
#print axioms Verif.Props.C20_own_reply
#print axioms Verif.Props.C20_returns_when_broken
#print axioms Verif.Props.C20_second_wait_ends
#print axioms Verif.Props.C20_statement_false
#print axioms Verif.Props.C20_to_its_waiter_partial
#print axioms Verif.Props.C20_woken_when_broken
#print axioms Verif.Props.C21_content_partial
#print axioms Verif.Props.C21_receiver_sees_message
#print axioms Verif.Props.C21_reserved_size
#print axioms Verif.Props.C21_statement_false
#print axioms Verif.Props.C21_wrong_encoding
#print axioms Verif.Props.C22_inside_rebuilt_partial
#print axioms Verif.Props.C22_inside_received
#print axioms Verif.Props.C22_rebuilt_escapes
#print axioms Verif.Props.C22_round_trip
#print axioms Verif.Props.C22_split
#print axioms Verif.Props.C22_statement_false
#print axioms Verif.Props.C23_last_value
#print axioms Verif.Props.C23_remove_keeps
#print axioms Verif.Props.C23_repeated_header_lost
#print axioms Verif.Props.C23_size_wrong
#print axioms Verif.Props.C23_statement_false
#print axioms Verif.Props.C23_values_partial
#print axioms Verif.Props.C24_copy_not_equal
#print axioms Verif.Props.C24_copy_partial
#print axioms Verif.Props.C24_equal_iff
#print axioms Verif.Props.C24_equal_ignores_payload
#print axioms Verif.Props.C24_equal_payload_partial
#print axioms Verif.Props.C24_equivalence
#print axioms Verif.Props.C24_join
#print axioms Verif.Props.C24_statement_false
#print axioms Verif.Props.C25_attended_partial
#print axioms Verif.Props.C25_forgotten_stays
#print axioms Verif.Props.C25_lost_wakeup
#print axioms Verif.Props.C25_paused_forgets
#print axioms Verif.Props.C25_progress_partial
#print axioms Verif.Props.C25_statement_false
#print axioms Verif.Props.C26_order_partial
#print axioms Verif.Props.C26_paused_interleaves
#print axioms Verif.Props.C26_statement_false
#print axioms Verif.Props.C27_add_refused
#print axioms Verif.Props.C27_initiator
#print axioms Verif.Props.C27_initiator_found
#print axioms Verif.Props.C27_listener_overflow
#print axioms Verif.Props.C27_listener_partial
#print axioms Verif.Props.C27_statement_false
#print axioms Verif.Props.C28_application_decides_partial
#print axioms Verif.Props.C28_closed_before_open
#print axioms Verif.Props.C28_deferred_dropped
#print axioms Verif.Props.C28_one_answer_partial
#print axioms Verif.Props.C28_one_channel_per_number
#print axioms Verif.Props.C28_statement_false
#print axioms Verif.Props.C28_used_number_refused
#print axioms Verif.Props.C29_at_most_once
#print axioms Verif.Props.C29_new_socket_closed
#print axioms Verif.Props.C29_once_in_order_partial
#print axioms Verif.Props.C29_out_of_order
#print axioms Verif.Props.C29_shutdown_ends
#print axioms Verif.Props.C29_started_while_connected
#print axioms Verif.Props.C29_statement_false
#print axioms Verif.Props.C30_frame_never_released
#print axioms Verif.Props.C30_frame_partial
#print axioms Verif.Props.C30_frame_released_early
#print axioms Verif.Props.C30_frame_released_twice
#print axioms Verif.Props.C30_frame_statement_false
#print axioms Verif.Props.C30_lookup_then_ref
#print axioms Verif.Props.C30_released_exactly
#print axioms Verif.Props.C30_table
#print axioms Verif.Props.C31_after_failure
#print axioms Verif.Props.C31_empty
#print axioms Verif.Props.C31_lifo
#print axioms Verif.Props.C31_recorded
#print axioms Verif.Props.C32_queue
#print axioms Verif.Props.C33_batch_lost
#print axioms Verif.Props.C33_each_once
#print axioms Verif.Props.C33_no_lost_wakeup_partial
#print axioms Verif.Props.C33_order
#print axioms Verif.Props.C33_statement_false
#print axioms Verif.Props.C34_destroy_once
#print axioms Verif.Props.C34_last_reference
#print axioms Verif.Props.C34_lookup
#print axioms Verif.Props.C34_size
#print axioms Verif.Props.C35_automatic_partial
#print axioms Verif.Props.C35_keeps_one_partial
#print axioms Verif.Props.C35_limit_history_partial
#print axioms Verif.Props.C35_limit_partial
#print axioms Verif.Props.C35_limit_step_one
#print axioms Verif.Props.C35_no_threads
#print axioms Verif.Props.C35_over_limit
#print axioms Verif.Props.C35_statement_false
#print axioms Verif.Props.C36_catches_up
#print axioms Verif.Props.C36_clean_long
#print axioms Verif.Props.C36_event_early
#print axioms Verif.Props.C36_event_partial
#print axioms Verif.Props.C36_installed_once
#print axioms Verif.Props.C36_statement_false
#print axioms Verif.Props.C36_wait_gives_up
#print axioms Verif.Props.C36_wait_partial
#print axioms Verif.Props.C37_difference
#print axioms Verif.Props.C37_exact_always
#print axioms Verif.Props.C38_busy_for_ever
#print axioms Verif.Props.C38_closed_is_given
#print axioms Verif.Props.C38_exclusive_partial
#print axioms Verif.Props.C38_found_if_free
#print axioms Verif.Props.C38_given_twice
#print axioms Verif.Props.C38_held_not_dropped
#print axioms Verif.Props.C38_new_channel_given_twice
#print axioms Verif.Props.C38_not_closed_partial
#print axioms Verif.Props.C38_statement_false
#print axioms Verif.Props.C39_content
#print axioms Verif.Props.C39_large_file
#print axioms Verif.Props.C39_one_octet_window
#print axioms Verif.Props.C39_progress
#print axioms Verif.Props.C39_resumed_twice
#print axioms Verif.Props.C39_statement_false
#print axioms Verif.Props.C39_whole_file_partial
#print axioms Verif.Props.C39_within_window
#print axioms Verif.Props.C40_at_most_once
#print axioms Verif.Props.C40_closed_never_fails
#print axioms Verif.Props.C40_dead_peer_detected_partial
#print axioms Verif.Props.C40_detection_statement_false
#print axioms Verif.Props.C40_early_failure
#print axioms Verif.Props.C40_no_channel_detected_partial
#print axioms Verif.Props.C40_only_dead_peer
#print axioms Verif.Props.C40_refused_never_fails
#print axioms Verif.Props.C41_in_order
#print axioms Verif.Props.C41_masked_requests
#print axioms Verif.Props.C41_no_lost_wakeup
#print axioms Verif.Props.C41_pull_gives
#print axioms Verif.Props.C41_short_wait
#print axioms Verif.Props.C41_stolen_event
#print axioms Verif.Props.C41_wait_partial
#print axioms Verif.Props.C41_wait_statement_false
#print axioms Verif.Props.C42_call_returns
#print axioms Verif.Props.C42_each_call
#print axioms Verif.Props.C42_interleaved
#print axioms Verif.Props.C42_spins_when_closed
#print axioms Verif.Props.C42_statement_false
#print axioms Verif.Props.C42_truncated_then_data
#print axioms Verif.Props.C42_whole_frames_partial
#print axioms Verif.Props.C43_after_replies_partial
#print axioms Verif.Props.C43_agree_partial
#print axioms Verif.Props.C43_answer_comes_partial
#print axioms Verif.Props.C43_at_most_one_answer
#print axioms Verif.Props.C43_half_closed
#print axioms Verif.Props.C43_marked_for_ever
#print axioms Verif.Props.C43_message_to_closed_channel
#print axioms Verif.Props.C43_one_answer_partial
#print axioms Verif.Props.C43_refused_then_closed
#print axioms Verif.Props.C43_removed_once_partial
#print axioms Verif.Props.C43_removed_twice
#print axioms Verif.Props.C43_sent_after_close
#print axioms Verif.Props.C43_statement_false
#print axioms Verif.Props.C43_waits_for_ever
#print axioms Verif.Props.C44_masks_in_order
#print axioms Verif.Props.C44_offered
#print axioms Verif.Props.C45_channels_finite_partial
#print axioms Verif.Props.C45_channels_partial
#print axioms Verif.Props.C45_channels_reachable_partial
#print axioms Verif.Props.C45_delivery_partial
#print axioms Verif.Props.C45_finite_partial
#print axioms Verif.Props.C45_payload_partial
#print axioms Verif.Props.C45_rest_reachable_partial
#print axioms Verif.Props.C45_slow_header
#print axioms Verif.Props.C45_slow_header_others
#print axioms Verif.Props.C45_statement_false
#print axioms Verif.Props.C46_can_finish_partial
#print axioms Verif.Props.C46_limit_one
#print axioms Verif.Props.C46_statement_false
#print axioms Verif.Props.C47_broken_connection
#print axioms Verif.Props.C47_not_forgotten_partial
#print axioms Verif.Props.C47_statement_false
#print axioms Verif.Props.C48_busy_partial
#print axioms Verif.Props.C48_spins
#print axioms Verif.Props.C48_spins_forever
#print axioms Verif.Props.C48_statement_false
#print axioms Verif.Props.C49_apostrophe
#print axioms Verif.Props.C49_filtered_overrun
#print axioms Verif.Props.C49_inside_partial
#print axioms Verif.Props.C49_no_profile_overrun
#print axioms Verif.Props.C49_refused_only_if_large
#print axioms Verif.Props.C49_statement_false
#print axioms Verif.Props.C49_text
#print axioms Verif.Props.C49_unambiguous_partial
#print axioms Verif.Props.C50_accepted
#print axioms Verif.Props.C50_broken_greeting_forgotten
#print axioms Verif.Props.C50_exchange_partial
#print axioms Verif.Props.C50_initiator
#print axioms Verif.Props.C50_listener_partial
#print axioms Verif.Props.C50_long_greeting_stalls
#print axioms Verif.Props.C50_statement_false
#print axioms Verif.Props.C51_base64_lost
#print axioms Verif.Props.C51_call_partial
#print axioms Verif.Props.C51_empty_struct_lost
#print axioms Verif.Props.C51_incomplete
#print axioms Verif.Props.C51_member_lost
#print axioms Verif.Props.C51_no_excess
#print axioms Verif.Props.C51_statement_false
#print axioms Verif.Props.C51_string_adds_parameter
#print axioms Verif.Props.C52_fault_changed
#print axioms Verif.Props.C52_fault_partial
#print axioms Verif.Props.C52_none_not_answered
#print axioms Verif.Props.C52_statement_false
#print axioms Verif.Props.C52_value_partial
#print axioms Verif.Props.C53_all_accept_partial
#print axioms Verif.Props.C53_boot
#print axioms Verif.Props.C53_first_partial
#print axioms Verif.Props.C53_handed_twice
#print axioms Verif.Props.C53_refused_resource
#print axioms Verif.Props.C53_statement_false
#print axioms Verif.Props.C53_who
#print axioms Verif.Props.C54_added_partial
#print axioms Verif.Props.C54_array_replace_leaks
#print axioms Verif.Props.C54_array_set_lost
#print axioms Verif.Props.C54_call_set_get
#print axioms Verif.Props.C54_call_set_not_sent
#print axioms Verif.Props.C54_call_set_partial
#print axioms Verif.Props.C54_statement_false
#print axioms Verif.Props.C55_closed_channel
#print axioms Verif.Props.C55_identity_partial
#print axioms Verif.Props.C55_malformed_ends
#print axioms Verif.Props.C55_no_second_start
#print axioms Verif.Props.C55_somebody_accepted
#print axioms Verif.Props.C55_stale_authid
#print axioms Verif.Props.C55_stale_authzid
#print axioms Verif.Props.C55_statement_false
#print axioms Verif.Props.C55_switch_user
#print axioms Verif.Props.C56_abort_crashes
#print axioms Verif.Props.C56_no_crash_partial
#print axioms Verif.Props.C56_second_start_crashes
#print axioms Verif.Props.C56_statement_false
#print axioms Verif.Props.C57_dropped
#print axioms Verif.Props.C57_not_verified
#print axioms Verif.Props.C57_notified_twice
#print axioms Verif.Props.C57_once_partial
#print axioms Verif.Props.C57_statement_false
#print axioms Verif.Props.C58_accept_zero
#print axioms Verif.Props.C58_initiator
#print axioms Verif.Props.C58_listener_partial
#print axioms Verif.Props.C58_statement_false
#print axioms Verif.Props.C58_stays
#print axioms Verif.Props.C59_initiator_falls_back
#print axioms Verif.Props.C59_initiator_partial
#print axioms Verif.Props.C59_listener_falls_back
#print axioms Verif.Props.C59_listener_partial
#print axioms Verif.Props.C59_statement_false
#print axioms Verif.Props.C60_harmless_partial
#print axioms Verif.Props.C60_no_more_seq
#print axioms Verif.Props.C60_statement_false
#print axioms Verif.Props.C60_sync_kills
#print axioms Verif.Props.C61_carried_over
#print axioms Verif.Props.C61_fresh_partial
#print axioms Verif.Props.C61_needs_start
#print axioms Verif.Props.C61_statement_false
#print axioms Verif.Props.C62_auto_secured
#print axioms Verif.Props.C62_auto_works
#print axioms Verif.Props.C62_not_wanted
#print axioms Verif.Props.C62_refused_allowed
#print axioms Verif.Props.C63_async_not_marked
#print axioms Verif.Props.C63_header_left
#print axioms Verif.Props.C63_marked_partial
#print axioms Verif.Props.C63_refused
#print axioms Verif.Props.C63_refused_not_reported
#print axioms Verif.Props.C63_reported_partial
#print axioms Verif.Props.C63_session_partial
#print axioms Verif.Props.C63_statement_false
#print axioms Verif.Props.C63_usual_proxy_fails
#print axioms Verif.Props.C64_faithful_partial
#print axioms Verif.Props.C64_hole
#print axioms Verif.Props.C64_nothing_added
#print axioms Verif.Props.C64_nothing_to_read
#print axioms Verif.Props.C64_released_partner
#print axioms Verif.Props.C64_statement_false
#print axioms Verif.Props.C65_given_up
#print axioms Verif.Props.C65_kept
#print axioms Verif.Props.C65_left_behind
#print axioms Verif.Props.C65_left_down
#print axioms Verif.Props.C65_owned_partial
#print axioms Verif.Props.C65_served
#print axioms Verif.Props.C65_statement_false
#print axioms Verif.Props.C65_taken
#print axioms Verif.Props.C66_counted_partial
#print axioms Verif.Props.C66_left_behind
#print axioms Verif.Props.C66_notified_partial
#print axioms Verif.Props.C66_statement_false
#print axioms Verif.Props.C66_stop_lost
#print axioms Verif.Props.C66_stops_partial
#print axioms Verif.Props.C66_swallowed
#print axioms Verif.Props.C67_answered_partial
#print axioms Verif.Props.C67_counted_partial
#print axioms Verif.Props.C67_never_answered
#print axioms Verif.Props.C67_statement_false
#print axioms Verif.Props.C67_swallowed
#print axioms Verif.Props.C67_visits
#print axioms Verif.Props.C68_mixed
#print axioms Verif.Props.C68_safe_partial
#print axioms Verif.Props.C68_statement_false
#print axioms Verif.Props.C69_forgotten
#print axioms Verif.Props.C69_late_call
#print axioms Verif.Props.C69_one_at_a_time
#print axioms Verif.Props.C69_only_quiet
#print axioms Verif.Props.C69_statement_false
#print axioms Verif.Props.C69_told_partial
#print axioms Verif.Props.C70_accepted
#print axioms Verif.Props.C70_order
#print axioms Verif.Props.C70_refused
#print axioms Verif.Props.C70_settled
#print axioms Verif.Props.C71_failure_lost
#print axioms Verif.Props.C71_lost
#print axioms Verif.Props.C71_released_partial
#print axioms Verif.Props.C71_released_queue
#print axioms Verif.Props.C71_statement_false
#print axioms Verif.Props.C71_waits
#print axioms Verif.Props.C72_beep_partial
#print axioms Verif.Props.C72_filter_ignored
#print axioms Verif.Props.C72_first
#print axioms Verif.Props.C72_middle
#print axioms Verif.Props.C72_only_accepted
#print axioms Verif.Props.C72_order
#print axioms Verif.Props.C72_settled_partial
#print axioms Verif.Props.C72_statement_false
#print axioms Verif.Props.C73_closed_partial
#print axioms Verif.Props.C73_left_open
#print axioms Verif.Props.C73_others
#print axioms Verif.Props.C73_statement_false
#print axioms Verif.Props.C74_epoll_partial
#print axioms Verif.Props.C74_overflow
#print axioms Verif.Props.C74_poll_partial
#print axioms Verif.Props.C74_poll_serves
#print axioms Verif.Props.C74_statement_false
#print axioms Verif.Props.C74_unlimited
#print axioms Verif.Props.C75_not_served
#print axioms Verif.Props.C75_round_partial
#print axioms Verif.Props.C75_statement_false
#print axioms Verif.Props.C76_defined_received
#print axioms Verif.Props.C76_handlers_partial
#print axioms Verif.Props.C76_list
#print axioms Verif.Props.C76_statement_false
#print axioms Verif.Props.C77_old_data
#print axioms Verif.Props.C77_pairs_partial
#print axioms Verif.Props.C77_released
#print axioms Verif.Props.C77_released_used
#print axioms Verif.Props.C77_safe_partial
#print axioms Verif.Props.C77_statement_false
#print axioms Verif.Props.C77_wrong_data
#print axioms Verif.Props.C78_channel_kept
#print axioms Verif.Props.C78_channel_partial
#print axioms Verif.Props.C78_closed
#print axioms Verif.Props.C78_connection_partial
#print axioms Verif.Props.C78_frame_kept
#print axioms Verif.Props.C78_frames
#print axioms Verif.Props.C78_profile
#print axioms Verif.Props.C78_released_partial
#print axioms Verif.Props.C78_same_number
#print axioms Verif.Props.C78_statement_false
#print axioms Verif.Props.C79_cleanups_partial
#print axioms Verif.Props.C79_destroyed_mutex
#print axioms Verif.Props.C79_ends
#print axioms Verif.Props.C79_once
#print axioms Verif.Props.C79_safe_partial
#print axioms Verif.Props.C79_skipped
#print axioms Verif.Props.C79_statement_false
#print axioms Verif.Props.C80_left
#print axioms Verif.Props.C80_safe_partial
#print axioms Verif.Props.C80_statement_false
#print axioms Verif.Props.C81_late
#print axioms Verif.Props.C81_null_partial
#print axioms Verif.Props.C81_null_with_frame
#print axioms Verif.Props.C81_order
#print axioms Verif.Props.C81_piggyback
#print axioms Verif.Props.C81_released
#print axioms Verif.Props.C81_safe_partial
#print axioms Verif.Props.C81_statement_false
#print axioms Verif.Props.C81_wakes_partial
#print axioms Verif.Props.C82_after_write
#print axioms Verif.Props.C82_blocked
#print axioms Verif.Props.C82_ends_partial
#print axioms Verif.Props.C82_never_ends
#print axioms Verif.Props.C82_safe
#print axioms Verif.Props.C82_statement_false
#print axioms Verif.Props.C83_due_partial
#print axioms Verif.Props.C83_early
#print axioms Verif.Props.C83_ends
#print axioms Verif.Props.C83_error
#print axioms Verif.Props.C83_same_number
#print axioms Verif.Props.C83_statement_false
#print axioms Verif.Props.C83_time_partial
#print axioms Verif.Props.C83_true
#print axioms Verif.Props.C84_changed_partial
#print axioms Verif.Props.C84_stale
#print axioms Verif.Props.C84_statement_false
#print axioms Verif.Props.C84_taken
#print axioms Verif.Props.C84_unnoticed
#print axioms Verif.Props.C84_wakes_partial
#print axioms Verif.Props.C85_accepted_partial
#print axioms Verif.Props.C85_down_listener
#print axioms Verif.Props.C85_ends
#print axioms Verif.Props.C85_freed
#print axioms Verif.Props.C85_freed_accepted
#print axioms Verif.Props.C85_initiator_partial
#print axioms Verif.Props.C85_refused
#print axioms Verif.Props.C85_retry
#print axioms Verif.Props.C85_statement_false
#print axioms Verif.Props.C85_told
#print axioms Verif.Props.C86_called_removed
#print axioms Verif.Props.C86_ends
#print axioms Verif.Props.C86_order
#print axioms Verif.Props.C86_partial
#print axioms Verif.Props.C86_skipped
#print axioms Verif.Props.C86_statement_false
#print axioms Verif.Props.C86_twice
#print axioms Verif.Props.C87_all_again
#print axioms Verif.Props.C87_all_partial
#print axioms Verif.Props.C87_blocked
#print axioms Verif.Props.C87_one_request
#print axioms Verif.Props.C87_returns_partial
#print axioms Verif.Props.C87_statement_false
#print axioms Verif.Props.C87_true
#print axioms Verif.Props.C88_accepted
#print axioms Verif.Props.C88_error
#print axioms Verif.Props.C88_memory_partial
#print axioms Verif.Props.C88_negative_accepted
#print axioms Verif.Props.C88_other_profile
#print axioms Verif.Props.C88_partial
#print axioms Verif.Props.C88_released
#print axioms Verif.Props.C88_seen_partial
#print axioms Verif.Props.C88_statement_false
#print axioms Verif.Props.C89_kept_partial
#print axioms Verif.Props.C89_lost
#print axioms Verif.Props.C89_never_told
#print axioms Verif.Props.C89_refs
#print axioms Verif.Props.C89_statement_false
#print axioms Verif.Props.C89_table
#print axioms Verif.Props.C89_told_partial
#print axioms Verif.Props.C90_blocked
#print axioms Verif.Props.C90_partial
#print axioms Verif.Props.C90_released
#print axioms Verif.Props.C90_statement_false
#print axioms Verif.Props.C90_wrong_channel
#print axioms Verif.Props.C91_no_reset
#print axioms Verif.Props.C91_other_context
#print axioms Verif.Props.C91_partial
#print axioms Verif.Props.C91_race
#print axioms Verif.Props.C91_statement_false
#print axioms Verif.Props.C91_too_long
#print axioms Verif.Props.C92_closed
#print axioms Verif.Props.C92_connected_partial
#print axioms Verif.Props.C92_early
#print axioms Verif.Props.C92_ends
#print axioms Verif.Props.C92_family
#print axioms Verif.Props.C92_left
#print axioms Verif.Props.C92_lookup
#print axioms Verif.Props.C92_lookup_partial
#print axioms Verif.Props.C92_ready_partial
#print axioms Verif.Props.C92_stale_errno
#print axioms Verif.Props.C92_statement_false
#print axioms Verif.Props.C92_timeout_partial
#print axioms Verif.Props.C92_unfinished
#print axioms Verif.Props.C93_hangs_iff
#print axioms Verif.Props.C93_not_started
#print axioms Verif.Props.C93_ok
#print axioms Verif.Props.C93_spin
#print axioms Verif.Props.C93_split
#print axioms Verif.Props.C93_statement_false
#print axioms Verif.Props.C93_subsecond
#print axioms Verif.Props.C93_timed_partial
#print axioms Verif.Props.C93_told_partial
#print axioms Verif.Props.C93_unnamed
#print axioms Verif.Props.C93_whole_partial
#print axioms Verif.Props.C94_counter
#print axioms Verif.Props.C94_noticed_partial
#print axioms Verif.Props.C94_old_fragment
#print axioms Verif.Props.C94_old_frame
#print axioms Verif.Props.C94_old_line
#print axioms Verif.Props.C94_once_partial
#print axioms Verif.Props.C94_owned
#print axioms Verif.Props.C94_statement_false
#print axioms Verif.Props.C94_twice
#print axioms Verif.Props.C94_twice_breaks
#print axioms Verif.Props.C95_done
#print axioms Verif.Props.C95_kept
#print axioms Verif.Props.C95_mutex
#print axioms Verif.Props.C95_said_partial
#print axioms Verif.Props.C95_statement_false
#print axioms Verif.Props.C95_zero
#print axioms Verif.Props.C95_zero_first
#print axioms Verif.Props.C96_close_default
#print axioms Verif.Props.C96_close_partial
#print axioms Verif.Props.C96_crash_iff
#print axioms Verif.Props.C96_crossed
#print axioms Verif.Props.C96_decide
#print axioms Verif.Props.C96_lenient
#print axioms Verif.Props.C96_malformed_answered_partial
#print axioms Verif.Props.C96_malformed_partial
#print axioms Verif.Props.C96_misread
#print axioms Verif.Props.C96_other
#print axioms Verif.Props.C96_refused
#print axioms Verif.Props.C96_silent
#print axioms Verif.Props.C96_start
#print axioms Verif.Props.C96_statement_false
#print axioms Verif.Props.C97_found_partial
#print axioms Verif.Props.C97_once
#print axioms Verif.Props.C97_order
#print axioms Verif.Props.C97_shadowed
#print axioms Verif.Props.C97_statement_false
#print axioms Verif.Props.C98_closed
#print axioms Verif.Props.C98_collected
#print axioms Verif.Props.C98_exit_ends_partial
#print axioms Verif.Props.C98_exit_partial
#print axioms Verif.Props.C98_exiting
#print axioms Verif.Props.C98_fate
#print axioms Verif.Props.C98_late_task
#print axioms Verif.Props.C98_late_thread
#print axioms Verif.Props.C98_no_thread_left
#print axioms Verif.Props.C98_once
#print axioms Verif.Props.C98_order
#print axioms Verif.Props.C98_released_twice
#print axioms Verif.Props.C98_run
#print axioms Verif.Props.C98_skip_wait
#print axioms Verif.Props.C98_statement_false
#print axioms Verif.Props.C98_thread_left_partial
#print axioms Verif.Props.C99_called_after_removal
#print axioms Verif.Props.C99_ends
#print axioms Verif.Props.C99_exclusive
#print axioms Verif.Props.C99_listed
#print axioms Verif.Props.C99_memory
#print axioms Verif.Props.C99_old_identifier
#print axioms Verif.Props.C99_pass
#print axioms Verif.Props.C99_passed_over
#print axioms Verif.Props.C99_remove
#print axioms Verif.Props.C99_remove_partial
#print axioms Verif.Props.C99_removed_partial
#print axioms Verif.Props.C99_removed_within_partial
#print axioms Verif.Props.C99_same_identifier
#print axioms Verif.Props.C99_statement_false
#print axioms Verif.Props.aux_ac_answers
#print axioms Verif.Props.aux_ac_calls_append
#print axioms Verif.Props.aux_ac_reached
#print axioms Verif.Props.aux_ac_step
#print axioms Verif.Props.aux_al_check
#print axioms Verif.Props.aux_al_create
#print axioms Verif.Props.aux_al_create_stays
#print axioms Verif.Props.aux_al_enabled
#print axioms Verif.Props.aux_al_run
#print axioms Verif.Props.aux_al_run_append
#print axioms Verif.Props.aux_al_seconds
#print axioms Verif.Props.aux_al_silent
#print axioms Verif.Props.aux_al_start
#print axioms Verif.Props.aux_al_step
#print axioms Verif.Props.aux_al_stopped
#print axioms Verif.Props.aux_am_append
#print axioms Verif.Props.aux_am_calm
#print axioms Verif.Props.aux_am_calm_step
#print axioms Verif.Props.aux_am_enable
#print axioms Verif.Props.aux_am_keep
#print axioms Verif.Props.aux_am_keep_step
#print axioms Verif.Props.aux_am_ok
#print axioms Verif.Props.aux_am_run
#print axioms Verif.Props.aux_am_step
#print axioms Verif.Props.aux_am_stops
#print axioms Verif.Props.aux_any
#print axioms Verif.Props.aux_around
#print axioms Verif.Props.aux_astep
#print axioms Verif.Props.aux_at_micros
#print axioms Verif.Props.aux_attempt
#print axioms Verif.Props.aux_balanced
#print axioms Verif.Props.aux_blob_length
#print axioms Verif.Props.aux_blob_ne
#print axioms Verif.Props.aux_bo
#print axioms Verif.Props.aux_bo_count_notify
#print axioms Verif.Props.aux_bo_move
#print axioms Verif.Props.aux_bo_new
#print axioms Verif.Props.aux_bo_notify_fields
#print axioms Verif.Props.aux_bo_over
#print axioms Verif.Props.aux_bo_run
#print axioms Verif.Props.aux_bo_step
#print axioms Verif.Props.aux_bo_told_fit
#print axioms Verif.Props.aux_bulk
#print axioms Verif.Props.aux_bulk_sizes
#print axioms Verif.Props.aux_bulk_windows
#print axioms Verif.Props.aux_bump_initiator
#print axioms Verif.Props.aux_c0_atoi
#print axioms Verif.Props.aux_c0_cstr
#print axioms Verif.Props.aux_c0_digit
#print axioms Verif.Props.aux_c0_kind_close
#print axioms Verif.Props.aux_c0_kind_start
#print axioms Verif.Props.aux_c0_names
#print axioms Verif.Props.aux_c0_pre
#print axioms Verif.Props.aux_c0_take
#print axioms Verif.Props.aux_c0_valid
#print axioms Verif.Props.aux_ca_each
#print axioms Verif.Props.aux_ca_init
#print axioms Verif.Props.aux_ca_run
#print axioms Verif.Props.aux_ca_set
#print axioms Verif.Props.aux_ca_step
#print axioms Verif.Props.aux_casecmp
#print axioms Verif.Props.aux_casecmp_false
#print axioms Verif.Props.aux_cc_acc_step
#print axioms Verif.Props.aux_cc_rank_run
#print axioms Verif.Props.aux_cc_rank_step
#print axioms Verif.Props.aux_cc_run
#print axioms Verif.Props.aux_cc_step
#print axioms Verif.Props.aux_ce_at
#print axioms Verif.Props.aux_ce_before
#print axioms Verif.Props.aux_ce_init
#print axioms Verif.Props.aux_ce_run
#print axioms Verif.Props.aux_ce_step
#print axioms Verif.Props.aux_ce_uat
#print axioms Verif.Props.aux_ce_ustep
#print axioms Verif.Props.aux_cf_append
#print axioms Verif.Props.aux_cf_chan
#print axioms Verif.Props.aux_cf_chan_cons
#print axioms Verif.Props.aux_cf_i32
#print axioms Verif.Props.aux_cf_keep
#print axioms Verif.Props.aux_cf_last_cons
#print axioms Verif.Props.aux_cf_limit
#print axioms Verif.Props.aux_cf_prof
#print axioms Verif.Props.aux_cf_prof_cons
#print axioms Verif.Props.aux_cf_resolve_idem
#print axioms Verif.Props.aux_cf_run_get
#print axioms Verif.Props.aux_cf_set
#print axioms Verif.Props.aux_cf_set_mime
#print axioms Verif.Props.aux_cf_step_get
#print axioms Verif.Props.aux_cf_wanted
#print axioms Verif.Props.aux_check
#print axioms Verif.Props.aux_check_refl
#print axioms Verif.Props.aux_check_symm
#print axioms Verif.Props.aux_check_trans
#print axioms Verif.Props.aux_chn_add
#print axioms Verif.Props.aux_chn_call
#print axioms Verif.Props.aux_chn_remove
#print axioms Verif.Props.aux_chn_run
#print axioms Verif.Props.aux_chn_take
#print axioms Verif.Props.aux_cm_after
#print axioms Verif.Props.aux_cm_chan
#print axioms Verif.Props.aux_cm_closed
#print axioms Verif.Props.aux_cm_held
#print axioms Verif.Props.aux_cm_noClose
#print axioms Verif.Props.aux_cm_run
#print axioms Verif.Props.aux_cm_safe
#print axioms Verif.Props.aux_cm_safeRun
#print axioms Verif.Props.aux_cm_sender
#print axioms Verif.Props.aux_cm_start
#print axioms Verif.Props.aux_cm_step
#print axioms Verif.Props.aux_cn_accepts
#print axioms Verif.Props.aux_cn_bytes
#print axioms Verif.Props.aux_cn_check
#print axioms Verif.Props.aux_cn_client
#print axioms Verif.Props.aux_cn_compose
#print axioms Verif.Props.aux_cn_cut
#print axioms Verif.Props.aux_cn_cuts
#print axioms Verif.Props.aux_cn_elim
#print axioms Verif.Props.aux_cn_env_greet
#print axioms Verif.Props.aux_cn_env_works
#print axioms Verif.Props.aux_cn_first
#print axioms Verif.Props.aux_cn_frame_legal
#print axioms Verif.Props.aux_cn_greet
#print axioms Verif.Props.aux_cn_hd_ok
#print axioms Verif.Props.aux_cn_hdr
#print axioms Verif.Props.aux_cn_head
#print axioms Verif.Props.aux_cn_header
#print axioms Verif.Props.aux_cn_init
#print axioms Verif.Props.aux_cn_isSome
#print axioms Verif.Props.aux_cn_ite
#print axioms Verif.Props.aux_cn_line
#print axioms Verif.Props.aux_cn_mono
#print axioms Verif.Props.aux_cn_new
#print axioms Verif.Props.aux_cn_next
#print axioms Verif.Props.aux_cn_null
#print axioms Verif.Props.aux_cn_null_ok
#print axioms Verif.Props.aux_cn_octets
#print axioms Verif.Props.aux_cn_okk
#print axioms Verif.Props.aux_cn_payload
#print axioms Verif.Props.aux_cn_process
#print axioms Verif.Props.aux_cn_recv
#print axioms Verif.Props.aux_cn_run
#print axioms Verif.Props.aux_cn_sent
#print axioms Verif.Props.aux_cn_short
#print axioms Verif.Props.aux_cn_sim
#print axioms Verif.Props.aux_cn_single
#print axioms Verif.Props.aux_cn_slow
#print axioms Verif.Props.aux_cn_snoc
#print axioms Verif.Props.aux_cn_spin
#print axioms Verif.Props.aux_cn_stays
#print axioms Verif.Props.aux_cn_step
#print axioms Verif.Props.aux_cn_take
#print axioms Verif.Props.aux_cn_triv
#print axioms Verif.Props.aux_cn_whole
#print axioms Verif.Props.aux_cn_wholes
#print axioms Verif.Props.aux_commonIndex_eq
#print axioms Verif.Props.aux_commonIndex_key
#print axioms Verif.Props.aux_commonIndex_none
#print axioms Verif.Props.aux_commonIndex_same
#print axioms Verif.Props.aux_count_append
#print axioms Verif.Props.aux_cp_busy_run
#print axioms Verif.Props.aux_cp_busy_step
#print axioms Verif.Props.aux_cp_dropped
#print axioms Verif.Props.aux_cp_held_append
#print axioms Verif.Props.aux_cp_init
#print axioms Verif.Props.aux_cp_noRemoval_spec
#print axioms Verif.Props.aux_cp_oneAtATime_spec
#print axioms Verif.Props.aux_cp_open_run
#print axioms Verif.Props.aux_cp_open_step
#print axioms Verif.Props.aux_cp_removeReady
#print axioms Verif.Props.aux_cp_removeReady_ready
#print axioms Verif.Props.aux_cp_removeReady_sub
#print axioms Verif.Props.aux_cp_removeReady_sub2
#print axioms Verif.Props.aux_cp_removed
#print axioms Verif.Props.aux_cp_run
#print axioms Verif.Props.aux_cp_single
#print axioms Verif.Props.aux_cp_step
#print axioms Verif.Props.aux_cr_all
#print axioms Verif.Props.aux_cr_apart_rem
#print axioms Verif.Props.aux_cr_apart_run
#print axioms Verif.Props.aux_cr_apart_step
#print axioms Verif.Props.aux_cr_entry
#print axioms Verif.Props.aux_cr_filter_set
#print axioms Verif.Props.aux_cr_get
#print axioms Verif.Props.aux_cr_inv_init
#print axioms Verif.Props.aux_cr_key
#print axioms Verif.Props.aux_cr_move
#print axioms Verif.Props.aux_cr_move_rem
#print axioms Verif.Props.aux_cr_one
#print axioms Verif.Props.aux_cr_piggy
#print axioms Verif.Props.aux_cr_remove
#print axioms Verif.Props.aux_cr_run
#print axioms Verif.Props.aux_cr_seen
#print axioms Verif.Props.aux_cr_step
#print axioms Verif.Props.aux_cstr
#print axioms Verif.Props.aux_cx_key
#print axioms Verif.Props.aux_cx_lookups
#print axioms Verif.Props.aux_cx_loop_ends
#print axioms Verif.Props.aux_cx_loop_quiet
#print axioms Verif.Props.aux_cx_loop_ready
#print axioms Verif.Props.aux_cx_loop_timeout
#print axioms Verif.Props.aux_cx_split
#print axioms Verif.Props.aux_cycle
#print axioms Verif.Props.aux_cycles
#print axioms Verif.Props.aux_default_receive
#print axioms Verif.Props.aux_dest
#print axioms Verif.Props.aux_dest_append
#print axioms Verif.Props.aux_dg_byte
#print axioms Verif.Props.aux_dg_digit
#print axioms Verif.Props.aux_dg_inj
#print axioms Verif.Props.aux_dg_loop
#print axioms Verif.Props.aux_dg_nonzero
#print axioms Verif.Props.aux_dg_ofOctets
#print axioms Verif.Props.aux_dg_sprintf
#print axioms Verif.Props.aux_dg_takeWhile
#print axioms Verif.Props.aux_dg_translate
#print axioms Verif.Props.aux_dg_u32
#print axioms Verif.Props.aux_dl_count
#print axioms Verif.Props.aux_dl_erase
#print axioms Verif.Props.aux_dl_eraseMem
#print axioms Verif.Props.aux_dl_fst
#print axioms Verif.Props.aux_dl_init
#print axioms Verif.Props.aux_dl_len
#print axioms Verif.Props.aux_dl_one
#print axioms Verif.Props.aux_dl_run
#print axioms Verif.Props.aux_dl_snd
#print axioms Verif.Props.aux_dl_step
#print axioms Verif.Props.aux_dr_back
#print axioms Verif.Props.aux_dr_distinct_filter
#print axioms Verif.Props.aux_dr_enter
#print axioms Verif.Props.aux_dr_erase
#print axioms Verif.Props.aux_dr_filter
#print axioms Verif.Props.aux_dr_find
#print axioms Verif.Props.aux_dr_init
#print axioms Verif.Props.aux_dr_nofilter
#print axioms Verif.Props.aux_dr_run
#print axioms Verif.Props.aux_dr_serialize
#print axioms Verif.Props.aux_dr_step
#print axioms Verif.Props.aux_due_other
#print axioms Verif.Props.aux_each
#print axioms Verif.Props.aux_ev_digits
#print axioms Verif.Props.aux_ev_last
#print axioms Verif.Props.aux_ev_natural
#print axioms Verif.Props.aux_ev_other
#print axioms Verif.Props.aux_ev_quiet
#print axioms Verif.Props.aux_ev_run
#print axioms Verif.Props.aux_ev_setenv
#print axioms Verif.Props.aux_ev_strtol
#print axioms Verif.Props.aux_ev_take
#print axioms Verif.Props.aux_ex_F_append
#print axioms Verif.Props.aux_ex_F_close
#print axioms Verif.Props.aux_ex_F_forget
#print axioms Verif.Props.aux_ex_F_free
#print axioms Verif.Props.aux_ex_F_run
#print axioms Verif.Props.aux_ex_F_step
#print axioms Verif.Props.aux_ex_L_append
#print axioms Verif.Props.aux_ex_L_conns
#print axioms Verif.Props.aux_ex_L_run
#print axioms Verif.Props.aux_ex_L_set
#print axioms Verif.Props.aux_ex_L_setup
#print axioms Verif.Props.aux_ex_L_step
#print axioms Verif.Props.aux_ex_M_append
#print axioms Verif.Props.aux_ex_M_conns
#print axioms Verif.Props.aux_ex_M_run
#print axioms Verif.Props.aux_ex_M_setup
#print axioms Verif.Props.aux_ex_M_step
#print axioms Verif.Props.aux_ex_U_idx
#print axioms Verif.Props.aux_ex_U_uses
#print axioms Verif.Props.aux_ex_alive
#print axioms Verif.Props.aux_ex_append
#print axioms Verif.Props.aux_ex_close
#print axioms Verif.Props.aux_ex_close_nn
#print axioms Verif.Props.aux_ex_count_set
#print axioms Verif.Props.aux_ex_freeFds
#print axioms Verif.Props.aux_ex_free_nn
#print axioms Verif.Props.aux_ex_held_append
#print axioms Verif.Props.aux_ex_held_zero
#print axioms Verif.Props.aux_ex_host_step
#print axioms Verif.Props.aux_ex_proper_left
#print axioms Verif.Props.aux_ex_run_snoc
#print axioms Verif.Props.aux_ex_snoc
#print axioms Verif.Props.aux_ex_stable_left
#print axioms Verif.Props.aux_ex_uniq
#print axioms Verif.Props.aux_ex_unref_alive
#print axioms Verif.Props.aux_fd_chan_run
#print axioms Verif.Props.aux_fd_chan_step
#print axioms Verif.Props.aux_fd_drop
#print axioms Verif.Props.aux_fd_new
#print axioms Verif.Props.aux_fd_notify
#print axioms Verif.Props.aux_fd_run
#print axioms Verif.Props.aux_fd_step
#print axioms Verif.Props.aux_fd_sure_run
#print axioms Verif.Props.aux_fd_sure_step
#print axioms Verif.Props.aux_fd_touch
#print axioms Verif.Props.aux_fd_with_run
#print axioms Verif.Props.aux_fd_with_step
#print axioms Verif.Props.aux_ff_before
#print axioms Verif.Props.aux_ff_carried_append
#print axioms Verif.Props.aux_ff_content
#print axioms Verif.Props.aux_ff_done
#print axioms Verif.Props.aux_ff_flags
#print axioms Verif.Props.aux_ff_grant
#print axioms Verif.Props.aux_ff_live_step
#print axioms Verif.Props.aux_ff_run
#print axioms Verif.Props.aux_ff_start
#print axioms Verif.Props.aux_ff_step
#print axioms Verif.Props.aux_ff_total
#print axioms Verif.Props.aux_findChain_append
#print axioms Verif.Props.aux_findChain_same
#print axioms Verif.Props.aux_find_unlink
#print axioms Verif.Props.aux_finish
#print axioms Verif.Props.aux_fo_check
#print axioms Verif.Props.aux_fo_equal_iff
#print axioms Verif.Props.aux_fold_snoc
#print axioms Verif.Props.aux_follow_perm
#print axioms Verif.Props.aux_fs_closed
#print axioms Verif.Props.aux_fs_dead
#print axioms Verif.Props.aux_fs_drop_data
#print axioms Verif.Props.aux_fs_drop_none
#print axioms Verif.Props.aux_fs_filter_own
#print axioms Verif.Props.aux_fs_find_filter
#print axioms Verif.Props.aux_fs_find_none
#print axioms Verif.Props.aux_fs_get
#print axioms Verif.Props.aux_fs_get_store_other
#print axioms Verif.Props.aux_fs_get_store_same
#print axioms Verif.Props.aux_fs_release_data
#print axioms Verif.Props.aux_fs_removed
#print axioms Verif.Props.aux_fs_run
#print axioms Verif.Props.aux_fs_store_data
#print axioms Verif.Props.aux_ft_isLink
#print axioms Verif.Props.aux_ft_join
#print axioms Verif.Props.aux_ft_noLink
#print axioms Verif.Props.aux_ft_splitAll
#print axioms Verif.Props.aux_ft_splitOne
#print axioms Verif.Props.aux_ft_stat
#print axioms Verif.Props.aux_gc_cstr
#print axioms Verif.Props.aux_gc_cstr_zero
#print axioms Verif.Props.aux_gc_done
#print axioms Verif.Props.aux_gc_find
#print axioms Verif.Props.aux_gc_find_insert
#print axioms Verif.Props.aux_gc_go
#print axioms Verif.Props.aux_gc_good_append
#print axioms Verif.Props.aux_gc_holder
#print axioms Verif.Props.aux_gc_init
#print axioms Verif.Props.aux_gc_kept
#print axioms Verif.Props.aux_gc_last_snoc
#print axioms Verif.Props.aux_gc_other
#print axioms Verif.Props.aux_gc_quiet
#print axioms Verif.Props.aux_gc_read
#print axioms Verif.Props.aux_gc_refuse
#print axioms Verif.Props.aux_gc_run
#print axioms Verif.Props.aux_gc_self
#print axioms Verif.Props.aux_gc_step
#print axioms Verif.Props.aux_gc_up_snoc
#print axioms Verif.Props.aux_gd_client
#print axioms Verif.Props.aux_gd_client_sound
#print axioms Verif.Props.aux_gd_dispatch
#print axioms Verif.Props.aux_gd_first_congr
#print axioms Verif.Props.aux_gd_first_none
#print axioms Verif.Props.aux_gd_first_some
#print axioms Verif.Props.aux_gd_fits_length
#print axioms Verif.Props.aux_gd_guard
#print axioms Verif.Props.aux_gd_included
#print axioms Verif.Props.aux_gd_known
#print axioms Verif.Props.aux_gd_named
#print axioms Verif.Props.aux_gd_octet
#print axioms Verif.Props.aux_gd_order
#print axioms Verif.Props.aux_gd_plain
#print axioms Verif.Props.aux_gd_section
#print axioms Verif.Props.aux_gd_server
#print axioms Verif.Props.aux_gd_server_sound
#print axioms Verif.Props.aux_gd_shop_known
#print axioms Verif.Props.aux_gd_shop_tidy
#print axioms Verif.Props.aux_gd_small
#print axioms Verif.Props.aux_gd_split
#print axioms Verif.Props.aux_gd_test
#print axioms Verif.Props.aux_gd_tidy
#print axioms Verif.Props.aux_gd_types_complete
#print axioms Verif.Props.aux_gd_types_head
#print axioms Verif.Props.aux_gd_types_inj
#print axioms Verif.Props.aux_gd_types_sound
#print axioms Verif.Props.aux_gd_values
#print axioms Verif.Props.aux_ge_args
#print axioms Verif.Props.aux_ge_kind
#print axioms Verif.Props.aux_ge_null
#print axioms Verif.Props.aux_ge_serve
#print axioms Verif.Props.aux_ge_value
#print axioms Verif.Props.aux_gf_ask
#print axioms Verif.Props.aux_gf_askNoW
#print axioms Verif.Props.aux_gf_equal
#print axioms Verif.Props.aux_gf_freshStep
#print axioms Verif.Props.aux_gf_keptStep
#print axioms Verif.Props.aux_gf_lines
#print axioms Verif.Props.aux_gf_othersStep
#print axioms Verif.Props.aux_gf_set
#print axioms Verif.Props.aux_gf_str
#print axioms Verif.Props.aux_gf_take
#print axioms Verif.Props.aux_gf_takeOf
#print axioms Verif.Props.aux_gf_takeRest
#print axioms Verif.Props.aux_gf_temp
#print axioms Verif.Props.aux_gf_tempNe
#print axioms Verif.Props.aux_gn_added
#print axioms Verif.Props.aux_gn_balanced
#print axioms Verif.Props.aux_gn_blocks
#print axioms Verif.Props.aux_gn_copy
#print axioms Verif.Props.aux_gn_cutCons
#print axioms Verif.Props.aux_gn_cutLength
#print axioms Verif.Props.aux_gn_cutScan
#print axioms Verif.Props.aux_gn_doubledAppend
#print axioms Verif.Props.aux_gn_escape
#print axioms Verif.Props.aux_gn_flagAppend
#print axioms Verif.Props.aux_gn_format
#print axioms Verif.Props.aux_gn_formatCons
#print axioms Verif.Props.aux_gn_formatPlain
#print axioms Verif.Props.aux_gn_levels
#print axioms Verif.Props.aux_gn_loop
#print axioms Verif.Props.aux_gn_noSemi
#print axioms Verif.Props.aux_gn_read
#print axioms Verif.Props.aux_gn_scanCons
#print axioms Verif.Props.aux_gn_str
#print axioms Verif.Props.aux_gn_without
#print axioms Verif.Props.aux_gr_attr
#print axioms Verif.Props.aux_gr_attr_inj
#print axioms Verif.Props.aux_gr_attr_length
#print axioms Verif.Props.aux_gr_attr_some
#print axioms Verif.Props.aux_gr_head
#print axioms Verif.Props.aux_gr_inv_of
#print axioms Verif.Props.aux_gr_profile_length
#print axioms Verif.Props.aux_gr_profiles
#print axioms Verif.Props.aux_gr_profiles_inj
#print axioms Verif.Props.aux_gr_put
#print axioms Verif.Props.aux_gr_put_some
#print axioms Verif.Props.aux_gr_quote
#print axioms Verif.Props.aux_gr_reach
#print axioms Verif.Props.aux_gr_run_append
#print axioms Verif.Props.aux_gr_step
#print axioms Verif.Props.aux_grant
#print axioms Verif.Props.aux_gv_check
#print axioms Verif.Props.aux_gv_good
#print axioms Verif.Props.aux_gv_skip
#print axioms Verif.Props.aux_gv_typeOk
#print axioms Verif.Props.aux_gx_beepMessage
#print axioms Verif.Props.aux_gx_client_pending
#print axioms Verif.Props.aux_gx_consecutive
#print axioms Verif.Props.aux_gx_content
#print axioms Verif.Props.aux_gx_done
#print axioms Verif.Props.aux_gx_facts
#print axioms Verif.Props.aux_gx_first
#print axioms Verif.Props.aux_gx_get_stuck
#print axioms Verif.Props.aux_gx_join
#print axioms Verif.Props.aux_gx_joinable
#print axioms Verif.Props.aux_gx_kind
#print axioms Verif.Props.aux_gx_len
#print axioms Verif.Props.aux_gx_long
#print axioms Verif.Props.aux_gx_read
#print axioms Verif.Props.aux_gx_read_long
#print axioms Verif.Props.aux_gx_reply
#print axioms Verif.Props.aux_gx_reply_not_waiting
#print axioms Verif.Props.aux_gx_round
#print axioms Verif.Props.aux_gx_round_empty
#print axioms Verif.Props.aux_gx_round_long
#print axioms Verif.Props.aux_gx_run
#print axioms Verif.Props.aux_gx_step
#print axioms Verif.Props.aux_gx_stuck_rest
#print axioms Verif.Props.aux_headersAfter_set
#print axioms Verif.Props.aux_held_iff
#print axioms Verif.Props.aux_held_left
#print axioms Verif.Props.aux_hf_advance
#print axioms Verif.Props.aux_hf_ask
#print axioms Verif.Props.aux_hf_begin
#print axioms Verif.Props.aux_hf_heldRun
#print axioms Verif.Props.aux_hf_heldSet
#print axioms Verif.Props.aux_hf_heldStep
#print axioms Verif.Props.aux_hf_init
#print axioms Verif.Props.aux_hf_new
#print axioms Verif.Props.aux_hf_ref
#print axioms Verif.Props.aux_hf_release
#print axioms Verif.Props.aux_hf_run
#print axioms Verif.Props.aux_hf_set
#print axioms Verif.Props.aux_hf_settle
#print axioms Verif.Props.aux_hf_settle_eq
#print axioms Verif.Props.aux_hf_step
#print axioms Verif.Props.aux_hf_stuck
#print axioms Verif.Props.aux_hrun
#print axioms Verif.Props.aux_hruns
#print axioms Verif.Props.aux_hs_ask
#print axioms Verif.Props.aux_hs_being_step
#print axioms Verif.Props.aux_hs_check
#print axioms Verif.Props.aux_hs_close
#print axioms Verif.Props.aux_hs_cnt_run
#print axioms Verif.Props.aux_hs_cnt_step
#print axioms Verif.Props.aux_hs_count_append
#print axioms Verif.Props.aux_hs_count_map
#print axioms Verif.Props.aux_hs_eq_run
#print axioms Verif.Props.aux_hs_eq_step
#print axioms Verif.Props.aux_hs_finish
#print axioms Verif.Props.aux_hs_inv_init
#print axioms Verif.Props.aux_hs_recv
#print axioms Verif.Props.aux_hs_recvData
#print axioms Verif.Props.aux_hs_recv_accept
#print axioms Verif.Props.aux_hs_recv_answer
#print axioms Verif.Props.aux_hs_recv_being
#print axioms Verif.Props.aux_hs_recv_gone
#print axioms Verif.Props.aux_hs_rem_run
#print axioms Verif.Props.aux_hs_rem_step
#print axioms Verif.Props.aux_hs_reply
#print axioms Verif.Props.aux_hs_run
#print axioms Verif.Props.aux_hs_send
#print axioms Verif.Props.aux_hs_stepA
#print axioms Verif.Props.aux_hs_store
#print axioms Verif.Props.aux_hs_swap
#print axioms Verif.Props.aux_hs_swap_swap
#print axioms Verif.Props.aux_hs_take
#print axioms Verif.Props.aux_hs_wait_step
#print axioms Verif.Props.aux_hstep
#print axioms Verif.Props.aux_hw_c
#print axioms Verif.Props.aux_hw_left
#print axioms Verif.Props.aux_hw_one_step
#print axioms Verif.Props.aux_hw_one_w
#print axioms Verif.Props.aux_hw_step
#print axioms Verif.Props.aux_hw_w
#print axioms Verif.Props.aux_id_check
#print axioms Verif.Props.aux_id_count_step
#print axioms Verif.Props.aux_id_finish
#print axioms Verif.Props.aux_id_reached
#print axioms Verif.Props.aux_id_run_append
#print axioms Verif.Props.aux_id_split
#print axioms Verif.Props.aux_id_start
#print axioms Verif.Props.aux_id_step
#print axioms Verif.Props.aux_incoming
#print axioms Verif.Props.aux_increase
#print axioms Verif.Props.aux_increase_gen
#print axioms Verif.Props.aux_inv
#print axioms Verif.Props.aux_io_conn_closed
#print axioms Verif.Props.aux_io_conns
#print axioms Verif.Props.aux_io_create
#print axioms Verif.Props.aux_io_double
#print axioms Verif.Props.aux_io_epoll_add
#print axioms Verif.Props.aux_io_epoll_run
#print axioms Verif.Props.aux_io_estore
#print axioms Verif.Props.aux_io_fill
#print axioms Verif.Props.aux_io_first_append
#print axioms Verif.Props.aux_io_full
#print axioms Verif.Props.aux_io_full2
#print axioms Verif.Props.aux_io_grow
#print axioms Verif.Props.aux_io_grown
#print axioms Verif.Props.aux_io_i32
#print axioms Verif.Props.aux_io_limit
#print axioms Verif.Props.aux_io_lis
#print axioms Verif.Props.aux_io_lis_closed
#print axioms Verif.Props.aux_io_max
#print axioms Verif.Props.aux_io_next
#print axioms Verif.Props.aux_io_poll_add
#print axioms Verif.Props.aux_io_poll_run
#print axioms Verif.Props.aux_io_read_append
#print axioms Verif.Props.aux_io_run_append
#print axioms Verif.Props.aux_io_served_append
#print axioms Verif.Props.aux_io_unlimited
#print axioms Verif.Props.aux_io_wanted
#print axioms Verif.Props.aux_it_drop
#print axioms Verif.Props.aux_it_exact
#print axioms Verif.Props.aux_it_exactRun
#print axioms Verif.Props.aux_it_new
#print axioms Verif.Props.aux_it_run
#print axioms Verif.Props.aux_it_step
#print axioms Verif.Props.aux_joinable
#print axioms Verif.Props.aux_late
#print axioms Verif.Props.aux_lc_all
#print axioms Verif.Props.aux_lc_item
#print axioms Verif.Props.aux_lc_items
#print axioms Verif.Props.aux_lc_sub
#print axioms Verif.Props.aux_lc_tried
#print axioms Verif.Props.aux_lc_valid
#print axioms Verif.Props.aux_lg_all
#print axioms Verif.Props.aux_lg_common
#print axioms Verif.Props.aux_lg_count
#print axioms Verif.Props.aux_lg_free
#print axioms Verif.Props.aux_lg_has
#print axioms Verif.Props.aux_lg_hidden
#print axioms Verif.Props.aux_lg_ind
#print axioms Verif.Props.aux_lg_inv
#print axioms Verif.Props.aux_lg_lockCommon
#print axioms Verif.Props.aux_lg_lockDeliver
#print axioms Verif.Props.aux_lg_out
#print axioms Verif.Props.aux_lg_runSnoc
#print axioms Verif.Props.aux_lg_same
#print axioms Verif.Props.aux_lg_second
#print axioms Verif.Props.aux_lg_snoc
#print axioms Verif.Props.aux_lg_twice
#print axioms Verif.Props.aux_lg_zero
#print axioms Verif.Props.aux_lh_bool
#print axioms Verif.Props.aux_lh_exiting
#print axioms Verif.Props.aux_lh_faithful
#print axioms Verif.Props.aux_lh_leaves
#print axioms Verif.Props.aux_lh_leavesNot
#print axioms Verif.Props.aux_lh_leftSnoc
#print axioms Verif.Props.aux_lh_run
#print axioms Verif.Props.aux_lh_snoc
#print axioms Verif.Props.aux_lh_take
#print axioms Verif.Props.aux_lh_takeAll
#print axioms Verif.Props.aux_lh_told
#print axioms Verif.Props.aux_lh_toldCall
#print axioms Verif.Props.aux_lh_toldExit
#print axioms Verif.Props.aux_lk_body
#print axioms Verif.Props.aux_lk_example
#print axioms Verif.Props.aux_lk_run
#print axioms Verif.Props.aux_lk_typed
#print axioms Verif.Props.aux_ll_alone
#print axioms Verif.Props.aux_ll_append
#print axioms Verif.Props.aux_ll_init
#print axioms Verif.Props.aux_ll_move
#print axioms Verif.Props.aux_ll_move0
#print axioms Verif.Props.aux_ll_other
#print axioms Verif.Props.aux_ll_others
#print axioms Verif.Props.aux_ll_run
#print axioms Verif.Props.aux_ll_runs_has
#print axioms Verif.Props.aux_ll_set_ne
#print axioms Verif.Props.aux_ll_set_same
#print axioms Verif.Props.aux_ll_step
#print axioms Verif.Props.aux_ll_unique
#print axioms Verif.Props.aux_ln_B_same
#print axioms Verif.Props.aux_ln_D_init
#print axioms Verif.Props.aux_ln_D_next
#print axioms Verif.Props.aux_ln_D_put
#print axioms Verif.Props.aux_ln_D_run
#print axioms Verif.Props.aux_ln_D_shut
#print axioms Verif.Props.aux_ln_D_step
#print axioms Verif.Props.aux_ln_M_init
#print axioms Verif.Props.aux_ln_M_run
#print axioms Verif.Props.aux_ln_M_step
#print axioms Verif.Props.aux_ln_count
#print axioms Verif.Props.aux_ln_fail
#print axioms Verif.Props.aux_ln_init
#print axioms Verif.Props.aux_ln_next
#print axioms Verif.Props.aux_ln_port
#print axioms Verif.Props.aux_ln_put
#print axioms Verif.Props.aux_ln_run
#print axioms Verif.Props.aux_ln_same
#print axioms Verif.Props.aux_ln_step
#print axioms Verif.Props.aux_lq_add
#print axioms Verif.Props.aux_lq_addPlain
#print axioms Verif.Props.aux_lq_answer
#print axioms Verif.Props.aux_lq_chainApp
#print axioms Verif.Props.aux_lq_chainSet
#print axioms Verif.Props.aux_lq_del
#print axioms Verif.Props.aux_lq_drain
#print axioms Verif.Props.aux_lq_erase
#print axioms Verif.Props.aux_lq_eraseMap
#print axioms Verif.Props.aux_lq_history
#print axioms Verif.Props.aux_lq_noBool
#print axioms Verif.Props.aux_lq_okPerm
#print axioms Verif.Props.aux_lq_run
#print axioms Verif.Props.aux_lq_setPerm
#print axioms Verif.Props.aux_lq_step
#print axioms Verif.Props.aux_ls_closed
#print axioms Verif.Props.aux_lt
#print axioms Verif.Props.aux_lu_append
#print axioms Verif.Props.aux_lu_expected
#print axioms Verif.Props.aux_lu_fits
#print axioms Verif.Props.aux_lu_get
#print axioms Verif.Props.aux_lu_loop
#print axioms Verif.Props.aux_lu_object
#print axioms Verif.Props.aux_lu_ok
#print axioms Verif.Props.aux_lu_one
#print axioms Verif.Props.aux_lw_inv_step
#print axioms Verif.Props.aux_lw_never
#print axioms Verif.Props.aux_lw_quiet_step
#print axioms Verif.Props.aux_lw_reached
#print axioms Verif.Props.aux_lw_returns_blocked
#print axioms Verif.Props.aux_lw_returns_popped
#print axioms Verif.Props.aux_lw_returns_skip
#print axioms Verif.Props.aux_lw_run_append
#print axioms Verif.Props.aux_lw_stuck
#print axioms Verif.Props.aux_memcpyAt
#print axioms Verif.Props.aux_mixedParsed
#print axioms Verif.Props.aux_mk_example
#print axioms Verif.Props.aux_mk_library
#print axioms Verif.Props.aux_mk_moves
#print axioms Verif.Props.aux_mk_run
#print axioms Verif.Props.aux_mt_attrs_end
#print axioms Verif.Props.aux_mt_attrs_len
#print axioms Verif.Props.aux_mt_attrs_read
#print axioms Verif.Props.aux_mt_cdataEnd
#print axioms Verif.Props.aux_mt_content
#print axioms Verif.Props.aux_mt_crlf
#print axioms Verif.Props.aux_mt_cstr
#print axioms Verif.Props.aux_mt_digits
#print axioms Verif.Props.aux_mt_endTag
#print axioms Verif.Props.aux_mt_kids
#print axioms Verif.Props.aux_mt_leading
#print axioms Verif.Props.aux_mt_leaf_empty
#print axioms Verif.Props.aux_mt_leaf_text
#print axioms Verif.Props.aux_mt_names
#print axioms Verif.Props.aux_mt_noCdata
#print axioms Verif.Props.aux_mt_number
#print axioms Verif.Props.aux_mt_printInt
#print axioms Verif.Props.aux_mt_quotable
#print axioms Verif.Props.aux_mt_read_empty
#print axioms Verif.Props.aux_mt_read_text
#print axioms Verif.Props.aux_mt_section
#print axioms Verif.Props.aux_mt_span
#print axioms Verif.Props.aux_mt_tag
#print axioms Verif.Props.aux_mt_text
#print axioms Verif.Props.aux_mt_textual
#print axioms Verif.Props.aux_next_initiator
#print axioms Verif.Props.aux_next_listener
#print axioms Verif.Props.aux_nf_actions
#print axioms Verif.Props.aux_nf_actionsRun
#print axioms Verif.Props.aux_nf_advance
#print axioms Verif.Props.aux_nf_broken
#print axioms Verif.Props.aux_nf_conn
#print axioms Verif.Props.aux_nf_find
#print axioms Verif.Props.aux_nf_frame
#print axioms Verif.Props.aux_nf_grow
#print axioms Verif.Props.aux_nf_mono
#print axioms Verif.Props.aux_nf_over
#print axioms Verif.Props.aux_nf_register
#print axioms Verif.Props.aux_nf_ret
#print axioms Verif.Props.aux_nf_run
#print axioms Verif.Props.aux_nf_step
#print axioms Verif.Props.aux_nf_succ
#print axioms Verif.Props.aux_nf_through
#print axioms Verif.Props.aux_nonDecreasing_append
#print axioms Verif.Props.aux_notify
#print axioms Verif.Props.aux_nulStep
#print axioms Verif.Props.aux_oc_after_quiet
#print axioms Verif.Props.aux_oc_after_run
#print axioms Verif.Props.aux_oc_after_step
#print axioms Verif.Props.aux_oc_before_init
#print axioms Verif.Props.aux_oc_before_run
#print axioms Verif.Props.aux_oc_before_step
#print axioms Verif.Props.aux_oc_count_init
#print axioms Verif.Props.aux_oc_count_new
#print axioms Verif.Props.aux_oc_count_of
#print axioms Verif.Props.aux_oc_count_run
#print axioms Verif.Props.aux_oc_count_step
#print axioms Verif.Props.aux_oc_erase
#print axioms Verif.Props.aux_oc_filter_none
#print axioms Verif.Props.aux_oc_fullOrder_append
#print axioms Verif.Props.aux_oc_lost_append
#print axioms Verif.Props.aux_oc_plainOrder_append
#print axioms Verif.Props.aux_oc_removeKey
#print axioms Verif.Props.aux_oc_removeKey_filter
#print axioms Verif.Props.aux_oc_removed_append
#print axioms Verif.Props.aux_oc_set
#print axioms Verif.Props.aux_oc_single
#print axioms Verif.Props.aux_oc_started_append
#print axioms Verif.Props.aux_oc_work_run
#print axioms Verif.Props.aux_oc_work_step
#print axioms Verif.Props.aux_pass
#print axioms Verif.Props.aux_pc_H_run
#print axioms Verif.Props.aux_pc_H_step
#print axioms Verif.Props.aux_pc_M_boot
#print axioms Verif.Props.aux_pc_M_same
#print axioms Verif.Props.aux_pc_S_map
#print axioms Verif.Props.aux_pc_S_map_set
#print axioms Verif.Props.aux_pc_S_refl
#print axioms Verif.Props.aux_pc_S_set
#print axioms Verif.Props.aux_pc_S_step
#print axioms Verif.Props.aux_pc_diff
#print axioms Verif.Props.aux_pc_init
#print axioms Verif.Props.aux_pc_map
#print axioms Verif.Props.aux_pc_run
#print axioms Verif.Props.aux_pc_set
#print axioms Verif.Props.aux_pc_step
#print axioms Verif.Props.aux_pe_I_T
#print axioms Verif.Props.aux_pe_I_init
#print axioms Verif.Props.aux_pe_J.lt_of
#print axioms Verif.Props.aux_pe_J.pos_ev
#print axioms Verif.Props.aux_pe_J.pos_pc
#print axioms Verif.Props.aux_pe_J.rc_at
#print axioms Verif.Props.aux_pe_J.use_iff
#print axioms Verif.Props.aux_pe_J.zero
#print axioms Verif.Props.aux_pe_J_T
#print axioms Verif.Props.aux_pe_J_init
#print axioms Verif.Props.aux_pe_J_move
#print axioms Verif.Props.aux_pe_T_of
#print axioms Verif.Props.aux_pe_W_T
#print axioms Verif.Props.aux_pe_about_T
#print axioms Verif.Props.aux_pe_after
#print axioms Verif.Props.aux_pe_calling
#print axioms Verif.Props.aux_pe_dead
#print axioms Verif.Props.aux_pe_gone
#print axioms Verif.Props.aux_pe_ind
#print axioms Verif.Props.aux_pe_log
#print axioms Verif.Props.aux_pe_one
#print axioms Verif.Props.aux_pe_pass
#print axioms Verif.Props.aux_pe_perm
#print axioms Verif.Props.aux_pe_run_append
#print axioms Verif.Props.aux_pe_two
#print axioms Verif.Props.aux_pe_zero
#print axioms Verif.Props.aux_pf_counted_at
#print axioms Verif.Props.aux_pf_counted_init
#print axioms Verif.Props.aux_pf_counted_run
#print axioms Verif.Props.aux_pf_counted_step
#print axioms Verif.Props.aux_pf_find_create
#print axioms Verif.Props.aux_pf_find_modify
#print axioms Verif.Props.aux_pf_global
#print axioms Verif.Props.aux_pf_lookup_cons
#print axioms Verif.Props.aux_pf_lookup_filter
#print axioms Verif.Props.aux_pf_lookup_map
#print axioms Verif.Props.aux_pf_run
#print axioms Verif.Props.aux_pf_step
#print axioms Verif.Props.aux_pf_unregistered
#print axioms Verif.Props.aux_pigeon
#print axioms Verif.Props.aux_pl_bit
#print axioms Verif.Props.aux_pl_filtered
#print axioms Verif.Props.aux_pl_last
#print axioms Verif.Props.aux_pl_masks
#print axioms Verif.Props.aux_pl_run
#print axioms Verif.Props.aux_pl_step
#print axioms Verif.Props.aux_pl_time_step
#print axioms Verif.Props.aux_pl_update
#print axioms Verif.Props.aux_pl_wake
#print axioms Verif.Props.aux_pl_wake_run
#print axioms Verif.Props.aux_pm_asked
#print axioms Verif.Props.aux_pm_init
#print axioms Verif.Props.aux_pm_installed
#print axioms Verif.Props.aux_pm_last
#print axioms Verif.Props.aux_pm_run
#print axioms Verif.Props.aux_pm_snoc
#print axioms Verif.Props.aux_pm_step
#print axioms Verif.Props.aux_pos2048
#print axioms Verif.Props.aux_pq_J_push
#print axioms Verif.Props.aux_pq_J_step
#print axioms Verif.Props.aux_pq_ans
#print axioms Verif.Props.aux_pq_app_get
#print axioms Verif.Props.aux_pq_count
#print axioms Verif.Props.aux_pq_items_app
#print axioms Verif.Props.aux_pq_items_nil
#print axioms Verif.Props.aux_pq_items_set
#print axioms Verif.Props.aux_pq_mids_erase
#print axioms Verif.Props.aux_pq_push
#print axioms Verif.Props.aux_pq_run
#print axioms Verif.Props.aux_pq_set_get
#print axioms Verif.Props.aux_pq_start
#print axioms Verif.Props.aux_pq_step
#print axioms Verif.Props.aux_pr_alive
#print axioms Verif.Props.aux_pr_count
#print axioms Verif.Props.aux_pr_erase
#print axioms Verif.Props.aux_pr_held_pos
#print axioms Verif.Props.aux_pr_held_setP
#print axioms Verif.Props.aux_pr_inv_init
#print axioms Verif.Props.aux_pr_leave
#print axioms Verif.Props.aux_pr_letGo
#print axioms Verif.Props.aux_pr_letGoAll
#print axioms Verif.Props.aux_pr_live
#print axioms Verif.Props.aux_pr_run
#print axioms Verif.Props.aux_pr_same
#print axioms Verif.Props.aux_pr_setC
#print axioms Verif.Props.aux_pr_setP
#print axioms Verif.Props.aux_pr_step
#print axioms Verif.Props.aux_pr_sum
#print axioms Verif.Props.aux_pr_unref
#print axioms Verif.Props.aux_ps_ask
#print axioms Verif.Props.aux_ps_check
#print axioms Verif.Props.aux_ps_read
#print axioms Verif.Props.aux_ps_rpy
#print axioms Verif.Props.aux_ps_rpy'
#print axioms Verif.Props.aux_ps_run_append
#print axioms Verif.Props.aux_ps_silent
#print axioms Verif.Props.aux_pstep
#print axioms Verif.Props.aux_pt_append
#print axioms Verif.Props.aux_pt_gone
#print axioms Verif.Props.aux_pt_init
#print axioms Verif.Props.aux_pt_log
#print axioms Verif.Props.aux_pt_new
#print axioms Verif.Props.aux_pt_run
#print axioms Verif.Props.aux_pt_same
#print axioms Verif.Props.aux_pt_step
#print axioms Verif.Props.aux_pv_drop
#print axioms Verif.Props.aux_pv_dropAll
#print axioms Verif.Props.aux_pv_evUnref
#print axioms Verif.Props.aux_pv_holders_append
#print axioms Verif.Props.aux_pv_holders_le
#print axioms Verif.Props.aux_pv_holders_set
#print axioms Verif.Props.aux_pv_holders_zero
#print axioms Verif.Props.aux_pv_init
#print axioms Verif.Props.aux_pv_keeps_drop
#print axioms Verif.Props.aux_pv_keeps_dropAll
#print axioms Verif.Props.aux_pv_keeps_evUnref
#print axioms Verif.Props.aux_pv_keeps_refl
#print axioms Verif.Props.aux_pv_keeps_run
#print axioms Verif.Props.aux_pv_keeps_set
#print axioms Verif.Props.aux_pv_keeps_step
#print axioms Verif.Props.aux_pv_keeps_trans
#print axioms Verif.Props.aux_pv_keeps_use
#print axioms Verif.Props.aux_pv_live
#print axioms Verif.Props.aux_pv_marshal
#print axioms Verif.Props.aux_pv_marshal_events
#print axioms Verif.Props.aux_pv_owned
#print axioms Verif.Props.aux_pv_ref
#print axioms Verif.Props.aux_pv_refOpt
#print axioms Verif.Props.aux_pv_ref_objs
#print axioms Verif.Props.aux_pv_ref_same
#print axioms Verif.Props.aux_pv_run
#print axioms Verif.Props.aux_pv_set_ev
#print axioms Verif.Props.aux_pv_set_objs
#print axioms Verif.Props.aux_pv_step
#print axioms Verif.Props.aux_pv_unref
#print axioms Verif.Props.aux_pv_unrefOpt
#print axioms Verif.Props.aux_pv_unrefOpt_same
#print axioms Verif.Props.aux_pv_unref_same
#print axioms Verif.Props.aux_pv_use
#print axioms Verif.Props.aux_pv_useEvent
#print axioms Verif.Props.aux_pw_all
#print axioms Verif.Props.aux_pw_careful
#print axioms Verif.Props.aux_pw_change
#print axioms Verif.Props.aux_pw_close
#print axioms Verif.Props.aux_pw_down
#print axioms Verif.Props.aux_pw_forget
#print axioms Verif.Props.aux_pw_new
#print axioms Verif.Props.aux_pw_none
#print axioms Verif.Props.aux_pw_polite
#print axioms Verif.Props.aux_pw_pos
#print axioms Verif.Props.aux_pw_run
#print axioms Verif.Props.aux_pw_sample_closes
#print axioms Verif.Props.aux_pw_snoc
#print axioms Verif.Props.aux_pw_step
#print axioms Verif.Props.aux_pw_unref
#print axioms Verif.Props.aux_pw_used
#print axioms Verif.Props.aux_px_added
#print axioms Verif.Props.aux_px_after
#print axioms Verif.Props.aux_px_first
#print axioms Verif.Props.aux_px_first_line
#print axioms Verif.Props.aux_px_input
#print axioms Verif.Props.aux_px_join
#print axioms Verif.Props.aux_px_line
#print axioms Verif.Props.aux_px_negative
#print axioms Verif.Props.aux_px_plain
#print axioms Verif.Props.aux_px_positive
#print axioms Verif.Props.aux_px_run
#print axioms Verif.Props.aux_px_step
#print axioms Verif.Props.aux_py_again
#print axioms Verif.Props.aux_py_all
#print axioms Verif.Props.aux_py_call
#print axioms Verif.Props.aux_py_down
#print axioms Verif.Props.aux_py_downs
#print axioms Verif.Props.aux_py_fell
#print axioms Verif.Props.aux_py_fold
#print axioms Verif.Props.aux_py_free
#print axioms Verif.Props.aux_py_inv
#print axioms Verif.Props.aux_py_nil
#print axioms Verif.Props.aux_py_pairs
#print axioms Verif.Props.aux_py_prefix
#print axioms Verif.Props.aux_py_remove
#print axioms Verif.Props.aux_py_run
#print axioms Verif.Props.aux_py_set
#print axioms Verif.Props.aux_py_sets
#print axioms Verif.Props.aux_py_sets_close
#print axioms Verif.Props.aux_py_sets_lost
#print axioms Verif.Props.aux_py_sets_remove
#print axioms Verif.Props.aux_py_snoc
#print axioms Verif.Props.aux_py_timely
#print axioms Verif.Props.aux_py_total
#print axioms Verif.Props.aux_py_unset
#print axioms Verif.Props.aux_qr_append
#print axioms Verif.Props.aux_qr_erase
#print axioms Verif.Props.aux_qr_init
#print axioms Verif.Props.aux_qr_live
#print axioms Verif.Props.aux_qr_proper
#print axioms Verif.Props.aux_qr_run
#print axioms Verif.Props.aux_qr_step
#print axioms Verif.Props.aux_qs_after
#print axioms Verif.Props.aux_qs_endedRun
#print axioms Verif.Props.aux_qs_idle
#print axioms Verif.Props.aux_qs_init
#print axioms Verif.Props.aux_qs_notFreed
#print axioms Verif.Props.aux_qs_run
#print axioms Verif.Props.aux_qs_step
#print axioms Verif.Props.aux_qs_uniqRun
#print axioms Verif.Props.aux_qs_uniqStep
#print axioms Verif.Props.aux_quits
#print axioms Verif.Props.aux_raw_Inv.mid
#print axioms Verif.Props.aux_raw_Mid.ok
#print axioms Verif.Props.aux_raw_Mid.tries
#print axioms Verif.Props.aux_raw_attempt_tries
#print axioms Verif.Props.aux_raw_filter_chunk
#print axioms Verif.Props.aux_raw_ids_set
#print axioms Verif.Props.aux_raw_inv_init
#print axioms Verif.Props.aux_raw_inv_step
#print axioms Verif.Props.aux_raw_leave
#print axioms Verif.Props.aux_raw_mem_eraseIdx_map
#print axioms Verif.Props.aux_raw_mem_erase_ne
#print axioms Verif.Props.aux_raw_mem_set
#print axioms Verif.Props.aux_raw_octetsOf_append
#print axioms Verif.Props.aux_raw_orderly_spec
#print axioms Verif.Props.aux_raw_reported_append
#print axioms Verif.Props.aux_raw_run_snoc
#print axioms Verif.Props.aux_raw_seq_leave
#print axioms Verif.Props.aux_raw_seq_run
#print axioms Verif.Props.aux_raw_seq_stay
#print axioms Verif.Props.aux_raw_seq_step
#print axioms Verif.Props.aux_raw_seq_wait
#print axioms Verif.Props.aux_raw_stay
#print axioms Verif.Props.aux_raw_wait
#print axioms Verif.Props.aux_raw_wait_tries
#print axioms Verif.Props.aux_raw_write
#print axioms Verif.Props.aux_rc_call_ref
#print axioms Verif.Props.aux_rc_call_unref
#print axioms Verif.Props.aux_rc_frame_run
#print axioms Verif.Props.aux_rc_free
#print axioms Verif.Props.aux_rc_i32
#print axioms Verif.Props.aux_rc_ref
#print axioms Verif.Props.aux_rc_run
#print axioms Verif.Props.aux_rc_table
#print axioms Verif.Props.aux_rc_unref
#print axioms Verif.Props.aux_reach_initiator
#print axioms Verif.Props.aux_reach_listener
#print axioms Verif.Props.aux_reached
#print axioms Verif.Props.aux_refsAfter_append
#print axioms Verif.Props.aux_rel
#print axioms Verif.Props.aux_rel_append
#print axioms Verif.Props.aux_replicate_split
#print axioms Verif.Props.aux_rn_again
#print axioms Verif.Props.aux_rn_check
#print axioms Verif.Props.aux_rn_clean
#print axioms Verif.Props.aux_rn_close
#print axioms Verif.Props.aux_rn_fails
#print axioms Verif.Props.aux_rn_ite
#print axioms Verif.Props.aux_rn_left
#print axioms Verif.Props.aux_rn_line_reached
#print axioms Verif.Props.aux_rn_new
#print axioms Verif.Props.aux_rn_next
#print axioms Verif.Props.aux_rn_owned
#print axioms Verif.Props.aux_rn_process
#print axioms Verif.Props.aux_rn_reached
#print axioms Verif.Props.aux_rn_reader
#print axioms Verif.Props.aux_rn_reg
#print axioms Verif.Props.aux_rn_scan
#print axioms Verif.Props.aux_rn_short
#print axioms Verif.Props.aux_rn_stop
#print axioms Verif.Props.aux_round
#print axioms Verif.Props.aux_rs_run
#print axioms Verif.Props.aux_rt_body
#print axioms Verif.Props.aux_rt_buf
#print axioms Verif.Props.aux_rt_bytes
#print axioms Verif.Props.aux_rt_frame
#print axioms Verif.Props.aux_rt_get_lt
#print axioms Verif.Props.aux_rt_go
#print axioms Verif.Props.aux_rt_head
#print axioms Verif.Props.aux_rt_header
#print axioms Verif.Props.aux_rt_held
#print axioms Verif.Props.aux_rt_junk
#print axioms Verif.Props.aux_rt_junk_line
#print axioms Verif.Props.aux_rt_keep
#print axioms Verif.Props.aux_rt_late
#print axioms Verif.Props.aux_rt_lateb
#print axioms Verif.Props.aux_rt_left
#print axioms Verif.Props.aux_rt_line
#print axioms Verif.Props.aux_rt_line_lt
#print axioms Verif.Props.aux_rt_line_n
#print axioms Verif.Props.aux_rt_payload_le
#print axioms Verif.Props.aux_rt_recv
#print axioms Verif.Props.aux_rt_recv_lt
#print axioms Verif.Props.aux_rt_recv_n
#print axioms Verif.Props.aux_rt_rep
#print axioms Verif.Props.aux_rt_same
#print axioms Verif.Props.aux_rt_skip
#print axioms Verif.Props.aux_rt_split
#print axioms Verif.Props.aux_rt_take
#print axioms Verif.Props.aux_rt_take_le
#print axioms Verif.Props.aux_rt_take_n
#print axioms Verif.Props.aux_run_append
#print axioms Verif.Props.aux_runs_append
#print axioms Verif.Props.aux_sa_accept_id
#print axioms Verif.Props.aux_sa_after
#print axioms Verif.Props.aux_sa_before
#print axioms Verif.Props.aux_sa_iterate
#print axioms Verif.Props.aux_sa_pass
#print axioms Verif.Props.aux_sa_proved_cons
#print axioms Verif.Props.aux_sa_proved_init
#print axioms Verif.Props.aux_sa_proved_now
#print axioms Verif.Props.aux_sa_run_cons
#print axioms Verif.Props.aux_sa_session
#print axioms Verif.Props.aux_sa_shown
#print axioms Verif.Props.aux_sa_step
#print axioms Verif.Props.aux_sampleParsed
#print axioms Verif.Props.aux_sample_wf
#print axioms Verif.Props.aux_sd_other
#print axioms Verif.Props.aux_sd_place
#print axioms Verif.Props.aux_sd_scan
#print axioms Verif.Props.aux_sd_scan_inv
#print axioms Verif.Props.aux_sd_sign
#print axioms Verif.Props.aux_sd_sign_inv
#print axioms Verif.Props.aux_sd_take
#print axioms Verif.Props.aux_sd_while
#print axioms Verif.Props.aux_senders_step
#print axioms Verif.Props.aux_ser_filter_self
#print axioms Verif.Props.aux_ser_id_range
#print axioms Verif.Props.aux_ser_inj
#print axioms Verif.Props.aux_ser_octets
#print axioms Verif.Props.aux_ser_perm_eraseIdx
#print axioms Verif.Props.aux_ser_perm_filter_ne
#print axioms Verif.Props.aux_ser_pos_mono
#print axioms Verif.Props.aux_ser_srun
#print axioms Verif.Props.aux_ser_sstep
#print axioms Verif.Props.aux_ser_sum_take
#print axioms Verif.Props.aux_set_find
#print axioms Verif.Props.aux_sg_append
#print axioms Verif.Props.aux_sg_calm
#print axioms Verif.Props.aux_sg_fail
#print axioms Verif.Props.aux_sg_feed
#print axioms Verif.Props.aux_sg_first
#print axioms Verif.Props.aux_sg_ind
#print axioms Verif.Props.aux_sg_keep
#print axioms Verif.Props.aux_sg_oend
#print axioms Verif.Props.aux_sg_ofeed
#print axioms Verif.Props.aux_sg_omove
#print axioms Verif.Props.aux_sg_ostep
#print axioms Verif.Props.aux_sg_succeed
#print axioms Verif.Props.aux_sg_tolds_append
#print axioms Verif.Props.aux_sg_values
#print axioms Verif.Props.aux_sg_vfail
#print axioms Verif.Props.aux_sg_vfeed
#print axioms Verif.Props.aux_sg_vset
#print axioms Verif.Props.aux_sg_vstep
#print axioms Verif.Props.aux_sg_vsucceed
#print axioms Verif.Props.aux_sg_wanted
#print axioms Verif.Props.aux_sn_I_run
#print axioms Verif.Props.aux_sn_I_step
#print axioms Verif.Props.aux_sn_base
#print axioms Verif.Props.aux_sn_cut
#print axioms Verif.Props.aux_sn_first
#print axioms Verif.Props.aux_sn_full
#print axioms Verif.Props.aux_sn_last
#print axioms Verif.Props.aux_sn_named
#print axioms Verif.Props.aux_sn_no
#print axioms Verif.Props.aux_sn_notFull
#print axioms Verif.Props.aux_sn_one
#print axioms Verif.Props.aux_sn_reply
#print axioms Verif.Props.aux_sn_same
#print axioms Verif.Props.aux_sn_setC
#print axioms Verif.Props.aux_sn_setS
#print axioms Verif.Props.aux_sn_short
#print axioms Verif.Props.aux_sn_step
#print axioms Verif.Props.aux_sn_told
#print axioms Verif.Props.aux_sn_uri
#print axioms Verif.Props.aux_sp_find_early
#print axioms Verif.Props.aux_sp_find_some
#print axioms Verif.Props.aux_sp_init
#print axioms Verif.Props.aux_sp_run
#print axioms Verif.Props.aux_sp_snoc
#print axioms Verif.Props.aux_sp_split
#print axioms Verif.Props.aux_sp_step
#print axioms Verif.Props.aux_split
#print axioms Verif.Props.aux_sq_abs_queue
#print axioms Verif.Props.aux_sq_apart_spec
#print axioms Verif.Props.aux_sq_att_init
#print axioms Verif.Props.aux_sq_att_run
#print axioms Verif.Props.aux_sq_att_step
#print axioms Verif.Props.aux_sq_busy_step
#print axioms Verif.Props.aux_sq_fapart_spec
#print axioms Verif.Props.aux_sq_framesOn_append
#print axioms Verif.Props.aux_sq_good
#print axioms Verif.Props.aux_sq_mutex
#print axioms Verif.Props.aux_sq_queuedOn_append
#print axioms Verif.Props.aux_sq_queued_snoc
#print axioms Verif.Props.aux_sq_run
#print axioms Verif.Props.aux_sq_run_snoc
#print axioms Verif.Props.aux_sq_sim_silent
#print axioms Verif.Props.aux_sq_sim_step
#print axioms Verif.Props.aux_sq_step
#print axioms Verif.Props.aux_sq_tail_append
#print axioms Verif.Props.aux_st_answer
#print axioms Verif.Props.aux_st_answers_append
#print axioms Verif.Props.aux_st_close
#print axioms Verif.Props.aux_st_cons_append
#print axioms Verif.Props.aux_st_deferred
#print axioms Verif.Props.aux_st_deferred_step
#print axioms Verif.Props.aux_st_disciplined_spec
#print axioms Verif.Props.aux_st_falses_succ
#print axioms Verif.Props.aux_st_found
#print axioms Verif.Props.aux_st_handle
#print axioms Verif.Props.aux_st_init
#print axioms Verif.Props.aux_st_inj
#print axioms Verif.Props.aux_st_live
#print axioms Verif.Props.aux_st_live_of
#print axioms Verif.Props.aux_st_mask_answer
#print axioms Verif.Props.aux_st_mask_init
#print axioms Verif.Props.aux_st_mask_quiet
#print axioms Verif.Props.aux_st_mask_run
#print axioms Verif.Props.aux_st_mask_step
#print axioms Verif.Props.aux_st_masks_append
#print axioms Verif.Props.aux_st_mem_erase
#print axioms Verif.Props.aux_st_mem_set
#print axioms Verif.Props.aux_st_next
#print axioms Verif.Props.aux_st_nums
#print axioms Verif.Props.aux_st_offer
#print axioms Verif.Props.aux_st_quiet
#print axioms Verif.Props.aux_st_receive
#print axioms Verif.Props.aux_st_refuse
#print axioms Verif.Props.aux_st_reg_append
#print axioms Verif.Props.aux_st_run
#print axioms Verif.Props.aux_st_set_reqs
#print axioms Verif.Props.aux_st_step
#print axioms Verif.Props.aux_st_wait
#print axioms Verif.Props.aux_stackRun_append
#print axioms Verif.Props.aux_sv_append_one
#print axioms Verif.Props.aux_sv_good
#print axioms Verif.Props.aux_sv_good_init
#print axioms Verif.Props.aux_sv_good_step
#print axioms Verif.Props.aux_sv_invoked_append
#print axioms Verif.Props.aux_sv_invoked_inv
#print axioms Verif.Props.aux_sv_replies_append
#print axioms Verif.Props.aux_sv_replies_inv
#print axioms Verif.Props.aux_sv_run
#print axioms Verif.Props.aux_sv_step
#print axioms Verif.Props.aux_sy_debt_early
#print axioms Verif.Props.aux_sy_debt_late
#print axioms Verif.Props.aux_sy_debt_malformed
#print axioms Verif.Props.aux_sy_debt_step
#print axioms Verif.Props.aux_sy_past
#print axioms Verif.Props.aux_sy_run
#print axioms Verif.Props.aux_sy_start
#print axioms Verif.Props.aux_sy_step
#print axioms Verif.Props.aux_tail
#print axioms Verif.Props.aux_tb_Eq_ask
#print axioms Verif.Props.aux_tb_Eq_clear
#print axioms Verif.Props.aux_tb_Eq_common
#print axioms Verif.Props.aux_tb_Eq_drop
#print axioms Verif.Props.aux_tb_Eq_dropFile
#print axioms Verif.Props.aux_tb_Eq_dropOpt
#print axioms Verif.Props.aux_tb_Eq_dropSsl
#print axioms Verif.Props.aux_tb_Eq_of
#print axioms Verif.Props.aux_tb_Eq_trans
#print axioms Verif.Props.aux_tb_acceptInv
#print axioms Verif.Props.aux_tb_acceptPhase
#print axioms Verif.Props.aux_tb_activate
#print axioms Verif.Props.aux_tb_alloc
#print axioms Verif.Props.aux_tb_append
#print axioms Verif.Props.aux_tb_asks
#print axioms Verif.Props.aux_tb_clear
#print axioms Verif.Props.aux_tb_clearEmpty
#print axioms Verif.Props.aux_tb_common
#print axioms Verif.Props.aux_tb_commonFiles
#print axioms Verif.Props.aux_tb_connectInv
#print axioms Verif.Props.aux_tb_down
#print axioms Verif.Props.aux_tb_drop
#print axioms Verif.Props.aux_tb_drop_fields
#print axioms Verif.Props.aux_tb_goneEmpty
#print axioms Verif.Props.aux_tb_hold
#print axioms Verif.Props.aux_tb_keep_dropFile
#print axioms Verif.Props.aux_tb_keep_dropOpt
#print axioms Verif.Props.aux_tb_keep_dropSsl
#print axioms Verif.Props.aux_tb_knows
#print axioms Verif.Props.aux_tb_knowsRun
#print axioms Verif.Props.aux_tb_knowsSame
#print axioms Verif.Props.aux_tb_lose
#print axioms Verif.Props.aux_tb_lt
#print axioms Verif.Props.aux_tb_maker
#print axioms Verif.Props.aux_tb_named
#print axioms Verif.Props.aux_tb_newInv
#print axioms Verif.Props.aux_tb_perm
#print axioms Verif.Props.aux_tb_prepareInv
#print axioms Verif.Props.aux_tb_prepareNow
#print axioms Verif.Props.aux_tb_putCert
#print axioms Verif.Props.aux_tb_putCtx
#print axioms Verif.Props.aux_tb_putKey
#print axioms Verif.Props.aux_tb_putMutex
#print axioms Verif.Props.aux_tb_putSsl
#print axioms Verif.Props.aux_tb_report
#print axioms Verif.Props.aux_tb_runInv
#print axioms Verif.Props.aux_tb_same
#print axioms Verif.Props.aux_tb_set
#print axioms Verif.Props.aux_tb_shut
#print axioms Verif.Props.aux_tb_startInv
#print axioms Verif.Props.aux_tb_startPhase
#print axioms Verif.Props.aux_tb_stepInv
#print axioms Verif.Props.aux_tl_after_run
#print axioms Verif.Props.aux_tl_after_step
#print axioms Verif.Props.aux_tl_authed
#print axioms Verif.Props.aux_tl_connect
#print axioms Verif.Props.aux_tl_connect_fail
#print axioms Verif.Props.aux_tl_connect_same
#print axioms Verif.Props.aux_tl_proceed
#print axioms Verif.Props.aux_tl_run
#print axioms Verif.Props.aux_tl_step
#print axioms Verif.Props.aux_tmod
#print axioms Verif.Props.aux_to_get
#print axioms Verif.Props.aux_to_getConnect
#print axioms Verif.Props.aux_to_i32
#print axioms Verif.Props.aux_to_locked
#print axioms Verif.Props.aux_to_run
#print axioms Verif.Props.aux_tp_dropped
#print axioms Verif.Props.aux_tp_fresh_step
#print axioms Verif.Props.aux_tp_loc_exitGo
#print axioms Verif.Props.aux_tp_loc_go
#print axioms Verif.Props.aux_tp_loc_init
#print axioms Verif.Props.aux_tp_loc_run
#print axioms Verif.Props.aux_tp_loc_same
#print axioms Verif.Props.aux_tp_loc_step
#print axioms Verif.Props.aux_tp_map_count
#print axioms Verif.Props.aux_tp_run_append
#print axioms Verif.Props.aux_tp_set_hold
#print axioms Verif.Props.aux_tr_any
#print axioms Verif.Props.aux_tr_attr
#print axioms Verif.Props.aux_tr_doc
#print axioms Verif.Props.aux_tr_hop
#print axioms Verif.Props.aux_tr_layers
#print axioms Verif.Props.aux_tr_noattr
#print axioms Verif.Props.aux_tr_open
#print axioms Verif.Props.aux_tr_refused
#print axioms Verif.Props.aux_tr_serve
#print axioms Verif.Props.aux_tr_serve_end
#print axioms Verif.Props.aux_tr_settings
#print axioms Verif.Props.aux_tr_step
#print axioms Verif.Props.aux_tr_sym
#print axioms Verif.Props.aux_tr_target
#print axioms Verif.Props.aux_trun
#print axioms Verif.Props.aux_tsnoc
#print axioms Verif.Props.aux_tstep
#print axioms Verif.Props.aux_tx_J_init
#print axioms Verif.Props.aux_tx_J_run
#print axioms Verif.Props.aux_tx_J_same
#print axioms Verif.Props.aux_tx_J_set
#print axioms Verif.Props.aux_tx_J_step
#print axioms Verif.Props.aux_tx_K_exit
#print axioms Verif.Props.aux_tx_K_exitGo
#print axioms Verif.Props.aux_tx_K_go
#print axioms Verif.Props.aux_tx_K_init
#print axioms Verif.Props.aux_tx_K_nil
#print axioms Verif.Props.aux_tx_K_run
#print axioms Verif.Props.aux_tx_K_set
#print axioms Verif.Props.aux_tx_K_step
#print axioms Verif.Props.aux_tx_M_run
#print axioms Verif.Props.aux_tx_M_set
#print axioms Verif.Props.aux_tx_M_step
#print axioms Verif.Props.aux_tx_T_set
#print axioms Verif.Props.aux_tx_T_step
#print axioms Verif.Props.aux_tx_U_set
#print axioms Verif.Props.aux_tx_U_step
#print axioms Verif.Props.aux_tx_cnt_in
#print axioms Verif.Props.aux_tx_cnt_out
#print axioms Verif.Props.aux_tx_countP
#print axioms Verif.Props.aux_tx_countP_set
#print axioms Verif.Props.aux_tx_exit_mono
#print axioms Verif.Props.aux_tx_inTask
#print axioms Verif.Props.aux_tx_progress
#print axioms Verif.Props.aux_tx_qs_append
#print axioms Verif.Props.aux_tx_sample_quiet
#print axioms Verif.Props.aux_tx_sum_congr
#print axioms Verif.Props.aux_tx_sum_filter
#print axioms Verif.Props.aux_tx_sum_set
#print axioms Verif.Props.aux_ud_I
#print axioms Verif.Props.aux_ud_all_nil
#print axioms Verif.Props.aux_ud_all_set
#print axioms Verif.Props.aux_ud_destroyed_append
#print axioms Verif.Props.aux_ud_enter_B
#print axioms Verif.Props.aux_ud_enter_open
#print axioms Verif.Props.aux_ud_find_filter
#print axioms Verif.Props.aux_ud_get_event
#print axioms Verif.Props.aux_ud_get_set
#print axioms Verif.Props.aux_ud_go
#print axioms Verif.Props.aux_ud_gos
#print axioms Verif.Props.aux_ud_happened_snoc
#print axioms Verif.Props.aux_ud_init_I
#print axioms Verif.Props.aux_ud_init_all
#print axioms Verif.Props.aux_ud_items_count
#print axioms Verif.Props.aux_ud_last_returned
#print axioms Verif.Props.aux_ud_last_snoc
#print axioms Verif.Props.aux_ud_perform
#print axioms Verif.Props.aux_ud_perform_last
#print axioms Verif.Props.aux_ud_ret_map
#print axioms Verif.Props.aux_ud_returned_append
#print axioms Verif.Props.aux_ud_run_I
#print axioms Verif.Props.aux_ud_run_append
#print axioms Verif.Props.aux_ud_run_snoc
#print axioms Verif.Props.aux_ud_set_get
#print axioms Verif.Props.aux_ud_split
#print axioms Verif.Props.aux_ud_step_B
#print axioms Verif.Props.aux_ud_step_I
#print axioms Verif.Props.aux_ud_step_ending
#print axioms Verif.Props.aux_ud_step_open
#print axioms Verif.Props.aux_ud_step_over
#print axioms Verif.Props.aux_ud_stored_append
#print axioms Verif.Props.aux_unlink_notin
#print axioms Verif.Props.aux_unlink_sub
#print axioms Verif.Props.aux_valuesOf_append
#print axioms Verif.Props.aux_vc_cmp
#print axioms Verif.Props.aux_vc_name
#print axioms Verif.Props.aux_vh_accepted
#print axioms Verif.Props.aux_vh_append
#print axioms Verif.Props.aux_vh_conns
#print axioms Verif.Props.aux_vh_foldl
#print axioms Verif.Props.aux_vh_own
#print axioms Verif.Props.aux_vh_rel
#print axioms Verif.Props.aux_vh_set
#print axioms Verif.Props.aux_wa_after_reader
#print axioms Verif.Props.aux_wa_after_run
#print axioms Verif.Props.aux_wa_after_step
#print axioms Verif.Props.aux_wa_asked_cons
#print axioms Verif.Props.aux_wa_before_step
#print axioms Verif.Props.aux_wa_change_push
#print axioms Verif.Props.aux_wa_change_reader
#print axioms Verif.Props.aux_wa_change_run
#print axioms Verif.Props.aux_wa_change_step
#print axioms Verif.Props.aux_wa_change_upd
#print axioms Verif.Props.aux_wa_changing_reader
#print axioms Verif.Props.aux_wa_close_refs
#print axioms Verif.Props.aux_wa_counts
#print axioms Verif.Props.aux_wa_drained
#print axioms Verif.Props.aux_wa_foreach_events
#print axioms Verif.Props.aux_wa_good_other
#print axioms Verif.Props.aux_wa_good_reader
#print axioms Verif.Props.aux_wa_invariant
#print axioms Verif.Props.aux_wa_noPush
#print axioms Verif.Props.aux_wa_other
#print axioms Verif.Props.aux_wa_owned_reached
#print axioms Verif.Props.aux_wa_owned_reader
#print axioms Verif.Props.aux_wa_owned_step
#print axioms Verif.Props.aux_wa_plain_reader
#print axioms Verif.Props.aux_wa_plain_step
#print axioms Verif.Props.aux_wa_rank_le
#print axioms Verif.Props.aux_wa_reader_keeps
#print axioms Verif.Props.aux_wa_register
#print axioms Verif.Props.aux_wa_register_flags
#print axioms Verif.Props.aux_wa_register_length
#print axioms Verif.Props.aux_wa_register_rest
#print axioms Verif.Props.aux_wa_register_user
#print axioms Verif.Props.aux_wa_run_append
#print axioms Verif.Props.aux_wa_run_cons
#print axioms Verif.Props.aux_wa_scan_down
#print axioms Verif.Props.aux_wa_scan_drop
#print axioms Verif.Props.aux_wa_scan_flags
#print axioms Verif.Props.aux_wa_scan_keep
#print axioms Verif.Props.aux_wa_scan_left
#print axioms Verif.Props.aux_wa_scan_length
#print axioms Verif.Props.aux_wa_scan_refs
#print axioms Verif.Props.aux_wa_scan_set
#print axioms Verif.Props.aux_wa_steady_reader
#print axioms Verif.Props.aux_wa_step_keeps
#print axioms Verif.Props.aux_wa_stop_owned
#print axioms Verif.Props.aux_wa_stopped_event
#print axioms Verif.Props.aux_wa_stopped_run
#print axioms Verif.Props.aux_wa_stopped_step
#print axioms Verif.Props.aux_wa_todo_reached
#print axioms Verif.Props.aux_wa_todo_step
#print axioms Verif.Props.aux_wa_visit_count
#print axioms Verif.Props.aux_wb_last
#print axioms Verif.Props.aux_wb_step
#print axioms Verif.Props.aux_wg_B_run
#print axioms Verif.Props.aux_wg_B_step
#print axioms Verif.Props.aux_wg_B_unref
#print axioms Verif.Props.aux_wg_G_keep
#print axioms Verif.Props.aux_wg_G_run
#print axioms Verif.Props.aux_wg_G_step
#print axioms Verif.Props.aux_wg_M_run
#print axioms Verif.Props.aux_wg_M_step
#print axioms Verif.Props.aux_wg_M_unref
#print axioms Verif.Props.aux_wg_dispatch
#print axioms Verif.Props.aux_wg_doc1
#print axioms Verif.Props.aux_wg_ind
#print axioms Verif.Props.aux_wg_lt
#print axioms Verif.Props.aux_wg_once_ex
#print axioms Verif.Props.aux_wg_once_init
#print axioms Verif.Props.aux_wg_run_append
#print axioms Verif.Props.aux_wg_sent_le
#print axioms Verif.Props.aux_wg_snoc
#print axioms Verif.Props.aux_wg_unref
#print axioms Verif.Props.aux_wg_waSent
#print axioms Verif.Props.aux_wg_waSent_eq
#print axioms Verif.Props.aux_wk_append
#print axioms Verif.Props.aux_wk_greet
#print axioms Verif.Props.aux_wk_init
#print axioms Verif.Props.aux_wk_modify
#print axioms Verif.Props.aux_wk_namedPost
#print axioms Verif.Props.aux_wk_namedPosts
#print axioms Verif.Props.aux_wk_namedRun
#print axioms Verif.Props.aux_wk_namedStep
#print axioms Verif.Props.aux_wk_once
#print axioms Verif.Props.aux_wk_post
#print axioms Verif.Props.aux_wk_posts
#print axioms Verif.Props.aux_wk_run
#print axioms Verif.Props.aux_wk_step
#print axioms Verif.Props.aux_wm_F_cref
#print axioms Verif.Props.aux_wm_F_drop
#print axioms Verif.Props.aux_wm_F_remove
#print axioms Verif.Props.aux_wm_F_step
#print axioms Verif.Props.aux_wm_K_cref
#print axioms Verif.Props.aux_wm_K_drop
#print axioms Verif.Props.aux_wm_K_remove
#print axioms Verif.Props.aux_wm_K_step
#print axioms Verif.Props.aux_wm_alive
#print axioms Verif.Props.aux_wm_all
#print axioms Verif.Props.aux_wm_cross
#print axioms Verif.Props.aux_wm_drop
#print axioms Verif.Props.aux_wm_fm_frame
#print axioms Verif.Props.aux_wm_fm_gone
#print axioms Verif.Props.aux_wm_free
#print axioms Verif.Props.aux_wm_freed
#print axioms Verif.Props.aux_wm_giveup
#print axioms Verif.Props.aux_wm_ind
#print axioms Verif.Props.aux_wm_ind2
#print axioms Verif.Props.aux_wm_init
#print axioms Verif.Props.aux_wm_main
#print axioms Verif.Props.aux_wm_own01
#print axioms Verif.Props.aux_wm_qalive
#print axioms Verif.Props.aux_wm_qfreed
#print axioms Verif.Props.aux_wm_qtouch
#print axioms Verif.Props.aux_wm_qunref
#print axioms Verif.Props.aux_wm_slot
#print axioms Verif.Props.aux_wm_step
#print axioms Verif.Props.aux_wm_t1
#print axioms Verif.Props.aux_wm_t2
#print axioms Verif.Props.aux_wm_t3
#print axioms Verif.Props.aux_wm_t4
#print axioms Verif.Props.aux_wm_t5
#print axioms Verif.Props.aux_wm_t6
#print axioms Verif.Props.aux_wm_touch
#print axioms Verif.Props.aux_wm_unref
#print axioms Verif.Props.aux_wm_user
#print axioms Verif.Props.aux_wm_wref01
#print axioms Verif.Props.aux_wr_binit
#print axioms Verif.Props.aux_wr_brun
#print axioms Verif.Props.aux_wr_bstep
#print axioms Verif.Props.aux_wr_dispatch
#print axioms Verif.Props.aux_wr_dispatch_keeps
#print axioms Verif.Props.aux_wr_ghist
#print axioms Verif.Props.aux_wr_given_append
#print axioms Verif.Props.aux_wr_gphase
#print axioms Verif.Props.aux_wr_gquiet
#print axioms Verif.Props.aux_wr_greply
#print axioms Verif.Props.aux_wr_grun
#print axioms Verif.Props.aux_wr_gsend
#print axioms Verif.Props.aux_wr_gstep
#print axioms Verif.Props.aux_wr_gtail
#print axioms Verif.Props.aux_wr_hhist
#print axioms Verif.Props.aux_wr_hone
#print axioms Verif.Props.aux_wr_hrun
#print axioms Verif.Props.aux_wr_hsame
#print axioms Verif.Props.aux_wr_hstep
#print axioms Verif.Props.aux_wr_i32_small
#print axioms Verif.Props.aux_wr_mem_sent
#print axioms Verif.Props.aux_wr_one_left
#print axioms Verif.Props.aux_wr_putAt_ne
#print axioms Verif.Props.aux_wr_putAt_same
#print axioms Verif.Props.aux_wr_sendMsg
#print axioms Verif.Props.aux_wr_send_shape
#print axioms Verif.Props.aux_wr_sentLog_append
#print axioms Verif.Props.aux_wr_stays_broken
#print axioms Verif.Props.aux_wr_unique
#print axioms Verif.Props.aux_wr_woken_one
#print axioms Verif.Props.aux_wr_woken_run
#print axioms Verif.Props.aux_wr_woken_step
#print axioms Verif.Props.aux_ws_dropped
#print axioms Verif.Props.aux_ws_init
#print axioms Verif.Props.aux_ws_keep
#print axioms Verif.Props.aux_ws_ok
#print axioms Verif.Props.aux_ws_reached
#print axioms Verif.Props.aux_ws_run
#print axioms Verif.Props.aux_ws_step
#print axioms Verif.Props.aux_xi
#print axioms Verif.Props.aux_xi_init
#print axioms Verif.Props.aux_xi_run
#print axioms Verif.Props.aux_xi_step
#print axioms Verif.Props.aux_xi_tolds_append
#print axioms Verif.Props.aux_xl_add
#print axioms Verif.Props.aux_xl_set_perm
#print axioms Verif.Props.aux_xr_params
#print axioms Verif.Props.aux_xr_parsed
#print axioms Verif.Props.aux_xr_response
#print axioms Verif.Props.aux_xr_wrap
#print axioms Verif.Props.aux_xs_error
#print axioms Verif.Props.aux_xs_fold
#print axioms Verif.Props.aux_xs_known
#print axioms Verif.Props.aux_xs_names
#print axioms Verif.Props.aux_xs_of
#print axioms Verif.Props.aux_xs_types
#print axioms Verif.Props.aux_xv_K_app
#print axioms Verif.Props.aux_xv_K_free
#print axioms Verif.Props.aux_xv_K_refl
#print axioms Verif.Props.aux_xv_K_set
#print axioms Verif.Props.aux_xv_K_step
#print axioms Verif.Props.aux_xv_K_trans
#print axioms Verif.Props.aux_xv_T_step
#print axioms Verif.Props.aux_xv_add
#print axioms Verif.Props.aux_xv_add_inside
#print axioms Verif.Props.aux_xv_app_inside
#print axioms Verif.Props.aux_xv_bump
#print axioms Verif.Props.aux_xv_case_obeys
#print axioms Verif.Props.aux_xv_chain
#print axioms Verif.Props.aux_xv_closed
#print axioms Verif.Props.aux_xv_count_cons
#print axioms Verif.Props.aux_xv_e_lt
#print axioms Verif.Props.aux_xv_erase
#print axioms Verif.Props.aux_xv_ext
#print axioms Verif.Props.aux_xv_fr
#print axioms Verif.Props.aux_xv_free
#print axioms Verif.Props.aux_xv_in
#print axioms Verif.Props.aux_xv_is
#print axioms Verif.Props.aux_xv_kc_app
#print axioms Verif.Props.aux_xv_kc_mem
#print axioms Verif.Props.aux_xv_kc_pos
#print axioms Verif.Props.aux_xv_kc_set
#print axioms Verif.Props.aux_xv_kid_lt
#print axioms Verif.Props.aux_xv_live
#print axioms Verif.Props.aux_xv_lt
#print axioms Verif.Props.aux_xv_make
#print axioms Verif.Props.aux_xv_make_S
#print axioms Verif.Props.aux_xv_mono
#print axioms Verif.Props.aux_xv_obj
#print axioms Verif.Props.aux_xv_pigeon
#print axioms Verif.Props.aux_xv_reach
#print axioms Verif.Props.aux_xv_release
#print axioms Verif.Props.aux_xv_release_held
#print axioms Verif.Props.aux_xv_released
#print axioms Verif.Props.aux_xv_rf_big
#print axioms Verif.Props.aux_xv_rf_set
#print axioms Verif.Props.aux_xv_rf_some
#print axioms Verif.Props.aux_xv_run
#print axioms Verif.Props.aux_xv_set
#print axioms Verif.Props.aux_xv_set_mono
#print axioms Verif.Props.aux_xv_set_ok
#print axioms Verif.Props.aux_xv_start
#print axioms Verif.Props.aux_xv_step
#print axioms Verif.Props.aux_xv_take
#print axioms Verif.Props.aux_xv_total_set
#print axioms Verif.Props.aux_xv_trans
#print axioms Verif.Props.aux_xv_two
#print axioms Verif.Props.aux_xv_use
#print axioms Verif.Props.aux_ya_fits
#print axioms Verif.Props.aux_ya_flag
#print axioms Verif.Props.aux_ya_int
#print axioms Verif.Props.aux_ya_meant
#print axioms Verif.Props.aux_ya_none
#print axioms Verif.Props.aux_ya_raisedName
#print axioms Verif.Props.aux_ya_raisedNo
#print axioms Verif.Props.aux_ya_say
#print axioms Verif.Props.aux_ya_str
#print axioms Verif.Props.aux_ya_strNone
#print axioms Verif.Props.aux_ya_strSome
#print axioms Verif.Props.aux_ya_unreadInt
#print axioms Verif.Props.aux_ye_act
#print axioms Verif.Props.aux_ye_actKeeps
#print axioms Verif.Props.aux_ye_acts
#print axioms Verif.Props.aux_ye_calls
#print axioms Verif.Props.aux_ye_end
#print axioms Verif.Props.aux_ye_fold
#print axioms Verif.Props.aux_ye_held
#print axioms Verif.Props.aux_ye_inv
#print axioms Verif.Props.aux_ye_pool
#print axioms Verif.Props.aux_ye_run
#print axioms Verif.Props.aux_ye_seeFate
#print axioms Verif.Props.aux_ye_step
#print axioms Verif.Props.aux_yf_accepted
#print axioms Verif.Props.aux_yf_badStays
#print axioms Verif.Props.aux_yf_countErase
#print axioms Verif.Props.aux_yf_dropData
#print axioms Verif.Props.aux_yf_dropHandler
#print axioms Verif.Props.aux_yf_filterErase
#print axioms Verif.Props.aux_yf_force
#print axioms Verif.Props.aux_yf_quietInv
#print axioms Verif.Props.aux_yf_quietPre
#print axioms Verif.Props.aux_yf_run
#print axioms Verif.Props.aux_yf_runInv
#print axioms Verif.Props.aux_yf_snoc
#print axioms Verif.Props.aux_yf_stepInv
#print axioms Verif.Props.aux_yg_append
#print axioms Verif.Props.aux_yg_calm0
#print axioms Verif.Props.aux_yg_calmRun
#print axioms Verif.Props.aux_yg_calmStep
#print axioms Verif.Props.aux_yg_dropAlive
#print axioms Verif.Props.aux_yg_dropAll
#print axioms Verif.Props.aux_yg_given
#print axioms Verif.Props.aux_yg_mem
#print axioms Verif.Props.aux_yg_run
#print axioms Verif.Props.aux_yg_step
#print axioms Verif.Props.aux_yp_alive
#print axioms Verif.Props.aux_yp_append
#print axioms Verif.Props.aux_yp_calls
#print axioms Verif.Props.aux_yp_channel
#print axioms Verif.Props.aux_yp_channelGood
#print axioms Verif.Props.aux_yp_channels
#print axioms Verif.Props.aux_yp_channelsGood
#print axioms Verif.Props.aux_yp_channelsLock
#print axioms Verif.Props.aux_yp_collect
#print axioms Verif.Props.aux_yp_collectCalls
#print axioms Verif.Props.aux_yp_collectLock
#print axioms Verif.Props.aux_yp_freeBad
#print axioms Verif.Props.aux_yp_run
#print axioms Verif.Props.aux_yp_runInv
#print axioms Verif.Props.aux_yp_same
#print axioms Verif.Props.aux_yp_snoc
#print axioms Verif.Props.aux_yp_step
