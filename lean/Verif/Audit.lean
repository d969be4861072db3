import Verif.Props.Amplify
import Verif.Props.Borrow
import Verif.Props.Capacity
import Verif.Props.ChatNews
import Verif.Props.ChatOpen
import Verif.Props.ChatPeers
import Verif.Props.ChatRegistry
import Verif.Props.ChatScreen
import Verif.Props.ChatStart
import Verif.Props.ChatUser
import Verif.Props.Client
import Verif.Props.CloseIdle
import Verif.Props.Closing
import Verif.Props.Codec
import Verif.Props.Conversation
import Verif.Props.Costs
import Verif.Props.Counter
import Verif.Props.CutWrite
import Verif.Props.Deadlines
import Verif.Props.Dns
import Verif.Props.DoH
import Verif.Props.Documented
import Verif.Props.Draft
import Verif.Props.EndToEnd
import Verif.Props.EofWithData
import Verif.Props.Ephemeral
import Verif.Props.Errors
import Verif.Props.FetcherCache
import Verif.Props.Flag
import Verif.Props.Flow
import Verif.Props.FlowContent
import Verif.Props.FlowDial
import Verif.Props.FlowReads
import Verif.Props.Handler
import Verif.Props.Handshake
import Verif.Props.IdleLog
import Verif.Props.InStep
import Verif.Props.KeepAlive
import Verif.Props.KeySources
import Verif.Props.Keys
import Verif.Props.LateStart
import Verif.Props.Leak
import Verif.Props.LeakClient
import Verif.Props.Lifecycle
import Verif.Props.Limits
import Verif.Props.LogView
import Verif.Props.LongTermKey
import Verif.Props.Lossy
import Verif.Props.LostDatagram
import Verif.Props.LostSession
import Verif.Props.Manager
import Verif.Props.Memory
import Verif.Props.Names
import Verif.Props.Nonce
import Verif.Props.NonceUsed
import Verif.Props.Once
import Verif.Props.Options
import Verif.Props.Order
import Verif.Props.PacketDeadline
import Verif.Props.Panic
import Verif.Props.Pool
import Verif.Props.PoolClose
import Verif.Props.PoolCloseBusy
import Verif.Props.PoolClosed
import Verif.Props.PoolDial
import Verif.Props.PoolHolder
import Verif.Props.PoolKept
import Verif.Props.PoolLag
import Verif.Props.PoolRestart
import Verif.Props.PoolSessions
import Verif.Props.Production
import Verif.Props.Prompt
import Verif.Props.ProtocolFetcher
import Verif.Props.Publish
import Verif.Props.QuickStart
import Verif.Props.ReaderContract
import Verif.Props.Reencode
import Verif.Props.RemoteAddr
import Verif.Props.Replace
import Verif.Props.Replay
import Verif.Props.Reported
import Verif.Props.Reserved
import Verif.Props.Robust
import Verif.Props.Rotation
import Verif.Props.Serve
import Verif.Props.ServerLog
import Verif.Props.Session
import Verif.Props.SharedClient
import Verif.Props.SharedClose
import Verif.Props.SharedManager
import Verif.Props.Shutdown
import Verif.Props.Sign
import Verif.Props.Silence
import Verif.Props.Silent
import Verif.Props.SlowPeer
import Verif.Props.SlowServer
import Verif.Props.Spared
import Verif.Props.StdIO
import Verif.Props.System
import Verif.Props.TooLong
import Verif.Props.UDP
import Verif.Props.UDPClientLife
import Verif.Props.URL
import Verif.Props.Unasked
import Verif.Props.Veil
import Verif.Props.VeilClient
import Verif.Props.WaitGroup

/-!
# Axioms of every theorem named in MANIFEST.json

The build prints them: `propext`, `Classical.choice` and `Quot.sound` only.
-/

#print axioms Goe2ee.C01_header_parse
#print axioms Goe2ee.C01_header_roundtrip
#print axioms Goe2ee.C01_header_total
#print axioms Goe2ee.C02_setup_request_layout
#print axioms Goe2ee.C02_setup_request_roundtrip
#print axioms Goe2ee.C03_setup_response_layout
#print axioms Goe2ee.C03_setup_response_roundtrip
#print axioms Goe2ee.C03_empty_signature_not_parsed
#print axioms Goe2ee.C04_process_request_layout
#print axioms Goe2ee.C04_process_request_roundtrip
#print axioms Goe2ee.C05_process_response_layout
#print axioms Goe2ee.C05_process_response_roundtrip
#print axioms Goe2ee.C06_fetch_key_response_layout
#print axioms Goe2ee.C06_fetch_key_response_roundtrip
#print axioms Goe2ee.C07_error_response_layout
#print axioms Goe2ee.C07_error_response_roundtrip
#print axioms Goe2ee.C07_error_size_negative
#print axioms Goe2ee.C08_success_flag
#print axioms Goe2ee.C08_expect_reply_flag
#print axioms Goe2ee.C08_reserved_request_bits
#print axioms Goe2ee.C08_reserved_response_bits
#print axioms Goe2ee.C08_reserved_setup_bits
#print axioms Goe2ee.C08_reserved_fetch_key_bits
#print axioms Goe2ee.C08_reserved_error_bits
#print axioms Goe2ee.C09_setup_allocations_partial
#print axioms Goe2ee.C09_process_allocations_partial
#print axioms Goe2ee.C09_fetch_key_allocations_partial
#print axioms Goe2ee.C09_process_request_oversize
#print axioms Goe2ee.C09_process_response_oversize
#print axioms Goe2ee.C09_setup_request_oversize
#print axioms Goe2ee.C09_setup_response_signature_oversize
#print axioms Goe2ee.C09_fetch_key_oversize
#print axioms Goe2ee.C09_error_text_unbounded
#print axioms Goe2ee.C09_not_claim
#print axioms Goe2ee.C10_setup_request
#print axioms Goe2ee.C10_setup_response
#print axioms Goe2ee.C10_process_request
#print axioms Goe2ee.C10_process_response
#print axioms Goe2ee.C10_fetch_key_response
#print axioms Goe2ee.C10_error_response
#print axioms Goe2ee.C11_segmentation_independent
#print axioms Goe2ee.C11_unread_is_suffix
#print axioms Goe2ee.C11_end_with_data
#print axioms Goe2ee.C12_nonce_layout
#print axioms Goe2ee.C12_nonce_injective
#print axioms Goe2ee.C12_used
#print axioms Goe2ee.C12_directions_disjoint
#print axioms Goe2ee.C12_nonce_size
#print axioms Goe2ee.C12_eight_octets_not_injective
#print axioms Goe2ee.C13_transcript_layout
#print axioms Goe2ee.C13_transcript_injective
#print axioms Goe2ee.C13_length_prefixes_suffice
#print axioms Goe2ee.C14_authenticated
#print axioms Goe2ee.C14_request_sent
#print axioms Goe2ee.C15_honest_handshake
#print axioms Goe2ee.C15_server_answer
#print axioms Goe2ee.C16_hash_octet_panics
#print axioms Goe2ee.C16_nil_key_panics
#print axioms Goe2ee.C16_no_other_panic_partial
#print axioms Goe2ee.C17_replay_filter_exact
#print axioms Goe2ee.C18_handled_at_most_once
#print axioms Goe2ee.C19_fresh_messages_are_delivered
#print axioms Goe2ee.stored_session_exists
#print axioms Goe2ee.C20_forged_request_partial
#print axioms Goe2ee.C20_forged_counter_blocks
#print axioms Goe2ee.C21_nonces_unique_partial
#print axioms Goe2ee.C21_own_counter
#print axioms Goe2ee.C21_reuse_after_exhaustion
#print axioms Goe2ee.C22_reply_nonces_unique
#print axioms Goe2ee.C22_key_nonce_unique
#print axioms Goe2ee.C23_stale_data
#print axioms Goe2ee.C23_only_authentic_partial
#print axioms Goe2ee.C23_reply_authentic_partial
#print axioms Goe2ee.C24_end_to_end
#print axioms Goe2ee.C24_conversation
#print axioms Goe2ee.C25_returns_wire_length
#print axioms Goe2ee.C25_count_partial
#print axioms Goe2ee.C26_empty_reply
#print axioms Goe2ee.C26_not_claim
#print axioms Goe2ee.C26_reads_partial
#print axioms Goe2ee.C27_fire_and_forget_partial
#print axioms Goe2ee.C27_error_responses_are_sent
#print axioms Goe2ee.C28_one_response_per_request
#print axioms Goe2ee.C29_unsupported_version_partial
#print axioms Goe2ee.C29_no_error_response
#print axioms Goe2ee.C30_server_survives
#print axioms Goe2ee.C30_datagram_survives
#print axioms Goe2ee.C31_own_session
#print axioms Goe2ee.C31_no_shared_session
#print axioms Goe2ee.C31_unknown_client
#print axioms Goe2ee.C32_refused_setup_partial
#print axioms Goe2ee.C32_malformed_setup_partial
#print axioms Goe2ee.C32_other_sessions_partial
#print axioms Goe2ee.C32_session_stored_before_signing
#print axioms Goe2ee.C33_setup_installs
#print axioms Goe2ee.C33_new_session_works
#print axioms Goe2ee.C34_latest_store
#print axioms Goe2ee.C34_active_sessions_stay
#print axioms Goe2ee.C34_idle_sessions_expire
#print axioms Goe2ee.C34_without_collector
#print axioms Goe2ee.C35_lost_update
#print axioms Goe2ee.C35_collected_while_fresh
#print axioms Goe2ee.C35_undisturbed_store_partial
#print axioms Goe2ee.C36_justified_partial
#print axioms Goe2ee.C36_hit_alone_partial
#print axioms Goe2ee.C36_failure_not_cached
#print axioms Goe2ee.C36_collector_keeps_fresh
#print axioms Goe2ee.C36_age_refuted
#print axioms Goe2ee.C36_hit_refuted
#print axioms Goe2ee.C37_round_trip
#print axioms Goe2ee.C38_no_panic
#print axioms Goe2ee.C38_accepts_partial
#print axioms Goe2ee.C38_malformed
#print axioms Goe2ee.C38_malformed_accepted
#print axioms Goe2ee.C39_first_partial
#print axioms Goe2ee.C39_found
#print axioms Goe2ee.C39_unusable
#print axioms Goe2ee.C40_signature_verifies
#print axioms Goe2ee.C40_algorithm_tag
#print axioms Goe2ee.C40_unsupported_hash
#print axioms Goe2ee.C40_unsupported_key
#print axioms Goe2ee.C40_signs
#print axioms Goe2ee.C41_refuted
#print axioms Goe2ee.C41_limit_partial
#print axioms Goe2ee.C42_exclusive
#print axioms Goe2ee.C43_refuted
#print axioms Goe2ee.C43_served_partial
#print axioms Goe2ee.C44_refuted
#print axioms Goe2ee.C44_diverges
#print axioms Goe2ee.C44_first_alive_partial
#print axioms Goe2ee.C44_dials_partial
#print axioms Goe2ee.C45_one_session
#print axioms Goe2ee.C46_refuted
#print axioms Goe2ee.C46_refuted_waiting
#print axioms Goe2ee.C46_before_close_partial
#print axioms Goe2ee.C46_no_close_partial
#print axioms Goe2ee.C47_refuted
#print axioms Goe2ee.C47_empty_buffer_partial
#print axioms Goe2ee.C48_one_answer
#print axioms Goe2ee.C48_answers_sender
#print axioms Goe2ee.C48_model_is_udpconn
#print axioms Goe2ee.C48_close_result
#print axioms Goe2ee.C48_unbuffered
#print axioms Goe2ee.C49_not_claim
#print axioms Goe2ee.C49_stale_blocks
#print axioms Goe2ee.C49_never_recovers
#print axioms Goe2ee.C49_next_datagram_partial
#print axioms Goe2ee.C49_model_is_udpconn
#print axioms Goe2ee.C50_not_claim
#print axioms Goe2ee.C50_udp_stays_open
#print axioms Goe2ee.C50_tcp_partial
#print axioms Goe2ee.C51_datagram_after_close
#print axioms Goe2ee.C51_nothing_after_close_partial
#print axioms Goe2ee.C52_no_continuation_after_partial_write
#print axioms Goe2ee.C53_uuid_version4
#print axioms Goe2ee.C53_uuid_error
#print axioms Goe2ee.C54_requests_are_consumed_partial
#print axioms Goe2ee.C54_body_is_interpreted
#print axioms Goe2ee.C55_derive_key_is_hkdf
#print axioms Goe2ee.C55_derived_length
#print axioms Goe2ee.C55_shorter_is_prefix
#print axioms Goe2ee.C55_aead_key
#print axioms Goe2ee.C56_refuted
#print axioms Goe2ee.C56_before_deadline_partial
#print axioms Goe2ee.C56_no_timeouts_partial
#print axioms Goe2ee.C56_expired_write
#print axioms Goe2ee.C56_expired_read
#print axioms Goe2ee.C56_write_then_idle
#print axioms Goe2ee.C57_prompt_request_answered_partial
#print axioms Goe2ee.C57_prompt_requests_answered_partial
#print axioms Goe2ee.C57_late_request_unanswered
#print axioms Goe2ee.C58_header
#print axioms Goe2ee.C58_process_request
#print axioms Goe2ee.C58_process_response
#print axioms Goe2ee.C58_fetch_key_response
#print axioms Goe2ee.C58_error_response
#print axioms Goe2ee.C58_expect_reply_bit
#print axioms Goe2ee.C59_hash_identifiers
#print axioms Goe2ee.C59_understood
#print axioms Goe2ee.C60_udp_handshake
#print axioms Goe2ee.C60_tcp_keep_alive
#print axioms Goe2ee.C60_tcp_partial
#print axioms Goe2ee.C61_last_answer_partial
#print axioms Goe2ee.C61_stale_store
#print axioms Goe2ee.C62_safe_partial
#print axioms Goe2ee.C62_crash
#print axioms Goe2ee.C63_fetches_published_key
#print axioms Goe2ee.C63_server_answer
#print axioms Goe2ee.C63_request_sent
#print axioms Goe2ee.C64_no_panic
#print axioms Goe2ee.C64_key_from_peer
#print axioms Goe2ee.C64_socket_closed
#print axioms Goe2ee.C64_other_networks
#print axioms Goe2ee.C65_race_free
#print axioms Goe2ee.C65_holds
#print axioms Goe2ee.C66_refuted
#print axioms Goe2ee.C66_lent_twice
#print axioms Goe2ee.C67_idle_limit
#print axioms Goe2ee.C68_holder_moves
#print axioms Goe2ee.C68_holder
#print axioms Goe2ee.C68_released
#print axioms Goe2ee.C69_refuted
#print axioms Goe2ee.C69_clean_partial
#print axioms Goe2ee.C69_test_passes
#print axioms Goe2ee.C69_test_means
#print axioms Goe2ee.C70_key_is_certified
#print axioms Goe2ee.C70_succeeds
#print axioms Goe2ee.C70_closes
#print axioms Goe2ee.C71_refuted
#print axioms Goe2ee.C71_names_partial
#print axioms Goe2ee.C72_pem_manager_works
#print axioms Goe2ee.C72_pem_refuses
#print axioms Goe2ee.C72_generated_algorithm
#print axioms Goe2ee.C72_generates
#print axioms Goe2ee.C73_refuted
#print axioms Goe2ee.C73_matching_files_partial
#print axioms Goe2ee.C73_block_type_partial
#print axioms Goe2ee.C74_refuted
#print axioms Goe2ee.C74_read_partial
#print axioms Goe2ee.C74_write_partial
#print axioms Goe2ee.C74_read_ignores
#print axioms Goe2ee.C74_write_ignores
#print axioms Goe2ee.C74_default_client
#print axioms Goe2ee.C75_refuted
#print axioms Goe2ee.C75_read_partial
#print axioms Goe2ee.C75_test_partial
#print axioms Goe2ee.C75_dial_waits
#print axioms Goe2ee.C75_test_waits
#print axioms Goe2ee.C76_refuted
#print axioms Goe2ee.C76_closes_partial
#print axioms Goe2ee.C76_busy_partial
#print axioms Goe2ee.C76_stays_empty_partial
#print axioms Goe2ee.C76_fresh_sessions_partial
#print axioms Goe2ee.C76_new_session_partial
#print axioms Goe2ee.C77_refuted
#print axioms Goe2ee.C77_one_more_partial
#print axioms Goe2ee.C77_refused_partial
#print axioms Goe2ee.C78_refuted
#print axioms Goe2ee.C78_returns_partial
#print axioms Goe2ee.C78_no_panic_partial
#print axioms Goe2ee.C79_refuted
#print axioms Goe2ee.C79_process_partial
#print axioms Goe2ee.C79_oversize_process_partial
#print axioms Goe2ee.C79_oversize_setup_partial
#print axioms Goe2ee.C80_refuted
#print axioms Goe2ee.C80_window_partial
#print axioms Goe2ee.C81_session_stays
#print axioms Goe2ee.C81_reuse
#print axioms Goe2ee.C82_slow_response_lost
#print axioms Goe2ee.C82_prompt_response_partial
#print axioms Goe2ee.C82_others_do_not_harm_partial
#print axioms Goe2ee.C83_server_discloses
#print axioms Goe2ee.C83_wire_is_writes
#print axioms Goe2ee.C84_client_discloses
#print axioms Goe2ee.C85_no_limit
#print axioms Goe2ee.C85_one_peer_fills
#print axioms Goe2ee.C85_a_setup_each_partial
#print axioms Goe2ee.C86_refuted
#print axioms Goe2ee.C86_only_waiting_partial
#print axioms Goe2ee.C86_rest_is_reached
#print axioms Goe2ee.C86_closed_by_next_client
#print axioms Goe2ee.C87_refuted
#print axioms Goe2ee.C87_what_remains_partial
#print axioms Goe2ee.C87_default_manager_partial
#print axioms Goe2ee.C87_close_returns
#print axioms Goe2ee.C87_silent_client
#print axioms Goe2ee.C88_refuted
#print axioms Goe2ee.C88_nil_logger
#print axioms Goe2ee.C88_sound_options_partial
#print axioms Goe2ee.C88_nil_managers
#print axioms Goe2ee.C88_second_close
#print axioms Goe2ee.C89_refuted
#print axioms Goe2ee.C89_before_close_partial
#print axioms Goe2ee.C89_tcp_finished
#print axioms Goe2ee.C90_agreement
#print axioms Goe2ee.C91_authentic
#print axioms Goe2ee.C91_at_most_as_often
#print axioms Goe2ee.C92_reply_to_message
#print axioms Goe2ee.C93_refuted
#print axioms Goe2ee.C93_sessions_come_from_setups
#print axioms Goe2ee.C93_only_from_there_partial
#print axioms Goe2ee.C93_undisturbed_partial
#print axioms Goe2ee.C94_refuted
#print axioms Goe2ee.C94_bounded_partial
#print axioms Goe2ee.sent_is_write
#print axioms Goe2ee.C95_one_response
#print axioms Goe2ee.C95_in_step
#print axioms Goe2ee.C96_refuted
#print axioms Goe2ee.C96_before_reply_partial
#print axioms Goe2ee.C96_udp_partial
#print axioms Goe2ee.C97_refuted
#print axioms Goe2ee.C97_last_reply_partial
#print axioms Goe2ee.C98_refuted
#print axioms Goe2ee.C98_whole_partial
#print axioms Goe2ee.C98_swallowed
#print axioms Goe2ee.C99_refuted
#print axioms Goe2ee.C99_dead
#print axioms Goe2ee.C99_stored_partial
#print axioms Goe2ee.C100_refuted
#print axioms Goe2ee.C100_later_partial
#print axioms Goe2ee.C101_introduced
#print axioms Goe2ee.C102_refuted
#print axioms Goe2ee.C102_later_partial
#print axioms Goe2ee.C103_refuted
#print axioms Goe2ee.C103_answered_partial
#print axioms Goe2ee.C104_refuted
#print axioms Goe2ee.C104_later_partial
#print axioms Goe2ee.C105_refuted
#print axioms Goe2ee.C105_waits
#print axioms Goe2ee.C105_returns_partial
#print axioms Goe2ee.C106_refuted
#print axioms Goe2ee.C106_overtaken
#print axioms Goe2ee.C106_overtaken_partial
#print axioms Goe2ee.C107_read_while_write
#print axioms Goe2ee.C108_refuted
#print axioms Goe2ee.C108_once_partial
#print axioms Goe2ee.C109_refuted
#print axioms Goe2ee.C109_no_race_partial
#print axioms Goe2ee.C110_refuted
#print axioms Goe2ee.C110_no_crash_partial
#print axioms Goe2ee.C110_messages_partial
#print axioms Goe2ee.C111_refuted
#print axioms Goe2ee.C111_writer_partial
#print axioms Goe2ee.C111_reader_partial
#print axioms Goe2ee.C111_printer_partial
#print axioms Goe2ee.C112_answered_is_shown
#print axioms Goe2ee.C112_not_twice
#print axioms Goe2ee.C113_refuted
#print axioms Goe2ee.C113_news_partial
#print axioms Goe2ee.C114_refuted
#print axioms Goe2ee.C114_stuck
#print axioms Goe2ee.C114_ends_partial
#print axioms Goe2ee.C115_refuted
#print axioms Goe2ee.C115_owned_partial
#print axioms Goe2ee.C116_map_exclusive
#print axioms Goe2ee.C117_refuted
#print axioms Goe2ee.C117_own_partial
#print axioms Goe2ee.C118_everybody_once
#print axioms Goe2ee.C119_write_open
#print axioms Goe2ee.C119_listed_open
#print axioms Goe2ee.C120_announced
#print axioms Goe2ee.C120_left_shown
#print axioms Goe2ee.C121_refuted
#print axioms Goe2ee.C121_gone_partial
#print axioms Goe2ee.C122_refuted
#print axioms Goe2ee.C122_bounded
#print axioms Goe2ee.C122_room_partial
#print axioms Goe2ee.C123_every_exchange_completes
#print axioms Goe2ee.C123_write_fails_when_closed
#print axioms Goe2ee.C123_reads
#print axioms Goe2ee.C124_replies_in_order
#print axioms Goe2ee.C124_all_replies
#print axioms Goe2ee.C125_refuted
#print axioms Goe2ee.C125_header_allocates
#print axioms Goe2ee.C125_complete_requests_partial
#print axioms Goe2ee.C125_setup_bounded_partial
#print axioms Goe2ee.C126_refuted
#print axioms Goe2ee.C126_copy_stops
#print axioms Goe2ee.C126_multi_writer_fails
#print axioms Goe2ee.C126_error_only_partial
#print axioms Goe2ee.C127_refuted
#print axioms Goe2ee.C127_empty_reply
#print axioms Goe2ee.C127_read_all_partial
#print axioms Goe2ee.C128_replies_in_order
#print axioms Goe2ee.C128_all_replies
#print axioms Goe2ee.C129_replies_in_order
#print axioms Goe2ee.C129_all_replies
#print axioms Goe2ee.C130_refuted
#print axioms Goe2ee.C130_other_hosts_partial
#print axioms Goe2ee.C131_parameters
#print axioms Goe2ee.C131_own_parameters
#print axioms Goe2ee.C131_one_name
#print axioms Goe2ee.C131_octets
#print axioms Goe2ee.C132_refuted
#print axioms Goe2ee.C132_plain_partial
#print axioms Goe2ee.C133_refuted
#print axioms Goe2ee.C133_no_timeout_method
#print axioms Goe2ee.C133_read_partial
#print axioms Goe2ee.C133_only_partial
#print axioms Goe2ee.C133_write_partial
#print axioms Goe2ee.C134_refuted
#print axioms Goe2ee.C134_cut_reply
#print axioms Goe2ee.C134_plain_partial
#print axioms Goe2ee.C134_between_partial
#print axioms Goe2ee.C135_loss
#print axioms Goe2ee.C136_refuted
#print axioms Goe2ee.C136_within_partial
#print axioms Goe2ee.C137_ephemeral_keys_once
#print axioms Goe2ee.C138_refuted
#print axioms Goe2ee.C138_distinct_partial
#print axioms Goe2ee.C138_increasing_partial
#print axioms Goe2ee.C138_unshared_partial
#print axioms Goe2ee.C139_reads
#print axioms Goe2ee.C139_writes
#print axioms Goe2ee.C139_reply
#print axioms Goe2ee.C139_conversation
#print axioms Goe2ee.C139_program
#print axioms Goe2ee.C140_dial
#print axioms Goe2ee.C140_read
#print axioms Goe2ee.C140_fetch
#print axioms Goe2ee.C141_refuted
#print axioms Goe2ee.C141_flag
#print axioms Goe2ee.C141_unchanged_partial
#print axioms Goe2ee.C142_silence
#print axioms Goe2ee.C142_others
#print axioms Goe2ee.C142_no_response
#print axioms Goe2ee.C142_closed
#print axioms Goe2ee.C142_conversation
#print axioms Goe2ee.C143_client
#print axioms Goe2ee.C143_nil_fetcher
#print axioms Goe2ee.C143_server
#print axioms Goe2ee.C143_manager
#print axioms Goe2ee.C143_fetchers
#print axioms Goe2ee.C143_packets
#print axioms Goe2ee.C144_refuted
#print axioms Goe2ee.C144_late_partial
#print axioms Goe2ee.C144_calm_partial
#print axioms Goe2ee.C144_unblocked_partial
#print axioms Goe2ee.C145_refuted
#print axioms Goe2ee.C145_write_partial
#print axioms Goe2ee.C146_exchange
#print axioms Goe2ee.C146_only_answers
#print axioms Goe2ee.C146_published
#print axioms Goe2ee.C147_refuted
#print axioms Goe2ee.C147_partial
#print axioms Goe2ee.C148_refuted
#print axioms Goe2ee.C148_never_found
#print axioms Goe2ee.C148_generated_partial
#print axioms Goe2ee.C148_default_dial
#print axioms Goe2ee.C149_reachable
#print axioms Goe2ee.C149_sent
#print axioms Goe2ee.C149_port_text
#print axioms Goe2ee.C149_port_read
#print axioms Goe2ee.C150_refuted
#print axioms Goe2ee.C150_lost_response
#print axioms Goe2ee.C150_gone_partial
#print axioms Goe2ee.C151_register
#print axioms Goe2ee.C151_refuted
#print axioms Goe2ee.C151_generate_partial
#print axioms Goe2ee.C152_refuted
#print axioms Goe2ee.C152_setup_response_differs
#print axioms Goe2ee.C152_fetch_key_response_differs
#print axioms Goe2ee.C152_builds_partial
#print axioms Goe2ee.C152_reads_partial
#print axioms Goe2ee.C152_documented_setup_response_partial
#print axioms Goe2ee.C152_documented_server_refused
#print axioms Goe2ee.C153_echo
#print axioms Goe2ee.C153_fetch
#print axioms Goe2ee.C153_no_error
#print axioms Goe2ee.C153_quick_start
#print axioms Goe2ee.C154_dialled
#print axioms Goe2ee.C154_stays
#print axioms Goe2ee.C154_same
#print axioms Goe2ee.C155_refuted
#print axioms Goe2ee.C155_close_panics
#print axioms Goe2ee.C155_no_panic_partial
#print axioms Goe2ee.C155_waited_partial
#print axioms Goe2ee.C156_refuted
#print axioms Goe2ee.C156_after_failure_partial
#print axioms Goe2ee.C156_no_deadline_partial
#print axioms Goe2ee.C156_close_logged_partial
#print axioms Goe2ee.C156_datagram_partial
#print axioms Goe2ee.C157_refuted
#print axioms Goe2ee.C157_unknown_action
#print axioms Goe2ee.C157_same_conn
#print axioms Goe2ee.C157_same_packet
#print axioms Goe2ee.C157_same_loops
#print axioms Goe2ee.C157_explained_partial
#print axioms Goe2ee.C157_silent_partial
#print axioms Goe2ee.C157_few_lines_partial
#print axioms Goe2ee.C157_version_partial
#print axioms Goe2ee.C157_replay_partial
#print axioms Goe2ee.C157_panic_partial
#print axioms Goe2ee.C157_loops_partial
#print axioms Goe2ee.C158_default
#print axioms Goe2ee.C158_certificate
#print axioms Goe2ee.C158_only_certified
#print axioms Goe2ee.C158_file
#print axioms Goe2ee.C159_refuted
#print axioms Goe2ee.C159_never
#print axioms Goe2ee.C159_refused
#print axioms Goe2ee.C159_stored_partial
#print axioms Goe2ee.C160_refuted
#print axioms Goe2ee.C160_tcp_partial
#print axioms Goe2ee.C160_udp_partial
#print axioms Goe2ee.C160_no_timeout_partial
#print axioms Goe2ee.C160_no_pause
#print axioms Goe2ee.C161_refuted
#print axioms Goe2ee.C161_dial_waits
#print axioms Goe2ee.C161_fetch_waits
#print axioms Goe2ee.C161_any_datagram_partial
#print axioms Goe2ee.C162_refuted
#print axioms Goe2ee.C162_stale
#print axioms Goe2ee.C162_expired_partial
#print axioms Goe2ee.C162_cached_partial
#print axioms Goe2ee.C163_udp_client
#print axioms Goe2ee.C164_long_term_key
#print axioms Goe2ee.C164_private_keys
#print axioms Goe2ee.C165_connections
#print axioms Goe2ee.C165_places
#print axioms Goe2ee.C166_replies
#print axioms Goe2ee.C167_refuted
#print axioms Goe2ee.C167_no_name
#print axioms Goe2ee.C167_hash_partial
#print axioms Goe2ee.C167_names_partial
#print axioms Goe2ee.C168_messages
#print axioms Goe2ee.C169_bounded
#print axioms Goe2ee.C169_write
#print axioms Goe2ee.C169_read
#print axioms Goe2ee.C170_log
#print axioms Goe2ee.C171_refuted
#print axioms Goe2ee.C171_collector_refuted
#print axioms Goe2ee.C171_alone_partial
#print axioms Goe2ee.C171_forever_partial
#print axioms Goe2ee.C172_refuted
#print axioms Goe2ee.C172_prompt_refuted
#print axioms Goe2ee.C172_silent_partial
#print axioms Goe2ee.C173_refuted
#print axioms Goe2ee.C173_reply_refuted
#print axioms Goe2ee.C173_short_partial
#print axioms Goe2ee.C173_short_reply_partial
#print axioms Goe2ee.C173_long_partial
#print axioms Goe2ee.C173_long_reply_partial
#print axioms Goe2ee.C174_unasked
#print axioms Goe2ee.C175_refuted
#print axioms Goe2ee.C175_everybody_waits
#print axioms Goe2ee.C175_test_partial
#print axioms Goe2ee.C176_refuted
#print axioms Goe2ee.C176_time_partial
#print axioms Goe2ee.C176_disconnected_partial
#print axioms Goe2ee.C176_late_partial
#print axioms Goe2ee.C177_timeout
#print axioms Goe2ee.C177_in_time
#print axioms Goe2ee.C177_incomplete
#print axioms Goe2ee.C178_refuted
#print axioms Goe2ee.C178_result_partial
#print axioms Goe2ee.C178_empty_buffer_partial
#print axioms Goe2ee.C178_after_eof
#print axioms Goe2ee.C179_refuted
#print axioms Goe2ee.C179_served_partial
#print axioms Goe2ee.C179_late_partial
#print axioms Goe2ee.C180_refuted
#print axioms Goe2ee.C180_no_expiry
#print axioms Goe2ee.C180_expiry_partial
#print axioms Goe2ee.C180_in_use_partial
#print axioms Goe2ee.C180_close_again_partial
#print axioms Goe2ee.C181_kept
#print axioms Goe2ee.C181_served
