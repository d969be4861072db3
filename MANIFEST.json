{
 "claims": [
  {
   "property": "C01",
   "status": "proved",
   "theorems": [
    "Goe2ee.C01_header_parse",
    "Goe2ee.C01_header_roundtrip",
    "Goe2ee.C01_header_total"
   ],
   "note": ""
  },
  {
   "property": "C02",
   "status": "proved",
   "theorems": [
    "Goe2ee.C02_setup_request_layout",
    "Goe2ee.C02_setup_request_roundtrip"
   ],
   "note": ""
  },
  {
   "property": "C03",
   "status": "proved",
   "theorems": [
    "Goe2ee.C03_setup_response_layout",
    "Goe2ee.C03_setup_response_roundtrip",
    "Goe2ee.C03_empty_signature_not_parsed"
   ],
   "note": "Round trip for signatures of 1 to 65536 octets, and the corner case of an empty signature, as the property states it."
  },
  {
   "property": "C04",
   "status": "proved",
   "theorems": [
    "Goe2ee.C04_process_request_layout",
    "Goe2ee.C04_process_request_roundtrip"
   ],
   "note": ""
  },
  {
   "property": "C05",
   "status": "proved",
   "theorems": [
    "Goe2ee.C05_process_response_layout",
    "Goe2ee.C05_process_response_roundtrip"
   ],
   "note": ""
  },
  {
   "property": "C06",
   "status": "proved",
   "theorems": [
    "Goe2ee.C06_fetch_key_response_layout",
    "Goe2ee.C06_fetch_key_response_roundtrip"
   ],
   "note": ""
  },
  {
   "property": "C07",
   "status": "proved",
   "theorems": [
    "Goe2ee.C07_error_response_layout",
    "Goe2ee.C07_error_response_roundtrip",
    "Goe2ee.C07_error_size_negative"
   ],
   "note": ""
  },
  {
   "property": "C08",
   "status": "proved",
   "theorems": [
    "Goe2ee.C08_success_flag",
    "Goe2ee.C08_expect_reply_flag",
    "Goe2ee.C08_reserved_request_bits",
    "Goe2ee.C08_reserved_response_bits",
    "Goe2ee.C08_reserved_setup_bits",
    "Goe2ee.C08_reserved_fetch_key_bits",
    "Goe2ee.C08_reserved_error_bits"
   ],
   "note": ""
  },
  {
   "property": "C09",
   "status": "partial",
   "theorems": [
    "Goe2ee.C09_setup_allocations_partial",
    "Goe2ee.C09_process_allocations_partial",
    "Goe2ee.C09_fetch_key_allocations_partial",
    "Goe2ee.C09_process_request_oversize",
    "Goe2ee.C09_process_response_oversize",
    "Goe2ee.C09_setup_request_oversize",
    "Goe2ee.C09_setup_response_signature_oversize",
    "Goe2ee.C09_fetch_key_oversize",
    "Goe2ee.C09_error_text_unbounded",
    "Goe2ee.C09_not_claim"
   ],
   "note": "Proved for all message types except error responses, for which the code has no limit: C09_error_text_unbounded proves the negation."
  },
  {
   "property": "C10",
   "status": "proved",
   "theorems": [
    "Goe2ee.C10_setup_request",
    "Goe2ee.C10_setup_response",
    "Goe2ee.C10_process_request",
    "Goe2ee.C10_process_response",
    "Goe2ee.C10_fetch_key_response",
    "Goe2ee.C10_error_response"
   ],
   "note": ""
  },
  {
   "property": "C11",
   "status": "proved",
   "theorems": [
    "Goe2ee.C11_segmentation_independent",
    "Goe2ee.C11_unread_is_suffix",
    "Goe2ee.C11_end_with_data"
   ],
   "note": ""
  },
  {
   "property": "C12",
   "status": "proved",
   "theorems": [
    "Goe2ee.C12_nonce_layout",
    "Goe2ee.C12_nonce_injective",
    "Goe2ee.C12_used",
    "Goe2ee.C12_directions_disjoint",
    "Goe2ee.C12_nonce_size",
    "Goe2ee.C12_eight_octets_not_injective"
   ],
   "note": ""
  },
  {
   "property": "C13",
   "status": "proved",
   "theorems": [
    "Goe2ee.C13_transcript_layout",
    "Goe2ee.C13_transcript_injective",
    "Goe2ee.C13_length_prefixes_suffice"
   ],
   "note": ""
  },
  {
   "property": "C14",
   "status": "proved",
   "theorems": [
    "Goe2ee.C14_authenticated",
    "Goe2ee.C14_request_sent"
   ],
   "note": ""
  },
  {
   "property": "C15",
   "status": "proved",
   "theorems": [
    "Goe2ee.C15_honest_handshake",
    "Goe2ee.C15_server_answer"
   ],
   "note": "The server's transport accepts its reply before the write deadline; the signing primitive does not fail. One connection is served, from every state of the server; other goroutines do not run between its steps."
  },
  {
   "property": "C16",
   "status": "partial",
   "theorems": [
    "Goe2ee.C16_hash_octet_panics",
    "Goe2ee.C16_nil_key_panics",
    "Goe2ee.C16_no_other_panic_partial"
   ],
   "note": "Negated: an unknown hash octet in an otherwise well-formed setup response crashes the client (no valid signature needed), as does a nil or malformed key from the fetcher. Proved: nothing else does."
  },
  {
   "property": "C17",
   "status": "proved",
   "theorems": [
    "Goe2ee.C17_replay_filter_exact"
   ],
   "note": ""
  },
  {
   "property": "C18",
   "status": "proved",
   "theorems": [
    "Goe2ee.C18_handled_at_most_once"
   ],
   "note": "For every passive session manager (one that does not look into sessions), including the in-memory one."
  },
  {
   "property": "C19",
   "status": "proved",
   "theorems": [
    "Goe2ee.C19_fresh_messages_are_delivered",
    "Goe2ee.stored_session_exists"
   ],
   "note": "From every reachable state of the interleaved server; the message itself is served without interference."
  },
  {
   "property": "C20",
   "status": "partial",
   "theorems": [
    "Goe2ee.C20_forged_request_partial",
    "Goe2ee.C20_forged_counter_blocks"
   ],
   "note": "Negated: the counter is checked before decryption, so a forged counter blocks genuine messages. Proved for genuine counters that stay fresh."
  },
  {
   "property": "C21",
   "status": "partial",
   "theorems": [
    "Goe2ee.C21_nonces_unique_partial",
    "Goe2ee.C21_own_counter",
    "Goe2ee.C21_reuse_after_exhaustion"
   ],
   "note": "Every interleaving of Write and Read calls of any number of goroutines sharing sessions: nonces are unique as long as Write is called at most 2^64 times per session; the claim without that bound is disproved with 2^64+1 calls (the wrapped counter fails once and then reissues 1)."
  },
  {
   "property": "C22",
   "status": "proved",
   "theorems": [
    "Goe2ee.C22_reply_nonces_unique",
    "Goe2ee.C22_key_nonce_unique"
   ],
   "note": "Per session unconditionally; per key provided no two sessions derive the same key."
  },
  {
   "property": "C23",
   "status": "partial",
   "theorems": [
    "Goe2ee.C23_stale_data",
    "Goe2ee.C23_only_authentic_partial",
    "Goe2ee.C23_reply_authentic_partial"
   ],
   "note": "The claim is refuted: octets left over from an earlier reply are returned by Read after a later Write. Proved: a Read that returns data either continues with octets left in the buffer or returns a prefix of an authentic reply to the latest request; the full claim holds for a client whose buffer is empty."
  },
  {
   "property": "C24",
   "status": "proved",
   "theorems": [
    "Goe2ee.C24_end_to_end",
    "Goe2ee.C24_conversation"
   ],
   "note": "Client and server models joined by a faithful network, TCP and UDP, after an honest handshake (or from any reachable state with a shared session); up to 2^64-1 messages, replies non-empty as stated. One client; many at once: C129."
  },
  {
   "property": "C25",
   "status": "partial",
   "theorems": [
    "Goe2ee.C25_returns_wire_length",
    "Goe2ee.C25_count_partial"
   ],
   "note": "The claim is refuted: Write returns the length of the packet on the wire, not of the message. Proved: on success the count is the message length plus 50, less what the transport did not accept, and exactly one request with the encrypted message was written."
  },
  {
   "property": "C26",
   "status": "partial",
   "theorems": [
    "Goe2ee.C26_empty_reply",
    "Goe2ee.C26_not_claim",
    "Goe2ee.C26_reads_partial"
   ],
   "note": "The claim is refuted for an empty reply, for which Read returns an error. Proved: consecutive reads return a non-empty reply completely and in order, for every choice of buffer sizes."
  },
  {
   "property": "C27",
   "status": "partial",
   "theorems": [
    "Goe2ee.C27_fire_and_forget_partial",
    "Goe2ee.C27_error_responses_are_sent"
   ],
   "note": "Negated in full generality: error responses are sent for fire-and-forget requests. Proved: only error responses are ever written for them, and nothing once the handler returned nil."
  },
  {
   "property": "C28",
   "status": "proved",
   "theorems": [
    "Goe2ee.C28_one_response_per_request"
   ],
   "note": "One connection is served, from every state of the server; other goroutines do not run between its steps."
  },
  {
   "property": "C29",
   "status": "partial",
   "theorems": [
    "Goe2ee.C29_unsupported_version_partial",
    "Goe2ee.C29_no_error_response"
   ],
   "note": "No side effects and end of the connection proved; the required error response is not sent (negated)."
  },
  {
   "property": "C30",
   "status": "proved",
   "theorems": [
    "Goe2ee.C30_server_survives",
    "Goe2ee.C30_datagram_survives"
   ],
   "note": "For session managers that are passive and do not panic, including the in-memory one. One connection is served, from every state of the server; other goroutines do not run between its steps."
  },
  {
   "property": "C31",
   "status": "proved",
   "theorems": [
    "Goe2ee.C31_own_session",
    "Goe2ee.C31_no_shared_session",
    "Goe2ee.C31_unknown_client"
   ],
   "note": "Up to an explicit SHA-256 collision. In-memory session manager. C31_unknown_client: the request is served with no other in progress."
  },
  {
   "property": "C32",
   "status": "partial",
   "theorems": [
    "Goe2ee.C32_refused_setup_partial",
    "Goe2ee.C32_malformed_setup_partial",
    "Goe2ee.C32_other_sessions_partial",
    "Goe2ee.C32_session_stored_before_signing"
   ],
   "note": "Negated: the session is stored before signing. Proved for failures before that point, and for all other clients' sessions."
  },
  {
   "property": "C33",
   "status": "proved",
   "theorems": [
    "Goe2ee.C33_setup_installs",
    "Goe2ee.C33_new_session_works"
   ],
   "note": "In-memory session manager; up to an explicit SHA-256 collision. The setup request is served with no other request in progress."
  },
  {
   "property": "C34",
   "status": "proved",
   "theorems": [
    "Goe2ee.C34_latest_store",
    "Goe2ee.C34_active_sessions_stay",
    "Goe2ee.C34_idle_sessions_expire",
    "Goe2ee.C34_without_collector"
   ],
   "note": ""
  },
  {
   "property": "C35",
   "status": "partial",
   "theorems": [
    "Goe2ee.C35_lost_update",
    "Goe2ee.C35_collected_while_fresh",
    "Goe2ee.C35_undisturbed_store_partial"
   ],
   "note": "Negated twice: Load writes back a stale entry over a concurrent Store, and the collector deletes a fresh session. Proved when no Load or collector visit of the same key overlaps the Store."
  },
  {
   "property": "C36",
   "status": "partial",
   "theorems": [
    "Goe2ee.C36_justified_partial",
    "Goe2ee.C36_hit_alone_partial",
    "Goe2ee.C36_failure_not_cached",
    "Goe2ee.C36_collector_keeps_fresh",
    "Goe2ee.C36_age_refuted",
    "Goe2ee.C36_hit_refuted"
   ],
   "note": "Every interleaving of Fetch calls and collectors: every result is justified, errors are the underlying fetcher's in that call. Refuted: the age counted from the underlying answer may exceed TTL (the time is read after the answer), and a fresh entry may be deleted by a goroutine that saw the expired one. Hits and failures without interruption are proved."
  },
  {
   "property": "C37",
   "status": "proved",
   "theorems": [
    "Goe2ee.C37_round_trip"
   ],
   "note": "Every RSA, P-256, P-384 and Ed25519 key in the stated range."
  },
  {
   "property": "C38",
   "status": "partial",
   "theorems": [
    "Goe2ee.C38_no_panic",
    "Goe2ee.C38_accepts_partial",
    "Goe2ee.C38_malformed",
    "Goe2ee.C38_malformed_accepted"
   ],
   "note": "No panic, and exactly the well-formed records give a usable key. Refuted: malformed key material of a supported algorithm is accepted as a non-nil unusable key instead of an error."
  },
  {
   "property": "C39",
   "status": "partial",
   "theorems": [
    "Goe2ee.C39_first_partial",
    "Goe2ee.C39_found",
    "Goe2ee.C39_unusable"
   ],
   "note": "A key comes only from a validated answer with status 200, and all answers before it are rejected; the first usable key is found if no malformed zone key precedes it. Refuted: a malformed zone key is returned as a key."
  },
  {
   "property": "C40",
   "status": "proved",
   "theorems": [
    "Goe2ee.C40_signature_verifies",
    "Goe2ee.C40_algorithm_tag",
    "Goe2ee.C40_unsupported_hash",
    "Goe2ee.C40_unsupported_key",
    "Goe2ee.C40_signs"
   ],
   "note": ""
  },
  {
   "property": "C41",
   "status": "partial",
   "theorems": [
    "Goe2ee.C41_refuted",
    "Goe2ee.C41_limit_partial"
   ],
   "note": "Refuted: failed borrow tests are subtracted twice (or although the connection stays open). Proved: the limit is exceeded by at most the number of failed borrow tests, so never without failures."
  },
  {
   "property": "C42",
   "status": "proved",
   "theorems": [
    "Goe2ee.C42_exclusive"
   ],
   "note": "Every schedule of goroutines that close each client once; also that borrowed and idle connections are open."
  },
  {
   "property": "C43",
   "status": "partial",
   "theorems": [
    "Goe2ee.C43_refuted",
    "Goe2ee.C43_served_partial"
   ],
   "note": "Refuted: a client returned between the check of the limit and the begin of the wait is not noticed. Proved: a waiting Get can complete with any client that is closed while it waits."
  },
  {
   "property": "C44",
   "status": "partial",
   "theorems": [
    "Goe2ee.C44_refuted",
    "Goe2ee.C44_diverges",
    "Goe2ee.C44_first_alive_partial",
    "Goe2ee.C44_dials_partial"
   ],
   "note": "Refuted: if all idle clients are dead Get never returns. Proved: it returns the first alive one, and dials when there is no idle client."
  },
  {
   "property": "C45",
   "status": "proved",
   "theorems": [
    "Goe2ee.C45_one_session"
   ],
   "note": "Every schedule before Close of the pool; dialling is abstract (a new session per handshake)."
  },
  {
   "property": "C46",
   "status": "partial",
   "theorems": [
    "Goe2ee.C46_refuted",
    "Goe2ee.C46_refuted_waiting",
    "Goe2ee.C46_before_close_partial",
    "Goe2ee.C46_no_close_partial"
   ],
   "note": "Refuted: after Close of the pool, Client.Close of a borrowed client and a waiting Get panic. Proved: nobody panics before the channel is closed."
  },
  {
   "property": "C47",
   "status": "partial",
   "theorems": [
    "Goe2ee.C47_refuted",
    "Goe2ee.C47_empty_buffer_partial"
   ],
   "note": "Refuted: plaintext left in the client's buffer is returned to the next borrower. Proved when the previous borrowers read every reply to its end, whatever is left on the connection."
  },
  {
   "property": "C48",
   "status": "proved",
   "theorems": [
    "Goe2ee.C48_one_answer",
    "Goe2ee.C48_answers_sender",
    "Goe2ee.C48_model_is_udpconn",
    "Goe2ee.C48_close_result",
    "Goe2ee.C48_unbuffered"
   ],
   "note": "The interleaved model of the server does not carry addresses; that the answer goes to the sender is proved of the connection type, and the two models are proved to agree."
  },
  {
   "property": "C49",
   "status": "partial",
   "theorems": [
    "Goe2ee.C49_not_claim",
    "Goe2ee.C49_stale_blocks",
    "Goe2ee.C49_never_recovers",
    "Goe2ee.C49_next_datagram_partial",
    "Goe2ee.C49_model_is_udpconn"
   ],
   "note": "Refuted: a duplicated reply makes every later Read fail, for good. Proved: the reply is read if it is the next datagram received, whatever follows and however many receive attempts failed before."
  },
  {
   "property": "C50",
   "status": "partial",
   "theorems": [
    "Goe2ee.C50_not_claim",
    "Goe2ee.C50_udp_stays_open",
    "Goe2ee.C50_tcp_partial"
   ],
   "note": "Refuted for every UDP client: Close returns nil and the socket stays open. Proved for TCP."
  },
  {
   "property": "C51",
   "status": "partial",
   "theorems": [
    "Goe2ee.C51_datagram_after_close",
    "Goe2ee.C51_nothing_after_close_partial"
   ],
   "note": "False for UDP: Close does not wait for datagram goroutines (witness schedule). Proved for every schedule without datagrams, for every passive session manager."
  },
  {
   "property": "C52",
   "status": "proved",
   "theorems": [
    "Goe2ee.C52_no_continuation_after_partial_write"
   ],
   "note": "One connection is served, from every state of the server; other goroutines do not run between its steps."
  },
  {
   "property": "C53",
   "status": "proved",
   "theorems": [
    "Goe2ee.C53_uuid_version4",
    "Goe2ee.C53_uuid_error"
   ],
   "note": ""
  },
  {
   "property": "C54",
   "status": "partial",
   "theorems": [
    "Goe2ee.C54_requests_are_consumed_partial",
    "Goe2ee.C54_body_is_interpreted"
   ],
   "note": "Negated for oversized requests; proved for requests within the size limits that arrive completely, whatever their contents."
  },
  {
   "property": "C55",
   "status": "proved",
   "theorems": [
    "Goe2ee.C55_derive_key_is_hkdf",
    "Goe2ee.C55_derived_length",
    "Goe2ee.C55_shorter_is_prefix",
    "Goe2ee.C55_aead_key"
   ],
   "note": "That client and server derive the same key from a shared secret is part of C15/C24, which run both sides."
  },
  {
   "property": "C56",
   "status": "partial",
   "theorems": [
    "Goe2ee.C56_refuted",
    "Goe2ee.C56_before_deadline_partial",
    "Goe2ee.C56_no_timeouts_partial",
    "Goe2ee.C56_expired_write",
    "Goe2ee.C56_expired_read",
    "Goe2ee.C56_write_then_idle"
   ],
   "note": "Refuted: deadlines set by earlier calls stay on the connection, the borrow test fails once one has passed. Proved before the deadlines, and for clients without timeouts. Effects take no time in the timed model."
  },
  {
   "property": "C57",
   "status": "partial",
   "theorems": [
    "Goe2ee.C57_prompt_request_answered_partial",
    "Goe2ee.C57_prompt_requests_answered_partial",
    "Goe2ee.C57_late_request_unanswered"
   ],
   "note": "Negated: the write deadline is set before waiting for the request. Proved, for every sequence of requests of all kinds and any session manager: every request is answered if none takes longer than the write timeout, the wait for it included."
  },
  {
   "property": "C58",
   "status": "proved",
   "theorems": [
    "Goe2ee.C58_header",
    "Goe2ee.C58_process_request",
    "Goe2ee.C58_process_response",
    "Goe2ee.C58_fetch_key_response",
    "Goe2ee.C58_error_response",
    "Goe2ee.C58_expect_reply_bit"
   ],
   "note": ""
  },
  {
   "property": "C59",
   "status": "proved",
   "theorems": [
    "Goe2ee.C59_hash_identifiers",
    "Goe2ee.C59_understood"
   ],
   "note": ""
  },
  {
   "property": "C60",
   "status": "partial",
   "theorems": [
    "Goe2ee.C60_udp_handshake",
    "Goe2ee.C60_tcp_keep_alive",
    "Goe2ee.C60_tcp_partial"
   ],
   "note": "Refuted: the socket stays open after a failed UDP handshake, and after a failure to set the keep-alive option. Proved for every other failure over TCP."
  },
  {
   "property": "C61",
   "status": "partial",
   "theorems": [
    "Goe2ee.C61_last_answer_partial",
    "Goe2ee.C61_stale_store"
   ],
   "note": "Proved for one calling goroutine and any collectors; refuted for two calling goroutines (a slow one stores an older key over a newer one)."
  },
  {
   "property": "C62",
   "status": "partial",
   "theorems": [
    "Goe2ee.C62_safe_partial",
    "Goe2ee.C62_crash"
   ],
   "note": "Refuted: one malformed record makes signature verification panic. Proved when no zone key of a supported algorithm is malformed."
  },
  {
   "property": "C63",
   "status": "proved",
   "theorems": [
    "Goe2ee.C63_fetches_published_key",
    "Goe2ee.C63_server_answer",
    "Goe2ee.C63_request_sent"
   ],
   "note": "Server and fetcher models joined; the encoding of the key is that of the abstract PKIX functions. One connection is served, from every state of the server; other goroutines do not run between its steps."
  },
  {
   "property": "C64",
   "status": "proved",
   "theorems": [
    "Goe2ee.C64_no_panic",
    "Goe2ee.C64_key_from_peer",
    "Goe2ee.C64_socket_closed",
    "Goe2ee.C64_other_networks"
   ],
   "note": "Every peer; an X25519 key is returned as a key of another type. The socket is closed unless Close itself fails."
  },
  {
   "property": "C65",
   "status": "proved",
   "theorems": [
    "Goe2ee.C65_race_free",
    "Goe2ee.C65_holds"
   ],
   "note": "All kinds of goroutines, including careless ones and ones that close the pool."
  },
  {
   "property": "C66",
   "status": "partial",
   "theorems": [
    "Goe2ee.C66_refuted",
    "Goe2ee.C66_lent_twice",
    "Goe2ee.C42_exclusive"
   ],
   "note": "Refuted: a client closed twice is in the idle list twice and is lent to two borrowers. Proved for clients closed once (C42)."
  },
  {
   "property": "C67",
   "status": "proved",
   "theorems": [
    "Goe2ee.C67_idle_limit"
   ],
   "note": "Every schedule of goroutines that close each client once."
  },
  {
   "property": "C68",
   "status": "proved",
   "theorems": [
    "Goe2ee.C68_holder_moves",
    "Goe2ee.C68_holder",
    "Goe2ee.C68_released"
   ],
   "note": "Dialling and closing connections are single effects that complete."
  },
  {
   "property": "C69",
   "status": "partial",
   "theorems": [
    "Goe2ee.C69_refuted",
    "Goe2ee.C69_clean_partial",
    "Goe2ee.C69_test_passes",
    "Goe2ee.C69_test_means"
   ],
   "note": "Refuted: an unread reply makes the borrow test pass and leaves the stream one octet out of step. Proved when nothing was left unread."
  },
  {
   "property": "C70",
   "status": "proved",
   "theorems": [
    "Goe2ee.C70_key_is_certified",
    "Goe2ee.C70_succeeds",
    "Goe2ee.C70_closes"
   ],
   "note": "tls.Dial and VerifyHostname are arbitrary answers of the environment; the chain verification inside tls.Dial is not modelled."
  },
  {
   "property": "C71",
   "status": "partial",
   "theorems": [
    "Goe2ee.C71_refuted",
    "Goe2ee.C71_names_partial"
   ],
   "note": "Refuted for IPv6 hosts: host and port are joined without brackets. Proved for hosts without colon and brackets. net.SplitHostPort is modelled after the published Go source, which is not part of the repository."
  },
  {
   "property": "C72",
   "status": "proved",
   "theorems": [
    "Goe2ee.C72_pem_manager_works",
    "Goe2ee.C72_pem_refuses",
    "Goe2ee.C72_generated_algorithm",
    "Goe2ee.C72_generates"
   ],
   "note": "PEM and PKCS #8 decoding and the library's key generators are arbitrary functions."
  },
  {
   "property": "C73",
   "status": "partial",
   "theorems": [
    "Goe2ee.C73_refuted",
    "Goe2ee.C73_matching_files_partial",
    "Goe2ee.C73_block_type_partial"
   ],
   "note": "Refuted: a PEM file with an X25519 public key is accepted and then no signature can be verified. Proved for the file of a key that a server publishes."
  },
  {
   "property": "C74",
   "status": "partial",
   "theorems": [
    "Goe2ee.C74_refuted",
    "Goe2ee.C74_read_partial",
    "Goe2ee.C74_write_partial",
    "Goe2ee.C74_read_ignores",
    "Goe2ee.C74_write_ignores",
    "Goe2ee.C74_default_client"
   ],
   "note": "Refuted: Read and Write replace the deadline whenever the client has a timeout, as it has by default. Proved for clients without timeouts. TCP only; time does not pass during a call."
  },
  {
   "property": "C75",
   "status": "partial",
   "theorems": [
    "Goe2ee.C75_refuted",
    "Goe2ee.C75_read_partial",
    "Goe2ee.C75_test_partial",
    "Goe2ee.C75_dial_waits",
    "Goe2ee.C75_test_waits"
   ],
   "note": "Refuted: the handshake sets no deadline, so DialTCP waits for ever for a silent server, and so does the borrow test of a client that was never read from. Proved for Read with a read timeout. TCP only; writes never wait in the model."
  },
  {
   "property": "C76",
   "status": "partial",
   "theorems": [
    "Goe2ee.C76_refuted",
    "Goe2ee.C76_closes_partial",
    "Goe2ee.C76_busy_partial",
    "Goe2ee.C76_stays_empty_partial",
    "Goe2ee.C76_fresh_sessions_partial",
    "Goe2ee.C76_new_session_partial"
   ],
   "note": "Refuted: Close returns at the first connection that fails to close and leaves the others open. Proved when every connection closes without error, under every interleaving with other goroutines, that a closed pool stays empty, and that no client connected after the channel is closed has a session from before; that Close returns, and that the next Get does a handshake, when no other goroutine runs meanwhile."
  },
  {
   "property": "C77",
   "status": "partial",
   "theorems": [
    "Goe2ee.C77_refuted",
    "Goe2ee.C77_one_more_partial",
    "Goe2ee.C77_refused_partial"
   ],
   "note": "Refuted: the listeners look at the quit channel only before they wait for a client, so both may take one more. Proved: at most one connection and one datagram more; nothing is read from or written to that connection."
  },
  {
   "property": "C78",
   "status": "partial",
   "theorems": [
    "Goe2ee.C78_refuted",
    "Goe2ee.C78_returns_partial",
    "Goe2ee.C78_no_panic_partial"
   ],
   "note": "Refuted: a second call panics. Proved for a single call, under every fair schedule. That reads end by the read timeout is part of fairness. The wait group is a counter there; that its own checks may panic when a client connects meanwhile is C155."
  },
  {
   "property": "C79",
   "status": "partial",
   "theorems": [
    "Goe2ee.C79_refuted",
    "Goe2ee.C79_process_partial",
    "Goe2ee.C79_oversize_process_partial",
    "Goe2ee.C79_oversize_setup_partial"
   ],
   "note": "Refuted: a request that does not decrypt is answered with code 2 (server error), not 1. Proved: code 3 for unknown sessions, code 5 for replays, code 1 for oversized requests. Versions are C29."
  },
  {
   "property": "C80",
   "status": "partial",
   "theorems": [
    "Goe2ee.C80_refuted",
    "Goe2ee.C80_window_partial"
   ],
   "note": "Refuted: the counter exactly 64 below the highest is refused. Proved: this is the only difference."
  },
  {
   "property": "C81",
   "status": "proved",
   "theorems": [
    "Goe2ee.C81_session_stays",
    "Goe2ee.C81_reuse"
   ],
   "note": "With the in-memory session manager; SHA-256 collisions between names excluded in the hypothesis on new sessions. The reuse is served with nothing else running."
  },
  {
   "property": "C82",
   "status": "partial",
   "theorems": [
    "Goe2ee.C82_slow_response_lost",
    "Goe2ee.C82_prompt_response_partial",
    "Goe2ee.C82_others_do_not_harm_partial"
   ],
   "note": "Refuted: a response more than the write timeout (5 s) after the datagram arrived is lost. Proved: within the write timeout it is sent, also when other goroutines set the deadline of the shared socket in between."
  },
  {
   "property": "C83",
   "status": "proved",
   "theorems": [
    "Goe2ee.C83_server_discloses",
    "Goe2ee.C83_wire_is_writes"
   ],
   "note": "For session managers that only use their own table, the clock and choices of their own. The AEAD, signatures and key generation are parameters: that ciphertexts hide plaintexts is an assumption about them, not proved."
  },
  {
   "property": "C84",
   "status": "proved",
   "theorems": [
    "Goe2ee.C84_client_discloses"
   ],
   "note": "The AEAD is a parameter: that ciphertexts hide plaintexts is an assumption about it. The pool's hello request and the protocol key fetcher's request carry no data (C69, C63)."
  },
  {
   "property": "C85",
   "status": "partial",
   "theorems": [
    "Goe2ee.C85_no_limit",
    "Goe2ee.C85_one_peer_fills",
    "Goe2ee.C85_a_setup_each_partial"
   ],
   "note": "Refuted: one TCP connection makes the server keep any number of sessions (up to the 2^128 ids). Proved: each session kept had its own successful setup."
  },
  {
   "property": "C86",
   "status": "partial",
   "theorems": [
    "Goe2ee.C86_refuted",
    "Goe2ee.C86_only_waiting_partial",
    "Goe2ee.C86_rest_is_reached",
    "Goe2ee.C86_closed_by_next_client"
   ],
   "note": "Refuted: a TCP listener waiting in Accept stays open until one more client connects. Proved: with a read timeout only such listeners stay open; rest is reached after boundedly many steps; the next client makes the listener close. Handlers are assumed to return."
  },
  {
   "property": "C87",
   "status": "partial",
   "theorems": [
    "Goe2ee.C87_refuted",
    "Goe2ee.C87_what_remains_partial",
    "Goe2ee.C87_default_manager_partial",
    "Goe2ee.C87_close_returns",
    "Goe2ee.C87_silent_client",
    "Goe2ee.C86_rest_is_reached"
   ],
   "note": "Refuted: with a secret manager of the application the default one's collector runs for ever. Proved: what may remain, and with the default manager and a read timeout only waiting TCP listeners do; with a read timeout Close returns whatever clients do, without one a silent client keeps it waiting for ever."
  },
  {
   "property": "C88",
   "status": "partial",
   "theorems": [
    "Goe2ee.C88_refuted",
    "Goe2ee.C88_nil_logger",
    "Goe2ee.C88_sound_options_partial",
    "Goe2ee.C88_nil_managers",
    "Goe2ee.C88_second_close"
   ],
   "note": "Refuted by a tick of zero or a nil logger. Proved for all options that pass a logger and positive ticks, with at most one Close (C78; a second Close ends the process). Exactly which options make NewServer itself panic is characterised."
  },
  {
   "property": "C89",
   "status": "partial",
   "theorems": [
    "Goe2ee.C89_refuted",
    "Goe2ee.C89_before_close_partial",
    "Goe2ee.C89_tcp_finished"
   ],
   "note": "Refuted: Close does not wait for datagram goroutines and their socket is closed. Proved: not before Close; for TCP connections nothing is unfinished when Close returns."
  },
  {
   "property": "C90",
   "status": "proved",
   "theorems": [
    "Goe2ee.C90_agreement"
   ],
   "note": "Conditional on the explicit hypothesis that the signature in the octets received is not forged (SignatureGenuine) and on Crypto.Lawful."
  },
  {
   "property": "C91",
   "status": "proved",
   "theorems": [
    "Goe2ee.C91_authentic",
    "Goe2ee.C91_at_most_as_often"
   ],
   "note": "Conditional on the explicit hypothesis that no ciphertext in the octets received is forged (MessagesGenuine)."
  },
  {
   "property": "C92",
   "status": "proved",
   "theorems": [
    "Goe2ee.C92_reply_to_message"
   ],
   "note": "Conditional on the explicit hypotheses that no ciphertext in the octets received by either side is forged, and that clients did not reuse a nonce (ClientNonces, which clientNonces proves below 2^64 messages; cf. C21)."
  },
  {
   "property": "C93",
   "status": "partial",
   "theorems": [
    "Goe2ee.C93_refuted",
    "Goe2ee.C93_sessions_come_from_setups",
    "Goe2ee.C93_only_from_there_partial",
    "Goe2ee.C93_undisturbed_partial"
   ],
   "note": "Refuted: a setup request with the same id from the same address replaces the session. Proved: nobody else can, and an undisturbed client's entry stays its own (or expires)."
  },
  {
   "property": "C94",
   "status": "partial",
   "theorems": [
    "Goe2ee.C94_refuted",
    "Goe2ee.C94_bounded_partial",
    "Goe2ee.sent_is_write"
   ],
   "note": "Refuted: one octet is answered with the public key. Proved: at most one datagram, holding one response, with an explicit bound on its length."
  },
  {
   "property": "C95",
   "status": "proved",
   "theorems": [
    "Goe2ee.C95_one_response",
    "Goe2ee.C95_in_step"
   ],
   "note": ""
  },
  {
   "property": "C96",
   "status": "partial",
   "theorems": [
    "Goe2ee.C96_refuted",
    "Goe2ee.C96_before_reply_partial",
    "Goe2ee.C96_udp_partial"
   ],
   "note": "Refuted: a deadline in the middle of a reply loses what was read of it. Proved: a deadline before the first octet does no harm; over UDP there is no other."
  },
  {
   "property": "C97",
   "status": "partial",
   "theorems": [
    "Goe2ee.C97_refuted",
    "Goe2ee.C97_last_reply_partial"
   ],
   "note": "Refuted: only the reply to the latest message is returned. Proved: the replies to earlier messages are each refused by one Read, then the reply to the latest is returned."
  },
  {
   "property": "C98",
   "status": "partial",
   "theorems": [
    "Goe2ee.C98_refuted",
    "Goe2ee.C98_whole_partial",
    "Goe2ee.C98_swallowed"
   ],
   "note": "Refuted: a request cut off by a deadline is completed with octets of the next. Proved: if nothing or all of it was taken, the next message is handled."
  },
  {
   "property": "C99",
   "status": "partial",
   "theorems": [
    "Goe2ee.C99_refuted",
    "Goe2ee.C99_dead",
    "Goe2ee.C99_stored_partial"
   ],
   "note": "Refuted: the client never sets up a new session, every later message is refused. Proved: as long as the server stores the session it works."
  },
  {
   "property": "C100",
   "status": "partial",
   "theorems": [
    "Goe2ee.C100_refuted",
    "Goe2ee.C100_later_partial"
   ],
   "note": "Refuted: two overlapping requests for a name are both answered with 201. Proved: a request that comes after the 201 is refused."
  },
  {
   "property": "C101",
   "status": "proved",
   "theorems": [
    "Goe2ee.C101_introduced"
   ],
   "note": ""
  },
  {
   "property": "C102",
   "status": "partial",
   "theorems": [
    "Goe2ee.C102_refuted",
    "Goe2ee.C102_later_partial"
   ],
   "note": "Refuted: users who register at the same time are told twice of each other. Proved: at most once if one handler returned before the other request came."
  },
  {
   "property": "C103",
   "status": "partial",
   "theorems": [
    "Goe2ee.C103_refuted",
    "Goe2ee.C103_answered_partial"
   ],
   "note": "Refuted: DELETE /users panics. Proved: every other request gets exactly one response."
  },
  {
   "property": "C104",
   "status": "partial",
   "theorems": [
    "Goe2ee.C104_refuted",
    "Goe2ee.C104_later_partial"
   ],
   "note": "Refuted: joined can be sent after left. Proved: not if the handlers of both registrations returned before the DELETE came."
  },
  {
   "property": "C105",
   "status": "partial",
   "theorems": [
    "Goe2ee.C105_refuted",
    "Goe2ee.C105_waits",
    "Goe2ee.C105_returns_partial"
   ],
   "note": "Refuted: without a read timeout one silent client keeps Close waiting for ever. Proved: Close returns if every connected client sooner or later sends something or hangs up."
  },
  {
   "property": "C106",
   "status": "partial",
   "theorems": [
    "Goe2ee.C106_refuted",
    "Goe2ee.C106_overtaken",
    "Goe2ee.C106_overtaken_partial"
   ],
   "note": "Refuted: a message that 64 later ones overtake is refused as a replay. Proved: it is handed to the application if and only if fewer than 64 overtake it."
  },
  {
   "property": "C107",
   "status": "proved",
   "theorems": [
    "Goe2ee.C107_read_while_write"
   ],
   "note": ""
  },
  {
   "property": "C108",
   "status": "partial",
   "theorems": [
    "Goe2ee.C108_refuted",
    "Goe2ee.C108_once_partial"
   ],
   "note": "Refuted: with two messages in flight the reply to the first is refused and lost. Proved for any goroutines, schedule and network: no octet is returned twice or made up; all data come from messages that open as replies to counters of this client."
  },
  {
   "property": "C109",
   "status": "partial",
   "theorems": [
    "Goe2ee.C109_refuted",
    "Goe2ee.C109_no_race_partial"
   ],
   "note": "Refuted: a second Write races with the Read of the first reply. Proved: no race between one call of Read and one call of Write."
  },
  {
   "property": "C110",
   "status": "partial",
   "theorems": [
    "Goe2ee.C110_refuted",
    "Goe2ee.C110_no_crash_partial",
    "Goe2ee.C110_messages_partial"
   ],
   "note": "Refuted: a joined notification with an unknown network stores a nil connection, and the next message to everybody panics. Proved: no goroutine panics if the networks are tcp or udp; messages never kill the process."
  },
  {
   "property": "C111",
   "status": "partial",
   "theorems": [
    "Goe2ee.C111_refuted",
    "Goe2ee.C111_writer_partial",
    "Goe2ee.C111_reader_partial",
    "Goe2ee.C111_printer_partial"
   ],
   "note": "Refuted: closing a nil connection panics while the mutex is held. Proved for users with networks tcp or udp: a holder of the mutex releases it after a bounded number of its own effects (a reader unless a write blocks); the printer is ready again after four."
  },
  {
   "property": "C112",
   "status": "proved",
   "theorems": [
    "Goe2ee.C112_answered_is_shown",
    "Goe2ee.C112_not_twice"
   ],
   "note": ""
  },
  {
   "property": "C113",
   "status": "partial",
   "theorems": [
    "Goe2ee.C113_refuted",
    "Goe2ee.C113_news_partial"
   ],
   "note": "Refuted: a sender may take the robot's name and the receiver's host. Proved if no name contains ] or equals the robot."
  },
  {
   "property": "C114",
   "status": "partial",
   "theorems": [
    "Goe2ee.C114_refuted",
    "Goe2ee.C114_stuck",
    "Goe2ee.C114_ends_partial"
   ],
   "note": "Refuted: a handler that has not handed over its message when the printer ends blocks server.Close for ever. Proved: if no message is being handled, nine effects of main end the process."
  },
  {
   "property": "C115",
   "status": "partial",
   "theorems": [
    "Goe2ee.C115_refuted",
    "Goe2ee.C115_owned_partial"
   ],
   "note": "Refuted: a second joined notification for the same name leaks the first connection. Proved if no user joins twice."
  },
  {
   "property": "C116",
   "status": "proved",
   "theorems": [
    "Goe2ee.C116_map_exclusive"
   ],
   "note": ""
  },
  {
   "property": "C117",
   "status": "partial",
   "theorems": [
    "Goe2ee.C117_refuted",
    "Goe2ee.C117_own_partial"
   ],
   "note": "Refuted: a message without a sender is shown as one's own. Proved if every message that arrives names a sender other than the user."
  },
  {
   "property": "C118",
   "status": "proved",
   "theorems": [
    "Goe2ee.C118_everybody_once"
   ],
   "note": ""
  },
  {
   "property": "C119",
   "status": "proved",
   "theorems": [
    "Goe2ee.C119_write_open",
    "Goe2ee.C119_listed_open"
   ],
   "note": ""
  },
  {
   "property": "C120",
   "status": "proved",
   "theorems": [
    "Goe2ee.C120_announced",
    "Goe2ee.C120_left_shown"
   ],
   "note": ""
  },
  {
   "property": "C121",
   "status": "partial",
   "theorems": [
    "Goe2ee.C121_refuted",
    "Goe2ee.C121_gone_partial"
   ],
   "note": "Refuted: if a user leaves while they are being dialled, they are stored afterwards. Proved if the handlers of the news that they joined have ended before the news that they left arrive."
  },
  {
   "property": "C122",
   "status": "partial",
   "theorems": [
    "Goe2ee.C122_refuted",
    "Goe2ee.C122_bounded",
    "Goe2ee.C122_room_partial"
   ],
   "note": "Refuted: replies that nobody reads fill the connection and both ends block. Proved: at most roomUp + roomDown + 2 Writes succeed without a Read; every Write returns if the connection has room for all the replies."
  },
  {
   "property": "C123",
   "status": "proved",
   "theorems": [
    "Goe2ee.C123_every_exchange_completes",
    "Goe2ee.C123_write_fails_when_closed",
    "Goe2ee.C123_reads"
   ],
   "note": "C123_reads ties the reads of the octet-wise connection to those of the parsers in the other claims, also when the connection is closed in the middle of a message."
  },
  {
   "property": "C124",
   "status": "proved",
   "theorems": [
    "Goe2ee.C124_replies_in_order",
    "Goe2ee.C124_all_replies"
   ],
   "note": ""
  },
  {
   "property": "C125",
   "status": "partial",
   "theorems": [
    "Goe2ee.C125_refuted",
    "Goe2ee.C125_header_allocates",
    "Goe2ee.C125_complete_requests_partial",
    "Goe2ee.C125_setup_bounded_partial"
   ],
   "note": "Refuted: the 34 octets of a header make the server allocate twice the declared size, up to 2 GiB. Proved: the bound for requests that arrive completely; at most 128 KiB and 20 octets for a setup request, complete or not."
  },
  {
   "property": "C126",
   "status": "partial",
   "theorems": [
    "Goe2ee.C126_refuted",
    "Goe2ee.C126_copy_stops",
    "Goe2ee.C126_multi_writer_fails",
    "Goe2ee.C126_error_only_partial"
   ],
   "note": "Refuted: io.Copy and io.MultiWriter fail on every client because Write reports more octets than it was given. Proved: functions that look at the error only send every chunk."
  },
  {
   "property": "C127",
   "status": "partial",
   "theorems": [
    "Goe2ee.C127_refuted",
    "Goe2ee.C127_empty_reply",
    "Goe2ee.C127_read_all_partial"
   ],
   "note": "Refuted for an empty reply. Proved for every other reply."
  },
  {
   "property": "C128",
   "status": "proved",
   "theorems": [
    "Goe2ee.C128_replies_in_order",
    "Goe2ee.C128_all_replies"
   ],
   "note": ""
  },
  {
   "property": "C129",
   "status": "proved",
   "theorems": [
    "Goe2ee.C129_replies_in_order",
    "Goe2ee.C129_all_replies"
   ],
   "note": ""
  },
  {
   "property": "C130",
   "status": "partial",
   "theorems": [
    "Goe2ee.C130_refuted",
    "Goe2ee.C130_other_hosts_partial"
   ],
   "note": "Refuted: somebody at the same host who knows the session id replaces the session with one setup request. Proved for everybody at other hosts, barring collisions of SHA-256."
  },
  {
   "property": "C131",
   "status": "proved",
   "theorems": [
    "Goe2ee.C131_parameters",
    "Goe2ee.C131_own_parameters",
    "Goe2ee.C131_one_name",
    "Goe2ee.C131_octets"
   ],
   "note": ""
  },
  {
   "property": "C132",
   "status": "partial",
   "theorems": [
    "Goe2ee.C132_refuted",
    "Goe2ee.C132_plain_partial"
   ],
   "note": "Refuted: Unregister does not escape the name in the URL, so bob is removed when bob?x leaves. Proved for names without ? # % and control characters."
  },
  {
   "property": "C133",
   "status": "partial",
   "theorems": [
    "Goe2ee.C133_refuted",
    "Goe2ee.C133_no_timeout_method",
    "Goe2ee.C133_read_partial",
    "Goe2ee.C133_only_partial",
    "Goe2ee.C133_write_partial"
   ],
   "note": "Refuted: no error of Read has a Timeout method. Proved: the error of Read wraps that of the connection wherever in a response it fails, and only then says that a deadline passed; Write returns the error of the connection itself."
  },
  {
   "property": "C134",
   "status": "partial",
   "theorems": [
    "Goe2ee.C134_refuted",
    "Goe2ee.C134_cut_reply",
    "Goe2ee.C134_plain_partial",
    "Goe2ee.C134_between_partial"
   ],
   "note": "Refuted: a reply cut between two fields gives an error that wraps io.EOF. Proved: io.EOF itself comes only with the whole of an authentic reply (or the rest of an earlier one)."
  },
  {
   "property": "C135",
   "status": "proved",
   "theorems": [
    "Goe2ee.C135_loss"
   ],
   "note": ""
  },
  {
   "property": "C136",
   "status": "partial",
   "theorems": [
    "Goe2ee.C136_refuted",
    "Goe2ee.C136_within_partial"
   ],
   "note": "Refuted: a reply that does not fit into a datagram is dropped silently. Proved: exactly the replies of at most 65474 octets are sent."
  },
  {
   "property": "C137",
   "status": "proved",
   "theorems": [
    "Goe2ee.C137_ephemeral_keys_once"
   ],
   "note": ""
  },
  {
   "property": "C138",
   "status": "partial",
   "theorems": [
    "Goe2ee.C138_refuted",
    "Goe2ee.C138_distinct_partial",
    "Goe2ee.C138_increasing_partial",
    "Goe2ee.C138_unshared_partial"
   ],
   "note": "Refuted for sessions shared by goroutines (pool). Proved: no counter is sent twice under a session, the counters of each goroutine increase, so the claim holds for sessions that are not shared."
  },
  {
   "property": "C139",
   "status": "proved",
   "theorems": [
    "Goe2ee.C139_reads",
    "Goe2ee.C139_writes",
    "Goe2ee.C139_reply",
    "Goe2ee.C139_conversation",
    "Goe2ee.C139_program"
   ],
   "note": "Handlers that panic are not answered (C24 and C139 exclude them); handlers that use more than io.Reader and io.Writer, or go on after returning, are outside the model."
  },
  {
   "property": "C140",
   "status": "proved",
   "theorems": [
    "Goe2ee.C140_dial",
    "Goe2ee.C140_read",
    "Goe2ee.C140_fetch"
   ],
   "note": "Messages shorter than 2^63 octets. Over UDP a failed dial leaves the socket open (C60)."
  },
  {
   "property": "C141",
   "status": "partial",
   "theorems": [
    "Goe2ee.C141_refuted",
    "Goe2ee.C141_flag",
    "Goe2ee.C141_unchanged_partial"
   ],
   "note": "Refuted: the flag is outside the ciphertext and not authenticated. Proved: the flag that arrives decides; so the claim holds if it is not changed."
  },
  {
   "property": "C142",
   "status": "proved",
   "theorems": [
    "Goe2ee.C142_silence",
    "Goe2ee.C142_others",
    "Goe2ee.C142_no_response",
    "Goe2ee.C142_closed",
    "Goe2ee.C142_conversation"
   ],
   "note": "Secret managers that neither write to the connection nor call the handler. C142_conversation is about UDP; over TCP the connection is closed, and the session can be used on another."
  },
  {
   "property": "C143",
   "status": "proved",
   "theorems": [
    "Goe2ee.C143_client",
    "Goe2ee.C143_nil_fetcher",
    "Goe2ee.C143_server",
    "Goe2ee.C143_manager",
    "Goe2ee.C143_fetchers",
    "Goe2ee.C143_packets"
   ],
   "note": "Options made by the functions of the package; nil functions, and functions written by the application, are outside the model. Nil managers of NewServer panic (C88)."
  },
  {
   "property": "C144",
   "status": "partial",
   "theorems": [
    "Goe2ee.C144_refuted",
    "Goe2ee.C144_late_partial",
    "Goe2ee.C144_calm_partial",
    "Goe2ee.C144_unblocked_partial"
   ],
   "note": "Refuted for clients without read timeout when a Read is in progress during Close. Proved: Write and Close always fail afterwards; Read does if there is a read timeout (the default) or if no Read was in progress during Close; every goroutine completes all its calls once a Close has returned."
  },
  {
   "property": "C145",
   "status": "partial",
   "theorems": [
    "Goe2ee.C145_refuted",
    "Goe2ee.C145_write_partial"
   ],
   "note": "Refuted: Close races with Read on the buffer. Proved: Close does not race with Write."
  },
  {
   "property": "C146",
   "status": "proved",
   "theorems": [
    "Goe2ee.C146_exchange",
    "Goe2ee.C146_only_answers",
    "Goe2ee.C146_published"
   ],
   "note": "HTTP, its timeout and JSON syntax are not modelled: sending and decoding are arbitrary answers of the environment."
  },
  {
   "property": "C147",
   "status": "partial",
   "theorems": [
    "Goe2ee.C147_refuted",
    "Goe2ee.C147_partial"
   ],
   "note": "Refuted: neither the name nor the type of a record is looked at. Proved if no other record in the answer is written as a zone signing key."
  },
  {
   "property": "C148",
   "status": "partial",
   "theorems": [
    "Goe2ee.C148_refuted",
    "Goe2ee.C148_never_found",
    "Goe2ee.C148_generated_partial",
    "Goe2ee.C148_default_dial"
   ],
   "note": "Refuted for generated ECDSA keys (P-521). Proved for generated RSA and Ed25519 keys; the dial with default options is proved for every published key in range (RSA modulus of 64 to 512 octets, P-256, P-384, Ed25519)."
  },
  {
   "property": "C149",
   "status": "proved",
   "theorems": [
    "Goe2ee.C149_reachable",
    "Goe2ee.C149_sent",
    "Goe2ee.C149_port_text",
    "Goe2ee.C149_port_read"
   ],
   "note": "Assumes that the operating system listens at the address asked for (127.0.0.1) and names, and that names are valid UTF-8."
  },
  {
   "property": "C150",
   "status": "partial",
   "theorems": [
    "Goe2ee.C150_refuted",
    "Goe2ee.C150_lost_response",
    "Goe2ee.C150_gone_partial"
   ],
   "note": "Refuted by a signal between registering and signal.Notify, and by a lost response of the registry. Proved otherwise."
  },
  {
   "property": "C151",
   "status": "partial",
   "theorems": [
    "Goe2ee.C151_register",
    "Goe2ee.C151_refuted",
    "Goe2ee.C151_generate_partial"
   ],
   "note": "Refuted: the status of the response to GenerateMessage is not looked at. Proved for Register, and for GenerateMessage without the status."
  },
  {
   "property": "C152",
   "status": "partial",
   "theorems": [
    "Goe2ee.C152_refuted",
    "Goe2ee.C152_setup_response_differs",
    "Goe2ee.C152_fetch_key_response_differs",
    "Goe2ee.C152_builds_partial",
    "Goe2ee.C152_reads_partial",
    "Goe2ee.C152_documented_setup_response_partial",
    "Goe2ee.C152_documented_server_refused"
   ],
   "note": "Refuted for two of the nine messages: the size of the signature has 4 octets instead of 8, the size of a fetched key 8 instead of 4. Everything else is proved to be as documented."
  },
  {
   "property": "C153",
   "status": "proved",
   "theorems": [
    "Goe2ee.C153_echo",
    "Goe2ee.C153_fetch",
    "Goe2ee.C153_no_error",
    "Goe2ee.C153_quick_start"
   ],
   "note": "For an empty message io.ReadAll fails: see C127."
  },
  {
   "property": "C154",
   "status": "proved",
   "theorems": [
    "Goe2ee.C154_dialled",
    "Goe2ee.C154_stays",
    "Goe2ee.C154_same"
   ],
   "note": "C154_same: over the whole connection type the client behaves as in the model of which the other theorems about clients over UDP speak. Pooled clients use TCP, where the operating system knows the address from the start."
  },
  {
   "property": "C155",
   "status": "partial",
   "theorems": [
    "Goe2ee.C155_refuted",
    "Goe2ee.C155_close_panics",
    "Goe2ee.C155_no_panic_partial",
    "Goe2ee.C155_waited_partial"
   ],
   "note": "Refuted: a client that connects at the moment the last connection ends while Close waits makes the listener (and with it the process) or Close panic: Go's wait group does not allow Add concurrently with Wait. Proved: no panic, and nothing is served after Close has waited, if every accepted connection is counted before Close is called."
  },
  {
   "property": "C156",
   "status": "partial",
   "theorems": [
    "Goe2ee.C156_refuted",
    "Goe2ee.C156_after_failure_partial",
    "Goe2ee.C156_no_deadline_partial",
    "Goe2ee.C156_close_logged_partial",
    "Goe2ee.C156_datagram_partial"
   ],
   "note": "Refuted: a response that missed the server's own write deadline is logged as 'connection closed by client'. Proved: the line is written only after the end of the connection was read or a write did not take everything; it is right if no deadline passes; a client that closes between requests is logged so, once; for datagrams it appears only if a response cannot be buffered."
  },
  {
   "property": "C157",
   "status": "partial",
   "theorems": [
    "Goe2ee.C157_refuted",
    "Goe2ee.C157_unknown_action",
    "Goe2ee.C157_same_conn",
    "Goe2ee.C157_same_packet",
    "Goe2ee.C157_same_loops",
    "Goe2ee.C157_explained_partial",
    "Goe2ee.C157_silent_partial",
    "Goe2ee.C157_few_lines_partial",
    "Goe2ee.C157_version_partial",
    "Goe2ee.C157_replay_partial",
    "Goe2ee.C157_panic_partial",
    "Goe2ee.C157_loops_partial"
   ],
   "note": "Refuted: the refusal of a message with an unknown session leaves no line. Proved: every other error response comes right after a line with its reason (table of sixteen); served requests leave none; at most three lines per request; a foreign version is named; a line about a replay names the refused counter; panics of the application and failures of the loops are logged; and the programs that log are those of the server model once the lines are left out. Lines about deadlines that cannot be set or connections that cannot be closed are not counted."
  },
  {
   "property": "C158",
   "status": "proved",
   "theorems": [
    "Goe2ee.C158_default",
    "Goe2ee.C158_certificate",
    "Goe2ee.C158_only_certified",
    "Goe2ee.C158_file"
   ],
   "note": "One theorem per set-up: default DNSKEY fetcher, TLS certificate, PEM file. The resolver, certificate verification and PEM decoding are parameters with the stated behaviour."
  },
  {
   "property": "C159",
   "status": "partial",
   "theorems": [
    "Goe2ee.C159_refuted",
    "Goe2ee.C159_never",
    "Goe2ee.C159_refused",
    "Goe2ee.C159_stored_partial"
   ],
   "note": "Refuted: the pool keeps the session of its first handshake until it is closed (client_pool.go:69-92), so after a restart of the server no schedule yields a client with a newer session, and every message of every client is refused. Proved: as long as the server still knows that session, messages of every lent client are answered."
  },
  {
   "property": "C160",
   "status": "partial",
   "theorems": [
    "Goe2ee.C160_refuted",
    "Goe2ee.C160_tcp_partial",
    "Goe2ee.C160_udp_partial",
    "Goe2ee.C160_no_timeout_partial",
    "Goe2ee.C160_no_pause"
   ],
   "note": "Refuted: an idle UDP server logs a failure to read whenever the read timeout passes. Proved: an idle TCP server writes nothing; an idle UDP server at most one such line per read timeout, and none if there is no timeout; C160_no_pause: a failing socket makes both loops write any number of lines in no time."
  },
  {
   "property": "C161",
   "status": "partial",
   "theorems": [
    "Goe2ee.C161_refuted",
    "Goe2ee.C161_dial_waits",
    "Goe2ee.C161_fetch_waits",
    "Goe2ee.C161_any_datagram_partial"
   ],
   "note": "Refuted: the handshake over UDP and the fetcher that asks the server set no deadline and do not repeat the request, so they wait for ever if a datagram is lost (the fetcher over TCP, too, if the server stays silent). Proved: if a single datagram arrives, whatever it contains, both return."
  },
  {
   "property": "C162",
   "status": "partial",
   "theorems": [
    "Goe2ee.C162_refuted",
    "Goe2ee.C162_stale",
    "Goe2ee.C162_expired_partial",
    "Goe2ee.C162_cached_partial"
   ],
   "note": "Refuted: a failed handshake does not remove the cached key, so until the time to live is over (for ever, if it is zero or negative) every dial uses the replaced key. Proved: after the time to live, or if the cache has no key or the right one, the client gets its reply, and the cache then has the new key."
  },
  {
   "property": "C163",
   "status": "proved",
   "theorems": [
    "Goe2ee.C163_udp_client"
   ],
   "note": "The datagrams of the handshake itself must not be lost (C161)."
  },
  {
   "property": "C164",
   "status": "proved",
   "theorems": [
    "Goe2ee.C164_long_term_key",
    "Goe2ee.C164_private_keys"
   ],
   "note": "With the session manager in memory. Each Write is taken completely or not at all (it may report an error in either case): a prefix of a response that contains a signature depends on its length."
  },
  {
   "property": "C165",
   "status": "proved",
   "theorems": [
    "Goe2ee.C165_connections",
    "Goe2ee.C165_places"
   ],
   "note": "If the first idle client is dead see C44 (Get never returns if all are dead). A Get that waits already may stay asleep (C43)."
  },
  {
   "property": "C166",
   "status": "proved",
   "theorems": [
    "Goe2ee.C166_replies"
   ],
   "note": "With the session manager in memory. The authenticated encryption is abstract: the theorem says that the replies are used only as plaintexts of the encryption under the session's key, not that the encryption hides them."
  },
  {
   "property": "C167",
   "status": "partial",
   "theorems": [
    "Goe2ee.C167_refuted",
    "Goe2ee.C167_no_name",
    "Goe2ee.C167_hash_partial",
    "Goe2ee.C167_names_partial"
   ],
   "note": "Refuted: the error for every unsupported algorithm is the same text, unsupported algorithm ''. Proved: the claim for hashes, and that the names of all supported actions, hash types and algorithms are different from one another and from those of unsupported values."
  },
  {
   "property": "C168",
   "status": "proved",
   "theorems": [
    "Goe2ee.C168_messages"
   ],
   "note": "Each goroutine dials and uses one client. The authenticated encryption is abstract: the theorem says that messages are used only as plaintexts of the encryption under the key of the session, not that the encryption hides them."
  },
  {
   "property": "C169",
   "status": "proved",
   "theorems": [
    "Goe2ee.C169_bounded",
    "Goe2ee.C169_write",
    "Goe2ee.C169_read"
   ],
   "note": "One effect is one read of a whole field (which may take several reads of the connection), one allocation, or one call outside the package. Hashing, deriving keys and decrypting are functions of the model and are not counted. Serving a request starts after the deadlines are set."
  },
  {
   "property": "C170",
   "status": "proved",
   "theorems": [
    "Goe2ee.C170_log"
   ],
   "note": "A line is its format and arguments. Assumed of the cryptography: the error of a failing X25519 does not depend on the private key. The lines about deadlines that cannot be set and connections that cannot be closed hold only the error of that call and are left out, as in C156 and C157. The log does contain the errors and panics of the application."
  },
  {
   "property": "C171",
   "status": "partial",
   "theorems": [
    "Goe2ee.C171_refuted",
    "Goe2ee.C171_collector_refuted",
    "Goe2ee.C171_alone_partial",
    "Goe2ee.C171_forever_partial"
   ],
   "note": "Refuted: two goroutines that miss at the same time both ask, and a collector may delete an entry that was renewed since it looked. Proved: the claim for one goroutine without a collector; for TTL at most zero and any number of goroutines, each is given at most one key for a host, and a call that begins after a key was stored does not ask."
  },
  {
   "property": "C172",
   "status": "partial",
   "theorems": [
    "Goe2ee.C172_refuted",
    "Goe2ee.C172_prompt_refuted",
    "Goe2ee.C172_silent_partial"
   ],
   "note": "Refuted twice: an unauthenticated request with the id from the same address renews the session, and an expired session is used until the collector's next tick. Proved: if nobody at that address begins a request with that id, the session is gone after the collector's visit and stays so until a setup, whatever else is served; messages of the client are then refused with Unknown-client and the application is not called."
  },
  {
   "property": "C173",
   "status": "partial",
   "theorems": [
    "Goe2ee.C173_refuted",
    "Goe2ee.C173_reply_refuted",
    "Goe2ee.C173_short_partial",
    "Goe2ee.C173_short_reply_partial",
    "Goe2ee.C173_long_partial",
    "Goe2ee.C173_long_reply_partial"
   ],
   "note": "Refuted in both directions: nothing limits what is sent, and more than 2^30 octets of ciphertext are refused by the receiver. Proved: the claim for messages and replies of at most 2^30 - 16 octets; every longer message is sent with success, refused as malformed, and changes neither the log of calls nor the counters of the server; Read fails on every longer reply."
  },
  {
   "property": "C174",
   "status": "proved",
   "theorems": [
    "Goe2ee.C174_unasked"
   ],
   "note": "Assumed: what the client receives and can decrypt was encrypted by the server or by a client, and clients encrypt with the client-to-server direction only (C21). A client that a pool opens for its session is the new client with that session."
  },
  {
   "property": "C175",
   "status": "partial",
   "theorems": [
    "Goe2ee.C175_refuted",
    "Goe2ee.C175_everybody_waits",
    "Goe2ee.C175_test_partial"
   ],
   "note": "Refuted: Get dials with the pool's mutex locked, so every other call that needs the mutex waits until the dial returns, whatever else happens. Proved: during the test of an idle client, or while Get waits for a client to be returned, the calls of the others can get on without it."
  },
  {
   "property": "C176",
   "status": "partial",
   "theorems": [
    "Goe2ee.C176_refuted",
    "Goe2ee.C176_time_partial",
    "Goe2ee.C176_disconnected_partial",
    "Goe2ee.C176_late_partial"
   ],
   "note": "Refuted: if the write timeout is longer than the read timeout, the server answers an incomplete request with an error and goes on; the octets that arrive late are taken for new requests. Proved: the time spent waiting is at most the read timeout, for all timeouts; the connection ends if the write timeout is not longer than the read timeout, as by default. In-memory session manager; a goroutine alone with its connection."
  },
  {
   "property": "C177",
   "status": "proved",
   "theorems": [
    "Goe2ee.C177_timeout",
    "Goe2ee.C177_in_time",
    "Goe2ee.C177_incomplete"
   ],
   "note": "Time passes only in reads; one goroutine uses the client. If setting the deadline fails, Read fails at once."
  },
  {
   "property": "C178",
   "status": "partial",
   "theorems": [
    "Goe2ee.C178_refuted",
    "Goe2ee.C178_result_partial",
    "Goe2ee.C178_empty_buffer_partial",
    "Goe2ee.C178_after_eof"
   ],
   "note": "Refuted: the Read after an io.EOF waits for another reply. Proved for every Read: the number of octets, progress, no loss with an empty buffer; io.EOF comes again only with another authentic reply."
  },
  {
   "property": "C179",
   "status": "partial",
   "theorems": [
    "Goe2ee.C179_refuted",
    "Goe2ee.C179_served_partial",
    "Goe2ee.C179_late_partial"
   ],
   "note": "Refuted: a start after Close succeeds and is never served. Proved: before Close every socket is open and ready after at most two steps of its own goroutine; a socket opened after Close never takes a client and is closed when the server is at rest."
  },
  {
   "property": "C180",
   "status": "partial",
   "theorems": [
    "Goe2ee.C180_refuted",
    "Goe2ee.C180_no_expiry",
    "Goe2ee.C180_expiry_partial",
    "Goe2ee.C180_in_use_partial",
    "Goe2ee.C180_close_again_partial"
   ],
   "note": "Refuted: Close of one server stops the collector of the shared manager, and no session expires any more. Proved: before any Close, a session unused for longer than the TTL plus one interval is gone; sessions in use are found, and Close of several servers is harmless, in any case."
  },
  {
   "property": "C181",
   "status": "proved",
   "theorems": [
    "Goe2ee.C181_kept",
    "Goe2ee.C181_served"
   ],
   "note": "Requests and visits of the collector are served one after the other, each as a whole; time passes between and within them. C35 is about calls of the manager that overlap."
  }
 ]
}