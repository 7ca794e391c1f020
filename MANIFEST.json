{
 "claims": [
  {
   "property": "C01",
   "status": "proved",
   "theorems": [
    "S2A.Frame.C01_round_trip",
    "S2A.Frame.C01_protect_succeeds"
   ],
   "note": "For two protectors as created; C02 gives the same after any session."
  },
  {
   "property": "C02",
   "status": "proved",
   "theorems": [
    "S2A.Frame.C02_in_order_delivery",
    "S2A.Frame.C02_in_step"
   ],
   "note": "Both directions, any interleaving, any number of items in flight, key updates included."
  },
  {
   "property": "C03",
   "status": "proved",
   "theorems": [
    "S2A.Frame.C03_protected_size",
    "S2A.Frame.C03_protected_size_in_place",
    "S2A.Frame.C03_protected_size_64"
   ],
   "note": ""
  },
  {
   "property": "C04",
   "status": "proved",
   "theorems": [
    "S2A.Frame.C04_records"
   ],
   "note": ""
  },
  {
   "property": "C05",
   "status": "proved",
   "theorems": [
    "S2A.Frame.C05_protect_ignores_split"
   ],
   "note": "Library not failing (a failure is a failure of the n-th library call, which depends on the split)."
  },
  {
   "property": "C06",
   "status": "proved",
   "theorems": [
    "S2A.Frame.C06_unprotect_ignores_split",
    "S2A.Frame.C06_unprotect_in_place_ignores_split"
   ],
   "note": "Library not failing, as for C05."
  },
  {
   "property": "C07",
   "status": "partial",
   "theorems": [
    "S2A.Frame.C07_unprotect_stays_inside_partial",
    "S2A.Frame.C07_counterexample",
    "S2A.Frame.C07_stays_inside_but_empty_partial",
    "S2A.Frame.C07_empty_buffer_read_iff",
    "S2A.Frame.C07_empty_buffer_read_into_iff",
    "S2A.Frame.C07_empty_buffers_ignored"
   ],
   "note": "Proved for non-empty buffers. False for a buffer of length 0 where a record header is expected (witness theorem). For buffers of any lengths: that is the only case (exact condition in both directions for both forms of Unprotect), and otherwise empty buffers make no difference. Null buffers (of length 0) are in the counterexample class: the code asserts that buffers are not null."
  },
  {
   "property": "C08",
   "status": "partial",
   "theorems": [
    "S2A.Frame.C08_partial_records_rejected_partial",
    "S2A.Frame.C08_short_tail_dropped",
    "S2A.Frame.C08_counterexample"
   ],
   "note": "Proved when at least 22 bytes remain after the complete records. A partial record of at most 21 bytes at the end is silently dropped (general theorem and witness)."
  },
  {
   "property": "C09",
   "status": "partial",
   "theorems": [
    "S2A.Frame.C09_single_record_partial",
    "S2A.Frame.C09_rest_ignored",
    "S2A.Frame.C09_counterexample"
   ],
   "note": "Partial records are refused. Bytes after the first record are ignored (general theorem and witness)."
  },
  {
   "property": "C10",
   "status": "partial",
   "theorems": [
    "S2A.Frame.C10_protect_ownership_partial",
    "S2A.Frame.C10_failure_destroys_twice",
    "S2A.Frame.C10_failure_destroys_callers_buffer",
    "S2A.Frame.C10_counterexample"
   ],
   "note": "Proved on success. On every failure the buffer is destroyed twice (theorem), reachable (witness theorem)."
  },
  {
   "property": "C11",
   "status": "partial",
   "theorems": [
    "S2A.Frame.C11_unprotect_ownership_partial",
    "S2A.Frame.C11_broken_framing_loses_all",
    "S2A.Frame.C11_counterexample"
   ],
   "note": "Proved but for a framing error after good records, which loses their buffers (general theorem and witness)."
  },
  {
   "property": "C12",
   "status": "proved",
   "theorems": [
    "S2A.Record.C12_only_authentic",
    "S2A.Record.C12_alerts_authentic"
   ],
   "note": "For every reachable state, well-formed buffers and every crypto-library failure."
  },
  {
   "property": "C13",
   "status": "partial",
   "theorems": [
    "S2A.Record.C13_rejected_zeroed_partial",
    "S2A.Record.C13_app_data_inside_handshake_keeps_plaintext",
    "S2A.Record.C13_every_rejection",
    "S2A.Record.C13_plaintext_stays"
   ],
   "note": "Proved for records that are not authentic, alerts and malformed inner plaintexts. False for application data refused inside a fragmented handshake message (witness theorem) and for refused handshake records: C13_every_rejection says what is left for every rejected record, C13_plaintext_stays that it is always left in these two cases."
  },
  {
   "property": "C14",
   "status": "proved",
   "theorems": [
    "S2A.HalfConn.C14_nonces_unique",
    "S2A.Record.C14_connection_nonces_unique",
    "S2A.Record.C14_key_nonce_pairs"
   ],
   "note": "\"The same key\" means between the same two key updates; C14_key_nonce_pairs says it for key bytes, given that the key schedule does not give the same key after different numbers of updates."
  },
  {
   "property": "C15",
   "status": "proved",
   "theorems": [
    "S2A.HalfConn.C15_exhaustion",
    "S2A.HalfConn.C15_after_update",
    "S2A.Record.C15_protect_exhaustion",
    "S2A.Record.C15_unprotect_exhaustion"
   ],
   "note": ""
  },
  {
   "property": "C16",
   "status": "proved",
   "theorems": [
    "S2A.HalfConn.C16_nonce_mask",
    "S2A.HalfConn.C16_C17_calls_follow_rfc8446",
    "S2A.Record.C16_C17_connection_follows_rfc8446"
   ],
   "note": ""
  },
  {
   "property": "C17",
   "status": "proved",
   "theorems": [
    "S2A.HalfConn.C17_n_updates",
    "S2A.HalfConn.C16_C17_calls_follow_rfc8446",
    "S2A.Record.C16_C17_connection_follows_rfc8446"
   ],
   "note": ""
  },
  {
   "property": "C18",
   "status": "proved",
   "theorems": [
    "S2A.C18_hkdf_sound",
    "S2A.C18_hkdf_success_iff",
    "S2A.C18_hkdf_status"
   ],
   "note": ""
  },
  {
   "property": "C19",
   "status": "proved",
   "theorems": [
    "S2A.Record.C19_close_notify_final"
   ],
   "note": ""
  },
  {
   "property": "C20",
   "status": "proved",
   "theorems": [
    "S2A.Record.C20_protect_limits",
    "S2A.Record.C20_unprotect_limits",
    "S2A.Record.C20_plaintext_limit"
   ],
   "note": ""
  },
  {
   "property": "C21",
   "status": "proved",
   "theorems": [
    "S2A.Record.C21_padding_removed",
    "S2A.Record.C21_unpad",
    "S2A.Record.C21_all_zero_rejected",
    "S2A.Record.C21_all_zero_invalid"
   ],
   "note": ""
  },
  {
   "property": "C22",
   "status": "partial",
   "theorems": [
    "S2A.Record.C22_fragmentation_irrelevant_partial",
    "S2A.Record.C22_view_of_stream",
    "S2A.Record.C22_split_of_messages",
    "S2A.Record.heard_is_authentic"
   ],
   "note": "Key updates cut over records advance the key once per record (C26_split_update_advances_twice), and a record that completes the fifth ticket and begins a sixth loses the tickets (C25_lost_when_fifth_straddled); both are excluded by hypotheses."
  },
  {
   "property": "C23",
   "status": "proved",
   "theorems": [
    "S2A.Record.C23_first_five_tickets",
    "S2A.Record.C23_stream_messages"
   ],
   "note": ""
  },
  {
   "property": "C24",
   "status": "proved",
   "theorems": [
    "S2A.Record.C24_sent_at_most_once"
   ],
   "note": ""
  },
  {
   "property": "C25",
   "status": "partial",
   "theorems": [
    "S2A.Record.C25_tickets_sent_when_due_partial",
    "S2A.Record.C25_lost_when_fifth_straddled",
    "S2A.Record.C25_lost_in_refused_record",
    "S2A.Record.C25_sent_exactly",
    "S2A.Record.C25_lost_iff"
   ],
   "note": "False: two cases in which tickets are lost are exhibited as theorems. C25_sent_exactly says for every cutting into records which tickets are handed on, C25_lost_iff exactly when those due are lost."
  },
  {
   "property": "C26",
   "status": "partial",
   "theorems": [
    "S2A.Record.C26_one_advance_per_update_partial",
    "S2A.Record.C26_split_update_advances_twice",
    "S2A.Record.C26_advances_exactly",
    "S2A.Record.C26_cut_update_advances_per_piece"
   ],
   "note": "False for a key update cut over records (witness theorem). C26_advances_exactly says for every cutting how often the key advances: once for each record with a byte of a key update; so once per piece of a cut one."
  },
  {
   "property": "C27",
   "status": "partial",
   "theorems": [
    "S2A.Record.C27_update_must_be_last_partial",
    "S2A.Record.C27_exact",
    "S2A.Record.C27_empty_update_need_not_be_last"
   ],
   "note": "False for a key update with an empty body (witness theorem); C27_exact says exactly when a record with a key update is accepted."
  },
  {
   "property": "C28",
   "status": "partial",
   "theorems": [
    "S2A.Record.C28_unexpected_type_refused_partial",
    "S2A.Record.C28_every_body_accepted",
    "S2A.Record.C28_any_request_byte_accepted",
    "S2A.Record.C28_any_update_length_accepted",
    "S2A.Record.C28_empty_record_accepted_after_unexpected"
   ],
   "note": "Neither the request byte nor the length of a key update is ever checked (general theorem and witnesses); an empty handshake record is still accepted after an unexpected type."
  },
  {
   "property": "C29",
   "status": "partial",
   "theorems": [
    "S2A.Record.C29_no_ub_in_order_partial",
    "S2A.Record.C29_no_ub_other_records",
    "S2A.Record.C29_empty_body_undefined",
    "S2A.Record.C29_after_refused_update_undefined",
    "S2A.Record.C29_after_unexpected_undefined",
    "S2A.Record.C29_undefined_only",
    "S2A.Record.C29_undefined_if",
    "S2A.Record.C29_every_handshake_record"
   ],
   "note": "False: three ways to reach a shift by a negative amount are exhibited as theorems. C29_undefined_only and C29_undefined_if say exactly which records are undefined in every reachable state (Spec.Reader); C29_every_handshake_record says for the others whether they succeed, also after messages out of order."
  },
  {
   "property": "C30",
   "status": "partial",
   "theorems": [
    "S2A.Record.C30_only_handshake_continues_partial",
    "S2A.Record.C30_app_data_inside_message_after_fifth",
    "S2A.Record.C30_alert_inside_message_reported",
    "S2A.Record.C30_accepted_inside_iff"
   ],
   "note": "False when the record completing the fifth ticket begins another message (witness theorem); C30_accepted_inside_iff says that this is exactly the case in which it is false."
  },
  {
   "property": "C31",
   "status": "proved",
   "theorems": [
    "S2A.Record.C31_interleaving_irrelevant"
   ],
   "note": ""
  },
  {
   "property": "C32",
   "status": "partial",
   "theorems": [
    "S2A.Race.C32_no_update_partial",
    "S2A.Race.C32_only_record_overhead_partial",
    "S2A.Race.C32_use_after_free",
    "S2A.Race.C32_race",
    "S2A.Race.C32_two_unprotect_race",
    "S2A.Race.C32_update_breaks",
    "S2A.Race.C32_exact"
   ],
   "note": "Proved without key updates, for any number of threads. C32_exact: with one thread that unprotects, safe if and only if no key update is received or no other thread protects. With a key update the claim is false: RecordOverhead reads the AEAD object of the receiving half without its lock (witness theorems), and that is the only place (second theorem)."
  },
  {
   "property": "C33",
   "status": "proved",
   "theorems": [
    "S2A.HalfConn.C33_failed_update_poisons",
    "S2A.HalfConn.C33_later_update_may_report_ok",
    "S2A.Record.C33_failed_outbound_update",
    "S2A.Record.C33_failed_inbound_update"
   ],
   "note": ""
  },
  {
   "property": "C34",
   "status": "proved",
   "theorems": [
    "S2A.Aead.C34_encrypt_ignores_split",
    "S2A.Aead.C34_decrypt_ignores_split"
   ],
   "note": ""
  },
  {
   "property": "C35",
   "status": "proved",
   "theorems": [
    "S2A.Aead.C35_round_trip"
   ],
   "note": ""
  },
  {
   "property": "C36",
   "status": "proved",
   "theorems": [
    "S2A.Aead.C36_outside_is_undefined",
    "S2A.Aead.C36_encrypt_in_bounds",
    "S2A.Aead.C36_decrypt_in_bounds",
    "S2A.Aead.C36_null_tag_buffer_dereferenced"
   ],
   "note": "For well-formed buffers, as stated; the last theorem shows that the premise is needed."
  },
  {
   "property": "C37",
   "status": "partial",
   "theorems": [
    "S2A.Aead.C37_no_plaintext_on_failure_partial",
    "S2A.Aead.C37_forged_leaves_zeros",
    "S2A.Aead.C37_too_small_output",
    "S2A.Aead.C37_too_small_output_keeps_plaintext"
   ],
   "note": "False when the output buffer is too small, but for BoringSSL ChaCha20-Poly1305: C37_too_small_output says what is left in the buffer (and a witness)."
  },
  {
   "property": "C38",
   "status": "proved",
   "theorems": [
    "S2A.Aead.C38_encrypt_builds_agree",
    "S2A.Aead.C38_decrypt_builds_agree",
    "S2A.Aead.C38_cross_build_round_trip",
    "S2A.Aead.C38_builds_differ_on_null_tag"
   ],
   "note": ""
  },
  {
   "property": "C39",
   "status": "proved",
   "theorems": [
    "S2A.TlsOptions.C39_copy_faithful",
    "S2A.TlsOptions.C39_options_history",
    "S2A.TlsOptions.C39_copies_independent"
   ],
   "note": ""
  },
  {
   "property": "C40",
   "status": "partial",
   "theorems": [
    "S2A.C40_tls_version",
    "S2A.C40_ciphersuite",
    "S2A.C40_identity_partial",
    "S2A.C40_identity_nul",
    "S2A.C40_empty_identity",
    "S2A.C40_identity_from_wire"
   ],
   "note": "Versions and ciphersuites in full. Identities without NUL bytes; with one they are cut off (theorem)."
  },
  {
   "property": "C41",
   "status": "partial",
   "theorems": [
    "S2A.C41_serialize_succeeds",
    "S2A.C41_exact",
    "S2A.C41_context_round_trip_partial",
    "S2A.C41_nul_lost",
    "S2A.C41_deserialize_supported",
    "S2A.C41_serialize_status",
    "S2A.C41_deserialize_status"
   ],
   "note": "Contexts without NUL bytes; C41_exact says what comes back in general."
  },
  {
   "property": "C42",
   "status": "partial",
   "theorems": [
    "S2A.Proxy.C42_requests_in_order_partial",
    "S2A.Proxy.C42_failure_emits_nothing",
    "S2A.Proxy.C42_emitted_in_every_state",
    "S2A.Proxy.C42_not_refused_after_finish"
   ],
   "note": "All but the refusal after the handshake has finished, which the code never does (general theorem and witness)."
  },
  {
   "property": "C43",
   "status": "partial",
   "theorems": [
    "S2A.Proxy.C43_client_start",
    "S2A.Proxy.C43_server_start",
    "S2A.Proxy.C43_client_start_partial",
    "S2A.Proxy.C43_server_start_partial",
    "S2A.Proxy.C43_nul_lost"
   ],
   "note": "Exact contents for every configuration; equal to the configured values if no string has a NUL byte (witness theorem for the rest)."
  },
  {
   "property": "C44",
   "status": "proved",
   "theorems": [
    "S2A.Proxy.C44_failed_response"
   ],
   "note": ""
  },
  {
   "property": "C45",
   "status": "partial",
   "theorems": [
    "S2A.Proxy.C45_finished_iff_partial",
    "S2A.Proxy.C45_finished_stays",
    "S2A.Proxy.C42_emitted_in_every_state",
    "S2A.Proxy.C45_response_in_every_state",
    "S2A.Proxy.C42_not_refused_after_finish"
   ],
   "note": "Messages are still sent and accepted after the end: the state of the handshake makes no difference (general theorems and witness)."
  },
  {
   "property": "C46",
   "status": "partial",
   "theorems": [
    "S2A.Proxy.C46_not_before_result",
    "S2A.Proxy.C46_uses_result_partial",
    "S2A.Proxy.C46_every_history",
    "S2A.Proxy.C46_undefined_iff",
    "S2A.Proxy.C46_crash_without_state",
    "S2A.Proxy.C46_created_without_identity"
   ],
   "note": "The claim holds if the last result is complete. C46_every_history says what happens in all other histories, C46_undefined_iff exactly when the behaviour is undefined. Witness theorems: null dereference, and creation after an error."
  },
  {
   "property": "C47",
   "status": "partial",
   "theorems": [
    "S2A.Proxy.C47_tokens",
    "S2A.Proxy.C47_selected_only_partial",
    "S2A.Proxy.C47_others_iff_refused",
    "S2A.Proxy.C47_other_tokens_sent"
   ],
   "note": "Tokens always belong to the identity named. Once an identity is selected only its token is sent, unless the token manager refuses it in this very call: then those of all other local identities are sent (C47_others_iff_refused, witness theorem)."
  },
  {
   "property": "C48",
   "status": "proved",
   "theorems": [
    "S2A.Proxy.C48_invalid_client_fails",
    "S2A.Proxy.C48_invalid_client_never_starts"
   ],
   "note": ""
  },
  {
   "property": "C49",
   "status": "partial",
   "theorems": [
    "S2A.Proxy.C49_identities_of_result_partial",
    "S2A.Proxy.C49_never_checked",
    "S2A.Proxy.C49_not_enforced"
   ],
   "note": "The code never compares the identities, whatever the history (C49_never_checked; witness theorem). Proved: they are reported verbatim."
  },
  {
   "property": "C50",
   "status": "partial",
   "theorems": [
    "S2A.Proxy.C50_context_once_partial",
    "S2A.Proxy.C50_every_history"
   ],
   "note": "Proved for the first call after the result; all later calls return a null pointer with status OK (same theorem). C50_every_history says what is returned in every history."
  },
  {
   "property": "C51",
   "status": "partial",
   "theorems": [
    "S2A.TokenManager.C51_constant_partial",
    "S2A.TokenManager.C51_built_without_token"
   ],
   "note": "A manager can be created without a token in the environment (witness theorem)."
  },
  {
   "property": "C52",
   "status": "partial",
   "theorems": [
    "S2A.TicketSender.C52_ticket_request_partial",
    "S2A.TicketSender.C52_exact",
    "S2A.TicketSender.C52_nul_lost"
   ],
   "note": "Tickets and connection id in full; the identity up to a NUL byte (witness theorem)."
  },
  {
   "property": "C53",
   "status": "partial",
   "theorems": [
    "S2A.Proxy.C53_one_protector_partial",
    "S2A.Proxy.C53_all_share",
    "S2A.Proxy.C53_shared_nonces"
   ],
   "note": "Proved for each frame protector. Any two of them made from one result share all keys and nonces (C53_all_share; witness theorem)."
  },
  {
   "property": "C54",
   "status": "partial",
   "theorems": [
    "S2A.Proxy.C54_forwarded_verbatim_partial",
    "S2A.Proxy.C54_nothing_else_forwarded",
    "S2A.Proxy.C54_forwarded_iff",
    "S2A.Proxy.C54_on_the_wire",
    "S2A.Proxy.C54_extra_fields",
    "S2A.Proxy.C54_status_again",
    "S2A.Proxy.C54_out_frames_dropped"
   ],
   "note": "Proved for responses with status OK and no or a complete result; frames of other responses are dropped (witness theorem)."
  },
  {
   "property": "C55",
   "status": "proved",
   "theorems": [
    "S2A.Frame.C55_ok_means_authentic",
    "S2A.Frame.C55_ok_means_authentic_in_place"
   ],
   "note": ""
  },
  {
   "property": "C56",
   "status": "proved",
   "theorems": [
    "S2A.Frame.C56_unprotected_size_is_enough",
    "S2A.Frame.C56_unprotect_fits"
   ],
   "note": ""
  },
  {
   "property": "C57",
   "status": "proved",
   "theorems": [
    "S2A.Record.C57_accepted_elsewhere_means_tag_collision",
    "S2A.Record.C57_nonces_differ",
    "S2A.Record.C57_every_attempt_takes_a_position"
   ],
   "note": ""
  },
  {
   "property": "C58",
   "status": "proved",
   "theorems": [
    "S2A.Aead.C58_aes_gcm_key_sizes",
    "S2A.Aead.C58_chacha_key_size",
    "S2A.Aead.C58_creation_status",
    "S2A.HalfConn.C58_half_connection_creation",
    "S2A.Record.C58_connection_creation",
    "S2A.Frame.C58_protector_creation"
   ],
   "note": ""
  },
  {
   "property": "C59",
   "status": "proved",
   "theorems": [
    "S2A.Race.C59_frame_protector",
    "S2A.Race.C59_proxy"
   ],
   "note": ""
  },
  {
   "property": "C60",
   "status": "partial",
   "theorems": [
    "S2A.Race.C60_handshake_calls_partial",
    "S2A.Race.C60_one_thread_partial",
    "S2A.Race.C60_use_after_free",
    "S2A.Race.C60_create_race",
    "S2A.Race.C60_safe_iff",
    "S2A.Race.C60_result_replaced"
   ],
   "note": "C60_safe_iff says exactly which pairs of calls clash. Proved unless CreateFrameProtector or GetS2AContext is called in another thread than the one that receives results; then false (witness theorems)."
  },
  {
   "property": "C61",
   "status": "proved",
   "theorems": [
    "S2A.Record.C61_delivered_subsequence",
    "S2A.Frame.C61_frame_subsequence",
    "S2A.Frame.C61_frame_fragments"
   ],
   "note": "The absence of forgeries and key collisions are hypotheses about the AEAD calls of the run."
  },
  {
   "property": "C62",
   "status": "proved",
   "theorems": [
    "S2A.Frame.C62_frame_prefix",
    "S2A.Record.C62_delivered_prefix",
    "S2A.Record.C62_orderly_prefix",
    "S2A.Frame.C62_frame_orderly_prefix",
    "S2A.Record.C62_gap_after_error"
   ],
   "note": "C62_orderly_prefix and C62_frame_orderly_prefix allow a sender of tickets, alerts and key updates. The last theorem shows that the condition on errors is needed."
  },
  {
   "property": "C63",
   "status": "proved",
   "theorems": [
    "S2A.Record.C63_close_means_complete"
   ],
   "note": "At the record level; a frame protector does not report close-notify as such (see DESIGN.md section 4)."
  },
  {
   "property": "C64",
   "status": "partial",
   "theorems": [
    "S2A.Frame.C64_nothing_lost_partial",
    "S2A.Frame.C64_every_call",
    "S2A.Frame.C64_lost",
    "S2A.Frame.C64_counterexample"
   ],
   "note": "Proved if no call is given a complete record after its first; otherwise false (witness theorem). C64_every_call and C64_lost say for every call what is returned and what is lost."
  },
  {
   "property": "C65",
   "status": "proved",
   "theorems": [
    "S2A.Proxy.C65_end_to_end",
    "S2A.Proxy.C65_end_to_end_attacked",
    "S2A.Proxy.C65_protector_created"
   ],
   "note": "That the two S2As report one session is a hypothesis; forgeries and key collisions are excluded in C65_end_to_end_attacked as in C62."
  },
  {
   "property": "C66",
   "status": "proved",
   "theorems": [
    "S2A.Frame.C66_linearizable",
    "S2A.Frame.C66_unguarded_counterexample"
   ],
   "note": "Steps are single accesses to the members of one object and mutex operations. The race of RecordOverhead with a key update is C32. The second theorem shows that the condition on the non-allocating Unprotect is needed."
  },
  {
   "property": "C67",
   "status": "proved",
   "theorems": [
    "S2A.Frame.C67_nonces_unique_under_threads",
    "S2A.Frame.C67_threads_follow_rfc8446"
   ],
   "note": "Without any condition on the calls: the mutex of the half connection is what protects the nonce."
  },
  {
   "property": "C68",
   "status": "proved",
   "theorems": [
    "S2A.Frame.C68_no_new_ub",
    "S2A.Frame.C68_threads_stay_inside",
    "S2A.Frame.C68_no_deadlock"
   ],
   "note": "Undefined behaviour other than data races, which are C32."
  },
  {
   "property": "C69",
   "status": "proved",
   "theorems": [
    "S2A.Record.C69_bounded_memory",
    "S2A.Frame.C69_frame_bounded_memory"
   ],
   "note": "Counts the fragments of the message being read and of the stored tickets (the only memory of a connection that grows)."
  },
  {
   "property": "C70",
   "status": "partial",
   "theorems": [
    "S2A.Frame.C70_after_close_no_data_partial",
    "S2A.Frame.C70_after_close_no_data_in_place_partial",
    "S2A.Frame.C70_two_failures",
    "S2A.Frame.C70_close_looks_like_forgery",
    "S2A.Frame.C70_counterexample"
   ],
   "note": "Nothing is delivered after the alert; but the status is the one of a broken record (general theorems and witness)."
  },
  {
   "property": "C71",
   "status": "partial",
   "theorems": [
    "S2A.Frame.C71_one_sending_key",
    "S2A.Frame.C71_counterexample"
   ],
   "note": "The first key is used for ever: requests are ignored (general theorem and witness)."
  },
  {
   "property": "C72",
   "status": "proved",
   "theorems": [
    "S2A.Record.C72_waits_for_every_request"
   ],
   "note": ""
  },
  {
   "property": "C73",
   "status": "partial",
   "theorems": [
    "S2A.Frame.C73_requests_partial",
    "S2A.Frame.C73_nothing_sent",
    "S2A.Frame.C73_counterexample"
   ],
   "note": "Holds for a sender that sends its request; the one frame protectors use is a stub (witness theorem)."
  },
  {
   "property": "C74",
   "status": "partial",
   "theorems": [
    "S2A.Frame.C74_key_usage_partial",
    "S2A.Frame.C74_any_number",
    "S2A.Frame.C74_counterexample"
   ],
   "note": "The only limit is that of the 64-bit sequence number (general theorem and witness)."
  },
  {
   "property": "C75",
   "status": "proved",
   "theorems": [
    "S2A.Frame.C75_concurrent_senders",
    "S2A.Frame.C75_return_order_fails"
   ],
   "note": "The second theorem is the witness for the last sentence."
  },
  {
   "property": "C76",
   "status": "partial",
   "theorems": [
    "S2A.Frame.C76_conformant_peer_partial",
    "S2A.Frame.C76_split_update_fails",
    "S2A.Frame.C76_split_update_never_understood"
   ],
   "note": "Proved for all conformant peers that do not split a key update over records. One that does is not understood: a witness theorem, and in general no split key update is, unless a record opens with keys it was not sealed with."
  },
  {
   "property": "C77",
   "status": "partial",
   "theorems": [
    "S2A.Frame.C77_released_once_partial",
    "S2A.Frame.C77_nothing_left_partial",
    "S2A.Frame.C77_failing_protect_deletes_twice",
    "S2A.Frame.C77_counterexample",
    "S2A.Frame.C77_lost_counterexample",
    "S2A.Frame.C77_exact",
    "S2A.Frame.C77_leak_iff"
   ],
   "note": "C77_exact and C77_leak_iff say exactly when memory is deleted twice and which buffers are lost. Proved for histories in which no Protect fails and no Unprotect fails with the status for broken framing. Otherwise false: every failing Protect deletes its buffer twice (general theorem and witness), and broken framing after good records loses buffers (witness theorem)."
  },
  {
   "property": "C78",
   "status": "proved",
   "theorems": [
    "S2A.Frame.C78_unprotect_allocates_no_more_than_given",
    "S2A.Frame.C78_in_place_allocates_nothing",
    "S2A.Frame.C78_protect_allocates_exactly"
   ],
   "note": ""
  },
  {
   "property": "C79",
   "status": "proved",
   "theorems": [
    "S2A.Aead.C79_encrypt_size",
    "S2A.Aead.C79_decrypt_size",
    "S2A.Aead.C79_short_ciphertext",
    "S2A.Aead.C79_sizes_inverse",
    "S2A.Aead.C79_sizes_64_bit",
    "S2A.Aead.C79_advertised_buffer"
   ],
   "note": ""
  },
  {
   "property": "C80",
   "status": "proved",
   "theorems": [
    "S2A.Frame.C80_one_call_or_two",
    "S2A.Frame.C80_undefined_behaviour"
   ],
   "note": "Without failures of the crypto library."
  },
  {
   "property": "C81",
   "status": "proved",
   "theorems": [
    "S2A.C81_grammar",
    "S2A.C81_values",
    "S2A.Proxy.C81_malformed_refused",
    "S2A.Proxy.C81_cut_response",
    "S2A.Proxy.C81_cut_serialized"
   ],
   "note": "The decoder is that of the upb library, which is not in /repo; modelled from the protobuf documentation."
  },
  {
   "property": "C82",
   "status": "partial",
   "theorems": [
    "S2A.C82_cut_inside_field_refused_partial",
    "S2A.C82_cut_exact",
    "S2A.C82_cut_accepted"
   ],
   "note": "Cut inside a field it is refused; cut between two fields it is accepted with the rest read as zero (exact theorem and witness)."
  },
  {
   "property": "C83",
   "status": "proved",
   "theorems": [
    "S2A.C83_frame_protector_texts",
    "S2A.C83_proxy_texts",
    "S2A.C83_details_unchanged"
   ],
   "note": "The list is Spec/Text.lean, with the messages of the AEAD crypters and the key derivation. The error queue of the cryptographic library and the messages of the token manager are parameters. Texts of Create and of the context functions are fixed and not listed."
  },
  {
   "property": "C84",
   "status": "partial",
   "theorems": [
    "S2A.C84_frame_protector_partial",
    "S2A.C84_proxy_partial",
    "S2A.C84_too_short_not_logged",
    "S2A.C84_no_status_empty_text",
    "S2A.C84_create_not_logged"
   ],
   "note": "Exactly three exceptions: too few bytes given to Unprotect (nothing logged), a response without status (empty texts), CreateFrameProtector after the handshake (nothing logged)."
  },
  {
   "property": "C85",
   "status": "partial",
   "theorems": [
    "S2A.C85_alert_reported_partial",
    "S2A.C85_all_alerts_same_text",
    "S2A.C85_alerts_indistinguishable"
   ],
   "note": "The message says that it was an alert, but names the content type 21 instead of the number of the alert (general theorem and witness)."
  },
  {
   "property": "C86",
   "status": "proved",
   "theorems": [
    "S2A.Proxy.C86_requests",
    "S2A.C86_request_unique",
    "S2A.C86_response",
    "S2A.Proxy.C86_response_effect",
    "S2A.C86_context_written",
    "S2A.C86_context_read",
    "S2A.C86_ticket"
   ],
   "note": "The schema is Spec/Schema.lean, over the grammar of Spec/Wire.lean. For messages shorter than 2^64 bytes. The upb library is modelled from the protobuf documentation."
  },
  {
   "property": "C87",
   "status": "proved",
   "theorems": [
    "S2A.Frame.C87_every_call_ends",
    "S2A.Frame.C87_every_history_ends",
    "S2A.Frame.C87_bounds_are_never_felt",
    "S2A.Frame.C87_protect_work",
    "S2A.Frame.C87_unprotect_work"
   ],
   "note": "For arbitrary buffers, also ones that lead to undefined behaviour. Loops of the model that do not follow a list carry a bound on their iterations; the theorems show that the bound is never reached and has no influence. The library calls are taken to return."
  },
  {
   "property": "C88",
   "status": "proved",
   "theorems": [
    "S2A.Proxy.C88_to_the_S2A",
    "S2A.Proxy.C88_to_the_peer",
    "S2A.Proxy.C88_from_S2A_to_S2A"
   ],
   "note": "Good responses: status OK, and the result, if there is one, complete (what happens to others is C54). Requests shorter than 2^64 bytes."
  },
  {
   "property": "C89",
   "status": "partial",
   "theorems": [
    "S2A.Frame.C89_protect_again_partial",
    "S2A.Frame.C89_protect_without_memory",
    "S2A.Frame.C89_library_failure_spends_the_number",
    "S2A.Frame.C89_unprotect_spends_the_number",
    "S2A.Frame.C89_unprotect_cannot_be_repeated",
    "S2A.Frame.C89_protect_cannot_be_repeated"
   ],
   "note": "Holds for Protect if the allocator has no memory. False for Unprotect, and for Protect if the library fails: a sequence number is spent (general theorems), so the record, or the repeated message, is refused (witnesses)."
  },
  {
   "property": "C90",
   "status": "proved",
   "theorems": [
    "S2A.Record.C90_crypter",
    "S2A.Record.C90_crypter_suite",
    "S2A.Record.C90_crypter_undefined",
    "S2A.Record.C90_crypter_bytes",
    "S2A.Frame.C90_frame"
   ],
   "note": "The reference machine is Spec/Reference.lean. Without failures of the library (see C89), with buffers that are there, an allocator that gives what it is asked for, and for Unprotect input buffers that are not empty (for the others see DESIGN section 4)."
  },
  {
   "property": "C91",
   "status": "proved",
   "theorems": [
    "S2A.Record.C91_crypter",
    "S2A.Record.C91_crypter_exact",
    "S2A.Record.C91_dead_stays",
    "S2A.Frame.C91_frame"
   ],
   "note": "The machine and its lapses are in Spec/Reference.lean. With buffers that are there. A failing library function is one that returns an error; it does not write anything else than the code expects."
  },
  {
   "property": "C92",
   "status": "proved",
   "theorems": [
    "S2A.Frame.C92_only_lengths_show"
   ],
   "note": "A relation between pairs of runs. Timing is not modelled. The contents of the records are left open here (they are settled by C90)."
  },
  {
   "property": "C93",
   "status": "partial",
   "theorems": [
    "S2A.Frame.C93_roomy_allocator_partial",
    "S2A.Frame.C93_rest_of_buffer_is_handed_out",
    "S2A.Frame.C93_peer_refuses"
   ],
   "note": "False for the Protect that allocates: it returns the whole buffer, whose end is what was in the memory before (general theorem); the peer refuses what it gets (witness). Everything else is as the reference machine of C90 says."
  },
  {
   "property": "C94",
   "status": "proved",
   "theorems": [
    "S2A.Frame.C94_handover",
    "S2A.Frame.C94_key_update_forgets",
    "S2A.Frame.C94_tickets_stay_behind"
   ],
   "note": "Without failures of the library (C91 says what those do). C94_tickets_stay_behind shows that the condition on tickets is needed."
  },
  {
   "property": "C95",
   "status": "proved",
   "theorems": [
    "S2A.Proxy.C95_tokens_only_to_the_S2A"
   ],
   "note": "A relation between pairs of runs, with log lines and messages. The order of iteration over the token cache is taken not to depend on the tokens (a flat_hash_map hashes the keys only). Timing is not modelled."
  },
  {
   "property": "C96",
   "status": "proved",
   "theorems": [
    "S2A.Proxy.C96_secrets_only_into_protectors"
   ],
   "note": "A relation between pairs of runs, with log lines and messages. What the frame protectors do with the secrets is C90 and C18."
  },
  {
   "property": "C97",
   "status": "proved",
   "theorems": [
    "S2A.Frame.C97_connection_creation",
    "S2A.Frame.C97_protector_creation",
    "S2A.Proxy.C97_status_for_s2a",
    "S2A.Proxy.C97_status_for_peer",
    "S2A.Proxy.C97_before_and_after_the_result"
   ],
   "note": "If an argument is unusable and the library fails as well, what is found first is reported (witness beside the theorem). A protector made from a result without any session state is undefined behaviour (C46)."
  },
  {
   "property": "C98",
   "status": "partial",
   "theorems": [
    "S2A.Record.C98_accepted_from_the_peer_partial",
    "S2A.Frame.C98_frame_accepted_from_the_peer_partial",
    "S2A.Frame.C98_own_records_accepted",
    "S2A.Proxy.C98_proxy_does_not_check"
   ],
   "note": "Holds if no traffic key of one direction is one of the other, which the S2A has to see to. The code does not check that the two traffic secrets differ; if secrets and sequence numbers are equal, every record that comes back is delivered."
  },
  {
   "property": "C99",
   "status": "partial",
   "theorems": [
    "S2A.Proxy.C99_again_at_once",
    "S2A.Proxy.C99_again_later_partial",
    "S2A.Proxy.C99_old_response_counts_again",
    "S2A.Proxy.C99_context_again"
   ],
   "note": "Holds at once and, later, as long as no other response with status OK and no GetS2AContext came in between. After another result the old one counts again (for every history); after GetS2AContext the context can be fetched again."
  },
  {
   "property": "C100",
   "status": "proved",
   "theorems": [
    "S2A.Frame.C100_threads_and_network",
    "S2A.Frame.C100_threads_and_failures"
   ],
   "note": "Under the same hypotheses as C61/C62 (no forgery, no collision in the key schedule) and C66 (no overlap with the non-allocating Unprotect)."
  },
  {
   "property": "C101",
   "status": "partial",
   "theorems": [
    "S2A.Proxy.C101_ticket_request_exact",
    "S2A.Proxy.C101_first_protector_partial",
    "S2A.Proxy.C101_later_protectors",
    "S2A.Proxy.C101_counterexample"
   ],
   "note": "CreateFrameProtector moves the channel factory out of the proxy, so only the first call that gets past the check for a result has it, even if it fails; no later protector can reach the S2A. Address, connection id and identity are always right."
  },
  {
   "property": "C102",
   "status": "proved",
   "theorems": [
    "S2A.Aead.C102_encrypt_status",
    "S2A.Aead.C102_decrypt_status"
   ],
   "note": "Encrypt needs a non-null output buffer (asserted). For Decrypt the hypothesis is that the call ends normally; C36 says when it does not (a null pointer where the tag is read)."
  },
  {
   "property": "C103",
   "status": "partial",
   "theorems": [
    "S2A.Race.C103_frame_protector_partial",
    "S2A.Race.C103_logger_deadlock",
    "S2A.Race.C103_proxy_partial",
    "S2A.Race.C103_token_manager_deadlock"
   ],
   "note": "Exactly when: no function may call the allocating Unprotect; logger and destroy may not call Protect, nor lead to it through the non-allocating Unprotect and the destructor of the channel factory; functions of a proxy may not call the proxy at all. Otherwise a thread waits for itself."
  },
  {
   "property": "C104",
   "status": "partial",
   "theorems": [
    "S2A.InPlace.C104_unprotect_partial",
    "S2A.InPlace.C104_unprotect_model",
    "S2A.InPlace.C104_unprotect_in_place",
    "S2A.InPlace.C104_protect_partial",
    "S2A.InPlace.C104_protect_model",
    "S2A.InPlace.C104_protect_sends",
    "S2A.InPlace.C104_protect_in_place",
    "S2A.InPlace.C104_protect_overwritten",
    "S2A.InPlace.C104_protect_not_in_place",
    "S2A.InPlace.C104_unprotect_clash",
    "S2A.InPlace.C104_protect_clash"
   ],
   "note": "Holds if each buffer of the input lies exactly where its own result goes, or apart from what is written up to there. Otherwise false: a message of 16385 bytes protected in place is sent with another last byte and status OK (for every protector), and a partial overlap is undefined in the library."
  },
  {
   "property": "C105",
   "status": "partial",
   "theorems": [
    "S2A.Record.C105_only_present_keys_partial",
    "S2A.Record.C105_history_leaves_no_trace",
    "S2A.Record.C105_update_replaces_all",
    "S2A.Record.C105_failed_update_keeps_key",
    "S2A.Record.C105_counterexample",
    "S2A.Frame.C105_frame_protector_partial"
   ],
   "note": "Holds of every direction that has not failed, and after every update that reports success. An update that fails part way leaves the old AEAD key in the object (the direction is then unusable). Freed heap memory is not modelled."
  },
  {
   "property": "C106",
   "status": "proved",
   "theorems": [
    "S2A.C106_equality",
    "S2A.HashTable.C106_hash",
    "S2A.HashTable.C106_options_sets",
    "S2A.HashTable.C106_options_model",
    "S2A.HashTable.C106_token_cache",
    "S2A.HashTable.C106_token_cache_model"
   ],
   "note": "For every hash function. The last theorem and C106_options_model tie the tables to the lists the rest of the model uses."
  },
  {
   "property": "C107",
   "status": "proved",
   "theorems": [
    "S2A.NoChacha.C107_other_suites",
    "S2A.NoChacha.C107_chacha_refused",
    "S2A.NoChacha.C107_crypter_refused",
    "S2A.NoChacha.C107_offered_all_the_same"
   ],
   "note": "The other builds are the subject of all other claims."
  },
  {
   "property": "C108",
   "status": "proved",
   "theorems": [
    "S2A.Frame.C108_histories",
    "S2A.Frame.C108_protect",
    "S2A.Frame.C108_unprotect"
   ],
   "note": "The conditions on the buffer and on the input are needed: see the last example in Props/Forms.lean."
  },
  {
   "property": "C109",
   "status": "proved",
   "theorems": [
    "S2A.Aead.C109_encrypt",
    "S2A.Aead.C109_encrypt_exact",
    "S2A.Aead.C109_decrypt",
    "S2A.Aead.C109_decrypt_exact"
   ],
   "note": "The record layer and the frame protector never get there: their sizes are bounded (C07, C90). C116 says what becomes of a length that does not fit if its lower 32 bits are not a negative int."
  },
  {
   "property": "C110",
   "status": "proved",
   "theorems": [
    "S2A.Proxy.C110_linearizable",
    "S2A.Proxy.C110_mutex_calls",
    "S2A.Proxy.C110_one_result",
    "S2A.Proxy.C110_no_new_ub",
    "S2A.Proxy.C110_no_deadlock",
    "S2A.Proxy.C110_mixed_results_counterexample",
    "S2A.Proxy.C110_context_twice_counterexample",
    "S2A.Proxy.C110_factory_twice_counterexample"
   ],
   "note": "Steps are single accesses to members and operations on the mutex; which accesses race is C60. The last three theorems show that each of the three conditions is needed."
  },
  {
   "property": "C111",
   "status": "partial",
   "theorems": [
    "S2A.C111_connection_creation",
    "S2A.C111_protector_creation",
    "S2A.C111_context_serialize",
    "S2A.C111_context_deserialize",
    "S2A.Proxy.C111_bytes_for_s2a",
    "S2A.Proxy.C111_bytes_for_peer",
    "S2A.Proxy.C111_context",
    "S2A.Proxy.C111_handover_partial",
    "S2A.Proxy.C111_wrong_blame"
   ],
   "note": "The exceptions are in the statement: an empty message for a response without a status (C84), and the wrong blame of C111_wrong_blame."
  },
  {
   "property": "C112",
   "status": "proved",
   "theorems": [
    "S2A.Frame.C112_frame",
    "S2A.Frame.C112_bytes",
    "S2A.Record.C112_protect",
    "S2A.Record.C112_unprotect"
   ],
   "note": "The table is Spec/Says.lean. For histories in which the library fails see C83 and C92."
  },
  {
   "property": "C113",
   "status": "partial",
   "theorems": [
    "S2A.Frame.C113_own_errors_partial",
    "S2A.Frame.C113_queue_partial",
    "S2A.Frame.C113_undefined_alike",
    "S2A.Frame.C113_success_keeps_queue",
    "S2A.Record.C113_failed_update",
    "S2A.Aead.C113_encrypt",
    "S2A.Aead.C113_decrypt",
    "S2A.Proxy.C113_create_partial",
    "S2A.C113_foreign_errors_quoted",
    "S2A.C113_update_errors_misplaced",
    "S2A.C113_update_errors_lost",
    "S2A.C113_short_buffer_quotes",
    "S2A.C113_create_errors_left"
   ],
   "note": "True of a thread that begins with an empty queue if no HMAC fails (C113_own_errors_partial). Otherwise false: older errors are quoted and removed, the errors of a failed HMAC stay in the queue, those of a failed key update are thrown away. C113_queue_partial says for all calls which of these happens."
  },
  {
   "property": "C114",
   "status": "partial",
   "theorems": [
    "S2A.Frame.C114_same_partial",
    "S2A.Record.C114_same_partial",
    "S2A.Frame.C114_protect_prefix",
    "S2A.Frame.C114_protect_prefix_allocating",
    "S2A.Frame.C114_protect_ignores",
    "S2A.Frame.C114_protect_drops_bytes",
    "S2A.Frame.C114_unprotect_into",
    "S2A.Frame.C114_unprotect_ignores",
    "S2A.Frame.C114_unprotect_ignores_records",
    "S2A.Frame.C114_unprotect_defined",
    "S2A.Record.C114_unprotect_overflow"
   ],
   "note": "True of all histories whose sums fit in 64 bits (C114_same_partial). Otherwise false: Protect protects the first bytes only (C114_protect_drops_bytes), Unprotect ignores records (C114_unprotect_ignores_records), and Unprotect of the record layer writes beyond an array (C114_unprotect_overflow). The frame protector does nothing undefined that it would not do with unbounded sums (C114_protect_prefix, C114_unprotect_into, C114_unprotect_defined)."
  },
  {
   "property": "C115",
   "status": "partial",
   "theorems": [
    "S2A.Frame.C115_little_partial",
    "S2A.Frame.C115_big_is_failing",
    "S2A.Frame.C115_big",
    "S2A.Aead.C115_little_partial",
    "S2A.Aead.C115_big",
    "S2A.Aead.C115_big_no_aad",
    "S2A.Aead.C115_one_shot",
    "S2A.C115_conversion"
   ],
   "note": "True of little-endian machines. False of big-endian ones: there the address of a 64-bit size_t passed as an int* makes every Protect and Unprotect fail (C115_big), except for ChaCha20-Poly1305 with BoringSSL (C115_one_shot). It fails safely: no bytes are given out, and all guarantees for a failing library hold (C115_big_is_failing)."
  },
  {
   "property": "C116",
   "status": "partial",
   "theorems": [
    "S2A.Aead.C116_decrypt_whole_partial",
    "S2A.Aead.C116_aad_partial",
    "S2A.Aead.C116_encrypt_whole_partial",
    "S2A.Aead.C116_encrypt_cut",
    "S2A.Aead.C116_encrypt_loses",
    "S2A.Aead.C116_counterexample",
    "S2A.Aead.C116_encrypt_undefined",
    "S2A.Aead.C116_aad_undefined"
   ],
   "note": "True of Decrypt, of the associated data, and of Encrypt with buffers of fewer than 2^32 bytes. False of Encrypt otherwise: of a buffer of 2^32 + 5 bytes it encrypts 5 and reports success (C116_counterexample). A length whose lower 32 bits are a negative int is outside what the library allows (C116_encrypt_undefined). The frame protector never passes such buffers (C115_little_partial)."
  },
  {
   "property": "C117",
   "status": "proved",
   "theorems": [
    "S2A.C117_as_prepared",
    "S2A.C117_freed",
    "S2A.C117_changed",
    "S2A.C117_earlier_identity",
    "S2A.C117_passed"
   ],
   "note": "Histories of one request; the strings of the other kinds of request are in its arena. Serializing is taken to succeed."
  },
  {
   "property": "C118",
   "status": "proved",
   "theorems": [
    "S2A.Upb.C118_grammar",
    "S2A.Upb.C118_values",
    "S2A.Upb.C118_groups_skipped",
    "S2A.Upb.C118_groups_skipped_inside",
    "S2A.Upb.C118_refused",
    "S2A.Upb.C118_malformed_refused",
    "S2A.Upb.C118_agrees",
    "S2A.Upb.C118_response_read_back",
    "S2A.Upb.C118_context_read_back",
    "S2A.Upb.C118_cut_serialized"
   ],
   "note": "The decoder is in the upb library, not in /repo; its behaviour is taken from the protobuf format and the version that WORKSPACE names. C118_groups_skipped is about groups between the fields of the outermost message, C118_groups_skipped_inside about each kind of message in it."
  },
  {
   "property": "C119",
   "status": "partial",
   "theorems": [
    "S2A.NullCopy.C119_requests_copied",
    "S2A.NullCopy.C119_handler_copied",
    "S2A.NullCopy.C119_peer_exact",
    "S2A.NullCopy.C119_peer_partial",
    "S2A.NullCopy.C119_last_response_copies_null",
    "S2A.NullCopy.C119_context_exact",
    "S2A.NullCopy.C119_decrypt_partial",
    "S2A.NullCopy.C119_decrypt_otherwise",
    "S2A.NullCopy.C119_decrypt_uses_null",
    "S2A.NullCopy.C119_record_partial",
    "S2A.NullCopy.C119_record_otherwise",
    "S2A.NullCopy.C119_record_uses_null",
    "S2A.NullCopy.Frame.C119_frame_protector"
   ],
   "note": "False of GetBytesForPeer, GetSerializedContext, Decrypt and S2ACrypter::Unprotect, with exact conditions for the first two and witnesses; proved of requests, handshake messages, tickets and every history of the frame protector."
  },
  {
   "property": "C120",
   "status": "proved",
   "theorems": [
    "S2A.Handler.C120_handler_reports"
   ],
   "note": "Messages with an empty body, and calls after a refusal, are the subject of C28 and C29."
  },
  {
   "property": "C121",
   "status": "partial",
   "theorems": [
    "S2A.Race.C121_no_update_partial",
    "S2A.Race.C121_only_record_overhead_partial",
    "S2A.Race.C121_frame_protector_iff",
    "S2A.Race.C121_two_unprotect_counterexample",
    "S2A.Race.C121_proxy_iff"
   ],
   "note": "False of frame protectors that receive a key update while another thread protects or asks for sizes, of Unprotect into given buffers by two threads, and of CreateFrameProtector and GetS2AContext beside calls they clash with; exact conditions are proved for one unprotecting thread and for proxies."
  },
  {
   "property": "C122",
   "status": "proved",
   "theorems": [
    "S2A.C122_hash_function",
    "S2A.C122_secret_length"
   ],
   "note": ""
  },
  {
   "property": "C123",
   "status": "proved",
   "theorems": [
    "S2A.Aead.C123_encrypt_says",
    "S2A.Aead.C123_decrypt_says",
    "S2A.Hkdf.C123_hkdf_says",
    "S2A.HalfConn.C123_half_encrypt_says",
    "S2A.HalfConn.C123_half_decrypt_says",
    "S2A.Aead.C123_create_aes_says",
    "S2A.Aead.C123_create_chacha_says"
   ],
   "note": ""
  },
  {
   "property": "C124",
   "status": "proved",
   "theorems": [
    "S2A.Record.C124_protect_says",
    "S2A.Record.C124_unprotect_says",
    "S2A.Frame.C124_frame_unprotect_says",
    "S2A.Frame.C124_frame_unprotect_all_says",
    "S2A.Frame.C124_frame_protect_says",
    "S2A.Frame.C124_frame_protect_all_says"
   ],
   "note": ""
  }
 ]
}
