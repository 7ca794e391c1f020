# Axioms of the property theorems

Output of `#print axioms` for every theorem named in MANIFEST.json.

## propext, Classical.choice, Quot.sound

* `S2A.Frame.C01_round_trip`
* `S2A.Frame.C01_protect_succeeds`
* `S2A.Frame.C02_in_order_delivery`
* `S2A.Frame.C02_in_step`
* `S2A.Frame.C03_protected_size`
* `S2A.Frame.C03_protected_size_in_place`
* `S2A.Frame.C03_protected_size_64`
* `S2A.Frame.C04_records`
* `S2A.Frame.C05_protect_ignores_split`
* `S2A.Frame.C06_unprotect_ignores_split`
* `S2A.Frame.C06_unprotect_in_place_ignores_split`
* `S2A.Frame.C07_unprotect_stays_inside_partial`
* `S2A.Frame.C07_counterexample`
* `S2A.Frame.C07_stays_inside_but_empty_partial`
* `S2A.Frame.C07_empty_buffer_read_iff`
* `S2A.Frame.C07_empty_buffer_read_into_iff`
* `S2A.Frame.C07_empty_buffers_ignored`
* `S2A.Frame.C08_partial_records_rejected_partial`
* `S2A.Frame.C08_short_tail_dropped`
* `S2A.Frame.C08_counterexample`
* `S2A.Frame.C09_single_record_partial`
* `S2A.Frame.C09_rest_ignored`
* `S2A.Frame.C09_counterexample`
* `S2A.Frame.C10_protect_ownership_partial`
* `S2A.Frame.C10_failure_destroys_twice`
* `S2A.Frame.C10_failure_destroys_callers_buffer`
* `S2A.Frame.C11_unprotect_ownership_partial`
* `S2A.Frame.C11_broken_framing_loses_all`
* `S2A.Frame.C11_counterexample`
* `S2A.Record.C12_only_authentic`
* `S2A.Record.C12_alerts_authentic`
* `S2A.Record.C13_rejected_zeroed_partial`
* `S2A.Record.C13_app_data_inside_handshake_keeps_plaintext`
* `S2A.Record.C13_every_rejection`
* `S2A.Record.C13_plaintext_stays`
* `S2A.HalfConn.C14_nonces_unique`
* `S2A.Record.C14_connection_nonces_unique`
* `S2A.Record.C14_key_nonce_pairs`
* `S2A.HalfConn.C15_exhaustion`
* `S2A.HalfConn.C15_after_update`
* `S2A.Record.C15_protect_exhaustion`
* `S2A.Record.C15_unprotect_exhaustion`
* `S2A.HalfConn.C16_C17_calls_follow_rfc8446`
* `S2A.Record.C16_C17_connection_follows_rfc8446`
* `S2A.HalfConn.C17_n_updates`
* `S2A.C18_hkdf_status`
* `S2A.Record.C19_close_notify_final`
* `S2A.Record.C20_unprotect_limits`
* `S2A.Record.C20_plaintext_limit`
* `S2A.Record.C21_padding_removed`
* `S2A.Record.C21_unpad`
* `S2A.Record.C21_all_zero_rejected`
* `S2A.Record.C21_all_zero_invalid`
* `S2A.Record.C22_fragmentation_irrelevant_partial`
* `S2A.Record.C22_view_of_stream`
* `S2A.Record.heard_is_authentic`
* `S2A.Record.C23_first_five_tickets`
* `S2A.Record.C24_sent_at_most_once`
* `S2A.Record.C25_tickets_sent_when_due_partial`
* `S2A.Record.C25_lost_when_fifth_straddled`
* `S2A.Record.C25_lost_in_refused_record`
* `S2A.Record.C25_sent_exactly`
* `S2A.Record.C25_lost_iff`
* `S2A.Record.C26_one_advance_per_update_partial`
* `S2A.Record.C26_split_update_advances_twice`
* `S2A.Record.C26_advances_exactly`
* `S2A.Record.C26_cut_update_advances_per_piece`
* `S2A.Record.C27_update_must_be_last_partial`
* `S2A.Record.C27_exact`
* `S2A.Record.C27_empty_update_need_not_be_last`
* `S2A.Record.C28_unexpected_type_refused_partial`
* `S2A.Record.C28_every_body_accepted`
* `S2A.Record.C28_any_request_byte_accepted`
* `S2A.Record.C28_any_update_length_accepted`
* `S2A.Record.C28_empty_record_accepted_after_unexpected`
* `S2A.Record.C29_no_ub_in_order_partial`
* `S2A.Record.C29_no_ub_other_records`
* `S2A.Record.C29_empty_body_undefined`
* `S2A.Record.C29_after_refused_update_undefined`
* `S2A.Record.C29_after_unexpected_undefined`
* `S2A.Record.C29_undefined_only`
* `S2A.Record.C29_undefined_if`
* `S2A.Record.C29_every_handshake_record`
* `S2A.Record.C30_only_handshake_continues_partial`
* `S2A.Record.C30_app_data_inside_message_after_fifth`
* `S2A.Record.C30_alert_inside_message_reported`
* `S2A.Record.C30_accepted_inside_iff`
* `S2A.Race.C32_no_update_partial`
* `S2A.Race.C32_only_record_overhead_partial`
* `S2A.Race.C32_update_breaks`
* `S2A.Race.C32_exact`
* `S2A.HalfConn.C33_failed_update_poisons`
* `S2A.Record.C33_failed_outbound_update`
* `S2A.Record.C33_failed_inbound_update`
* `S2A.Aead.C34_encrypt_ignores_split`
* `S2A.Aead.C34_decrypt_ignores_split`
* `S2A.Aead.C35_round_trip`
* `S2A.Aead.C36_encrypt_in_bounds`
* `S2A.Aead.C36_decrypt_in_bounds`
* `S2A.Aead.C37_no_plaintext_on_failure_partial`
* `S2A.Aead.C37_forged_leaves_zeros`
* `S2A.Aead.C37_too_small_output`
* `S2A.Aead.C38_encrypt_builds_agree`
* `S2A.Aead.C38_decrypt_builds_agree`
* `S2A.Aead.C38_cross_build_round_trip`
* `S2A.TlsOptions.C39_options_history`
* `S2A.TlsOptions.C39_copies_independent`
* `S2A.Proxy.C42_requests_in_order_partial`
* `S2A.Proxy.C42_failure_emits_nothing`
* `S2A.Proxy.C42_emitted_in_every_state`
* `S2A.Proxy.C43_client_start`
* `S2A.Proxy.C43_server_start`
* `S2A.Proxy.C43_client_start_partial`
* `S2A.Proxy.C43_server_start_partial`
* `S2A.Proxy.C44_failed_response`
* `S2A.Proxy.C45_finished_iff_partial`
* `S2A.Proxy.C45_finished_stays`
* `S2A.Proxy.C46_not_before_result`
* `S2A.Proxy.C46_uses_result_partial`
* `S2A.Proxy.C46_every_history`
* `S2A.Proxy.C46_undefined_iff`
* `S2A.Proxy.C47_tokens`
* `S2A.Proxy.C47_selected_only_partial`
* `S2A.Proxy.C47_others_iff_refused`
* `S2A.Proxy.C48_invalid_client_fails`
* `S2A.Proxy.C48_invalid_client_never_starts`
* `S2A.Proxy.C49_identities_of_result_partial`
* `S2A.Proxy.C49_never_checked`
* `S2A.Proxy.C50_context_once_partial`
* `S2A.Proxy.C50_every_history`
* `S2A.Proxy.C53_one_protector_partial`
* `S2A.Proxy.C53_all_share`
* `S2A.Proxy.C54_nothing_else_forwarded`
* `S2A.Proxy.C54_forwarded_iff`
* `S2A.Frame.C55_ok_means_authentic`
* `S2A.Frame.C55_ok_means_authentic_in_place`
* `S2A.Frame.C56_unprotected_size_is_enough`
* `S2A.Frame.C56_unprotect_fits`
* `S2A.Record.C57_accepted_elsewhere_means_tag_collision`
* `S2A.Record.C57_nonces_differ`
* `S2A.Record.C57_every_attempt_takes_a_position`
* `S2A.Aead.C58_chacha_key_size`
* `S2A.HalfConn.C58_half_connection_creation`
* `S2A.Record.C58_connection_creation`
* `S2A.Frame.C58_protector_creation`
* `S2A.Race.C59_frame_protector`
* `S2A.Race.C59_proxy`
* `S2A.Race.C60_handshake_calls_partial`
* `S2A.Race.C60_one_thread_partial`
* `S2A.Race.C60_safe_iff`
* `S2A.Race.C60_result_replaced`
* `S2A.Record.C61_delivered_subsequence`
* `S2A.Frame.C61_frame_subsequence`
* `S2A.Frame.C61_frame_fragments`
* `S2A.Frame.C62_frame_prefix`
* `S2A.Record.C62_delivered_prefix`
* `S2A.Record.C62_orderly_prefix`
* `S2A.Frame.C62_frame_orderly_prefix`
* `S2A.Record.C62_gap_after_error`
* `S2A.Record.C63_close_means_complete`
* `S2A.Frame.C64_nothing_lost_partial`
* `S2A.Frame.C64_every_call`
* `S2A.Frame.C64_lost`
* `S2A.Frame.C64_counterexample`
* `S2A.Proxy.C65_end_to_end`
* `S2A.Proxy.C65_end_to_end_attacked`
* `S2A.Proxy.C65_protector_created`
* `S2A.Frame.C66_linearizable`
* `S2A.Frame.C66_unguarded_counterexample`
* `S2A.Frame.C67_nonces_unique_under_threads`
* `S2A.Frame.C67_threads_follow_rfc8446`
* `S2A.Frame.C68_no_new_ub`
* `S2A.Frame.C68_threads_stay_inside`
* `S2A.Record.C69_bounded_memory`
* `S2A.Frame.C69_frame_bounded_memory`
* `S2A.Frame.C70_two_failures`
* `S2A.Frame.C70_close_looks_like_forgery`
* `S2A.Frame.C70_counterexample`
* `S2A.Frame.C71_one_sending_key`
* `S2A.Frame.C71_counterexample`
* `S2A.Record.C72_waits_for_every_request`
* `S2A.Frame.C73_requests_partial`
* `S2A.Frame.C73_counterexample`
* `S2A.Frame.C74_key_usage_partial`
* `S2A.Frame.C74_any_number`
* `S2A.Frame.C75_concurrent_senders`
* `S2A.Frame.C75_return_order_fails`
* `S2A.Frame.C76_conformant_peer_partial`
* `S2A.Frame.C76_split_update_fails`
* `S2A.Frame.C76_split_update_never_understood`
* `S2A.Frame.C77_released_once_partial`
* `S2A.Frame.C77_nothing_left_partial`
* `S2A.Frame.C77_failing_protect_deletes_twice`
* `S2A.Frame.C77_lost_counterexample`
* `S2A.Frame.C77_exact`
* `S2A.Frame.C77_leak_iff`
* `S2A.Frame.C78_unprotect_allocates_no_more_than_given`
* `S2A.Frame.C78_protect_allocates_exactly`
* `S2A.Aead.C79_encrypt_size`
* `S2A.Aead.C79_decrypt_size`
* `S2A.Aead.C79_short_ciphertext`
* `S2A.Aead.C79_sizes_64_bit`
* `S2A.Aead.C79_advertised_buffer`
* `S2A.Frame.C80_one_call_or_two`
* `S2A.Frame.C80_undefined_behaviour`
* `S2A.Proxy.C81_malformed_refused`
* `S2A.Proxy.C81_cut_response`
* `S2A.Proxy.C81_cut_serialized`
* `S2A.C83_frame_protector_texts`
* `S2A.C83_proxy_texts`
* `S2A.C83_details_unchanged`
* `S2A.C84_frame_protector_partial`
* `S2A.C84_proxy_partial`
* `S2A.C85_alert_reported_partial`
* `S2A.C85_all_alerts_same_text`
* `S2A.C85_alerts_indistinguishable`
* `S2A.Proxy.C86_requests`
* `S2A.Frame.C87_every_call_ends`
* `S2A.Frame.C87_every_history_ends`
* `S2A.Frame.C87_bounds_are_never_felt`
* `S2A.Frame.C87_protect_work`
* `S2A.Proxy.C88_to_the_S2A`
* `S2A.Proxy.C88_to_the_peer`
* `S2A.Proxy.C88_from_S2A_to_S2A`
* `S2A.Frame.C89_protect_again_partial`
* `S2A.Frame.C89_library_failure_spends_the_number`
* `S2A.Frame.C89_unprotect_spends_the_number`
* `S2A.Frame.C89_unprotect_cannot_be_repeated`
* `S2A.Frame.C89_protect_cannot_be_repeated`
* `S2A.Record.C90_crypter`
* `S2A.Record.C90_crypter_suite`
* `S2A.Record.C90_crypter_undefined`
* `S2A.Record.C90_crypter_bytes`
* `S2A.Frame.C90_frame`
* `S2A.Record.C91_crypter`
* `S2A.Record.C91_crypter_exact`
* `S2A.Record.C91_dead_stays`
* `S2A.Frame.C91_frame`
* `S2A.Frame.C93_roomy_allocator_partial`
* `S2A.Frame.C93_rest_of_buffer_is_handed_out`
* `S2A.Frame.C94_handover`
* `S2A.Frame.C94_key_update_forgets`
* `S2A.Frame.C94_tickets_stay_behind`
* `S2A.Proxy.C95_tokens_only_to_the_S2A`
* `S2A.Proxy.C96_secrets_only_into_protectors`
* `S2A.Frame.C97_connection_creation`
* `S2A.Frame.C97_protector_creation`
* `S2A.Proxy.C97_status_for_s2a`
* `S2A.Proxy.C97_before_and_after_the_result`
* `S2A.Record.C98_accepted_from_the_peer_partial`
* `S2A.Frame.C98_frame_accepted_from_the_peer_partial`
* `S2A.Frame.C98_own_records_accepted`
* `S2A.Proxy.C98_proxy_does_not_check`
* `S2A.Proxy.C99_again_at_once`
* `S2A.Proxy.C99_again_later_partial`
* `S2A.Proxy.C99_old_response_counts_again`
* `S2A.Frame.C100_threads_and_network`
* `S2A.Frame.C100_threads_and_failures`
* `S2A.Proxy.C101_ticket_request_exact`
* `S2A.Proxy.C101_first_protector_partial`
* `S2A.Proxy.C101_later_protectors`
* `S2A.Proxy.C101_counterexample`
* `S2A.Aead.C102_encrypt_status`
* `S2A.Aead.C102_decrypt_status`
* `S2A.Race.C103_frame_protector_partial`
* `S2A.Race.C103_proxy_partial`
* `S2A.InPlace.C104_unprotect_partial`
* `S2A.InPlace.C104_unprotect_model`
* `S2A.InPlace.C104_unprotect_in_place`
* `S2A.InPlace.C104_protect_partial`
* `S2A.InPlace.C104_protect_model`
* `S2A.InPlace.C104_protect_sends`
* `S2A.InPlace.C104_protect_in_place`
* `S2A.InPlace.C104_protect_overwritten`
* `S2A.InPlace.C104_protect_not_in_place`
* `S2A.InPlace.C104_unprotect_clash`
* `S2A.Record.C105_only_present_keys_partial`
* `S2A.Record.C105_history_leaves_no_trace`
* `S2A.Record.C105_update_replaces_all`
* `S2A.Record.C105_failed_update_keeps_key`
* `S2A.Record.C105_counterexample`
* `S2A.Frame.C105_frame_protector_partial`
* `S2A.C106_equality`
* `S2A.NoChacha.C107_chacha_refused`
* `S2A.NoChacha.C107_offered_all_the_same`
* `S2A.Frame.C108_histories`
* `S2A.Frame.C108_protect`
* `S2A.Frame.C108_unprotect`
* `S2A.Aead.C109_encrypt`
* `S2A.Aead.C109_encrypt_exact`
* `S2A.Aead.C109_decrypt`
* `S2A.Aead.C109_decrypt_exact`
* `S2A.Proxy.C110_linearizable`
* `S2A.Proxy.C110_mutex_calls`
* `S2A.Proxy.C110_one_result`
* `S2A.Proxy.C110_no_new_ub`
* `S2A.C111_connection_creation`
* `S2A.C111_protector_creation`
* `S2A.Proxy.C111_bytes_for_s2a`
* `S2A.Proxy.C111_context`
* `S2A.Proxy.C111_handover_partial`
* `S2A.Proxy.C111_wrong_blame`
* `S2A.Frame.C112_frame`
* `S2A.Frame.C112_bytes`
* `S2A.Record.C112_protect`
* `S2A.Record.C112_unprotect`
* `S2A.Frame.C113_own_errors_partial`
* `S2A.Frame.C113_queue_partial`
* `S2A.Frame.C113_undefined_alike`
* `S2A.Frame.C113_success_keeps_queue`
* `S2A.Record.C113_failed_update`
* `S2A.Aead.C113_decrypt`
* `S2A.Proxy.C113_create_partial`
* `S2A.C113_update_errors_misplaced`
* `S2A.C113_update_errors_lost`
* `S2A.Frame.C114_same_partial`
* `S2A.Frame.C114_protect_prefix`
* `S2A.Frame.C114_protect_prefix_allocating`
* `S2A.Frame.C114_protect_ignores`
* `S2A.Frame.C114_protect_drops_bytes`
* `S2A.Frame.C114_unprotect_ignores_records`
* `S2A.Frame.C114_unprotect_defined`
* `S2A.Frame.C115_little_partial`
* `S2A.Frame.C115_big_is_failing`
* `S2A.Frame.C115_big`
* `S2A.Aead.C115_little_partial`
* `S2A.Aead.C115_big`
* `S2A.Aead.C115_big_no_aad`
* `S2A.Aead.C115_one_shot`
* `S2A.Aead.C116_decrypt_whole_partial`
* `S2A.Aead.C116_aad_partial`
* `S2A.Aead.C116_encrypt_whole_partial`
* `S2A.Aead.C116_encrypt_cut`
* `S2A.Aead.C116_encrypt_loses`
* `S2A.Aead.C116_counterexample`
* `S2A.Aead.C116_encrypt_undefined`
* `S2A.Upb.C118_grammar`
* `S2A.Upb.C118_values`
* `S2A.Upb.C118_groups_skipped`
* `S2A.Upb.C118_groups_skipped_inside`
* `S2A.Upb.C118_refused`
* `S2A.Upb.C118_malformed_refused`
* `S2A.Upb.C118_agrees`
* `S2A.Upb.C118_response_read_back`
* `S2A.Upb.C118_context_read_back`
* `S2A.Upb.C118_cut_serialized`
* `S2A.NullCopy.C119_peer_exact`
* `S2A.NullCopy.C119_peer_partial`
* `S2A.NullCopy.C119_last_response_copies_null`
* `S2A.NullCopy.C119_record_uses_null`
* `S2A.Handler.C120_handler_reports`
* `S2A.Race.C121_no_update_partial`
* `S2A.Race.C121_only_record_overhead_partial`
* `S2A.Race.C121_frame_protector_iff`
* `S2A.Race.C121_two_unprotect_counterexample`
* `S2A.Race.C121_proxy_iff`
* `S2A.Aead.C123_encrypt_says`
* `S2A.Aead.C123_decrypt_says`
* `S2A.HalfConn.C123_half_encrypt_says`
* `S2A.HalfConn.C123_half_decrypt_says`
* `S2A.Record.C124_protect_says`
* `S2A.Record.C124_unprotect_says`
* `S2A.Frame.C124_frame_unprotect_says`
* `S2A.Frame.C124_frame_unprotect_all_says`
* `S2A.Frame.C124_frame_protect_says`
* `S2A.Frame.C124_frame_protect_all_says`

## propext, Quot.sound

* `S2A.Frame.C10_counterexample`
* `S2A.HalfConn.C16_nonce_mask`
* `S2A.C18_hkdf_sound`
* `S2A.C18_hkdf_success_iff`
* `S2A.Record.C20_protect_limits`
* `S2A.Record.C22_split_of_messages`
* `S2A.Record.C23_stream_messages`
* `S2A.Record.C31_interleaving_irrelevant`
* `S2A.HalfConn.C33_later_update_may_report_ok`
* `S2A.Aead.C36_outside_is_undefined`
* `S2A.Aead.C36_null_tag_buffer_dereferenced`
* `S2A.Aead.C37_too_small_output_keeps_plaintext`
* `S2A.Aead.C38_builds_differ_on_null_tag`
* `S2A.C40_identity_nul`
* `S2A.C41_serialize_succeeds`
* `S2A.C41_exact`
* `S2A.C41_context_round_trip_partial`
* `S2A.C41_nul_lost`
* `S2A.C41_serialize_status`
* `S2A.C41_deserialize_status`
* `S2A.Proxy.C42_not_refused_after_finish`
* `S2A.Proxy.C43_nul_lost`
* `S2A.Proxy.C46_crash_without_state`
* `S2A.Proxy.C46_created_without_identity`
* `S2A.Proxy.C47_other_tokens_sent`
* `S2A.Proxy.C49_not_enforced`
* `S2A.TokenManager.C51_constant_partial`
* `S2A.TicketSender.C52_ticket_request_partial`
* `S2A.TicketSender.C52_exact`
* `S2A.TicketSender.C52_nul_lost`
* `S2A.Proxy.C53_shared_nonces`
* `S2A.Proxy.C54_forwarded_verbatim_partial`
* `S2A.Proxy.C54_on_the_wire`
* `S2A.Proxy.C54_extra_fields`
* `S2A.Proxy.C54_status_again`
* `S2A.Proxy.C54_out_frames_dropped`
* `S2A.Aead.C58_aes_gcm_key_sizes`
* `S2A.Frame.C68_no_deadlock`
* `S2A.Frame.C70_after_close_no_data_partial`
* `S2A.Frame.C70_after_close_no_data_in_place_partial`
* `S2A.Frame.C73_nothing_sent`
* `S2A.Frame.C74_counterexample`
* `S2A.Frame.C77_counterexample`
* `S2A.Frame.C78_in_place_allocates_nothing`
* `S2A.C81_grammar`
* `S2A.C81_values`
* `S2A.C82_cut_inside_field_refused_partial`
* `S2A.C82_cut_exact`
* `S2A.C82_cut_accepted`
* `S2A.C84_too_short_not_logged`
* `S2A.C84_no_status_empty_text`
* `S2A.C84_create_not_logged`
* `S2A.C86_request_unique`
* `S2A.C86_response`
* `S2A.Proxy.C86_response_effect`
* `S2A.C86_context_written`
* `S2A.C86_context_read`
* `S2A.C86_ticket`
* `S2A.Frame.C87_unprotect_work`
* `S2A.Frame.C89_protect_without_memory`
* `S2A.Frame.C92_only_lengths_show`
* `S2A.Frame.C93_peer_refuses`
* `S2A.Proxy.C97_status_for_peer`
* `S2A.Proxy.C99_context_again`
* `S2A.InPlace.C104_protect_clash`
* `S2A.HashTable.C106_options_sets`
* `S2A.HashTable.C106_options_model`
* `S2A.HashTable.C106_token_cache`
* `S2A.HashTable.C106_token_cache_model`
* `S2A.NoChacha.C107_other_suites`
* `S2A.Proxy.C110_no_deadlock`
* `S2A.Proxy.C110_mixed_results_counterexample`
* `S2A.Proxy.C110_context_twice_counterexample`
* `S2A.Proxy.C110_factory_twice_counterexample`
* `S2A.C111_context_serialize`
* `S2A.Proxy.C111_bytes_for_peer`
* `S2A.Aead.C113_encrypt`
* `S2A.C113_foreign_errors_quoted`
* `S2A.C113_short_buffer_quotes`
* `S2A.C113_create_errors_left`
* `S2A.Record.C114_same_partial`
* `S2A.Frame.C114_unprotect_into`
* `S2A.Frame.C114_unprotect_ignores`
* `S2A.Record.C114_unprotect_overflow`
* `S2A.C115_conversion`
* `S2A.Aead.C116_aad_undefined`
* `S2A.C117_as_prepared`
* `S2A.C117_freed`
* `S2A.C117_changed`
* `S2A.C117_earlier_identity`
* `S2A.C117_passed`
* `S2A.NullCopy.C119_requests_copied`
* `S2A.NullCopy.C119_handler_copied`
* `S2A.NullCopy.C119_context_exact`
* `S2A.NullCopy.C119_decrypt_partial`
* `S2A.NullCopy.C119_decrypt_otherwise`
* `S2A.NullCopy.C119_decrypt_uses_null`
* `S2A.NullCopy.C119_record_partial`
* `S2A.NullCopy.C119_record_otherwise`
* `S2A.NullCopy.Frame.C119_frame_protector`
* `S2A.C122_secret_length`
* `S2A.Hkdf.C123_hkdf_says`

## propext

* `S2A.Race.C32_use_after_free`
* `S2A.Race.C32_race`
* `S2A.Race.C32_two_unprotect_race`
* `S2A.TlsOptions.C39_copy_faithful`
* `S2A.C40_tls_version`
* `S2A.C40_ciphersuite`
* `S2A.C40_identity_partial`
* `S2A.C40_identity_from_wire`
* `S2A.C41_deserialize_supported`
* `S2A.TokenManager.C51_built_without_token`
* `S2A.Aead.C58_creation_status`
* `S2A.Race.C60_create_race`
* `S2A.Aead.C79_sizes_inverse`
* `S2A.Race.C103_logger_deadlock`
* `S2A.HashTable.C106_hash`
* `S2A.NoChacha.C107_crypter_refused`
* `S2A.C111_context_deserialize`
* `S2A.C122_hash_function`
* `S2A.Aead.C123_create_aes_says`
* `S2A.Aead.C123_create_chacha_says`

## none

* `S2A.C40_empty_identity`
* `S2A.Race.C60_use_after_free`
* `S2A.Race.C103_token_manager_deadlock`

## Quot.sound

* `S2A.Proxy.C45_response_in_every_state`
