# Axioms of every claimed theorem

Generated by `tools/axioms.py` from `#print axioms`.

| Property | Theorem | Axioms |
|---|---|---|
| C01 | `C01_usernames_unique` | propext, Classical.choice, Quot.sound |
| C01 | `C01_taken_username_rejected` | propext, Classical.choice, Quot.sound |
| C02 | `C02_emails_unique` | propext, Classical.choice, Quot.sound |
| C02 | `C02_taken_email_rejected` | propext, Classical.choice, Quot.sound |
| C03 | `C03_ids_unique` | propext, Classical.choice, Quot.sound |
| C03 | `C03_opened_ids_unique` | propext, Classical.choice, Quot.sound |
| C03 | `C03_duplicate_id_possible` | propext, Quot.sound |
| C04 | `C04_resolution` | propext, Classical.choice, Quot.sound |
| C04 | `C04_identify` | propext, Classical.choice, Quot.sound |
| C04 | `C04_authenticate` | propext, Classical.choice, Quot.sound |
| C04 | `C04_indexes_agree` | propext, Classical.choice, Quot.sound |
| C05 | `C05_added_user_is_found` | propext, Classical.choice, Quot.sound |
| C05 | `C05_added_user_authenticates` | propext, Classical.choice, Quot.sound |
| C05 | `C05_added_user_passes_identity_check` | propext, Classical.choice, Quot.sound |
| C05 | `C05_letter_case` | propext, Classical.choice, Quot.sound |
| C05 | `C05_characters` | propext, Classical.choice, Quot.sound |
| C06 | `C06_add_user_appends_one` | propext, Classical.choice, Quot.sound |
| C06 | `C06_rest_is_empty` | propext, Classical.choice, Quot.sound |
| C07 | `C07_rejected_call_changes_nothing` | propext, Quot.sound |
| C07 | `C07_rejected_call_changes_nothing_env` | propext, Quot.sound |
| C07 | `C07_changed_iff` | propext, Classical.choice, Quot.sound |
| C08 | `C08_account_calls_need_matching_identity` | propext, Classical.choice, Quot.sound |
| C08 | `C08_account_calls_same_id` | propext, Classical.choice, Quot.sound |
| C08 | `C08_fails_with_duplicate_ids` | propext, Quot.sound |
| C09 | `C09_other_users_untouched` | propext, Classical.choice, Quot.sound |
| C10 | `C10_users_never_lost` | propext, Classical.choice, Quot.sound |
| C10 | `C10_delete_user_unsupported` | propext, Quot.sound |
| C11 | `C11_authentication_sound` | propext, Classical.choice, Quot.sound |
| C11 | `C11_empty_request_rejected` | propext, Quot.sound |
| C12 | `C12_accepted_iff` | propext, Classical.choice, Quot.sound |
| C12 | `C12_registered_password_works` | propext, Classical.choice, Quot.sound |
| C12 | `C12_untrimmed_password_fails` | propext, Quot.sound |
| C12 | `C12_untrimmed_password_refused` | propext, Classical.choice, Quot.sound |
| C13 | `C13_change_needs_old_password` | propext, Classical.choice, Quot.sound |
| C13 | `C13_only_new_digest_works` | propext, Classical.choice, Quot.sound |
| C13 | `C13_only_new_password_works` | propext, Classical.choice, Quot.sound |
| C14 | `C14_one_active_password` | propext, Classical.choice, Quot.sound |
| C15 | `C15_history_after_change` | propext, Classical.choice, Quot.sound |
| C15 | `C15_history_bounded` | propext, Classical.choice, Quot.sound |
| C15 | `C15_policy_bound_fails` | propext, Quot.sound |
| C16 | `C16_accepts_iff_first_72_bytes` | propext, Classical.choice, Quot.sound |
| C16 | `C16_short_password_accepts_only_itself` | propext, Classical.choice, Quot.sound |
| C16 | `C16_trailing_bytes_ignored` | propext, Quot.sound |
| C16 | `C16_which_hashes_accept` | propext, Classical.choice, Quot.sound |
| C16 | `C16_nul_bytes_collide` | propext |
| C17 | `C17_new_password` | propext, Quot.sound |
| C17 | `C17_cost_parameter` | propext, Quot.sound |
| C18 | `C18_issued_key_works` | propext, Classical.choice, Quot.sound |
| C19 | `C19_lookup_sound_and_complete` | propext, Classical.choice, Quot.sound |
| C20 | `C20_delete_removes_exactly` | propext, Classical.choice, Quot.sound |
| C20 | `C20_deleted_key_rejected` | propext, Classical.choice, Quot.sound |
| C20 | `C20_other_keys_unaffected` | propext, Classical.choice, Quot.sound |
| C21 | `C21_disabled_key_accepted` | propext, Quot.sound |
| C21 | `C21_flags_ignored` | propext |
| C22 | `C22_prefixes_unique` | propext, Classical.choice, Quot.sound |
| C22 | `C22_index_exact` | propext, Classical.choice, Quot.sound |
| C22 | `C22_index_leak_with_equal_ids` | propext, Quot.sound |
| C23 | `C23_returns_if_prefix_unused` | propext, Classical.choice, Quot.sound |
| C23 | `C23_hangs_if_prefix_in_use` | propext, Classical.choice, Quot.sound |
| C23 | `C23_not_total` | propext, Classical.choice, Quot.sound |
| C24 | `C24_random_string` | propext, Quot.sound |
| C24 | `C24_random_string_from_range` | propext, Quot.sound |
| C24 | `C24_new_random_string` | propext, Quot.sound |
| C24 | `C24_random_string_onto` | propext, Classical.choice, Quot.sound |
| C24 | `C24_api_secret` | propext, Classical.choice, Quot.sound |
| C25 | `C25_public_keys` | propext, Classical.choice, Quot.sound |
| C25 | `C25_api_keys` | propext, Classical.choice, Quot.sound |
| C25 | `C25_mfa_tokens` | propext, Classical.choice, Quot.sound |
| C25 | `C25_listing_succeeds` | propext, Classical.choice, Quot.sound |
| C26 | `C26_public_keys_distinct` | propext, Classical.choice, Quot.sound |
| C26 | `C26_add_appends_one` | propext, Classical.choice, Quot.sound |
| C26 | `C26_add_duplicate_rejected` | propext, Classical.choice, Quot.sound |
| C26 | `C26_delete_exact` | propext, Classical.choice, Quot.sound |
| C27 | `C27_acceptance` | propext, Classical.choice, Quot.sound |
| C27 | `C27_pem_and_openssh_differ` | propext, Classical.choice, Quot.sound |
| C27 | `C27_same_key_stored_twice` | propext, Quot.sound |
| C28 | `C28_tokens_distinct` | propext, Classical.choice, Quot.sound |
| C28 | `C28_add_appends_one` | propext, Classical.choice, Quot.sound |
| C28 | `C28_add_duplicate_rejected` | propext, Classical.choice, Quot.sound |
| C28 | `C28_delete_exact` | propext, Classical.choice, Quot.sound |
| C29 | `C29_code` | propext, Classical.choice, Quot.sound |
| C29 | `C29_code_unique` | propext, Quot.sound |
| C29 | `C29_no_overflow` | propext, Quot.sound |
| C29 | `C29_unknown_algorithm` | propext, Quot.sound |
| C29 | `C29_zero_bytes_ignored` | propext, Quot.sound |
| C29 | `C29_long_secret_is_hashed` | propext, Quot.sound |
| C30 | `C30_window` | propext, Classical.choice, Quot.sound |
| C30 | `C30_first_step` | propext, Classical.choice, Quot.sound |
| C30 | `C30_no_panic` | propext, Classical.choice, Quot.sound |
| C30 | `C30_unknown_algorithm` | propext, Quot.sound |
| C30 | `C30_validate_code` | propext, Quot.sound |
| C31 | `C31_enrolment` | propext, Classical.choice, Quot.sound |
| C32 | `C32_floor_of_rounded_quotient` | propext, Classical.choice, Quot.sound |
| C32 | `C32_time_step` | propext, Classical.choice, Quot.sound |
| C33 | `C33_webauthn_authentication` | propext, Classical.choice, Quot.sound |
| C33 | `C33_needs_signature` | propext, Classical.choice, Quot.sound |
| C34 | `C34_short_rejected` | propext, Quot.sound |
| C34 | `C34_decoding` | propext, Quot.sound |
| C34 | `C34_faithful` | propext, Classical.choice, Quot.sound |
| C35 | `C35_registration_accepted_iff` | propext, Classical.choice, Quot.sound |
| C35 | `C35_registration_stores` | propext, Classical.choice, Quot.sound |
| C35 | `C35_missing_coordinate_useless` | propext |
| C35 | `C35_wrong_json_type_panics` | propext, Classical.choice, Quot.sound |
| C35 | `C35_panic_witness` | propext, Quot.sound |
| C36 | `C36_role_rejected_iff_blank` | propext, Classical.choice, Quot.sound |
| C36 | `C36_role_prints_back` | propext, Classical.choice, Quot.sound |
| C36 | `C36_role_round_trip` | propext, Quot.sound |
| C36 | `C36_plain_role_round_trip` | propext |
| C36 | `C36_printing_injective` | propext |
| C36 | `C36_leading_slash` | propext |
| C37 | `C37_add_role` | propext, Classical.choice, Quot.sound |
| C37 | `C37_add_roles` | propext, Classical.choice, Quot.sound |
| C37 | `C37_has_role` | propext, Classical.choice, Quot.sound |
| C37 | `C37_no_duplicate_roles` | propext, Classical.choice, Quot.sound |
| C37 | `C37_roles_claim` | propext, Classical.choice, Quot.sound |
| C37 | `C37_claim_confusion` | propext |
| C38 | `C38_parse` | propext, Classical.choice, Quot.sound |
| C38 | `C38_accepted_iff` | propext, Classical.choice, Quot.sound |
| C38 | `C38_prints` | propext |
| C38 | `C38_reparse` | propext, Classical.choice, Quot.sound |
| C38 | `C38_stable` | propext, Classical.choice, Quot.sound |
| C38 | `C38_comma_in_part` | propext |
| C39 | `C39_pattern_text` | propext |
| C39 | `C39_accepts_iff_matches` | propext, Classical.choice, Quot.sound |
| C39 | `C39_accepts_iff_shape` | propext, Classical.choice, Quot.sound |
| C39 | `C39_stored` | propext, Classical.choice, Quot.sound |
| C40 | `C40_defaults` | none |
| C40 | `C40_reports_change` | propext |
| C40 | `C40_idempotent` | propext, Quot.sound |
| C40 | `C40_no_zero_limit` | propext, Quot.sound |
| C40 | `C40_new_database` | propext, Quot.sound |
| C40 | `C40_existing_database` | propext, Quot.sound |
| C41 | `C41_add_user_within_policy` | propext, Classical.choice, Quot.sound |
| C41 | `C41_change_within_policy` | propext, Classical.choice, Quot.sound |
| C41 | `C41_no_other_call_sets_passwords` | propext, Classical.choice, Quot.sound |
| C41 | `C41_policy_fixed` | propext, Quot.sound |
| C41 | `C41_flags_not_enforced` | propext, Quot.sound |
| C41 | `C41_strict_policy_ignored` | propext, Quot.sound |
| C42 | `C42_username_text` | propext, Classical.choice, Quot.sound |
| C42 | `C42_username_match_passes` | propext, Classical.choice, Quot.sound |
| C42 | `C42_username_match_iff` | propext, Classical.choice, Quot.sound |
| C42 | `C42_username_converse_fails` | propext, Classical.choice, Quot.sound |
| C42 | `C42_password_text` | propext |
| C42 | `C42_password_match_iff` | propext, Quot.sound |
| C42 | `C42_password_match_flags` | propext, Quot.sound |
| C42 | `C42_password_ascii_agrees` | propext, Classical.choice, Quot.sound |
| C42 | `C42_password_disagrees` | propext, Quot.sound |
| C42 | `C42_password_newline` | propext, Quot.sound |
| C42 | `C42_password_bounds` | propext, Classical.choice, Quot.sound |
| C43 | `C43_read_only_calls` | propext, Quot.sound |
| C44 | `C44_commit_reaches_disk` | propext, Quot.sound |
| C44 | `C44_target` | propext |
| C44 | `C44_failed_write_reported` | propext, Quot.sound |
| C45 | `C45_reopen` | propext, Classical.choice, Quot.sound |
| C45 | `C45_reopened_same` | propext, Classical.choice, Quot.sound |
| C45 | `C45_invalid_utf8_lost` | propext, Quot.sound |
| C46 | `C46_decode_encode` | propext, Classical.choice, Quot.sound |
| C46 | `C46_encode_injective` | propext, Classical.choice, Quot.sound |
| C46 | `C46_stable` | propext, Classical.choice, Quot.sound |
| C46 | `C46_commit` | propext, Classical.choice, Quot.sound |
| C47 | `C47_prefix_rejected` | propext, Classical.choice, Quot.sound |
| C47 | `C47_interrupted_commit` | propext, Classical.choice, Quot.sound |
| C48 | `C48_failed_write_leaves_memory_ahead` | propext, Classical.choice, Quot.sound |
| C49 | `C49_copy` | propext, Quot.sound |
| C50 | `C50_opened_iff_consistent` | propext, Quot.sound |
| C50 | `C50_undecodable_rejected` | propext, Quot.sound |
| C50 | `C50_opened_consistent` | propext, Quot.sound |
| C51 | `C51_serialisable` | propext, Classical.choice, Quot.sound |
| C51 | `C51_order_complete` | propext, Classical.choice, Quot.sound |
| C51 | `C51_real_time_order` | propext, Classical.choice, Quot.sound |
| C51 | `C51_cache_invisible` | propext |
| C51 | `C51_database_calls_serialisable` | propext, Classical.choice, Quot.sound |
| C51 | `C51_read_locked_calls_only_read` | propext, Quot.sound |
| C52 | `C52_getPath_sees_copy_target` | propext |
| C52 | `C52_getPath_unstable` | propext, Classical.choice, Quot.sound |
| C52 | `C52_getPath_between_calls` | propext, Quot.sound |
| C52 | `C52_getPath_stable_without_copy` | propext, Quot.sound |
| C53 | `C53_known_user` | propext, Classical.choice, Quot.sound |
| C53 | `C53_unknown_user` | propext, Classical.choice, Quot.sound |
| C53 | `C53_code_distinguishes` | propext, Classical.choice, Quot.sound |
| C54 | `C54_flags` | propext, Classical.choice, Quot.sound |
| C54 | `C54_challenges` | propext, Classical.choice, Quot.sound |
| C54 | `C54_disagreement` | propext, Classical.choice, Quot.sound |
| C55 | `C55_get_users` | propext, Quot.sound |
| C56 | `C56_revision_counts` | propext, Classical.choice, Quot.sound |
| C56 | `C56_revision_steps` | propext, Classical.choice, Quot.sound |
| C56 | `C56_add_role` | propext, Classical.choice, Quot.sound |
| C56 | `C56_add_email` | propext, Quot.sound |
| C56 | `C56_add_name` | propext, Quot.sound |
| C57 | `C57_build_succeeds_iff` | propext, Classical.choice, Quot.sound |
| C57 | `C57_refusal_says_why` | propext, Classical.choice, Quot.sound |
| C57 | `C57_build_result` | propext, Classical.choice, Quot.sound |
| C57 | `C57_text_reads_back` | propext, Classical.choice, Quot.sound |
| C57 | `C57_text_determines_parameters` | propext, Classical.choice, Quot.sound |
| C57 | `C57_label_read_as_path_iff` | propext, Classical.choice, Quot.sound |
| C57 | `C57_text_exact` | propext, Classical.choice, Quot.sound |
| C58 | `C58_nil_iff` | propext, Quot.sound |
| C58 | `C58_unwraps` | propext, Quot.sound |
| C59 | `C59_add_association` | propext, Quot.sound |
| C59 | `C59_add_issuer_fails` | propext |
| C59 | `C59_add_issuer` | propext, Quot.sound |
| C60 | `C60_mail_claim` | propext, Quot.sound |
| C60 | `C60_claim_is_an_address` | propext |
| C60 | `C60_identify_reports` | propext, Classical.choice, Quot.sound |
| C60 | `C60_lookup_reports` | propext, Quot.sound |
| C60 | `C60_registered_address` | propext, Classical.choice, Quot.sound |
| C61 | `C61_tilde_reads_elsewhere` | propext, Quot.sound |
| C61 | `C61_tilde_reopen_fails` | propext, Classical.choice, Quot.sound |
| C61 | `C61_expanded_form` | propext, Classical.choice, Quot.sound |
| C61 | `C61_tilde_name` | propext, Quot.sound |
| C61 | `C61_home_path_witness` | propext |
| C62 | `C62_compliance_iff` | propext, Quot.sound |
| C62 | `C62_failure` | propext |
| C63 | `C63_authentication_reads` | propext, Quot.sound |
| C63 | `C63_lookup_reads` | propext, Quot.sound |
| C63 | `C63_identification_reads` | propext, Quot.sound |
| C63 | `C63_account_status_ignored` | propext, Quot.sound |
| C63 | `C63_disabled_api_keys_work` | propext, Quot.sound |
| C63 | `C63_dead_passwords_refused` | propext, Classical.choice, Quot.sound |
| C63 | `C63_disabled_tokens_refused` | propext, Classical.choice, Quot.sound |
| C63 | `C63_code_check_ignores_status` | propext, Quot.sound |
| C63 | `C63_disable_exact` | none |
| C64 | `C64_add_user_stores_hash` | propext, Quot.sound |
| C64 | `C64_change_password_stores_hash` | propext, Quot.sound |
| C64 | `C64_old_password_only_checked` | propext, Quot.sound |
| C64 | `C64_authentication_only_checks` | propext, Quot.sound |
| C64 | `C64_no_other_call_reads_password` | propext, Quot.sound |
| C64 | `C64_api_key_stores_prefix_and_hash` | propext, Quot.sound |
| C65 | `C65_stored_text` | propext, Classical.choice, Quot.sound |
| C65 | `C65_call_keeps_text` | propext, Classical.choice, Quot.sound |
| C65 | `C65_opened_text` | propext, Classical.choice, Quot.sound |
| C65 | `C65_reopen` | propext, Classical.choice, Quot.sound |
| C66 | `C66_refines_simple_mutex` | propext, Classical.choice, Quot.sound |
| C66 | `C66_serialisable` | propext, Classical.choice, Quot.sound |
| C66 | `C66_mutual_exclusion` | propext, Classical.choice, Quot.sound |
| C66 | `C66_no_deadlock` | propext, Classical.choice, Quot.sound |
| C66 | `C66_steps_bounded` | propext, Quot.sound |
| C66 | `C66_fair_schedules_finish` | propext, Classical.choice, Quot.sound |
| C66 | `C66_reader_waits_for_one_writer` | propext, Classical.choice, Quot.sound |
| C66 | `C66_writer_waits_for_readers_inside` | propext, Classical.choice, Quot.sound |
| C66 | `C66_endless_writer_blocks_all` | propext, Classical.choice, Quot.sound |
| C67 | `C67_skew_tolerated` | propext, Classical.choice, Quot.sound |
| C67 | `C67_skew_bounded` | propext, Classical.choice, Quot.sound |
| C67 | `C67_lifetime` | propext, Classical.choice, Quot.sound |
| C67 | `C67_enrolled_code_may_be_refused` | propext, Quot.sound |
| C68 | `C68_add_user` | propext, Classical.choice, Quot.sound |
| C68 | `C68_save_copy` | propext, Quot.sound |
| C68 | `C68_change_password` | propext, Classical.choice, Quot.sound |
| C68 | `C68_delete` | propext, Classical.choice, Quot.sound |
| C68 | `C68_add_api_key` | propext, Classical.choice, Quot.sound |
| C68 | `C68_add_public_key` | propext, Classical.choice, Quot.sound |
| C68 | `C68_add_mfa_token` | propext, Classical.choice, Quot.sound |
| C68 | `C68_reads` | propext, Classical.choice, Quot.sound |
| C69 | `C69_accepts_iff` | propext, Classical.choice, Quot.sound |
| C69 | `C69_no_panic` | propext, Classical.choice, Quot.sound |
| C70 | `C70_registration_panics_iff` | propext, Classical.choice, Quot.sound |
| C70 | `C70_totp_no_panic` | propext, Classical.choice, Quot.sound |
| C70 | `C70_panics_iff` | propext, Classical.choice, Quot.sound |
| C70 | `C70_only_add_api_key_hangs` | propext, Quot.sound |
| C70 | `C70_opening_panics` | propext, Classical.choice, Quot.sound |
| C71 | `C71_same_behaviour` | propext, Quot.sound |
| C71 | `C71_stored_cost` | propext, Classical.choice, Quot.sound |
| C71 | `C71_known_user` | propext, Classical.choice, Quot.sound |
| C71 | `C71_unknown_user` | propext, Classical.choice, Quot.sound |
| C71 | `C71_blank_password_reveals_user` | propext, Classical.choice, Quot.sound |
| C71 | `C71_other_password_hides_user` | propext, Classical.choice, Quot.sound |
| C71 | `C71_error_reveals_user` | propext, Classical.choice, Quot.sound |
| C71 | `C71_lookup_reveals_prefix` | propext, Classical.choice, Quot.sound |
| C72 | `C72_memories_separate` | propext, Quot.sound |
| C72 | `C72_last_writer_wins` | propext, Quot.sound |
| C72 | `C72_update_lost` | propext, Classical.choice, Quot.sound |
| C72 | `C72_ann_is_gone` | propext, Classical.choice, Quot.sound |
| C73 | `C73_times_in_order` | propext, Classical.choice, Quot.sound |
| C74 | `C74_uniform` | propext, Classical.choice, Quot.sound |
| C74 | `C74_secret_digest` | propext, Classical.choice, Quot.sound |
| C74 | `C74_secret_tail_ignored` | propext, Classical.choice, Quot.sound |
| C75 | `C75_call_errors_format` | propext, Classical.choice, Quot.sound |
| C75 | `C75_open_errors_format` | propext, Quot.sound |
| C75 | `C75_bare_constants_have_no_verbs` | propext, Classical.choice, Quot.sound |
| C75 | `C75_failed_assertion_shows_verb` | propext, Quot.sound |
| C75 | `C75_wordings` | none |
| C75 | `C75_same_wording` | propext |
| C75 | `C75_sprintf_iff` | propext, Classical.choice, Quot.sound |
| C75 | `C75_text_iff` | propext, Classical.choice, Quot.sound |
| C75 | `C75_call_errors_say` | propext, Classical.choice, Quot.sound |
| C76 | `C76_call_errors_quote_no_secrets` | propext, Classical.choice, Quot.sound |
| C76 | `C76_open_errors_quote_no_secrets` | propext, Quot.sound |
| C77 | `C77_accepts_iff_grammar` | propext, Classical.choice, Quot.sound |
| C77 | `C77_unambiguous` | propext, Classical.choice, Quot.sound |
| C77 | `C77_surrounding_space` | propext |
| C77 | `C77_opened_is_json` | propext, Classical.choice, Quot.sound |
| C77 | `C77_not_json_rejected` | propext, Classical.choice, Quot.sound |
| C77 | `C77_same_value_same_database` | propext, Classical.choice, Quot.sound |
| C77 | `C77_written_is_json` | propext, Classical.choice, Quot.sound |
| C77 | `C77_unknown_member_ignored` | propext, Classical.choice, Quot.sound |
| C77 | `C77_depth_limit` | propext, Classical.choice, Quot.sound |
| C78 | `C78_always_durable` | propext, Classical.choice, Quot.sound |
| C78 | `C78_nothing_lost` | propext, Classical.choice, Quot.sound |
| C78 | `C78_revision_counts_commits` | propext, Quot.sound |
| C79 | `C79_unchanged` | propext, Quot.sound |
| C79 | `C79_listings` | propext, Quot.sound |
| C79 | `C79_authenticate` | propext, Quot.sound |
| C79 | `C79_add_api_key` | propext, Classical.choice, Quot.sound |
| C79 | `C79_delete_api_key` | propext, Classical.choice, Quot.sound |
| C79 | `C79_lookup` | propext, Quot.sound |
| C79 | `C79_add_mfa_token` | propext, Quot.sound |
| C79 | `C79_never_written` | propext, Classical.choice, Quot.sound |
| C79 | `C79_stale_code` | propext, Classical.choice, Quot.sound |
| C79 | `C79_identify_then_authenticate` | propext, Classical.choice, Quot.sound |
| C79 | `C79_unknown_becomes_nobody` | propext, Classical.choice, Quot.sound |
| C80 | `C80_scanned_code_enrols` | propext, Classical.choice, Quot.sound |
| C80 | `C80_shown_codes_are_accepted` | propext, Classical.choice, Quot.sound |
| C80 | `C80_scan_enrol_login` | propext, Classical.choice, Quot.sound |
| C80 | `C80_tokens_without_qr` | propext, Classical.choice, Quot.sound |
| C80 | `C80_enrolled_without_qr` | propext, Quot.sound |
| C80 | `C80_hotp_never_enrols` | propext, Quot.sound |
| C81 | `C81_line_accepted_iff` | propext, Classical.choice, Quot.sound |
| C81 | `C81_line_stored` | propext, Classical.choice, Quot.sound |
| C81 | `C81_pem_accepted` | propext, Classical.choice, Quot.sound |
| C81 | `C81_stored_pem_reads_back` | propext, Classical.choice, Quot.sound |
| C81 | `C81_modulus_not_checked` | propext, Classical.choice, Quot.sound |
| C81 | `C81_padding_irrelevant` | propext, Classical.choice, Quot.sound |
| C81 | `C81_fingerprint_identifies` | propext, Classical.choice, Quot.sound |
| C81 | `C81_exponent_gap` | propext, Classical.choice, Quot.sound |
| C81 | `C81_pkcs1_refused` | propext, Classical.choice, Quot.sound |
| C81 | `C81_public_key_label_refused` | propext, Classical.choice, Quot.sound |
| C81 | `C81_every_key_twice` | propext, Classical.choice, Quot.sound |
| C82 | `C82_parameters` | propext, Classical.choice, Quot.sound |
| C82 | `C82_every_point_is_a_key` | propext, Classical.choice, Quot.sound |
| C82 | `C82_accepted_iff` | propext, Classical.choice, Quot.sound |
| C82 | `C82_accepted_iff_signed` | propext, Classical.choice, Quot.sound |
| C82 | `C82_malformed_rejected` | propext, Classical.choice, Quot.sound |
| C82 | `C82_one_encoding` | propext, Classical.choice, Quot.sound |
| C82 | `C82_binds_digest` | propext, Classical.choice, Quot.sound |
| C82 | `C82_second_signature` | propext, Classical.choice, Quot.sound |
| C82 | `C82_login_iff_signed` | propext, Classical.choice, Quot.sound |
| C82 | `C82_replay` | propext, Classical.choice, Quot.sound |
| C82 | `C82_malleable` | propext, Classical.choice, Quot.sound |
| C82 | `C82_key_not_checked` | propext, Classical.choice, Quot.sound |
| C83 | `C83_number_is_iff` | propext, Classical.choice, Quot.sound |
| C83 | `C83_value_unique` | propext, Classical.choice, Quot.sound |
| C83 | `C83_out_of_range_iff` | propext, Classical.choice, Quot.sound |
| C83 | `C83_any_depth` | propext, Classical.choice, Quot.sound |
| C83 | `C83_registration_iff` | propext, Classical.choice, Quot.sound |
| C84 | `C84_own_calls` | propext, Classical.choice, Quot.sound |
| C84 | `C84_login_calls` | propext, Classical.choice, Quot.sound |
| C84 | `C84_lookup` | propext, Classical.choice, Quot.sound |
| C84 | `C84_add_user` | propext, Classical.choice, Quot.sound |
| C84 | `C84_get_user` | propext, Classical.choice, Quot.sound |
| C84 | `C84_after_others` | propext, Classical.choice, Quot.sound |
| C85 | `C85_commute` | propext, Classical.choice, Quot.sound |
| C86 | `C86_reopened_same` | propext, Classical.choice, Quot.sound |
| C86 | `C86_restarts_invisible` | propext, Classical.choice, Quot.sound |
| C86 | `C86_where_restarted` | propext, Classical.choice, Quot.sound |
| C86 | `C86_play_run` | propext, Quot.sound |
| C86 | `C86_restart_visible_with_equal_ids` | propext, Classical.choice, Quot.sound |
| C87 | `C87_only_successes_matter` | propext, Quot.sound |
| C87 | `C87_attempts_leave_nothing` | propext, Quot.sound |
| C87 | `C87_guessing_is_unlimited` | propext, Quot.sound |
| C87 | `C87_lockout_never_set` | propext, Classical.choice, Quot.sound |
| C88 | `C88_feasible_iff` | propext, Quot.sound |
| C88 | `C88_nobody_joins` | propext, Classical.choice, Quot.sound |
| C88 | `C88_closed_forever` | propext, Classical.choice, Quot.sound |
| C88 | `C88_first_user` | propext, Classical.choice, Quot.sound |
| C88 | `C88_half_given` | propext, Quot.sound |
| C89 | `C89_snake_normal` | propext, Quot.sound |
| C89 | `C89_tag_spells_the_name` | propext, Quot.sound |
| C89 | `C89_same_tag` | propext, Quot.sound |
| C89 | `C89_suggestion_complies` | propext, Quot.sound |
| C89 | `C89_declared_structs_comply` | propext |
| C89 | `C89_file_uses_the_tags` | propext |
| C89 | `C89_file_omits_what_is_tagged` | propext |
| C90 | `C90_stored_key_is_in_the_block` | propext, Classical.choice, Quot.sound |
| C90 | `C90_mislabelled_block_refused` | propext, Classical.choice, Quot.sound |
| C90 | `C90_loose_form_accepted` | propext, Classical.choice, Quot.sound |
| C90 | `C90_block_carries_other_bytes` | propext, Classical.choice, Quot.sound |
| C91 | `C91_seed_range` | propext, Classical.choice, Quot.sound |
| C91 | `C91_seed_period` | propext |
| C91 | `C91_few_secrets` | propext, Classical.choice, Quot.sound |
| C91 | `C91_same_secret_elsewhere` | propext, Classical.choice, Quot.sound |
| C91 | `C91_identifier_gives_secret` | propext, Classical.choice, Quot.sound |
| C92 | `C92_call_writes` | propext, Quot.sound |
| C92 | `C92_private` | propext, Classical.choice, Quot.sound |
| C92 | `C92_kept` | propext, Classical.choice, Quot.sound |
| C92 | `C92_well_formed` | propext, Classical.choice, Quot.sound |
| C92 | `C92_only_its_file` | propext, Quot.sound |
| C92 | `C92_open_only_its_file` | propext, Classical.choice, Quot.sound |
| C92 | `C92_creates` | propext, Classical.choice, Quot.sound |
| C92 | `C92_blocked` | propext, Quot.sound |
| C92 | `C92_no_directory` | propext, Quot.sound |
| C92 | `C92_any_spelling` | propext, Classical.choice, Quot.sound |
| C92 | `C92_open_by_path` | propext, Classical.choice, Quot.sound |
| C92 | `C92_call_by_path` | propext, Quot.sound |
| C92 | `C92_slash_leaves_directories` | propext, Quot.sound |
| C92 | `C92_dotdot_fails` | propext, Classical.choice, Quot.sound |
| C93 | `C93_call` | propext, Classical.choice, Quot.sound |
| C93 | `C93_history` | propext, Classical.choice, Quot.sound |
| C93 | `C93_from_nothing` | propext, Classical.choice, Quot.sound |
| C93 | `C93_only_accounts_matter` | propext, Classical.choice, Quot.sound |
| C93 | `C93_not_with_equal_key_ids` | propext, Quot.sound |
| C94 | `C94_shape` | propext, Quot.sound |
| C94 | `C94_every_uuid` | propext, Quot.sound |
| C94 | `C94_same_iff` | propext, Quot.sound |
| C94 | `C94_history` | propext, Classical.choice, Quot.sound |
| C94 | `C94_by_id` | propext, Classical.choice, Quot.sound |
| C94 | `C94_upper_case_not_found` | propext, Quot.sound |
| C95 | `C95_linearisable` | propext, Classical.choice, Quot.sound |
| C95 | `C95_order_complete` | propext, Classical.choice, Quot.sound |
| C95 | `C95_real_time` | propext, Classical.choice, Quot.sound |
| C96 | `C96_lookup_iff` | propext, Classical.choice, Quot.sound |
| C96 | `C96_plain_value` | propext |
| C96 | `C96_escapes` | propext, Classical.choice, Quot.sound |
| C96 | `C96_unquote_iff` | propext, Classical.choice, Quot.sound |
| C96 | `C96_usual_form` | propext, Classical.choice, Quot.sound |
| C96 | `C96_suggested_tag` | propext, Classical.choice, Quot.sound |
| C96 | `C96_when_suggested` | propext, Quot.sound |
| C96 | `C96_declared_tags` | propext |
| C96 | `C96_not_suggested` | propext, Quot.sound |
| C97 | `C97_duplicate_iff` | propext, Classical.choice, Quot.sound |
| C97 | `C97_one_call` | propext, Classical.choice, Quot.sound |
| C97 | `C97_history` | propext, Classical.choice, Quot.sound |
| C97 | `C97_in_numbers` | propext, Classical.choice, Quot.sound |
| C98 | `C98_api_key` | propext, Classical.choice, Quot.sound |
| C98 | `C98_public_key` | propext, Classical.choice, Quot.sound |
| C98 | `C98_mfa_token` | propext, Classical.choice, Quot.sound |
| C98 | `C98_needs_distinct_ids` | propext, Quot.sound |
| C99 | `C99_returns` | propext, Classical.choice, Quot.sound |
| C99 | `C99_draws` | propext, Classical.choice, Quot.sound |
| C99 | `C99_recurrence` | propext, Classical.choice, Quot.sound |
| C99 | `C99_unbiased` | propext, Classical.choice, Quot.sound |
| C99 | `C99_seeding` | propext, Classical.choice, Quot.sound |
| C99 | `C99_few_generators` | propext, Classical.choice, Quot.sound |
| C99 | `C99_draws_from` | propext, Classical.choice, Quot.sound |
| C99 | `C99_few_secrets` | propext, Classical.choice, Quot.sound |
| C100 | `C100_four_choices` | propext, Classical.choice, Quot.sound |
| C100 | `C100_secret_from_earlier` | propext, Classical.choice, Quot.sound |
| C100 | `C100_characters_shown` | propext, Classical.choice, Quot.sound |
| C101 | `C101_freezes` | propext, Classical.choice, Quot.sound |
| C101 | `C101_restart_freezes` | propext, Classical.choice, Quot.sound |
| C102 | `C102_exclusive` | propext, Classical.choice, Quot.sound |
| C102 | `C102_can_panic` | propext, Classical.choice, Quot.sound |
| C102 | `C102_same_numbers` | propext, Classical.choice, Quot.sound |
| C102 | `C102_same_secret` | propext, Classical.choice, Quot.sound |
| C102 | `C102_two_databases` | propext, Classical.choice, Quot.sound |
| C103 | `C103_hands_out` | propext, Classical.choice, Quot.sound |
| C103 | `C103_unchanged_by_others` | propext, Classical.choice, Quot.sound |
| C103 | `C103_not_a_copy` | propext, Classical.choice, Quot.sound |
| C103 | `C103_write_is_saved` | propext, Classical.choice, Quot.sound |
| C103 | `C103_write_can_brick` | propext, Classical.choice, Quot.sound |
| C104 | `C104_at_most_three` | propext, Classical.choice, Quot.sound |
| C104 | `C104_stored_tokens` | propext, Classical.choice, Quot.sound |
| C104 | `C104_brute_force` | propext, Classical.choice, Quot.sound |
| C104 | `C104_truncation_unbiased` | propext, Classical.choice, Quot.sound |
| C104 | `C104_code_odds` | propext, Classical.choice, Quot.sound |
| C104 | `C104_nearly_uniform` | propext, Classical.choice, Quot.sound |
| C105 | `C105_username_text` | propext, Classical.choice, Quot.sound |
| C105 | `C105_password_text` | propext, Classical.choice, Quot.sound |
| C105 | `C105_username_tells` | propext, Classical.choice, Quot.sound |
| C105 | `C105_password_tells` | propext, Classical.choice, Quot.sound |
| C105 | `C105_only_lengths_enforced` | propext, Classical.choice, Quot.sound |
| C105 | `C105_announced_not_enforced` | propext |
| C106 | `C106_stored_accounts` | propext, Classical.choice, Quot.sound |
| C106 | `C106_one_address` | propext, Classical.choice, Quot.sound |
| C106 | `C106_role_carries` | propext, Classical.choice, Quot.sound |
| C106 | `C106_carry_over` | propext, Classical.choice, Quot.sound |
| C106 | `C106_slash_role_changes` | propext, Quot.sound |
| C107 | `C107_one_text` | propext, Classical.choice, Quot.sound |
| C107 | `C107_same_string` | propext, Quot.sound |
| C107 | `C107_secret_length` | propext, Classical.choice, Quot.sound |
| C107 | `C107_exact_secrets` | propext, Classical.choice, Quot.sound |
| C108 | `C108_login` | propext, Classical.choice, Quot.sound |
| C108 | `C108_lookup` | propext, Classical.choice, Quot.sound |
| C109 | `C109_contents` | propext, Classical.choice, Quot.sound |
| C109 | `C109_listings` | propext, Classical.choice, Quot.sound |
| C110 | `C110_tables` | propext, Classical.choice, Quot.sound |
| C110 | `C110_permutation` | propext, Classical.choice, Quot.sound |
| C110 | `C110_in_bounds` | propext, Classical.choice, Quot.sound |
| C110 | `C110_key_schedule` | propext, Quot.sound |
| C110 | `C110_key_material` | propext, Quot.sound |
| C110 | `C110_blocks` | propext, Quot.sound |
| C110 | `C110_salt` | propext, Classical.choice, Quot.sound |
| C110 | `C110_text` | propext, Quot.sound |
| C110 | `C110_accepts` | propext, Classical.choice, Quot.sound |
| C110 | `C110_no_password` | propext, Classical.choice, Quot.sound |
| C111 | `C111_decode` | propext, Classical.choice, Quot.sound |
| C111 | `C111_encode` | propext, Classical.choice, Quot.sound |
| C111 | `C111_bcrypt_encode` | propext, Classical.choice, Quot.sound |
| C111 | `C111_bcrypt_salt` | propext, Classical.choice, Quot.sound |
| C111 | `C111_unique` | propext, Quot.sound |
| C112 | `C112_database` | propext, Classical.choice, Quot.sound |
| C112 | `C112_register_request` | propext, Classical.choice, Quot.sound |
| C112 | `C112_authenticate_request` | propext, Classical.choice, Quot.sound |
| C112 | `C112_client_data` | propext, Classical.choice, Quot.sound |
| C112 | `C112_scalars_overwrite` | propext, Quot.sound |
| C112 | `C112_last_counts` | propext, Classical.choice, Quot.sound |
| C112 | `C112_times` | propext, Classical.choice, Quot.sound |
| C112 | `C112_maps` | propext, Quot.sound |
| C112 | `C112_zero` | none |
| C113 | `C113_other_key_accepted` | propext, Classical.choice, Quot.sound |
| C113 | `C113_stored_key_is_in_the_block` | propext, Classical.choice, Quot.sound |
| C113 | `C113_types` | propext, Classical.choice, Quot.sound |
| C113 | `C113_p224_refused` | propext, Classical.choice, Quot.sound |
| C113 | `C113_any_32_bytes` | propext, Classical.choice, Quot.sound |
| C113 | `C113_any_four_numbers` | propext, Classical.choice, Quot.sound |
| C113 | `C113_line_refused` | propext, Classical.choice, Quot.sound |
| C113 | `C113_line_errors` | propext, Classical.choice, Quot.sound |
| C113 | `C113_format_decides` | propext, Classical.choice, Quot.sound |
| C114 | `C114_quote_iff` | propext, Classical.choice, Quot.sound |
| C114 | `C114_unquote_quote` | propext, Classical.choice, Quot.sound |
| C114 | `C114_quote_ends` | propext, Classical.choice, Quot.sound |
| C114 | `C114_quote_printable` | propext, Classical.choice, Quot.sound |
| C114 | `C114_control_is_raw` | propext, Classical.choice, Quot.sound |
| C114 | `C114_usage_is_shown_raw` | propext, Classical.choice, Quot.sound |
| C114 | `C114_forged_line` | propext, Classical.choice, Quot.sound |
| C114 | `C114_forged_line_without_account` | propext, Classical.choice, Quot.sound |
| C115 | `C115_sha1_iff` | propext, Classical.choice, Quot.sound |
| C115 | `C115_sha256_iff` | propext, Classical.choice, Quot.sound |
| C115 | `C115_sha512_iff` | propext, Classical.choice, Quot.sound |
| C115 | `C115_md5_iff` | propext, Classical.choice, Quot.sound |
| C115 | `C115_hmac_iff` | propext, Classical.choice, Quot.sound |
| C115 | `C115_otp_iff` | propext, Classical.choice, Quot.sound |
| C115 | `C115_fingerprints` | propext, Classical.choice, Quot.sound |
| C115 | `C115_one_digest` | propext, Classical.choice, Quot.sound |
| C116 | `C116_refused_iff` | propext, Classical.choice, Quot.sound |
| C116 | `C116_returned_iff` | propext, Classical.choice, Quot.sound |
| C116 | `C116_one_reason` | propext, Classical.choice, Quot.sound |
| C116 | `C116_algorithm_branch_dead` | propext |
| C116 | `C116_text` | propext |
| C117 | `C117_how_calls_end` | propext, Classical.choice, Quot.sound |
| C117 | `C117_how_add_mfa_token_ends` | propext, Classical.choice, Quot.sound |
| C117 | `C117_how_add_api_key_ends` | propext, Classical.choice, Quot.sound |
| C118 | `C118_how_opening_ends` | propext, Classical.choice, Quot.sound |
| C118 | `C118_how_loading_ends` | propext, Classical.choice, Quot.sound |
| C119 | `C119_type_refused_iff` | propext, Classical.choice, Quot.sound |
| C119 | `C119_unreadable_iff` | propext, Classical.choice, Quot.sound |
| C119 | `C119_accepted_iff` | propext, Classical.choice, Quot.sound |
| C119 | `C119_one_type` | propext, Classical.choice, Quot.sound |
| C119 | `C119_no_certificate` | propext, Classical.choice, Quot.sound |
| C120 | `C120_white_space` | propext, Classical.choice, Quot.sound |
| C120 | `C120_trim_iff` | propext, Classical.choice, Quot.sound |
| C120 | `C120_no_block` | propext, Classical.choice, Quot.sound |
| C120 | `C120_first_block_decides` | propext, Classical.choice, Quot.sound |
| C120 | `C120_first_block_read` | propext, Classical.choice, Quot.sound |
| C120 | `C120_rest_is_not_read` | propext, Classical.choice, Quot.sound |
| C121 | `C121_new` | none |
| C121 | `C121_round_trip` | propext, Classical.choice, Quot.sound |
| C121 | `C121_cut_refused` | propext, Classical.choice, Quot.sound |
| C121 | `C121_reads_iff` | propext, Classical.choice, Quot.sound |
| C121 | `C121_approved_iff` | propext, Classical.choice, Quot.sound |
| C121 | `C121_correct_spelling_is_ignored` | propext, Classical.choice, Quot.sound |
| C121 | `C121_tags` | propext |
| C122 | `C122_without_nulls` | propext, Classical.choice, Quot.sound |
| C122 | `C122_null_or_not` | propext, Quot.sound |
| C122 | `C122_first_null_decides` | propext, Quot.sound |
| C122 | `C122_other_nulls_unnoticed` | propext, Quot.sound |
| C122 | `C122_nulls_are_kept` | propext, Classical.choice, Quot.sound |
| C122 | `C122_missing_limit` | propext, Quot.sound |
| C122 | `C122_written_then_panics` | propext, Classical.choice, Quot.sound |
| C123 | `C123_identify_without_nulls` | propext, Quot.sound |
| C123 | `C123_identify_panics_iff` | propext, Quot.sound |
| C123 | `C123_identified` | propext, Quot.sound |
| C123 | `C123_tokens` | propext, Quot.sound |
| C123 | `C123_keys` | propext, Quot.sound |
| C123 | `C123_token_check` | propext, Quot.sound |
| C123 | `C123_key_check` | propext, Classical.choice, Quot.sound |
| C123 | `C123_has_role` | propext, Classical.choice, Quot.sound |
| C123 | `C123_add_role` | propext, Classical.choice, Quot.sound |
| C123 | `C123_webauthn` | propext, Classical.choice, Quot.sound |
