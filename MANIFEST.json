{
 "claims": [
  {
   "property": "C01",
   "status": "proved",
   "theorems": [
    "C01_usernames_unique",
    "C01_taken_username_rejected"
   ],
   "note": ""
  },
  {
   "property": "C02",
   "status": "proved",
   "theorems": [
    "C02_emails_unique",
    "C02_taken_email_rejected"
   ],
   "note": ""
  },
  {
   "property": "C03",
   "status": "proved",
   "theorems": [
    "C03_ids_unique",
    "C03_opened_ids_unique",
    "C03_duplicate_id_possible"
   ],
   "note": "Proved under the stated premise (an unused UUID among the ten attempts); C03_duplicate_id_possible shows the premise is needed."
  },
  {
   "property": "C04",
   "status": "proved",
   "theorems": [
    "C04_resolution",
    "C04_identify",
    "C04_authenticate",
    "C04_indexes_agree"
   ],
   "note": ""
  },
  {
   "property": "C05",
   "status": "proved",
   "theorems": [
    "C05_added_user_is_found",
    "C05_added_user_authenticates",
    "C05_added_user_passes_identity_check",
    "C05_letter_case",
    "C05_characters"
   ],
   "note": ""
  },
  {
   "property": "C06",
   "status": "proved",
   "theorems": [
    "C06_add_user_appends_one",
    "C06_rest_is_empty"
   ],
   "note": ""
  },
  {
   "property": "C07",
   "status": "proved",
   "theorems": [
    "C07_rejected_call_changes_nothing",
    "C07_rejected_call_changes_nothing_env",
    "C07_changed_iff"
   ],
   "note": ""
  },
  {
   "property": "C08",
   "status": "proved",
   "theorems": [
    "C08_account_calls_need_matching_identity",
    "C08_account_calls_same_id",
    "C08_fails_with_duplicate_ids"
   ],
   "note": "Proved for histories with unused UUIDs; with a duplicate ID (C03) the check accepts a mismatched pair (C08_fails_with_duplicate_ids), and C08_account_calls_same_id says what remains in every history."
  },
  {
   "property": "C09",
   "status": "proved",
   "theorems": [
    "C09_other_users_untouched"
   ],
   "note": ""
  },
  {
   "property": "C10",
   "status": "proved",
   "theorems": [
    "C10_users_never_lost",
    "C10_delete_user_unsupported"
   ],
   "note": ""
  },
  {
   "property": "C11",
   "status": "proved",
   "theorems": [
    "C11_authentication_sound",
    "C11_empty_request_rejected"
   ],
   "note": ""
  },
  {
   "property": "C12",
   "status": "proved",
   "theorems": [
    "C12_accepted_iff",
    "C12_registered_password_works",
    "C12_untrimmed_password_fails",
    "C12_untrimmed_password_refused"
   ],
   "note": ""
  },
  {
   "property": "C13",
   "status": "proved",
   "theorems": [
    "C13_change_needs_old_password",
    "C13_only_new_digest_works",
    "C13_only_new_password_works"
   ],
   "note": ""
  },
  {
   "property": "C14",
   "status": "proved",
   "theorems": [
    "C14_one_active_password"
   ],
   "note": ""
  },
  {
   "property": "C15",
   "status": "proved",
   "theorems": [
    "C15_history_after_change",
    "C15_history_bounded",
    "C15_policy_bound_fails"
   ],
   "note": ""
  },
  {
   "property": "C16",
   "status": "proved",
   "theorems": [
    "C16_accepts_iff_first_72_bytes",
    "C16_short_password_accepts_only_itself",
    "C16_trailing_bytes_ignored",
    "C16_which_hashes_accept",
    "C16_nul_bytes_collide"
   ],
   "note": ""
  },
  {
   "property": "C17",
   "status": "proved",
   "theorems": [
    "C17_new_password",
    "C17_cost_parameter"
   ],
   "note": ""
  },
  {
   "property": "C18",
   "status": "proved",
   "theorems": [
    "C18_issued_key_works"
   ],
   "note": ""
  },
  {
   "property": "C19",
   "status": "proved",
   "theorems": [
    "C19_lookup_sound_and_complete"
   ],
   "note": ""
  },
  {
   "property": "C20",
   "status": "proved",
   "theorems": [
    "C20_delete_removes_exactly",
    "C20_deleted_key_rejected",
    "C20_other_keys_unaffected"
   ],
   "note": ""
  },
  {
   "property": "C21",
   "status": "proved",
   "theorems": [
    "C21_disabled_key_accepted",
    "C21_flags_ignored"
   ],
   "note": ""
  },
  {
   "property": "C22",
   "status": "proved",
   "theorems": [
    "C22_prefixes_unique",
    "C22_index_exact",
    "C22_index_leak_with_equal_ids"
   ],
   "note": ""
  },
  {
   "property": "C23",
   "status": "proved",
   "theorems": [
    "C23_returns_if_prefix_unused",
    "C23_hangs_if_prefix_in_use",
    "C23_not_total"
   ],
   "note": ""
  },
  {
   "property": "C24",
   "status": "proved",
   "theorems": [
    "C24_random_string",
    "C24_random_string_from_range",
    "C24_new_random_string",
    "C24_random_string_onto",
    "C24_api_secret"
   ],
   "note": ""
  },
  {
   "property": "C25",
   "status": "proved",
   "theorems": [
    "C25_public_keys",
    "C25_api_keys",
    "C25_mfa_tokens",
    "C25_listing_succeeds"
   ],
   "note": ""
  },
  {
   "property": "C26",
   "status": "proved",
   "theorems": [
    "C26_public_keys_distinct",
    "C26_add_appends_one",
    "C26_add_duplicate_rejected",
    "C26_delete_exact"
   ],
   "note": ""
  },
  {
   "property": "C27",
   "status": "proved",
   "theorems": [
    "C27_acceptance",
    "C27_pem_and_openssh_differ",
    "C27_same_key_stored_twice"
   ],
   "note": ""
  },
  {
   "property": "C28",
   "status": "proved",
   "theorems": [
    "C28_tokens_distinct",
    "C28_add_appends_one",
    "C28_add_duplicate_rejected",
    "C28_delete_exact"
   ],
   "note": ""
  },
  {
   "property": "C29",
   "status": "proved",
   "theorems": [
    "C29_code",
    "C29_code_unique",
    "C29_no_overflow",
    "C29_unknown_algorithm",
    "C29_zero_bytes_ignored",
    "C29_long_secret_is_hashed"
   ],
   "note": ""
  },
  {
   "property": "C30",
   "status": "proved",
   "theorems": [
    "C30_window",
    "C30_first_step",
    "C30_no_panic",
    "C30_unknown_algorithm",
    "C30_validate_code"
   ],
   "note": ""
  },
  {
   "property": "C31",
   "status": "proved",
   "theorems": [
    "C31_enrolment"
   ],
   "note": ""
  },
  {
   "property": "C32",
   "status": "proved",
   "theorems": [
    "C32_floor_of_rounded_quotient",
    "C32_time_step"
   ],
   "note": ""
  },
  {
   "property": "C33",
   "status": "proved",
   "theorems": [
    "C33_webauthn_authentication",
    "C33_needs_signature"
   ],
   "note": ""
  },
  {
   "property": "C34",
   "status": "proved",
   "theorems": [
    "C34_short_rejected",
    "C34_decoding",
    "C34_faithful"
   ],
   "note": ""
  },
  {
   "property": "C35",
   "status": "proved",
   "theorems": [
    "C35_registration_accepted_iff",
    "C35_registration_stores",
    "C35_missing_coordinate_useless",
    "C35_wrong_json_type_panics",
    "C35_panic_witness"
   ],
   "note": ""
  },
  {
   "property": "C36",
   "status": "proved",
   "theorems": [
    "C36_role_rejected_iff_blank",
    "C36_role_prints_back",
    "C36_role_round_trip",
    "C36_plain_role_round_trip",
    "C36_printing_injective",
    "C36_leading_slash"
   ],
   "note": ""
  },
  {
   "property": "C37",
   "status": "proved",
   "theorems": [
    "C37_add_role",
    "C37_add_roles",
    "C37_has_role",
    "C37_no_duplicate_roles",
    "C37_roles_claim",
    "C37_claim_confusion"
   ],
   "note": ""
  },
  {
   "property": "C38",
   "status": "proved",
   "theorems": [
    "C38_parse",
    "C38_accepted_iff",
    "C38_prints",
    "C38_reparse",
    "C38_stable",
    "C38_comma_in_part"
   ],
   "note": ""
  },
  {
   "property": "C39",
   "status": "proved",
   "theorems": [
    "C39_pattern_text",
    "C39_accepts_iff_matches",
    "C39_accepts_iff_shape",
    "C39_stored"
   ],
   "note": ""
  },
  {
   "property": "C40",
   "status": "proved",
   "theorems": [
    "C40_defaults",
    "C40_reports_change",
    "C40_idempotent",
    "C40_no_zero_limit",
    "C40_new_database",
    "C40_existing_database"
   ],
   "note": ""
  },
  {
   "property": "C41",
   "status": "proved",
   "theorems": [
    "C41_add_user_within_policy",
    "C41_change_within_policy",
    "C41_no_other_call_sets_passwords",
    "C41_policy_fixed",
    "C41_flags_not_enforced",
    "C41_strict_policy_ignored"
   ],
   "note": ""
  },
  {
   "property": "C42",
   "status": "proved",
   "theorems": [
    "C42_username_text",
    "C42_username_match_passes",
    "C42_username_match_iff",
    "C42_username_converse_fails",
    "C42_password_text",
    "C42_password_match_iff",
    "C42_password_match_flags",
    "C42_password_ascii_agrees",
    "C42_password_disagrees",
    "C42_password_newline",
    "C42_password_bounds"
   ],
   "note": ""
  },
  {
   "property": "C43",
   "status": "proved",
   "theorems": [
    "C43_read_only_calls"
   ],
   "note": ""
  },
  {
   "property": "C44",
   "status": "proved",
   "theorems": [
    "C44_commit_reaches_disk",
    "C44_target",
    "C44_failed_write_reported"
   ],
   "note": ""
  },
  {
   "property": "C45",
   "status": "proved",
   "theorems": [
    "C45_reopen",
    "C45_reopened_same",
    "C45_invalid_utf8_lost"
   ],
   "note": ""
  },
  {
   "property": "C46",
   "status": "proved",
   "theorems": [
    "C46_decode_encode",
    "C46_encode_injective",
    "C46_stable",
    "C46_commit"
   ],
   "note": ""
  },
  {
   "property": "C47",
   "status": "proved",
   "theorems": [
    "C47_prefix_rejected",
    "C47_interrupted_commit"
   ],
   "note": ""
  },
  {
   "property": "C48",
   "status": "proved",
   "theorems": [
    "C48_failed_write_leaves_memory_ahead"
   ],
   "note": "The property records that a failed call is not a no-op; proved as stated."
  },
  {
   "property": "C49",
   "status": "proved",
   "theorems": [
    "C49_copy"
   ],
   "note": ""
  },
  {
   "property": "C50",
   "status": "proved",
   "theorems": [
    "C50_opened_iff_consistent",
    "C50_undecodable_rejected",
    "C50_opened_consistent"
   ],
   "note": ""
  },
  {
   "property": "C51",
   "status": "proved",
   "theorems": [
    "C51_serialisable",
    "C51_order_complete",
    "C51_real_time_order",
    "C51_cache_invisible",
    "C51_database_calls_serialisable",
    "C51_read_locked_calls_only_read"
   ],
   "note": ""
  },
  {
   "property": "C52",
   "status": "proved",
   "theorems": [
    "C52_getPath_sees_copy_target",
    "C52_getPath_unstable",
    "C52_getPath_between_calls",
    "C52_getPath_stable_without_copy"
   ],
   "note": "The code violates the property; C52_getPath_unstable refutes it for every database, and the other theorems prove what does hold."
  },
  {
   "property": "C53",
   "status": "proved",
   "theorems": [
    "C53_known_user",
    "C53_unknown_user",
    "C53_code_distinguishes"
   ],
   "note": ""
  },
  {
   "property": "C54",
   "status": "proved",
   "theorems": [
    "C54_flags",
    "C54_challenges",
    "C54_disagreement"
   ],
   "note": ""
  },
  {
   "property": "C55",
   "status": "proved",
   "theorems": [
    "C55_get_users"
   ],
   "note": ""
  },
  {
   "property": "C56",
   "status": "proved",
   "theorems": [
    "C56_revision_counts",
    "C56_revision_steps",
    "C56_add_role",
    "C56_add_email",
    "C56_add_name"
   ],
   "note": ""
  },
  {
   "property": "C57",
   "status": "proved",
   "theorems": [
    "C57_build_succeeds_iff",
    "C57_refusal_says_why",
    "C57_build_result",
    "C57_text_reads_back",
    "C57_text_determines_parameters",
    "C57_label_read_as_path_iff",
    "C57_text_exact"
   ],
   "note": ""
  },
  {
   "property": "C58",
   "status": "proved",
   "theorems": [
    "C58_nil_iff",
    "C58_unwraps"
   ],
   "note": ""
  },
  {
   "property": "C59",
   "status": "proved",
   "theorems": [
    "C59_add_association",
    "C59_add_issuer_fails",
    "C59_add_issuer"
   ],
   "note": ""
  },
  {
   "property": "C60",
   "status": "proved",
   "theorems": [
    "C60_mail_claim",
    "C60_claim_is_an_address",
    "C60_identify_reports",
    "C60_lookup_reports",
    "C60_registered_address"
   ],
   "note": ""
  },
  {
   "property": "C61",
   "status": "proved",
   "theorems": [
    "C61_tilde_reads_elsewhere",
    "C61_tilde_reopen_fails",
    "C61_expanded_form",
    "C61_tilde_name",
    "C61_home_path_witness"
   ],
   "note": ""
  },
  {
   "property": "C62",
   "status": "proved",
   "theorems": [
    "C62_compliance_iff",
    "C62_failure"
   ],
   "note": ""
  },
  {
   "property": "C63",
   "status": "proved",
   "theorems": [
    "C63_authentication_reads",
    "C63_lookup_reads",
    "C63_identification_reads",
    "C63_account_status_ignored",
    "C63_disabled_api_keys_work",
    "C63_dead_passwords_refused",
    "C63_disabled_tokens_refused",
    "C63_code_check_ignores_status",
    "C63_disable_exact"
   ],
   "note": ""
  },
  {
   "property": "C64",
   "status": "proved",
   "theorems": [
    "C64_add_user_stores_hash",
    "C64_change_password_stores_hash",
    "C64_old_password_only_checked",
    "C64_authentication_only_checks",
    "C64_no_other_call_reads_password",
    "C64_api_key_stores_prefix_and_hash"
   ],
   "note": ""
  },
  {
   "property": "C65",
   "status": "proved",
   "theorems": [
    "C65_stored_text",
    "C65_call_keeps_text",
    "C65_opened_text",
    "C65_reopen"
   ],
   "note": ""
  },
  {
   "property": "C66",
   "status": "proved",
   "theorems": [
    "C66_refines_simple_mutex",
    "C66_serialisable",
    "C66_mutual_exclusion",
    "C66_no_deadlock",
    "C66_steps_bounded",
    "C66_fair_schedules_finish",
    "C66_reader_waits_for_one_writer",
    "C66_writer_waits_for_readers_inside",
    "C66_endless_writer_blocks_all"
   ],
   "note": ""
  },
  {
   "property": "C67",
   "status": "proved",
   "theorems": [
    "C67_skew_tolerated",
    "C67_skew_bounded",
    "C67_lifetime",
    "C67_enrolled_code_may_be_refused"
   ],
   "note": ""
  },
  {
   "property": "C68",
   "status": "proved",
   "theorems": [
    "C68_add_user",
    "C68_save_copy",
    "C68_change_password",
    "C68_delete",
    "C68_add_api_key",
    "C68_add_public_key",
    "C68_add_mfa_token",
    "C68_reads"
   ],
   "note": ""
  },
  {
   "property": "C69",
   "status": "proved",
   "theorems": [
    "C69_accepts_iff",
    "C69_no_panic"
   ],
   "note": ""
  },
  {
   "property": "C70",
   "status": "proved",
   "theorems": [
    "C70_registration_panics_iff",
    "C70_totp_no_panic",
    "C70_panics_iff",
    "C70_only_add_api_key_hangs",
    "C70_opening_panics"
   ],
   "note": ""
  },
  {
   "property": "C71",
   "status": "proved",
   "theorems": [
    "C71_same_behaviour",
    "C71_stored_cost",
    "C71_known_user",
    "C71_unknown_user",
    "C71_blank_password_reveals_user",
    "C71_other_password_hides_user",
    "C71_error_reveals_user",
    "C71_lookup_reveals_prefix"
   ],
   "note": ""
  },
  {
   "property": "C72",
   "status": "proved",
   "theorems": [
    "C72_memories_separate",
    "C72_last_writer_wins",
    "C72_update_lost",
    "C72_ann_is_gone"
   ],
   "note": ""
  },
  {
   "property": "C73",
   "status": "proved",
   "theorems": [
    "C73_times_in_order"
   ],
   "note": ""
  },
  {
   "property": "C74",
   "status": "proved",
   "theorems": [
    "C74_uniform",
    "C74_secret_digest",
    "C74_secret_tail_ignored"
   ],
   "note": ""
  },
  {
   "property": "C75",
   "status": "proved",
   "theorems": [
    "C75_call_errors_format",
    "C75_open_errors_format",
    "C75_bare_constants_have_no_verbs",
    "C75_failed_assertion_shows_verb",
    "C75_wordings",
    "C75_same_wording",
    "C75_sprintf_iff",
    "C75_text_iff",
    "C75_call_errors_say"
   ],
   "note": ""
  },
  {
   "property": "C76",
   "status": "proved",
   "theorems": [
    "C76_call_errors_quote_no_secrets",
    "C76_open_errors_quote_no_secrets"
   ],
   "note": ""
  },
  {
   "property": "C77",
   "status": "proved",
   "theorems": [
    "C77_accepts_iff_grammar",
    "C77_unambiguous",
    "C77_surrounding_space",
    "C77_opened_is_json",
    "C77_not_json_rejected",
    "C77_same_value_same_database",
    "C77_written_is_json",
    "C77_unknown_member_ignored",
    "C77_depth_limit"
   ],
   "note": ""
  },
  {
   "property": "C78",
   "status": "proved",
   "theorems": [
    "C78_always_durable",
    "C78_nothing_lost",
    "C78_revision_counts_commits"
   ],
   "note": ""
  },
  {
   "property": "C79",
   "status": "proved",
   "theorems": [
    "C79_unchanged",
    "C79_listings",
    "C79_authenticate",
    "C79_add_api_key",
    "C79_delete_api_key",
    "C79_lookup",
    "C79_add_mfa_token",
    "C79_never_written",
    "C79_stale_code",
    "C79_identify_then_authenticate",
    "C79_unknown_becomes_nobody"
   ],
   "note": ""
  },
  {
   "property": "C80",
   "status": "proved",
   "theorems": [
    "C80_scanned_code_enrols",
    "C80_shown_codes_are_accepted",
    "C80_scan_enrol_login",
    "C80_tokens_without_qr",
    "C80_enrolled_without_qr",
    "C80_hotp_never_enrols"
   ],
   "note": ""
  },
  {
   "property": "C81",
   "status": "proved",
   "theorems": [
    "C81_line_accepted_iff",
    "C81_line_stored",
    "C81_pem_accepted",
    "C81_stored_pem_reads_back",
    "C81_modulus_not_checked",
    "C81_padding_irrelevant",
    "C81_fingerprint_identifies",
    "C81_exponent_gap",
    "C81_pkcs1_refused",
    "C81_public_key_label_refused",
    "C81_every_key_twice"
   ],
   "note": ""
  },
  {
   "property": "C82",
   "status": "proved",
   "theorems": [
    "C82_parameters",
    "C82_every_point_is_a_key",
    "C82_accepted_iff",
    "C82_accepted_iff_signed",
    "C82_malformed_rejected",
    "C82_one_encoding",
    "C82_binds_digest",
    "C82_second_signature",
    "C82_login_iff_signed",
    "C82_replay",
    "C82_malleable",
    "C82_key_not_checked"
   ],
   "note": ""
  },
  {
   "property": "C83",
   "status": "proved",
   "theorems": [
    "C83_number_is_iff",
    "C83_value_unique",
    "C83_out_of_range_iff",
    "C83_any_depth",
    "C83_registration_iff"
   ],
   "note": ""
  },
  {
   "property": "C84",
   "status": "proved",
   "theorems": [
    "C84_own_calls",
    "C84_login_calls",
    "C84_lookup",
    "C84_add_user",
    "C84_get_user",
    "C84_after_others"
   ],
   "note": ""
  },
  {
   "property": "C85",
   "status": "proved",
   "theorems": [
    "C85_commute"
   ],
   "note": ""
  },
  {
   "property": "C86",
   "status": "proved",
   "theorems": [
    "C86_reopened_same",
    "C86_restarts_invisible",
    "C86_where_restarted",
    "C86_play_run",
    "C86_restart_visible_with_equal_ids"
   ],
   "note": ""
  },
  {
   "property": "C87",
   "status": "proved",
   "theorems": [
    "C87_only_successes_matter",
    "C87_attempts_leave_nothing",
    "C87_guessing_is_unlimited",
    "C87_lockout_never_set"
   ],
   "note": ""
  },
  {
   "property": "C88",
   "status": "proved",
   "theorems": [
    "C88_feasible_iff",
    "C88_nobody_joins",
    "C88_closed_forever",
    "C88_first_user",
    "C88_half_given"
   ],
   "note": ""
  },
  {
   "property": "C89",
   "status": "proved",
   "theorems": [
    "C89_snake_normal",
    "C89_tag_spells_the_name",
    "C89_same_tag",
    "C89_suggestion_complies",
    "C89_declared_structs_comply",
    "C89_file_uses_the_tags",
    "C89_file_omits_what_is_tagged"
   ],
   "note": ""
  },
  {
   "property": "C90",
   "status": "proved",
   "theorems": [
    "C90_stored_key_is_in_the_block",
    "C90_mislabelled_block_refused",
    "C90_loose_form_accepted",
    "C90_block_carries_other_bytes"
   ],
   "note": ""
  },
  {
   "property": "C91",
   "status": "proved",
   "theorems": [
    "C91_seed_range",
    "C91_seed_period",
    "C91_few_secrets",
    "C91_same_secret_elsewhere",
    "C91_identifier_gives_secret"
   ],
   "note": ""
  },
  {
   "property": "C92",
   "status": "proved",
   "theorems": [
    "C92_call_writes",
    "C92_private",
    "C92_kept",
    "C92_well_formed",
    "C92_only_its_file",
    "C92_open_only_its_file",
    "C92_creates",
    "C92_blocked",
    "C92_no_directory",
    "C92_any_spelling",
    "C92_open_by_path",
    "C92_call_by_path",
    "C92_slash_leaves_directories",
    "C92_dotdot_fails"
   ],
   "note": ""
  },
  {
   "property": "C93",
   "status": "proved",
   "theorems": [
    "C93_call",
    "C93_history",
    "C93_from_nothing",
    "C93_only_accounts_matter",
    "C93_not_with_equal_key_ids"
   ],
   "note": ""
  },
  {
   "property": "C94",
   "status": "proved",
   "theorems": [
    "C94_shape",
    "C94_every_uuid",
    "C94_same_iff",
    "C94_history",
    "C94_by_id",
    "C94_upper_case_not_found"
   ],
   "note": ""
  },
  {
   "property": "C95",
   "status": "proved",
   "theorems": [
    "C95_linearisable",
    "C95_order_complete",
    "C95_real_time"
   ],
   "note": ""
  },
  {
   "property": "C96",
   "status": "proved",
   "theorems": [
    "C96_lookup_iff",
    "C96_plain_value",
    "C96_escapes",
    "C96_unquote_iff",
    "C96_usual_form",
    "C96_suggested_tag",
    "C96_when_suggested",
    "C96_declared_tags",
    "C96_not_suggested"
   ],
   "note": ""
  },
  {
   "property": "C97",
   "status": "proved",
   "theorems": [
    "C97_duplicate_iff",
    "C97_one_call",
    "C97_history",
    "C97_in_numbers"
   ],
   "note": ""
  },
  {
   "property": "C98",
   "status": "proved",
   "theorems": [
    "C98_api_key",
    "C98_public_key",
    "C98_mfa_token",
    "C98_needs_distinct_ids"
   ],
   "note": ""
  },
  {
   "property": "C99",
   "status": "proved",
   "theorems": [
    "C99_returns",
    "C99_draws",
    "C99_recurrence",
    "C99_unbiased",
    "C99_seeding",
    "C99_few_generators",
    "C99_draws_from",
    "C99_few_secrets"
   ],
   "note": ""
  },
  {
   "property": "C100",
   "status": "proved",
   "theorems": [
    "C100_four_choices",
    "C100_secret_from_earlier",
    "C100_characters_shown"
   ],
   "note": ""
  },
  {
   "property": "C101",
   "status": "proved",
   "theorems": [
    "C101_freezes",
    "C101_restart_freezes"
   ],
   "note": ""
  },
  {
   "property": "C102",
   "status": "proved",
   "theorems": [
    "C102_exclusive",
    "C102_can_panic",
    "C102_same_numbers",
    "C102_same_secret",
    "C102_two_databases"
   ],
   "note": ""
  },
  {
   "property": "C103",
   "status": "proved",
   "theorems": [
    "C103_hands_out",
    "C103_unchanged_by_others",
    "C103_not_a_copy",
    "C103_write_is_saved",
    "C103_write_can_brick"
   ],
   "note": ""
  },
  {
   "property": "C104",
   "status": "proved",
   "theorems": [
    "C104_at_most_three",
    "C104_stored_tokens",
    "C104_brute_force",
    "C104_truncation_unbiased",
    "C104_code_odds",
    "C104_nearly_uniform"
   ],
   "note": ""
  },
  {
   "property": "C105",
   "status": "proved",
   "theorems": [
    "C105_username_text",
    "C105_password_text",
    "C105_username_tells",
    "C105_password_tells",
    "C105_only_lengths_enforced",
    "C105_announced_not_enforced"
   ],
   "note": ""
  },
  {
   "property": "C106",
   "status": "proved",
   "theorems": [
    "C106_stored_accounts",
    "C106_one_address",
    "C106_role_carries",
    "C106_carry_over",
    "C106_slash_role_changes"
   ],
   "note": ""
  },
  {
   "property": "C107",
   "status": "proved",
   "theorems": [
    "C107_one_text",
    "C107_same_string",
    "C107_secret_length",
    "C107_exact_secrets"
   ],
   "note": ""
  },
  {
   "property": "C108",
   "status": "proved",
   "theorems": [
    "C108_login",
    "C108_lookup"
   ],
   "note": ""
  },
  {
   "property": "C109",
   "status": "proved",
   "theorems": [
    "C109_contents",
    "C109_listings"
   ],
   "note": ""
  },
  {
   "property": "C110",
   "status": "proved",
   "theorems": [
    "C110_tables",
    "C110_permutation",
    "C110_in_bounds",
    "C110_key_schedule",
    "C110_key_material",
    "C110_blocks",
    "C110_salt",
    "C110_text",
    "C110_accepts",
    "C110_no_password"
   ],
   "note": ""
  },
  {
   "property": "C111",
   "status": "proved",
   "theorems": [
    "C111_decode",
    "C111_encode",
    "C111_bcrypt_encode",
    "C111_bcrypt_salt",
    "C111_unique"
   ],
   "note": ""
  },
  {
   "property": "C112",
   "status": "proved",
   "theorems": [
    "C112_database",
    "C112_register_request",
    "C112_authenticate_request",
    "C112_client_data",
    "C112_scalars_overwrite",
    "C112_last_counts",
    "C112_times",
    "C112_maps",
    "C112_zero"
   ],
   "note": ""
  },
  {
   "property": "C113",
   "status": "proved",
   "theorems": [
    "C113_other_key_accepted",
    "C113_stored_key_is_in_the_block",
    "C113_types",
    "C113_p224_refused",
    "C113_any_32_bytes",
    "C113_any_four_numbers",
    "C113_line_refused",
    "C113_line_errors",
    "C113_format_decides"
   ],
   "note": ""
  },
  {
   "property": "C114",
   "status": "proved",
   "theorems": [
    "C114_quote_iff",
    "C114_unquote_quote",
    "C114_quote_ends",
    "C114_quote_printable",
    "C114_control_is_raw",
    "C114_usage_is_shown_raw",
    "C114_forged_line",
    "C114_forged_line_without_account"
   ],
   "note": ""
  },
  {
   "property": "C115",
   "status": "proved",
   "theorems": [
    "C115_sha1_iff",
    "C115_sha256_iff",
    "C115_sha512_iff",
    "C115_md5_iff",
    "C115_hmac_iff",
    "C115_otp_iff",
    "C115_fingerprints",
    "C115_one_digest"
   ],
   "note": ""
  },
  {
   "property": "C116",
   "status": "proved",
   "theorems": [
    "C116_refused_iff",
    "C116_returned_iff",
    "C116_one_reason",
    "C116_algorithm_branch_dead",
    "C116_text"
   ],
   "note": ""
  },
  {
   "property": "C117",
   "status": "proved",
   "theorems": [
    "C117_how_calls_end",
    "C117_how_add_mfa_token_ends",
    "C117_how_add_api_key_ends"
   ],
   "note": ""
  },
  {
   "property": "C118",
   "status": "proved",
   "theorems": [
    "C118_how_opening_ends",
    "C118_how_loading_ends"
   ],
   "note": ""
  },
  {
   "property": "C119",
   "status": "proved",
   "theorems": [
    "C119_type_refused_iff",
    "C119_unreadable_iff",
    "C119_accepted_iff",
    "C119_one_type",
    "C119_no_certificate"
   ],
   "note": ""
  },
  {
   "property": "C120",
   "status": "proved",
   "theorems": [
    "C120_white_space",
    "C120_trim_iff",
    "C120_no_block",
    "C120_first_block_decides",
    "C120_first_block_read",
    "C120_rest_is_not_read"
   ],
   "note": ""
  },
  {
   "property": "C121",
   "status": "proved",
   "theorems": [
    "C121_new",
    "C121_round_trip",
    "C121_cut_refused",
    "C121_reads_iff",
    "C121_approved_iff",
    "C121_correct_spelling_is_ignored",
    "C121_tags"
   ],
   "note": ""
  },
  {
   "property": "C122",
   "status": "proved",
   "theorems": [
    "C122_without_nulls",
    "C122_null_or_not",
    "C122_first_null_decides",
    "C122_other_nulls_unnoticed",
    "C122_nulls_are_kept",
    "C122_missing_limit",
    "C122_written_then_panics"
   ],
   "note": ""
  },
  {
   "property": "C123",
   "status": "proved",
   "theorems": [
    "C123_identify_without_nulls",
    "C123_identify_panics_iff",
    "C123_identified",
    "C123_tokens",
    "C123_keys",
    "C123_token_check",
    "C123_key_check",
    "C123_has_role",
    "C123_add_role",
    "C123_webauthn"
   ],
   "note": ""
  }
 ]
}