# Axioms of each theorem

Output of `#print axioms` for every theorem named in MANIFEST.json, grouped. No other axiom occurs.

## no axioms (14)

* `Oid4vci.C10_resolve_inline`
* `Oid4vci.C38_iff_partial`
* `Oid4vci.C38_unvalidated`
* `Oid4vci.C38_carries`
* `Oid4vci.C42_exactly_one`
* `Oid4vci.C80_refuted`
* `Oid4vci.C84_any_okp`
* `Oid4vci.C84_refuted`
* `Oid4vci.C90_offer`
* `Oid4vci.C90_settings`
* `Oid4vci.C97_catalogue`
* `Oid4vci.C151_cut`
* `Oid4vci.C151_runs_on`
* `Oid4vci.C153_token`

## `propext` (66)

* `Oid4vci.C18_iff_partial`
* `Oid4vci.C18_one_segment_partial`
* `Oid4vci.C33_evaluate_ignores_type`
* `Oid4vci.C38_validate_iff`
* `Oid4vci.C38_refuted`
* `Oid4vci.C39_access_token`
* `Oid4vci.C39_credential`
* `Oid4vci.C39_token_type`
* `Oid4vci.C40_never_documented`
* `Oid4vci.C40_refuted`
* `Oid4vci.C40_distinct_partial`
* `Oid4vci.C40_spelling_partial`
* `Oid4vci.C41_name`
* `Oid4vci.C42_document`
* `Oid4vci.C42_warnings`
* `Oid4vci.C48_binding_methods_lost`
* `Oid4vci.C51_time_independent`
* `Oid4vci.C52_replay`
* `Oid4vci.C52_refuted`
* `Oid4vci.C57_written_as_text`
* `Oid4vci.C61_validation`
* `Oid4vci.C61_nested_collision`
* `Oid4vci.C62_serialised`
* `Oid4vci.C72_lists`
* `Oid4vci.C73_time`
* `Oid4vci.C73_pre_evaluate`
* `Oid4vci.C75_exact_partial`
* `Oid4vci.C75_refuted`
* `Oid4vci.C78_invalid_request_partial`
* `Oid4vci.C82_refuted`
* `Oid4vci.C85_refuted`
* `Oid4vci.C90_requests`
* `Oid4vci.C90_metadata`
* `Oid4vci.C91_refuted`
* `Oid4vci.C93_none_partial`
* `Oid4vci.C93_refuted`
* `Oid4vci.C94_refuted`
* `Oid4vci.C97_code`
* `Oid4vci.C100_refuted`
* `Oid4vci.C100_short_violated`
* `Oid4vci.C103_body`
* `Oid4vci.C108_refuted`
* `Oid4vci.C109_violation`
* `Oid4vci.C109_refuted`
* `Oid4vci.C120_checks`
* `Oid4vci.C131_instance`
* `Oid4vci.C135_dotted`
* `Oid4vci.C135_brackets`
* `Oid4vci.C135_colon`
* `Oid4vci.C141_two_endpoints`
* `Oid4vci.C142_header_first`
* `Oid4vci.C143_response_partial`
* `Oid4vci.C143_urls_differ`
* `Oid4vci.C143_encoded_differs`
* `Oid4vci.C143_refuted`
* `Oid4vci.C144_proof_type`
* `Oid4vci.C144_hides`
* `Oid4vci.C144_refuted_proof`
* `Oid4vci.C144_refuted_header`
* `Oid4vci.C144_refuted_metadata`
* `Oid4vci.C144_refuted`
* `Oid4vci.C146_server`
* `Oid4vci.C146_refuted_metadata`
* `Oid4vci.C146_beside`
* `Oid4vci.C146_refuted_response`
* `Oid4vci.C146_refuted`

## `Quot.sound`, `propext` (135)

* `Oid4vci.C04_authorization_code`
* `Oid4vci.C09_validate_iff`
* `Oid4vci.C10_resolve_id`
* `Oid4vci.C16_endpoint_with_query_fails`
* `Oid4vci.C18_at_least_two_partial`
* `Oid4vci.C18_trailing_segments_ignored`
* `Oid4vci.C19_unicode_proofType`
* `Oid4vci.C20_window_partial`
* `Oid4vci.C20_error`
* `Oid4vci.C20_accepted_at_exp`
* `Oid4vci.C20_refuted`
* `Oid4vci.C21_monotone`
* `Oid4vci.C35_iff_partial`
* `Oid4vci.C35_wrong_format`
* `Oid4vci.C36_iff_partial`
* `Oid4vci.C36_supplied_partial`
* `Oid4vci.C36_neither`
* `Oid4vci.C38_credential_partial`
* `Oid4vci.C43_never_parses`
* `Oid4vci.C44_base64url_bijection`
* `Oid4vci.C46_others_partial`
* `Oid4vci.C47_members`
* `Oid4vci.C47_exact`
* `Oid4vci.C47_overrides`
* `Oid4vci.C47_unserialisable`
* `Oid4vci.C47_refuted`
* `Oid4vci.C49_string_grant_type_rejected`
* `Oid4vci.C51_expired_iff`
* `Oid4vci.C51_permanent`
* `Oid4vci.C61_jwt`
* `Oid4vci.C63_context`
* `Oid4vci.C63_unknown_ignored`
* `Oid4vci.C66_encode`
* `Oid4vci.C69_server`
* `Oid4vci.C72_default`
* `Oid4vci.C73_document`
* `Oid4vci.C78_nonce_unchecked`
* `Oid4vci.C80_any_endpoint`
* `Oid4vci.C81_any_display`
* `Oid4vci.C81_refuted`
* `Oid4vci.C81_languages_written_partial`
* `Oid4vci.C82_namespaces_partial`
* `Oid4vci.C84_others_partial`
* `Oid4vci.C87_lifetime_missing`
* `Oid4vci.C87_nonce_partial`
* `Oid4vci.C87_iff_partial`
* `Oid4vci.C88_responses`
* `Oid4vci.C91_passed_on`
* `Oid4vci.C91_own_descriptions_partial`
* `Oid4vci.C92_wrapped`
* `Oid4vci.C92_refuted`
* `Oid4vci.C94_any_claims`
* `Oid4vci.C94_languages_written_partial`
* `Oid4vci.C95_any_method`
* `Oid4vci.C95_refuted`
* `Oid4vci.C95_methods_written_partial`
* `Oid4vci.C97_message`
* `Oid4vci.C101_validation`
* `Oid4vci.C103_token_response`
* `Oid4vci.C103_header`
* `Oid4vci.C103_key`
* `Oid4vci.C103_codes`
* `Oid4vci.C103_request`
* `Oid4vci.C103_never`
* `Oid4vci.C109_ordinary`
* `Oid4vci.C113_not_in_document`
* `Oid4vci.C113_round_trip`
* `Oid4vci.C119_evaluate`
* `Oid4vci.C121_length`
* `Oid4vci.C125_final`
* `Oid4vci.C130_method`
* `Oid4vci.C130_refused`
* `Oid4vci.C130_material`
* `Oid4vci.C135_refuted`
* `Oid4vci.C135_original`
* `Oid4vci.C136_message`
* `Oid4vci.C141_context`
* `Oid4vci.C141_subject`
* `Oid4vci.C141_credential`
* `Oid4vci.C141_offer`
* `Oid4vci.C141_token_request`
* `Oid4vci.C141_token_response`
* `Oid4vci.C141_request`
* `Oid4vci.C141_response`
* `Oid4vci.C141_header`
* `Oid4vci.C141_body`
* `Oid4vci.C141_nonce_options`
* `Oid4vci.C141_request_options`
* `Oid4vci.C141_nonce`
* `Oid4vci.C141_token_options`
* `Oid4vci.C141_server`
* `Oid4vci.C141_jwt`
* `Oid4vci.C141_pre_result`
* `Oid4vci.C141_result`
* `Oid4vci.C141_return`
* `Oid4vci.C141_supported`
* `Oid4vci.C141_metadata_partial`
* `Oid4vci.C141_metadata_read`
* `Oid4vci.C141_metadata_unreadable`
* `Oid4vci.C141_refuted`
* `Oid4vci.C141_refuted_error`
* `Oid4vci.C142_token_request`
* `Oid4vci.C142_body`
* `Oid4vci.C142_nonce_options`
* `Oid4vci.C142_request_options`
* `Oid4vci.C142_nonce`
* `Oid4vci.C142_token_options`
* `Oid4vci.C142_refuted`
* `Oid4vci.C143_document_credential`
* `Oid4vci.C143_document_offer`
* `Oid4vci.C143_document_request`
* `Oid4vci.C143_document_metadata`
* `Oid4vci.C143_document_response`
* `Oid4vci.C143_offer`
* `Oid4vci.C143_token`
* `Oid4vci.C143_pre_evaluate`
* `Oid4vci.C143_evaluate`
* `Oid4vci.C143_response`
* `Oid4vci.C143_url_partial`
* `Oid4vci.C146_credential`
* `Oid4vci.C146_offer`
* `Oid4vci.C146_token_response`
* `Oid4vci.C146_token_request`
* `Oid4vci.C146_request`
* `Oid4vci.C146_supported`
* `Oid4vci.C146_body`
* `Oid4vci.C146_settings`
* `Oid4vci.C146_response_partial`
* `Oid4vci.C146_token_settings`
* `Oid4vci.C146_nonce`
* `Oid4vci.C146_header`
* `Oid4vci.C146_jwt`
* `Oid4vci.C146_metadata_partial`
* `Oid4vci.C146_texts`
* `Oid4vci.C153_credential`

## `Classical.choice`, `Quot.sound`, `propext` (527)

* `Oid4vci.C01_accept_iff`
* `Oid4vci.C02_pin_required`
* `Oid4vci.C03_wrong_code`
* `Oid4vci.C04_create_offer`
* `Oid4vci.C05_iff_partial`
* `Oid4vci.C05_refuted`
* `Oid4vci.C05_every_nine_digit_pin_accepted`
* `Oid4vci.C05_pin_length_partial`
* `Oid4vci.C06_authorized_entry`
* `Oid4vci.C07_decision_table`
* `Oid4vci.C08_iff_partial`
* `Oid4vci.C08_refuted`
* `Oid4vci.C08_pin_oracle`
* `Oid4vci.C08_wrong_code_partial`
* `Oid4vci.C10_resolve_perm`
* `Oid4vci.C11_resolve_all`
* `Oid4vci.C12_create_offer`
* `Oid4vci.C13_iff_partial`
* `Oid4vci.C13_refuted`
* `Oid4vci.C13_ids_supported_partial`
* `Oid4vci.C14_recovered_iff_partial`
* `Oid4vci.C14_near_partial`
* `Oid4vci.C14_recovered_partial`
* `Oid4vci.C14_refuted`
* `Oid4vci.C14_number_changed`
* `Oid4vci.C15_payload`
* `Oid4vci.C16_iff_partial`
* `Oid4vci.C16_deep_link_has_no_query`
* `Oid4vci.C16_refuted`
* `Oid4vci.C16_endpoint_partial`
* `Oid4vci.C17_parses`
* `Oid4vci.C17_exact`
* `Oid4vci.C18_refuted`
* `Oid4vci.C19_typ`
* `Oid4vci.C19_request`
* `Oid4vci.C19_unicode_typ`
* `Oid4vci.C21_total`
* `Oid4vci.C22_bound`
* `Oid4vci.C22_accept_iff`
* `Oid4vci.C23_nonce_needed`
* `Oid4vci.C24_client_id`
* `Oid4vci.C24_unchecked`
* `Oid4vci.C25_key`
* `Oid4vci.C25_only_kid`
* `Oid4vci.C25_document_needed`
* `Oid4vci.C26_same_did`
* `Oid4vci.C26_pre_succeeds`
* `Oid4vci.C27_any_alg_accepted`
* `Oid4vci.C27_refuted`
* `Oid4vci.C27_reported_partial`
* `Oid4vci.C28_any_window_accepted`
* `Oid4vci.C28_refuted`
* `Oid4vci.C28_nonce_bounds_exp_partial`
* `Oid4vci.C29_evaluate_unsigned`
* `Oid4vci.C29_iff_partial`
* `Oid4vci.C29_dotted_audience_accepted`
* `Oid4vci.C29_refuted`
* `Oid4vci.C30_evaluate_iff_partial`
* `Oid4vci.C30_iff_partial`
* `Oid4vci.C30_refuted`
* `Oid4vci.C31_evaluate_never`
* `Oid4vci.C31_refuted`
* `Oid4vci.C31_never_signing_input`
* `Oid4vci.C31_unencoded_partial`
* `Oid4vci.C32_same_partial`
* `Oid4vci.C32_collide`
* `Oid4vci.C32_commits_partial`
* `Oid4vci.C32_body_not_covered`
* `Oid4vci.C32_refuted`
* `Oid4vci.C33_refuted`
* `Oid4vci.C33_other_paths_partial`
* `Oid4vci.C34_any_credential_granted`
* `Oid4vci.C34_refuted`
* `Oid4vci.C34_requested_partial`
* `Oid4vci.C35_refuted`
* `Oid4vci.C36_refuted`
* `Oid4vci.C37_lossless`
* `Oid4vci.C37_injective`
* `Oid4vci.C41_code_iff`
* `Oid4vci.C43_refuted`
* `Oid4vci.C43_injective_partial`
* `Oid4vci.C44_base64url_rfc4648`
* `Oid4vci.C45_parse_print`
* `Oid4vci.C45_depth_limit`
* `Oid4vci.C45_no_prefix_ambiguity`
* `Oid4vci.C45_print_injective`
* `Oid4vci.C46_evaluate_panics_iff`
* `Oid4vci.C46_overflow`
* `Oid4vci.C46_refuted`
* `Oid4vci.C46_evaluate_partial`
* `Oid4vci.C47_object_partial`
* `Oid4vci.C48_clash_refused`
* `Oid4vci.C48_same_iff_partial`
* `Oid4vci.C48_round_trip_partial`
* `Oid4vci.C48_none_changes`
* `Oid4vci.C48_standard_member_ignored`
* `Oid4vci.C48_refuted`
* `Oid4vci.C49_own_format_partial`
* `Oid4vci.C49_standard_rejected`
* `Oid4vci.C49_refuted`
* `Oid4vci.C50_honest_flow`
* `Oid4vci.C50_answer`
* `Oid4vci.C50_from_url`
* `Oid4vci.C51_accepted_until_expiry`
* `Oid4vci.C52_iff_partial`
* `Oid4vci.C52_history_partial`
* `Oid4vci.C53_iff_partial`
* `Oid4vci.C53_first_key_partial`
* `Oid4vci.C53_second_key_ignored`
* `Oid4vci.C53_refuted`
* `Oid4vci.C54_body`
* `Oid4vci.C54_header`
* `Oid4vci.C55_urlencode_lossless`
* `Oid4vci.C55_urlencode_injective`
* `Oid4vci.C56_round_trip`
* `Oid4vci.C56_injective`
* `Oid4vci.C56_calendar`
* `Oid4vci.C56_parses`
* `Oid4vci.C57_number_rejected`
* `Oid4vci.C57_text_partial`
* `Oid4vci.C57_refuted`
* `Oid4vci.C58_array_body_accepted`
* `Oid4vci.C58_object_alg_accepted`
* `Oid4vci.C58_refuted`
* `Oid4vci.C58_shapes_partial`
* `Oid4vci.C59_claims_exact`
* `Oid4vci.C59_order_irrelevant`
* `Oid4vci.C59_unknown_ignored`
* `Oid4vci.C60_evaluate_errors`
* `Oid4vci.C60_unambiguous`
* `Oid4vci.C60_never`
* `Oid4vci.C60_pre_evaluate_errors`
* `Oid4vci.C60_pre_evaluate_total`
* `Oid4vci.C61_issuer`
* `Oid4vci.C61_never_returned`
* `Oid4vci.C61_token`
* `Oid4vci.C61_instants`
* `Oid4vci.C62_expired`
* `Oid4vci.C62_nonce`
* `Oid4vci.C62_client`
* `Oid4vci.C62_audience`
* `Oid4vci.C62_malformed`
* `Oid4vci.C62_unknown_id`
* `Oid4vci.C62_token_values`
* `Oid4vci.C62_expired_instants`
* `Oid4vci.C63_subjectDisplay`
* `Oid4vci.C63_subject`
* `Oid4vci.C63_credential`
* `Oid4vci.C63_entry`
* `Oid4vci.C63_authorized`
* `Oid4vci.C63_preAuthorized`
* `Oid4vci.C63_grants`
* `Oid4vci.C63_offer`
* `Oid4vci.C63_grant`
* `Oid4vci.C63_tokenRequest`
* `Oid4vci.C63_proof`
* `Oid4vci.C63_request`
* `Oid4vci.C63_issued`
* `Oid4vci.C63_tokenResponse`
* `Oid4vci.C63_response`
* `Oid4vci.C63_logo`
* `Oid4vci.C63_display`
* `Oid4vci.C63_supported`
* `Oid4vci.C63_metadata`
* `Oid4vci.C63_header`
* `Oid4vci.C63_order_irrelevant`
* `Oid4vci.C64_written`
* `Oid4vci.C64_token_text`
* `Oid4vci.C64_request_text`
* `Oid4vci.C64_request_good`
* `Oid4vci.C64_response_text`
* `Oid4vci.C64_response_good`
* `Oid4vci.C64_texts_distinct`
* `Oid4vci.C65_printed_any`
* `Oid4vci.C65_grammar`
* `Oid4vci.C65_bytes`
* `Oid4vci.C65_printed`
* `Oid4vci.C65_unambiguous`
* `Oid4vci.C65_whitespace`
* `Oid4vci.C66_decode`
* `Oid4vci.C67_body`
* `Oid4vci.C67_strict_body`
* `Oid4vci.C67_jwt`
* `Oid4vci.C67_unique`
* `Oid4vci.C67_signature`
* `Oid4vci.C68_texts`
* `Oid4vci.C68_json`
* `Oid4vci.C68_text_irrelevant`
* `Oid4vci.C69_nonceSettings`
* `Oid4vci.C69_requestSettings`
* `Oid4vci.C69_tokenSettings`
* `Oid4vci.C69_nonce`
* `Oid4vci.C69_jwt`
* `Oid4vci.C69_text`
* `Oid4vci.C69_jwt_text`
* `Oid4vci.C70_no_pin`
* `Oid4vci.C70_token`
* `Oid4vci.C70_client`
* `Oid4vci.C70_no_client`
* `Oid4vci.C71_report`
* `Oid4vci.C71_object`
* `Oid4vci.C71_result`
* `Oid4vci.C71_token`
* `Oid4vci.C71_issuer`
* `Oid4vci.C71_evaluated`
* `Oid4vci.C71_evaluate`
* `Oid4vci.C71_unit`
* `Oid4vci.C71_created`
* `Oid4vci.C72_offer_ids`
* `Oid4vci.C72_offer_profiles`
* `Oid4vci.C73_evaluate`
* `Oid4vci.C73_token`
* `Oid4vci.C74_exact`
* `Oid4vci.C74_rfc3339`
* `Oid4vci.C74_lower_case`
* `Oid4vci.C74_claims`
* `Oid4vci.C74_displayed`
* `Oid4vci.C75_other_spelling_rejected`
* `Oid4vci.C76_number_partial`
* `Oid4vci.C76_string_rejected`
* `Oid4vci.C76_refuted`
* `Oid4vci.C76_iff_partial`
* `Oid4vci.C77_documented_errors_partial`
* `Oid4vci.C77_any_format_offered`
* `Oid4vci.C77_refuted`
* `Oid4vci.C78_refuted`
* `Oid4vci.C79_empty_partial`
* `Oid4vci.C79_absent_rejected`
* `Oid4vci.C79_refuted`
* `Oid4vci.C80_endpoints_read_partial`
* `Oid4vci.C82_nested_dropped`
* `Oid4vci.C83_any_algorithm`
* `Oid4vci.C83_key_and_algorithm_partial`
* `Oid4vci.C83_refuted`
* `Oid4vci.C85_key_dropped`
* `Oid4vci.C85_text_partial`
* `Oid4vci.C85_iff_partial`
* `Oid4vci.C86_fails`
* `Oid4vci.C86_exact_partial`
* `Oid4vci.C86_refuted`
* `Oid4vci.C87_refuted`
* `Oid4vci.C88_create_offer`
* `Oid4vci.C88_evaluate`
* `Oid4vci.C88_pre_evaluate`
* `Oid4vci.C88_never`
* `Oid4vci.C89_base64_rfc4648`
* `Oid4vci.C89_no_confusion`
* `Oid4vci.C90_results`
* `Oid4vci.C90_created`
* `Oid4vci.C91_dates_partial`
* `Oid4vci.C92_below_wrapper_partial`
* `Oid4vci.C93_nulls`
* `Oid4vci.C96_skipped`
* `Oid4vci.C96_refuted`
* `Oid4vci.C96_json_partial`
* `Oid4vci.C98_read`
* `Oid4vci.C98_refused`
* `Oid4vci.C98_infinite`
* `Oid4vci.C98_header`
* `Oid4vci.C99_text`
* `Oid4vci.C99_unique`
* `Oid4vci.C99_denotes`
* `Oid4vci.C99_distinct`
* `Oid4vci.C100_survives_iff_partial`
* `Oid4vci.C100_decimals_partial`
* `Oid4vci.C100_near_partial`
* `Oid4vci.C101_jwt`
* `Oid4vci.C101_token`
* `Oid4vci.C101_issuer`
* `Oid4vci.C101_details`
* `Oid4vci.C102_written`
* `Oid4vci.C102_displayed`
* `Oid4vci.C102_rfc3339_partial`
* `Oid4vci.C102_refuted`
* `Oid4vci.C102_violation`
* `Oid4vci.C103_metadata`
* `Oid4vci.C103_proof`
* `Oid4vci.C103_pin_partial`
* `Oid4vci.C103_refuted`
* `Oid4vci.C103_never_named`
* `Oid4vci.C104_one_use`
* `Oid4vci.C105_replay`
* `Oid4vci.C105_refuted`
* `Oid4vci.C105_fresh_nonces_partial`
* `Oid4vci.C106_wrong_pin`
* `Oid4vci.C107_unique`
* `Oid4vci.C107_redeemable`
* `Oid4vci.C108_read`
* `Oid4vci.C108_panics_iff`
* `Oid4vci.C108_violation`
* `Oid4vci.C108_no_panic_partial`
* `Oid4vci.C108_model`
* `Oid4vci.C109_read_back`
* `Oid4vci.C109_exact_partial`
* `Oid4vci.C109_stable`
* `Oid4vci.C109_second_60`
* `Oid4vci.C110_expiry`
* `Oid4vci.C110_sum`
* `Oid4vci.C110_nonce`
* `Oid4vci.C110_compare`
* `Oid4vci.C110_period`
* `Oid4vci.C110_ordinary`
* `Oid4vci.C111_subject`
* `Oid4vci.C111_announced`
* `Oid4vci.C112_did_url_partial`
* `Oid4vci.C112_iff_partial`
* `Oid4vci.C112_violation`
* `Oid4vci.C112_refuted`
* `Oid4vci.C113_report`
* `Oid4vci.C114_url_read`
* `Oid4vci.C114_standard_read`
* `Oid4vci.C114_url_reported`
* `Oid4vci.C114_standard_reported`
* `Oid4vci.C114_url_exclusive`
* `Oid4vci.C114_standard_exclusive`
* `Oid4vci.C114_jwt`
* `Oid4vci.C114_message`
* `Oid4vci.C114_jwt_text`
* `Oid4vci.C115_url_determines`
* `Oid4vci.C115_grant`
* `Oid4vci.C116_code`
* `Oid4vci.C116_pin`
* `Oid4vci.C117_offer`
* `Oid4vci.C117_token`
* `Oid4vci.C117_credential`
* `Oid4vci.C118_offer`
* `Oid4vci.C118_request`
* `Oid4vci.C118_response`
* `Oid4vci.C118_metadata`
* `Oid4vci.C118_jwt`
* `Oid4vci.C119_resolve`
* `Oid4vci.C119_kept`
* `Oid4vci.C119_offer`
* `Oid4vci.C120_careful`
* `Oid4vci.C120_needed`
* `Oid4vci.C121_normal`
* `Oid4vci.C121_offer`
* `Oid4vci.C122_header_missing`
* `Oid4vci.C122_header_duplicate`
* `Oid4vci.C122_header_typ`
* `Oid4vci.C122_header_alg`
* `Oid4vci.C122_header_alg_kind`
* `Oid4vci.C122_header`
* `Oid4vci.C122_body`
* `Oid4vci.C122_jwt`
* `Oid4vci.C122_missing`
* `Oid4vci.C122_duplicate`
* `Oid4vci.C122_mistyped`
* `Oid4vci.C122_time`
* `Oid4vci.C123_texts`
* `Oid4vci.C123_grammatical`
* `Oid4vci.C123_further`
* `Oid4vci.C123_kept`
* `Oid4vci.C124_exact`
* `Oid4vci.C124_none`
* `Oid4vci.C124_unique`
* `Oid4vci.C124_messages`
* `Oid4vci.C124_unread`
* `Oid4vci.C124_body`
* `Oid4vci.C124_date_only`
* `Oid4vci.C124_trailing`
* `Oid4vci.C124_range`
* `Oid4vci.C124_number`
* `Oid4vci.C124_no_offset`
* `Oid4vci.C125_passes`
* `Oid4vci.C125_rightful`
* `Oid4vci.C125_once`
* `Oid4vci.C125_agreement`
* `Oid4vci.C125_no_relay`
* `Oid4vci.C125_injective`
* `Oid4vci.C125_progress`
* `Oid4vci.C125_order`
* `Oid4vci.C126_key`
* `Oid4vci.C126_not_found`
* `Oid4vci.C126_calm`
* `Oid4vci.C126_purpose`
* `Oid4vci.C126_subject`
* `Oid4vci.C127_not_looked_at`
* `Oid4vci.C127_resolved_partial`
* `Oid4vci.C127_refuted`
* `Oid4vci.C128_document`
* `Oid4vci.C128_key`
* `Oid4vci.C128_unreadable`
* `Oid4vci.C128_members`
* `Oid4vci.C128_okp`
* `Oid4vci.C129_curve_ignored`
* `Oid4vci.C129_refuted`
* `Oid4vci.C129_type_partial`
* `Oid4vci.C130_reported`
* `Oid4vci.C130_key`
* `Oid4vci.C130_inline`
* `Oid4vci.C131_accepted`
* `Oid4vci.C131_independent`
* `Oid4vci.C132_quoted`
* `Oid4vci.C132_determined`
* `Oid4vci.C132_visible`
* `Oid4vci.C132_header`
* `Oid4vci.C132_body`
* `Oid4vci.C132_short`
* `Oid4vci.C132_element`
* `Oid4vci.C132_element_time`
* `Oid4vci.C132_long`
* `Oid4vci.C132_times`
* `Oid4vci.C133_told`
* `Oid4vci.C133_used`
* `Oid4vci.C133_iff_partial`
* `Oid4vci.C133_summary_partial`
* `Oid4vci.C133_refuted`
* `Oid4vci.C134_header`
* `Oid4vci.C134_body`
* `Oid4vci.C134_place`
* `Oid4vci.C134_jwt`
* `Oid4vci.C135_partial`
* `Oid4vci.C136_document`
* `Oid4vci.C136_result`
* `Oid4vci.C136_octets`
* `Oid4vci.C136_url`
* `Oid4vci.C136_stream`
* `Oid4vci.C136_log`
* `Oid4vci.C136_jwt`
* `Oid4vci.C137_header`
* `Oid4vci.C137_body`
* `Oid4vci.C137_jwt`
* `Oid4vci.C137_reply`
* `Oid4vci.C137_token`
* `Oid4vci.C138_null`
* `Oid4vci.C138_refuted`
* `Oid4vci.C138_present_partial`
* `Oid4vci.C138_omitting`
* `Oid4vci.C138_forms`
* `Oid4vci.C139_same`
* `Oid4vci.C139_appended`
* `Oid4vci.C139_claim`
* `Oid4vci.C139_pre`
* `Oid4vci.C139_refuted`
* `Oid4vci.C139_content_partial`
* `Oid4vci.C140_header_runs_on`
* `Oid4vci.C140_body_runs_on`
* `Oid4vci.C140_header_whole`
* `Oid4vci.C140_body_whole`
* `Oid4vci.C140_header_cut`
* `Oid4vci.C140_body_cut`
* `Oid4vci.C141_information`
* `Oid4vci.C141_error_partial`
* `Oid4vci.C141_error_information`
* `Oid4vci.C142_credential`
* `Oid4vci.C142_offer`
* `Oid4vci.C142_token_response`
* `Oid4vci.C142_request`
* `Oid4vci.C142_response`
* `Oid4vci.C142_metadata`
* `Oid4vci.C142_header_partial`
* `Oid4vci.C144_credential`
* `Oid4vci.C144_authorized`
* `Oid4vci.C144_preauthorized`
* `Oid4vci.C144_grants`
* `Oid4vci.C144_offer`
* `Oid4vci.C144_token_response`
* `Oid4vci.C144_grant_type`
* `Oid4vci.C144_token_request`
* `Oid4vci.C144_request`
* `Oid4vci.C144_response`
* `Oid4vci.C144_logo`
* `Oid4vci.C144_display`
* `Oid4vci.C144_supported`
* `Oid4vci.C144_body`
* `Oid4vci.C144_nonce_options`
* `Oid4vci.C144_request_options`
* `Oid4vci.C144_nonce`
* `Oid4vci.C144_token_options`
* `Oid4vci.C144_jwt`
* `Oid4vci.C144_proof_partial`
* `Oid4vci.C144_header_partial`
* `Oid4vci.C144_metadata_partial`
* `Oid4vci.C145_dense`
* `Oid4vci.C145_seen`
* `Oid4vci.C145_parse`
* `Oid4vci.C145_read`
* `Oid4vci.C145_request`
* `Oid4vci.C145_offer`
* `Oid4vci.C145_proof`
* `Oid4vci.C147_seen`
* `Oid4vci.C147_parse`
* `Oid4vci.C147_read`
* `Oid4vci.C147_rewritten`
* `Oid4vci.C147_proof`
* `Oid4vci.C147_accepted`
* `Oid4vci.C148_evaluate`
* `Oid4vci.C148_pre`
* `Oid4vci.C148_times`
* `Oid4vci.C148_library`
* `Oid4vci.C149_header`
* `Oid4vci.C149_body`
* `Oid4vci.C149_body_list`
* `Oid4vci.C150_header`
* `Oid4vci.C150_body`
* `Oid4vci.C150_header_string`
* `Oid4vci.C150_body_string`
* `Oid4vci.C151_whole`
* `Oid4vci.C152_kept`
* `Oid4vci.C152_longer`
* `Oid4vci.C152_shorter`
* `Oid4vci.C152_pre`
* `Oid4vci.C153_evaluate`
* `Oid4vci.C153_verify`
* `Oid4vci.C154_colon_body`
* `Oid4vci.C154_colon_header`
* `Oid4vci.C154_name_body`
* `Oid4vci.C154_name_header`
* `Oid4vci.C154_key_body`
* `Oid4vci.C154_key_header`
* `Oid4vci.C154_comma_body`
* `Oid4vci.C154_comma_header`
* `Oid4vci.C154_number_body`
* `Oid4vci.C154_value_body`
* `Oid4vci.C154_value_claim`
* `Oid4vci.C154_number_claim`
* `Oid4vci.C154_value_typ`
* `Oid4vci.C154_number_typ`
* `Oid4vci.C154_text_alg`
* `Oid4vci.C154_value_alg`
* `Oid4vci.C154_value_header`
* `Oid4vci.C154_number_header`
* `Oid4vci.C154_skipped_header`
* `Oid4vci.C154_text_body`
* `Oid4vci.C154_text_header`
* `Oid4vci.C154_skipped_body`
