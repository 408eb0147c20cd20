{
 "claims": [
  {
   "property": "C01",
   "status": "proved",
   "theorems": [
    "Oid4vci.C01_accept_iff"
   ],
   "note": ""
  },
  {
   "property": "C02",
   "status": "proved",
   "theorems": [
    "Oid4vci.C02_pin_required"
   ],
   "note": ""
  },
  {
   "property": "C03",
   "status": "proved",
   "theorems": [
    "Oid4vci.C03_wrong_code"
   ],
   "note": ""
  },
  {
   "property": "C04",
   "status": "proved",
   "theorems": [
    "Oid4vci.C04_create_offer",
    "Oid4vci.C04_authorization_code"
   ],
   "note": ""
  },
  {
   "property": "C05",
   "status": "partial",
   "theorems": [
    "Oid4vci.C05_iff_partial",
    "Oid4vci.C05_refuted",
    "Oid4vci.C05_every_nine_digit_pin_accepted",
    "Oid4vci.C05_pin_length_partial"
   ],
   "note": "Violated: checked_ilog10 > 8 accepts every 9-digit PIN (C05_refuted, C05_every_nine_digit_pin_accepted). Proved: PINs of at most 8 digits pass, PINs of at least 10 digits are rejected. C05_iff_partial: exactly at most nine digits."
  },
  {
   "property": "C06",
   "status": "proved",
   "theorems": [
    "Oid4vci.C06_authorized_entry"
   ],
   "note": ""
  },
  {
   "property": "C07",
   "status": "proved",
   "theorems": [
    "Oid4vci.C07_decision_table"
   ],
   "note": ""
  },
  {
   "property": "C08",
   "status": "partial",
   "theorems": [
    "Oid4vci.C08_iff_partial",
    "Oid4vci.C08_refuted",
    "Oid4vci.C08_pin_oracle",
    "Oid4vci.C08_wrong_code_partial"
   ],
   "note": "Violated: the PIN is compared before the code (C08_refuted, C08_pin_oracle). Proved partially: see the docstring of C08_wrong_code_partial. C08_iff_partial states exactly when two PINs give the same result."
  },
  {
   "property": "C09",
   "status": "proved",
   "theorems": [
    "Oid4vci.C09_validate_iff"
   ],
   "note": ""
  },
  {
   "property": "C10",
   "status": "proved",
   "theorems": [
    "Oid4vci.C10_resolve_id",
    "Oid4vci.C10_resolve_perm",
    "Oid4vci.C10_resolve_inline"
   ],
   "note": ""
  },
  {
   "property": "C11",
   "status": "proved",
   "theorems": [
    "Oid4vci.C11_resolve_all"
   ],
   "note": ""
  },
  {
   "property": "C12",
   "status": "proved",
   "theorems": [
    "Oid4vci.C12_create_offer"
   ],
   "note": ""
  },
  {
   "property": "C13",
   "status": "partial",
   "theorems": [
    "Oid4vci.C13_iff_partial",
    "Oid4vci.C13_refuted",
    "Oid4vci.C13_ids_supported_partial"
   ],
   "note": "Violated: inline credentials are not compared with the metadata. Proved for ids. C13_iff_partial: exactly when every inline credential passed is supported."
  },
  {
   "property": "C14",
   "status": "partial",
   "theorems": [
    "Oid4vci.C14_recovered_iff_partial",
    "Oid4vci.C14_near_partial",
    "Oid4vci.C14_recovered_partial",
    "Oid4vci.C14_refuted",
    "Oid4vci.C14_number_changed"
   ],
   "note": "Violated: serde_json's recursion limit makes offers with inline credentials nested deeper than 127 levels unreadable (C14_refuted), and some double-precision numbers in contexts change (C14_number_changed). C14_recovered_iff_partial states exactly which offers are recovered, C14_near_partial how the others differ."
  },
  {
   "property": "C15",
   "status": "proved",
   "theorems": [
    "Oid4vci.C15_payload"
   ],
   "note": ""
  },
  {
   "property": "C16",
   "status": "partial",
   "theorems": [
    "Oid4vci.C16_iff_partial",
    "Oid4vci.C16_deep_link_has_no_query",
    "Oid4vci.C16_refuted",
    "Oid4vci.C16_endpoint_with_query_fails",
    "Oid4vci.C16_endpoint_partial"
   ],
   "note": "Violated: the deep link has no '?' before credential_offer (for every created deep link), and an endpoint that already has a query is broken. Proved for endpoints without query and fragment. C16_iff_partial: unless the endpoint has such a parameter of its own, the offer is found exactly for endpoints without query and fragment."
  },
  {
   "property": "C17",
   "status": "proved",
   "theorems": [
    "Oid4vci.C17_parses",
    "Oid4vci.C17_exact"
   ],
   "note": ""
  },
  {
   "property": "C18",
   "status": "partial",
   "theorems": [
    "Oid4vci.C18_iff_partial",
    "Oid4vci.C18_at_least_two_partial",
    "Oid4vci.C18_one_segment_partial",
    "Oid4vci.C18_trailing_segments_ignored",
    "Oid4vci.C18_refuted"
   ],
   "note": "Violated: segments after the third are ignored (C18_refuted, C18_trailing_segments_ignored). Proved: fewer than two segments are rejected. C18_iff_partial: a string is read like its first three segments."
  },
  {
   "property": "C19",
   "status": "proved",
   "theorems": [
    "Oid4vci.C19_typ",
    "Oid4vci.C19_request",
    "Oid4vci.C19_unicode_typ",
    "Oid4vci.C19_unicode_proofType"
   ],
   "note": "C19_unicode_typ and C19_unicode_proofType: the same for the full Unicode case mappings; the model's own mappings cover ASCII only."
  },
  {
   "property": "C20",
   "status": "partial",
   "theorems": [
    "Oid4vci.C20_window_partial",
    "Oid4vci.C20_error",
    "Oid4vci.C20_accepted_at_exp",
    "Oid4vci.C20_refuted"
   ],
   "note": "Violated: now = exp is accepted (C20_refuted, C20_accepted_at_exp). Proved: exactly nbf <= now <= exp is accepted, with the documented errors otherwise."
  },
  {
   "property": "C21",
   "status": "proved",
   "theorems": [
    "Oid4vci.C21_monotone",
    "Oid4vci.C21_total"
   ],
   "note": ""
  },
  {
   "property": "C22",
   "status": "proved",
   "theorems": [
    "Oid4vci.C22_bound",
    "Oid4vci.C22_accept_iff"
   ],
   "note": ""
  },
  {
   "property": "C23",
   "status": "proved",
   "theorems": [
    "Oid4vci.C23_nonce_needed"
   ],
   "note": ""
  },
  {
   "property": "C24",
   "status": "proved",
   "theorems": [
    "Oid4vci.C24_client_id",
    "Oid4vci.C24_unchecked"
   ],
   "note": ""
  },
  {
   "property": "C25",
   "status": "proved",
   "theorems": [
    "Oid4vci.C25_key",
    "Oid4vci.C25_only_kid",
    "Oid4vci.C25_document_needed"
   ],
   "note": ""
  },
  {
   "property": "C26",
   "status": "proved",
   "theorems": [
    "Oid4vci.C26_same_did",
    "Oid4vci.C26_pre_succeeds"
   ],
   "note": ""
  },
  {
   "property": "C27",
   "status": "partial",
   "theorems": [
    "Oid4vci.C27_any_alg_accepted",
    "Oid4vci.C27_refuted",
    "Oid4vci.C27_reported_partial"
   ],
   "note": "Violated: no algorithm is rejected during evaluation (C27_refuted, C27_any_alg_accepted). Proved: the algorithm is reported to the caller."
  },
  {
   "property": "C28",
   "status": "partial",
   "theorems": [
    "Oid4vci.C28_any_window_accepted",
    "Oid4vci.C28_refuted",
    "Oid4vci.C28_nonce_bounds_exp_partial"
   ],
   "note": "Violated: evaluation never looks at exp and nbf (C28_refuted, C28_any_window_accepted). Proved: a proof outliving the nonce is not accepted after exp."
  },
  {
   "property": "C29",
   "status": "partial",
   "theorems": [
    "Oid4vci.C29_evaluate_unsigned",
    "Oid4vci.C29_iff_partial",
    "Oid4vci.C29_dotted_audience_accepted",
    "Oid4vci.C29_refuted"
   ],
   "note": "Violated: the signature is cut from the decoded JSON text, so an unsigned proof passes when header or body contains a dot, as issuer URLs do (C29_refuted, C29_dotted_audience_accepted). C29_iff_partial states exactly when it is rejected."
  },
  {
   "property": "C30",
   "status": "partial",
   "theorems": [
    "Oid4vci.C30_evaluate_iff_partial",
    "Oid4vci.C30_iff_partial",
    "Oid4vci.C30_refuted"
   ],
   "note": "Violated: for a body with a dot the returned bytes are not the signature (C30_refuted). C30_iff_partial states exactly when they are; and they are the base64url text, not the decoded bytes."
  },
  {
   "property": "C31",
   "status": "partial",
   "theorems": [
    "Oid4vci.C31_evaluate_never",
    "Oid4vci.C31_refuted",
    "Oid4vci.C31_never_signing_input",
    "Oid4vci.C31_unencoded_partial"
   ],
   "note": "Violated universally: the signable message is never the JWS signing input (C31_never_signing_input). Proved partially: it is the unencoded header and body when those have no dots."
  },
  {
   "property": "C32",
   "status": "partial",
   "theorems": [
    "Oid4vci.C32_same_partial",
    "Oid4vci.C32_collide",
    "Oid4vci.C32_commits_partial",
    "Oid4vci.C32_body_not_covered",
    "Oid4vci.C32_refuted"
   ],
   "note": "Violated: an unsigned JWT with exactly one dot in its texts has part of its body left out of the message (C32_refuted, C32_body_not_covered, C32_collide). Proved for all other JWTs (C32_commits_partial); the header is always covered, and the pairs that collide are exactly characterised (C32_same_partial, C32_collide)."
  },
  {
   "property": "C33",
   "status": "partial",
   "theorems": [
    "Oid4vci.C33_evaluate_ignores_type",
    "Oid4vci.C33_refuted",
    "Oid4vci.C33_other_paths_partial"
   ],
   "note": "Violated: evaluate_credential_request never checks proof_type (C33_refuted, C33_evaluate_ignores_type). Proved for pre-evaluation and the success response."
  },
  {
   "property": "C34",
   "status": "partial",
   "theorems": [
    "Oid4vci.C34_any_credential_granted",
    "Oid4vci.C34_refuted",
    "Oid4vci.C34_requested_partial"
   ],
   "note": "Violated: the requested credential is compared with neither offer nor metadata (C34_refuted, C34_any_credential_granted). Proved: the requested credential is the one returned."
  },
  {
   "property": "C35",
   "status": "partial",
   "theorems": [
    "Oid4vci.C35_iff_partial",
    "Oid4vci.C35_wrong_format",
    "Oid4vci.C35_refuted"
   ],
   "note": "Violated: the format name is copied from the request whatever credential is passed (C35_refuted, C35_wrong_format). C35_iff_partial states exactly when it is right."
  },
  {
   "property": "C36",
   "status": "partial",
   "theorems": [
    "Oid4vci.C36_iff_partial",
    "Oid4vci.C36_supplied_partial",
    "Oid4vci.C36_neither",
    "Oid4vci.C36_refuted"
   ],
   "note": "Violated: neither credential nor acceptance token is accepted (C36_refuted, C36_neither). Proved when the caller supplies one. C36_iff_partial: exactly when the caller supplies one."
  },
  {
   "property": "C37",
   "status": "proved",
   "theorems": [
    "Oid4vci.C37_lossless",
    "Oid4vci.C37_injective"
   ],
   "note": ""
  },
  {
   "property": "C38",
   "status": "partial",
   "theorems": [
    "Oid4vci.C38_iff_partial",
    "Oid4vci.C38_credential_partial",
    "Oid4vci.C38_validate_iff",
    "Oid4vci.C38_unvalidated",
    "Oid4vci.C38_refuted",
    "Oid4vci.C38_carries"
   ],
   "note": "Violated: the token response is never validated (C38_refuted, C38_unvalidated). Proved for credential responses; C38_validate_iff characterises the unused validator. C38_iff_partial: exactly when the caller asks for it."
  },
  {
   "property": "C39",
   "status": "proved",
   "theorems": [
    "Oid4vci.C39_access_token",
    "Oid4vci.C39_credential",
    "Oid4vci.C39_token_type"
   ],
   "note": ""
  },
  {
   "property": "C40",
   "status": "partial",
   "theorems": [
    "Oid4vci.C40_never_documented",
    "Oid4vci.C40_refuted",
    "Oid4vci.C40_distinct_partial",
    "Oid4vci.C40_spelling_partial"
   ],
   "note": "Violated universally: the codes are serialised as Rust variant names (C40_refuted, C40_never_documented). Proved: distinct codes have distinct strings, and each is the documented code in camel case (C40_spelling_partial)."
  },
  {
   "property": "C41",
   "status": "proved",
   "theorems": [
    "Oid4vci.C41_code_iff",
    "Oid4vci.C41_name"
   ],
   "note": ""
  },
  {
   "property": "C42",
   "status": "proved",
   "theorems": [
    "Oid4vci.C42_exactly_one",
    "Oid4vci.C42_document",
    "Oid4vci.C42_warnings"
   ],
   "note": ""
  },
  {
   "property": "C43",
   "status": "partial",
   "theorems": [
    "Oid4vci.C43_never_parses",
    "Oid4vci.C43_refuted",
    "Oid4vci.C43_injective_partial"
   ],
   "note": "Violated universally: the string form never parses back (C43_never_parses). Proved: it determines the JWT (C43_injective_partial)."
  },
  {
   "property": "C44",
   "status": "proved",
   "theorems": [
    "Oid4vci.C44_base64url_rfc4648",
    "Oid4vci.C44_base64url_bijection"
   ],
   "note": ""
  },
  {
   "property": "C45",
   "status": "proved",
   "theorems": [
    "Oid4vci.C45_parse_print",
    "Oid4vci.C45_depth_limit",
    "Oid4vci.C45_no_prefix_ambiguity",
    "Oid4vci.C45_print_injective"
   ],
   "note": ""
  },
  {
   "property": "C46",
   "status": "partial",
   "theorems": [
    "Oid4vci.C46_evaluate_panics_iff",
    "Oid4vci.C46_overflow",
    "Oid4vci.C46_refuted",
    "Oid4vci.C46_evaluate_partial",
    "Oid4vci.C46_others_partial"
   ],
   "note": "Violated: nonce lifetimes past the end of chrono's range, and DID URLs selecting a whole document, panic (C46_refuted, C46_overflow). C46_evaluate_panics_iff states exactly when; proved for all other entry points."
  },
  {
   "property": "C47",
   "status": "partial",
   "theorems": [
    "Oid4vci.C47_members",
    "Oid4vci.C47_exact",
    "Oid4vci.C47_overrides",
    "Oid4vci.C47_unserialisable",
    "Oid4vci.C47_refuted",
    "Oid4vci.C47_object_partial"
   ],
   "note": "Violated: details may be non-objects or contain error (C47_refuted, C47_overrides, C47_unserialisable). Proved for absent details and objects without an error member; C47_exact is the complete description."
  },
  {
   "property": "C48",
   "status": "partial",
   "theorems": [
    "Oid4vci.C48_clash_refused",
    "Oid4vci.C48_same_iff_partial",
    "Oid4vci.C48_round_trip_partial",
    "Oid4vci.C48_none_changes",
    "Oid4vci.C48_standard_member_ignored",
    "Oid4vci.C48_refuted",
    "Oid4vci.C48_binding_methods_lost"
   ],
   "note": "Violated: see C48_none_changes, C48_clash_refused, C48_standard_member_ignored, C48_binding_methods_lost. Proved: exactly which metadata is read back unchanged (C48_same_iff_partial), and how the rest differs."
  },
  {
   "property": "C49",
   "status": "partial",
   "theorems": [
    "Oid4vci.C49_own_format_partial",
    "Oid4vci.C49_string_grant_type_rejected",
    "Oid4vci.C49_standard_rejected",
    "Oid4vci.C49_refuted"
   ],
   "note": "Violated: grant_type as a plain string is rejected (C49_standard_rejected). Proved: own format round-trips."
  },
  {
   "property": "C50",
   "status": "proved",
   "theorems": [
    "Oid4vci.C50_honest_flow",
    "Oid4vci.C50_answer",
    "Oid4vci.C50_from_url"
   ],
   "note": ""
  },
  {
   "property": "C51",
   "status": "proved",
   "theorems": [
    "Oid4vci.C51_expired_iff",
    "Oid4vci.C51_permanent",
    "Oid4vci.C51_time_independent",
    "Oid4vci.C51_accepted_until_expiry"
   ],
   "note": ""
  },
  {
   "property": "C52",
   "status": "partial",
   "theorems": [
    "Oid4vci.C52_iff_partial",
    "Oid4vci.C52_replay",
    "Oid4vci.C52_refuted",
    "Oid4vci.C52_history_partial"
   ],
   "note": "Violated: no state is kept, so a code is accepted again (C52_replay). Proved: each acceptance in a history needs the offer's code. C52_iff_partial: the accepted entries are exactly those of C01, however often they occur."
  },
  {
   "property": "C53",
   "status": "partial",
   "theorems": [
    "Oid4vci.C53_iff_partial",
    "Oid4vci.C53_first_key_partial",
    "Oid4vci.C53_second_key_ignored",
    "Oid4vci.C53_refuted"
   ],
   "note": "Violated: a second key member is ignored (C53_refuted, C53_second_key_ignored). Proved: the first key member in document order is the one used."
  },
  {
   "property": "C54",
   "status": "proved",
   "theorems": [
    "Oid4vci.C54_body",
    "Oid4vci.C54_header"
   ],
   "note": ""
  },
  {
   "property": "C55",
   "status": "proved",
   "theorems": [
    "Oid4vci.C55_urlencode_lossless",
    "Oid4vci.C55_urlencode_injective"
   ],
   "note": ""
  },
  {
   "property": "C56",
   "status": "proved",
   "theorems": [
    "Oid4vci.C56_round_trip",
    "Oid4vci.C56_injective",
    "Oid4vci.C56_calendar",
    "Oid4vci.C56_parses"
   ],
   "note": ""
  },
  {
   "property": "C57",
   "status": "partial",
   "theorems": [
    "Oid4vci.C57_number_rejected",
    "Oid4vci.C57_written_as_text",
    "Oid4vci.C57_text_partial",
    "Oid4vci.C57_refuted"
   ],
   "note": "Violated for every JWT: a number as iat, nbf or exp is rejected (C57_refuted, C57_number_rejected), and the library writes none (C57_written_as_text). Proved: date-time strings are accepted (C57_text_partial)."
  },
  {
   "property": "C58",
   "status": "partial",
   "theorems": [
    "Oid4vci.C58_array_body_accepted",
    "Oid4vci.C58_object_alg_accepted",
    "Oid4vci.C58_refuted",
    "Oid4vci.C58_shapes_partial"
   ],
   "note": "Violated by every body and every header: the claims as a bare array and the object {alg: null} are accepted too (C58_refuted, C58_array_body_accepted, C58_object_alg_accepted). C58_shapes_partial lists the accepted shapes."
  },
  {
   "property": "C59",
   "status": "proved",
   "theorems": [
    "Oid4vci.C59_claims_exact",
    "Oid4vci.C59_order_irrelevant",
    "Oid4vci.C59_unknown_ignored"
   ],
   "note": ""
  },
  {
   "property": "C60",
   "status": "proved",
   "theorems": [
    "Oid4vci.C60_evaluate_errors",
    "Oid4vci.C60_unambiguous",
    "Oid4vci.C60_never",
    "Oid4vci.C60_pre_evaluate_errors",
    "Oid4vci.C60_pre_evaluate_total"
   ],
   "note": ""
  },
  {
   "property": "C61",
   "status": "proved",
   "theorems": [
    "Oid4vci.C61_validation",
    "Oid4vci.C61_jwt",
    "Oid4vci.C61_issuer",
    "Oid4vci.C61_never_returned",
    "Oid4vci.C61_token",
    "Oid4vci.C61_nested_collision",
    "Oid4vci.C61_instants"
   ],
   "note": ""
  },
  {
   "property": "C62",
   "status": "proved",
   "theorems": [
    "Oid4vci.C62_expired",
    "Oid4vci.C62_nonce",
    "Oid4vci.C62_client",
    "Oid4vci.C62_audience",
    "Oid4vci.C62_malformed",
    "Oid4vci.C62_unknown_id",
    "Oid4vci.C62_token_values",
    "Oid4vci.C62_serialised",
    "Oid4vci.C62_expired_instants"
   ],
   "note": ""
  },
  {
   "property": "C63",
   "status": "proved",
   "theorems": [
    "Oid4vci.C63_subjectDisplay",
    "Oid4vci.C63_subject",
    "Oid4vci.C63_context",
    "Oid4vci.C63_credential",
    "Oid4vci.C63_entry",
    "Oid4vci.C63_authorized",
    "Oid4vci.C63_preAuthorized",
    "Oid4vci.C63_grants",
    "Oid4vci.C63_offer",
    "Oid4vci.C63_grant",
    "Oid4vci.C63_tokenRequest",
    "Oid4vci.C63_proof",
    "Oid4vci.C63_request",
    "Oid4vci.C63_issued",
    "Oid4vci.C63_tokenResponse",
    "Oid4vci.C63_response",
    "Oid4vci.C63_logo",
    "Oid4vci.C63_display",
    "Oid4vci.C63_supported",
    "Oid4vci.C63_metadata",
    "Oid4vci.C63_header",
    "Oid4vci.C63_order_irrelevant",
    "Oid4vci.C63_unknown_ignored"
   ],
   "note": ""
  },
  {
   "property": "C64",
   "status": "proved",
   "theorems": [
    "Oid4vci.C64_written",
    "Oid4vci.C64_token_text",
    "Oid4vci.C64_request_text",
    "Oid4vci.C64_request_good",
    "Oid4vci.C64_response_text",
    "Oid4vci.C64_response_good",
    "Oid4vci.C64_texts_distinct"
   ],
   "note": ""
  },
  {
   "property": "C65",
   "status": "proved",
   "theorems": [
    "Oid4vci.C65_printed_any",
    "Oid4vci.C65_grammar",
    "Oid4vci.C65_bytes",
    "Oid4vci.C65_printed",
    "Oid4vci.C65_unambiguous",
    "Oid4vci.C65_whitespace"
   ],
   "note": ""
  },
  {
   "property": "C66",
   "status": "proved",
   "theorems": [
    "Oid4vci.C66_encode",
    "Oid4vci.C66_decode"
   ],
   "note": ""
  },
  {
   "property": "C67",
   "status": "proved",
   "theorems": [
    "Oid4vci.C67_body",
    "Oid4vci.C67_strict_body",
    "Oid4vci.C67_jwt",
    "Oid4vci.C67_unique",
    "Oid4vci.C67_signature"
   ],
   "note": ""
  },
  {
   "property": "C68",
   "status": "proved",
   "theorems": [
    "Oid4vci.C68_texts",
    "Oid4vci.C68_json",
    "Oid4vci.C68_text_irrelevant"
   ],
   "note": ""
  },
  {
   "property": "C69",
   "status": "proved",
   "theorems": [
    "Oid4vci.C69_nonceSettings",
    "Oid4vci.C69_requestSettings",
    "Oid4vci.C69_tokenSettings",
    "Oid4vci.C69_nonce",
    "Oid4vci.C69_server",
    "Oid4vci.C69_jwt",
    "Oid4vci.C69_text",
    "Oid4vci.C69_jwt_text"
   ],
   "note": ""
  },
  {
   "property": "C70",
   "status": "proved",
   "theorems": [
    "Oid4vci.C70_no_pin",
    "Oid4vci.C70_token",
    "Oid4vci.C70_client",
    "Oid4vci.C70_no_client"
   ],
   "note": ""
  },
  {
   "property": "C71",
   "status": "proved",
   "theorems": [
    "Oid4vci.C71_report",
    "Oid4vci.C71_object",
    "Oid4vci.C71_result",
    "Oid4vci.C71_token",
    "Oid4vci.C71_issuer",
    "Oid4vci.C71_evaluated",
    "Oid4vci.C71_evaluate",
    "Oid4vci.C71_unit",
    "Oid4vci.C71_created"
   ],
   "note": ""
  },
  {
   "property": "C72",
   "status": "proved",
   "theorems": [
    "Oid4vci.C72_lists",
    "Oid4vci.C72_offer_ids",
    "Oid4vci.C72_offer_profiles",
    "Oid4vci.C72_default"
   ],
   "note": ""
  },
  {
   "property": "C73",
   "status": "proved",
   "theorems": [
    "Oid4vci.C73_evaluate",
    "Oid4vci.C73_time",
    "Oid4vci.C73_document",
    "Oid4vci.C73_pre_evaluate",
    "Oid4vci.C73_token"
   ],
   "note": ""
  },
  {
   "property": "C74",
   "status": "proved",
   "theorems": [
    "Oid4vci.C74_exact",
    "Oid4vci.C74_rfc3339",
    "Oid4vci.C74_lower_case",
    "Oid4vci.C74_claims",
    "Oid4vci.C74_displayed"
   ],
   "note": ""
  },
  {
   "property": "C75",
   "status": "partial",
   "theorems": [
    "Oid4vci.C75_exact_partial",
    "Oid4vci.C75_other_spelling_rejected",
    "Oid4vci.C75_refuted"
   ],
   "note": "Violated by every spelling but Bearer (C75_refuted, C75_other_spelling_rejected). Proved: Bearer is read, exactly."
  },
  {
   "property": "C76",
   "status": "partial",
   "theorems": [
    "Oid4vci.C76_number_partial",
    "Oid4vci.C76_string_rejected",
    "Oid4vci.C76_refuted",
    "Oid4vci.C76_iff_partial"
   ],
   "note": "Violated by every PIN: user_pin is a number, a string is rejected, and leading zeros cannot be expressed (C76_refuted, C76_string_rejected). Proved: numbers are read as their value."
  },
  {
   "property": "C77",
   "status": "partial",
   "theorems": [
    "Oid4vci.C77_documented_errors_partial",
    "Oid4vci.C77_any_format_offered",
    "Oid4vci.C77_refuted"
   ],
   "note": "Violated: inline credentials of any format are offered (C77_refuted, C77_any_format_offered). Proved: the two other documented errors occur."
  },
  {
   "property": "C78",
   "status": "partial",
   "theorems": [
    "Oid4vci.C78_invalid_request_partial",
    "Oid4vci.C78_nonce_unchecked",
    "Oid4vci.C78_refuted"
   ],
   "note": "Violated: the nonce is not looked at (C78_refuted, C78_nonce_unchecked). Proved: invalid requests are refused."
  },
  {
   "property": "C79",
   "status": "partial",
   "theorems": [
    "Oid4vci.C79_empty_partial",
    "Oid4vci.C79_absent_rejected",
    "Oid4vci.C79_refuted"
   ],
   "note": "Violated: an offer without grants is rejected (C79_refuted, C79_absent_rejected). Proved: empty grants are read as no flow."
  },
  {
   "property": "C80",
   "status": "partial",
   "theorems": [
    "Oid4vci.C80_any_endpoint",
    "Oid4vci.C80_refuted",
    "Oid4vci.C80_endpoints_read_partial"
   ],
   "note": "Violated: validation does not look at the endpoints (C80_refuted, C80_any_endpoint). Proved: the endpoint is required as a string and read unchanged."
  },
  {
   "property": "C81",
   "status": "partial",
   "theorems": [
    "Oid4vci.C81_any_display",
    "Oid4vci.C81_refuted",
    "Oid4vci.C81_languages_written_partial"
   ],
   "note": "Violated: validation does not look at the display objects (C81_refuted, C81_any_display). Proved: the languages are kept when written and read."
  },
  {
   "property": "C82",
   "status": "partial",
   "theorems": [
    "Oid4vci.C82_nested_dropped",
    "Oid4vci.C82_refuted",
    "Oid4vci.C82_namespaces_partial"
   ],
   "note": "Violated: CredentialSubject has fixed members, and objects with others are read with these dropped (C82_refuted, C82_nested_dropped). Proved: namespaces are kept."
  },
  {
   "property": "C83",
   "status": "partial",
   "theorems": [
    "Oid4vci.C83_any_algorithm",
    "Oid4vci.C83_key_and_algorithm_partial",
    "Oid4vci.C83_refuted"
   ],
   "note": "Violated: every accepted request is accepted with any algorithm next to the same key (C83_refuted, C83_any_algorithm). Proved: algorithm and key are those of the header and of the DID document."
  },
  {
   "property": "C84",
   "status": "partial",
   "theorems": [
    "Oid4vci.C84_any_okp",
    "Oid4vci.C84_refuted",
    "Oid4vci.C84_others_partial"
   ],
   "note": "Violated: octet key pairs are used whatever their algorithm (C84_refuted, C84_any_okp). C84_others_partial states exactly which keys are used."
  },
  {
   "property": "C85",
   "status": "partial",
   "theorems": [
    "Oid4vci.C85_key_dropped",
    "Oid4vci.C85_refuted",
    "Oid4vci.C85_text_partial",
    "Oid4vci.C85_iff_partial"
   ],
   "note": "Violated: jwk and x5c in their standard forms are dropped silently, the header is read without a key (C85_refuted, C85_key_dropped). Proved: string-valued key members are kept. C85_iff_partial: there is a key exactly if the first key member is a string."
  },
  {
   "property": "C86",
   "status": "partial",
   "theorems": [
    "Oid4vci.C86_fails",
    "Oid4vci.C86_exact_partial",
    "Oid4vci.C86_refuted"
   ],
   "note": "Violated by every valid request with jwk, x5c or a kid that is no DID (C86_refuted, C86_fails). C86_exact_partial states exactly which requests pass."
  },
  {
   "property": "C87",
   "status": "partial",
   "theorems": [
    "Oid4vci.C87_lifetime_missing",
    "Oid4vci.C87_refuted",
    "Oid4vci.C87_nonce_partial",
    "Oid4vci.C87_iff_partial"
   ],
   "note": "Violated: a nonce without a lifetime is written without one (C87_refuted, C87_lifetime_missing). Proved: no lifetime without a nonce. C87_iff_partial: exactly when every supplied nonce has a lifetime."
  },
  {
   "property": "C88",
   "status": "proved",
   "theorems": [
    "Oid4vci.C88_create_offer",
    "Oid4vci.C88_evaluate",
    "Oid4vci.C88_pre_evaluate",
    "Oid4vci.C88_responses",
    "Oid4vci.C88_never"
   ],
   "note": ""
  },
  {
   "property": "C89",
   "status": "proved",
   "theorems": [
    "Oid4vci.C89_base64_rfc4648",
    "Oid4vci.C89_no_confusion"
   ],
   "note": ""
  },
  {
   "property": "C90",
   "status": "proved",
   "theorems": [
    "Oid4vci.C90_offer",
    "Oid4vci.C90_requests",
    "Oid4vci.C90_metadata",
    "Oid4vci.C90_settings",
    "Oid4vci.C90_results",
    "Oid4vci.C90_created"
   ],
   "note": ""
  },
  {
   "property": "C91",
   "status": "partial",
   "theorems": [
    "Oid4vci.C91_passed_on",
    "Oid4vci.C91_refuted",
    "Oid4vci.C91_own_descriptions_partial",
    "Oid4vci.C91_dates_partial"
   ],
   "note": "Violated: any text is accepted and written (C91_refuted, C91_passed_on). Proved: the descriptions of the library's own errors are ASCII apart from what they repeat of their input."
  },
  {
   "property": "C92",
   "status": "partial",
   "theorems": [
    "Oid4vci.C92_wrapped",
    "Oid4vci.C92_refuted",
    "Oid4vci.C92_below_wrapper_partial"
   ],
   "note": "Violated by every response with a credential: it is wrapped in an object whose only member is named Encoded or CredentialFormatProfile (C92_refuted, C92_wrapped). Proved: below the wrapper is what is documented."
  },
  {
   "property": "C93",
   "status": "partial",
   "theorems": [
    "Oid4vci.C93_none_partial",
    "Oid4vci.C93_nulls",
    "Oid4vci.C93_refuted"
   ],
   "note": "Violated: optional members of token and credential responses, metadata, displays and the authorization code grant are written as null (C93_refuted); C93_nulls states exactly which and when. Proved: offers, credentials and claims have no null members."
  },
  {
   "property": "C94",
   "status": "partial",
   "theorems": [
    "Oid4vci.C94_any_claims",
    "Oid4vci.C94_refuted",
    "Oid4vci.C94_languages_written_partial"
   ],
   "note": "Violated: languages are not checked (C94_refuted, C94_any_claims). Proved: languages survive in what is written."
  },
  {
   "property": "C95",
   "status": "partial",
   "theorems": [
    "Oid4vci.C95_any_method",
    "Oid4vci.C95_refuted",
    "Oid4vci.C95_methods_written_partial"
   ],
   "note": "Violated: binding methods are not checked (C95_refuted, C95_any_method). Proved: the methods survive in what is written."
  },
  {
   "property": "C96",
   "status": "partial",
   "theorems": [
    "Oid4vci.C96_skipped",
    "Oid4vci.C96_refuted",
    "Oid4vci.C96_json_partial"
   ],
   "note": "Violated: serde_json skips members other than the registered claims without looking at their octets, so a further member with arbitrary octets between quotes is accepted in every body (C96_skipped, C96_refuted). Proved: the header, the names of all members and the values of the registered claims are UTF-8 and JSON."
  },
  {
   "property": "C97",
   "status": "proved",
   "theorems": [
    "Oid4vci.C97_message",
    "Oid4vci.C97_catalogue",
    "Oid4vci.C97_code"
   ],
   "note": ""
  },
  {
   "property": "C98",
   "status": "proved",
   "theorems": [
    "Oid4vci.C98_read",
    "Oid4vci.C98_refused",
    "Oid4vci.C98_infinite",
    "Oid4vci.C98_header"
   ],
   "note": ""
  },
  {
   "property": "C99",
   "status": "proved",
   "theorems": [
    "Oid4vci.C99_text",
    "Oid4vci.C99_unique",
    "Oid4vci.C99_denotes",
    "Oid4vci.C99_distinct"
   ],
   "note": ""
  },
  {
   "property": "C100",
   "status": "partial",
   "theorems": [
    "Oid4vci.C100_refuted",
    "Oid4vci.C100_short_violated",
    "Oid4vci.C100_survives_iff_partial",
    "Oid4vci.C100_decimals_partial",
    "Oid4vci.C100_near_partial"
   ],
   "note": "Violated: serde_json without the feature float_roundtrip scales with rounded powers of ten, so that 9007199254740991.0 and 3e30 come back as other numbers (C100_refuted, C100_short_violated). Proved: exactly which documents survive (C100_survives_iff_partial), that decimals of up to 15 digits with exponents within 22 do, and that every document is read with numbers changed by at most one part in 2^49."
  },
  {
   "property": "C101",
   "status": "proved",
   "theorems": [
    "Oid4vci.C101_validation",
    "Oid4vci.C101_jwt",
    "Oid4vci.C101_token",
    "Oid4vci.C101_issuer",
    "Oid4vci.C101_details"
   ],
   "note": "The requested credential and the supported ones in InvalidRequestedCredential are described as their serialisations."
  },
  {
   "property": "C102",
   "status": "partial",
   "theorems": [
    "Oid4vci.C102_written",
    "Oid4vci.C102_displayed",
    "Oid4vci.C102_rfc3339_partial",
    "Oid4vci.C102_refuted",
    "Oid4vci.C102_violation"
   ],
   "note": "Violated: instants after the year 9999 or before the year 0 are written with a sign and, if needed, more digits, which is no RFC 3339 date-time (C102_refuted); tokens with such claims are reported with them (C102_violation). Proved: exactly which text is written for every instant, and that it is RFC 3339 exactly in the years 0 to 9999."
  },
  {
   "property": "C103",
   "status": "partial",
   "theorems": [
    "Oid4vci.C103_metadata",
    "Oid4vci.C103_token_response",
    "Oid4vci.C103_header",
    "Oid4vci.C103_key",
    "Oid4vci.C103_codes",
    "Oid4vci.C103_body",
    "Oid4vci.C103_proof",
    "Oid4vci.C103_request",
    "Oid4vci.C103_never",
    "Oid4vci.C103_pin_partial",
    "Oid4vci.C103_refuted",
    "Oid4vci.C103_never_named"
   ],
   "note": "Violated: the message about a PIN that is too long names one digit less than supplied, since checked_ilog10 is not the number of digits (C103_refuted, C103_never_named; the repository's test with eleven digits expects 10). Proved: all other checks fail exactly on their condition with their message. The messages of the base64 and JSON libraries are parameters."
  },
  {
   "property": "C104",
   "status": "proved",
   "theorems": [
    "Oid4vci.C104_one_use"
   ],
   "note": ""
  },
  {
   "property": "C105",
   "status": "partial",
   "theorems": [
    "Oid4vci.C105_replay",
    "Oid4vci.C105_refuted",
    "Oid4vci.C105_fresh_nonces_partial"
   ],
   "note": "Violated: the evaluation keeps no state, and whatever is accepted is accepted again until the nonce expires (C105_replay, C105_refuted). Proved: if the application expects another nonce in each call, no proof is accepted twice, as text or as JWT."
  },
  {
   "property": "C106",
   "status": "proved",
   "theorems": [
    "Oid4vci.C106_wrong_pin"
   ],
   "note": ""
  },
  {
   "property": "C107",
   "status": "proved",
   "theorems": [
    "Oid4vci.C107_unique",
    "Oid4vci.C107_redeemable"
   ],
   "note": "The bound of nine digits instead of eight is the subject of C05."
  },
  {
   "property": "C108",
   "status": "partial",
   "theorems": [
    "Oid4vci.C108_read",
    "Oid4vci.C108_panics_iff",
    "Oid4vci.C108_refuted",
    "Oid4vci.C108_violation",
    "Oid4vci.C108_no_panic_partial",
    "Oid4vci.C108_model"
   ],
   "note": "Violated: a leap second on -262144-01-01 with the offset that puts it just before the beginning of the library's range passes chrono's overflow check and then panics (C108_panics_iff says exactly which texts). Proved: what every other text is read as, and how the reading of the main model relates to it. Rests on a description of chrono 0.4.24 (to_datetime, add_with_leapsecond)."
  },
  {
   "property": "C109",
   "status": "partial",
   "theorems": [
    "Oid4vci.C109_ordinary",
    "Oid4vci.C109_read_back",
    "Oid4vci.C109_exact_partial",
    "Oid4vci.C109_violation",
    "Oid4vci.C109_refuted",
    "Oid4vci.C109_stable",
    "Oid4vci.C109_second_60"
   ],
   "note": "Violated: a leap second that does not follow second 59, which chrono's constructors allow, is written as an ordinary second (C109_violation). Proved: everything else reads back, in particular whatever was read (C109_stable)."
  },
  {
   "property": "C110",
   "status": "proved",
   "theorems": [
    "Oid4vci.C110_expiry",
    "Oid4vci.C110_sum",
    "Oid4vci.C110_nonce",
    "Oid4vci.C110_compare",
    "Oid4vci.C110_period",
    "Oid4vci.C110_ordinary"
   ],
   "note": "The time of the check is taken outside leap seconds, as system clocks give it. Leap seconds between creation and check are not counted, by the library's arithmetic."
  },
  {
   "property": "C111",
   "status": "proved",
   "theorems": [
    "Oid4vci.C111_subject",
    "Oid4vci.C111_announced"
   ],
   "note": "Rests on a description of DID URLs in ssi-dids 0.1.0 (Model/Did.lean); the theorems about other externals hold for every one."
  },
  {
   "property": "C112",
   "status": "partial",
   "theorems": [
    "Oid4vci.C112_did_url_partial",
    "Oid4vci.C112_iff_partial",
    "Oid4vci.C112_violation",
    "Oid4vci.C112_refuted"
   ],
   "note": "Violated: only the prefix did: is required, so that did:example/key1#k (the key id of a test of the repository, with a fragment) yields the subject did:example, and did:#k the subject did: (C112_violation). Proved: the subject of a DID URL is its DID, and exactly when the subject is a DID."
  },
  {
   "property": "C113",
   "status": "proved",
   "theorems": [
    "Oid4vci.C113_not_in_document",
    "Oid4vci.C113_report",
    "Oid4vci.C113_round_trip"
   ],
   "note": "Rests on a description of DID URLs in ssi-dids 0.1.0 (Model/Did.lean)."
  },
  {
   "property": "C114",
   "status": "proved",
   "theorems": [
    "Oid4vci.C114_url_read",
    "Oid4vci.C114_standard_read",
    "Oid4vci.C114_url_reported",
    "Oid4vci.C114_standard_reported",
    "Oid4vci.C114_url_exclusive",
    "Oid4vci.C114_standard_exclusive",
    "Oid4vci.C114_jwt",
    "Oid4vci.C114_message",
    "Oid4vci.C114_jwt_text"
   ],
   "note": "Rests on a description of the decoder of base64 0.21.0 (Model/Engine.lean), proved to read the same texts as the main model."
  },
  {
   "property": "C115",
   "status": "proved",
   "theorems": [
    "Oid4vci.C115_url_determines",
    "Oid4vci.C115_grant"
   ],
   "note": ""
  },
  {
   "property": "C116",
   "status": "proved",
   "theorems": [
    "Oid4vci.C116_code",
    "Oid4vci.C116_pin"
   ],
   "note": ""
  },
  {
   "property": "C117",
   "status": "proved",
   "theorems": [
    "Oid4vci.C117_offer",
    "Oid4vci.C117_token",
    "Oid4vci.C117_credential"
   ],
   "note": "Three theorems, one for each exchange; the first yields the offer that the others take."
  },
  {
   "property": "C118",
   "status": "proved",
   "theorems": [
    "Oid4vci.C118_offer",
    "Oid4vci.C118_request",
    "Oid4vci.C118_response",
    "Oid4vci.C118_metadata",
    "Oid4vci.C118_jwt"
   ],
   "note": "Token requests and responses: C64_token_text. Which numbers survive: C100."
  },
  {
   "property": "C119",
   "status": "proved",
   "theorems": [
    "Oid4vci.C119_resolve",
    "Oid4vci.C119_kept",
    "Oid4vci.C119_offer",
    "Oid4vci.C119_evaluate"
   ],
   "note": ""
  },
  {
   "property": "C120",
   "status": "proved",
   "theorems": [
    "Oid4vci.C120_careful",
    "Oid4vci.C120_checks",
    "Oid4vci.C120_needed"
   ],
   "note": ""
  },
  {
   "property": "C121",
   "status": "proved",
   "theorems": [
    "Oid4vci.C121_normal",
    "Oid4vci.C121_offer",
    "Oid4vci.C121_length"
   ],
   "note": ""
  },
  {
   "property": "C122",
   "status": "proved",
   "theorems": [
    "Oid4vci.C122_header_missing",
    "Oid4vci.C122_header_duplicate",
    "Oid4vci.C122_header_typ",
    "Oid4vci.C122_header_alg",
    "Oid4vci.C122_header_alg_kind",
    "Oid4vci.C122_header",
    "Oid4vci.C122_body",
    "Oid4vci.C122_jwt",
    "Oid4vci.C122_missing",
    "Oid4vci.C122_duplicate",
    "Oid4vci.C122_mistyped",
    "Oid4vci.C122_time"
   ],
   "note": ""
  },
  {
   "property": "C123",
   "status": "proved",
   "theorems": [
    "Oid4vci.C123_texts",
    "Oid4vci.C123_grammatical",
    "Oid4vci.C123_further",
    "Oid4vci.C123_kept"
   ],
   "note": ""
  },
  {
   "property": "C124",
   "status": "proved",
   "theorems": [
    "Oid4vci.C124_exact",
    "Oid4vci.C124_none",
    "Oid4vci.C124_unique",
    "Oid4vci.C124_messages",
    "Oid4vci.C124_unread",
    "Oid4vci.C124_body",
    "Oid4vci.C124_date_only",
    "Oid4vci.C124_trailing",
    "Oid4vci.C124_range",
    "Oid4vci.C124_number",
    "Oid4vci.C124_no_offset"
   ],
   "note": "Rests on a description of the parser of chrono 0.4.24 (Model/TimeError.lean), which agrees with the one of C108 on the texts that are read."
  },
  {
   "property": "C125",
   "status": "proved",
   "theorems": [
    "Oid4vci.C125_passes",
    "Oid4vci.C125_rightful",
    "Oid4vci.C125_once",
    "Oid4vci.C125_agreement",
    "Oid4vci.C125_no_relay",
    "Oid4vci.C125_injective",
    "Oid4vci.C125_progress",
    "Oid4vci.C125_final",
    "Oid4vci.C125_order"
   ],
   "note": "The service (Spec/Service.lean) is not code of the repository: it is an application that calls the library's functions and keeps what the library does not. Unforgeability is a hypothesis of C125_agreement; the signature scheme is a parameter."
  },
  {
   "property": "C126",
   "status": "proved",
   "theorems": [
    "Oid4vci.C126_key",
    "Oid4vci.C126_not_found",
    "Oid4vci.C126_calm",
    "Oid4vci.C126_purpose",
    "Oid4vci.C126_subject"
   ],
   "note": "Documents are modelled from ssi-dids 0.1.0 (Model/Document.lean); whether relative ids and the list publicKey count is left open (SelectRules) and the theorems hold in all cases; the content of a verification method, get_jwk and the parsing of JWKs stay parameters."
  },
  {
   "property": "C127",
   "status": "partial",
   "theorems": [
    "Oid4vci.C127_not_looked_at",
    "Oid4vci.C127_resolved_partial",
    "Oid4vci.C127_refuted"
   ],
   "note": "Violated: the id of the document is not looked at, so a document of another DID that lists a method under the key id is accepted (C127_not_looked_at, C127_refuted). Partial: for callers that pass the document of the DID named by pre-evaluation (C127_resolved_partial)."
  },
  {
   "property": "C128",
   "status": "proved",
   "theorems": [
    "Oid4vci.C128_document",
    "Oid4vci.C128_key",
    "Oid4vci.C128_unreadable",
    "Oid4vci.C128_members",
    "Oid4vci.C128_okp"
   ],
   "note": "JWKs are modelled from ssi-jwk 0.1.0 (Model/Jwk.lean); the names of algorithms, the inferred algorithm, the reading of base64 and the texts of errors are left open. C128_key assumes of the inferred algorithm that it is not EdDSA for elliptic curve keys."
  },
  {
   "property": "C129",
   "status": "partial",
   "theorems": [
    "Oid4vci.C129_curve_ignored",
    "Oid4vci.C129_refuted",
    "Oid4vci.C129_type_partial"
   ],
   "note": "Violated: neither the curve nor the length is looked at, so a key for key agreement (X25519) or of no length is accepted (C129_curve_ignored, C129_refuted), and elliptic curve keys that name EdDSA are too. Partial: no other types of keys (C129_type_partial)."
  },
  {
   "property": "C130",
   "status": "proved",
   "theorems": [
    "Oid4vci.C130_method",
    "Oid4vci.C130_refused",
    "Oid4vci.C130_reported",
    "Oid4vci.C130_material",
    "Oid4vci.C130_key",
    "Oid4vci.C130_inline"
   ],
   "note": "Verification methods are modelled from ssi-dids 0.1.0 (Model/Method.lean); base58, hexadecimal and multibase decoding, the keys of the types of methods, and the messages are left open."
  },
  {
   "property": "C131",
   "status": "proved",
   "theorems": [
    "Oid4vci.C131_accepted",
    "Oid4vci.C131_instance",
    "Oid4vci.C131_independent"
   ],
   "note": "Model/Library.lean instantiates every external; C131_accepted assumes of the inferred algorithms that none is EdDSA for elliptic curve keys. Leap seconds are not represented in this model of chrono (see C108 to C110 for those)."
  },
  {
   "property": "C132",
   "status": "proved",
   "theorems": [
    "Oid4vci.C132_quoted",
    "Oid4vci.C132_determined",
    "Oid4vci.C132_visible",
    "Oid4vci.C132_header",
    "Oid4vci.C132_body",
    "Oid4vci.C132_short",
    "Oid4vci.C132_element",
    "Oid4vci.C132_element_time",
    "Oid4vci.C132_long",
    "Oid4vci.C132_times"
   ],
   "note": "Debug for strings is modelled from Rust's core library (Model/Debug.lean); which characters are shown is a parameter."
  },
  {
   "property": "C133",
   "status": "partial",
   "theorems": [
    "Oid4vci.C133_told",
    "Oid4vci.C133_used",
    "Oid4vci.C133_iff_partial",
    "Oid4vci.C133_summary_partial",
    "Oid4vci.C133_refuted"
   ],
   "note": "Violated: the additional information of a nonce mismatch has the expected nonce (C133_told, C133_refuted), and a proof with it is not rejected for the nonce (C133_used). C133_iff_partial: the reports are the same exactly if the request is rejected before the nonces are compared. Proved: code, name and description tell nothing (C133_summary_partial)."
  },
  {
   "property": "C134",
   "status": "proved",
   "theorems": [
    "Oid4vci.C134_header",
    "Oid4vci.C134_body",
    "Oid4vci.C134_place",
    "Oid4vci.C134_jwt"
   ],
   "note": ""
  },
  {
   "property": "C135",
   "status": "partial",
   "theorems": [
    "Oid4vci.C135_dotted",
    "Oid4vci.C135_brackets",
    "Oid4vci.C135_colon",
    "Oid4vci.C135_refuted",
    "Oid4vci.C135_partial",
    "Oid4vci.C135_original"
   ],
   "note": "Violated: names with dots, brackets or a colon and a space read like longer paths or other messages (C135_dotted, C135_brackets, C135_colon, C135_refuted). C135_partial: it holds for all names without these characters. C135_original: the message ends in that of serde_json."
  },
  {
   "property": "C136",
   "status": "proved",
   "theorems": [
    "Oid4vci.C136_document",
    "Oid4vci.C136_result",
    "Oid4vci.C136_octets",
    "Oid4vci.C136_url",
    "Oid4vci.C136_stream",
    "Oid4vci.C136_log",
    "Oid4vci.C136_jwt",
    "Oid4vci.C136_message"
   ],
   "note": "The message of an error alone, outside a JSON text, need not be one line: that of an unknown credential has its id as it is (C136_message)."
  },
  {
   "property": "C137",
   "status": "proved",
   "theorems": [
    "Oid4vci.C137_header",
    "Oid4vci.C137_body",
    "Oid4vci.C137_jwt",
    "Oid4vci.C137_reply",
    "Oid4vci.C137_token"
   ],
   "note": "The constant 4100 is for numbers, which are written out in the report (1e300 takes more than 300 characters). The text with which chrono says what it expects is a parameter of at most 200 characters."
  },
  {
   "property": "C138",
   "status": "partial",
   "theorems": [
    "Oid4vci.C138_null",
    "Oid4vci.C138_refuted",
    "Oid4vci.C138_present_partial",
    "Oid4vci.C138_omitting",
    "Oid4vci.C138_forms"
   ],
   "note": "Violated: the form of error_impl! that all four enums use gives Some(null) for the errors without fields, which is not skipped (C138_null, C138_refuted); a test of the repository expects it so. The other form leaves it out (C138_omitting), and the two agree on exactly the other errors (C138_forms)."
  },
  {
   "property": "C139",
   "status": "partial",
   "theorems": [
    "Oid4vci.C139_same",
    "Oid4vci.C139_appended",
    "Oid4vci.C139_claim",
    "Oid4vci.C139_pre",
    "Oid4vci.C139_refuted",
    "Oid4vci.C139_content_partial"
   ],
   "note": "Violated: the message is rebuilt from what was read, so every text of the same JWT gives the same message, signature and answer (C139_same). After the signature anything may be appended (C139_appended), and claims of other names may be put into the body, with any value (C139_claim), although the holder never signed them. Who remembers proofs by their text does not recognise a replay. C139_content_partial: equal messages mean equal header and registered claims, for signed JWTs."
  },
  {
   "property": "C140",
   "status": "proved",
   "theorems": [
    "Oid4vci.C140_header_runs_on",
    "Oid4vci.C140_body_runs_on",
    "Oid4vci.C140_header_whole",
    "Oid4vci.C140_body_whole",
    "Oid4vci.C140_header_cut",
    "Oid4vci.C140_body_cut"
   ],
   "note": "The octets behind `}` or `]` play no part in reading the value, so documents are self-delimiting; no readable header or body is the beginning of another one except for whitespace."
  },
  {
   "property": "C141",
   "status": "partial",
   "theorems": [
    "Oid4vci.C141_context",
    "Oid4vci.C141_subject",
    "Oid4vci.C141_credential",
    "Oid4vci.C141_offer",
    "Oid4vci.C141_token_request",
    "Oid4vci.C141_token_response",
    "Oid4vci.C141_request",
    "Oid4vci.C141_response",
    "Oid4vci.C141_header",
    "Oid4vci.C141_body",
    "Oid4vci.C141_nonce_options",
    "Oid4vci.C141_request_options",
    "Oid4vci.C141_nonce",
    "Oid4vci.C141_token_options",
    "Oid4vci.C141_server",
    "Oid4vci.C141_jwt",
    "Oid4vci.C141_pre_result",
    "Oid4vci.C141_result",
    "Oid4vci.C141_information",
    "Oid4vci.C141_return",
    "Oid4vci.C141_supported",
    "Oid4vci.C141_metadata_partial",
    "Oid4vci.C141_error_partial",
    "Oid4vci.C141_metadata_read",
    "Oid4vci.C141_metadata_unreadable",
    "Oid4vci.C141_error_information",
    "Oid4vci.C141_two_endpoints",
    "Oid4vci.C141_refuted",
    "Oid4vci.C141_refuted_error"
   ],
   "note": "Violated by the two types that flatten a map of the caller's: issuer metadata whose `additional_fields` repeat one of the five names of its own is written with that member twice (two endpoints in `C141_two_endpoints`), and an error response whose additional details contain `error`, `error_description` or `error_uri` likewise. `C141_metadata_partial` and `C141_error_partial` say exactly when this happens; `C141_metadata_unreadable` that the library's own reader then rejects the metadata; `C141_metadata_read` that metadata which was read is not affected; `C141_error_information` that details made of the library's own error information are not. All other documents satisfy the property, proved in full."
  },
  {
   "property": "C142",
   "status": "partial",
   "theorems": [
    "Oid4vci.C142_credential",
    "Oid4vci.C142_offer",
    "Oid4vci.C142_token_response",
    "Oid4vci.C142_token_request",
    "Oid4vci.C142_request",
    "Oid4vci.C142_response",
    "Oid4vci.C142_metadata",
    "Oid4vci.C142_body",
    "Oid4vci.C142_nonce_options",
    "Oid4vci.C142_request_options",
    "Oid4vci.C142_nonce",
    "Oid4vci.C142_token_options",
    "Oid4vci.C142_header_partial",
    "Oid4vci.C142_header_first",
    "Oid4vci.C142_refuted"
   ],
   "note": "Violated by the header of proofs: of `kid`, `jwk` and `x5c` the flattened enum takes the first in document order, so that swapping two members, which RFC 8259 calls insignificant, selects another key (`C142_header_first`, `C142_refuted`; RFC-conforming intermediaries may do so, though the signature covers the bytes). `C142_header_partial` proves it for headers with at most one of the three. All other types satisfy it, at any depth; those that hold no map need not even have unique names (`Indifferent P` for any hereditary `P`, e.g. `hereditary_true`)."
  },
  {
   "property": "C143",
   "status": "partial",
   "theorems": [
    "Oid4vci.C143_document_credential",
    "Oid4vci.C143_document_offer",
    "Oid4vci.C143_document_request",
    "Oid4vci.C143_document_metadata",
    "Oid4vci.C143_document_response",
    "Oid4vci.C143_offer",
    "Oid4vci.C143_token",
    "Oid4vci.C143_pre_evaluate",
    "Oid4vci.C143_evaluate",
    "Oid4vci.C143_response",
    "Oid4vci.C143_url_partial",
    "Oid4vci.C143_response_partial",
    "Oid4vci.C143_urls_differ",
    "Oid4vci.C143_encoded_differs",
    "Oid4vci.C143_refuted"
   ],
   "note": "Violated where text is made of a map: `serde_json::to_string` writes the entries of a `HashMap` in iteration order, so one and the same offer has several URLs (`C143_urls_differ`) and one and the same credential several encodings (`C143_encoded_differs`), none of which is canonical; who compares, caches or signs them sees different octets. Every decision and every value is independent of the order, proved in full (`C143_token`, `C143_pre_evaluate`, `C143_evaluate`; `C143_offer`, `C143_response` up to the text), the documents in the texts differ in the order of members only (`C143_document_*`), and by C142 are read alike. `C143_url_partial` and `C143_response_partial` prove equality of the text when no map has two entries."
  },
  {
   "property": "C144",
   "status": "partial",
   "theorems": [
    "Oid4vci.C144_credential",
    "Oid4vci.C144_authorized",
    "Oid4vci.C144_preauthorized",
    "Oid4vci.C144_grants",
    "Oid4vci.C144_offer",
    "Oid4vci.C144_token_response",
    "Oid4vci.C144_grant_type",
    "Oid4vci.C144_token_request",
    "Oid4vci.C144_request",
    "Oid4vci.C144_response",
    "Oid4vci.C144_logo",
    "Oid4vci.C144_display",
    "Oid4vci.C144_supported",
    "Oid4vci.C144_body",
    "Oid4vci.C144_nonce_options",
    "Oid4vci.C144_request_options",
    "Oid4vci.C144_nonce",
    "Oid4vci.C144_token_options",
    "Oid4vci.C144_jwt",
    "Oid4vci.C144_proof_partial",
    "Oid4vci.C144_header_partial",
    "Oid4vci.C144_metadata_partial",
    "Oid4vci.C144_proof_type",
    "Oid4vci.C144_hides",
    "Oid4vci.C144_refuted_proof",
    "Oid4vci.C144_refuted_header",
    "Oid4vci.C144_refuted_metadata",
    "Oid4vci.C144_refuted"
   ],
   "note": "Violated for three types. `#[serde(default)]` on `proof_type` holds for the absent member only, so `\"proof_type\": null` is an error (`C144_refuted_proof`). The flattened `Option<ProofJwtAdditionalHeader>` takes the first of `kid`, `jwk`, `x5c`, and if that is `null` the result is `None` although a key follows: a proof with `\"kid\": null` and a good `jwk` is rejected as having no key (`C144_refuted_header`, `C144_hides`). Unknown members of issuer metadata are kept as they are, so that `null` ones are published again (`C144_refuted_metadata`). All other types are proved in full; these three for all other names (`C144_proof_partial`, `C144_header_partial`, `C144_metadata_partial`)."
  },
  {
   "property": "C145",
   "status": "proved",
   "theorems": [
    "Oid4vci.C145_dense",
    "Oid4vci.C145_seen",
    "Oid4vci.C145_parse",
    "Oid4vci.C145_read",
    "Oid4vci.C145_request",
    "Oid4vci.C145_offer",
    "Oid4vci.C145_proof"
   ],
   "note": ""
  },
  {
   "property": "C146",
   "status": "partial",
   "theorems": [
    "Oid4vci.C146_credential",
    "Oid4vci.C146_offer",
    "Oid4vci.C146_token_response",
    "Oid4vci.C146_token_request",
    "Oid4vci.C146_request",
    "Oid4vci.C146_supported",
    "Oid4vci.C146_body",
    "Oid4vci.C146_settings",
    "Oid4vci.C146_response_partial",
    "Oid4vci.C146_token_settings",
    "Oid4vci.C146_nonce",
    "Oid4vci.C146_server",
    "Oid4vci.C146_header",
    "Oid4vci.C146_jwt",
    "Oid4vci.C146_metadata_partial",
    "Oid4vci.C146_texts",
    "Oid4vci.C146_refuted_metadata",
    "Oid4vci.C146_beside",
    "Oid4vci.C146_refuted_response",
    "Oid4vci.C146_refuted"
   ],
   "note": "Violated at two places. Issuer metadata keeps unknown members in `additional_fields` and writes them again, so that a document with one more is another value (`C146_refuted_metadata`); that is what the field is for, and all other fields are the same (`C146_metadata_partial`). `CredentialFormatProfileOrEncoded` is an externally tagged enum, whose object must have exactly one member: a response with anything beside `Encoded` is rejected (`C146_refuted_response`, `C146_beside`). Inside of the credential and in the rest of the response unknown members are ignored (`C146_response_partial`)."
  },
  {
   "property": "C147",
   "status": "proved",
   "theorems": [
    "Oid4vci.C147_seen",
    "Oid4vci.C147_parse",
    "Oid4vci.C147_read",
    "Oid4vci.C147_rewritten",
    "Oid4vci.C147_proof",
    "Oid4vci.C147_accepted"
   ],
   "note": ""
  },
  {
   "property": "C148",
   "status": "proved",
   "theorems": [
    "Oid4vci.C148_evaluate",
    "Oid4vci.C148_pre",
    "Oid4vci.C148_times",
    "Oid4vci.C148_library"
   ],
   "note": ""
  },
  {
   "property": "C149",
   "status": "proved",
   "theorems": [
    "Oid4vci.C149_header",
    "Oid4vci.C149_body",
    "Oid4vci.C149_body_list"
   ],
   "note": ""
  },
  {
   "property": "C150",
   "status": "proved",
   "theorems": [
    "Oid4vci.C150_header",
    "Oid4vci.C150_body",
    "Oid4vci.C150_header_string",
    "Oid4vci.C150_body_string"
   ],
   "note": ""
  },
  {
   "property": "C151",
   "status": "proved",
   "theorems": [
    "Oid4vci.C151_whole",
    "Oid4vci.C151_cut",
    "Oid4vci.C151_runs_on"
   ],
   "note": ""
  },
  {
   "property": "C152",
   "status": "proved",
   "theorems": [
    "Oid4vci.C152_kept",
    "Oid4vci.C152_longer",
    "Oid4vci.C152_shorter",
    "Oid4vci.C152_pre"
   ],
   "note": ""
  },
  {
   "property": "C153",
   "status": "proved",
   "theorems": [
    "Oid4vci.C153_evaluate",
    "Oid4vci.C153_verify",
    "Oid4vci.C153_credential",
    "Oid4vci.C153_token"
   ],
   "note": ""
  },
  {
   "property": "C154",
   "status": "proved",
   "theorems": [
    "Oid4vci.C154_colon_body",
    "Oid4vci.C154_colon_header",
    "Oid4vci.C154_name_body",
    "Oid4vci.C154_name_header",
    "Oid4vci.C154_key_body",
    "Oid4vci.C154_key_header",
    "Oid4vci.C154_comma_body",
    "Oid4vci.C154_comma_header",
    "Oid4vci.C154_number_body",
    "Oid4vci.C154_value_body",
    "Oid4vci.C154_value_claim",
    "Oid4vci.C154_number_claim",
    "Oid4vci.C154_value_typ",
    "Oid4vci.C154_number_typ",
    "Oid4vci.C154_text_alg",
    "Oid4vci.C154_value_alg",
    "Oid4vci.C154_value_header",
    "Oid4vci.C154_number_header",
    "Oid4vci.C154_skipped_header",
    "Oid4vci.C154_text_body",
    "Oid4vci.C154_text_header",
    "Oid4vci.C154_skipped_body"
   ],
   "note": ""
  }
 ]
}