{
 "claims": [
  {
   "property": "C01",
   "status": "proved",
   "theorems": [
    "Goidc.Props.C01_non_post_inert",
    "Goidc.Props.C01_non_post_answered"
   ],
   "note": ""
  },
  {
   "property": "C02",
   "status": "proved",
   "theorems": [
    "Goidc.Props.C02_authenticated"
   ],
   "note": ""
  },
  {
   "property": "C03",
   "status": "partial",
   "theorems": [
    "Goidc.Props.C03_assertion_unchecked",
    "Goidc.Props.C03_grant_type_allowed_partial",
    "Goidc.Props.C03_false"
   ],
   "note": "Does not hold of the code: a client that authenticates with a client assertion is never checked for the grant type (C03_false, a concrete run). C03_grant_type_allowed_partial proves it for all other clients. C03_assertion_unchecked: how general the defect is - for a request with assertion authentication no answer of CanUseGrantType changes anything in any run."
  },
  {
   "property": "C04",
   "status": "proved",
   "theorems": [
    "Goidc.Props.C04_looked_up",
    "Goidc.Props.C04_from_header",
    "Goidc.Props.C04_not_from_query",
    "Goidc.Props.C04_header_wins",
    "Goidc.Props.C04_nonempty",
    "Goidc.Props.C04_policy_used",
    "Goidc.Props.C04_no_credentials"
   ],
   "note": ""
  },
  {
   "property": "C05",
   "status": "proved",
   "theorems": [
    "Goidc.Props.C05_unregistered",
    "Goidc.Props.C05_support",
    "Goidc.Props.C05_last_wins"
   ],
   "note": ""
  },
  {
   "property": "C06",
   "status": "proved",
   "theorems": [
    "Goidc.Props.C06_well_formed"
   ],
   "note": ""
  },
  {
   "property": "C07",
   "status": "proved",
   "theorems": [
    "Goidc.Props.C07_exactly_one_response",
    "Goidc.Props.C07_response_is_last"
   ],
   "note": ""
  },
  {
   "property": "C08",
   "status": "partial",
   "theorems": [
    "Goidc.Props.C08_panics_iff",
    "Goidc.Props.C08_never_panics_partial",
    "Goidc.Props.C08_false"
   ],
   "note": "Does not hold of the code: a malformed client assertion panics the handler before authentication (C08_false). C08_panics_iff characterises the panics exactly; C08_never_panics_partial excludes them otherwise."
  },
  {
   "property": "C09",
   "status": "proved",
   "theorems": [
    "Goidc.Props.C09_code_bound",
    "Goidc.Props.C09_response"
   ],
   "note": ""
  },
  {
   "property": "C10",
   "status": "proved",
   "theorems": [
    "Goidc.Props.C10_pkce"
   ],
   "note": ""
  },
  {
   "property": "C11",
   "status": "partial",
   "theorems": [
    "Goidc.Props.C11_expired_partial",
    "Goidc.Props.C11_false",
    "Goidc.Props.C11_lifetime_ignored"
   ],
   "note": "Does not hold of the code: session lifetime is never compared with the clock (C11_false); proved only under the store returning no expired session. C11_lifetime_ignored: how general the defect is - every run of the token endpoint stays a run, with the same response, when the issue time and lifetime of every session are replaced by others."
  },
  {
   "property": "C12",
   "status": "proved",
   "theorems": [
    "Goidc.Props.C12_at_most_once",
    "Goidc.Props.C12_spending_store",
    "Goidc.Props.C12_reference_store_races"
   ],
   "note": ""
  },
  {
   "property": "C13",
   "status": "proved",
   "theorems": [
    "Goidc.Props.C13_burned_before_response",
    "Goidc.Props.C13_crash_safe"
   ],
   "note": ""
  },
  {
   "property": "C14",
   "status": "proved",
   "theorems": [
    "Goidc.Props.C14_id_token"
   ],
   "note": ""
  },
  {
   "property": "C15",
   "status": "partial",
   "theorems": [
    "Goidc.Props.C15_false",
    "Goidc.Props.C15_no_token_partial"
   ],
   "note": "Does not hold of the code: when DisableSession or ID token signing fails after CreateOAuthToken, a refused request has created a token (C15_false); C15_no_token_partial proves these are the only cases."
  },
  {
   "property": "C16",
   "status": "proved",
   "theorems": [
    "Goidc.Props.C16_refresh",
    "Goidc.Props.C16_refresh_complete"
   ],
   "note": ""
  },
  {
   "property": "C17",
   "status": "proved",
   "theorems": [
    "Goidc.Props.C17_refresh_exact",
    "Goidc.Props.C17_refresh_overflow_refused",
    "Goidc.Props.C17_refresh_sound",
    "Goidc.Props.C17_access_sound",
    "Goidc.Props.C17_access_complete"
   ],
   "note": ""
  },
  {
   "property": "C18",
   "status": "proved",
   "theorems": [
    "Goidc.Props.C18_password"
   ],
   "note": ""
  },
  {
   "property": "C19",
   "status": "proved",
   "theorems": [
    "Goidc.Props.C19_client_credentials"
   ],
   "note": ""
  },
  {
   "property": "C20",
   "status": "proved",
   "theorems": [
    "Goidc.Props.C20_jwt_bearer"
   ],
   "note": ""
  },
  {
   "property": "C21",
   "status": "proved",
   "theorems": [
    "Goidc.Props.C21_recorded",
    "Goidc.Props.C21_no_replay",
    "Goidc.Props.C21_recording_store"
   ],
   "note": ""
  },
  {
   "property": "C22",
   "status": "proved",
   "theorems": [
    "Goidc.Props.C22_direct_scope",
    "Goidc.Props.C22_other_grants"
   ],
   "note": ""
  },
  {
   "property": "C23",
   "status": "proved",
   "theorems": [
    "Goidc.Props.C23_backend_errors",
    "Goidc.Props.C23_no_success"
   ],
   "note": ""
  },
  {
   "property": "C24",
   "status": "proved",
   "theorems": [
    "Goidc.Props.C24_authentication_first"
   ],
   "note": ""
  },
  {
   "property": "C25",
   "status": "proved",
   "theorems": [
    "Goidc.Props.C25_live",
    "Goidc.Props.C25_complete"
   ],
   "note": ""
  },
  {
   "property": "C26",
   "status": "proved",
   "theorems": [
    "Goidc.Props.C26_identity",
    "Goidc.Props.C26_others_unchanged"
   ],
   "note": ""
  },
  {
   "property": "C27",
   "status": "partial",
   "theorems": [
    "Goidc.Props.C27_refuses",
    "Goidc.Props.C27_admits_silent",
    "Goidc.Props.C27_no_panic_partial",
    "Goidc.Props.C27_false"
   ],
   "note": "Does not hold of the code: a nil AuthInfo with nil error panics (wrong variable tested at resource_protector.go:224), C27_false; C27_no_panic_partial proves this is the only panic."
  },
  {
   "property": "C28",
   "status": "proved",
   "theorems": [
    "Goidc.Props.C28_admits_iff",
    "Goidc.Props.C28_insufficient",
    "Goidc.Props.C28_refused"
   ],
   "note": ""
  },
  {
   "property": "C29",
   "status": "partial",
   "theorems": [
    "Goidc.Props.C29_body_ignored",
    "Goidc.Props.C29_policy_partial",
    "Goidc.Props.C29_header_only",
    "Goidc.Props.C29_query_only_from_all",
    "Goidc.Props.C29_false"
   ],
   "note": "The refusal half is proved; the acceptance half does not hold: a token in body or query is only considered when the Authorization header is present with an empty token (C29_false). C29_body_ignored: how general the defect is - unless the header is \"Bearer\" with an empty token, body and query never matter, under any policy."
  },
  {
   "property": "C30",
   "status": "proved",
   "theorems": [
    "Goidc.Props.C30_not_open_redirector",
    "Goidc.Props.C30_same_resource"
   ],
   "note": ""
  },
  {
   "property": "C31",
   "status": "proved",
   "theorems": [
    "Goidc.Props.C31_state",
    "Goidc.Props.C31_location_query",
    "Goidc.Props.C31_location_fragment",
    "Goidc.Props.C31_empty_query_quirk",
    "Goidc.Props.C31_complete",
    "Goidc.Props.C31_cancel"
   ],
   "note": ""
  },
  {
   "property": "C32",
   "status": "proved",
   "theorems": [
    "Goidc.Props.C32_not_weaker",
    "Goidc.Props.C32_default_no_query"
   ],
   "note": ""
  },
  {
   "property": "C33",
   "status": "partial",
   "theorems": [
    "Goidc.Props.C33_no_screens_partial",
    "Goidc.Props.C33_false",
    "Goidc.Props.C33_extent"
   ],
   "note": "Proved for prompt exactly 'none'; prompt='none none' passes validation and shows the login screen (C33_false). C33_extent: only a repeated none can do that."
  },
  {
   "property": "C34",
   "status": "proved",
   "theorems": [
    "Goidc.Props.C34_silent",
    "Goidc.Props.C34_forbidden"
   ],
   "note": ""
  },
  {
   "property": "C35",
   "status": "partial",
   "theorems": [
    "Goidc.Props.C35_max_age_partial",
    "Goidc.Props.C35_false",
    "Goidc.Props.C35_none_unread"
   ],
   "note": "Proved for prompts other than none; prompt=none skips the max_age check (C35_false). C35_none_unread: how general the defect is - with prompt=none two requests that differ in nothing but an acceptable max_age have the same runs."
  },
  {
   "property": "C36",
   "status": "proved",
   "theorems": [
    "Goidc.Props.C36_reauthenticated",
    "Goidc.Props.C36_login_shown"
   ],
   "note": ""
  },
  {
   "property": "C37",
   "status": "proved",
   "theorems": [
    "Goidc.Props.C37_consent_skipped"
   ],
   "note": ""
  },
  {
   "property": "C38",
   "status": "proved",
   "theorems": [
    "Goidc.Props.C38_handed_scope",
    "Goidc.Props.C38_offline_needs_consent",
    "Goidc.Props.C38_completed_scope"
   ],
   "note": ""
  },
  {
   "property": "C39",
   "status": "proved",
   "theorems": [
    "Goidc.Props.C39_handed",
    "Goidc.Props.C39_success"
   ],
   "note": ""
  },
  {
   "property": "C40",
   "status": "proved",
   "theorems": [
    "Goidc.Props.C40_handle",
    "Goidc.Props.C40_complete"
   ],
   "note": ""
  },
  {
   "property": "C41",
   "status": "proved",
   "theorems": [
    "Goidc.Props.C41_handle",
    "Goidc.Props.C41_complete"
   ],
   "note": ""
  },
  {
   "property": "C42",
   "status": "partial",
   "theorems": [
    "Goidc.Props.C42_lifetime_partial",
    "Goidc.Props.C42_false",
    "Goidc.Props.C42_complete_partial",
    "Goidc.Props.C42_implicit"
   ],
   "note": "Proved for the hybrid flow; the implicit flow delivers the lifetime as 'rexpires_in' (C42_false). C42_implicit shows the defect affects every implicit response with a token; C42_complete_partial is the clause through CompleteRequest for a response type with a code."
  },
  {
   "property": "C43",
   "status": "proved",
   "theorems": [
    "Goidc.Props.C43_cancel_touches_nothing",
    "Goidc.Props.C43_cancel_answers",
    "Goidc.Props.C43_complete_records_first",
    "Goidc.Props.C43_complete_answers"
   ],
   "note": ""
  },
  {
   "property": "C44",
   "status": "partial",
   "theorems": [
    "Goidc.Props.C44_one_outcome_partial",
    "Goidc.Props.C44_false"
   ],
   "note": "Proved except that a failing login screen demanded by prompt=login or max_age is not reported to the client (C44_false)."
  },
  {
   "property": "C45",
   "status": "partial",
   "theorems": [
    "Goidc.Props.C45_handle_partial",
    "Goidc.Props.C45_complete_partial",
    "Goidc.Props.C45_cancel_partial",
    "Goidc.Props.C45_false"
   ],
   "note": "Parameter values are proved harmless for every input; the redirect URI is not escaped, so the claim fails for a client that accepts a URI with a quote (C45_false)."
  },
  {
   "property": "C46",
   "status": "proved",
   "theorems": [
    "Goidc.Props.C46_include",
    "Goidc.Props.C46_includeAll_true",
    "Goidc.Props.C46_includeAll_fails",
    "Goidc.Props.C46_includeAll_cases",
    "Goidc.Props.C46_remove",
    "Goidc.Props.C46_remove_all",
    "Goidc.Props.C46_same_iff_perm",
    "Goidc.Props.C46_same_equivalence"
   ],
   "note": ""
  },
  {
   "property": "C47",
   "status": "proved",
   "theorems": [
    "Goidc.Props.C47_judge_iff",
    "Goidc.Props.C47_order_insensitive",
    "Goidc.Props.C47_accepted_tokens"
   ],
   "note": ""
  },
  {
   "property": "C48",
   "status": "proved",
   "theorems": [
    "Goidc.Props.C48_prompt_validate_iff",
    "Goidc.Props.C48_prompt_include_iff",
    "Goidc.Props.C48_prompt_includeAll_iff"
   ],
   "note": ""
  },
  {
   "property": "C49",
   "status": "proved",
   "theorems": [
    "Goidc.Props.C49_preorder",
    "Goidc.Props.C49_validate_iff",
    "Goidc.Props.C49_order"
   ],
   "note": ""
  },
  {
   "property": "C50",
   "status": "proved",
   "theorems": [
    "Goidc.Props.C50_roundtrip",
    "Goidc.Props.C50_only_encodings"
   ],
   "note": ""
  },
  {
   "property": "C51",
   "status": "proved",
   "theorems": [
    "Goidc.Props.C51_roundtrip",
    "Goidc.Props.C51_url_safe",
    "Goidc.Props.C51_injective",
    "Goidc.Props.C51_invalid_byte"
   ],
   "note": ""
  },
  {
   "property": "C52",
   "status": "proved",
   "theorems": [
    "Goidc.Props.C52_is_base64url",
    "Goidc.Props.C52_alphabet",
    "Goidc.Props.C52_length",
    "Goidc.Props.C52_roundtrip",
    "Goidc.Props.C52_injective",
    "Goidc.Props.C52_code_verifier"
   ],
   "note": ""
  },
  {
   "property": "C53",
   "status": "proved",
   "theorems": [
    "Goidc.Props.C53_methods",
    "Goidc.Props.C53_plain",
    "Goidc.Props.C53_s256"
   ],
   "note": ""
  },
  {
   "property": "C54",
   "status": "partial",
   "theorems": [
    "Goidc.Props.C54_read_back_escaped",
    "Goidc.Props.C54_roundtrip_partial",
    "Goidc.Props.C54_false"
   ],
   "note": "Proved exactly for unreserved characters; in general read back query-escaped (C54_read_back_escaped, C54_false)."
  },
  {
   "property": "C55",
   "status": "proved",
   "theorems": [
    "Goidc.Props.C55_json",
    "Goidc.Props.C55_json_any",
    "Goidc.Props.C55_header",
    "Goidc.Props.C55_header_any",
    "Goidc.Props.C55_header_unique",
    "Goidc.Props.C55_header_safe",
    "Goidc.Props.C55_query",
    "Goidc.Props.C55_codes",
    "Goidc.Props.C55_code_nonempty",
    "Goidc.Props.C55_registered",
    "Goidc.Props.C55_status",
    "Goidc.Props.C55_error_text",
    "Goidc.Props.C55_error_text_unique"
   ],
   "note": ""
  },
  {
   "property": "C56",
   "status": "proved",
   "theorems": [
    "Goidc.Props.C56_user_id"
   ],
   "note": ""
  },
  {
   "property": "C57",
   "status": "proved",
   "theorems": [
    "Goidc.Props.C57_served",
    "Goidc.Props.C57_bad_key",
    "Goidc.Props.C57_good_key"
   ],
   "note": ""
  },
  {
   "property": "C58",
   "status": "partial",
   "theorems": [
    "Goidc.Props.C58_always_logged",
    "Goidc.Props.C58_client_secret",
    "Goidc.Props.C58_unread_secret",
    "Goidc.Props.C58_password_partial",
    "Goidc.Props.C58_false"
   ],
   "note": "The client-secret clause is proved; the password clause is proved for runs in which FindUserId does not fail with an error. A refused password is logged in clear (C58_false). C58_always_logged: every password refused by the application is logged, for every request."
  },
  {
   "property": "C59",
   "status": "partial",
   "theorems": [
    "Goidc.Props.C59_event_names_injective",
    "Goidc.Props.C59_threshold",
    "Goidc.Props.C59_labels_partial",
    "Goidc.Props.C59_labels_not_injective",
    "Goidc.Props.C59_printed"
   ],
   "note": "Names, threshold and output proved; the labels of error and fatal equal that of debug (C59_labels_not_injective)."
  },
  {
   "property": "C60",
   "status": "proved",
   "theorems": [
    "Goidc.Props.C60_active_only",
    "Goidc.Props.C60_code_spent",
    "Goidc.Props.C60_token_accepted"
   ],
   "note": ""
  },
  {
   "property": "C61",
   "status": "proved",
   "theorems": [
    "Goidc.Props.C61_response",
    "Goidc.Props.C61_token_response",
    "Goidc.Props.C61_unique"
   ],
   "note": ""
  },
  {
   "property": "C62",
   "status": "partial",
   "theorems": [
    "Goidc.Props.C62_hint_accepted_partial",
    "Goidc.Props.C62_never_asymmetric",
    "Goidc.Props.C62_false",
    "Goidc.Props.C62_hint_accepted_jws_partial"
   ],
   "note": "Proved for shared-secret keys: for any library that reads back what it signed (C62_hint_accepted_partial), and for golang-jwt itself over arbitrary primitives (C62_hint_accepted_jws_partial: subject in UTF-8, times of at most 53 bits); for RSA/ECDSA keys a hint can never be accepted (C62_never_asymmetric, C62_false)."
  },
  {
   "property": "C63",
   "status": "partial",
   "theorems": [
    "Goidc.Props.C63_jwt_grant_partial",
    "Goidc.Props.C63_client_assertion_partial",
    "Goidc.Props.C63_false",
    "Goidc.Props.C63_undated"
   ],
   "note": "Proved for exp other than 0; exp=0 is accepted at any time (C63_false). C63_undated: how general the defect is - with assertions whose times are 0 or absent every run stays one whatever time the clock shows."
  },
  {
   "property": "C64",
   "status": "proved",
   "theorems": [
    "Goidc.Props.C64_exact",
    "Goidc.Props.C64_refused"
   ],
   "note": ""
  },
  {
   "property": "C65",
   "status": "partial",
   "theorems": [
    "Goidc.Props.C65_false",
    "Goidc.Props.C65_384_partial",
    "Goidc.Props.C65_defined_iff"
   ],
   "note": "Does not hold of the code: padded standard base64 is used; never right for 256/512 (C65_false), right for 384 exactly without + and / (C65_384_partial)."
  },
  {
   "property": "C66",
   "status": "partial",
   "theorems": [
    "Goidc.Props.C66_challenge_partial",
    "Goidc.Props.C66_false"
   ],
   "note": "Proved for realms without quote, backslash and control characters, which is exactly when it holds (basic_challenge); the realm is not quoted (C66_false)."
  },
  {
   "property": "C67",
   "status": "proved",
   "theorems": [
    "Goidc.Props.C67_refusal"
   ],
   "note": ""
  },
  {
   "property": "C68",
   "status": "proved",
   "theorems": [
    "Goidc.Props.C68_handler_executed",
    "Goidc.Props.C68_code",
    "Goidc.Props.C68_refresh",
    "Goidc.Props.C68_password",
    "Goidc.Props.C68_client_credentials",
    "Goidc.Props.C68_jwt"
   ],
   "note": ""
  },
  {
   "property": "C69",
   "status": "proved",
   "theorems": [
    "Goidc.Props.C69_reason",
    "Goidc.Props.C69_every_reason",
    "Goidc.Props.C69_unambiguous"
   ],
   "note": ""
  },
  {
   "property": "C70",
   "status": "proved",
   "theorems": [
    "Goidc.Props.C70_table",
    "Goidc.Props.C70_unambiguous",
    "Goidc.Props.C70_realised",
    "Goidc.Props.C70_missing",
    "Goidc.Props.C70_not_allowed"
   ],
   "note": ""
  },
  {
   "property": "C71",
   "status": "proved",
   "theorems": [
    "Goidc.Props.C71_no_response_type",
    "Goidc.Props.C71_response_type",
    "Goidc.Props.C71_first_fault",
    "Goidc.Props.C71_valid",
    "Goidc.Props.C71_delivery"
   ],
   "note": ""
  },
  {
   "property": "C72",
   "status": "proved",
   "theorems": [
    "Goidc.Props.C72_interaction_required",
    "Goidc.Props.C72_login_required",
    "Goidc.Props.C72_consent_required",
    "Goidc.Props.C72_login_hint_missing",
    "Goidc.Props.C72_id_token_hint_missing",
    "Goidc.Props.C72_id_token_hint_unreadable",
    "Goidc.Props.C72_id_token_hint_refused",
    "Goidc.Props.C72_id_token_hint_mismatch"
   ],
   "note": ""
  },
  {
   "property": "C73",
   "status": "proved",
   "theorems": [
    "Goidc.Props.C73_login_screen",
    "Goidc.Props.C73_consent_screen",
    "Goidc.Props.C73_issue"
   ],
   "note": ""
  },
  {
   "property": "C74",
   "status": "proved",
   "theorems": [
    "Goidc.Props.C74_table",
    "Goidc.Props.C74_unambiguous",
    "Goidc.Props.C74_realised",
    "Goidc.Props.C74_only_server_error"
   ],
   "note": ""
  },
  {
   "property": "C75",
   "status": "proved",
   "theorems": [
    "Goidc.Props.C75_jwt_grant",
    "Goidc.Props.C75_client_assertion",
    "Goidc.Props.C75_meaning"
   ],
   "note": ""
  },
  {
   "property": "C76",
   "status": "proved",
   "theorems": [
    "Goidc.Props.C76_table",
    "Goidc.Props.C76_unambiguous",
    "Goidc.Props.C76_realised",
    "Goidc.Props.C76_kind"
   ],
   "note": ""
  },
  {
   "property": "C77",
   "status": "proved",
   "theorems": [
    "Goidc.Props.C77_method",
    "Goidc.Props.C77_grant_type",
    "Goidc.Props.C77_no_credential",
    "Goidc.Props.C77_secret"
   ],
   "note": ""
  },
  {
   "property": "C78",
   "status": "proved",
   "theorems": [
    "Goidc.Props.C78_missing",
    "Goidc.Props.C78_code",
    "Goidc.Props.C78_refresh",
    "Goidc.Props.C78_direct"
   ],
   "note": ""
  },
  {
   "property": "C79",
   "status": "proved",
   "theorems": [
    "Goidc.Props.C79_jwt_grant",
    "Goidc.Props.C79_client_assertion"
   ],
   "note": ""
  },
  {
   "property": "C80",
   "status": "proved",
   "theorems": [
    "Goidc.Props.C80_header",
    "Goidc.Props.C80_body_parameter",
    "Goidc.Props.C80_parameter",
    "Goidc.Props.C80_basic_credentials",
    "Goidc.Props.C80_basic_unique",
    "Goidc.Props.C80_client_credentials",
    "Goidc.Props.C80_find_client_credential",
    "Goidc.Props.C80_client_assertion",
    "Goidc.Props.C80_bearer_token",
    "Goidc.Props.C80_base64"
   ],
   "note": ""
  },
  {
   "property": "C81",
   "status": "proved",
   "theorems": [
    "Goidc.Props.C81_code_origin",
    "Goidc.Props.C81_reference_store"
   ],
   "note": "KeepsRecords is the contract of the store; C81_reference_store proves it of every run of the reference store (fewer than 2^63 authorizations)."
  },
  {
   "property": "C82",
   "status": "proved",
   "theorems": [
    "Goidc.Props.C82_identity_origin",
    "Goidc.Props.C82_with_scopes",
    "Goidc.Props.C82_scope_allowed",
    "Goidc.Props.C82_reference_store"
   ],
   "note": "For Validate, and for ValidateWithScopes by C82_with_scopes. C82_reference_store has no assumption on the store left but fewer than 2^63 authorizations."
  },
  {
   "property": "C83",
   "status": "proved",
   "theorems": [
    "Goidc.Props.C83_line",
    "Goidc.Props.C83_deterministic",
    "Goidc.Props.C83_readable",
    "Goidc.Props.C83_printed"
   ],
   "note": ""
  },
  {
   "property": "C84",
   "status": "proved",
   "theorems": [
    "Goidc.Props.C84_explained",
    "Goidc.Props.C84_explained_builtin",
    "Goidc.Props.C84_granted"
   ],
   "note": ""
  },
  {
   "property": "C85",
   "status": "partial",
   "theorems": [
    "Goidc.Props.C85_reported",
    "Goidc.Props.C85_method_partial",
    "Goidc.Props.C85_complete",
    "Goidc.Props.C85_method_false",
    "Goidc.Props.C85_disable_false"
   ],
   "note": "Every failure is reported at once with the right event and level (C85_reported, C85_complete). Not every report names the method that exists: FindOAuthTokenByRefreshToken is logged as FindAccessTokenByRefreshToken, and errors of DisableSession other than ErrFailed as DisableCode (C85_method_false, C85_disable_false); all others are named (C85_method_partial)."
  },
  {
   "property": "C86",
   "status": "partial",
   "theorems": [
    "Goidc.Props.C86_validate",
    "Goidc.Props.C86_scopes_partial",
    "Goidc.Props.C86_reported_partial",
    "Goidc.Props.C86_scope_false",
    "Goidc.Props.C86_label_false",
    "Goidc.Props.C86_scope_silent"
   ],
   "note": "Refusals of Validate are all explained (C86_validate). insufficient_scope is not logged at all (C86_scope_false); some lines are filed under token_endpoint (C86_label_false); a (nil, nil) answer of FindActiveAuthInfoById panics unreported, an unknown token is reported without the method (C86_reported_partial). C86_scope_silent: no insufficient_scope refusal is ever logged."
  },
  {
   "property": "C87",
   "status": "partial",
   "theorems": [
    "Goidc.Props.C87_screens",
    "Goidc.Props.C87_callbacks_partial",
    "Goidc.Props.C87_complete",
    "Goidc.Props.C87_cancel",
    "Goidc.Props.C87_login_false",
    "Goidc.Props.C87_data_false"
   ],
   "note": "Error screens are all explained (C87_screens); callbacks are reported except a login screen shown for prompt=login or max_age (C87_login_false), and LoginUserIsMatchedToSubject goes by another name (C87_callbacks_partial). Failures of the data interface are mostly silent there (C87_data_false)."
  },
  {
   "property": "C88",
   "status": "proved",
   "theorems": [
    "Goidc.Props.C88_code_redeemable",
    "Goidc.Props.C88_refreshable",
    "Goidc.Props.C88_access_usable"
   ],
   "note": "C88_code_redeemable, C88_refreshable and C88_access_usable: over the reference store, any interleaving. Interference is limited only by what the statement names (nobody else spends the code, no other scope authorized, nobody else refreshes)."
  },
  {
   "property": "C89",
   "status": "proved",
   "theorems": [
    "Goidc.Props.C89_replaced",
    "Goidc.Props.C89_once"
   ],
   "note": "Over the reference store. The exception is real: the reference store names tokens after the authorization and creates one of the same name again for a new grant of the same user and client."
  },
  {
   "property": "C90",
   "status": "proved",
   "theorems": [
    "Goidc.Props.C90_confined",
    "Goidc.Props.C90_store",
    "Goidc.Props.C90_untouched"
   ],
   "note": "C90_confined: any store that keeps its records and never answers a recorded authorization with nil. C90_store/C90_untouched: the reference store, fresh codes, fewer than 2^63 authorizations."
  },
  {
   "property": "C91",
   "status": "proved",
   "theorems": [
    "Goidc.Props.C91_public",
    "Goidc.Props.C91_private",
    "Goidc.Props.C91_exclusive",
    "Goidc.Props.C91_sources",
    "Goidc.Props.C91_jwk"
   ],
   "note": "PEM and ASN.1 parsing, JWK parsing and file reading are parameters of the model (JwxLib); what is proved is what the loaders do with them."
  },
  {
   "property": "C92",
   "status": "proved",
   "theorems": [
    "Goidc.Props.C92_token",
    "Goidc.Props.C92_protector",
    "Goidc.Props.C92_header_only",
    "Goidc.Props.C92_unsupported",
    "Goidc.Props.C92_error_uri",
    "Goidc.Props.C92_default_policy",
    "Goidc.Props.C92_default_mode",
    "Goidc.Props.C92_default_delivery",
    "Goidc.Props.C92_default_code",
    "Goidc.Props.C92_default_code_completed",
    "Goidc.Props.C92_default_consent",
    "Goidc.Props.C92_default_id_token"
   ],
   "note": "C92_header_only, C92_error_uri: the five built-in grants. SetLogger, SetTimeBuilder and SetPolicy choose parameters of the model."
  },
  {
   "property": "C93",
   "status": "proved",
   "theorems": [
    "Goidc.Props.C93_client",
    "Goidc.Props.C93_user",
    "Goidc.Props.C93_user_ids",
    "Goidc.Props.C93_token",
    "Goidc.Props.C93_redirect",
    "Goidc.Props.C93_consent",
    "Goidc.Props.C93_identity"
   ],
   "note": "Set-up calls precede the requests. Fewer than 2^63 set-up calls and authorizations. A client assertion bypasses the grant type check (C03), so GrantAllowed is claimed for requests that present a secret. HMACs are opaque: the theorem says which secret the signature was checked under."
  },
  {
   "property": "C94",
   "status": "proved",
   "theorems": [
    "Goidc.Props.C94_usable",
    "Goidc.Props.C94_expired",
    "Goidc.Props.C94_refreshable",
    "Goidc.Props.C94_refresh_expired"
   ],
   "note": "Times are non-negative and below 2^62 for the two positive statements (no int64 overflow). The 30 days are those of the reference store. For C94_refreshable the refresh token is first handed out in g1: the reference store gives all tokens of an authorization the same refresh token, so an older token under it could be found instead."
  },
  {
   "property": "C95",
   "status": "proved",
   "theorems": [
    "Goidc.Props.C95_code",
    "Goidc.Props.C95_handle",
    "Goidc.Props.C95_complete",
    "Goidc.Props.C95_unambiguous"
   ],
   "note": "Over Jws.lib p for every choice p of the primitives (SHA-2, signature and verification functions, float64 conversion). A string that is not well-formed UTF-8 is written with replacement characters, as encoding/json does."
  },
  {
   "property": "C96",
   "status": "proved",
   "theorems": [
    "Goidc.Props.C96_client",
    "Goidc.Props.C96_jwt",
    "Goidc.Props.C96_text"
   ],
   "note": "C96_client and C96_jwt are about assertions that are well-formed JWS (JSON objects in unpadded base64url) whose numbers are in float64 range; C96_text is about every accepted assertion. exp = 0 never expires (C63)."
  },
  {
   "property": "C97",
   "status": "proved",
   "theorems": [
    "Goidc.Props.C97_client",
    "Goidc.Props.C97_jwt",
    "Goidc.Props.C97_signed"
   ],
   "note": "Numbers of at most 53 bits (beyond that the library's float64 conversion is a parameter)."
  },
  {
   "property": "C98",
   "status": "proved",
   "theorems": [
    "Goidc.Props.C98_token",
    "Goidc.Props.C98_authorization",
    "Goidc.Props.C98_decision",
    "Goidc.Props.C98_protector",
    "Goidc.Props.C98_protector_scopes"
   ],
   "note": ""
  },
  {
   "property": "C99",
   "status": "partial",
   "theorems": [
    "Goidc.Props.C99_client",
    "Goidc.Props.C99_code",
    "Goidc.Props.C99_refresh_partial",
    "Goidc.Props.C99_refresh_leak",
    "Goidc.Props.C99_refresh_false",
    "Goidc.Props.C99_protector"
   ],
   "note": "Proved for clients, codes and access tokens; for refresh tokens except expired ones: every expired refresh token is answered differently from one that does not exist, even to a client it does not belong to (C99_refresh_leak, C99_refresh_false)."
  },
  {
   "property": "C100",
   "status": "proved",
   "theorems": [
    "Goidc.Props.C100_authorization",
    "Goidc.Props.C100_decision",
    "Goidc.Props.C100_token"
   ],
   "note": ""
  },
  {
   "property": "C101",
   "status": "proved",
   "theorems": [
    "Goidc.Props.C101_token",
    "Goidc.Props.C101_authorization",
    "Goidc.Props.C101_complete",
    "Goidc.Props.C101_readonly"
   ],
   "note": ""
  },
  {
   "property": "C102",
   "status": "proved",
   "theorems": [
    "Goidc.Props.C102_client",
    "Goidc.Props.C102_jwt",
    "Goidc.Props.C102_hint",
    "Goidc.Props.C102_unique",
    "Goidc.Props.C102_strict"
   ],
   "note": ""
  },
  {
   "property": "C103",
   "status": "partial",
   "theorems": [
    "Goidc.Props.C103_decode_partial",
    "Goidc.Props.C103_plain_partial",
    "Goidc.Props.C103_blank",
    "Goidc.Props.C103_unique",
    "Goidc.Props.C103_false"
   ],
   "note": "Proved for every text whose members named flow are written without escapes (C103_decode_partial, C103_plain_partial), and for everything that is no object (C103_blank). In full it is false: flow/flow.go compares the text of the flow's type, so \"\\\\u0068ybrid\" is not recognised and what stands behind it is not read (C103_false)."
  },
  {
   "property": "C104",
   "status": "partial",
   "theorems": [
    "Goidc.Props.C104_authorization_partial",
    "Goidc.Props.C104_complete_partial",
    "Goidc.Props.C104_cancel_partial",
    "Goidc.Props.C104_token",
    "Goidc.Props.C104_protector",
    "Goidc.Props.C104_false"
   ],
   "note": "Proved for the token endpoint (C104_token) and protected resources (C104_protector) in full. At the authorization endpoint it is proved for every request whose redirect URI has no control character in its fragment (url.Parse refuses those before the fragment, which is an assumption on net/url stated as RejectsControl): a fragment accepted by the client is put into Location unchecked (C104_false). net/http replaces CR and LF in header values when it writes them, which is outside the model."
  },
  {
   "property": "C105",
   "status": "partial",
   "theorems": [
    "Goidc.Props.C105_one_line",
    "Goidc.Props.C105_token",
    "Goidc.Props.C105_authorization_partial",
    "Goidc.Props.C105_protector_partial",
    "Goidc.Props.C105_false"
   ],
   "note": "Proved for the token endpoint in full (C105_token) and for the other endpoints for requests whose decoded URL path has no control character: the path is printed as the realm without quoting, so GET /me%0A... without a token writes a line of its own (C105_false). Messages are constants of the library or error texts of callbacks and are assumed free of control characters."
  },
  {
   "property": "C106",
   "status": "proved",
   "theorems": [
    "Goidc.Props.C106_token",
    "Goidc.Props.C106_authorization",
    "Goidc.Props.C106_protector"
   ],
   "note": "For the authorization endpoint the other strings are empty exactly where these are (an empty access token is not hashed into at_hash, so an unsupported algorithm shows only with a non-empty one). The presented code, refresh token, access token and assertion are logged when they are refused (C85, C86)."
  },
  {
   "property": "C107",
   "status": "partial",
   "theorems": [
    "Goidc.Props.C107_body_first_partial",
    "Goidc.Props.C107_false",
    "Goidc.Props.C107_multipart_partial"
   ],
   "note": "In full it is false: the code reads parameters with r.FormValue, so a code exchange with an empty body and everything in the URL succeeds (C107_false). Proved: the URL counts only for parameters that are missing in the body (C107_body_first_partial); in multipart bodies the URL even wins over the body (C107_multipart_partial). Client secrets in the URL are honoured only under the acceptance policy that says so (C04)."
  },
  {
   "property": "C108",
   "status": "proved",
   "theorems": [
    "Goidc.Props.C108_threshold",
    "Goidc.Props.C108_set_level",
    "Goidc.Props.C108_printed",
    "Goidc.Props.C108_formatted",
    "Goidc.Props.C108_no_string",
    "Goidc.Props.C108_tells"
   ],
   "note": ""
  },
  {
   "property": "C109",
   "status": "proved",
   "theorems": [
    "Goidc.Props.C109_form_text",
    "Goidc.Props.C109_seen",
    "Goidc.Props.C109_spelling",
    "Goidc.Props.C109_no_form",
    "Goidc.Props.C109_posted"
   ],
   "note": ""
  },
  {
   "property": "C110",
   "status": "partial",
   "theorems": [
    "Goidc.Props.C110_challenge_unread_partial",
    "Goidc.Props.C110_verifier_unread_partial",
    "Goidc.Props.C110_false",
    "Goidc.Props.C110_reversed_partial"
   ],
   "note": "In full it is false: goidc takes code_verifier at the authorization endpoint and code_challenge at the token endpoint, and ignores the parameters where RFC 7636 has them, so a code requested with a challenge is handed to a request without a verifier (C110_false). Proved: that neither parameter is read (C110_challenge_unread_partial, C110_verifier_unread_partial), and that the reversed form protects (C110_reversed_partial; see C10, C81)."
  },
  {
   "property": "C111",
   "status": "partial",
   "theorems": [
    "Goidc.Props.C111_last_partial",
    "Goidc.Props.C111_false"
   ],
   "note": "In full it is false: tokens refer to the authorization of user and client, whose scope a later consent changes (C111_false, without any new token). Proved: the scope is that of the last authorization before the lookup (C111_last_partial); unless authorized again it is the one issued (C88_access_usable)."
  },
  {
   "property": "C112",
   "status": "proved",
   "theorems": [
    "Goidc.Props.C112_authorization",
    "Goidc.Props.C112_token",
    "Goidc.Props.C112_protector"
   ],
   "note": ""
  },
  {
   "property": "C113",
   "status": "partial",
   "theorems": [
    "Goidc.Props.C113_unread",
    "Goidc.Props.C113_false",
    "Goidc.Props.C113_silent_partial"
   ],
   "note": "In full it is false: an interactive request is answered for whoever is logged in, whatever its id_token_hint says (C113_false). C113_unread: how general the defect is - unless the request is silent and the client's policy asks for a hint, hints do not change anything in any run. Proved: silent requests of clients with the id_token_hint policy honour it (C113_silent_partial)."
  },
  {
   "property": "C114",
   "status": "partial",
   "theorems": [
    "Goidc.Props.C114_unread",
    "Goidc.Props.C114_false"
   ],
   "note": "In full it is false: CompleteRequest does not look at max_age (C114_false: answered 200 seconds after the login with max_age=60). C114_unread: how general the defect is - max_age, prompt, display, locale and hints of the continued request change nothing in any run of CompleteRequest or CancelRequest. HandleRequest enforces max_age before the consent screen (C35)."
  },
  {
   "property": "C115",
   "status": "proved",
   "theorems": [
    "Goidc.Props.C115_handle",
    "Goidc.Props.C115_decision",
    "Goidc.Props.C115_get_post"
   ],
   "note": ""
  },
  {
   "property": "C116",
   "status": "proved",
   "theorems": [
    "Goidc.Props.C116_token",
    "Goidc.Props.C116_authorization"
   ],
   "note": ""
  },
  {
   "property": "C117",
   "status": "partial",
   "theorems": [
    "Goidc.Props.C117_false",
    "Goidc.Props.C117_first_counts"
   ],
   "note": "In full it is false: requests with repeated parameters are granted at both endpoints (C117_false). C117_first_counts: how general this is - repeating a parameter of a form, in the body or in the URL, never changes anything in any run; the first value counts."
  },
  {
   "property": "C118",
   "status": "proved",
   "theorems": [
    "Goidc.Props.C118_token",
    "Goidc.Props.C118_authorization"
   ],
   "note": ""
  },
  {
   "property": "C119",
   "status": "partial",
   "theorems": [
    "Goidc.Props.C119_false",
    "Goidc.Props.C119_unread"
   ],
   "note": "In full it is false: assertions without an issuer are accepted, as client authentication and as a grant (C119_false). C119_unread: how general this is - setting or removing iss in all assertions changes nothing in any run of the token endpoint."
  },
  {
   "property": "C120",
   "status": "partial",
   "theorems": [
    "Goidc.Props.C120_false",
    "Goidc.Props.C120_one_counts"
   ],
   "note": "In full it is false: a request with the credentials of two clients is granted (C120_false). C120_one_counts: how general this is - one credential counts (a secret before an assertion, in the order of the acceptance policy), and the others have no influence on any run."
  },
  {
   "property": "C121",
   "status": "proved",
   "theorems": [
    "Goidc.Props.C121_served",
    "Goidc.Props.C121_plugged",
    "Goidc.Props.C121_others"
   ],
   "note": ""
  },
  {
   "property": "C122",
   "status": "partial",
   "theorems": [
    "Goidc.Props.C122_false",
    "Goidc.Props.C122_client"
   ],
   "note": "In full it is false: a client is authenticated by an assertion with a critical extension (C122_false). C122_client: how general this is - no assertion that conforms otherwise is refused for the extensions it lists."
  },
  {
   "property": "C123",
   "status": "partial",
   "theorems": [
    "Goidc.Props.C123_false"
   ],
   "note": "In full it is false: the second use of the code is refused (C60), but the token issued for the first goes on to admit requests (C123_false; in general: C88_access_usable)."
  },
  {
   "property": "C124",
   "status": "partial",
   "theorems": [
    "Goidc.Props.C124_unread",
    "Goidc.Props.C124_false"
   ],
   "note": "In full it is false: a hint of another issuer, for another audience, with another algorithm is accepted if it verifies under the client's ID token key (C124_false, three separate refutations over golang-jwt). C124_unread: how general this is - of a hint that verifies, only subject and times count, in every run; that it must verify is C102_hint."
  },
  {
   "property": "C125",
   "status": "proved",
   "theorems": [
    "Goidc.Props.C125_once"
   ],
   "note": ""
  },
  {
   "property": "C126",
   "status": "proved",
   "theorems": [
    "Goidc.Props.C126_holder",
    "Goidc.Props.C126_stranger"
   ],
   "note": ""
  },
  {
   "property": "C127",
   "status": "partial",
   "theorems": [
    "Goidc.Props.C127_faulty_partial",
    "Goidc.Props.C127_false"
   ],
   "note": "In full it is false: the claims are recorded before the audience is compared, so a (correctly signed) assertion for another server uses up its jti here (C127_false; an example beside it shows the right assertion being refused afterwards). C127_faulty_partial: badly signed, untimely and exp-less assertions are never recorded."
  },
  {
   "property": "C128",
   "status": "proved",
   "theorems": [
    "Goidc.Props.C128_token",
    "Goidc.Props.C128_untouched",
    "Goidc.Props.C128_protector",
    "Goidc.Props.C128_protector_scopes"
   ],
   "note": ""
  },
  {
   "property": "C129",
   "status": "proved",
   "theorems": [
    "Goidc.Props.C129_access",
    "Goidc.Props.C129_access_scopes",
    "Goidc.Props.C129_refresh"
   ],
   "note": ""
  },
  {
   "property": "C130",
   "status": "partial",
   "theorems": [
    "Goidc.Props.C130_others_partial",
    "Goidc.Props.C130_token_partial",
    "Goidc.Props.C130_false"
   ],
   "note": "In full it is false: CompleteRequest serves a login that was begun before the client was removed without looking the client up (C130_false). C130_others_partial: every changing call of any other later request is made for, and concerns, another client; C130_token_partial: a later token response goes to another client."
  }
 ]
}