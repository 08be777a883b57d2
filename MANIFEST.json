{
 "claims": [
  {
   "property": "C01",
   "status": "proved",
   "theorems": [
    "OAuth2.C01_token_roundtrip"
   ],
   "note": ""
  },
  {
   "property": "C02",
   "status": "proved",
   "theorems": [
    "OAuth2.C02_sha256",
    "OAuth2.C02_hmac",
    "OAuth2.C02_accept_standard",
    "OAuth2.C02_accept_iff",
    "OAuth2.C02_reject_forged"
   ],
   "note": ""
  },
  {
   "property": "C03",
   "status": "proved",
   "theorems": [
    "OAuth2.C03_spellings",
    "OAuth2.C03_canonical",
    "OAuth2.C03_distinct",
    "OAuth2.C03_malleable"
   ],
   "note": ""
  },
  {
   "property": "C04",
   "status": "proved",
   "theorems": [
    "OAuth2.C04_transport_safe"
   ],
   "note": ""
  },
  {
   "property": "C05",
   "status": "proved",
   "theorems": [
    "OAuth2.C05_generate",
    "OAuth2.C05_mustGenerate"
   ],
   "note": ""
  },
  {
   "property": "C06",
   "status": "proved",
   "theorems": [
    "OAuth2.C06_parse",
    "OAuth2.C06_parse_unique",
    "OAuth2.C06_clean",
    "OAuth2.C06_roundtrip",
    "OAuth2.C06_idempotent"
   ],
   "note": ""
  },
  {
   "property": "C07",
   "status": "proved",
   "theorems": [
    "OAuth2.C07_includes",
    "OAuth2.C07_contains",
    "OAuth2.C07_empty",
    "OAuth2.C07_refl",
    "OAuth2.C07_trans",
    "OAuth2.C07_same_items",
    "OAuth2.C07_empty_included"
   ],
   "note": ""
  },
  {
   "property": "C08",
   "status": "proved",
   "theorems": [
    "OAuth2.C08_json_roundtrip",
    "OAuth2.C08_json_exact",
    "OAuth2.C08_json_empty"
   ],
   "note": ""
  },
  {
   "property": "C09",
   "status": "proved",
   "theorems": [
    "OAuth2.C09_bearer_accept_iff",
    "OAuth2.C09_no_header",
    "OAuth2.C09_malformed"
   ],
   "note": ""
  },
  {
   "property": "C10",
   "status": "proved",
   "theorems": [
    "OAuth2.C10_internal",
    "OAuth2.C10_challenge"
   ],
   "note": ""
  },
  {
   "property": "C11",
   "status": "proved",
   "theorems": [
    "OAuth2.C11_params_exact",
    "OAuth2.C11_params_deterministic"
   ],
   "note": ""
  },
  {
   "property": "C12",
   "status": "proved",
   "theorems": [
    "OAuth2.C12_error_roundtrip",
    "OAuth2.C12_foreign_error"
   ],
   "note": ""
  },
  {
   "property": "C13",
   "status": "partial",
   "theorems": [
    "OAuth2.C13_refuted",
    "OAuth2.C13_params_determine_partial"
   ],
   "note": "The property as stated is false (C13_refuted: quotes are not escaped). Proved for fields without quotes. C84 says exactly which errors a client that follows RFC 7235 can read back."
  },
  {
   "property": "C14",
   "status": "proved",
   "theorems": [
    "OAuth2.C14_query_redirect",
    "OAuth2.C14_query_get",
    "OAuth2.C14_unparsable",
    "OAuth2.C14_shadow",
    "OAuth2.C14_zone"
   ],
   "note": ""
  },
  {
   "property": "C15",
   "status": "partial",
   "theorems": [
    "OAuth2.C15_fragment_redirect",
    "OAuth2.C15_single_decode_partial",
    "OAuth2.C15_double_escape"
   ],
   "note": "The second half of the property is false (C15_double_escape). C56 says exactly what a client that decodes once finds."
  },
  {
   "property": "C16",
   "status": "proved",
   "theorems": [
    "OAuth2.C16_redirect_deterministic"
   ],
   "note": ""
  },
  {
   "property": "C17",
   "status": "partial",
   "theorems": [
    "OAuth2.C17_no_fragment_partial",
    "OAuth2.C17_fragment_never_seen",
    "OAuth2.C17_authorization_refuted",
    "OAuth2.C17_token_refuted"
   ],
   "note": "The property as stated is false (C17_authorization_refuted, C17_token_refuted: the fragment check never fires). C52 describes exactly which redirect URIs are accepted."
  },
  {
   "property": "C18",
   "status": "proved",
   "theorems": [
    "OAuth2.C18_token_request",
    "OAuth2.C18_colon"
   ],
   "note": ""
  },
  {
   "property": "C19",
   "status": "proved",
   "theorems": [
    "OAuth2.C19_introspection_request",
    "OAuth2.C19_revocation_request"
   ],
   "note": ""
  },
  {
   "property": "C20",
   "status": "partial",
   "theorems": [
    "OAuth2.C20_authorization_redirect_partial",
    "OAuth2.C20_authorization_redirect_iff",
    "OAuth2.C20_authorization_redirect_encoded",
    "OAuth2.C20_refuted",
    "OAuth2.C20_token_redirect_partial",
    "OAuth2.C20_token_redirect_iff",
    "OAuth2.C20_token_redirect_encoded"
   ],
   "note": "The property as stated is false (C20_refuted: the redirect URI is unescaped twice). C52 and C18 describe exactly which URI is compared."
  },
  {
   "property": "C21",
   "status": "proved",
   "theorems": [
    "OAuth2.C21_header_wins",
    "OAuth2.C21_body_otherwise",
    "OAuth2.C21_body_ignored"
   ],
   "note": ""
  },
  {
   "property": "C22",
   "status": "proved",
   "theorems": [
    "OAuth2.C22_served_query",
    "OAuth2.C22_token_query",
    "OAuth2.C22_introspection_query",
    "OAuth2.C22_revocation_query"
   ],
   "note": ""
  },
  {
   "property": "C23",
   "status": "proved",
   "theorems": [
    "OAuth2.C23_token_response",
    "OAuth2.C23_token_response_exact"
   ],
   "note": ""
  },
  {
   "property": "C24",
   "status": "proved",
   "theorems": [
    "OAuth2.C24_introspection_response",
    "OAuth2.C24_introspection_response_exact",
    "OAuth2.C24_inexpressible",
    "OAuth2.C24_unknown_type_refused"
   ],
   "note": ""
  },
  {
   "property": "C25",
   "status": "proved",
   "theorems": [
    "OAuth2.C25_token_smaller_limit",
    "OAuth2.C25_introspection_smaller_limit",
    "OAuth2.C25_token_whole_body",
    "OAuth2.C25_introspection_whole_body",
    "OAuth2.C25_error_smaller_limit"
   ],
   "note": ""
  },
  {
   "property": "C26",
   "status": "proved",
   "theorems": [
    "OAuth2.C26_not_cached",
    "OAuth2.C26_handed_out"
   ],
   "note": ""
  },
  {
   "property": "C27",
   "status": "proved",
   "theorems": [
    "OAuth2.C27_admits_iff",
    "OAuth2.C27_admits_only"
   ],
   "note": ""
  },
  {
   "property": "C28",
   "status": "proved",
   "theorems": [
    "OAuth2.C28_usable"
   ],
   "note": ""
  },
  {
   "property": "C29",
   "status": "proved",
   "theorems": [
    "OAuth2.C29_not_admitted",
    "OAuth2.C29_introspected_inactive",
    "OAuth2.C29_not_refreshed"
   ],
   "note": ""
  },
  {
   "property": "C30",
   "status": "proved",
   "theorems": [
    "OAuth2.C30_only_own",
    "OAuth2.C30_nothing_else",
    "OAuth2.C30_foreign_refused",
    "OAuth2.C30_owner_revokes"
   ],
   "note": ""
  },
  {
   "property": "C31",
   "status": "proved",
   "theorems": [
    "OAuth2.C31_used_once",
    "OAuth2.C31_between_uses"
   ],
   "note": ""
  },
  {
   "property": "C32",
   "status": "proved",
   "theorems": [
    "OAuth2.C32_chain",
    "OAuth2.C32_wider_refused",
    "OAuth2.C32_not_wider"
   ],
   "note": ""
  },
  {
   "property": "C33",
   "status": "proved",
   "theorems": [
    "OAuth2.C33_redeemed_once"
   ],
   "note": ""
  },
  {
   "property": "C34",
   "status": "partial",
   "theorems": [
    "OAuth2.C34_replay_refused",
    "OAuth2.C34_replay_revokes_partial",
    "OAuth2.C34_not_admitted_partial",
    "OAuth2.C34_not_refreshed_partial",
    "OAuth2.C34_refuted"
   ],
   "note": "The property as stated is false for tokens obtained by refreshing (C34_refuted). C57 says exactly which tokens a replay takes away."
  },
  {
   "property": "C35",
   "status": "proved",
   "theorems": [
    "OAuth2.C35_code_origin",
    "OAuth2.C35_code_bound",
    "OAuth2.C35_refused"
   ],
   "note": ""
  },
  {
   "property": "C36",
   "status": "proved",
   "theorems": [
    "OAuth2.C36_token_scope",
    "OAuth2.C36_code_scope",
    "OAuth2.C36_not_admitted"
   ],
   "note": ""
  },
  {
   "property": "C37",
   "status": "proved",
   "theorems": [
    "OAuth2.C37_token",
    "OAuth2.C37_introspection",
    "OAuth2.C37_revocation"
   ],
   "note": ""
  },
  {
   "property": "C38",
   "status": "proved",
   "theorems": [
    "OAuth2.C38_public_client"
   ],
   "note": ""
  },
  {
   "property": "C39",
   "status": "proved",
   "theorems": [
    "OAuth2.C39_redirects_registered",
    "OAuth2.C39_refused"
   ],
   "note": ""
  },
  {
   "property": "C40",
   "status": "partial",
   "theorems": [
    "OAuth2.C40_changes_nothing",
    "OAuth2.C40_truth_partial",
    "OAuth2.C40_expired_refuted",
    "OAuth2.C40_foreign_refused",
    "OAuth2.C40_described",
    "OAuth2.C40_unknown_inactive"
   ],
   "note": "Refuted in part (C40_expired_refuted): introspection does not look at the expiry time. Everything else is proved; C40_truth_partial for expiry times that fit in an int64 of seconds, C81_introspection says what the exp is with Go's 64-bit times."
  },
  {
   "property": "C41",
   "status": "proved",
   "theorems": [
    "OAuth2.C41_only_asks",
    "OAuth2.C41_error",
    "OAuth2.C41_changes",
    "OAuth2.C41_error_rights"
   ],
   "note": ""
  },
  {
   "property": "C42",
   "status": "proved",
   "theorems": [
    "OAuth2.C42_random_failure"
   ],
   "note": ""
  },
  {
   "property": "C43",
   "status": "proved",
   "theorems": [
    "OAuth2.C43_token_consent",
    "OAuth2.C43_code_consent"
   ],
   "note": ""
  },
  {
   "property": "C44",
   "status": "proved",
   "theorems": [
    "OAuth2.C44_implicit",
    "OAuth2.C44_code",
    "OAuth2.C44_get"
   ],
   "note": ""
  },
  {
   "property": "C45",
   "status": "proved",
   "theorems": [
    "OAuth2.C45_announced",
    "OAuth2.C45_accepted",
    "OAuth2.C45_seconds"
   ],
   "note": ""
  },
  {
   "property": "C46",
   "status": "proved",
   "theorems": [
    "OAuth2.C46_answered_once",
    "OAuth2.C46_authorize_once",
    "OAuth2.C46_without_coins"
   ],
   "note": ""
  },
  {
   "property": "C47",
   "status": "proved",
   "theorems": [
    "OAuth2.C47_linearizable",
    "OAuth2.C47_sequential",
    "OAuth2.C47_race_free",
    "OAuth2.C47_no_access",
    "OAuth2.C47_progress",
    "OAuth2.C47_terminates",
    "OAuth2.C47_completes",
    "OAuth2.C47_refresh_once",
    "OAuth2.C47_code_once"
   ],
   "note": "Goroutines run the modelled programs one effect at a time under an arbitrary scheduler; sync.Mutex is the only synchronisation. Random bytes and clock readings of each call are arbitrary. No fairness between waiting goroutines is claimed: C47_terminates and C47_completes are about runs without further calls."
  },
  {
   "property": "C48",
   "status": "proved",
   "theorems": [
    "OAuth2.C48_code_expired",
    "OAuth2.C48_refresh_expired"
   ],
   "note": ""
  },
  {
   "property": "C49",
   "status": "proved",
   "theorems": [
    "OAuth2.C49_authenticate",
    "OAuth2.C49_granted",
    "OAuth2.C49_introspect",
    "OAuth2.C49_revoke",
    "OAuth2.C49_accepted",
    "OAuth2.C49_described",
    "OAuth2.C49_revoked",
    "OAuth2.C49_refused"
   ],
   "note": "The transport hands the request to the server model and the response back. Hypotheses: the request fits the wire (client id without colon, clean scope, body up to 10 MB), the response fits the client's limit, lifetimes fit in an int64, and no token of the other kind shares the signature."
  },
  {
   "property": "C50",
   "status": "proved",
   "theorems": [
    "OAuth2.C50_last_segment",
    "OAuth2.C50_not_found"
   ],
   "note": ""
  },
  {
   "property": "C51",
   "status": "proved",
   "theorems": [
    "OAuth2.C51_password_granted",
    "OAuth2.C51_client_granted",
    "OAuth2.C51_code_granted",
    "OAuth2.C51_refresh_granted",
    "OAuth2.C51_authorization_granted"
   ],
   "note": ""
  },
  {
   "property": "C52",
   "status": "proved",
   "theorems": [
    "OAuth2.C52_token_accepted",
    "OAuth2.C52_introspection_accepted",
    "OAuth2.C52_revocation_accepted",
    "OAuth2.C52_authorization_accepted",
    "OAuth2.C52_refusals",
    "OAuth2.C52_token_refused",
    "OAuth2.C52_introspection_refused",
    "OAuth2.C52_revocation_refused",
    "OAuth2.C52_authorization_refused"
   ],
   "note": ""
  },
  {
   "property": "C53",
   "status": "proved",
   "theorems": [
    "OAuth2.C53_token_redirect",
    "OAuth2.C53_code_redirect",
    "OAuth2.C53_error_redirect",
    "OAuth2.C53_error_headers"
   ],
   "note": ""
  },
  {
   "property": "C54",
   "status": "proved",
   "theorems": [
    "OAuth2.C54_token",
    "OAuth2.C54_introspection",
    "OAuth2.C54_revocation",
    "OAuth2.C54_status",
    "OAuth2.C54_error_document",
    "OAuth2.C54_broken"
   ],
   "note": ""
  },
  {
   "property": "C55",
   "status": "proved",
   "theorems": [
    "OAuth2.C55_suite_passes",
    "OAuth2.C55_server_test"
   ],
   "note": ""
  },
  {
   "property": "C56",
   "status": "proved",
   "theorems": [
    "OAuth2.C56_once_decoded",
    "OAuth2.C56_exact_iff_plain"
   ],
   "note": ""
  },
  {
   "property": "C57",
   "status": "proved",
   "theorems": [
    "OAuth2.C57_replay_exact",
    "OAuth2.C57_refreshed_survives",
    "OAuth2.C57_who_ends"
   ],
   "note": "The replay is detected before ownership and expiry are looked at, so any identified client can end the tokens of another client by presenting its used code."
  },
  {
   "property": "C58",
   "status": "proved",
   "theorems": [
    "OAuth2.C58_answer",
    "OAuth2.C58_effect",
    "OAuth2.C58_run",
    "OAuth2.C58_proper"
   ],
   "note": "Proper says that no key occurs twice in a map; C58_proper shows that this is so in every history."
  },
  {
   "property": "C59",
   "status": "proved",
   "theorems": [
    "OAuth2.C59_redirect",
    "OAuth2.C59_bearer",
    "OAuth2.C59_server",
    "OAuth2.C59_requests"
   ],
   "note": "Sane: the scope the embedding program passes to Authorize has no control characters."
  },
  {
   "property": "C60",
   "status": "proved",
   "theorems": [
    "OAuth2.C60_serve",
    "OAuth2.C60_authorize",
    "OAuth2.C60_run"
   ],
   "note": "A writer's behaviour is an arbitrary function of the index of the call on it; its own state is not observed by the code, so nothing is lost. A client whose refresh was answered into a broken connection has lost its refresh token (example beside C60_run)."
  },
  {
   "property": "C61",
   "status": "proved",
   "theorems": [
    "OAuth2.C61_same_answers",
    "OAuth2.C61_same_tokens",
    "OAuth2.C61_another_secret"
   ],
   "note": "The converse (other secrets refuse the token) rests on the strength of HMAC-SHA256 and is not a theorem about this code."
  },
  {
   "property": "C62",
   "status": "proved",
   "theorems": [
    "OAuth2.C62_same_answer",
    "OAuth2.C62_same_answers",
    "OAuth2.C62_user",
    "OAuth2.C62_client"
   ],
   "note": ""
  },
  {
   "property": "C63",
   "status": "proved",
   "theorems": [
    "OAuth2.C63_answer",
    "OAuth2.C63_twice",
    "OAuth2.C63_succeeds_iff"
   ],
   "note": ""
  },
  {
   "property": "C64",
   "status": "proved",
   "theorems": [
    "OAuth2.C64_access_tokens",
    "OAuth2.C64_refresh_tokens",
    "OAuth2.C64_codes",
    "OAuth2.C64_codes_kept",
    "OAuth2.C64_size"
   ],
   "note": ""
  },
  {
   "property": "C65",
   "status": "proved",
   "theorems": [
    "OAuth2.C65_implicit_flow",
    "OAuth2.C65_code_flow",
    "OAuth2.C65_refresh_flow"
   ],
   "note": ""
  },
  {
   "property": "C66",
   "status": "proved",
   "theorems": [
    "OAuth2.C66_malformed_explained",
    "OAuth2.C66_malformed_iff",
    "OAuth2.C66_token",
    "OAuth2.C66_token_explained",
    "OAuth2.C66_introspection",
    "OAuth2.C66_revocation",
    "OAuth2.C66_introspection_explained",
    "OAuth2.C66_revocation_explained",
    "OAuth2.C66_visit",
    "OAuth2.C66_visit_explained",
    "OAuth2.C66_submit",
    "OAuth2.C66_malformed",
    "OAuth2.C66_access"
   ],
   "note": ""
  },
  {
   "property": "C67",
   "status": "proved",
   "theorems": [
    "OAuth2.C67_request",
    "OAuth2.C67_lossy_authenticate",
    "OAuth2.C67_lossy_introspect",
    "OAuth2.C67_effect",
    "OAuth2.C67_authenticate",
    "OAuth2.C67_introspect",
    "OAuth2.C67_revoke"
   ],
   "note": ""
  },
  {
   "property": "C68",
   "status": "proved",
   "theorems": [
    "OAuth2.C68_answers",
    "OAuth2.C68_challenge"
   ],
   "note": ""
  },
  {
   "property": "C69",
   "status": "proved",
   "theorems": [
    "OAuth2.C69_linearizable",
    "OAuth2.C69_progress",
    "OAuth2.C69_completes",
    "OAuth2.C69_terminates"
   ],
   "note": ""
  },
  {
   "property": "C70",
   "status": "proved",
   "theorems": [
    "OAuth2.C70_same",
    "OAuth2.C70_authorize",
    "OAuth2.C70_posted",
    "OAuth2.C70_credentials"
   ],
   "note": ""
  },
  {
   "property": "C71",
   "status": "proved",
   "theorems": [
    "OAuth2.C71_access",
    "OAuth2.C71_refresh",
    "OAuth2.C71_code",
    "OAuth2.C71_nothing_else",
    "OAuth2.C71_authorize"
   ],
   "note": ""
  },
  {
   "property": "C72",
   "status": "proved",
   "theorems": [
    "OAuth2.C72_in_force",
    "OAuth2.C72_admits",
    "OAuth2.C72_refresh_once",
    "OAuth2.C72_code_once",
    "OAuth2.C72_replayed_for_good",
    "OAuth2.C72_revoked_for_good",
    "OAuth2.C72_used_for_good",
    "OAuth2.C72_failure"
   ],
   "note": ""
  },
  {
   "property": "C73",
   "status": "proved",
   "theorems": [
    "OAuth2.C73_tokens",
    "OAuth2.C73_codes",
    "OAuth2.C73_admits_iff",
    "OAuth2.C73_granted_iff",
    "OAuth2.C73_kept",
    "OAuth2.C73_gone",
    "OAuth2.C73_seeded_admitted"
   ],
   "note": ""
  },
  {
   "property": "C74",
   "status": "proved",
   "theorems": [
    "OAuth2.C74_json",
    "OAuth2.C74_token",
    "OAuth2.C74_introspection",
    "OAuth2.C74_error",
    "OAuth2.C74_error_other",
    "OAuth2.C74_unambiguous",
    "OAuth2.C74_content_type",
    "OAuth2.C74_unknown"
   ],
   "note": ""
  },
  {
   "property": "C75",
   "status": "proved",
   "theorems": [
    "OAuth2.C75_form",
    "OAuth2.C75_escapes",
    "OAuth2.C75_content_type",
    "OAuth2.C75_target",
    "OAuth2.C75_reference",
    "OAuth2.C75_credentials",
    "OAuth2.C75_parameters",
    "OAuth2.C75_token_request",
    "OAuth2.C75_introspection_request",
    "OAuth2.C75_revocation_request",
    "OAuth2.C75_authorization_request",
    "OAuth2.C75_json_response"
   ],
   "note": ""
  },
  {
   "property": "C76",
   "status": "proved",
   "theorems": [
    "OAuth2.C76_chain",
    "OAuth2.C76_once",
    "OAuth2.C76_endpoints",
    "OAuth2.C76_connected",
    "OAuth2.C76_token",
    "OAuth2.C76_abroad",
    "OAuth2.C76_abroad_later"
   ],
   "note": ""
  },
  {
   "property": "C77",
   "status": "proved",
   "theorems": [
    "OAuth2.C77_same",
    "OAuth2.C77_kept",
    "OAuth2.C77_stays",
    "OAuth2.C77_exact",
    "OAuth2.C77_history",
    "OAuth2.C77_new",
    "OAuth2.C77_zero",
    "OAuth2.C77_object_once"
   ],
   "note": ""
  },
  {
   "property": "C78",
   "status": "proved",
   "theorems": [
    "OAuth2.C78_requirements",
    "OAuth2.C78_flawed",
    "OAuth2.C78_password",
    "OAuth2.C78_client_credentials",
    "OAuth2.C78_implicit",
    "OAuth2.C78_code",
    "OAuth2.C78_refresh",
    "OAuth2.C78_revocation",
    "OAuth2.C78_blind"
   ],
   "note": ""
  },
  {
   "property": "C79",
   "status": "proved",
   "theorems": [
    "OAuth2.C79_nearest",
    "OAuth2.C79_exact",
    "OAuth2.C79_integers",
    "OAuth2.C79_integers_collide"
   ],
   "note": ""
  },
  {
   "property": "C80",
   "status": "proved",
   "theorems": [
    "OAuth2.C80_6749_post",
    "OAuth2.C80_6749_omitted",
    "OAuth2.C80_6749_authenticate",
    "OAuth2.C80_6749_basicPlain",
    "OAuth2.C80_6749_codeOnce",
    "OAuth2.C80_6749_codeExpires",
    "OAuth2.C80_6749_codeBound",
    "OAuth2.C80_6749_codeRevokesDirect",
    "OAuth2.C80_6749_password",
    "OAuth2.C80_6749_confidential",
    "OAuth2.C80_6749_refresh",
    "OAuth2.C80_6749_scope",
    "OAuth2.C80_6749_tokenResponse",
    "OAuth2.C80_6749_noStore",
    "OAuth2.C80_6749_once",
    "OAuth2.C80_6749_errorStatusOther",
    "OAuth2.C80_6749_errorCodeOther",
    "OAuth2.C80_6749_errorText",
    "OAuth2.C80_6749_challenge",
    "OAuth2.C80_6749_unknownGrantType",
    "OAuth2.C80_6749_badCodeSigned",
    "OAuth2.C80_6749_errorRedirectKnown",
    "OAuth2.C80_6749_redirectMatchPlain",
    "OAuth2.C80_6749_noRedirect",
    "OAuth2.C80_6749_state",
    "OAuth2.C80_6749_stateImplicitPlain",
    "OAuth2.C80_6749_implicitNoRefresh",
    "OAuth2.C80_6749_basic_refuted",
    "OAuth2.C80_6749_redirectMatch_refuted",
    "OAuth2.C80_6749_stateImplicit_refuted",
    "OAuth2.C80_6749_errorRedirect_refuted",
    "OAuth2.C80_6749_codeRevokes_refuted",
    "OAuth2.C80_6749_clientNoRefresh_refuted",
    "OAuth2.C80_6749_errorStatus_refuted",
    "OAuth2.C80_6749_errorCode_refuted",
    "OAuth2.C80_6749_repeated_refuted",
    "OAuth2.C80_6749_oneMechanism_refuted",
    "OAuth2.C80_6749_unsupportedGrantType_refuted",
    "OAuth2.C80_6749_badPassword_refuted",
    "OAuth2.C80_6749_badCode_refuted",
    "OAuth2.C80_6749_refreshScope_refuted",
    "OAuth2.C80_7009_cascades_refuted",
    "OAuth2.C80_7009_invalidToken_refuted",
    "OAuth2.C80_7662_authorization_refuted",
    "OAuth2.C80_7662_notExpired_refuted",
    "OAuth2.C80_7662_unknown_refuted",
    "OAuth2.C80_7662_foreign_refuted",
    "OAuth2.C80_7662_tokenType_refuted",
    "OAuth2.C80_6750_header",
    "OAuth2.C80_6750_challenge",
    "OAuth2.C80_6750_noErrorCode",
    "OAuth2.C80_6750_invalidRequest",
    "OAuth2.C80_6750_invalidToken",
    "OAuth2.C80_6750_insufficientScope",
    "OAuth2.C80_7009_validates",
    "OAuth2.C80_7009_invalidates",
    "OAuth2.C80_7009_invalidTokenSigned",
    "OAuth2.C80_7662_authentic",
    "OAuth2.C80_7662_active",
    "OAuth2.C80_7662_inForce",
    "OAuth2.C80_7662_unknownSigned",
    "OAuth2.C80_7662_foreignSilent",
    "OAuth2.C80_7662_inactiveSilent"
   ],
   "note": ""
  },
  {
   "property": "C81",
   "status": "proved",
   "theorems": [
    "OAuth2.C81_expired_iff",
    "OAuth2.C81_expired_monotonic",
    "OAuth2.C81_expired_wall",
    "OAuth2.C81_faithful",
    "OAuth2.C81_introspection",
    "OAuth2.C81_monotonic",
    "OAuth2.C81_admits_iff",
    "OAuth2.C81_wall_clock",
    "OAuth2.C81_exp_passed",
    "OAuth2.C81_exp_ahead",
    "OAuth2.C81_revived"
   ],
   "note": ""
  },
  {
   "property": "C82",
   "status": "proved",
   "theorems": [
    "OAuth2.C82_alone",
    "OAuth2.C82_strangers",
    "OAuth2.C82_unguessable"
   ],
   "note": ""
  },
  {
   "property": "C83",
   "status": "proved",
   "theorems": [
    "OAuth2.C83_result",
    "OAuth2.C83_pieces",
    "OAuth2.C83_valid",
    "OAuth2.C83_equal",
    "OAuth2.C83_made",
    "OAuth2.C83_parse",
    "OAuth2.C83_strings",
    "OAuth2.C83_strings_time",
    "OAuth2.C83_strings_length",
    "OAuth2.C83_password_refuted",
    "OAuth2.C83_password_found"
   ],
   "note": ""
  },
  {
   "property": "C84",
   "status": "proved",
   "theorems": [
    "OAuth2.C84_bearer",
    "OAuth2.C84_bearer_misread",
    "OAuth2.C84_serve",
    "OAuth2.C84_authorize"
   ],
   "note": ""
  },
  {
   "property": "C85",
   "status": "proved",
   "theorems": [
    "OAuth2.C85_reads_response",
    "OAuth2.C85_reads_request",
    "OAuth2.C85_stream",
    "OAuth2.C85_writes_response",
    "OAuth2.C85_writes_request",
    "OAuth2.C85_responses",
    "OAuth2.C85_requests",
    "OAuth2.C85_target",
    "OAuth2.C85_address",
    "OAuth2.C85_server",
    "OAuth2.C85_client"
   ],
   "note": "The grammar is that of RFC 7230 without continued lines, chunk extensions, trailers and bodies that end with the connection. net/http's own additions (Date, Content-Length, Connection, Transfer-Encoding, a guessed Content-Type, Cache-Control for a Pragma, Host, User-Agent, Accept-Encoding) are excepted from the comparison of headers. Following redirects is C76."
  },
  {
   "property": "C86",
   "status": "proved",
   "theorems": [
    "OAuth2.C86_response",
    "OAuth2.C86_request",
    "OAuth2.C86_requests",
    "OAuth2.C86_effect",
    "OAuth2.C86_authenticate",
    "OAuth2.C86_introspect",
    "OAuth2.C86_revoke"
   ],
   "note": "Same grammar as C85. A connection breaks by ending: bytes that arrive are those that were sent. Bodies that end with the connection (no length, no chunks) are outside the grammar: with them a break cannot be seen. The server and client of this library never send such."
  },
  {
   "property": "C87",
   "status": "proved",
   "theorems": [
    "OAuth2.C87_connections",
    "OAuth2.C87_broken",
    "OAuth2.C87_history"
   ],
   "note": "Turns are taken at once; C47 says that overlapping requests are answered as if one came after the other. Nothing is written for bytes that are not a request (net/http writes a 400 and closes), and after a panic the connection ends, as in net/http."
  },
  {
   "property": "C88",
   "status": "proved",
   "theorems": [
    "OAuth2.C88_fresh",
    "OAuth2.C88_orderly",
    "OAuth2.C88_distinct"
   ],
   "note": "The server starts without tokens. F, the greatest number of keys with one signature, depends on HMAC-SHA256 and is a parameter; C88_distinct is the case without collisions."
  },
  {
   "property": "C89",
   "status": "proved",
   "theorems": [
    "OAuth2.C89_dotless",
    "OAuth2.C89_resolve",
    "OAuth2.C89_unique",
    "OAuth2.C89_site",
    "OAuth2.C89_stays",
    "OAuth2.C89_leaving",
    "OAuth2.C89_kept",
    "OAuth2.C89_referer",
    "OAuth2.C89_insecure",
    "OAuth2.C89_cleartext"
   ],
   "note": "RFC 3986's result is proved for locations that are hierarchical, do not end in an empty query (Go drops or keeps it by its ForceQuery flag) and have no two slashes in a row in their path; examples beside the theorem show what Go does otherwise. The other theorems have no such limits. How names that are not ASCII are converted (idna) is any function."
  },
  {
   "property": "C90",
   "status": "proved",
   "theorems": [
    "OAuth2.C90_entropy",
    "OAuth2.C90_entropy_default",
    "OAuth2.C90_entropyAlways_refuted",
    "OAuth2.C90_independence",
    "OAuth2.C90_expiration",
    "OAuth2.C90_codeExpiration",
    "OAuth2.C90_refreshExpiration",
    "OAuth2.C90_boundRefresh",
    "OAuth2.C90_boundCode",
    "OAuth2.C90_oneTime",
    "OAuth2.C90_oneTimeCode",
    "OAuth2.C90_rotation",
    "OAuth2.C90_rotationRevokes_refuted",
    "OAuth2.C90_signed",
    "OAuth2.C90_limitedScope",
    "OAuth2.C90_header",
    "OAuth2.C90_consent",
    "OAuth2.C90_redirector",
    "OAuth2.C90_frames_refuted",
    "OAuth2.C90_notCached",
    "OAuth2.C90_hashes",
    "OAuth2.C90_locks_refuted",
    "OAuth2.C90_locksClients_refuted"
   ],
   "note": "The countermeasures that can be seen in exchanges with the server; those that concern deployment (TLS, user education, operating procedures) are outside of the code. The ones named _refuted are shown not to be taken, as the English property says. Consent is stated for servers without a user whose name and password are both empty."
  },
  {
   "property": "C91",
   "status": "proved",
   "theorems": [
    "OAuth2.C91_admitted",
    "OAuth2.C91_kept",
    "OAuth2.C91_secret",
    "OAuth2.C91_secret_grant",
    "OAuth2.C91_secret_back",
    "OAuth2.C91_scope",
    "OAuth2.C91_narrowed",
    "OAuth2.C91_own",
    "OAuth2.C91_restart",
    "OAuth2.C91_copy",
    "OAuth2.C91_torn"
   ],
   "note": "The configuration is exchanged between calls, as a program does that holds the exported mutex, under which the code reads it. A copy is one of all maps with their entries at one moment. C91_torn shows a concrete run, as the English property says that there may be one."
  },
  {
   "property": "C92",
   "status": "proved",
   "theorems": [
    "OAuth2.C92_later",
    "OAuth2.C92_history",
    "OAuth2.C92_introspection",
    "OAuth2.C92_expired",
    "OAuth2.C92_earlier"
   ],
   "note": "Times are unbounded integers of nanoseconds here, as in most claims; C81 says what changes with Go's 64-bit times and its monotonic clock."
  },
  {
   "property": "C93",
   "status": "proved",
   "theorems": [
    "OAuth2.C93_document",
    "OAuth2.C93_redirect",
    "OAuth2.C93_bearer",
    "OAuth2.C93_bearer_other",
    "OAuth2.C93_string",
    "OAuth2.C93_token",
    "OAuth2.C93_code",
    "OAuth2.C93_introspection"
   ],
   "note": "Descriptions in bearer challenges are not quoted by the code; C84 says which of them a reader of the challenge gets back."
  },
  {
   "property": "C94",
   "status": "proved",
   "theorems": [
    "OAuth2.C94_request",
    "OAuth2.C94_response",
    "OAuth2.C94_refused",
    "OAuth2.C94_unique",
    "OAuth2.C94_request_read",
    "OAuth2.C94_response_read"
   ],
   "note": "The leniency beyond RFC 7230 is that of Go 1.16 and is spelt out in Spec/Framing.lean: a chunk size without digits counts as zero, a blank Content-Length as none, and U+212A as a k in chunked. The readers are a model of net/http, not of code in /repo."
  },
  {
   "property": "C95",
   "status": "proved",
   "theorems": [
    "OAuth2.C95_twice",
    "OAuth2.C95_same",
    "OAuth2.C95_inspected",
    "OAuth2.C95_token",
    "OAuth2.C95_introspection",
    "OAuth2.C95_revocation",
    "OAuth2.C95_authorization",
    "OAuth2.C95_only",
    "OAuth2.C95_looked",
    "OAuth2.C95_half",
    "OAuth2.C95_ignored",
    "OAuth2.C95_refused"
   ],
   "note": "ParseMultipartForm itself is not modelled; its results are among the values known beforehand, over which the theorems quantify."
  },
  {
   "property": "C96",
   "status": "proved",
   "theorems": [
    "OAuth2.C96_unread",
    "OAuth2.C96_parsed",
    "OAuth2.C96_linearizable",
    "OAuth2.C96_held",
    "OAuth2.C96_anyone",
    "OAuth2.C96_progress",
    "OAuth2.C96_completes",
    "OAuth2.C96_workaround",
    "OAuth2.C96_must"
   ],
   "note": "A body arrives at once or not at all; responses are buffered and do not wait. Timeouts of http.Server are arrivals (of a body that ended early)."
  },
  {
   "property": "C97",
   "status": "proved",
   "theorems": [
    "OAuth2.C97_answered",
    "OAuth2.C97_possible",
    "OAuth2.C97_mutex_needed",
    "OAuth2.C97_bodies_needed",
    "OAuth2.C97_scheduler_needed"
   ],
   "note": "The fairness of the scheduler and of sync.Mutex (starvation mode) are assumptions about Go's runtime, stated in Spec/Fair.lean."
  },
  {
   "property": "C98",
   "status": "proved",
   "theorems": [
    "OAuth2.C98_said",
    "OAuth2.C98_short",
    "OAuth2.C98_challenged",
    "OAuth2.C98_heard",
    "OAuth2.C98_long"
   ],
   "note": "Redirects do carry the state and the redirect URI of the request back (C15, C21); they go to registered addresses only."
  },
  {
   "property": "C99",
   "status": "proved",
   "theorems": [
    "OAuth2.C99_call",
    "OAuth2.C99_history",
    "OAuth2.C99_who",
    "OAuth2.C99_refresh",
    "OAuth2.C99_grows",
    "OAuth2.C99_kept"
   ],
   "note": "Expired entries are never removed by the server (C99_kept): memory is bounded by the number of successful calls only."
  },
  {
   "property": "C100",
   "status": "proved",
   "theorems": [
    "OAuth2.C100_call",
    "OAuth2.C100_history",
    "OAuth2.C100_client"
   ],
   "note": "Requests correspond when they go to the same endpoint and that endpoint reads the same from them up to the names; C100_client shows it for the requests built by the package's client (whose ids have no colon, see C18_colon)."
  },
  {
   "property": "C101",
   "status": "proved",
   "theorems": [
    "OAuth2.C101_two",
    "OAuth2.C101_alone",
    "OAuth2.C101_order",
    "OAuth2.C101_concurrent",
    "OAuth2.C101_settled"
   ],
   "note": "Independence is stated in terms of what each call carries and what its answer would hand out if it were made alone; two calls that draw the same random bytes are not independent."
  },
  {
   "property": "C102",
   "status": "proved",
   "theorems": [
    "OAuth2.C102_call",
    "OAuth2.C102_hands",
    "OAuth2.C102_admits",
    "OAuth2.C102_history",
    "OAuth2.C102_sweep",
    "OAuth2.C102_swept",
    "OAuth2.C102_single"
   ],
   "note": "That expired codes must stay once they were redeemed is shown by an example. Introspection describes expired tokens as active while they are stored, see C80; it is the one endpoint where removal shows."
  },
  {
   "property": "C103",
   "status": "proved",
   "theorems": [
    "OAuth2.C103_scope",
    "OAuth2.C103_error",
    "OAuth2.C103_token",
    "OAuth2.C103_introspection",
    "OAuth2.C103_code",
    "OAuth2.C103_bearer",
    "OAuth2.C103_server",
    "OAuth2.C103_rejected",
    "OAuth2.C103_bytes"
   ],
   "note": "About bodies; headers are the subject of C59. The writers are covered for every response writer, also one that has been written to."
  },
  {
   "property": "C104",
   "status": "proved",
   "theorems": [
    "OAuth2.C104_admitted",
    "OAuth2.C104_tokens",
    "OAuth2.C104_codes",
    "OAuth2.C104_same",
    "OAuth2.C104_same_tokens",
    "OAuth2.C104_same_authorization"
   ],
   "note": "A refresh request for no scope is one for the original scope, which is granted as well."
  },
  {
   "property": "C105",
   "status": "proved",
   "theorems": [
    "OAuth2.C105_admitted",
    "OAuth2.C105_others",
    "OAuth2.C105_user_tokens",
    "OAuth2.C105_client_tokens",
    "OAuth2.C105_removed_client",
    "OAuth2.C105_removed_user",
    "OAuth2.C105_removed_client_history",
    "OAuth2.C105_removed_user_history",
    "OAuth2.C105_restored"
   ],
   "note": "The maps are exchanged between calls, as the exported fields allow. That refresh tokens of a removed user go on working is what the code does; the claim says so rather than the opposite."
  },
  {
   "property": "C106",
   "status": "proved",
   "theorems": [
    "OAuth2.C106_refresh",
    "OAuth2.C106_code",
    "OAuth2.C106_code_not_admitted",
    "OAuth2.C106_code_not_refreshed",
    "OAuth2.C106_again",
    "OAuth2.C106_authorization_again",
    "OAuth2.C106_authorization_kept"
   ],
   "note": "Holds in every state, reachable or not. Revoking again is C63; calls that only ask change nothing by C41."
  },
  {
   "property": "C107",
   "status": "proved",
   "theorems": [
    "OAuth2.C107_never",
    "OAuth2.C107_kinds",
    "OAuth2.C107_fresh",
    "OAuth2.C107_not_revoked"
   ],
   "note": "C107_never needs no assumption on signatures; C107_kinds assumes that tokens of different kinds differ in their signatures, and C107_fresh that keys do not repeat or collide (as C72; C88 counts how rarely they do)."
  },
  {
   "property": "C108",
   "status": "proved",
   "theorems": [
    "OAuth2.C108_admitted",
    "OAuth2.C108_granted"
   ],
   "note": "For any server whose maps have no key twice (as Go maps), not only for those reachable. Registering a client or user in between makes no difference, since the first refusal is assumed not to be for want of identification."
  },
  {
   "property": "C109",
   "status": "proved",
   "theorems": [
    "OAuth2.C109_admitted",
    "OAuth2.C109_admissible",
    "OAuth2.C109_refresh",
    "OAuth2.C109_transportable",
    "OAuth2.C109_last_second"
   ],
   "note": "C109_last_second shows that the exception in the last second is real; C109_transportable that the premise holds for every started server with clean, valid allowed scopes. Introspection reports expired tokens as active (C40), so a resource server must compare exp itself."
  }
 ]
}