{
 "claims": [
  {
   "property": "C01",
   "status": "proved",
   "theorems": [
    "Verif.Issuer.C01_grant_codes_single_use",
    "Verif.Issuer.C01_token_removes_code"
   ],
   "note": "Any history between the two redemptions, including storage faults; relies on random tokens being distinct (Env.Fresh)."
  },
  {
   "property": "C02",
   "status": "proved",
   "theorems": [
    "Verif.Issuer.C02_token_needs_matching_grant"
   ],
   "note": "Guard-by-guard inversion of a successful token request."
  },
  {
   "property": "C03",
   "status": "proved",
   "theorems": [
    "Verif.Issuer.C03_token_never_widens"
   ],
   "note": ""
  },
  {
   "property": "C04",
   "status": "proved",
   "theorems": [
    "Verif.Issuer.C04_preauthorized_narrows"
   ],
   "note": ""
  },
  {
   "property": "C05",
   "status": "proved",
   "theorems": [
    "Verif.Issuer.C05_expired_refused",
    "Verif.Issuer.C05_live_accepted",
    "Verif.Issuer.C91_acceptable_request_gets_code",
    "Verif.Issuer.C93_credential_issued",
    "Verif.Issuer.C97_deferred_credential_collected"
   ],
   "note": "C91, C93 and C97 give acceptance up to the same boundary for authorization, credential and deferred calls."
  },
  {
   "property": "C06",
   "status": "partial",
   "theorems": [
    "Verif.Issuer.C06_token_lives_as_long_as_grant_partial",
    "Verif.Issuer.C06_advertised_lifetime_not_honoured"
   ],
   "note": "The advertised lifetime is false of the code: the negation is proved with a concrete history; the partial theorem gives the actual deadline."
  },
  {
   "property": "C07",
   "status": "proved",
   "theorems": [
    "Verif.Issuer.C07_token_client_registered",
    "Verif.Issuer.C09_code_needs_valid_request"
   ],
   "note": "Token endpoint and authorization endpoint."
  },
  {
   "property": "C08",
   "status": "partial",
   "theorems": [
    "Verif.Issuer.C08_anonymous_refused_partial",
    "Verif.Issuer.C08_anonymous_access_never_accepted"
   ],
   "note": "Refusal half holds; the acceptance half is false of the code and refuted for every input."
  },
  {
   "property": "C09",
   "status": "proved",
   "theorems": [
    "Verif.Issuer.C09_code_needs_valid_request"
   ],
   "note": ""
  },
  {
   "property": "C10",
   "status": "proved",
   "theorems": [
    "Verif.Issuer.C10_code_carries_binding",
    "Verif.Issuer.C10_code_redeemable"
   ],
   "note": "Redemption after any history in which the code is still stored and live."
  },
  {
   "property": "C100",
   "status": "partial",
   "theorems": [
    "Verif.Issuer.C100_expired_nonce_never_replaced",
    "Verif.Issuer.C100_nonce_replaced_partial"
   ],
   "note": "False in general: the credential endpoint answers access_denied, without a nonce, once the nonce has expired, and no other endpoint renews it, so a token left unused for ten minutes and a second is dead in every continuation (proved for every history). Proved: while the nonce is live, a missing or invalid proof gets a new one."
  },
  {
   "property": "C101",
   "status": "proved",
   "theorems": [
    "Verif.Interop.C101_wallet_collects_offer"
   ],
   "note": "Composition of the two models. The wallet's key proofs and the issuer's credentials are assumed readable by the other side. Credentials are collected one per call, see C102."
  },
  {
   "property": "C102",
   "status": "partial",
   "theorems": [
    "Verif.Interop.C102_batch_fails",
    "Verif.Interop.C101_wallet_collects_offer"
   ],
   "note": "False: both requests of one credentials call carry the same key proof, and the issuer replaces its nonce when it answers the first. C102_batch_fails: in every history of wallet and issuer, a call for two or more credentials that need proofs fails and keeps nothing. One credential per call works (C101)."
  },
  {
   "property": "C103",
   "status": "proved",
   "theorems": [
    "Verif.Issuer.C103_token_granted_iff"
   ],
   "note": ""
  },
  {
   "property": "C104",
   "status": "partial",
   "theorems": [
    "Verif.Issuer.C104_named_by_format_refused",
    "Verif.Issuer.C103_token_granted_iff"
   ],
   "note": "False: offers store the credentials by configuration id and the token endpoint compares them with the requested description as it is, so naming a credential by format is always refused. C103 is the part that holds: naming by configuration id works."
  },
  {
   "property": "C105",
   "status": "proved",
   "theorems": [
    "Verif.Interop.C105_wallet_initiated"
   ],
   "note": "Flows that name credential configurations. Assumed of the surroundings: JWTs are understood on both sides, the PKCE challenge is computed alike and no store access fails."
  },
  {
   "property": "C106",
   "status": "proved",
   "theorems": [
    "Verif.Interop.C106_offer_authorized"
   ],
   "note": "As C105; the claims of the offered configurations have distinct names."
  },
  {
   "property": "C107",
   "status": "partial",
   "theorems": [
    "Verif.Issuer.C107_deferred_lost_on_renewal",
    "Verif.Issuer.C97_deferred_credential_collected"
   ],
   "note": "False as stated; refuted for all histories: with key proofs required, one later credential or invalid_proof answer under the same access token makes the transaction uncollectable for ever. The deferred endpoint checks the saved request's proof again, against the renewed nonce. C97 proves that it is collected when the session was not changed in between."
  },
  {
   "property": "C108",
   "status": "proved",
   "theorems": [
    "Verif.Interop.C108_late_credential_reaches_wallet"
   ],
   "note": "For one late credential, the last one asked for. C107 shows that asking for another credential in between would lose it, so this order is the one that works."
  },
  {
   "property": "C109",
   "status": "partial",
   "theorems": [
    "Verif.Interop.C109_flow_stuck",
    "Verif.Holder.C85_proof_over_latest_nonce_partial"
   ],
   "note": "False, proved in general: if the issuer issued a credential in a wallet call that fails, or that names the credential by format, or that collects a deferred credential, or if it refused a proof (say because the nonce ran out), then the wallet does not keep the new nonce and every later credential request in that flow is refused, whatever happens later. True of successful calls by identifier (true part of C85; C101 and C105 use it to collect any number of credentials)."
  },
  {
   "property": "C11",
   "status": "proved",
   "theorems": [
    "Verif.Issuer.C11_authorized_as_subject_provider_says",
    "Verif.Issuer.C11_refused_when_subject_provider_refuses"
   ],
   "note": ""
  },
  {
   "property": "C110",
   "status": "proved",
   "theorems": [
    "Verif.Holder.C110_token_after_acceptance",
    "Verif.Holder.C110_credential_after_token",
    "Verif.Holder.C110_deferred_after_token",
    "Verif.Holder.C110_saved_came",
    "Verif.Holder.C110_presented_authorized",
    "Verif.Holder.C110_never_notifies",
    "Verif.Holder.C110_refused_consent_is_none"
   ],
   "note": "For every schedule, fault and answer. A token request made by authorizing a flow that the wallet itself starts needs no offer."
  },
  {
   "property": "C111",
   "status": "proved",
   "theorems": [
    "Verif.Holder.C111_own_flow_only",
    "Verif.Holder.C111_flows_independent"
   ],
   "note": "For every schedule. Whether two sets of calls share a flow is stated with the texts drawn (`Own`); with fresh texts it holds of any two sets that name different flows (shown on an example)."
  },
  {
   "property": "C112",
   "status": "partial",
   "theorems": [
    "Verif.Holder.C112_ended_stays_ended_partial",
    "Verif.Holder.Demo.C112_cancelled_flow_returns"
   ],
   "note": "False as stated: a call for credentials that read the flow before it was cancelled writes it back afterwards, and its credential can then be saved (witness schedule). Proved for every continuation if no call about the flow was under way when it ended."
  },
  {
   "property": "C113",
   "status": "partial",
   "theorems": [
    "Verif.Holder.Demo.C113_received_credential_lost",
    "Verif.Holder.Demo.C113_saved_twice",
    "Verif.Holder.C113_one_after_another_partial",
    "Verif.Holder.C113_saved_once_partial",
    "Verif.Holder.C111_flows_independent"
   ],
   "note": "False: the state is read, changed and written back without a lock, so of two overlapping calls for credentials that both end well one loses what it received; overlapping saves store everything twice. True part: calls about some flows that do not overlap each other take effect one after the other, whatever calls about other flows do meanwhile: a wallet that serves one call at a time gives the same results, makes the same calls and stores the same (so all that is proved of such a wallet holds of them); and then what was received is saved once each."
  },
  {
   "property": "C114",
   "status": "proved",
   "theorems": [
    "Verif.Interop.C114_accepted_iff",
    "Verif.Interop.C114_one_credential_accepted"
   ],
   "note": "For working stores, and as long as nobody else answers the request. That a request without any constant can never be answered is part of the statement (cf. C72)."
  },
  {
   "property": "C115",
   "status": "partial",
   "theorems": [
    "Verif.Interop.C115_several_credentials_refused",
    "Verif.Interop.PresentDemo.C115_each_held_both_refused",
    "Verif.Interop.C114_one_credential_accepted"
   ],
   "note": "False for requests with several input descriptors: the wallet looks for credentials for the first descriptor only, and its submission names the first credential of the presentation for every descriptor. Such a request is refused in every history unless that one credential fits all descriptors. Proved for requests with one descriptor (`C114_one_credential_accepted`)."
  },
  {
   "property": "C116",
   "status": "partial",
   "theorems": [
    "Verif.Wire.C116_read_is_stable",
    "Verif.Wire.C116_comes_back_iff",
    "Verif.Wire.C116_dictionary_comes_back_iff",
    "Verif.Wire.C116_reserved_names_unreadable",
    "Verif.Wire.C116_definition_beside_members_dropped",
    "Verif.Wire.C116_empty_set_becomes_claim"
   ],
   "note": "False for some descriptions made by programs: a set with a claim called `mandatory`, `value_type` or `display` cannot be read at all, an empty set comes back as a single claim. A definition beside nested claims is dropped without an error. Proved exactly which descriptions come back, and that everything read from JSON does."
  },
  {
   "property": "C117",
   "status": "partial",
   "theorems": [
    "Verif.Wire.C117_read_is_stable",
    "Verif.Wire.C117_comes_back_iff",
    "Verif.Wire.C117_sd_jwt_becomes_mdoc",
    "Verif.Wire.C117_malformed_narrowing_dropped",
    "Verif.Wire.C117_malformed_claims_dropped",
    "Verif.Wire.C117_format_beside_configuration_dropped"
   ],
   "note": "False: if the claims beside a configuration id cannot be read, the detail is not refused but read as one for the whole credential (the flattened option takes any error for absence); a format beside a configuration id is dropped; claims of the SD-JWT profile are read as those of the mdoc profile (both are called `claims`). Proved exactly which details come back, and that everything read from JSON does."
  },
  {
   "property": "C118",
   "status": "partial",
   "theorems": [
    "Verif.Wire.C118_request_round_trip_partial",
    "Verif.Wire.C118_uri_unreadable",
    "Verif.Wire.C118_uri_needs_another_parameter",
    "Verif.Wire.C118_json_uri_becomes_empty_request",
    "Verif.Wire.C118_unknown_parameter_refused",
    "Verif.Wire.C118_extended_request_refused",
    "Verif.Wire.C118_repeated_parameter_accepted",
    "Verif.Wire.C118_empty_list_is_request"
   ],
   "note": "False: a request by reference cannot be read back from its own text (which holds no `&` and is taken for JSON), and as JSON is read as an empty request; a request with any unknown parameter is refused (the reader leaves its value unread); repeated parameters are accepted and the last counts; `[]` is a request. Proved for requests made of plain texts; for others see C43."
  },
  {
   "property": "C119",
   "status": "partial",
   "theorems": [
    "Verif.Wire.C119_credential_comes_back_iff",
    "Verif.Wire.C119_read_is_stable",
    "Verif.Wire.C119_presentation_comes_back_iff",
    "Verif.Wire.C119_token_carries_credential",
    "Verif.Wire.C119_token_carries_presentation",
    "Verif.Wire.C119_claim_named_id_unreadable",
    "Verif.Wire.C119_claim_named_id_becomes_subject",
    "Verif.Wire.C119_empty_proofs_become_one",
    "Verif.Wire.C119_standard_status_unreadable",
    "Verif.Wire.C119_evidence_members_dropped"
   ],
   "note": "False: a credential whose subject has an identifier and a claim called `id` is written with that member twice and cannot be read (without an identifier the claim becomes the identifier); an empty list of proofs comes back as one empty proof; the members of a status are written in snake case and a status named as recommended makes the credential unreadable; evidence with one further member that is not text loses all of them. Proved exactly which credentials and presentations come back, alone and in tokens, and that everything read does, evidence aside."
  },
  {
   "property": "C12",
   "status": "partial",
   "theorems": [
    "Verif.Issuer.C12_direct_refused_partial",
    "Verif.Issuer.C12_required_par_locks_out"
   ],
   "note": "Second half false of the code: with PAR required every push is refused, in every history."
  },
  {
   "property": "C120",
   "status": "partial",
   "theorems": [
    "Verif.Wire.C120_issued_credential_can_be_read_partial",
    "Verif.Wire.C120_deferred_credential_can_be_read_partial",
    "Verif.Wire.C120_claim_named_id_unreadable"
   ],
   "note": "False if the Subject service has a claim called `id` for the subject: unless it is narrowed away, the issuer signs and hands out a credential no one can read. Proved for all Subject services without such a claim."
  },
  {
   "property": "C121",
   "status": "proved",
   "theorems": [
    "Verif.Wire.C121_state_comes_back_iff",
    "Verif.Wire.C121_requests_off_the_wire",
    "Verif.Wire.C121_same_answers",
    "Verif.Wire.C121_stored_states_readable",
    "Verif.Wire.C121_same_under_any_schedule",
    "Verif.Wire.C121_sd_jwt_kept_as_mdoc"
   ],
   "note": "For requests read from JSON or a query string; one built by a program with selective-disclosure claims (`ProfileClaims::SdJwt`) comes back from the store as one with mdoc claims (`C121_sd_jwt_kept_as_mdoc`)."
  },
  {
   "property": "C122",
   "status": "proved",
   "theorems": [
    "Verif.Wire.C122_state_comes_back_iff",
    "Verif.Wire.C122_same_answers",
    "Verif.Wire.C122_stored_states_readable",
    "Verif.Wire.C122_same_under_any_schedule",
    "Verif.Wire.C122_one_condition_per_filter"
   ],
   "note": "`RustTyped` is what Rust's types guarantee: a `HashMap` has each key once, and two times of a client's registration are `i64`."
  },
  {
   "property": "C123",
   "status": "partial",
   "theorems": [
    "Verif.Wire.C123_request_round_trip_partial",
    "Verif.Wire.C123_query_recognized",
    "Verif.Wire.C123_same_device_request_reaches_wallet_partial",
    "Verif.Wire.C123_url_unreadable",
    "Verif.Wire.C123_bracketed_path_unreadable",
    "Verif.Wire.C123_ampersand_unreadable",
    "Verif.Wire.C123_quotes_change_request"
   ],
   "note": "Proved for requests made of plain texts (no character JSON escapes, no `=` or `&`, no bracket at either end) and without registration times. Violated by the code otherwise: a JSONPath such as `$['type']` or a purpose with `&` makes the query string unreadable (`C123_bracketed_path_unreadable`, `C123_ampersand_unreadable`), a purpose with quotation marks is read as members of the definition (`C123_quotes_change_request`), and with the wallet's address before it the query string can never be read, since nothing strips the part up to the question mark (`C123_url_unreadable`)."
  },
  {
   "property": "C124",
   "status": "partial",
   "theorems": [
    "Verif.Wire.C124_signed_request_round_trip",
    "Verif.Wire.C124_object_form_unreadable",
    "Verif.Wire.C124_named_object_read",
    "Verif.Wire.C124_unknown_member_refused",
    "Verif.Wire.C124_answer_comes_back_iff",
    "Verif.Wire.C124_signed_answer_round_trip",
    "Verif.Wire.C124_reply_round_trip"
   ],
   "note": "Proved for signed request objects, for the wallet's answers and the verifier's replies. Violated by the code for request objects that are not signed: the derived writer gives the member `request_object` inside the member `request_object`, the hand-written reader expects one level, so no such answer can be read (`C124_object_form_unreadable`)."
  },
  {
   "property": "C125",
   "status": "partial",
   "theorems": [
    "Verif.Wire.C125_create_offer",
    "Verif.Wire.C125_offered",
    "Verif.Wire.C125_offer_request",
    "Verif.Wire.C125_offer_reply",
    "Verif.Wire.C125_authorization_reply",
    "Verif.Wire.C125_pushed_reply_iff",
    "Verif.Wire.C125_token_request_iff",
    "Verif.Wire.C125_token_request_stable",
    "Verif.Wire.C125_token_response_iff",
    "Verif.Wire.C125_credential_request_iff",
    "Verif.Wire.C125_credential_response_iff",
    "Verif.Wire.C125_signed_response",
    "Verif.Wire.C125_deferred_request",
    "Verif.Wire.C125_notification",
    "Verif.Wire.C125_bad_assertion_dropped",
    "Verif.Wire.C125_bad_proof_dropped"
   ],
   "note": "Proved: every message comes back, the ones with authorization details, lifetimes or plain credentials exactly if those can be put in words. Violated by the code for malformed optional parts: a client assertion or a proof that cannot be read is silently taken for none (`C125_bad_assertion_dropped`, `C125_bad_proof_dropped`)."
  },
  {
   "property": "C126",
   "status": "partial",
   "theorems": [
    "Verif.Wire.C126_issuer_metadata_comes_back_iff",
    "Verif.Wire.C126_issuer_metadata_stable",
    "Verif.Wire.C126_server_metadata_round_trip",
    "Verif.Wire.C126_anonymous_access_has_no_default",
    "Verif.Wire.C126_client_comes_back_iff_partial",
    "Verif.Wire.C126_two_endpoints_unreadable",
    "Verif.Wire.C126_endpoint_moves",
    "Verif.Wire.C126_registration_round_trip_partial"
   ],
   "note": "Proved for issuer metadata (exactly if configurations are named once and their claims can be put in words) and server metadata. Violated for clients: `credential_offer_endpoint` is a member of the client and of the flattened OAuth client, so a client with both cannot be read (`C126_two_endpoints_unreadable`) and one with the inner one only is read with it moved (`C126_endpoint_moves`); the documented default of the anonymous-access member is not applied (`C126_anonymous_access_has_no_default`)."
  },
  {
   "property": "C127",
   "status": "partial",
   "theorems": [
    "Verif.Wire.C127_text_makes_no_difference_partial",
    "Verif.Wire.C127_wallet_collects_offer_over_text",
    "Verif.Wire.C127_narrowed_sd_jwt_becomes_mdoc",
    "Verif.Wire.C127_metadata_can_be_published",
    "Verif.Wire.C127_server_metadata_can_be_published"
   ],
   "note": "Proved for issuers whose published claims can be put in words and that offer no selective-disclosure credentials, and users asking for claims that can be put in words. Violated for selective-disclosure credentials: a token request that narrows the claims of one is read as narrowing a mobile driving licence (`C127_narrowed_sd_jwt_becomes_mdoc`)."
  },
  {
   "property": "C128",
   "status": "partial",
   "theorems": [
    "Verif.Wire.C128_create_offer",
    "Verif.Wire.C128_code_grant",
    "Verif.Wire.C128_pre_authorized_grant",
    "Verif.Wire.C128_credential_offer",
    "Verif.Wire.C128_credential_offer_bare",
    "Verif.Wire.C128_offered",
    "Verif.Wire.C128_authorization_reply",
    "Verif.Wire.C128_pushed_reply",
    "Verif.Wire.C128_token_request_code",
    "Verif.Wire.C128_token_request_pre_authorized",
    "Verif.Wire.C128_token_response_partial",
    "Verif.Wire.C128_token_type_refused",
    "Verif.Wire.C128_credential_definition",
    "Verif.Wire.C128_w3c_format",
    "Verif.Wire.C128_linked_data_refused",
    "Verif.Wire.C128_named_format",
    "Verif.Wire.C128_detail_by_configuration",
    "Verif.Wire.C128_credential_request_by_identifier",
    "Verif.Wire.C128_credential_request_by_format",
    "Verif.Wire.C128_credential_response",
    "Verif.Wire.C128_deferred_request",
    "Verif.Wire.C128_notification",
    "Verif.Wire.C128_configuration",
    "Verif.Wire.C128_credential_display",
    "Verif.Wire.C128_image",
    "Verif.Wire.C128_issuer_metadata_partial",
    "Verif.Wire.C128_issuer_displays_refused",
    "Verif.Wire.C128_server_metadata_partial",
    "Verif.Wire.C128_silent_server_refused",
    "Verif.Wire.C128_capable_server_refused",
    "Verif.Wire.C128_client_partial",
    "Verif.Wire.C128_client_with_contacts_refused",
    "Verif.Wire.C128_filter_partial",
    "Verif.Wire.C128_filter_refused",
    "Verif.Wire.C128_field",
    "Verif.Wire.C128_descriptor",
    "Verif.Wire.C128_definition",
    "Verif.Wire.C128_request_object",
    "Verif.Wire.C128_mapping_partial",
    "Verif.Wire.C128_direct_mapping_refused",
    "Verif.Wire.C128_answer_partial",
    "Verif.Wire.C128_single_presentation_refused",
    "Verif.Wire.C128_redirect",
    "Verif.Wire.C128_credential_issuer",
    "Verif.Wire.C128_subject",
    "Verif.Wire.C128_credential",
    "Verif.Wire.C128_status_refused",
    "Verif.Wire.C128_credential_claims",
    "Verif.Wire.C128_nameless_claims_refused",
    "Verif.Wire.C128_presentation_claims"
   ],
   "note": "Proved for every message of the issuance and presentation flows, for metadata and for credentials, with literal member names. Violated, each for all messages of the kind: a token type not written `Bearer` (compared without case in OAuth 2.0); `ldp_vc` credentials; an issuer's list of displays; authorization servers that leave out whether anonymous access is supported, or that publish one grant, response mode, authentication method, signing algorithm or challenge method vercre does not know; clients with a list of contacts or with keys; filters that are not a type with one of `const`, `pattern`, `format`; submissions without `path_nested`; a single presentation that is not in a list; credentials with a W3C bitstring status; credential tokens without `jti` or `sub`."
  },
  {
   "property": "C129",
   "status": "proved",
   "theorems": [
    "Verif.Wire.C129_text_makes_no_difference",
    "Verif.Wire.C129_accepted_over_text_iff"
   ],
   "note": "Proved for all histories. What Rust's types allow is assumed of the verifier's metadata and of requests (`RustTyped`): times of a client's registration are i64, and maps have each key once."
  },
  {
   "property": "C13",
   "status": "proved",
   "theorems": [
    "Verif.Issuer.C13_pushed_request_expires"
   ],
   "note": ""
  },
  {
   "property": "C130",
   "status": "partial",
   "theorems": [
    "Verif.Wire.C130_issuance_comes_back_iff",
    "Verif.Wire.C130_presentation_comes_back_iff",
    "Verif.Wire.C130_kinds_apart",
    "Verif.Wire.C130_text_store_makes_no_difference_partial",
    "Verif.Wire.C130_narrowed_sd_jwt_comes_back_as_mdoc",
    "Verif.Wire.C130_everything_can_be_kept"
   ],
   "note": "Holds for every history in which metadata offers no selective-disclosure format; false for those: the claims the user chose of such a credential are written without their kind, and come back as those of a mobile driving licence (`C130_narrowed_sd_jwt_comes_back_as_mdoc`), because the untagged reader tries that kind first."
  },
  {
   "property": "C131",
   "status": "partial",
   "theorems": [
    "Verif.Wire.Macro.C131_authorization_request_partial",
    "Verif.Wire.Macro.C131_token_request_partial",
    "Verif.Wire.Macro.C131_credential_request_partial",
    "Verif.Wire.Macro.C131_create_offer_request_partial",
    "Verif.Wire.Macro.C131_any_order",
    "Verif.Wire.Macro.C131_takes_authorization_by_scope",
    "Verif.Wire.Macro.C131_takes_authorization_by_detail",
    "Verif.Wire.Macro.C131_takes_token_request",
    "Verif.Wire.Macro.C131_takes_credential_request",
    "Verif.Wire.Macro.C131_takes_create_offer",
    "Verif.Wire.Macro.C131_several_details_refused",
    "Verif.Wire.Macro.C131_several_grants_refused",
    "Verif.Wire.Macro.C131_narrowing_token_refused",
    "Verif.Wire.Macro.C131_claims_dropped",
    "Verif.Wire.Macro.C131_remarks_become_claims",
    "Verif.Wire.Macro.C131_response_type_ignored",
    "Verif.Wire.Macro.C131_send_type_misread",
    "Verif.Wire.Macro.C131_repeated_member",
    "Verif.Wire.Macro.C131_type_unchecked",
    "Verif.Wire.Macro.C131_borrowed_refused",
    "Verif.Macros.C131_offer_request_partial",
    "Verif.Macros.C131_authorization_request_partial",
    "Verif.Macros.C131_authorization_request_made_partial",
    "Verif.Macros.C131_token_request_partial",
    "Verif.Macros.C131_credential_request_partial",
    "Verif.Macros.C131_two_grants_never",
    "Verif.Macros.C131_two_details_never",
    "Verif.Macros.C131_locations_lost",
    "Verif.Macros.C131_mandatory_misread",
    "Verif.Macros.C131_claims_lost",
    "Verif.Macros.C131_response_type_lost",
    "Verif.Macros.C131_verifier_needed",
    "Verif.Macros.C131_offers_agree",
    "Verif.Macros.C131_tokens_agree",
    "Verif.Macros.C131_authorizations_agree",
    "Verif.Macros.C131_credentials_agree"
   ],
   "note": "Holds for plain text that compiles. False otherwise: two authorization details, or two grant types, do not compile, as no comma is put between them (`C131_several_details_refused`, `C131_several_grants_refused`); token_request! cannot narrow a credential (`C131_narrowing_token_refused`); credential_request! silently drops the claims asked for (`C131_claims_dropped`); `mandatory` and the like become claims (`C131_remarks_become_claims`); any response type and challenge method is taken for code and S256 (`C131_response_type_ignored`); the names of send types differ from those in JSON and unknown ones mean by value (`C131_send_type_misread`); of a repeated member the last counts (`C131_repeated_member`); the type of a detail is checked only if it is a literal (`C131_type_unchecked`); a borrowed text is taken for some members and not for others (`C131_borrowed_refused`). A second translation (`Verif/Macros`), with Rust expressions of more types, is characterised member by member: exactly when a call compiles and what the request then says. It agrees with the first on the expressions known to both (`C131_offers_agree`, `C131_tokens_agree`, `C131_credentials_agree`, and, if no name is written twice, `C131_authorizations_agree`). There also: `locations` are dropped (`C131_locations_lost`), and a code cannot be redeemed without a verifier (`C131_verifier_needed`)."
  },
  {
   "property": "C132",
   "status": "partial",
   "theorems": [
    "Verif.Issuer.C23_proofs_bound_to_nonce_partial",
    "Verif.Issuer.C132_audience_ignored",
    "Verif.Issuer.C132_audience_ignored_throughout",
    "Verif.Issuer.C132_proof_for_another_issuer_accepted"
   ],
   "note": "False: `aud`, `iss` and `iat` of a key proof are never looked at, so no step of any history depends on them (`C132_audience_ignored`, `C132_audience_ignored_throughout`; a run in `C132_proof_for_another_issuer_accepted`). What ties a proof to an issuer is the nonce alone (`C23_proofs_bound_to_nonce_partial`)."
  },
  {
   "property": "C133",
   "status": "partial",
   "theorems": [
    "Verif.Issuer.C133_credentials_share_their_id",
    "Verif.Issuer.C133_id_tells_issuer_and_type_partial",
    "Verif.Issuer.C133_wallet_keeps_only_the_last"
   ],
   "note": "False: the id is made of the issuer and the type only (`C133_id_tells_issuer_and_type_partial`), so all credentials of one type that an issuer ever issues have one id (`C133_credentials_share_their_id`) and a wallet keeps only the last of those it takes in (`C133_wallet_keeps_only_the_last`)."
  },
  {
   "property": "C134",
   "status": "partial",
   "theorems": [
    "Verif.Issuer.C134_one_status_per_subject",
    "Verif.Issuer.C134_credential_never_named",
    "Verif.Issuer.C134_status_of_subject_partial"
   ],
   "note": "False: the Status service is asked about the subject and the fixed text `credential_identifier`, never about the credential (`C134_credential_never_named`), so all credentials of a subject share one entry (`C134_one_status_per_subject`). Holds: the entry is what the service says of the session's subject (`C134_status_of_subject_partial`)."
  },
  {
   "property": "C135",
   "status": "partial",
   "theorems": [
    "Verif.Issuer.C135_only_first_value_counts",
    "Verif.Issuer.C135_further_values_ignored",
    "Verif.Issuer.C135_first_value_honoured_partial"
   ],
   "note": "False: only the first scope value is looked at; the others are neither honoured nor refused (`C135_only_first_value_counts`, `C135_further_values_ignored`). Holds for the first value (`C135_first_value_honoured_partial`)."
  },
  {
   "property": "C136",
   "status": "partial",
   "theorems": [
    "Verif.Issuer.C136_code_redeemed_elsewhere",
    "Verif.Issuer.C136_credential_issued_elsewhere",
    "Verif.Issuer.C136_configuration_needed_partial"
   ],
   "note": "False: states keep no issuer, so a code can be redeemed at any issuer of the service with the same server settings (`C136_code_redeemed_elsewhere`), and the token gets a credential in the name and with the key of another issuer (`C136_credential_issued_elsewhere`). Holds: that issuer must have a configuration of the authorized name (`C136_configuration_needed_partial`)."
  },
  {
   "property": "C137",
   "status": "partial",
   "theorems": [
    "Verif.Issuer.C137_token_outlives_any_lifetime",
    "Verif.Issuer.C137_credential_after_any_time",
    "Verif.Issuer.C99_expired_stays_expired",
    "Verif.Issuer.C100_expired_nonce_never_replaced"
   ],
   "note": "False: each credential request, even one refused for lack of a proof, renews session and nonce, so that a token can be kept alive for any time (`C137_token_outlives_any_lifetime`) and still gets a credential then (`C137_credential_after_any_time`). Holds: a token that was left alone for its time never works again (`C99_expired_stays_expired`, `C100_expired_nonce_never_replaced`)."
  },
  {
   "property": "C138",
   "status": "partial",
   "theorems": [
    "Verif.Server.C138_code_needs_login_partial",
    "Verif.Server.C138_one_login_serves_all",
    "Verif.Server.C138_form_token_passes_for_user"
   ],
   "note": "False: once the user has logged in anywhere, every later acceptable request for them gets a code, from any browser (`C138_one_login_serves_all`); and the token of a login form passes for the name of a logged-in user (`C138_form_token_passes_for_user`). Holds: without any login and without such a token there is no code (`C138_code_needs_login_partial`)."
  },
  {
   "property": "C139",
   "status": "partial",
   "theorems": [
    "Verif.Server.C139_state_never_returned"
   ],
   "note": "False: the reply is the same whatever state the request has (`C139_state_never_returned`)."
  },
  {
   "property": "C14",
   "status": "partial",
   "theorems": [
    "Verif.Issuer.C14_request_uri_reusable"
   ],
   "note": "False of the code; negation proved."
  },
  {
   "property": "C140",
   "status": "partial",
   "theorems": [
    "Verif.Server.C140_error_sent_to_any_uri",
    "Verif.Server.C140_code_to_registered_uri_partial"
   ],
   "note": "False for errors: a request with an unregistered URI, or of an unknown client, is answered with a redirect to the URI it names (`C140_error_sent_to_any_uri`). Holds for codes (`C140_code_to_registered_uri_partial`)."
  },
  {
   "property": "C141",
   "status": "partial",
   "theorems": [
    "Verif.Server.C141_push_gets_a_form",
    "Verif.Server.C141_form_of_push_refused",
    "Verif.Server.C141_no_codes_if_push_required",
    "Verif.Server.C141_direct_request_goes_through_partial"
   ],
   "note": "False: pushed requests get a login form in every history (`C141_push_gets_a_form`), whose token the login refuses ever after (`C141_form_of_push_refused`); a server that requires pushed requests gives no codes at all (`C141_no_codes_if_push_required`). Holds for requests that are not pushed (`C141_direct_request_goes_through_partial`)."
  },
  {
   "property": "C142",
   "status": "partial",
   "theorems": [
    "Verif.Server.C142_host_ignored",
    "Verif.Server.C142_no_code_without_issuer",
    "Verif.Server.C142_api_requests_addressed_partial",
    "Verif.Server.C142_token_request_addressed_partial"
   ],
   "note": "False for authorization requests: the host makes no difference (`C142_host_ignored`), and a request that names no issuer gets no code (`C142_no_code_without_issuer`). Holds for the other endpoints (`C142_api_requests_addressed_partial`, `C142_token_request_addressed_partial`)."
  },
  {
   "property": "C143",
   "status": "partial",
   "theorems": [
    "Verif.Server.Datasets.C143_unknown_subject_ends_it",
    "Verif.Server.Datasets.C143_known_subjects_served_partial"
   ],
   "note": "False: a question about an unknown person poisons the lock, and every later question panics (`C143_unknown_subject_ends_it`). Holds as long as all questions are about known people (`C143_known_subjects_served_partial`)."
  },
  {
   "property": "C144",
   "status": "partial",
   "theorems": [
    "Verif.Server.Datasets.C144_available_after_first_asking_partial",
    "Verif.Server.Datasets.C144_pending_again"
   ],
   "note": "False for overlapping questions: one about another credential of the same person writes back what it read before, and the credential is pending again (`C144_pending_again`). Holds for one question at a time (`C144_available_after_first_asking_partial`)."
  },
  {
   "property": "C145",
   "status": "partial",
   "theorems": [
    "Verif.Server.C145_token_used_once_partial",
    "Verif.Server.C145_login_needs_form_partial",
    "Verif.Server.C145_login_leads_to_its_request",
    "Verif.Server.C145_user_name_passes"
   ],
   "note": "False: once somebody has logged in, the user's name passes for a token, any number of times (`C145_user_name_passes`). Holds for all other tokens (`C145_token_used_once_partial`, `C145_login_needs_form_partial`); and each form's token leads back to its own request (`C145_login_leads_to_its_request`)."
  },
  {
   "property": "C146",
   "status": "partial",
   "theorems": [
    "Verif.Wire.C146_token_request_arrives_partial",
    "Verif.Wire.C146_selection_not_sent",
    "Verif.Wire.C146_selection_not_read",
    "Verif.Wire.C146_no_token_for_selection",
    "Verif.Wire.C146_no_token_for_authorized_selection"
   ],
   "note": "False for selections: a form has no place for a list, so such a request is not sent (`C146_selection_not_sent`), could not be read (`C146_selection_not_read`), and the wallet gets no token whoever is at the other end (`C146_no_token_for_selection`, `C146_no_token_for_authorized_selection`). Holds for requests that select nothing (`C146_token_request_arrives_partial`). The headers of the request are not modelled."
  },
  {
   "property": "C147",
   "status": "partial",
   "theorems": [
    "Verif.Wire.C147_state_arrives_partial",
    "Verif.Wire.C147_presentations_not_sent",
    "Verif.Wire.C147_presentations_not_read",
    "Verif.Wire.C147_verifier_accepts_nothing",
    "Verif.Wire.C147_wallet_presents_nothing"
   ],
   "note": "False: presentations and submissions are structures, for which a form has no place. The wallet cannot send them (`C147_presentations_not_sent`, `C147_wallet_presents_nothing`), the verifier cannot read them (`C147_presentations_not_read`) and accepts nothing (`C147_verifier_accepts_nothing`). Only the state arrives (`C147_state_arrives_partial`)."
  },
  {
   "property": "C148",
   "status": "partial",
   "theorems": [
    "Verif.Wire.C148_redirect_leads_back_partial",
    "Verif.Wire.C148_redirect_changes_client",
    "Verif.Wire.C148_details_lost",
    "Verif.Wire.C148_details_not_read"
   ],
   "note": "False for requests with details, whose redirect cannot be read (`C148_details_lost`; nor can any other query with details, `C148_details_not_read`), and for texts with an ampersand, which can change the client (`C148_redirect_changes_client`). Holds for requests by scope without ampersands (`C148_redirect_leads_back_partial`)."
  },
  {
   "property": "C149",
   "status": "partial",
   "theorems": [
    "Verif.App.C149_list_is_stored_partial",
    "Verif.App.C149_stored_are_listed",
    "Verif.App.Demo.C149_violated_stale_list"
   ],
   "note": "False if a write fails: a credential whose deletion could not be written is out of the store but stays on the list (`C149_violated_stale_list`). Holds in full while writes succeed (`C149_list_is_stored_partial`); and in any case nothing in the store is missing from the list (`C149_stored_are_listed`)."
  },
  {
   "property": "C15",
   "status": "proved",
   "theorems": [
    "Verif.Issuer.C15_issuer_state_bound_and_consumed",
    "Verif.Issuer.C15_issuer_state_single_use"
   ],
   "note": ""
  },
  {
   "property": "C150",
   "status": "partial",
   "theorems": [
    "Verif.App.C150_screen_is_current",
    "Verif.App.C150_accepted_is_shown_partial",
    "Verif.App.C150_authorized_is_shown_partial",
    "Verif.App.C150_pin_shown",
    "Verif.App.Demo.C150_violated_unseen_offer"
   ],
   "note": "False: an offer that cannot be shown, because one of its credentials has no display, takes the place of the one on the screen without being seen, and is what the user then accepts (`C150_violated_unseen_offer`). Holds whenever the command comes back with a view (`C150_accepted_is_shown_partial`, `C150_authorized_is_shown_partial`, `C150_pin_shown`), since a state that can be shown is on the screen (`C150_screen_is_current`). What the user sees between deciding and the command being served is not modelled: commands do not say which offer they are about."
  },
  {
   "property": "C151",
   "status": "partial",
   "theorems": [
    "Verif.App.C151_stored_stays",
    "Verif.App.C151_gone_stays_gone",
    "Verif.App.C151_collected_are_stored",
    "Verif.App.C151_deleted",
    "Verif.App.Demo.C151_violated_unsaved_listed",
    "Verif.App.Demo.C151_violated_deletion_later"
   ],
   "note": "Holds for what is reported to have worked (`C151_collected_are_stored`, `C151_deleted`), and for everything after it (`C151_stored_stays`, `C151_gone_stays_gone`). False for what is reported to have failed: a credential that could not be saved is listed until the next start (`C151_violated_unsaved_listed`), and a failed deletion takes effect with the next write (`C151_violated_deletion_later`)."
  },
  {
   "property": "C152",
   "status": "partial",
   "theorems": [
    "Verif.App.C152_list_shown_iff",
    "Verif.App.C152_violated_never_again"
   ],
   "note": "False: the list is shown exactly if each stored credential has a display (`C152_list_shown_iff`); one that has none \u2013 the specification does not require any \u2013 and the application panics whenever the list is asked for, for good (`C152_violated_never_again`)."
  },
  {
   "property": "C153",
   "status": "partial",
   "theorems": [
    "Verif.App.C153_json_offer_read_partial",
    "Verif.App.C153_link_is_command",
    "Verif.App.C153_violated_query_unreadable",
    "Verif.App.C153_violated_suggested_links_ignored",
    "Verif.App.C153_violated_query_link"
   ],
   "note": "False: the query string the library puts into QR codes is not what the wallet reads, for any offer (`C153_violated_query_unreadable`, `C153_violated_query_link`), and links with the prefixes the library's documentation gives are ignored (`C153_violated_suggested_links_ignored`). Offers as percent-encoded JSON are read (`C153_json_offer_read_partial`), and the wallet's own links do what the commands do (`C153_link_is_command`). `percent-encoding`'s and `urlencoding`'s decoders are modelled as documented."
  },
  {
   "property": "C154",
   "status": "partial",
   "theorems": [
    "Verif.App.C154_details",
    "Verif.App.C154_one_subject_partial",
    "Verif.App.C154_violated_claim_hidden"
   ],
   "note": "False for several subjects: claims of the same name hide each other (`C154_violated_claim_hidden`). Holds for one subject (`C154_one_subject_partial`); in general the last claim of each name is shown (`C154_details`)."
  },
  {
   "property": "C155",
   "status": "proved",
   "theorems": [
    "Verif.App.C155_nothing_pending",
    "Verif.App.C155_abandoned_flows_stay"
   ],
   "note": "Random values are taken to be distinct and not empty. The flow itself is not ended by going back to the list (`C155_abandoned_flows_stay`)."
  },
  {
   "property": "C156",
   "status": "proved",
   "theorems": [
    "Verif.App.C156_unimplemented_not_reached",
    "Verif.App.C156_code_needed"
   ],
   "note": "So offers without a pre-authorized code lead nowhere (`C156_code_needed`), and credentials promised for later are never collected."
  },
  {
   "property": "C157",
   "status": "partial",
   "theorems": [
    "Verif.App.C157_credentials_shown_partial",
    "Verif.App.C157_violated_verifier_unseen",
    "Verif.App.Demo.C157_violated_two_verifiers"
   ],
   "note": "False: the verifier is not shown; requests for which the same credentials are found look the same (`C157_violated_verifier_unseen`, `C157_violated_two_verifiers`). All credentials to be presented are shown (`C157_credentials_shown_partial`)."
  },
  {
   "property": "C158",
   "status": "proved",
   "theorems": [
    "Verif.Mdl.C158_reads_back"
   ],
   "note": "For all data sets, draws, signers and clocks, with the external forms of numbers, device key and times as parameters and documents of less than 2^64 characters."
  },
  {
   "property": "C159",
   "status": "partial",
   "theorems": [
    "Verif.Mdl.C159_envelope_partial",
    "Verif.Mdl.C159_violated_items",
    "Verif.Mdl.C159_violated_mso"
   ],
   "note": "False for every mDL that is issued with at least one element: items have members `digest_id`, `element_identifier` and `element_value` instead of `digestID`, `elementIdentifier` and `elementValue`, and salts and digests are arrays of numbers instead of byte strings (`C159_violated_items`, `C159_violated_mso`). The times are plain text instead of dates even if there is no element. What holds is the envelope: the names and shapes of the outer members (`C159_envelope_partial`)."
  },
  {
   "property": "C16",
   "status": "partial",
   "theorems": [
    "Verif.Issuer.C16_access_token_as_issuer_state"
   ],
   "note": "False of the code; negation proved."
  },
  {
   "property": "C160",
   "status": "partial",
   "theorems": [
    "Verif.Mdl.C160_digest_of_tagged_item"
   ],
   "note": "Depends on `Tag24::to_vec` of the external crate vercre-infosec, whose source is not at hand. If it gives the tagged byte string the property holds, if it gives the bytes inside it fails for every item; the theorem proves both directions. The repository's own test reads the security object as if it were the latter."
  },
  {
   "property": "C161",
   "status": "proved",
   "theorems": [
    "Verif.Mdl.C161_own_salt",
    "Verif.Mdl.C161_salts_differ"
   ],
   "note": "Salts as read from the issued document; draws are numbered."
  },
  {
   "property": "C162",
   "status": "partial",
   "theorems": [
    "Verif.Interop.C101_wallet_collects_offer",
    "Verif.Mdl.C162_violated_mdl_fails",
    "Verif.Mdl.C162_violated_never_stored"
   ],
   "note": "False for mDL credentials, which the issuer issues for configurations of format `mso_mdoc`: the wallet takes every credential to be a JWT, so every call that is answered with an mDL fails, along with the other credentials it was answered with, and no mDL is ever stored. Assumed: the external JWT decoder accepts only texts with a dot. For JWT credentials it holds (`C101_wallet_collects_offer`)."
  },
  {
   "property": "C163",
   "status": "partial",
   "theorems": [
    "Verif.App.C163_found_exactly",
    "Verif.App.C163_sent_was_asked_partial",
    "Verif.App.C163_violated_sent_unnamed",
    "Verif.App.Demo.C163_violated_two_sent"
   ],
   "note": "What is sent was found for the first input descriptor of an authorized request, in every history (`C163_sent_was_asked_partial`, `C163_found_exactly`). False is that the submission speaks of all that is sent: if several credentials fit, all of them go out, and the submission leads to the first one only (`C163_violated_sent_unnamed`, `C163_violated_two_sent`); the user cannot choose among them."
  },
  {
   "property": "C164",
   "status": "partial",
   "theorems": [
    "Verif.App.C164_violated_sent_whole",
    "Verif.App.C164_violated_same_found",
    "Verif.App.Demo.C163_violated_two_sent"
   ],
   "note": "False: `limit_disclosure` is never looked at. The same credentials are found with and without it, and they are sent in full (`C163_violated_two_sent` has a request with `required`). It holds only for requests without the member, of which it says nothing."
  },
  {
   "property": "C165",
   "status": "proved",
   "theorems": [
    "Verif.Server.C165_asks_as_host",
    "Verif.Server.C165_body_does_not_name",
    "Verif.Server.C165_registered_only",
    "Verif.Server.C165_fetched_where_made"
   ],
   "note": "With the store that the example comes with, the only host is `localhost:8080`."
  },
  {
   "property": "C166",
   "status": "partial",
   "theorems": [
    "Verif.Server.C166_fetched_ever_after_partial"
   ],
   "note": "Proved is that the request can be fetched after any history. False is that this ever ends: neither time nor an answer ends it (the example verifier cannot read any answer, C147; and expiry is not looked at when a request is fetched). Assumed: drawn tokens differ; the store works when the request is fetched."
  },
  {
   "property": "C167",
   "status": "partial",
   "theorems": [
    "Verif.Server.C167_success_is_200_partial",
    "Verif.Server.C167_violated_callers_fault_is_500",
    "Verif.Server.C167_violated_verifier"
   ],
   "note": "Status 200 means success and nothing else does, at the endpoints of the library. Every failure, whoever is at fault, has status 500, at both servers."
  },
  {
   "property": "C168",
   "status": "partial",
   "theorems": [
    "Verif.Server.C168_code_arrives_partial",
    "Verif.Server.C168_error_arrives_partial",
    "Verif.Server.C168_violated_query_hides_code",
    "Verif.Server.C168_violated_error_brings_code",
    "Verif.Server.C168_violated_quote_loses_error",
    "Verif.Server.Demo.C168_violated_quoted_scope"
   ],
   "note": "Proved for addresses without a query and error texts without `&` and without anything JSON escapes. False otherwise: behind an address with a query the code is put after a second question mark, where the client finds no parameter `code`; a scope with an ampersand puts parameters of the request's choice, such as `code`, into the redirect that refuses it; and a scope with a quotation mark leaves the client without any error at all."
  },
  {
   "property": "C169",
   "status": "partial",
   "theorems": [
    "Verif.App.C169_offer_ends_in_store_partial",
    "Verif.App.C169_violated_two_are_never_collected"
   ],
   "note": "Proved for offers that give the subject one credential. False for two or more, if the credentials need key proofs: the application asks for all in one call, both requests carry the same proof, the issuer takes it once (C102), and the command fails with nothing stored, whatever came before."
  },
  {
   "property": "C17",
   "status": "proved",
   "theorems": [
    "Verif.Issuer.C17_offers_supported"
   ],
   "note": ""
  },
  {
   "property": "C170",
   "status": "partial",
   "theorems": [
    "Verif.App.C170_accepted_iff",
    "Verif.App.C170_one_credential_partial",
    "Verif.App.C170_violated_expired_in_the_way",
    "Verif.App.AnswerDemo.C170_violated_old_and_good"
   ],
   "note": "Exactly when the verifier accepts is proved: if the request asks for a constant and the first credential found is one that all input descriptors ask for. So a request for one credential is answered if none of those found has expired. False otherwise: the wallet sends expired credentials as well and names the first one, so an expired credential is in the way of a good one; and see C72 and C115. Messages are handed over as values: the form the example wallet sends is not read by the example verifier (C147)."
  },
  {
   "property": "C171",
   "status": "partial",
   "theorems": [
    "Verif.Issuer.C171_violated",
    "Verif.Issuer.C171_made_up_partial",
    "Verif.Issuer.C171_redeemed_partial"
   ],
   "note": "False. `register` looks the token up in the store and asks only that something is there: neither what it is nor when it expires. So the address of a pushed request, a code, a transaction or notification identifier serve as well as a token, at any time. What holds is that the value must be one that the issuer drew, and that a redeemed code does not serve."
  },
  {
   "property": "C172",
   "status": "partial",
   "theorems": [
    "Verif.Issuer.C172_registered_and_kept",
    "Verif.Issuer.C172_others_untouched",
    "Verif.Issuer.C172_code_to_own_uri",
    "Verif.Issuer.C172_registered_client_served",
    "Verif.Issuer.C172_violated_defaults",
    "Verif.Issuer.C172_violated_no_token"
   ],
   "note": "Identity, persistence, separation and the safety of codes hold (identifiers are taken not to repeat). Service holds of clients that register everything an authorization needs. False of clients that leave out grant types, response types or scope, for which RFC 7591 has defaults: they are registered, and then every authorization request of theirs is refused, and without a scope every token request too."
  },
  {
   "property": "C173",
   "status": "partial",
   "theorems": [
    "Verif.App.C173_violated_refused",
    "Verif.App.C173_violated_nothing_collected",
    "Verif.App.C173_violated_sent_elsewhere",
    "Verif.App.C173_known_and_at_its_address_partial"
   ],
   "note": "False, for two independent reasons. The wallet calls itself `wallet`, which is not among the clients the example issuer comes with, and no route of that issuer registers clients: every token request is refused, so nothing is ever collected. And the metadata the issuer gives out at `http://localhost:8080` say `http://vercre.io`: that is where the wallet then sends its requests. With both repaired, one credential offered is collected (C169; two never are)."
  },
  {
   "property": "C174",
   "status": "partial",
   "theorems": [
    "Verif.Server.C174_code_needs_login_partial",
    "Verif.Server.C174_token_used_once_partial",
    "Verif.Server.C174_login_leads_to_its_request",
    "Verif.Server.C174_endpoints_as_called",
    "Verif.Server.C174_code_redeemed_once",
    "Verif.Server.C174_nobody_blocks",
    "Verif.Server.C174_violated_form_lost",
    "Verif.Server.C174_violated_user_put_out",
    "Verif.Server.C174_alone_as_in_turn"
   ],
   "note": "False for requests that are broken off: a login takes the request out of the map before it puts it back under the user's name, so that a login cut short there loses the form for good, and one with the user's name for a token logs the user out. Two known flaws remain in the true part: a subject that is named like the token of a form counts as logged in (C138), and the user's name passes for a token (C145). The rest holds for all schedules."
  },
  {
   "property": "C175",
   "status": "proved",
   "theorems": [
    "Verif.Issuer.C175_strangers_do_not_interfere",
    "Verif.Issuer.C175_keep_your_tokens"
   ],
   "note": "Requests of the set may overlap with each other too; what can go wrong between requests that share a code is in C86 to C88."
  },
  {
   "property": "C176",
   "status": "proved",
   "theorems": [
    "Verif.Verifier.C176_requests_do_not_interfere",
    "Verif.Verifier.C176_keep_your_state"
   ],
   "note": "What can go wrong between calls that share a state is in C89."
  },
  {
   "property": "C177",
   "status": "proved",
   "theorems": [
    "Verif.Verifier.C177_good_when_it_came",
    "Verif.Verifier.C177_refused_for_a_reason"
   ],
   "note": "`Answers` is the specification of C52. The request's own expiry is not checked (C54)."
  },
  {
   "property": "C178",
   "status": "partial",
   "theorems": [
    "Verif.Issuer.C178_expired_value_refused",
    "Verif.Issuer.C178_expired_request_uri_refused",
    "Verif.Issuer.C178_expired_session_refused_partial",
    "Verif.Issuer.Demo.C178_violated_session_revived"
   ],
   "note": "Holds of codes, offer ids, transaction ids, issuer states and pushed requests under every schedule. False of sessions in general: a credential request that has passed the expiry checks renews the session when it writes, even if the session has expired meanwhile, and requests that came in after the expiry are then served (`C178_violated_session_revived`). Holds of sessions if no request that reads a record of the session is under way when it expires."
  },
  {
   "property": "C179",
   "status": "proved",
   "theorems": [
    "Verif.Issuer.C179_code_given_iff",
    "Verif.Issuer.C179_pushed_iff"
   ],
   "note": ""
  },
  {
   "property": "C18",
   "status": "proved",
   "theorems": [
    "Verif.Issuer.C18_offer_redeemable"
   ],
   "note": "Redemption after any history in which the code is still stored and live."
  },
  {
   "property": "C180",
   "status": "partial",
   "theorems": [
    "Verif.Issuer.C180_configuration_published_partial",
    "Verif.Issuer.C180_violated",
    "Verif.Issuer.C180_unpublished_never_issued"
   ],
   "note": "False as stated: `C180_violated` shows that every otherwise valid request that names an unpublished configuration without listing claims gets a code that stands for it, if the Subject provider authorizes the subject. Holds of credentials described by format, with listed claims or asked for by scope (`C180_configuration_published_partial`); and credential requests for unpublished configurations are always refused (`C180_unpublished_never_issued`)."
  },
  {
   "property": "C181",
   "status": "proved",
   "theorems": [
    "Verif.Issuer.C181_credential_given_iff",
    "Verif.Issuer.C181_deferred_iff",
    "Verif.Issuer.C181_collected_iff"
   ],
   "note": ""
  },
  {
   "property": "C182",
   "status": "partial",
   "theorems": [
    "Verif.App.C182_violated_never_collected",
    "Verif.App.C182_violated_stays_empty",
    "Verif.App.C182_accepted_is_shown_partial"
   ],
   "note": "False: `C182_violated_never_collected` and `C182_violated_stays_empty` show for every history that the wallet never collects anything through its screens (`IssuanceView` has no `status`, on which Issuance/index.tsx 24-40 depends). `C182_accepted_is_shown_partial` keeps the true part: the offer that is accepted is the one on the screen, if nothing is on its way."
  },
  {
   "property": "C183",
   "status": "partial",
   "theorems": [
    "Verif.App.C183_pressed_partial",
    "Verif.App.C183_calm_partial",
    "Verif.App.Demo.C183_violated_raced"
   ],
   "note": "False in general: `C183_violated_raced` is a run in which the user authorizes one request while another one's credentials are on the screen. True: no presentation without a press, at most one per press (`C183_pressed_partial`); and with nothing on its way it is what is on the screen (`C183_calm_partial`)."
  },
  {
   "property": "C184",
   "status": "proved",
   "theorems": [
    "Verif.App.C184_deleted_was_confirmed"
   ],
   "note": ""
  },
  {
   "property": "C185",
   "status": "partial",
   "theorems": [
    "Verif.App.C185_stays_partial",
    "Verif.App.Demo.C185_violated_taken_away"
   ],
   "note": "False: `C185_violated_taken_away` is a run in which the splash screen's timer (Splash/index.tsx 16-18, never cleared) takes a request off the screen that the user has not decided about. `C185_stays_partial` holds once the timer has gone off and nothing is on its way."
  },
  {
   "property": "C186",
   "status": "partial",
   "theorems": [
    "Verif.App.C186_back_partial",
    "Verif.App.C186_violated_stuck",
    "Verif.App.Demo.C186_violated_no_way_back"
   ],
   "note": "False: `C186_violated_no_way_back` reaches the screen on which nothing the user can press does anything (`C186_violated_stuck`): a presentation was authorized and could not be sent. Of all other screens `C186_back_partial` holds."
  },
  {
   "property": "C187",
   "status": "partial",
   "theorems": [
    "Verif.App.C187_offer_pasted_partial",
    "Verif.App.C187_request_fetched_partial",
    "Verif.App.C187_violated_cut_off",
    "Verif.App.C187_violated_by_value"
   ],
   "note": "False of offers longer than the field (`C187_violated_cut_off`: all whose issuer has an address of 1002 or more plain characters) and of requests by value (`C187_violated_by_value`: `encodeURIComponent` hides the `&` that vercre-holder looks for). `C187_offer_pasted_partial` and `C187_request_fetched_partial` are the true parts."
  },
  {
   "property": "C188",
   "status": "partial",
   "theorems": [
    "Verif.App.C188_values_shown_partial",
    "Verif.App.C188_nothing_else",
    "Verif.App.C188_issuer_shown_partial",
    "Verif.App.C188_violated_names_not_shown"
   ],
   "note": "False of the names of claims: `C188_violated_names_not_shown` (Detail.tsx 68-70 passes `name={value}`). Values, and the issuer's authority, are shown: `C188_values_shown_partial`, `C188_nothing_else`, `C188_issuer_shown_partial`. For several subjects see C154."
  },
  {
   "property": "C189",
   "status": "proved",
   "theorems": [
    "Verif.Wire.C189_request_understood",
    "Verif.Wire.C189_answer_understood",
    "Verif.Wire.C189_left_out",
    "Verif.Wire.C189_unknown_flow",
    "Verif.Wire.C189_served"
   ],
   "note": ""
  },
  {
   "property": "C19",
   "status": "proved",
   "theorems": [
    "Verif.Issuer.C19_by_reference_once_unchanged"
   ],
   "note": ""
  },
  {
   "property": "C190",
   "status": "partial",
   "theorems": [
    "Verif.Status.C190_error_json_partial",
    "Verif.Status.C190_error_serializes_partial",
    "Verif.Status.C190_detail_replaces_type",
    "Verif.Status.C190_control_character_loses_error"
   ],
   "note": "True exactly for details without quotes, backslashes and control characters (C190_error_json_partial is an equivalence). False otherwise: C190_detail_replaces_type, C190_control_character_loses_error."
  },
  {
   "property": "C191",
   "status": "partial",
   "theorems": [
    "Verif.Wire.C191_text_comes_back_partial",
    "Verif.Wire.C191_panics_iff",
    "Verif.Wire.C191_space_refused"
   ],
   "note": "The round trips hold for all presentations that can be put in words (C119). `from_str` looks at the first byte with a slice, which panics on just the texts that C191_panics_iff names, and takes JSON with white space before it for base64 (C191_space_refused)."
  },
  {
   "property": "C192",
   "status": "partial",
   "theorems": [
    "Verif.Verifier.C192_credentials_are_signed_partial",
    "Verif.Verifier.C192_anyone_presents",
    "Verif.Verifier.C192_subject_ignored"
   ],
   "note": "False in the code: C192_anyone_presents builds, for every request, an accepted response by a presenter without any key; C192_subject_ignored shows that the subject makes no difference in signed presentations either. True part: the credentials used were signed."
  },
  {
   "property": "C193",
   "status": "partial",
   "theorems": [
    "Verif.Verifier.C193_not_expired_partial",
    "Verif.Verifier.C193_status_and_start_ignored",
    "Verif.Verifier.Demo.C193_not_yet_valid_accepted"
   ],
   "note": "False in the code: C193_status_and_start_ignored, and the instance C193_not_yet_valid_accepted. The lookup of the status is a TODO at response.rs 184. True part: the end of validity is respected (C193_not_expired_partial)."
  },
  {
   "property": "C194",
   "status": "partial",
   "theorems": [
    "Verif.Verifier.C194_issuer_ignored",
    "Verif.Verifier.C194_iss_ignored",
    "Verif.Verifier.C192_credentials_are_signed_partial"
   ],
   "note": "False in the code: C194_issuer_ignored, C194_iss_ignored. True part: the token verifies under some key the resolver finds (C192_credentials_are_signed_partial)."
  },
  {
   "property": "C195",
   "status": "partial",
   "theorems": [
    "Verif.Issuer.C195_bound_to_last_key_partial",
    "Verif.Issuer.C195_other_keys_get_nothing",
    "Verif.Issuer.Demo.C195_two_keys_one_credential"
   ],
   "note": "False in the code: C195_other_keys_get_nothing, instance C195_two_keys_one_credential. True part: all the proofs must be valid and the credential is bound to the last key."
  },
  {
   "property": "C196",
   "status": "partial",
   "theorems": [
    "Verif.Issuer.C196_limits_forgotten",
    "Verif.Issuer.C196_limits_forgotten_overlap",
    "Verif.Issuer.C196_every_claim_issued",
    "Verif.Issuer.C196_named_in_request_partial",
    "Verif.Issuer.Demo.C196_more_than_asked"
   ],
   "note": "False in the code: `claim_ids` is always `None` (token.rs 325-346), so C196_limits_forgotten and C196_every_claim_issued; instance C196_more_than_asked. True part: C196_named_in_request_partial."
  },
  {
   "property": "C197",
   "status": "partial",
   "theorems": [
    "Verif.Mdl.C197_type_of_document_partial",
    "Verif.Mdl.C197_other_types_never_made",
    "Verif.Mdl.Demo.C197_photo_id_is_a_licence"
   ],
   "note": "False in the code: C197_other_types_never_made, instance C197_photo_id_is_a_licence. True part: the type is as promised exactly for driving licences."
  },
  {
   "property": "C198",
   "status": "partial",
   "theorems": [
    "Verif.Issuer.C198_credential_repeatable_partial",
    "Verif.Verifier.C198_response_repeatable",
    "Verif.Issuer.C198_code_lost",
    "Verif.Issuer.C198_transaction_lost"
   ],
   "note": "False in the code for codes and transactions, which are purged before the answer is made (token.rs 52-55, deferred.rs 52-55): C198_code_lost, C198_transaction_lost. True part: credential requests (C198_credential_repeatable_partial, possibly with the fresh nonce of an invalid_proof answer) and presentations (C198_response_repeatable)."
  },
  {
   "property": "C199",
   "status": "proved",
   "theorems": [
    "Verif.Interop.C199_issued_is_accepted"
   ],
   "note": "Requests for one credential that ask for a constant, as in C114; the limits for other requests are C115. Example with all three parties: Interop/CircleDemo.lean."
  },
  {
   "property": "C20",
   "status": "partial",
   "theorems": [
    "Verif.Issuer.C20_only_named_entry_partial",
    "Verif.Issuer.C20_fetch_removes_anything",
    "Verif.Issuer.C20_fetch_ends_a_session"
   ],
   "note": "False of the code; negation proved in general and on a run. What holds: no other entry changes."
  },
  {
   "property": "C200",
   "status": "partial",
   "theorems": [
    "Verif.Interop.C200_scope_flow_partial",
    "Verif.Interop.C200_one_credential_only",
    "Verif.Interop.C200_violated_several_words"
   ],
   "note": "One credential is collected as claimed, for a scope of one word. A second one in the same flow is always refused, whatever the scope covers: credential_by_format (credentials.rs 139-184) does not take over the new nonce that comes with each credential, as credential_by_identifier does (245-250). For a scope of several words the issuer grants the first (authorize.rs 326) and the wallet looks for a configuration with the whole text (credentials.rs 148-152), so that there is a token but never a credential. When several credentials are authorized in one configuration, which of them is issued is up to the order of a hash map."
  },
  {
   "property": "C201",
   "status": "partial",
   "theorems": [
    "Verif.App.C201_tapped_is_opened",
    "Verif.App.C201_violated_form_lost"
   ],
   "note": "Proved when everything has reached the screen and the list can be shown. With clicks before the answer it is false that only what was tapped last counts: the answer to `select` sets the mode of the screen whenever it comes (Credential/index.tsx 26-28)."
  },
  {
   "property": "C202",
   "status": "partial",
   "theorems": [
    "Verif.Holder.C202_before_or_after",
    "Verif.Holder.C202_save_again",
    "Verif.Interop.C202_token_lost"
   ],
   "note": "True of what is kept, for every call and every point, and of saving (what was handed to the storage before the stop is handed over again). False of the token call: token.rs 70-95 spends the code at the issuer and saves the token after that, and has no way to ask for it again (C202_token_lost, with the issuer of this repository)."
  },
  {
   "property": "C203",
   "status": "partial",
   "theorems": [
    "Verif.Interop.C203_restrictions_ignored",
    "Verif.Interop.C203_name_decides",
    "Verif.Interop.C203_wallet_never_accepted",
    "Verif.Interop.C203_called_as_asked_partial"
   ],
   "note": "False in the code: response.rs 133-141 compares the format stated in the submission with the names the descriptor lists, nothing else (C203_restrictions_ignored, C203_name_decides). present.rs 85-113 states jwt_vc_json for every credential, whereas create_request.rs 122 uses jwt_vc (C203_wallet_never_accepted). True part: the stated format is one of those listed, and the credential is a token that verifies."
  },
  {
   "property": "C204",
   "status": "partial",
   "theorems": [
    "Verif.Issuer.C204_may_expunge_partial",
    "Verif.Issuer.ExpungeDemo.C204_violated_last_second",
    "Verif.Issuer.ExpungeDemo.C204_violated_registration",
    "Verif.Verifier.C204_verifier_accepts_no_more_partial",
    "Verif.Verifier.C204_verifier_in_time_partial",
    "Verif.Verifier.ExpungeDemo.C204_violated_presentation"
   ],
   "note": "False in the code in three places: the last second (state.rs 35-37 compares whole seconds), registration (register.rs 17-46 does not check expiry) and the verifier's requests (response.rs and request_object.rs do not check expiry). True part: from one second after the expiry on, entries can be expunged at will, and every issuer call but registration is answered alike; registration and the verifier never succeed where they would not over a store that keeps everything; with a store that expunges at once the verifier answers in time only. Assumes a store without faults; one call at a time."
  },
  {
   "property": "C205",
   "status": "proved",
   "theorems": [
    "Verif.Wire.C205_read_iff",
    "Verif.Wire.C205_one_meaning",
    "Verif.Wire.C205_respelled",
    "Verif.Wire.C205_half_pair_refused",
    "Verif.Wire.C205_offer_link_read",
    "Verif.Wire.C205_front_end_understood",
    "Verif.Wire.C205_sends_json"
   ],
   "note": "The reader models serde_json on the text level. Left aside: the limit of that crate on nesting (128), and the value of numbers, which are kept as text."
  },
  {
   "property": "C206",
   "status": "proved",
   "theorems": [
    "Verif.Holder.C206_token_goes_where_it_came_from",
    "Verif.Holder.C206_sent_to_named_issuer",
    "Verif.Holder.C206_token_goes_where_it_came_from_overlap",
    "Verif.Holder.C206_sent_to_named_issuer_overlap"
   ],
   "note": ""
  },
  {
   "property": "C207",
   "status": "partial",
   "theorems": [
    "Verif.App.C207_sent_under_named_issuer_partial",
    "Verif.App.C207_own_name_arrives_partial",
    "Verif.App.C207_handlers_reached_partial",
    "Verif.App.C207_metadata_address_iff",
    "Verif.App.C207_published_endpoints_ignored",
    "Verif.App.C207_slash_reaches_nothing",
    "Verif.App.C207_deferred_not_served",
    "Verif.App.C207_example_issuer_missed"
   ],
   "note": "Requests go to /token and /credential under the issuer's name, with the token given there (proved for every history), and arrive if the issuer runs the routes of the example issuer and its metadata names the host it was asked of. False otherwise: endpoints an issuer publishes are ignored; an identifier ending with / reaches no handler; the deferred endpoint that the example issuer publishes is not served; and the example issuer names itself http://vercre.io also at localhost:8080, so what is sent for its offers misses it."
  },
  {
   "property": "C208",
   "status": "proved",
   "theorems": [
    "Verif.Holder.C208_pre_authorized_token_request",
    "Verif.Holder.C208_code_redeemed_by_its_call",
    "Verif.Holder.C208_authorization_request",
    "Verif.Holder.C208_credential_request"
   ],
   "note": "In a flow that the wallet started itself, the proof is made out to no issuer (audience \"\"); see C208's ProofFor."
  },
  {
   "property": "C209",
   "status": "partial",
   "theorems": [
    "Verif.Wire.C209_malformed_refused_partial",
    "Verif.Wire.C209_violated_answered_in_the_clear"
   ],
   "note": "Proved: a request that asks for encryption and does not say with which key or algorithms is refused. False of the code: no endpoint looks at the member, so that asking for encryption changes nothing about the answer, which has the credential in the clear (`C209_violated_answered_in_the_clear`)."
  },
  {
   "property": "C21",
   "status": "proved",
   "theorems": [
    "Verif.Issuer.C21_one_transaction_code_guess"
   ],
   "note": ""
  },
  {
   "property": "C22",
   "status": "proved",
   "theorems": [
    "Verif.Issuer.C22_live_token_and_nonce",
    "Verif.Issuer.C22_deferred_live_token_and_nonce"
   ],
   "note": ""
  },
  {
   "property": "C23",
   "status": "partial",
   "theorems": [
    "Verif.Issuer.C23_proofs_bound_to_nonce_partial",
    "Verif.Issuer.C23_empty_proof_list_accepted"
   ],
   "note": "False of the code for an empty proof list (negation proved on a run). What holds: every proof given is valid and over the session nonce."
  },
  {
   "property": "C24",
   "status": "proved",
   "theorems": [
    "Verif.Issuer.C24_nonce_rotates",
    "Verif.Issuer.C24_old_proof_refused"
   ],
   "note": ""
  },
  {
   "property": "C25",
   "status": "partial",
   "theorems": [
    "Verif.Issuer.C25_no_replay_same_token_partial",
    "Verif.Issuer.C25_proof_replayed"
   ],
   "note": "False of the code: a proof can be replayed by presenting the notification id as access token (negation proved on a run). Under the token itself no replay succeeds."
  },
  {
   "property": "C26",
   "status": "proved",
   "theorems": [
    "Verif.Issuer.C26_claims_from_authorized_dataset"
   ],
   "note": ""
  },
  {
   "property": "C27",
   "status": "proved",
   "theorems": [
    "Verif.Issuer.C27_unauthorized_refused"
   ],
   "note": ""
  },
  {
   "property": "C28",
   "status": "proved",
   "theorems": [
    "Verif.Issuer.C28_subject_consistent",
    "Verif.Issuer.C28_issued_within"
   ],
   "note": ""
  },
  {
   "property": "C29",
   "status": "proved",
   "theorems": [
    "Verif.Issuer.C29_invalid_proof_recoverable"
   ],
   "note": ""
  },
  {
   "property": "C30",
   "status": "proved",
   "theorems": [
    "Verif.Issuer.C30_only_own_session"
   ],
   "note": ""
  },
  {
   "property": "C31",
   "status": "proved",
   "theorems": [
    "Verif.Issuer.C31_deferred_is_original_request",
    "Verif.Issuer.C31_transaction_single_use",
    "Verif.Issuer.C31_answered_transaction_spent"
   ],
   "note": "Sequential histories."
  },
  {
   "property": "C32",
   "status": "partial",
   "theorems": [
    "Verif.Issuer.C32_pending_never_pollable"
   ],
   "note": "False of the code: the general negation is proved (a pending transaction can never be polled again)."
  },
  {
   "property": "C33",
   "status": "partial",
   "theorems": [
    "Verif.Issuer.C33_notifications_always_refused"
   ],
   "note": "False of the code: the general negation is proved (every notification is refused in every reachable state)."
  },
  {
   "property": "C34",
   "status": "proved",
   "theorems": [
    "Verif.Issuer.C34_registration_needs_state"
   ],
   "note": ""
  },
  {
   "property": "C35",
   "status": "proved",
   "theorems": [
    "Verif.C35_mandatory_claims"
   ],
   "note": ""
  },
  {
   "property": "C36",
   "status": "partial",
   "theorems": [
    "Verif.C36_supported_check_partial",
    "Verif.C36_unsupported_claims_accepted",
    "Verif.C36_unsupported_claim_example"
   ],
   "note": "False of the code: the result of the check is ignored. The check itself is proved correct; the general negation is proved."
  },
  {
   "property": "C37",
   "status": "proved",
   "theorems": [
    "Verif.C37_format_lookup",
    "Verif.C37_order_irrelevant"
   ],
   "note": ""
  },
  {
   "property": "C38",
   "status": "partial",
   "theorems": [
    "Verif.C38_error_json_partial",
    "Verif.C38_error_serializes_partial",
    "Verif.C38_description_replaces_code",
    "Verif.C38_control_character_loses_error",
    "Verif.C38_issuance_pending",
    "Verif.C38_invalid_proof_partial",
    "Verif.C38_error_told_apart_partial",
    "Verif.C38_unexpected_format_lost"
   ],
   "note": "True exactly for descriptions without quotes, backslashes and control characters; a description can otherwise replace the error code or lose the error. The pending error cannot be serialized at all."
  },
  {
   "property": "C39",
   "status": "proved",
   "theorems": [
    "Verif.C39_quota_is_a_list"
   ],
   "note": ""
  },
  {
   "property": "C40",
   "status": "proved",
   "theorems": [
    "Verif.C40_tokens_url_safe",
    "Verif.C40_distinct_draws_distinct_tokens",
    "Verif.C40_tx_code_six_digits"
   ],
   "note": "fastrand is a parameter: numbers drawn stay in the range asked for. That different calls draw differently is a property of the random source, not of vercre."
  },
  {
   "property": "C41",
   "status": "proved",
   "theorems": [
    "Verif.C41_verifier_length",
    "Verif.C41_challenge_accepted"
   ],
   "note": "SHA-256 is a parameter with 32-byte output; fastrand is a parameter."
  },
  {
   "property": "C42",
   "status": "proved",
   "theorems": [
    "Verif.C42_percent_round_trip",
    "Verif.C42_encoding_is_query_text",
    "Verif.C42_encoding_injective"
   ],
   "note": ""
  },
  {
   "property": "C43",
   "status": "partial",
   "theorems": [
    "Verif.C43_query_round_trip_partial",
    "Verif.C43_query_is_json_partial",
    "Verif.C43_parameter_injection",
    "Verif.C43_empty_request_fails",
    "Verif.C43_number_becomes_text",
    "Verif.C43_tuple_breaks_query",
    "Verif.C43_map_breaks_query",
    "Verif.C43_bracket_text_changes"
   ],
   "note": "Proved for requests of any shape whose texts are plain; false in general: a delimiter in a text smuggles parameters, numbers become text, tuples and maps break the query."
  },
  {
   "property": "C44",
   "status": "proved",
   "theorems": [
    "Verif.Status.C44_revocation_bits"
   ],
   "note": "For lists with one bit per entry; GZIP and base64 are a parameter. C74 says the published form is text."
  },
  {
   "property": "C45",
   "status": "partial",
   "theorems": [
    "Verif.Status.C45_no_overlap_partial",
    "Verif.Status.C45_neighbour_erased",
    "Verif.Status.C45_erased_example"
   ],
   "note": "False for every size below eight (general theorem and witness); proved for sizes of at least eight."
  },
  {
   "property": "C46",
   "status": "partial",
   "theorems": [
    "Verif.Status.C46_no_panic_partial",
    "Verif.Status.C46_message_at_end_panics",
    "Verif.Status.C46_overflow"
   ],
   "note": "False for message entries within eight bits of the end and for overflowing indexes; proved otherwise."
  },
  {
   "property": "C47",
   "status": "partial",
   "theorems": [
    "Verif.Status.C47_credential_always_fails"
   ],
   "note": "False: building the credential fails for every input. Nothing of the positive claim holds."
  },
  {
   "property": "C48",
   "status": "proved",
   "theorems": [
    "Verif.Dif.C48_constraints",
    "Verif.Dif.C48_refusal"
   ],
   "note": "JSONPath, regex and date parsing are parameters."
  },
  {
   "property": "C49",
   "status": "partial",
   "theorems": [
    "Verif.Dif.C49_numbers_and_arrays_partial",
    "Verif.Dif.C49_const_filters_fail",
    "Verif.Dif.C49_refused_example"
   ],
   "note": "The code compares a string constant with the JSON text of the value, quotes included, so constant filters never match a plain string; proved as negation. The partial theorem covers the values for which the comparison does behave."
  },
  {
   "property": "C50",
   "status": "partial",
   "theorems": [
    "Verif.Dif.C50_required_fields_checked_partial",
    "Verif.Dif.C50_optional_filter_ignored",
    "Verif.Dif.C50_failing_value_accepted"
   ],
   "note": "An optional field with a present but failing value is accepted (negation proved); required fields are checked."
  },
  {
   "property": "C51",
   "status": "proved",
   "theorems": [
    "Verif.Verifier.C51_request_stored",
    "Verif.Verifier.C51_request_object_signed",
    "Verif.Verifier.C51_retrievable"
   ],
   "note": ""
  },
  {
   "property": "C52",
   "status": "proved",
   "theorems": [
    "Verif.Verifier.C52_accepted_answers",
    "Verif.Verifier.C52_answers_accepted"
   ],
   "note": "JWT decoding, JSONPath and serialisation of credentials are parameters."
  },
  {
   "property": "C53",
   "status": "proved",
   "theorems": [
    "Verif.Verifier.C53_answered_once",
    "Verif.Verifier.C53_rejected_unchanged"
   ],
   "note": "Assumes tokens never repeat."
  },
  {
   "property": "C54",
   "status": "partial",
   "theorems": [
    "Verif.Verifier.C54_evicted_refused_partial",
    "Verif.Verifier.C54_expiry_ignored",
    "Verif.Verifier.Demo.C54_expired_request_answered"
   ],
   "note": "False: the expiry is never checked (general independence theorem and a witness). What remains is refusal once the store has evicted the entry."
  },
  {
   "property": "C55",
   "status": "partial",
   "theorems": [
    "Verif.Verifier.C55_jwt_presentations_verified_partial",
    "Verif.Verifier.C55_object_proof_unchecked",
    "Verif.Verifier.C55_audience_ignored",
    "Verif.Verifier.Demo.C55_stolen_credential_accepted",
    "Verif.Verifier.Demo.C55_other_audience_accepted"
   ],
   "note": "False for object presentations, audience and holder binding (general theorems and witnesses). JWT presentations are verified."
  },
  {
   "property": "C56",
   "status": "proved",
   "theorems": [
    "Verif.C56_vc_mandatory",
    "Verif.C56_vc_content",
    "Verif.C56_vc_builds",
    "Verif.C56_vp"
   ],
   "note": ""
  },
  {
   "property": "C57",
   "status": "proved",
   "theorems": [
    "Verif.C57_values_kept",
    "Verif.C57_lookup"
   ],
   "note": ""
  },
  {
   "property": "C58",
   "status": "proved",
   "theorems": [
    "Verif.C58_vc_round_trip",
    "Verif.C58_vp_round_trip",
    "Verif.C58_data_integrity_unsupported"
   ],
   "note": "The signature layer is a parameter with the law that encoded claims decode to themselves."
  },
  {
   "property": "C59",
   "status": "proved",
   "theorems": [
    "Verif.Mdl.C59_digest_ids_unique"
   ],
   "note": ""
  },
  {
   "property": "C60",
   "status": "partial",
   "theorems": [
    "Verif.Mdl.C60_ids_in_range_partial",
    "Verif.Mdl.Demo.C60_negative_id"
   ],
   "note": "False for the least 32-bit integer (witness); proved otherwise."
  },
  {
   "property": "C61",
   "status": "proved",
   "theorems": [
    "Verif.Mdl.C61_elements_digested_once",
    "Verif.Mdl.C61_non_object_refused",
    "Verif.Mdl.C61_ends"
   ],
   "note": "CBOR and SHA-256 are parameters. C61_ends assumes the random source is not stuck."
  },
  {
   "property": "C62",
   "status": "proved",
   "theorems": [
    "Verif.Holder.C62_token_after_acceptance",
    "Verif.Holder.C62_credentials_after_token"
   ],
   "note": "Any issuer, verifier and storage (history-dependent oracle), any storage faults; identifiers never repeat."
  },
  {
   "property": "C63",
   "status": "partial",
   "theorems": [
    "Verif.Holder.C63_failed_call_changes_nothing",
    "Verif.Holder.C63_failed_call_keeps_flows",
    "Verif.Holder.C63_refused_offer_leaves_flow"
   ],
   "note": "True of every endpoint but offer: a refused offer leaves a flow behind (proved). A write reported as failed may have taken effect."
  },
  {
   "property": "C64",
   "status": "partial",
   "theorems": [
    "Verif.Holder.C64_accepted_scope_partial",
    "Verif.Holder.C64_authorize_ignores_acceptance"
   ],
   "note": "True of pre-authorized flows; in the authorization code flow what was accepted is ignored (proved for every history)."
  },
  {
   "property": "C65",
   "status": "partial",
   "theorems": [
    "Verif.Holder.C65_accepted_claims_known_partial",
    "Verif.Holder.C65_accepts_what_was_not_offered"
   ],
   "note": "False: anything is accepted when no claims are given (proved for every list). With claims, the id is in the metadata, not necessarily in the offer."
  },
  {
   "property": "C66",
   "status": "partial",
   "theorems": [
    "Verif.Holder.C66_all_requested_partial",
    "Verif.Holder.C66_batch_fails"
   ],
   "note": "A successful call has asked for everything; against an issuer that accepts each proof once no call for two or more can succeed (proved for every history)."
  },
  {
   "property": "C67",
   "status": "partial",
   "theorems": [
    "Verif.Holder.C67_never_notifies"
   ],
   "note": "False: in no history is any notification sent."
  },
  {
   "property": "C68",
   "status": "partial",
   "theorems": [
    "Verif.Holder.C68_saves_what_was_received",
    "Verif.Holder.C68_saved_credentials_came",
    "Verif.Holder.C68_save_ends_flow",
    "Verif.Holder.C68_saved_again"
   ],
   "note": "True of one save; while something is outstanding a second save stores everything again (proved)."
  },
  {
   "property": "C69",
   "status": "proved",
   "theorems": [
    "Verif.Holder.C69_outstanding_reported"
   ],
   "note": "Assumes no write takes effect while being reported as failed."
  },
  {
   "property": "C70",
   "status": "proved",
   "theorems": [
    "Verif.Holder.C70_presented_is_authorized"
   ],
   "note": ""
  },
  {
   "property": "C71",
   "status": "partial",
   "theorems": [
    "Verif.Holder.StatusText.C71_round_trip_partial",
    "Verif.Holder.StatusText.C71_panics_iff",
    "Verif.Holder.StatusText.C71_parse_panics"
   ],
   "note": "Round trip holds; parsing panics exactly for the texts described by C71_panics_iff."
  },
  {
   "property": "C72",
   "status": "partial",
   "theorems": [
    "Verif.Holder.C72_presented_with_const_partial",
    "Verif.Holder.C72_no_const_no_presentation"
   ],
   "note": "False without a const filter (proved for every history); true with one."
  },
  {
   "property": "C73",
   "status": "proved",
   "theorems": [
    "Verif.Holder.C73_submission"
   ],
   "note": ""
  },
  {
   "property": "C74",
   "status": "partial",
   "theorems": [
    "Verif.Status.C74_published_text_not_bits"
   ],
   "note": "False: for every log the published bytes read wrongly."
  },
  {
   "property": "C75",
   "status": "partial",
   "theorems": [
    "Verif.Mdl.C75_device_key_is_issuers"
   ],
   "note": "False for every issuance."
  },
  {
   "property": "C76",
   "status": "partial",
   "theorems": [
    "Verif.Mdl.C76_signature_not_cose"
   ],
   "note": "False for every issuance, under signature schemes where different messages have different signatures."
  },
  {
   "property": "C77",
   "status": "proved",
   "theorems": [
    "Verif.Holder.C77_ended_flows_stay_ended"
   ],
   "note": "Assumes no write takes effect while being reported as failed."
  },
  {
   "property": "C78",
   "status": "proved",
   "theorems": [
    "Verif.Holder.C78_code_redeemed_with_its_verifier",
    "Verif.Holder.C78_verifiers_distinct"
   ],
   "note": ""
  },
  {
   "property": "C79",
   "status": "partial",
   "theorems": [
    "Verif.Holder.C79_state_not_checked",
    "Verif.Holder.Demo.C79_foreign_state_accepted"
   ],
   "note": "False: every authorization response is used whatever its state (proved for every history), with a witness."
  },
  {
   "property": "C80",
   "status": "partial",
   "theorems": [
    "Verif.Holder.C80_token_goes_where_metadata_says",
    "Verif.Holder.Demo.C80_code_sent_elsewhere",
    "Verif.Holder.C80_sent_to_own_issuer_partial",
    "Verif.Holder.C80_sent_to_own_issuer_overlap_partial"
   ],
   "note": "False: requests go to the issuer the metadata names; witness with a different one. What holds: if every metadata reply names the issuer it was asked of, then codes, PINs, proofs and tokens of a flow all go to the issuer named in the offer, or to the one the wallet was told to turn to."
  },
  {
   "property": "C81",
   "status": "partial",
   "theorems": [
    "Verif.Holder.C81_no_panic_partial",
    "Verif.Holder.C81_panics_on_empty_list"
   ],
   "note": "No panic in any history when metadata lists are not empty; with an empty list of response types the wallet panics (proved generally)."
  },
  {
   "property": "C82",
   "status": "partial",
   "theorems": [
    "Verif.Holder.Demo.C82_saves_credentials_of_strangers",
    "Verif.Holder.C68_saved_credentials_came"
   ],
   "note": "False (witness); what holds is that saved credentials came from a response for the flow and verified."
  },
  {
   "property": "C83",
   "status": "partial",
   "theorems": [
    "Verif.Holder.C83_proof_for_offering_issuer_partial",
    "Verif.Holder.Demo.C83_wallet_flow_without_audience"
   ],
   "note": "True of flows with an offer; false of flows begun by the wallet (witness)."
  },
  {
   "property": "C84",
   "status": "partial",
   "theorems": [
    "Verif.Holder.C84_fetched_request_signed_partial",
    "Verif.Holder.C84_inline_request_unsigned"
   ],
   "note": "True of fetched requests; inline requests are accepted unsigned (proved generally)."
  },
  {
   "property": "C85",
   "status": "partial",
   "theorems": [
    "Verif.Holder.C85_proof_over_latest_nonce_partial",
    "Verif.Holder.Demo.C85_stale_nonce"
   ],
   "note": "True of credentials named by identifier, for the nonces of successful token and credential calls. False of scope-based requests (witness), of nonces that come with deferred credentials and of those in calls that fail (C109)."
  },
  {
   "property": "C86",
   "status": "partial",
   "theorems": [
    "Verif.Issuer.C86_used_values_refused_partial",
    "Verif.Issuer.C86_codes_refused_after_answer_partial",
    "Verif.Issuer.Demo.C86_overlapping_redeemed_twice",
    "Verif.Issuer.Demo.C86_overlapping_guesses"
   ],
   "note": "Every schedule: refused if started after the successful answer. False of overlapping calls (two witness schedules: one code redeemed twice; a wrong transaction code that does not use up the grant)."
  },
  {
   "property": "C87",
   "status": "proved",
   "theorems": [
    "Verif.Issuer.C87_subject_consistent",
    "Verif.Issuer.C87_issued_within"
   ],
   "note": "Every schedule, fault pattern and crash point."
  },
  {
   "property": "C88",
   "status": "partial",
   "theorems": [
    "Verif.Issuer.C88_proof_refused_after_answer_partial",
    "Verif.Issuer.Demo.C88_overlapping_proof_used_twice",
    "Verif.Issuer.Demo.C88_overlapping_nonce_lost"
   ],
   "note": "Every schedule: refused if started after the credential was answered. False of overlapping requests (witness schedules)."
  },
  {
   "property": "C89",
   "status": "partial",
   "theorems": [
    "Verif.Verifier.C89_answered_once_partial",
    "Verif.Verifier.C89_accepted_answers",
    "Verif.Verifier.Demo.C89_overlapping_both_accepted"
   ],
   "note": "Every schedule: refused if started after the accepted response was answered; accepted responses answer a request that was made. False of overlapping responses (witness schedule)."
  },
  {
   "property": "C90",
   "status": "proved",
   "theorems": [
    "Verif.Holder.C90_received_can_be_saved"
   ],
   "note": "Assumes no write takes effect while being reported as failed."
  },
  {
   "property": "C91",
   "status": "proved",
   "theorems": [
    "Verif.Issuer.C91_acceptable_request_gets_code"
   ],
   "note": ""
  },
  {
   "property": "C92",
   "status": "proved",
   "theorems": [
    "Verif.Issuer.C92_offer_created_iff"
   ],
   "note": ""
  },
  {
   "property": "C93",
   "status": "proved",
   "theorems": [
    "Verif.Issuer.C93_credential_issued",
    "Verif.Issuer.C93_credential_issued_by_format"
   ],
   "note": "The single-type configurations and the three unimplemented formats are excluded by `CanIssue` (see C98)."
  },
  {
   "property": "C94",
   "status": "proved",
   "theorems": [
    "Verif.Issuer.C94_acceptable_request_can_be_pushed"
   ],
   "note": ""
  },
  {
   "property": "C95",
   "status": "proved",
   "theorems": [
    "Verif.Issuer.C95_token_gets_credential",
    "Verif.Issuer.C95_offer_to_credential"
   ],
   "note": ""
  },
  {
   "property": "C96",
   "status": "proved",
   "theorems": [
    "Verif.Issuer.C96_authorization_to_credential"
   ],
   "note": ""
  },
  {
   "property": "C97",
   "status": "proved",
   "theorems": [
    "Verif.Issuer.C97_deferred_credential_collected"
   ],
   "note": ""
  },
  {
   "property": "C98",
   "status": "partial",
   "theorems": [
    "Verif.Issuer.C98_no_panic_partial",
    "Verif.Issuer.C98_no_panic_overlap_partial",
    "Verif.Issuer.C98_unimplemented_format_panics",
    "Verif.Issuer.C98_no_servers_panics"
   ],
   "note": "Proved for issuers whose metadata names only implemented credential formats and whose list of authorization servers, if present, is not empty; for every request, state, fault pattern and schedule. False otherwise: a valid credential request for a configuration of any other format always reaches todo!() and a valid offer of an issuer with an empty list of authorization servers always indexes out of bounds (both proved in general). Arithmetic, allocation and the panics of dependencies are not modelled."
  },
  {
   "property": "C99",
   "status": "proved",
   "theorems": [
    "Verif.Issuer.C99_expired_stays_expired",
    "Verif.Issuer.C99_expired_stays_expired_any_key"
   ],
   "note": "Sequential histories of all endpoints with arbitrary faults. `Gains`: served, or refused with a new nonce."
  }
 ]
}