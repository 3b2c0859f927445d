{"id": "C01", "title": "Grant codes are single use", "statement": "Once the token endpoint has been called with an authorization or pre-authorized code and the state store accepted the removal, no later token call with that code can succeed, whatever the outcome of the first call (success, wrong PIN, wrong verifier, expired) and whatever other endpoints are called in between.", "quantifier": "all issuer histories (any interleaving of endpoint calls, any requests, any store faults), all codes", "why_tests_cant": "needs every history and every failure path between the two uses", "anchors": ["vercre-issuer/src/token.rs:token", "vercre-issuer/src/token.rs:verify"]}
{"id": "C02", "title": "A token is only issued for a matching, unexpired grant", "statement": "If the token endpoint returns an access token then, at the time of the call, the presented code named an unexpired offer or authorization, and: for a pre-authorized code the request's transaction code equals the one stored with the offer; for an authorization code the client id and redirect URI equal those of the authorization and the PKCE challenge of the presented verifier equals the stored challenge.", "quantifier": "all token requests, all store contents, all clocks, all provider metadata", "why_tests_cant": "the conjunction of guards must hold on every path to success", "anchors": ["vercre-issuer/src/token.rs:verify"]}
{"id": "C03", "title": "A token never widens the authorization", "statement": "Every credential identifier (and its credential configuration) that a token response or the stored access-token state grants was already authorized in the offer or authorization the code stands for.", "quantifier": "all requests and store states", "why_tests_cant": "ranges over all authorization detail lists and stored items", "anchors": ["vercre-issuer/src/token.rs:process", "vercre-issuer/src/token.rs:retain_details", "vercre-issuer/src/token.rs:authorized_details", "vercre-issuer/src/token.rs:authorized_credentials"]}
{"id": "C04", "title": "A pre-authorized holder can narrow but not extend", "statement": "In the pre-authorized flow a token request naming authorization_details succeeds only if every named credential is among those offered; the granted list then corresponds one to one with the request. When none are named everything offered is granted.", "quantifier": "all request detail lists against all offered item lists", "why_tests_cant": "quantifies over lists of unbounded length", "anchors": ["vercre-issuer/src/token.rs:retain_details"]}
{"id": "C05", "title": "Expired grants are refused at an exact boundary", "statement": "A token, authorization, offer, credential or deferred call on issuer state whose expiry lies at least one whole second in the past is refused, and state whose expiry is less than one second in the past or in the future passes the expiry test.", "quantifier": "all instants (nanosecond resolution) and expiries", "why_tests_cant": "boundary behaviour of a rounding comparison for every instant", "anchors": ["vercre-issuer/src/state.rs:State::is_expired"]}
{"id": "C06", "title": "The advertised token lifetime is honoured", "statement": "An access token advertised with expires_in seconds is accepted by the credential endpoint for that long. (The code keeps the much shorter expiry of the grant, so the full claim is false; the negation and the true bound are proved.)", "quantifier": "all authorizations and all later instants", "why_tests_cant": "lifetime is a relation between two endpoints at every instant", "anchors": ["vercre-issuer/src/token.rs:process", "vercre-issuer/src/state.rs:Expire", "vercre-issuer/src/credential.rs:Context::verify"]}
{"id": "C07", "title": "Only registered, in-scope clients get tokens", "statement": "If a token is issued the request's client id is known to the issuer's metadata provider, the client's registered scope is set and every one of its space separated scope values is supported by the server.", "quantifier": "all requests, all metadata", "why_tests_cant": "every path to success must have passed the check", "anchors": ["vercre-issuer/src/token.rs:verify"]}
{"id": "C08", "title": "Anonymous pre-authorized access follows the server setting", "statement": "When the authorization server advertises anonymous pre-authorized access, a token request without a client id is not refused for lack of one; when it does not, it is refused. (The first half is false of the code.)", "quantifier": "all requests without client id, all server metadata", "why_tests_cant": "needs all metadata settings and requests", "anchors": ["vercre-issuer/src/token.rs:verify"]}
{"id": "C09", "title": "An authorization code is only issued for a valid request", "statement": "If the authorize endpoint returns a code then the client is registered, the response type, grant type, code challenge method and scope are supported, the redirect URI is one the client registered, the PKCE challenge is 43 to 128 bytes long, the subject id is non-empty, and authorization details or a scope was given.", "quantifier": "all requests, store states and metadata", "why_tests_cant": "conjunction of about fifteen guards on every success path", "anchors": ["vercre-issuer/src/authorize.rs:authorize", "vercre-issuer/src/authorize.rs:Context::verify"]}
{"id": "C10", "title": "The authorization code carries exactly the request's binding", "statement": "The state stored under a newly issued authorization code holds the client id, redirect URI, PKCE challenge and subject of the request that produced it, expires five minutes later, and redeeming the code with the matching verifier, redirect URI and client id succeeds (while unexpired).", "quantifier": "all requests and worlds where authorize succeeds", "why_tests_cant": "composition of two endpoints over all states", "anchors": ["vercre-issuer/src/authorize.rs:process", "vercre-issuer/src/token.rs:token"]}
{"id": "C11", "title": "Authorized credentials are exactly those the subject may have", "statement": "Every credential identifier attached to an authorization or offer was returned by the issuer's Subject provider for that subject and credential configuration, and none is attached otherwise; a failed answer refuses the whole authorization.", "quantifier": "all requests and all Subject provider behaviours", "why_tests_cant": "quantifies over an arbitrary external authority", "anchors": ["vercre-issuer/src/authorize.rs:process", "vercre-issuer/src/create_offer.rs:authorize"]}
{"id": "C12", "title": "Pushed authorization can be required without locking clients out", "statement": "If the server requires pushed authorization requests then direct authorization requests are refused and pushed ones are accepted. (The second half is false: the PAR endpoint applies the same refusal, so no authorization can ever succeed.)", "quantifier": "all histories of a server with the setting enabled", "why_tests_cant": "lock-out is a statement about every history", "anchors": ["vercre-issuer/src/authorize.rs:Context::verify", "vercre-issuer/src/par.rs:par"]}
{"id": "C13", "title": "Pushed requests expire", "statement": "An authorization that references a pushed request succeeds only before the advertised 600 second expiry, and what is then verified and authorized is exactly the pushed request.", "quantifier": "all request URIs, store states and instants", "why_tests_cant": "all instants and all stored requests", "anchors": ["vercre-issuer/src/par.rs:process", "vercre-issuer/src/authorize.rs:authorize"]}
{"id": "C14", "title": "A pushed request URI is used at most once", "statement": "After a successful authorization by request_uri, the same request_uri cannot be used again. (False of the code; a two-step history is proved to succeed twice.)", "quantifier": "all histories", "why_tests_cant": "replay property over histories", "anchors": ["vercre-issuer/src/authorize.rs:authorize"]}
{"id": "C15", "title": "issuer_state binds an authorization to the offered subject", "statement": "An authorization carrying an issuer_state succeeds only if that state exists, is unexpired and belongs to the same subject; on success the state is consumed, so it cannot be reused by a later authorization.", "quantifier": "all requests, all store states, all later histories", "why_tests_cant": "replay and cross-subject property over histories", "anchors": ["vercre-issuer/src/authorize.rs:Context::verify", "vercre-issuer/src/authorize.rs:process"]}
{"id": "C16", "title": "issuer_state only accepts credential offers", "statement": "The issuer_state of an authorization request can only be the state of a credential offer. (False: any live state of the same subject, for example an access token, is accepted and destroyed.)", "quantifier": "all store states", "why_tests_cant": "type confusion across state kinds", "anchors": ["vercre-issuer/src/authorize.rs:Context::verify", "vercre-issuer/src/authorize.rs:process"]}
{"id": "C17", "title": "Offers only contain supported credentials and permitted grants", "statement": "If create_offer succeeds, every offered configuration id is in the issuer's metadata, every grant offered was requested and is supported by the server, a pre-authorized grant has a subject, and a transaction code is returned exactly when one was requested for the pre-authorized flow.", "quantifier": "all requests and metadata", "why_tests_cant": "all request lists", "anchors": ["vercre-issuer/src/create_offer.rs:verify", "vercre-issuer/src/create_offer.rs:process", "vercre-issuer/src/create_offer.rs:credential_offer"]}
{"id": "C18", "title": "A created offer can be redeemed", "statement": "After a successful pre-authorized create_offer, a token request from a registered in-scope client with the offered code and transaction code succeeds while the offer is unexpired, and grants exactly the offered credentials.", "quantifier": "all requests and providers, all instants before expiry", "why_tests_cant": "end to end composition over all inputs", "anchors": ["vercre-issuer/src/create_offer.rs:process", "vercre-issuer/src/token.rs:token"]}
{"id": "C19", "title": "A by-reference offer is delivered unchanged and once", "statement": "credential_offer with the identifier created by create_offer returns exactly the offer that a by-value call would have returned, and a second retrieval fails.", "quantifier": "all offers, all intermediate histories that do not touch that key", "why_tests_cant": "replay over histories", "anchors": ["vercre-issuer/src/create_offer.rs:process", "vercre-issuer/src/credential_offer.rs:credential_offer"]}
{"id": "C20", "title": "Fetching an offer does not disturb other sessions", "statement": "A credential_offer call never removes or alters state that is not a pending offer. (False: any key is purged before the stage is checked.)", "quantifier": "all store states and identifiers", "why_tests_cant": "cross-session non-interference", "anchors": ["vercre-issuer/src/credential_offer.rs:credential_offer"]}
{"id": "C21", "title": "Only one transaction-code guess per pre-authorized code", "statement": "A wrong transaction code (or any failed redemption) consumes the pre-authorized code: at most one guess is possible in any history.", "quantifier": "all histories and guess sequences", "why_tests_cant": "brute force resistance is over all sequences", "anchors": ["vercre-issuer/src/token.rs:token"]}
{"id": "C22", "title": "Credentials require a live access token and nonce", "statement": "If the credential endpoint issues or defers a credential then the presented access token named an unexpired validated token and its nonce had not expired.", "quantifier": "all requests, states, instants", "why_tests_cant": "every success path", "anchors": ["vercre-issuer/src/credential.rs:Context::verify"]}
{"id": "C23", "title": "Proof of possession is bound to the issuer nonce", "statement": "If a credential is issued for a configuration that requires proofs then at least one proof was supplied and each supplied proof is a correctly signed openid4vci proof whose nonce equals the token's current nonce, and the credential is bound to the DID of a presented proof key. (At-least-one is false for an empty proof list; the rest is proved.)", "quantifier": "all proof lists", "why_tests_cant": "quantifies over all proofs in unbounded lists", "anchors": ["vercre-issuer/src/credential.rs:Context::verify"]}
{"id": "C24", "title": "Nonces rotate on every issuance and every rejected proof", "statement": "After an issuance or an invalid_proof error, the nonce stored for that access token is the freshly generated one returned to the client, so a proof made for the previous nonce is rejected.", "quantifier": "all histories, all proofs", "why_tests_cant": "replay over histories", "anchors": ["vercre-issuer/src/credential.rs:Context::issue_response", "vercre-issuer/src/credential.rs:Context::invalid_proof"]}
{"id": "C25", "title": "A proof cannot be replayed", "statement": "No proof of possession is accepted twice. (False: the notification id issued with a credential is itself accepted as an access token with an unrotated nonce.)", "quantifier": "all histories", "why_tests_cant": "replay over histories using any key", "anchors": ["vercre-issuer/src/credential.rs:Context::issue_response"]}
{"id": "C26", "title": "Issued claims come from the authorized dataset", "statement": "Every claim in an issued credential was supplied by the Subject provider for the subject and credential identifier authorized by the access token, restricted to the claims the request names when it names any.", "quantifier": "all requests, all datasets", "why_tests_cant": "all claim maps", "anchors": ["vercre-issuer/src/credential.rs:Context::dataset", "vercre-issuer/src/credential.rs:Context::authorized"]}
{"id": "C27", "title": "Only credentials authorized by the token are issued", "statement": "A credential identifier or format that the access token was not authorized for is refused with an error and no credential, for every request.", "quantifier": "all requests and token states", "why_tests_cant": "all identifiers and formats", "anchors": ["vercre-issuer/src/credential.rs:Context::authorized"]}
{"id": "C28", "title": "Subject consistency across a whole flow", "statement": "In every reachable issuer state, the credential identifiers held by any offer, authorization or access token were authorized by the Subject provider for the subject recorded in that same state; so no history lets one subject's token obtain another subject's dataset.", "quantifier": "all histories", "why_tests_cant": "system invariant over all interleavings", "anchors": ["vercre-issuer/src/authorize.rs:process", "vercre-issuer/src/create_offer.rs:authorize", "vercre-issuer/src/token.rs:process", "vercre-issuer/src/credential.rs:Context::dataset"]}
{"id": "C29", "title": "An invalid_proof error can be recovered from", "statement": "After an invalid_proof error, a request with a valid proof over the returned nonce is accepted (all else equal).", "quantifier": "all requests and states", "why_tests_cant": "liveness after every error", "anchors": ["vercre-issuer/src/credential.rs:Context::invalid_proof"]}
{"id": "C30", "title": "Endpoints only touch their own session", "statement": "Each issuer endpoint leaves every state store entry unchanged except the keys named in the request (code, access token, transaction id, notification id, issuer_state, offer id), the access token of the session a presented token belongs to, and freshly generated keys.", "quantifier": "all endpoints, requests, stores and faults", "why_tests_cant": "frame condition for every other key", "anchors": ["vercre-issuer/src/token.rs", "vercre-issuer/src/authorize.rs", "vercre-issuer/src/credential.rs", "vercre-issuer/src/create_offer.rs", "vercre-issuer/src/credential_offer.rs", "vercre-issuer/src/deferred.rs", "vercre-issuer/src/notification.rs", "vercre-issuer/src/par.rs"]}
{"id": "C31", "title": "Deferred issuance is single use and under the caller's authority", "statement": "A transaction id is consumed by the first deferred call that finds it live, and the credential returned is exactly what the credential endpoint would return for the original request under the caller's access token.", "quantifier": "all histories and requests", "why_tests_cant": "replay over histories", "anchors": ["vercre-issuer/src/deferred.rs:deferred"]}
{"id": "C32", "title": "A still-pending deferred credential can be polled again", "statement": "When the deferred endpoint answers issuance_pending the wallet can retry with the transaction id it holds. (False: the id is destroyed and the replacement is never disclosed.)", "quantifier": "all histories after an issuance_pending answer", "why_tests_cant": "liveness over histories", "anchors": ["vercre-issuer/src/deferred.rs:deferred", "vercre-issuer/src/credential.rs:Context::defer_response"]}
{"id": "C33", "title": "Notifications are accepted for issued credentials", "statement": "The notification id returned with a credential is accepted by the notification endpoint. (False in every reachable state: no endpoint ever stores the required stage.)", "quantifier": "all histories", "why_tests_cant": "unreachability of a state over all histories", "anchors": ["vercre-issuer/src/notification.rs:notification", "vercre-issuer/src/credential.rs:Context::issue_response"]}
{"id": "C34", "title": "Registration requires a known access token", "statement": "Client registration succeeds only when the presented access token names some issuer state, and the registered metadata is what the provider returns.", "quantifier": "all requests and stores", "why_tests_cant": "all keys", "anchors": ["vercre-issuer/src/register.rs:register"]}
{"id": "C35", "title": "Mandatory claims are enforced at every depth", "statement": "Requested claims are accepted if and only if every mandatory supported claim, at any nesting depth, is present in the request and nested claims are requested as nested claims.", "quantifier": "all claim trees of any depth", "why_tests_cant": "unbounded nesting", "anchors": ["crates/openid/src/issuer.rs:CredentialConfiguration::verify_claims", "crates/openid/src/issuer.rs:claims_required"]}
{"id": "C36", "title": "Unsupported claims are refused", "statement": "A request naming a claim the credential configuration does not support is refused. (False: the result of the check is discarded; the check itself is proved correct.)", "quantifier": "all claim trees", "why_tests_cant": "unbounded nesting", "anchors": ["crates/openid/src/issuer.rs:CredentialConfiguration::verify_claims", "crates/openid/src/issuer.rs:claims_supported"]}
{"id": "C37", "title": "Format lookup returns a matching configuration", "statement": "Looking up a credential configuration by format returns an id whose configuration has that format, and fails only when there is none, whatever the map iteration order.", "quantifier": "all metadata maps and all iteration orders", "why_tests_cant": "hash map iteration order is unspecified", "anchors": ["crates/openid/src/issuer.rs:Issuer::credential_configuration_id"]}
{"id": "C38", "title": "OAuth errors serialize to their code and description", "statement": "Every error renders as a JSON object carrying its error code and description. (True for descriptions without quotes, backslashes or control characters; false otherwise, and for issuance_pending serialization.)", "quantifier": "all descriptions", "why_tests_cant": "all strings", "anchors": ["crates/openid/src/error.rs:Error"]}
{"id": "C39", "title": "One-or-many collections behave as lists", "statement": "Adding to a Quota appends, length counts items, and an empty Quota is one with no items, for every sequence of additions.", "quantifier": "all sequences of additions", "why_tests_cant": "unbounded sequences", "anchors": ["crates/core/src/lib.rs:Quota"]}
{"id": "C40", "title": "Generated tokens have full length and a URL-safe alphabet", "statement": "Every generated code, token, nonce and id is 43 URL-safe characters, distinct random draws give distinct tokens, and a transaction code is exactly six digits.", "quantifier": "all random draws", "why_tests_cant": "all random outcomes", "anchors": ["crates/core/src/gen.rs"]}
{"id": "C41", "title": "PKCE pairs always satisfy the server's length check", "statement": "Every generated verifier has 43 to 128 characters and every challenge, being base64url of a 32 byte digest, passes the authorize endpoint's length check.", "quantifier": "all random draws, any 32 byte hash function", "why_tests_cant": "all hash outputs", "anchors": ["crates/core/src/pkce.rs", "vercre-issuer/src/authorize.rs:Context::verify"]}
{"id": "C42", "title": "Percent-encoding round-trips", "statement": "Percent-decoding the encoding of a string gives back the string.", "quantifier": "all byte strings", "why_tests_cant": "all strings", "anchors": ["crates/core/src/urlencode/ser.rs", "crates/core/src/urlencode.rs"]}
{"id": "C43", "title": "URL-encoded requests round-trip", "statement": "Serializing a flat request to a query string and parsing it gives the same request. (True when values avoid the delimiter characters; false in general, with parameter injection witnesses.)", "quantifier": "all field maps", "why_tests_cant": "all strings", "anchors": ["crates/core/src/urlencode/ser.rs", "crates/core/src/urlencode.rs"]}
{"id": "C44", "title": "Revocation status bits are placed correctly", "statement": "For revocation and suspension lists, bit list_index of the published bitstring is 1 exactly when the last log entry of that purpose for that index has a non-zero value, all other bits are 0, and the list has 131072 entries.", "quantifier": "all logs", "why_tests_cant": "unbounded logs", "anchors": ["crates/status/src/bitstring.rs:bitstring"]}
{"id": "C45", "title": "Message status entries do not overlap", "statement": "Publishing a message status for one credential leaves the entries of other credentials unchanged. (False for entry sizes below eight bits; true for size at least eight.)", "quantifier": "all logs and sizes", "why_tests_cant": "unbounded logs", "anchors": ["crates/status/src/bitstring.rs:bitstring"]}
{"id": "C46", "title": "Bitstring generation never panics", "statement": "An out of range status position is reported as an error. (False for message lists within eight bits of the end; proved otherwise.)", "quantifier": "all logs and configurations", "why_tests_cant": "all positions", "anchors": ["crates/status/src/bitstring.rs:bitstring"]}
{"id": "C47", "title": "A status list credential can be produced", "statement": "Generating the status list credential succeeds for a valid configuration. (False: the builder always rejects it.)", "quantifier": "all configurations", "why_tests_cant": "statement about every input", "anchors": ["crates/status/src/bitstring.rs:credential", "crates/w3c-vc/src/model/vc.rs:VcBuilder::build"]}
{"id": "C48", "title": "Presentation constraints hold for every required field", "statement": "A credential satisfies the constraints exactly when each non-optional field has a JSONPath whose first hit passes the field's filter, with earlier paths having no hits.", "quantifier": "all constraint lists, credentials and JSONPath semantics", "why_tests_cant": "unbounded lists, arbitrary JSON", "anchors": ["crates/dif-exch/src/matcher.rs"]}
{"id": "C49", "title": "Constant filters compare values", "statement": "A const filter accepts a claim exactly when the claim equals the constant (or an array contains it). (False for string, null and boolean claims; object claims panic.)", "quantifier": "all JSON values and constants", "why_tests_cant": "all values", "anchors": ["crates/dif-exch/src/matcher.rs:match_const"]}
{"id": "C50", "title": "Optional fields still have to satisfy their filter when present", "statement": "An optional field whose value is present but fails the filter makes the credential unsatisfactory, as documented. (False of the code.)", "quantifier": "all credentials and fields", "why_tests_cant": "all values", "anchors": ["crates/dif-exch/src/lib.rs:Field", "crates/dif-exch/src/matcher.rs:Constraints::satisfied"]}
{"id": "C51", "title": "Authorization requests are fresh and retrievable", "statement": "create_request stores, under a fresh state key valid five minutes, exactly the request object given to the wallet, with a fresh nonce; request_object returns that object signed, and only to the right client.", "quantifier": "all requests and stores", "why_tests_cant": "composition over all states", "anchors": ["vercre-verifier/src/create_request.rs", "vercre-verifier/src/request_object.rs"]}
{"id": "C52", "title": "An accepted presentation answers the request", "statement": "If the response endpoint accepts, the state names a stored request, every presentation verified and carries the request's nonce, the submission names the definition, and every input descriptor is matched by a verified, unexpired credential that satisfies its constraints.", "quantifier": "all responses, stores and providers", "why_tests_cant": "every success path; all descriptor lists", "anchors": ["vercre-verifier/src/response.rs:verify"]}
{"id": "C53", "title": "A presentation request is answered at most once", "statement": "After an accepted response the same state cannot be used again, in any history; a rejected response leaves it available.", "quantifier": "all histories", "why_tests_cant": "replay over histories", "anchors": ["vercre-verifier/src/response.rs:process"]}
{"id": "C54", "title": "Expired presentation requests are refused", "statement": "A response to a request whose five minute lifetime is over is refused. (False: the expiry is stored but never checked.)", "quantifier": "all instants", "why_tests_cant": "all instants", "anchors": ["vercre-verifier/src/response.rs:verify", "vercre-verifier/src/state.rs"]}
{"id": "C55", "title": "Presentations are cryptographically verified", "statement": "Every accepted presentation was signed by its holder for this verifier. (False for presentations given as JSON objects, and the audience and holder are never compared.)", "quantifier": "all responses", "why_tests_cant": "all token forms", "anchors": ["crates/w3c-vc/src/proof.rs:verify", "vercre-verifier/src/response.rs:verify"]}
{"id": "C56", "title": "Built credentials carry the mandatory properties", "statement": "A VcBuilder that builds yields a credential with the base context and at least one more, the base type and at least one more, a non-empty issuer and a subject, for every sequence of builder calls; likewise for presentations.", "quantifier": "all sequences of builder calls", "why_tests_cant": "unbounded call sequences", "anchors": ["crates/w3c-vc/src/model/vc.rs:VcBuilder", "crates/w3c-vc/src/model/vp.rs:VpBuilder"]}
{"id": "C57", "title": "Language strings keep every value", "statement": "Adding language values never loses earlier ones and looking up a language returns the first value with that tag.", "quantifier": "all sequences of additions", "why_tests_cant": "unbounded sequences", "anchors": ["crates/w3c-vc/src/model/types.rs:LangString"]}
{"id": "C58", "title": "Signed credentials verify to themselves", "statement": "Verifying a created credential or presentation proof returns the same credential or presentation, issue time, audience and nonce; and the JWT claims agree with the credential's id, issuer, subject and expiry.", "quantifier": "all credentials and presentations", "why_tests_cant": "all values", "anchors": ["crates/w3c-vc/src/proof.rs", "crates/w3c-vc/src/proof/jose.rs"]}
{"id": "C59", "title": "mDL digest identifiers are unique per namespace", "statement": "Within a namespace every issued item has a different digest id, for every random source.", "quantifier": "all random sequences, all datasets", "why_tests_cant": "all random outcomes", "anchors": ["crates/iso-mdl/src/mso.rs:DigestIdGenerator", "crates/iso-mdl/src/lib.rs:to_credential"]}
{"id": "C60", "title": "mDL digest identifiers are in range", "statement": "Every digest id is a non-negative integer below 2^31. (False for one random value with wrapping arithmetic; true otherwise.)", "quantifier": "all random draws", "why_tests_cant": "a single value in 2^32", "anchors": ["crates/iso-mdl/src/mso.rs:DigestIdGenerator::gen"]}
{"id": "C61", "title": "Every mDL element is digested once", "statement": "In an issued mDL each dataset element appears exactly once as an item and the security object holds exactly the digest of each item under its id; a dataset with a non-object namespace is refused.", "quantifier": "all datasets", "why_tests_cant": "unbounded maps", "anchors": ["crates/iso-mdl/src/lib.rs:to_credential"]}
{"id": "C62", "title": "Holder issuance follows the flow order", "statement": "In every history, an access token is requested only after the offer was accepted (and the PIN supplied when one is required), and credentials only after a token was received.", "quantifier": "all histories of holder endpoint calls with any issuer", "why_tests_cant": "all interleavings", "anchors": ["vercre-holder/src/issuance"]}
{"id": "C63", "title": "A failed holder step leaves the flow unchanged", "statement": "A holder issuance call that fails leaves the stored flow as it was, so the step can be retried. (True for every endpoint but offer, which leaves a flow behind.)", "quantifier": "all calls, providers and faults", "why_tests_cant": "every failure point", "anchors": ["vercre-holder/src/issuance"]}
{"id": "C64", "title": "Accepted scope limits what is requested", "statement": "After accepting a subset of an offer, only that subset is requested from the issuer. (False for the authorization code flow, where the authorize call replaces the accepted subset.)", "quantifier": "all histories", "why_tests_cant": "cross-endpoint history property", "anchors": ["vercre-holder/src/issuance/accept.rs", "vercre-holder/src/issuance/authorize.rs"]}
{"id": "C65", "title": "Accept only accepts what was offered", "statement": "Accept refuses credentials that were not in the offer. (False: the id is checked only when claims are given, and against metadata rather than the offer.)", "quantifier": "all requests", "why_tests_cant": "all ids", "anchors": ["vercre-holder/src/issuance/accept.rs:narrow_scope"]}
{"id": "C66", "title": "Several credentials can be collected in one call", "statement": "The credentials call obtains every authorized credential. (False against an issuer that rotates nonces, as vercre-issuer does: the second request reuses the first proof.)", "quantifier": "all tokens with at least two identifiers", "why_tests_cant": "composition of holder and issuer", "anchors": ["vercre-holder/src/issuance/credentials.rs:credential_by_identifier", "vercre-issuer/src/credential.rs"]}
{"id": "C67", "title": "The issuer is notified of the outcome", "statement": "When a credential response carries a notification id, save and cancel notify the issuer. (False: the id is never recorded, so no notification is ever sent.)", "quantifier": "all histories", "why_tests_cant": "unreachability over all histories", "anchors": ["vercre-holder/src/issuance/credentials.rs", "vercre-holder/src/issuance/save.rs", "vercre-holder/src/issuance/cancel.rs"]}
{"id": "C68", "title": "Saving stores exactly the received credentials", "statement": "A successful save passes each credential buffered in the flow to storage once, in order, and ends the flow when nothing is deferred. (With deferred credentials outstanding a later save stores them again.)", "quantifier": "all flows and storage behaviours", "why_tests_cant": "unbounded lists", "anchors": ["vercre-holder/src/issuance/save.rs"]}
{"id": "C69", "title": "Deferred bookkeeping", "statement": "A flow's outstanding transactions are exactly those returned by the issuer and not yet redeemed through a successful deferred call.", "quantifier": "all histories", "why_tests_cant": "history property", "anchors": ["vercre-holder/src/issuance/deferred.rs", "vercre-holder/src/issuance/credentials.rs"]}
{"id": "C70", "title": "Nothing is presented without authorization", "statement": "A presentation is sent to a verifier only for a flow that was requested and then authorized, and it contains only credentials matched for that flow, bound to the request's nonce and client id.", "quantifier": "all histories", "why_tests_cant": "all interleavings", "anchors": ["vercre-holder/src/presentation"]}
{"id": "C71", "title": "Presentation status text round-trips", "statement": "Parsing the text of a presentation status gives the status back; parsing never panics. (The second half is false.)", "quantifier": "all failure messages and strings", "why_tests_cant": "all strings", "anchors": ["vercre-holder/src/presentation.rs:Status"]}
{"id": "C72", "title": "A presentation can be built for any request", "statement": "A presentation can be built for every definition with input descriptors. (False when no field has a const filter.)", "quantifier": "all presentation definitions", "why_tests_cant": "all definitions", "anchors": ["vercre-holder/src/presentation/present.rs:create_vp"]}
{"id": "C73", "title": "Submissions map every input descriptor", "statement": "The submission names the definition and has exactly one entry per input descriptor, in order.", "quantifier": "all definitions", "why_tests_cant": "unbounded lists", "anchors": ["vercre-holder/src/presentation/present.rs:create_submission"]}
{"id": "C74", "title": "Verifiers can read published status lists", "statement": "A verifier that decodes the published list as the W3C standard says reads, at a credential's index, the status last logged for it. (False: the list is published as text of zeros and ones rather than bits.)", "quantifier": "all logs and indexes", "why_tests_cant": "all logs and indexes", "anchors": ["crates/status/src/bitstring.rs:bitstring"]}
{"id": "C75", "title": "An mDL is bound to the holder's key", "statement": "The device key in an issued mDL is the key the holder proved possession of. (False: it is the issuer's own key.)", "quantifier": "all issuances", "why_tests_cant": "all issuances", "anchors": ["crates/iso-mdl/src/lib.rs:to_credential", "vercre-issuer/src/credential.rs:mso_mdoc"]}
{"id": "C76", "title": "The mDL issuer signature is a COSE signature", "statement": "The COSE_Sign1 signature in an issued mDL verifies under RFC 9052. (False: the payload is signed rather than the Sig_structure.)", "quantifier": "all issuances, all signers", "why_tests_cant": "all issuances", "anchors": ["crates/iso-mdl/src/lib.rs:to_credential"]}
{"id": "C77", "title": "Ended flows stay ended", "statement": "After a successful cancel, or a successful save with nothing outstanding, every later call for that flow fails and no issuer, verifier or storage is contacted on its behalf, in any continuation.", "quantifier": "all histories and continuations", "why_tests_cant": "all continuations", "anchors": ["vercre-holder/src/issuance/save.rs", "vercre-holder/src/issuance/cancel.rs"]}
{"id": "C78", "title": "Authorization codes are redeemed with their own verifier", "statement": "The token request made after an authorization response carries that response's code, the redirect URI and client of the authorization request, and the PKCE verifier whose challenge was sent; no two authorizations share a verifier.", "quantifier": "all histories", "why_tests_cant": "all histories and random draws", "anchors": ["vercre-holder/src/issuance/authorize.rs"]}
{"id": "C79", "title": "The state of an authorization response is checked", "statement": "The wallet uses an authorization response only if its state is the one it sent. (False: the state is never compared.)", "quantifier": "all authorization responses", "why_tests_cant": "all responses", "anchors": ["vercre-holder/src/issuance/authorize.rs:authorize"]}
{"id": "C80", "title": "A flow talks to the issuer that made the offer", "statement": "Codes, PINs and proofs of a flow go to the issuer named in the offer. (False: they go to whatever issuer the fetched metadata names.)", "quantifier": "all metadata replies", "why_tests_cant": "adversarial metadata", "anchors": ["vercre-holder/src/issuance/token.rs:token_request", "vercre-holder/src/issuance.rs:set_issuer"]}
{"id": "C81", "title": "The wallet never panics on issuer input", "statement": "No reply from an issuer, authorization server or verifier makes a wallet call panic. (False for empty lists in metadata; proved when those lists are not empty.)", "quantifier": "all replies and histories", "why_tests_cant": "all replies", "anchors": ["vercre-holder/src/issuance/authorize.rs:authorization_request", "vercre-holder/src/issuance/credentials.rs:credential"]}
{"id": "C82", "title": "Saved credentials were made by the issuer of the offer", "statement": "A credential saved in a flow names as issuer the issuer that made the offer. (False: the issuer of a received credential is not compared with anything.)", "quantifier": "all credential responses", "why_tests_cant": "adversarial responses", "anchors": ["vercre-holder/src/issuance/credentials.rs:credential"]}
{"id": "C83", "title": "Proofs of possession are made out to the issuer", "statement": "Each credential request carries a proof whose audience is the credential issuer and whose issuer is the client id the wallet gave with the offer. (True of flows with an offer, false of flows the wallet begins: the audience is empty.)", "quantifier": "all histories", "why_tests_cant": "all histories", "anchors": ["vercre-holder/src/issuance/credentials.rs:credentials"]}
{"id": "C84", "title": "Presentation requests are signed", "statement": "A presentation request is acted on only if it was signed by the verifier. (True of requests fetched by URI, false of requests given as query text.)", "quantifier": "all request texts", "why_tests_cant": "all request texts", "anchors": ["vercre-holder/src/presentation/request.rs:request"]}
{"id": "C85", "title": "Proofs use the latest nonce", "statement": "The proof of possession is made over the most recent c_nonce the issuer sent for the flow. (False of scope-based requests, which ignore the new nonce.)", "quantifier": "all histories", "why_tests_cant": "history property", "anchors": ["vercre-holder/src/issuance/credentials.rs:credential_by_format"]}
{"id": "C86", "title": "Single-use values are single-use when calls overlap", "statement": "However endpoint calls overlap, fail or crash, a grant code, offer id, transaction id or issuer state leads to at most one successful answer, and a wrong transaction code uses its grant up. (True of calls that start after the successful one was answered; false of calls that overlap: the value is read and removed by two separate store accesses.)", "quantifier": "all interleavings of the store accesses of any number of calls, with any faults and crash points", "why_tests_cant": "all interleavings", "anchors": ["vercre-issuer/src/token.rs", "vercre-issuer/src/credential_offer.rs", "vercre-issuer/src/deferred.rs", "vercre-issuer/src/authorize.rs"]}
{"id": "C87", "title": "Overlapping calls never mix subjects", "statement": "However endpoint calls overlap, every stored offer, authorization and session holds only identifiers its own subject may have, and every issued credential takes its claims from the dataset of a subject and identifier that were authorized together.", "quantifier": "all interleavings of any number of calls, with any faults and crash points", "why_tests_cant": "all interleavings", "anchors": ["vercre-issuer/src/token.rs", "vercre-issuer/src/credential.rs", "vercre-issuer/src/deferred.rs"]}
{"id": "C88", "title": "A proof of possession is used once when calls overlap", "statement": "However endpoint calls overlap, a proof of possession leads to at most one credential, and the nonce a client is told is the one that will be accepted next. (True of requests that start after the credential was answered; false of requests that overlap.)", "quantifier": "all interleavings of any number of calls, with any faults and crash points", "why_tests_cant": "all interleavings", "anchors": ["vercre-issuer/src/credential.rs"]}
{"id": "C89", "title": "A presentation request is answered once when calls overlap", "statement": "However verifier calls overlap, a request is answered by at most one accepted response, and each accepted response answers a request one create_request call made. (The first half is true of responses that start after the accepted one was answered and false of responses that overlap.)", "quantifier": "all interleavings of any number of calls, with any faults and crash points", "why_tests_cant": "all interleavings", "anchors": ["vercre-verifier/src/response.rs", "vercre-verifier/src/create_request.rs", "vercre-verifier/src/request_object.rs"]}
{"id": "C90", "title": "Received credentials are kept until saved", "statement": "Whatever calls are made and fail after credentials were received for a flow, as long as the flow was not cancelled or saved with nothing outstanding, saving it (with a working store and storage) succeeds and hands storage every credential received, once each and in order.", "quantifier": "all histories of calls, all replies, all faults before the save", "why_tests_cant": "ranges over every history, including refused and failed calls between receiving and saving", "anchors": ["vercre-holder/src/issuance/credentials.rs", "vercre-holder/src/issuance/deferred.rs", "vercre-holder/src/issuance/save.rs", "vercre-holder/src/issuance/cancel.rs"]}
{"id": "C91", "title": "Valid authorization requests get a code", "statement": "Every authorization request, given directly or pushed, from a registered client with a registered redirect URI, a supported response type and challenge, for credentials that exist, whose requested claims include the mandatory ones, and that the Subject provider authorizes, gets an authorization code, unless the state store fails or pushing is required.", "quantifier": "all requests, metadata, providers and states", "why_tests_cant": "acceptance of every valid request, for unbounded lists of details, scopes and configurations", "anchors": ["vercre-issuer/src/authorize.rs:authorize"]}
{"id": "C92", "title": "Offers are created exactly for valid requests", "statement": "With a working state store, create_offer succeeds exactly when: issuer and server are known, at least one configuration is requested, all of them exist, the grant types are supported, a pre-authorized offer names a subject who is authorized for all of them, and the issuer's list of authorization servers is not empty if given.", "quantifier": "all requests and providers", "why_tests_cant": "equivalence over all requests", "anchors": ["vercre-issuer/src/create_offer.rs:create_offer"]}
{"id": "C93", "title": "Valid credential requests are served", "statement": "A credential request with a live access token and nonce, for a credential the token authorizes, by identifier or by format, with the proofs its configuration asks for, is answered with a credential holding exactly the claims of the dataset that were authorized and asked for, bound to the signer of the last proof; or with a transaction id if the dataset is pending.", "quantifier": "all requests, sessions, datasets and providers", "why_tests_cant": "acceptance and content for every valid request", "anchors": ["vercre-issuer/src/credential.rs:credential", "vercre-issuer/src/credential.rs:dataset", "vercre-issuer/src/credential.rs:w3c_vc"]}
{"id": "C94", "title": "Pushed requests can be used", "statement": "A valid authorization request that is pushed is accepted (unless pushing is required, see C12), and its request URI gets an authorization code for ten minutes, whatever other calls are served in between, as long as the request is still valid then.", "quantifier": "all requests, histories and times", "why_tests_cant": "all histories and times", "anchors": ["vercre-issuer/src/par.rs:par", "vercre-issuer/src/authorize.rs:authorize"]}
{"id": "C95", "title": "An offer leads to its credentials", "statement": "The pre-authorized code of a created offer leads to a token, and the token and its nonce to a credential with the subject's data, for every identifier of every offered configuration, whatever other calls are served in between, within five minutes.", "quantifier": "all offers, histories, times and requests", "why_tests_cant": "composition of three endpoints over all histories", "anchors": ["vercre-issuer/src/create_offer.rs:create_offer", "vercre-issuer/src/token.rs:token", "vercre-issuer/src/credential.rs:credential"]}
{"id": "C96", "title": "An authorization leads to its credentials", "statement": "An authorization code leads to a token for the client that was authorized, and the token and its nonce to a credential with the subject's data, for every identifier of every configuration requested by detail or by the first scope value, whatever other calls are served in between, within five minutes.", "quantifier": "all authorizations, histories, times and requests", "why_tests_cant": "composition of three endpoints over all histories", "anchors": ["vercre-issuer/src/authorize.rs:authorize", "vercre-issuer/src/token.rs:token", "vercre-issuer/src/credential.rs:credential"]}
{"id": "C97", "title": "Deferred credentials can be collected", "statement": "A valid credential request for pending data gets a transaction id, and with it the credential is collected once the data are there, as long as transaction, token and nonce are live, whatever other calls are served in between.", "quantifier": "all requests, histories and times", "why_tests_cant": "composition of two endpoints over all histories", "anchors": ["vercre-issuer/src/credential.rs:defer_response", "vercre-issuer/src/deferred.rs:deferred"]}
{"id": "C98", "title": "Issuer calls never panic", "statement": "No call of any issuer endpoint ends in a panic: whatever the request, the stored state, the clock, the random values and the answers of the storage, and however calls overlap, it ends in a response or in an error value.", "quantifier": "every endpoint, request, provider, stored state, clock value, fault pattern and schedule of overlapping calls", "why_tests_cant": "A test exercises one request against one metadata document; a panic needs the one combination (an unimplemented format, an empty list) the test author did not write, reached possibly only after a particular history.", "anchors": ["vercre-issuer/src/credential.rs: generate_response/todo!", "vercre-issuer/src/create_offer.rs: grants (servers[0])", "vercre-issuer/src/*: endpoint"]}
{"id": "C99", "title": "Expired sessions stay expired", "statement": "Once the session of an access token (or its nonce) has expired, no later credential or deferred request under that token is ever served or given a new nonce, whatever else happens in between.", "quantifier": "every history, every time, every fault pattern, every request made later", "why_tests_cant": "A test can show that a request is refused just after expiry; that no other sequence of calls brings the session back is a statement about all continuations.", "anchors": ["vercre-issuer/src/credential.rs: verify, invalid_proof, issue_response", "vercre-issuer/src/deferred.rs: deferred", "vercre-issuer/src/state.rs: State::is_expired, Token::c_nonce_expired"]}
{"id": "C100", "title": "An expired nonce can be replaced", "statement": "A holder whose access token is still valid but whose nonce has expired can get a new nonce and go on.", "quantifier": "every history, time and request", "why_tests_cant": "The question is whether any request, in any continuation, can ever lead to a new nonce; no finite number of tries settles that.", "anchors": ["vercre-issuer/src/credential.rs: verify (c_nonce_expired), invalid_proof"]}
{"id": "C101", "title": "The wallet and the issuer of this repository work together", "statement": "An offer with a pre-authorized code, taken in, accepted, redeemed and collected by the wallet one credential at a time, ends with every wanted credential saved in the wallet: made by the offering issuer, bound to the wallet's key, with the subject's claims. This holds at any times within five minutes of the offer, whatever the wallet did before and whatever other clients do at the issuer in between, as long as nobody else uses the code or the token.", "quantifier": "every reachable issuer state, every offer and transaction code, every selection of offered credentials, every past of the wallet, every interleaving of other issuer calls, every time within the limit", "why_tests_cant": "Both programs, their stores, clocks, tokens and nonces interact over a whole history; a test runs one history.", "anchors": ["vercre-holder/src/issuance/offer.rs: offer", "vercre-holder/src/issuance/accept.rs: accept", "vercre-holder/src/issuance/token.rs: token", "vercre-holder/src/issuance/credentials.rs: credentials", "vercre-holder/src/issuance/save.rs: save", "vercre-issuer/src/token.rs: token", "vercre-issuer/src/credential.rs: credential", "vercre-holder/tests/provider.rs: Issuer"]}
{"id": "C102", "title": "A whole offer is collected in one call", "statement": "Against the issuer of this repository, one credentials call of the wallet collects all the credentials the token authorizes. (False as soon as there are two that need key proofs.)", "quantifier": "every history of wallet and issuer, every flow with two or more wanted credentials", "why_tests_cant": "No test of one history shows that a call can never succeed, whatever happened before it.", "anchors": ["vercre-holder/src/issuance/credentials.rs: credentials", "vercre-issuer/src/credential.rs: credential"]}
{"id": "C103", "title": "A valid token request is granted, and only a valid one", "statement": "With a working state store, the token endpoint answers with an access token exactly when: the code names a grant of the requested type that has not expired, the authorization server is known and supports the grant type, the client is registered and its scopes are supported by the server, and the request redeems the grant. A pre-authorized code is redeemed with the transaction code of the offer, and if authorization details are given each names an offered credential by configuration id, with its mandatory claims if it lists claims. An authorization code is redeemed with the client id, redirection URI and PKCE verifier of the authorization.", "quantifier": "Every reachable issuer state, provider and token request, with a store that works during the call.", "why_tests_cant": "The condition ranges over every combination of request members, stored grants and metadata; tests pick a few and cannot show that nothing else is refused or accepted.", "anchors": ["vercre-issuer/src/token.rs: token", "vercre-issuer/src/token.rs: verify", "vercre-issuer/src/token.rs: retain_details", "vercre-issuer/src/token.rs: verify_claims"]}
{"id": "C104", "title": "An offered credential can be named by its format in a token request", "statement": "A pre-authorized token request whose authorization details name an offered credential by its format (and not by configuration id) is served like one naming the configuration id.", "quantifier": "Every reachable issuer state, provider and pre-authorized token request naming a credential by format.", "why_tests_cant": "That no history of the issuer ever leaves an offer that a request by format matches needs an invariant over all histories.", "anchors": ["vercre-issuer/src/token.rs: retain_details", "vercre-issuer/src/create_offer.rs: authorize"]}
{"id": "C105", "title": "A wallet-initiated flow runs to its end", "statement": "When a wallet asks this issuer for authorization on its own account, naming credential configurations with claims the issuer accepts, and then collects authorized credentials one at a time and saves them within the lifetimes involved, every call succeeds and exactly the wanted credentials are stored, made by that issuer about the holder of the wallet's key with the subject's claims; whatever else the issuer serves in between.", "quantifier": "every issuer and wallet state reachable in any history, every request, every choice and order of credentials, every other traffic at the issuer that leaves the wallet's codes and tokens alone, all times within five minutes", "why_tests_cant": "Tests run one fixed flow against a quiet issuer; the property ranges over all histories on both sides and all interleaved traffic.", "anchors": ["vercre-holder/src/issuance/authorize.rs: authorize", "vercre-holder/src/issuance/credentials.rs: credentials", "vercre-issuer/src/authorize.rs", "vercre-issuer/src/token.rs", "vercre-issuer/src/credential.rs"]}
{"id": "C106", "title": "An offer can be answered by way of the authorization endpoint", "statement": "When this issuer makes an offer with an authorization-code grant, a wallet of this repository that takes it in, accepts it, asks for authorization for the whole offer with the offer's issuer_state and then collects credentials one at a time within five minutes succeeds in every call, and stores exactly the wanted credentials.", "quantifier": "every issuer and wallet state reachable in any history, every offer with that grant (alone or beside a pre-authorized code), every choice of credentials, every other traffic that leaves the issuer_state, code and tokens alone", "why_tests_cant": "Tests run one fixed flow against a quiet issuer; the property ranges over all histories on both sides and all interleaved traffic.", "anchors": ["vercre-issuer/src/create_offer.rs: create_offer", "vercre-holder/src/issuance/authorize.rs: authorize, startFlow", "vercre-issuer/src/authorize.rs: issuer_state handling"]}
{"id": "C107", "title": "Deferred credentials survive other issuance", "statement": "A credential request that was accepted and put off with a transaction id can still be collected after other credentials were issued under the same access token: obtaining a second credential, or one rejected proof, does not make the transaction uncollectable.", "quantifier": "all histories between the deferral and the collection, including any credential or deferred requests under the same access token", "why_tests_cant": "the loss depends on which requests happen between the deferral and the collection; a test collects right after the deferral and never renews the nonce in between", "anchors": ["vercre-issuer/src/deferred.rs: deferred", "vercre-issuer/src/credential.rs: credential, Context::verify, Context::issue_response"]}
{"id": "C108", "title": "A credential that is not ready reaches the wallet later", "statement": "When the wallet asks for a credential whose data the issuer does not have yet, the wallet's call succeeds and reports a transaction. Once the data are there, collecting the transaction and saving stores that credential together with everything collected before it, each once and in order, and ends the flow.", "quantifier": "all issuers, offers, credentials asked for before the late one, all interleaved calls of other parties that do not use the wallet's code, token or transaction, within the lifetime of the grant", "why_tests_cant": "wallet and issuer must agree on the deferral for every offer and in every interleaving with other wallets; the two libraries' tests each run against a mock of the other", "anchors": ["vercre-holder/src/issuance/deferred.rs: deferred", "vercre-holder/src/issuance/credentials.rs: credentials", "vercre-issuer/src/deferred.rs: deferred", "vercre-issuer/src/credential.rs: credential"]}
{"id": "C109", "title": "A flow goes on after the issuer has sent a new nonce", "statement": "After a request that the issuer answered with a new nonce, be it with a credential (in a call that succeeds or fails, naming the credential by identifier or by format, or collecting a deferred one) or with a refused proof, the wallet can ask for the next credential in the same flow: the proof it sends is over the nonce the issuer now expects.", "quantifier": "all issuers that need proofs, all wallets, all histories of both up to and after the request, all interleaved calls of other parties", "why_tests_cant": "which nonce the issuer expects and which the wallet uses depends on the whole history of both, and each library's tests run against a mock of the other", "anchors": ["vercre-holder/src/issuance/credentials.rs: credentials", "vercre-holder/src/issuance/deferred.rs: deferred", "vercre-issuer/src/credential.rs: credential", "vercre-issuer/src/deferred.rs: deferred"]}
{"id": "C110", "title": "Consent comes first, however wallet calls overlap", "statement": "However calls to a wallet overlap: a token is asked for only for a flow that was offered and then accepted by a call that was not refused, and after the PIN was given if the offer requires one; credentials are asked for only with an access token that came for that flow; only credentials that came for the flow and whose signature was checked are saved; only what was requested and then authorized is presented, with the credentials found for it and made out to the client and nonce of the request.", "quantifier": "all sets of wallet calls, all interleavings of their effects, all storage faults, all answers of issuers and verifiers, all points at which calls are left off", "why_tests_cant": "the wallet's calls are async, and their effects interleave in more ways than can be run; tests run one call at a time", "anchors": ["vercre-holder/src/issuance/token.rs: token", "vercre-holder/src/issuance/accept.rs: accept", "vercre-holder/src/issuance/pin.rs: pin", "vercre-holder/src/issuance/authorize.rs: authorize", "vercre-holder/src/issuance/credentials.rs: credentials", "vercre-holder/src/issuance/deferred.rs: deferred", "vercre-holder/src/issuance/save.rs: save", "vercre-holder/src/presentation/authorize.rs: authorize", "vercre-holder/src/presentation/present.rs: present"]}
{"id": "C111", "title": "Flows of a wallet do not interfere", "statement": "A wallet call reads and changes the state of no flow or presentation but the one it names or starts. Leaving out of any schedule the calls about other flows changes neither how the remaining calls end, nor what they send and receive, nor what is stored for their flows.", "quantifier": "all sets of wallet calls, all interleavings of their effects, all storage faults, all answers of issuers and verifiers, all points at which calls are left off; all ways of dividing the calls into two sets without a flow in common", "why_tests_cant": "the wallet's calls are async, and their effects interleave in more ways than can be run; tests run one call at a time", "anchors": ["vercre-holder/src/issuance/*.rs", "vercre-holder/src/presentation/*.rs", "vercre-holder/src/provider.rs: StateStore"]}
{"id": "C112", "title": "An ended flow stays ended, also when calls overlap", "statement": "Once a flow has been cancelled or saved, nothing is stored for it again and every later call about it fails, also if other calls about it were under way.", "quantifier": "all sets of wallet calls, all interleavings of their effects, all storage faults, all answers of issuers and verifiers, all points at which calls are left off", "why_tests_cant": "the wallet's calls are async, and their effects interleave in more ways than can be run; tests run one call at a time", "anchors": ["vercre-holder/src/issuance/cancel.rs: cancel", "vercre-holder/src/issuance/save.rs: save", "vercre-holder/src/issuance/credentials.rs: credentials", "vercre-holder/src/issuance/deferred.rs: deferred"]}
{"id": "C113", "title": "Overlapping calls about one flow take effect one after the other", "statement": "Credentials received by calls that overlap are all kept in the flow, and are saved once each.", "quantifier": "all sets of wallet calls, all interleavings of their effects, all storage faults, all answers of issuers and verifiers, all points at which calls are left off", "why_tests_cant": "the wallet's calls are async, and their effects interleave in more ways than can be run; tests run one call at a time", "anchors": ["vercre-holder/src/issuance/credentials.rs: credentials", "vercre-holder/src/issuance/save.rs: save"]}
{"id": "C114", "title": "What a wallet presents to a vercre verifier is accepted", "statement": "A request made by the verifier, told to the wallet by URI or as an object, can be looked at and agreed to in the wallet, whatever else the two do meanwhile. What the wallet then presents is accepted exactly if the request asks for some constant and the first credential the wallet found is one that every input descriptor asks for and has not expired. So a request for one credential is answered with any credential the wallet finds that is as asked.", "quantifier": "all presentation requests, verifier and wallet states, all other calls the wallet makes and the verifier serves in between, all clocks", "why_tests_cant": "the exchange runs through two programs and five calls, with arbitrary other calls between them; a test runs one exchange with nothing in between", "anchors": ["vercre-verifier/src/create_request.rs: create_request", "vercre-verifier/src/request_object.rs: request_object", "vercre-verifier/src/response.rs: response, Context::verify", "vercre-holder/src/presentation/request.rs: request", "vercre-holder/src/presentation/authorize.rs: authorize", "vercre-holder/src/presentation/present.rs: present", "vercre-holder/tests/provider.rs: impl Verifier for Provider"]}
{"id": "C115", "title": "A wallet that holds all that is asked for can answer", "statement": "If the wallet holds, for each credential a verifier asks for, one that is as asked, its presentation is accepted.", "quantifier": "all presentation requests, verifier and wallet states, all other calls the wallet makes and the verifier serves in between, all clocks", "why_tests_cant": "the exchange runs through two programs and five calls, with arbitrary other calls between them; a test runs one exchange with nothing in between", "anchors": ["vercre-verifier/src/create_request.rs: create_request", "vercre-verifier/src/request_object.rs: request_object", "vercre-verifier/src/response.rs: response, Context::verify", "vercre-holder/src/presentation/request.rs: request", "vercre-holder/src/presentation/authorize.rs: authorize", "vercre-holder/src/presentation/present.rs: present", "vercre-holder/tests/provider.rs: impl Verifier for Provider"]}
{"id": "C116", "title": "Claim descriptions survive the wire", "statement": "A description of claims (in issuer metadata, a credential definition or an authorization detail), written as JSON and read again, is the same description: the same claims at every depth, each with the same definition.", "quantifier": "all descriptions, of any depth and size, and all JSON values", "why_tests_cant": "the reader is written by hand and recursive; unit tests read a few descriptions", "anchors": ["crates/openid/src/issuer.rs: Claim, ClaimDefinition, impl Deserialize for Claim"]}
{"id": "C117", "title": "Authorization details survive the wire, and are honoured or refused", "statement": "An authorization detail, written as JSON and read again, is the same detail. A detail that asks for a credential narrowed to some claims is read with these claims or refused.", "quantifier": "all details and all JSON values", "why_tests_cant": "the readers are derived from nested untagged, internally tagged and flattened types, whose interplay no test covers for all inputs", "anchors": ["crates/openid/src/issuer.rs: AuthorizationDetail, CredentialAuthorization, ProfileClaims, Format, CredentialDefinition"]}
{"id": "C118", "title": "Authorization requests survive as text", "statement": "An authorization request, written with `to_string` and read with `parse`, is the same request. Parameters that are not known are ignored, and no parameter may occur twice.", "quantifier": "all requests and all texts", "why_tests_cant": "the text form goes through two hand-written serializers and a hand-written reader; tests cover one request", "anchors": ["crates/openid/src/issuer.rs: AuthorizationRequest, RequestObject, impl Display, impl FromStr, impl Deserialize", "crates/core/src/urlencode.rs: to_string, from_str"]}
{"id": "C119", "title": "Credentials and presentations survive the wire", "statement": "A verifiable credential or presentation, written as JSON and read again, is the same, member by member; so is the credential carried by a signed token. A credential whose status is written as the Bitstring Status List recommendation has it can be read.", "quantifier": "all credentials and presentations with any number of subjects, claims, proofs, statuses, terms and evidence, and all JSON values", "why_tests_cant": "the readers are derived from untagged, tagged and flattened types with defaults; tests read a handful of samples", "anchors": ["crates/w3c-vc/src/model/vc.rs: VerifiableCredential, CredentialSubject, CredentialStatus, Evidence", "crates/w3c-vc/src/model/vp.rs: VerifiablePresentation", "crates/w3c-vc/src/model/types.rs: LangString", "crates/w3c-vc/src/proof/integrity.rs: Proof", "crates/w3c-vc/src/proof/jose.rs: VcClaims, VpClaims", "crates/core/src/lib.rs: Kind, Quota"]}
{"id": "C120", "title": "Issued credentials can be read", "statement": "Whoever reads the token of a JWT credential that the issuer hands out, at once or deferred, gets the credential that was signed: the same claims, subject, issuer, types and status, the time of issuance, the subject as `sub` and the issuer as `iss`.", "quantifier": "all providers, histories of the store, credential and deferred requests, claim sets, narrowings and statuses", "why_tests_cant": "the claims come from a service of the deployment; tests use one dataset", "anchors": ["vercre-issuer/src/credential.rs: credential, w3c_vc, dataset", "vercre-issuer/src/deferred.rs: deferred", "crates/w3c-vc/src/proof/jose.rs: VcClaims", "crates/w3c-vc/src/model/vc.rs: CredentialSubject"]}
{"id": "C121", "title": "The issuer works the same over a store that keeps text", "statement": "The `StateStore` of a deployment keeps what it is given as JSON and hands back what it reads of that. For every history and every overlapping schedule of requests that clients can send, with store faults and crashes anywhere, the issuer then gives the same answers as if its states were kept as they are, and every stored text reads back as the state that was stored.", "quantifier": "all states, histories of requests, schedules of overlapping calls, fault patterns, and all requests read from JSON or a query string", "why_tests_cant": "a state has dozens of optional members, tests store a handful of states", "anchors": ["vercre-issuer/src/state.rs: State, Stage, Offer, Authorization, Token, Deferrance", "crates/openid/src/provider.rs: StateStore", "crates/openid/src/issuer.rs: CredentialRequest, CredentialOffer, RequestObject, AuthorizationDetail"]}
{"id": "C122", "title": "The verifier works the same over a store that keeps text", "statement": "The `StateStore` of a deployment keeps a verifier's saved request as JSON and hands back what it reads of that. For every history and every overlapping schedule of calls, with store faults and crashes anywhere, the verifier then gives the same answers as if the request were kept as it is: no descriptor, format, constraint, filter or member of the metadata is lost, added or merged. A filter is read only if it is a type and exactly one condition.", "quantifier": "all saved requests, histories, schedules of overlapping calls and fault patterns, all input descriptors and client metadata", "why_tests_cant": "a request has dozens of optional members at five levels, tests store a handful of requests", "anchors": ["vercre-verifier/src/state.rs: State", "crates/openid/src/verifier.rs: RequestObject, Verifier, VpFormat", "crates/openid/src/oauth.rs: OAuthClient", "crates/dif-exch/src/lib.rs: PresentationDefinition, InputDescriptor, Constraints, Field, Filter, ClaimFormat"]}
{"id": "C123", "title": "A presentation request given as a query string reaches the wallet as it was made", "statement": "A verifier serving the same device puts the request object itself into the address the wallet opens (`RequestObject::to_querystring`). The wallet takes the query string for an inline request, reads from it exactly the request object the verifier made and stored, and asks no one for it.", "quantifier": "all create-request calls with texts free of JSON and query punctuation, all tokens, providers and wallet states", "why_tests_cant": "whether every text comes through depends on a hand-written serializer and its inverse by text replacement; tests encode one request", "anchors": ["crates/openid/src/verifier.rs: RequestObject::to_querystring", "crates/core/src/urlencode.rs: to_string, from_str", "vercre-holder/src/presentation/request.rs: request", "vercre-verifier/src/create_request.rs: process"]}
{"id": "C124", "title": "Messages between a wallet and a verifier mean the same on both sides", "statement": "The answer to a request for a request object, the wallet's answer to the presentation request (presentations, submission and state) and the verifier's reply to it are, once written as JSON text and read by the other side, the values that were sent.", "quantifier": "all signed and plain request objects, all lists of signed or plain presentations, all submissions, states and replies", "why_tests_cant": "the reader and the writer of the request-object answer are separate pieces of code (one hand-written, one derived); agreement must hold for every message", "anchors": ["crates/openid/src/verifier.rs: RequestObjectResponse, RequestObjectType, ResponseRequest, ResponseResponse, PresentationSubmission", "crates/dif-exch/src/lib.rs: PresentationSubmission, DescriptorMap, PathNested"]}
{"id": "C125", "title": "Messages between a wallet and an issuer mean the same on both sides", "statement": "Every request and response of the issuance endpoints (making and fetching offers, the replies to authorization and pushed requests, token requests and responses, credential requests and responses, deferred requests, notifications) is, once written as JSON text and read by the other side, the value that was sent; nothing the other side sent is dropped unnoticed.", "quantifier": "all messages of each kind, with all their optional members, any details, any lists of signed or plain credentials", "why_tests_cant": "the messages flatten tagged and untagged unions into each other; whether the members still say which variant was meant must hold for every combination", "anchors": ["crates/openid/src/issuer.rs: CreateOfferRequest, CreateOfferResponse, CredentialOfferRequest, CredentialOfferResponse, AuthorizationResponse, PushedAuthorizationResponse, TokenRequest, TokenResponse, AuthorizedDetail, CredentialRequest, CredentialResponse, DeferredCredentialRequest, NotificationRequest"]}
{"id": "C126", "title": "What an issuer publishes is read as it was published", "statement": "The metadata of an issuer, of its authorization server and of its clients, and the registration of a client, are read by the other side as the values that were published, with the documented defaults for members that are left out.", "quantifier": "all metadata: any number of credential configurations, formats, claims, displays, proof types, encryption settings, grant and response types", "why_tests_cant": "the metadata is a deep tree of optional members and flattened structs; two flattened structs sharing a member name only show on particular values", "anchors": ["crates/openid/src/issuer.rs: Issuer, CredentialConfiguration, CredentialDisplay, Image, CredentialResponseEncryption, Server, Client, RegistrationRequest, RegistrationResponse", "crates/openid/src/oauth.rs: OAuthServer, OAuthClient"]}
{"id": "C127", "title": "A wallet and an issuer that talk over JSON text do what they do in one process", "statement": "Whatever a holder does with a wallet, and whatever else the issuer serves meanwhile: when every request and response between the two is written as JSON text and read by the other side, the same calls succeed, the same credentials and flows are stored, and the same is asked and answered as if the values were handed over directly. In particular an offer is collected the same way over text.", "quantifier": "all histories of wallet calls, all issuers and pasts of them, all interleaved requests of other clients (sent as text too), all storage faults, all random sources", "why_tests_cant": "the values sent later depend on what was read from earlier messages and on the state both sides keep; one lossy message changes everything after it, so the whole conversation must be covered", "anchors": ["crates/openid/src/issuer.rs", "vercre-holder/src/issuance.rs", "vercre-holder/tests/provider.rs: impl Issuer", "vercre-issuer/src: all endpoints"]}
{"id": "C128", "title": "Messages written by other implementations of the protocols are understood", "statement": "A message of OpenID4VCI, OpenID4VP, OAuth 2.0, DIF Presentation Exchange or the W3C data model that another implementation wrote is understood as the standard has it: under the standard's names for its members and values, in whatever order the members come, and whatever members there are beside that vercre does not know.", "quantifier": "all values of the members of each message, all orders of its members, all further members", "why_tests_cant": "the number of orders and of unknown members is unbounded, and the tests only read what the same library wrote", "anchors": ["crates/openid/src/issuer.rs", "crates/openid/src/verifier.rs", "crates/openid/src/oauth.rs", "crates/dif-exch/src/lib.rs", "crates/w3c-vc/src/model/vc.rs", "crates/w3c-vc/src/proof/jose.rs"]}
{"id": "C129", "title": "A wallet and a verifier that talk over JSON text do what they do in one process", "statement": "A wallet and a verifier that send each other their messages as JSON text, with a verifier's store that keeps JSON text, do the same as if they handed each other the values themselves, whatever the wallet's user does and whatever else the verifier serves before and meanwhile. In particular a presentation is accepted in exactly the same cases.", "quantifier": "all histories of the verifier, all calls of the wallet's user, all requests of others between any two calls of the wallet, all contents of requests and credentials, all storage faults on both sides", "why_tests_cant": "the tests connect the parties in one process and never write a message; the messages have unboundedly many values and the histories are unbounded", "anchors": ["vercre-verifier/src/request_object.rs", "vercre-verifier/src/response.rs", "vercre-holder/src/presentation/present.rs", "vercre-holder/src/presentation/request.rs", "crates/openid/src/verifier.rs RequestObjectResponse ResponseRequest ResponseResponse"]}
{"id": "C130", "title": "A wallet whose store keeps JSON text works as one that keeps the flows themselves", "statement": "The wallet's flows of issuance and presentation come back from a store that keeps JSON text exactly as they were, neither kind can be mistaken for the other, and a wallet over such a store makes the same calls, in the same order, with the same results as one that keeps the values themselves, whatever its user does, whatever it is answered and whatever goes wrong in the store.", "quantifier": "all flows of issuance and presentation; all histories of calls on the wallet, all answers of issuers, verifiers and storage, all storage faults", "why_tests_cant": "the tests' store keeps values handed over in one process and reads each back once; flows hold metadata, tokens and credentials of unbounded shape, and histories are unbounded", "anchors": ["vercre-holder/src/issuance.rs Issuance Status", "vercre-holder/src/presentation.rs Presentation Status", "vercre-holder/src/credential.rs Credential Logo", "vercre-holder/src/issuance/accept.rs", "vercre-holder/src/issuance/credentials.rs", "vercre-holder/src/provider.rs StateStore"]}
{"id": "C131", "title": "The request macros build the request that their JSON-like text stands for", "statement": "create_offer_request!, authorization_request!, token_request! and credential_request! build the very request that their text, taken for JSON with Rust expressions replaced by their values, is read as; the order of members makes no difference; every well-formed request can be written with them, and nothing that is written is left out or changed on the way.", "quantifier": "all texts given to the four macros, of any depth and number of members, with any Rust expressions of text type in place of values", "why_tests_cant": "the macros' tests compare a few literal texts with a few hand-written requests; each shape of detail, definition or claim set takes another path through the code generator, and there are unboundedly many", "anchors": ["crates/macros/src/parse.rs Json Value", "crates/macros/src/authorization.rs request", "crates/macros/src/token.rs request", "crates/macros/src/credential.rs request", "crates/macros/src/create_offer.rs request", "crates/openid/src/oauth.rs ResponseType", "crates/openid/src/issuer.rs SendType"]}
{"id": "C132", "title": "A key proof works at the issuer it was made for only", "statement": "A proof of possession of a key that a wallet made for one credential issuer (its aud) gets no credential from another issuer, and one made in the name of another client (its iss) or long ago (its iat) gets none at all.", "quantifier": "all issuers, key proofs, sessions and histories of requests", "why_tests_cant": "a test can show one proof being refused; that no step of any history gives a credential for a proof addressed elsewhere is about all of them", "anchors": ["vercre-issuer/src/credential.rs Context::verify", "crates/openid/src/issuer.rs ProofClaims"]}
{"id": "C133", "title": "Every credential has an id of its own", "statement": "Any two credentials that are issued differ in their id, so that a wallet, whose storage is keyed by the id, can keep both.", "quantifier": "all pairs of steps at the credential and deferred endpoints, of one or of several issuers, and all sequences of credentials a wallet takes in", "why_tests_cant": "tests issue one credential to one holder; ids can clash between any two credentials ever issued", "anchors": ["vercre-issuer/src/credential.rs Context::jwt_vc_json vc", "vercre-holder/src/issuance/credentials.rs credential", "vercre-holder/src/provider.rs CredentialStorer"]}
{"id": "C134", "title": "The status of one credential can be changed without touching another", "statement": "The status entry that a credential names is the one the Status service keeps for this credential: two credentials of one subject have entries of their own, so that one can be revoked and the other stays valid.", "quantifier": "all pairs of credentials issued to one subject, in any session, by any step, with any Status service", "why_tests_cant": "tests use a Status service that answers the same whatever it is asked; which identifier it is asked for shows only across credentials", "anchors": ["vercre-issuer/src/credential.rs Context::jwt_vc_json", "crates/status/src/issuer.rs Status"]}
{"id": "C135", "title": "Every scope value asked for is honoured or refused", "statement": "An authorization request whose scope lists several values is granted only if each of them is supported, and then covers the credentials of all of them.", "quantifier": "all authorization requests, scopes of any number of values, issuers and states", "why_tests_cant": "the tests ask for a single scope value; what becomes of the others shows only for longer lists, in any combination", "anchors": ["vercre-issuer/src/authorize.rs verify_scope"]}
{"id": "C136", "title": "What one credential issuer of a service authorized is honoured by that issuer only", "statement": "Where one service runs several credential issuers, a code is redeemed and an access token gets credentials only at the issuer that gave them out; no issuer puts its name and key to what another authorized.", "quantifier": "all services with any number of issuers, all grants, tokens and histories", "why_tests_cant": "tests run one issuer; the confusion needs two, and the absence of it is a statement about all pairs", "anchors": ["vercre-issuer/src/token.rs token", "vercre-issuer/src/credential.rs credential", "vercre-issuer/src/state.rs State"]}
{"id": "C137", "title": "An access token stops working when its advertised lifetime is over", "statement": "A token response names a lifetime (expires_in). After that time the access token gets no more credentials, whatever was done with it meanwhile.", "quantifier": "all sessions, all histories of requests after the token was issued, and all times", "why_tests_cant": "a test can wait once; that no history of requests keeps a token alive is about unboundedly many and long ones", "anchors": ["vercre-issuer/src/token.rs Context::process", "vercre-issuer/src/credential.rs Context::invalid_proof", "vercre-issuer/src/credential.rs Context::process", "vercre-issuer/src/state.rs Expire"]}
{"id": "C138", "title": "The example issuer gives codes only to people who have logged in", "statement": "At the example issuer, an authorization request for a person is answered with a code only if that person has logged in, with name and password, for this request.", "quantifier": "all histories of web requests to the example issuer, from any number of browsers, and all providers", "why_tests_cant": "who may get past the login is a question about all histories of forms, logins and requests", "anchors": ["examples/issuer/src/main.rs authorize", "examples/issuer/src/main.rs handle_login"]}
{"id": "C139", "title": "The example issuer returns the state of an authorization request", "statement": "The redirect that carries the code also carries the state the client sent with its request, so that the client can tell its own requests from others'.", "quantifier": "all authorization requests, states and histories", "why_tests_cant": "a test that ignores the state passes; that no state ever comes back is about all requests", "anchors": ["examples/issuer/src/main.rs authorize", "vercre-issuer/src/authorize.rs Context::process"]}
{"id": "C140", "title": "The example issuer redirects only to registered URIs", "statement": "Neither codes nor errors are sent to a redirect URI that is not registered for the client of the request.", "quantifier": "all authorization requests, clients, URIs and histories", "why_tests_cant": "an open redirect is the absence of a check on one of many paths", "anchors": ["examples/issuer/src/main.rs authorize"]}
{"id": "C141", "title": "A pushed authorization request can be completed at the example issuer", "statement": "A client that pushes its authorization request gets, after the person has logged in, a request URI, and with it a code.", "quantifier": "all pushed requests and all histories of web requests", "why_tests_cant": "that no history leads to a code is a statement about all of them", "anchors": ["examples/issuer/src/main.rs par", "examples/issuer/src/main.rs handle_login", "examples/issuer/src/main.rs authorize"]}
{"id": "C142", "title": "The example issuer acts in the name of the host it is reached at", "statement": "Each request to the example issuer is served for the credential issuer of the host it was sent to, whatever issuer the request itself names.", "quantifier": "all requests, hosts and states", "why_tests_cant": "tests send every request to one host; what decides shows only in pairs of requests", "anchors": ["examples/issuer/src/main.rs authorize", "examples/issuer/src/main.rs credential", "examples/issuer/src/main.rs token"]}
{"id": "C143", "title": "The example issuer's data store serves every question on its own", "statement": "Asking the example's data store about a person gives that person's data or an error. A question that cannot be answered has no influence on later ones.", "quantifier": "all stores and all histories of questions", "why_tests_cant": "the failure is in the questions after the failing one, of which there are unboundedly many", "anchors": ["crates/test-utils/src/store/issuance.rs DatasetStore"]}
{"id": "C144", "title": "A pending data set is available from the second asking on", "statement": "The example's data store reports a pending data set as pending once, and as available from then on, also when questions overlap.", "quantifier": "all stores, histories and interleavings of questions", "why_tests_cant": "tests ask one question at a time; lost updates need overlapping ones", "anchors": ["crates/test-utils/src/store/issuance.rs DatasetStore::dataset"]}
{"id": "C145", "title": "A login form at the example issuer can be sent in once and leads back to its own request", "statement": "A login at the example issuer gets through only with the token of a login form that was shown for an authorization request. Each such token gets at most one login through, and it leads back to the request the form was shown for.", "quantifier": "all histories of web requests", "why_tests_cant": "how often a token works is a statement about all histories after its first use", "anchors": ["examples/issuer/src/main.rs handle_login", "examples/issuer/src/main.rs authorize"]}
{"id": "C146", "title": "The example issuer reads the token request the example wallet sent", "statement": "A token request of the example wallet arrives at the example issuer as it was sent: a wallet gets its token, also if its user selected only some credentials or claims.", "quantifier": "all token requests, and all histories of the wallet with whoever answers it", "why_tests_cant": "the loss depends on which optional members are present and how they nest; tests pass requests as values, not as forms", "anchors": ["examples/wallet/src-tauri/src/provider/issuer_client.rs token", "examples/issuer/src/main.rs token", "crates/openid/src/issuer.rs TokenRequest"]}
{"id": "C147", "title": "The example verifier reads the presentation the example wallet sent", "statement": "The answer to a presentation request that the example wallet sends arrives at the example verifier as it was sent, so that a good presentation is accepted.", "quantifier": "all presentations, all forms, and all histories of the wallet with whoever answers it", "why_tests_cant": "that nothing is ever accepted is a statement about all forms; tests pass answers as values, not as forms", "anchors": ["examples/wallet/src-tauri/src/provider/verifier_client.rs present", "examples/verifier/src/main.rs response", "crates/openid/src/verifier.rs ResponseRequest"]}
{"id": "C148", "title": "The redirect after a login leads on with the request that was made", "statement": "After a login, the example issuer goes on with the authorization request for which the login form was shown, unchanged.", "quantifier": "all authorization requests", "why_tests_cant": "whether a text survives depends on every character in it; a request made up by somebody else can have any", "anchors": ["examples/issuer/src/main.rs handle_login", "examples/issuer/src/main.rs authorize", "crates/core/src/urlencode.rs to_string", "crates/openid/src/issuer.rs AuthorizationRequest"]}
{"id": "C149", "title": "The example wallet lists the credentials it has", "statement": "The list of credentials that the example wallet shows is the list of those in its store: the same credentials, each with its issuer, no more and no fewer.", "quantifier": "all histories of commands, links, restarts and crashes, with whatever issuers and verifiers answer and whichever writes of the file fail", "why_tests_cant": "the list is kept apart from the store and goes through many commands before it is shown; that they agree is an invariant of all histories", "anchors": ["examples/wallet/src-tauri/src/app/credential.rs reset", "examples/wallet/src-tauri/src/app/credential.rs delete", "examples/wallet/src-tauri/src/view/credential.rs", "examples/wallet/src-tauri/src/provider/store.rs", "examples/wallet/src-tauri/src/lib.rs"]}
{"id": "C150", "title": "The example wallet's user decides about what they see", "statement": "What the user accepts or authorizes in the example wallet is what is on the screen at that time: the offer with the issuer and the credentials shown, or the presentation with the credentials shown.", "quantifier": "all histories of commands, links, restarts and crashes, with whatever issuers and verifiers answer", "why_tests_cant": "offers and requests also come by themselves, as links, between what the user sees and what they do; all interleavings matter", "anchors": ["examples/wallet/src-tauri/src/app/issuance.rs offer", "examples/wallet/src-tauri/src/app/issuance.rs accept", "examples/wallet/src-tauri/src/app/presentation.rs authorize", "examples/wallet/src-tauri/src/view.rs From<AppState>", "examples/wallet/src-tauri/src/lib.rs deep_link"]}
{"id": "C151", "title": "Credentials in the example wallet outlive it, deleted ones do not come back", "statement": "A credential that the example wallet has collected and shown stays in its store, through restarts, crashes and failed writes, until it is deleted or replaced. One that was deleted stays away. What the wallet reports about saving and deleting is so.", "quantifier": "all histories of commands with restarts and crashes after any number of writes, and whichever writes of the file fail", "why_tests_cant": "crash points and failing writes cannot be enumerated by tests", "anchors": ["examples/wallet/src-tauri/src/provider/store.rs save", "examples/wallet/src-tauri/src/provider/store.rs remove", "examples/wallet/src-tauri/src/app/issuance.rs credentials", "examples/wallet/src-tauri/src/app/credential.rs delete"]}
{"id": "C152", "title": "The example wallet can always show its list", "statement": "Whatever credentials the example wallet took in, its user can go back to the list of credentials.", "quantifier": "all stores and all histories", "why_tests_cant": "whether the list can be shown depends on every credential ever saved", "anchors": ["examples/wallet/src-tauri/src/view/credential.rs From<&Credential>", "examples/wallet/src-tauri/src/app/credential.rs reset", "examples/wallet/src-tauri/src/provider/store.rs find"]}
{"id": "C153", "title": "Offers and requests made by the library reach the example wallet as links", "statement": "A credential offer or presentation request that the library makes into a link or QR code, as its documentation says, is understood by the example wallet.", "quantifier": "all offers, and all texts after the prefixes", "why_tests_cant": "that no offer at all gets through is a statement about all offers", "anchors": ["examples/wallet/src-tauri/src/lib.rs deep_link", "examples/wallet/src-tauri/src/app/issuance.rs offer", "crates/openid/src/issuer.rs CredentialOffer::to_qrcode", "crates/openid/src/issuer.rs CredentialOffer::to_querystring", "crates/openid/src/verifier.rs RequestObject::to_qrcode"]}
{"id": "C154", "title": "The details of a credential show all of its claims", "statement": "The details that the example wallet shows of a credential are the credential's: its times, its issuer, and all claims about its subjects, with their values.", "quantifier": "all credentials", "why_tests_cant": "depends on how claims of several subjects combine, for any number of subjects and claims", "anchors": ["examples/wallet/src-tauri/src/view/credential.rs From<&Credential> for CredentialDetail", "examples/wallet/src-tauri/src/lib.rs select"]}
{"id": "C155", "title": "Nothing is pending behind the example wallet's list", "statement": "While the example wallet shows its first screen or the list of credentials, there is nothing that could be accepted, collected, authorized or presented: such commands fail, nobody is called and nothing changes.", "quantifier": "all histories of commands, links, restarts and crashes", "why_tests_cant": "a flow left behind by any earlier command would do; only an invariant of all histories excludes it", "anchors": ["examples/wallet/src-tauri/src/app/credential.rs reset", "examples/wallet/src-tauri/src/app.rs AppState", "examples/wallet/src-tauri/src/app/issuance.rs", "examples/wallet/src-tauri/src/app/presentation.rs"]}
{"id": "C156", "title": "The example wallet does not run into what it does not implement", "statement": "The parts of the example wallet's provider that panic because they are not implemented – asking for authorization, asking for deferred credentials – are never reached, whatever issuers and verifiers answer.", "quantifier": "all histories of commands, with whatever issuers and verifiers answer", "why_tests_cant": "no command must lead there in any state, with any answer", "anchors": ["examples/wallet/src-tauri/src/provider/issuer_client.rs authorization", "examples/wallet/src-tauri/src/provider/issuer_client.rs deferred", "examples/wallet/src-tauri/src/app/issuance.rs"]}
{"id": "C157", "title": "The example wallet's user sees to whom they present what", "statement": "When a presentation is requested, the user of the example wallet sees which credentials are to be presented, and to whom.", "quantifier": "all requests, and all credentials in the store", "why_tests_cant": "what is not seen shows only in comparing all requests that look the same", "anchors": ["examples/wallet/src-tauri/src/view/presentation.rs", "examples/wallet/src-tauri/src/app/presentation.rs request"]}
{"id": "C158", "title": "An issued mDL reads back as what it was made from", "statement": "Every mDL credential that is issued can be decoded again – base64url, CBOR and the document's own types – and says exactly what the data set said: every element of every name space once, with its value, the digest of each item under its id, the signature over the payload, and the version, algorithm, type of document and times.", "quantifier": "all data sets, random draws, signers and clocks", "why_tests_cant": "a test decodes one document; lengths and numbers are encoded in five different ways by size, at every depth, and maps are put in order", "anchors": ["crates/iso-mdl/src/lib.rs to_credential", "crates/iso-mdl/src/mdoc.rs IssuerSigned", "crates/iso-mdl/src/mdoc.rs IssuerSignedItem", "crates/iso-mdl/src/mso.rs MobileSecurityObject", "crates/iso-mdl/src/mso.rs IssuerAuth"]}
{"id": "C159", "title": "Readers made to the standard can read an issued mDL", "statement": "The documentation says that an ISO mDL `IssuerSigned` object is made. A reader that follows ISO/IEC 18013-5 finds in it the data elements with their names, salts and values, the value digests and the validity information.", "quantifier": "all data sets, random draws, signers and clocks", "why_tests_cant": "the repository's test reads with the same types that wrote; that no issued document at all can be read is a statement about all of them", "anchors": ["crates/iso-mdl/src/lib.rs to_credential", "crates/iso-mdl/src/mdoc.rs IssuerSignedItem", "crates/iso-mdl/src/mso.rs MobileSecurityObject", "crates/iso-mdl/src/mso.rs ValidityInfo"]}
{"id": "C160", "title": "The digests in an mDL are over the items as a reader has them", "statement": "The digest in the security object under an item's id is the digest of that item's bytes as they stand in the document, tag and all, as ISO/IEC 18013-5 has it.", "quantifier": "all data sets, random draws, signers and clocks, and every collision-free hash", "why_tests_cant": "has to hold for the bytes of every item in every document", "anchors": ["crates/iso-mdl/src/lib.rs to_credential", "crates/iso-mdl/src/mdoc.rs IssuerSignedItemBytes"]}
{"id": "C161", "title": "Each element of an mDL has a salt of its own", "statement": "Each data element of an mDL is salted with random bytes drawn for it alone: no draw is used for two elements, in the same or in different name spaces, so that a digest gives nothing away about the value of another element.", "quantifier": "all data sets and all random draws", "why_tests_cant": "reuse of a draw for some element of some name space shows in no single document", "anchors": ["crates/iso-mdl/src/lib.rs to_credential"]}
{"id": "C162", "title": "A wallet can take in every credential the issuer issues", "statement": "Whatever format a credential is issued in, the wallet can take it in: it ends up with the wallet's other credentials and is stored when the holder saves.", "quantifier": "all histories of a wallet, with whatever issuers answer, and all credentials issued as mDL", "why_tests_cant": "failing for every credential of a format, at every point of every history, cannot be seen from examples", "anchors": ["vercre-holder/src/issuance/credentials.rs credential", "vercre-holder/src/issuance/credentials.rs process_credential_response", "crates/w3c-vc/src/proof.rs verify", "vercre-issuer/src/credential.rs credential_response", "crates/iso-mdl/src/lib.rs to_credential"]}
{"id": "C163", "title": "The example wallet gives out only credentials that were asked for", "statement": "Every credential that leaves the example wallet was asked for by a request that the user authorized: it has what an input descriptor of the request asks for, and the submission says for which one it is there.", "quantifier": "all histories of commands, deep links, crashes and new starts, with whatever issuers and verifiers answer, and whatever is in the file", "why_tests_cant": "a test presents from a store with one credential to one request; what leaves depends on everything in the store and on the whole history", "anchors": ["examples/wallet/src-tauri/src/provider/store.rs find", "vercre-holder/src/presentation/request.rs build_filter", "vercre-holder/src/presentation/present.rs create_vp", "vercre-holder/src/presentation/present.rs create_submission"]}
{"id": "C164", "title": "A request that limits disclosure is respected", "statement": "If a request says that disclosure must be limited (`limit_disclosure` is `required`), the wallet sends only the fields the request lists, or nothing, as the documentation of the field says it MUST.", "quantifier": "all histories of commands with all requests and all stored credentials", "why_tests_cant": "that the member makes no difference at all is a statement about all requests", "anchors": ["crates/dif-exch/src/lib.rs Constraints", "examples/wallet/src-tauri/src/provider/store.rs find", "vercre-holder/src/presentation/request.rs build_filter", "vercre-holder/src/presentation/present.rs create_vp", "vercre-holder/src/presentation/present.rs create_submission"]}
{"id": "C165", "title": "The example verifier asks in the name of the host it is reached at", "statement": "A presentation request made at the example verifier names the host at which the server was reached as the verifier and as the place to answer, whatever the body of the request says; it is made only if that host is registered, and it can be fetched only at the host it was made at, as it was asked for.", "quantifier": "all requests, bodies, hosts, providers, and all histories of web requests to the server", "why_tests_cant": "that no body and no earlier request can make the server ask in another name is a statement about all of them", "anchors": ["examples/verifier/src/main.rs create_request", "examples/verifier/src/main.rs request_object", "vercre-verifier/src/create_request.rs", "vercre-verifier/src/request_object.rs", "crates/test-utils/src/store/presentation.rs"]}
{"id": "C166", "title": "A presentation request made at the example verifier can be fetched until it is answered or has expired, and not after", "statement": "The address in the answer to a request for another device leads to the very request that was made, whatever else happens at the server, until the wallet has answered or the request has expired; after that it leads nowhere.", "quantifier": "all histories of web requests after the request was made, with any waiting times and any provider answers", "why_tests_cant": "the request has to survive every sequence of other requests, and its end is a matter of time that tests do not let pass", "anchors": ["examples/verifier/src/main.rs create_request", "examples/verifier/src/main.rs request_object", "vercre-verifier/src/create_request.rs", "vercre-verifier/src/request_object.rs", "examples/verifier/src/main.rs response"]}
{"id": "C167", "title": "The status of an answer of the example servers tells callers' faults from the servers'", "statement": "An answer of the example servers has status 200 if and only if the call succeeded; a failure that the caller is at fault for has a status of the 400s and only a failure of the server a status of the 500s, as RFC 6749 requires (section 5.2).", "quantifier": "all requests to either server, all providers and all states", "why_tests_cant": "a test sees the status of the failures it provokes; the claim is about each failure of every endpoint", "anchors": ["examples/issuer/src/main.rs AxResult", "examples/verifier/src/main.rs AxResult", "crates/openid/src/error.rs"]}
{"id": "C168", "title": "What the example issuer's authorization endpoint decided reaches the client", "statement": "The client finds in the query of the address it is called with exactly what the issuer decided: the code, if one was issued, and otherwise the error and its description, besides the parameters its address had before; the request that is refused cannot add to them.", "quantifier": "all authorization requests, all registered addresses, all codes and error texts", "why_tests_cant": "tests use an address without query and scopes of plain letters; which texts break the address is a matter of all texts", "anchors": ["examples/issuer/src/main.rs authorize", "crates/openid/src/error.rs to_querystring", "vercre-issuer/src/authorize.rs verify_scope"]}
{"id": "C169", "title": "An offer that the user of the example wallet accepts ends up as credentials in the wallet", "statement": "If the user of the example wallet opens an offer of the issuer of this repository, accepts it, enters the PIN and asks for the credentials in time, all credentials offered are afterwards in the wallet's store and list: made by that issuer, about the holder of the wallet's key, with the claims the issuer has for them.", "quantifier": "all states of the issuer and all its other clients' calls in between, all offers, all pasts of the application, all waiting times up to the deadline", "why_tests_cant": "wallet and issuer are tested against recorded answers, not against each other, and with one credential", "anchors": ["examples/wallet/src-tauri/src/app/issuance.rs", "examples/wallet/src-tauri/src/lib.rs get_credentials", "vercre-holder/src/issuance/credentials.rs", "vercre-issuer/src/credential.rs"]}
{"id": "C170", "title": "A request for a credential that the user of the example wallet has can be answered", "statement": "If the user of the example wallet opens a request that a verifier made with this library, agrees and presents, and a credential as asked for, which has not expired, is in the wallet's store, the verifier accepts what is presented; and it accepts nothing else.", "quantifier": "all states of the verifier and all its other clients' calls in between, all requests, all pasts of the application and all contents of its store, all times", "why_tests_cant": "wallet and verifier are tested against recorded messages, not against each other, and with one credential in the store", "anchors": ["examples/wallet/src-tauri/src/app/presentation.rs", "examples/wallet/src-tauri/src/provider/store.rs find", "vercre-holder/src/presentation/present.rs", "vercre-verifier/src/response.rs"]}
{"id": "C171", "title": "Only the bearer of a live access token can register a client", "statement": "A registration request succeeds only if the token it carries is an access token that this issuer has given out and that has not expired.", "quantifier": "all histories of the issuer, all values that it ever hands out, all waiting times, all registration requests", "why_tests_cant": "the test registers with a state that it put into the store itself; what else might be found under the same key is a matter of all histories", "anchors": ["vercre-issuer/src/register.rs register, verify", "vercre-issuer/src/state.rs Stage", "examples/issuer/src/provider.rs StateStore"]}
{"id": "C172", "title": "A client that registers can use what it registered, and nobody's registration touches another's", "statement": "A registered client gets an identifier that no other client has; what it registered stays as it is, as do all other clients; codes for a client go only to addresses that this client registered; and a client registered with the members that registration requires is served.", "quantifier": "all histories of registrations and other requests, all contents of registrations, all clients the issuer was set up with", "why_tests_cant": "the test registers one client and compares the response with the request; it neither uses the client nor registers a second one", "anchors": ["vercre-issuer/src/register.rs register, process", "crates/test-utils/src/store/issuance.rs ClientStore", "examples/issuer/src/provider.rs Metadata::register", "vercre-issuer/src/authorize.rs verify", "vercre-issuer/src/token.rs verify"]}
{"id": "C173", "title": "The user of the example wallet can collect what the example issuer offers", "statement": "If the example issuer offers a credential, and the user of the example wallet opens the offer, accepts it and asks for the credential, it ends up in the wallet's store.", "quantifier": "all states of the example issuer with the clients and metadata it comes with, all hosts it is reached at, all histories of the application, all that others do", "why_tests_cant": "both examples are tested, if at all, by hand and alone; that a request made by one is understood by the other is a matter of the constants both are built with", "anchors": ["examples/wallet/src-tauri/src/lib.rs CLIENT_ID", "examples/wallet/src-tauri/src/app/issuance.rs offer", "examples/wallet/src-tauri/src/provider/issuer_client.rs", "examples/issuer/src/provider.rs", "crates/test-utils/src/store/issuance.rs ClientStore, IssuerStore, ServerStore", "crates/test-utils/src/store/client.json", "crates/test-utils/src/store/issuer.json"]}
{"id": "C174", "title": "Logins and codes at the example issuer survive overlapping and broken-off requests", "statement": "However web requests to the example issuer overlap, and wherever they are broken off: a code is given only to a person who has logged in; a login form lets one login through, and to the request it was shown for; a code is redeemed once; no request waits for another; and a person who has logged in, or holds a form that has not been used, loses neither.", "quantifier": "all sets of web requests, all interleavings of what their handlers do, all faults of the store, all places to stop a request at", "why_tests_cant": "the handlers give up control between looking into a map and writing it; which other requests run in between, and where a connection is cut, is not for a test to choose", "anchors": ["examples/issuer/src/main.rs AUTH_REQUESTS, PAR_REQUESTS, authorize, par, login, create_offer, token, credential, deferred_credential", "vercre-issuer/src/authorize.rs", "vercre-issuer/src/token.rs"]}
{"id": "C175", "title": "People who use the issuer at the same time do not affect each other", "statement": "Take any set of requests to the issuer whose codes, tokens and identifiers no request outside the set presents or is given. However all requests overlap, wherever store accesses fail and calls break off, the requests in the set get exactly the answers, and leave exactly the entries, that they would if the others were never served. It is enough that tokens do not repeat, and that nobody outside presents one that the issuer gave to the set.", "quantifier": "all sets of requests to the endpoints, all providers, all divisions of the requests into a set and the rest, all schedules, faults and stopping points", "why_tests_cant": "a test serves some requests with and without some others; that no other request could make a difference is a statement about all of them", "anchors": ["vercre-issuer/src/create_offer.rs", "vercre-issuer/src/authorize.rs", "vercre-issuer/src/par.rs", "vercre-issuer/src/token.rs token", "vercre-issuer/src/credential.rs credential", "vercre-issuer/src/deferred.rs deferred", "vercre-issuer/src/state.rs"]}
{"id": "C176", "title": "Requests for presentation do not affect each other", "statement": "Take any set of calls of the verifier's endpoints whose states no call outside the set presents or is given. However all calls overlap, wherever store accesses fail and calls break off, the calls in the set get exactly the answers, and leave exactly the entries, that they would if the others were never made.", "quantifier": "all sets of calls of the endpoints, all providers, all divisions of the calls into a set and the rest, all schedules, faults and stopping points", "why_tests_cant": "a test makes some calls with and without some others; that no other call could make a difference is a statement about all of them", "anchors": ["vercre-verifier/src/create_request.rs create_request", "vercre-verifier/src/request_object.rs request_object", "vercre-verifier/src/response.rs response"]}
{"id": "C177", "title": "A response is judged as of the time it is checked, however long that takes", "statement": "The verifier reads the clock for each credential while other calls and time go on. A response is accepted only if it answered a request of the verifier when it came in, so no credential that had expired by then is accepted. It is refused only if its state is unknown, the store fails, or it no longer answers the request by the time the refusal goes out.", "quantifier": "all calls of the endpoints, all schedules of their store accesses and clock readings, all passing of time in between, all faults", "why_tests_cant": "the clock does not stand still between two credentials; a test would have to stop the call at each reading", "anchors": ["vercre-verifier/src/response.rs verify", "vercre-verifier/src/response.rs process"]}
{"id": "C178", "title": "What has expired when a request comes in gets nothing, however requests overlap", "statement": "A grant code, offer id, transaction id, issuer state, pushed request or session that has expired when a request with it comes in leads to nothing: the request is refused, whatever other requests are under way or come later. (True of codes, ids, issuer states and pushed requests; of sessions only if no request that reads the session is under way when it expires: one that came in just in time renews the session afterwards, and then later requests are served.)", "quantifier": "all calls of the endpoints, all schedules of their store accesses and clock readings, all passing of time in between, all faults and crash points", "why_tests_cant": "a test would have to stop one request between its check of the expiry and its renewal, and let the clock run over the expiry exactly there", "anchors": ["vercre-issuer/src/credential.rs credential", "vercre-issuer/src/credential.rs issue_response", "vercre-issuer/src/token.rs token", "vercre-issuer/src/authorize.rs authorize", "vercre-issuer/src/create_offer.rs", "vercre-issuer/src/deferred.rs deferred", "vercre-issuer/src/state.rs is_expired"]}
{"id": "C179", "title": "Codes and request URIs are given exactly when the rules say so", "statement": "With a working state store, the authorization endpoint answers with a code exactly when the request (given directly or by the URI of an unexpired push, the only way if the server requires pushing) is for a known issuer, client and server and valid for them, its issuer state (if any) is live and of the same subject, every credential it describes is one the issuer can make sense of with the mandatory claims included, the first value of a scope adds something, something is asked for, and the Subject provider authorizes everything that is asked for. A request can be pushed exactly when the server does not require pushing and all of this holds, except that the Subject provider is not asked. No other condition is imposed and none is left out.", "quantifier": "all requests, issuers, clients, servers, Subject provider behaviours and states of the store", "why_tests_cant": "tests show that some requests are accepted and some refused, not that the conditions are exactly these", "anchors": ["vercre-issuer/src/authorize.rs authorize", "vercre-issuer/src/authorize.rs verify", "vercre-issuer/src/authorize.rs verify_authorization_details", "vercre-issuer/src/authorize.rs verify_scope", "vercre-issuer/src/authorize.rs process", "vercre-issuer/src/par.rs par"]}
{"id": "C180", "title": "A code stands for credentials the issuer publishes", "statement": "A code is only given for credential configurations the issuer's metadata publish. (True of credentials described by format and type, of those with listed claims and of those asked for by scope. False otherwise: an authorization detail that names a configuration and lists no claims is not looked up, so a code is given for a configuration that does not exist, if the Subject provider authorizes the subject for it. No credential ever comes of it: every credential request for a configuration that is not published is refused and changes nothing.)", "quantifier": "all requests, metadata, Subject provider behaviours and states of the store", "why_tests_cant": "tests use metadata and Subject providers that agree with each other", "anchors": ["vercre-issuer/src/authorize.rs verify_authorization_details", "vercre-issuer/src/authorize.rs process", "vercre-issuer/src/credential.rs credential"]}
{"id": "C181", "title": "Credentials are given exactly when the rules say so", "statement": "With a working state store and working signing, the credential endpoint answers with a credential exactly when the access token is that of an unexpired session with an unexpired nonce, the session authorizes the credential asked for (by identifier, or the first authorization for the first published configuration of the format and type), its configuration is published, the proofs are as the configuration asks (none needed without proof types; otherwise given, and each one valid for the nonce: an empty list will do), the Subject provider has a dataset for it which is not pending, and the issuer can make such credentials (a signer; an mDL or a JWT credential with a second type, an issuer identifier and a status answer). It answers with a transaction id exactly when all of this holds up to the dataset, which is pending. The deferred endpoint answers with a credential exactly when the transaction id is that of unexpired deferred state and the saved request would get a credential with the access token of this request.", "quantifier": "all requests, issuers, Subject provider behaviours and states of the store", "why_tests_cant": "tests show that some requests are served and some refused, not that the conditions are exactly these", "anchors": ["vercre-issuer/src/credential.rs credential", "vercre-issuer/src/credential.rs authorized", "vercre-issuer/src/credential.rs verify", "vercre-issuer/src/credential.rs dataset", "vercre-issuer/src/credential.rs process", "vercre-issuer/src/credential.rs issue_response", "vercre-issuer/src/credential.rs w3c_vc", "vercre-issuer/src/deferred.rs deferred"]}
{"id": "C182", "title": "An offer the user accepts on the screens is collected", "statement": "When the user accepts an offer on the example wallet's screens (and enters the transaction code, if one is asked for), the credentials offered are collected and are on the list afterwards. (False: the view of an offer carries no status, so the screens never go on from asking whether to accept; whatever the user presses and enters, whichever links are opened and however often the wallet is started, no issuer is ever asked for a token or a credential, and a wallet that was installed empty stays empty. True in part: what is accepted is the offer on the screen, if nothing is on its way when the user presses the button.)", "quantifier": "all wallets, files, issuers, verifiers, links, schedules of commands and messages, restarts and crashes", "why_tests_cant": "the screens have no tests, and tests of the application call its commands directly", "anchors": ["examples/wallet/src/App.tsx App", "examples/wallet/src/Issuance/index.tsx Issuance", "examples/wallet/src/Issuance/Accept.tsx Accept", "examples/wallet/src/Issuance/Pin.tsx Pin", "examples/wallet/src-tauri/src/view/issuance.rs IssuanceView", "examples/wallet/src-tauri/src/lib.rs accept"]}
{"id": "C183", "title": "Nothing is presented but what the user authorized on the screen", "statement": "The example wallet answers a presentation request only if the user pressed Authorize while that request's credentials were on the screen. (True in part: nothing is presented without the user having pressed Authorize on the screen that asks for it, and at most one request is answered each time they do; if nothing is on its way, it is the one on the screen. False in general: if another link is opened just before, the press authorizes the new request although the old one is on the screen.)", "quantifier": "all wallets, files, verifiers, links, schedules of commands and messages, restarts and crashes", "why_tests_cant": "the race needs a link and a press to overlap in a particular order; tests of the screens do not exist", "anchors": ["examples/wallet/src/Presentation/index.tsx Presentation", "examples/wallet/src/Presentation/Authorize.tsx Authorize", "examples/wallet/src/App.tsx App", "examples/wallet/src-tauri/src/lib.rs authorize", "examples/wallet/src-tauri/src/app/presentation.rs request"]}
{"id": "C184", "title": "Nothing is deleted but what the user confirmed", "statement": "A credential that is in the example wallet when it is installed stays there, in memory and in the file, whatever links are opened, whatever fails, and however often the wallet is started or crashes, unless the user pressed Delete in the dialog for a credential with its id while the details of such a credential were on the screen.", "quantifier": "all wallets, files, links, schedules of commands and messages, restarts and crashes", "why_tests_cant": "tests delete a credential and see that it is gone; that nothing else ever deletes one is about all histories", "anchors": ["examples/wallet/src/Credential/Detail.tsx Detail", "examples/wallet/src/Credential/Delete.tsx Delete", "examples/wallet/src/Credential/index.tsx Credential", "examples/wallet/src-tauri/src/lib.rs delete", "examples/wallet/src-tauri/src/app/credential.rs delete"]}
{"id": "C185", "title": "An opened offer or request stays on the screen until the user decides", "statement": "When a link has brought an offer or a request to the screen, it stays there until the user decides, another link is opened or the wallet ends. (False: the timer of the splash screen is never cleared; a link that is opened in the first second and a half after the start is taken off the screen, and the flow is dropped, without the user having decided. True once the timer has gone off and nothing is on its way.)", "quantifier": "all wallets, links, schedules and timers", "why_tests_cant": "it depends on when a timer goes off relative to other events", "anchors": ["examples/wallet/src/Splash/index.tsx Splash", "examples/wallet/src/App.tsx App", "examples/wallet/src-tauri/src/lib.rs reset"]}
{"id": "C186", "title": "The user can always get back to the list", "statement": "From every screen of the example wallet the user can get back to the list of credentials. (False: after a presentation has been authorized that could not be sent, no button does anything any more. True of all other screens, when nothing is on its way: at most two clicks lead to the list as it is stored.)", "quantifier": "all wallets, files, histories, and all sequences of clicks", "why_tests_cant": "it is about all screens that can be reached, and about all sequences of clicks", "anchors": ["examples/wallet/src/Credential/index.tsx Credential", "examples/wallet/src/Presentation/index.tsx Presentation", "examples/wallet/src/Layout/Header.tsx Header", "examples/wallet/src/Error/index.tsx Error", "examples/wallet/src/Issuance/Pin.tsx Pin"]}
{"id": "C187", "title": "What the user pastes gets to the wallet as it was", "statement": "An offer or request that the user pastes into the example wallet's forms gets to the application as it was, with white space around it removed. (True of offers of at most 1024 UTF-16 code units, and of addresses of requests. False otherwise: longer offers are cut off and can not be read any more, and a request that is pasted by value is taken for an address to fetch it from.)", "quantifier": "all texts, offers and requests", "why_tests_cant": "the encoding has to be undone for every text of Unicode characters", "anchors": ["examples/wallet/src/Credential/Add.tsx Add", "examples/wallet/src/Credential/Present.tsx Present", "examples/wallet/src-tauri/src/lib.rs offer", "examples/wallet/src-tauri/src/app/issuance.rs offer", "vercre-holder/src/presentation/request.rs request"]}
{"id": "C188", "title": "The details of a credential on the screen tell what it says", "statement": "On the screen of details every claim of a credential is shown with its name and its value, and the issuer with its domain. (True of the values, for credentials of one subject; nothing else is shown; and of the authority of the issuer's address. False of the names: the value is put in the place of the name, so credentials that differ in what their claims are called look the same.)", "quantifier": "all credentials, claims and addresses of issuers", "why_tests_cant": "the screens have no tests; and the claim is about all credentials", "anchors": ["examples/wallet/src/Credential/Detail.tsx Detail", "examples/wallet/src/Credential/Detail.tsx ClaimDefinition", "examples/wallet/src/Credential/index.tsx domainFromUrl", "examples/wallet/src-tauri/src/view/credential.rs CredentialDetail"]}
{"id": "C189", "title": "A front end and the verifier understand each other", "statement": "What a front end sends as JSON text to have a presentation request made is understood by the verifier as it was meant: members left out are empty, the flow is across devices unless said otherwise, members of its own are ignored, and a flow by an unknown name is refused. If a request is made of the text, the front end can read the answer, and it is the very request object that is kept (same device), or the address at which that is fetched (across devices); what is kept asks for what the text asks for.", "quantifier": "all texts of requests and answers, all providers and states of the verifier", "why_tests_cant": "a test sends one complete request; which members may be left out, and whether every answer can be read, is about all of them", "anchors": ["crates/openid/src/verifier.rs CreateRequestRequest", "crates/openid/src/verifier.rs CreateRequestResponse", "crates/openid/src/verifier.rs DeviceFlow", "vercre-verifier/src/create_request.rs create_request", "examples/verifier/src/main.rs create_request"]}
{"id": "C190", "title": "Errors of status checks can be read", "statement": "The JSON of an error about a status list carries its number of the W3C standard, the type that ends with that number and the detail it was given, and errors can be told apart by it. (False where the detail has a character that JSON escapes: details are copied in as they are, so a quote can replace the type and a line break loses the whole error.)", "quantifier": "all errors, all details", "why_tests_cant": "a test serializes a few errors; details come from servers and libraries and can hold any text", "anchors": ["crates/status/src/bitstring.rs Error", "crates/status/src/bitstring.rs Error::to_json", "crates/status/src/bitstring.rs ValidationError"]}
{"id": "C191", "title": "A presentation can be read from its text", "statement": "A presentation is read from its JSON text, and from that text in base64, as it was; a text that is not a presentation is refused with an error. (False: an empty text, or one that begins with a character beyond ASCII, makes the program panic, and JSON with white space before it is refused.)", "quantifier": "all presentations, all texts", "why_tests_cant": "a test parses one presentation; that no text makes the program panic is about all texts", "anchors": ["crates/w3c-vc/src/model/vp.rs FromStr for VerifiablePresentation"]}
{"id": "C192", "title": "A credential is accepted only from the one it was issued to", "statement": "If the verifier accepts a response, the one who presented it holds the key of the subject that each of its credentials names. (False: whoever knows a credential's token and the nonce of the request, which anyone can fetch, gets it accepted under any name and with a made up proof; and in signed presentations the signer is never compared with the subject.)", "quantifier": "all requests, credentials, presentations, presenters, key resolvers", "why_tests_cant": "a test presents a credential by its holder; that nobody else can is about all other presenters", "anchors": ["vercre-verifier/src/response.rs verify", "crates/w3c-vc/src/proof.rs verify"]}
{"id": "C193", "title": "Revoked, suspended and not yet valid credentials are refused", "statement": "If the verifier accepts a response, every credential used is valid at that time: its validity has begun and not ended, and its issuer has neither revoked nor suspended it. (False: only the end is checked; the status entry is never looked up and the beginning never compared.)", "quantifier": "all requests, responses, credentials, times, status lists", "why_tests_cant": "a test presents one valid credential; the refusal of every other depends on every time and status list", "anchors": ["vercre-verifier/src/response.rs verify"]}
{"id": "C194", "title": "An accepted credential was signed by the issuer it names", "statement": "If the verifier accepts a response, each credential used was signed with a key of the issuer that it names. (False: any key that the resolver finds will do, and neither the issuer in the credential nor the `iss` of its token is compared with it or with the other.)", "quantifier": "all requests, responses, credentials, issuers, key resolvers", "why_tests_cant": "a test presents one credential signed by its issuer; that others are refused is about all signers", "anchors": ["vercre-verifier/src/response.rs verify", "crates/w3c-vc/src/proof.rs verify"]}
{"id": "C195", "title": "Every key that is proved gets a credential", "statement": "If a credential request carries proofs of several keys and is answered, there is a credential bound to each of these keys. (False: every proof must be valid, but one credential is made, for the holder whose key was proved last.)", "quantifier": "all providers, sessions, requests, lists of proofs", "why_tests_cant": "a test sends one proof; the claim is about lists of proofs of any length and order", "anchors": ["vercre-issuer/src/credential.rs verify", "vercre-issuer/src/credential.rs process", "crates/openid/src/issuer.rs Proof"]}
{"id": "C196", "title": "A credential holds only the claims that were authorized", "statement": "If an authorization names the claims it is for, a credential issued under it holds no other claims. (False: the claims are checked for being supported and then forgotten.)", "quantifier": "all histories, overlaps, providers, authorizations, requests", "why_tests_cant": "a test asks for all claims of one credential; that nothing else is released must hold for every subset and history", "anchors": ["vercre-issuer/src/token.rs authorized_credentials", "vercre-issuer/src/credential.rs dataset", "vercre-issuer/src/state.rs Authorized"]}
{"id": "C197", "title": "An issued mobile document is of the type its configuration promises", "statement": "If a mobile document is issued for a configuration, the document says that it is of the configuration's document type. (False for every type but the driving licence's: the document's type is a constant.)", "quantifier": "all configurations, data sets, signers, random values, times", "why_tests_cant": "a test issues a driving licence; the claim is about all document types", "anchors": ["crates/iso-mdl/src/mso.rs MobileSecurityObject::new", "crates/iso-mdl/src/lib.rs to_credential", "crates/openid/src/issuer.rs ProfileIsoMdl", "vercre-issuer/src/credential.rs issue_response"]}
{"id": "C198", "title": "A call that was broken off can be made again", "statement": "If a server stops in the middle of a call, at any point, then after a restart the wallet can make the same call again and get what it was entitled to: the token for its code, the credential for its token, the deferred credential for its transaction, the answer to its presentation. (False for codes and transactions: both are removed before the answer is made, so stopping in between loses them for good.)", "quantifier": "all calls, all points at which a call is broken off, all states, all later histories", "why_tests_cant": "a test lets each call run to its end; the claim is about every point between two effects and all that happens afterwards", "anchors": ["vercre-issuer/src/token.rs token", "vercre-issuer/src/deferred.rs deferred", "vercre-issuer/src/credential.rs credential", "vercre-verifier/src/response.rs response"]}
{"id": "C199", "title": "What the issuer issues, the wallet can present and the verifier accepts", "statement": "A credential that is offered by the issuer, collected and saved by the wallet, and later asked for by the verifier is shown to the user; when they agree, what the wallet sends is accepted. This holds at any later time, whatever the three parties do in between for others.", "quantifier": "all issuer and verifier states and histories, offers, sets of credentials, wallets with any past, requests the credential satisfies, everything that happens in between", "why_tests_cant": "a test runs one such chain, with one credential and nothing else going on; the claim spans three parties and all their interleaved histories", "anchors": ["vercre-issuer/src/create_offer.rs create_offer", "vercre-issuer/src/credential.rs credential", "vercre-holder/src/issuance/credentials.rs credentials", "vercre-holder/src/issuance/save.rs save", "vercre-holder/src/presentation/request.rs request", "vercre-holder/src/presentation/present.rs present", "vercre-verifier/src/response.rs response"]}
{"id": "C200", "title": "A flow for a scope runs to its end", "statement": "A wallet that asks for authorization for a scope gets a token, and with it every credential of the scope that it asks for by format, one after another; each is about the holder of the wallet's key and has the claims the issuer has for it, as far as the issuer publishes them.", "quantifier": "all issuer states and histories, scopes, formats, wallets with any past, times within the five minutes, everything the issuer serves in between", "why_tests_cant": "a test runs one such flow, for one credential; that nothing else the issuer does gets in the way, and that a second credential is never given, are claims about all histories", "anchors": ["vercre-holder/src/issuance/authorize.rs authorize", "vercre-holder/src/issuance/credentials.rs credential_by_format", "vercre-issuer/src/authorize.rs verify_scope", "vercre-issuer/src/token.rs token", "vercre-issuer/src/credential.rs credential"]}
{"id": "C201", "title": "A credential that is tapped on the list is the one that opens", "statement": "When the list is on the screen of the example wallet, it lists the credentials in memory, in their order; if the user taps one, its details come to the screen, and nothing else changes. (True when nothing is on its way to the screen. If the user goes on before the answer has come – opens a form and fills it in –, the details take its place when they arrive, and what was entered is lost.)", "quantifier": "all histories of the wallet and its screens: links, clicks, answers of others, restarts and crashes; every entry of the list", "why_tests_cant": "tests of components look at one list and one click; that list and memory agree after every history is an invariant of screens and application together", "anchors": ["examples/wallet/src/Credential/index.tsx", "examples/wallet/src/Credential/List.tsx", "examples/wallet/src-tauri/src/lib.rs select", "examples/wallet/src-tauri/src/view/credential.rs"]}
{"id": "C202", "title": "A wallet that stops in the middle of a call can go on", "statement": "If the wallet stops in the middle of a call, at any point, then after it is started again each of its flows is as before the call or as after it, never in between, and the call can be made again to the same effect; in particular credentials that were received are all saved. (False of the token call: when the wallet stops after the issuer has answered and before the answer is saved, the flow is left with a code that is spent, and no token call for it succeeds any more.)", "quantifier": "all calls, all points at which a call can stop, all states of the wallet; all answers of issuers, verifiers, storage and store; all histories afterwards, with further stops", "why_tests_cant": "tests run calls to their end; stopping at each effect of each call, and what happens later in every history, cannot be enumerated", "anchors": ["vercre-holder/src/issuance/token.rs token", "vercre-holder/src/issuance/save.rs save", "vercre-holder/src/issuance/credentials.rs credentials", "vercre-holder/src/issuance/offer.rs offer", "vercre-holder/src/presentation/request.rs request", "vercre-holder/src/provider.rs"]}
{"id": "C203", "title": "A verifier that asks for formats and algorithms gets only such credentials", "statement": "If a request for presentation says in which formats credentials are taken and how they must be signed, then every credential in an accepted response is of such a format and signed in such a way; and a wallet that has such a credential can answer. (False: formats and algorithms of the definition and algorithms of the input descriptors are ignored; of the formats of a descriptor only the name is compared with the one that the response states for the credential, whatever the credential is; and the wallet states `jwt_vc_json` for everything it sends, so requests that list `jwt_vc` are never answered.)", "quantifier": "all requests, all responses, all restrictions and names, all states and resolvers of the verifier; all states of the wallet", "why_tests_cant": "tests use one request without restrictions in its descriptors; that nothing but a name counts is about all requests and responses", "anchors": ["vercre-verifier/src/response.rs verify", "vercre-verifier/src/create_request.rs process", "vercre-holder/src/presentation/present.rs create_submission", "crates/dif-exch/src/lib.rs ClaimFormat", "crates/dif-exch/src/lib.rs InputDescriptor"]}
{"id": "C204", "title": "A state store may throw away what has expired", "statement": "The state store is told with every entry from which time on it may be expunged. A store that makes use of this makes no difference to anybody: call by call, whatever is expunged before it, the issuer and the verifier give the same answer as over a store that keeps everything, or refuse both times. (False: states are good for up to a second longer than the store is told, since whole seconds are compared; a registration does not check whether its access token has expired, nor does the verifier check whether a request has; so these succeed or not depending on the store.)", "quantifier": "all histories of calls with all times between them, all choices of expired entries that are gone before each call, all providers", "why_tests_cant": "the stores used in tests ignore the expiry; what is expunged when is up to the store, and that it makes no difference is about all its choices and all histories", "anchors": ["crates/openid/src/provider.rs StateStore", "vercre-issuer/src/state.rs is_expired", "vercre-issuer/src/token.rs token", "vercre-issuer/src/credential.rs credential", "vercre-issuer/src/deferred.rs deferred", "vercre-issuer/src/register.rs register", "vercre-verifier/src/response.rs response"]}
{"id": "C205", "title": "A message is read for what it says, however its text is written", "statement": "A JSON text is read as a value exactly when the grammar of RFC 8259 says that it denotes this value, with white space between any two parts, and with each character written as itself, by a short escape, by its number or by a surrogate pair; no other text is read, and none in two ways. So offers and requests of other programs are understood whichever way these write JSON, and what vercre sends is JSON for them. Half a surrogate pair, which JavaScript can write, is refused. (The limit of the reading crate on nesting is left aside.)", "quantifier": "all texts, all values, all ways to write a value, all offers and requests of a front end", "why_tests_cant": "texts are without bound, and each value can be written in infinitely many ways", "anchors": ["examples/wallet/src-tauri/src/app/issuance.rs offer", "crates/test-utils/src/store/state.rs Store", "examples/verifier/src/main.rs create_request"]}
{"id": "C206", "title": "An access token goes only to the issuer that gave it", "statement": "Whatever a wallet sends for a flow (codes, PINs, proofs, access tokens, transaction ids) goes to the issuer named in the metadata that was fetched for this flow. An access token is sent only for the flow it was given to, and to the issuer the wallet asked for it, never to another.", "quantifier": "all histories and all overlapping schedules of wallet calls, all replies of issuers and verifiers, all store faults and crash points", "why_tests_cant": "the token is kept between calls while other flows go on and other issuers answer; that it is not sent elsewhere must hold for every history", "anchors": ["vercre-holder/src/issuance/token.rs token", "vercre-holder/src/issuance/credentials.rs credentials", "vercre-holder/src/issuance/authorize.rs authorize", "vercre-holder/src/provider.rs Issuer"]}
{"id": "C207", "title": "The example wallet's requests arrive where the issuer takes them", "statement": "What the example wallet sends for an offer arrives at the issuer that made the offer, at the handler that takes it, with the access token this issuer gave.", "quantifier": "all histories of the example wallet's commands, links, restarts and crashes; all issuers, hosts and replies", "why_tests_cant": "addresses are put together from what other parties say; tests use one mock issuer and no addresses at all", "anchors": ["examples/wallet/src-tauri/src/provider/issuer_client.rs token", "examples/wallet/src-tauri/src/provider/issuer_client.rs credential", "examples/wallet/src-tauri/src/provider/issuer_client.rs metadata", "examples/issuer/src/main.rs main"]}
{"id": "C208", "title": "However calls overlap, a wallet's requests speak for their own flow", "statement": "Whatever calls a wallet has under way at once, what a request says comes from the flow it is for. With a pre-authorized code the wallet asks for a token as the client that took in the offer, with the code of this offer, a PIN given for it, and for what the holder picked when accepting it. An authorization code is redeemed by the call that obtained it, with the client, redirect URI and verifier that go with its request. A credential is asked for with an access token that came for this flow, by an identifier that came with the same token, and with a proof that names the flow's client, a nonce that came for the flow, and the issuer of its offer.", "quantifier": "all sets of wallet calls, all interleavings of their steps, all replies, store faults and calls that never finish", "why_tests_cant": "mixing the fields of two flows takes an interleaving of calls that no test tries, and must be excluded for all of them", "anchors": ["vercre-holder/src/issuance/token.rs token", "vercre-holder/src/issuance/authorize.rs authorize", "vercre-holder/src/issuance/credentials.rs credentials"]}
{"id": "C209", "title": "A wallet that asks for an encrypted response gets no credential in the clear", "statement": "If a credential request says how the response is to be encrypted (`credential_response_encryption`), then the issuer encrypts the response so or refuses the request; it never sends the credential in the clear.", "quantifier": "all credential requests, with the member anywhere among the others, all keys and algorithms, all issuers and all states of their stores", "why_tests_cant": "tests send requests without the member; that no request with it is answered in the clear is a claim about all requests and stores", "anchors": ["crates/openid/src/issuer.rs CredentialRequest CredentialResponseEncryption", "vercre-issuer/src/credential.rs credential", "examples/issuer/src/main.rs credential"]}
