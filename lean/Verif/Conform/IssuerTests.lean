import Verif.Conform.Provider
import Verif.Wire.Message
/-!
# The unit tests of the issuer, replayed on the model

Each test of the code is run on the model: the request is the JSON of the test read by the model's reader, the answer and the stored state are written by the model's
writers and compared with the recorded snapshot. The model's clock stands still during a call, so `c_nonce_expires_in` is 600 where the recording, a few
microseconds later, has 599; `at599` undoes that.
-/
namespace Verif.Conform
open Verif Verif.Wire Verif.Issuer

/-- /repo/vercre-issuer/src/create_offer.rs 360-368. -/
def createOfferReq : Json :=
  .obj [
    ("credential_issuer", .str "http://vercre.io"),
    ("credential_configuration_ids", .arr [.str "EmployeeID_JWT"]),
    ("subject_id", .str "normal_user"),
    ("grant_types", .arr [.str "urn:ietf:params:oauth:grant-type:pre-authorized_code"]),
    ("tx_code_required", .bool true),
    ("send_type", .str "ByVal")]

/-- `configuration_id`, /repo/vercre-issuer/src/authorize.rs 478-494. -/
def authorizeConfigurationId : Json :=
  .obj [
    ("credential_issuer", .str "http://vercre.io"),
    ("response_type", .str "code"),
    ("client_id", .str "96bfb9cb-0513-7d64-5532-bed74c48f9ab"),
    ("redirect_uri", .str "http://localhost:3000/callback"),
    ("state", .str "1234"),
    ("code_challenge", .str "B6qi8EPWVTnONnO8XNSAsN7O2ejthn3pCKwZUO0HzU8"),
    ("code_challenge_method", .str "S256"),
    ("authorization_details", .arr [.obj [("type", .str "openid_credential"), ("credential_configuration_id", .str "EmployeeID_JWT")]]),
    ("subject_id", .str "normal_user"),
    ("wallet_issuer", .str "http://vercre.io")]

/-- `format_w3c`, authorize.rs 496-518. -/
def authorizeFormat : Json :=
  .obj [
    ("credential_issuer", .str "http://vercre.io"),
    ("response_type", .str "code"),
    ("client_id", .str "96bfb9cb-0513-7d64-5532-bed74c48f9ab"),
    ("redirect_uri", .str "http://localhost:3000/callback"),
    ("state", .str "1234"),
    ("code_challenge", .str "B6qi8EPWVTnONnO8XNSAsN7O2ejthn3pCKwZUO0HzU8"),
    ("code_challenge_method", .str "S256"),
    ("authorization_details", .arr [
      .obj [
        ("type", .str "openid_credential"),
        ("format", .str "jwt_vc_json"),
        ("credential_definition", .obj [("type", .arr [.str "VerifiableCredential", .str "EmployeeIDCredential"])])]]),
    ("subject_id", .str "normal_user"),
    ("wallet_issuer", .str "http://vercre.io")]

/-- `scope`, authorize.rs 520-533. -/
def authorizeScope : Json :=
  .obj [
    ("credential_issuer", .str "http://vercre.io"),
    ("response_type", .str "code"),
    ("client_id", .str "96bfb9cb-0513-7d64-5532-bed74c48f9ab"),
    ("redirect_uri", .str "http://localhost:3000/callback"),
    ("state", .str "1234"),
    ("code_challenge", .str "B6qi8EPWVTnONnO8XNSAsN7O2ejthn3pCKwZUO0HzU8"),
    ("code_challenge_method", .str "S256"),
    ("scope", .str "EmployeeIDCredential"),
    ("subject_id", .str "normal_user"),
    ("wallet_issuer", .str "http://vercre.io")]

/-- `claims`, authorize.rs 535-562. -/
def authorizeClaims : Json :=
  .obj [
    ("credential_issuer", .str "http://vercre.io"),
    ("response_type", .str "code"),
    ("client_id", .str "96bfb9cb-0513-7d64-5532-bed74c48f9ab"),
    ("redirect_uri", .str "http://localhost:3000/callback"),
    ("state", .str "1234"),
    ("code_challenge", .str "B6qi8EPWVTnONnO8XNSAsN7O2ejthn3pCKwZUO0HzU8"),
    ("code_challenge_method", .str "S256"),
    ("authorization_details", .arr [
      .obj [
        ("type", .str "openid_credential"),
        ("credential_configuration_id", .str "EmployeeID_JWT"),
        ("credential_definition", .obj [
          ("credentialSubject", .obj [
            ("email", .obj []),
            ("given_name", .obj []),
            ("family_name", .obj []),
            ("address", .obj [("street_address", .obj []), ("locality", .obj [])])])])]]),
    ("subject_id", .str "normal_user"),
    ("wallet_issuer", .str "http://vercre.io")]

/-- `claims_err`, authorize.rs 564-592. -/
def authorizeClaimsErr : Json :=
  .obj [
    ("credential_issuer", .str "http://vercre.io"),
    ("response_type", .str "code"),
    ("client_id", .str "96bfb9cb-0513-7d64-5532-bed74c48f9ab"),
    ("redirect_uri", .str "http://localhost:3000/callback"),
    ("state", .str "1234"),
    ("code_challenge", .str "B6qi8EPWVTnONnO8XNSAsN7O2ejthn3pCKwZUO0HzU8"),
    ("code_challenge_method", .str "S256"),
    ("authorization_details", .arr [
      .obj [
        ("type", .str "openid_credential"),
        ("format", .str "jwt_vc_json"),
        ("credential_definition", .obj [
          ("type", .arr [.str "VerifiableCredential", .str "EmployeeIDCredential"]),
          ("credentialSubject", .obj [("given_name", .obj []), ("family_name", .obj []), ("employee_id", .obj [])])])]]),
    ("subject_id", .str "normal_user"),
    ("wallet_issuer", .str "http://vercre.io")]

/-- `response_type_err`, authorize.rs 594-610. -/
def authorizeResponseTypeErr : Json :=
  .obj [
    ("credential_issuer", .str "http://vercre.io"),
    ("response_type", .str "vp_token"),
    ("client_id", .str "96bfb9cb-0513-7d64-5532-bed74c48f9ab"),
    ("redirect_uri", .str "http://localhost:3000/callback"),
    ("state", .str "1234"),
    ("code_challenge", .str "B6qi8EPWVTnONnO8XNSAsN7O2ejthn3pCKwZUO0HzU8"),
    ("code_challenge_method", .str "S256"),
    ("authorization_details", .arr [.obj [("type", .str "openid_credential"), ("credential_configuration_id", .str "EmployeeID_JWT")]]),
    ("subject_id", .str "normal_user"),
    ("wallet_issuer", .str "http://vercre.io")]

/-- /repo/vercre-issuer/src/token.rs 396-402. -/
def tokenPreAuthorized : Json :=
  .obj [
    ("credential_issuer", .str "http://vercre.io"),
    ("client_id", .str "96bfb9cb-0513-7d64-5532-bed74c48f9ab"),
    ("grant_type", .str "urn:ietf:params:oauth:grant-type:pre-authorized_code"),
    ("pre-authorized_code", .str "ABCDEF"),
    ("tx_code", .str "1234")]

/-- token.rs 463-469. -/
def tokenAuthorized : Json :=
  .obj [
    ("credential_issuer", .str "http://vercre.io"),
    ("client_id", .str "96bfb9cb-0513-7d64-5532-bed74c48f9ab"),
    ("grant_type", .str "authorization_code"),
    ("code", .str "ABCDEF"),
    ("code_verifier", .str "ABCDEF12345")]

/-- token.rs 537-554. -/
def tokenDetails : Json :=
  .obj [
    ("credential_issuer", .str "http://vercre.io"),
    ("client_id", .str "96bfb9cb-0513-7d64-5532-bed74c48f9ab"),
    ("grant_type", .str "authorization_code"),
    ("code", .str "ABCDEF"),
    ("code_verifier", .str "ABCDEF12345"),
    ("redirect_uri", .str "https://example.com"),
    ("authorization_details", .arr [
      .obj [
        ("type", .str "openid_credential"),
        ("format", .str "jwt_vc_json"),
        ("credential_definition", .obj [("type", .arr [.str "VerifiableCredential", .str "EmployeeIDCredential"])])]])]

/-- /repo/vercre-issuer/src/credential.rs 521-529; the proof is over the nonce `1234ABCD`. -/
def credentialIdentifier : Json :=
  .obj [
    ("credential_issuer", .str "http://vercre.io"),
    ("access_token", .str "ABCDEF"),
    ("credential_identifier", .str "PHLEmployeeID"),
    ("proof", .obj [("proof_type", .str "jwt"), ("jwt", .str "1234ABCD")])]

/-- credential.rs 610-624 (an ignored test). -/
def credentialFormat : Json :=
  .obj [
    ("credential_issuer", .str "http://vercre.io"),
    ("access_token", .str "ABCDEF"),
    ("format", .str "jwt_vc_json"),
    ("credential_definition", .obj [("type", .arr [.str "VerifiableCredential", .str "EmployeeIDCredential"])]),
    ("proof", .obj [("proof_type", .str "jwt"), ("jwt", .str "1234ABCD")])]

/-- /repo/vercre-issuer/src/register.rs 85-100, with the two members the endpoint adds. -/
def registration : Json :=
  .obj [
    ("client_id", .str "96bfb9cb-0513-7d64-5532-bed74c48f9ab"),
    ("redirect_uris", .arr [.str "http://localhost:3000/callback"]),
    ("grant_types", .arr [.str "authorization_code", .str "urn:ietf:params:oauth:grant-type:pre-authorized_code"]),
    ("response_types", .arr [.str "code"]),
    ("scope", .str "openid credential"),
    ("credential_offer_endpoint", .str "openid-credential-offer://")]

/-- The authorized item of the tests of the token endpoint, token.rs 371-383. -/
def item (c : Verif.CredentialAuthorization) : AuthorizedItem where
  item := .detail { credential := c }
  configId := "EmployeeID_JWT"
  identifiers := ["PHLEmployeeID"]

/-- The state of the normal user at a stage, token.rs 368-389. -/
def normal (s : Issuer.Stage) : State := { subjectId := some "normal_user", stage := s, expiresAt := authorizedDur }

/-- The token state of the tests of the credential endpoint, credential.rs 491-508. -/
def validated (token : String) : State :=
  normal (.validated { accessToken := token, cNonce := "1234ABCD", cNonceExpiresAt := nonceDur
                       credentials := [("PHLEmployeeID", { identifier := "PHLEmployeeID", configId := "EmployeeID_JWT", claimIds := none })] })

/-- A recorded lifetime of 599 seconds for one of 600, the clock not having moved. -/
def at599 : Json → Json
  | .obj m => .obj (m.map fun p => if p.1 = "c_nonce_expires_in" then (p.1, match p.2 with | .num "600" => .num "599" | j => j) else p)
  | j => j

/-- A snapshot without the member at a path. -/
def dropAt : List String → Json → Json
  | [k], .obj m => .obj (m.filter fun p => p.1 ≠ k)
  | k :: ks, .obj m => .obj (m.map fun p => if p.1 = k then (p.1, dropAt ks p.2) else p)
  | _, j => j

/-! ### `create_offer`, `credential_offer` -/

/-- The call of the test, create_offer.rs 350-371. -/
def offeredRun : Res Resp × World State := (readCreateOffer createOfferReq).elim (.error (.serverError ""), holding []) fun r => ask (holding []) (.createOffer r)

-- create_offer.rs 373-400: the answer, the state under the code it names, and the transaction code in both
example : is createOfferPreAuthorizedResponse (shown offeredRun.1) = true := by decide +kernel
example : is createOfferPreAuthorizedState (stored offeredRun.2 (rng 0)) = true := by decide +kernel

/-- /repo/vercre-issuer/src/credential_offer.rs 85-96: the same offer by reference. -/
def referred : Res Resp × World State :=
  (readCreateOffer createOfferReq).elim (.error (.serverError ""), holding []) fun r => ask (holding []) (.createOffer { r with sendType := .byRef })

/-- credential_offer.rs 98-109: fetching the offer by the last part of the URI. -/
def fetched : Res Resp :=
  match referred.1 with
  | .ok (.createOffer { offerType := .uri u, .. }) =>
    (ask referred.2 (.credentialOffer { credentialIssuer, id := String.ofList (u.toList.drop "http://vercre.io/credential_offer/".length) })).1
  | _ => .error (.serverError "")

-- credential_offer.rs 111-114
example : is credentialOfferRequestJwtResponse (shown fetched) = true := by decide +kernel

/-! ### `authorize`, `par` -/

/-- The call of the test, authorize.rs 455-461. -/
def authorizeRun (j : Json) : Res Resp × World State :=
  (readRequest j).elim (.error (.serverError ""), holding []) fun r => ask (holding []) (.authorize (authorizationRequestSeen r))

-- authorize.rs 462-475, once per case
example : is authorizeConfigurationIdResponse (shown (authorizeRun authorizeConfigurationId).1) = true := by decide +kernel
example : is authorizeConfigurationIdState (stored (authorizeRun authorizeConfigurationId).2 (rng 0)) = true := by decide +kernel
example : is authorizeConfigurationIdResponse (shown (authorizeRun authorizeFormat).1) = true := by decide +kernel
example : is authorizeFormatState (stored (authorizeRun authorizeFormat).2 (rng 0)) = true := by decide +kernel
example : is authorizeConfigurationIdResponse (shown (authorizeRun authorizeScope).1) = true := by decide +kernel
example : is authorizeScopeState (stored (authorizeRun authorizeScope).2 (rng 0)) = true := by decide +kernel
example : is authorizeConfigurationIdResponse (shown (authorizeRun authorizeClaims).1) = true := by decide +kernel
example : is authorizeClaimsState (stored (authorizeRun authorizeClaims).2 (rng 0)) = true := by decide +kernel
-- the cases that have to fail at the endpoint, not at reading: `should_panic(expected = "ok")`
example : (readRequest authorizeClaimsErr).isSome = true ∧ is (.str "error") (shown (authorizeRun authorizeClaimsErr).1) = true := by decide +kernel
example : (readRequest authorizeResponseTypeErr).isSome = true ∧ is (.str "error") (shown (authorizeRun authorizeResponseTypeErr).1) = true := by decide +kernel

/-- The call of the test, /repo/vercre-issuer/src/par.rs 105-137. -/
def parRun : Res Resp × World State :=
  match readRequest authorizeConfigurationId with
  | some (.object r) => ask (holding []) (.par (objectSeen r))
  | _ => (.error (.serverError ""), holding [])

-- par.rs 138-149
example : is parRequestResponse (shown parRun.1) = true := by decide +kernel
-- `wallet_issuer` is a member no endpoint reads, and the model's state does not keep
example : is (dropAt ["stage", "pushed_authorization", "request", "wallet_issuer"] parRequestState)
    (match parRun.1 with | .ok (.par r) => stored parRun.2 r.requestUri | _ => .null) = true := by decide +kernel

/-! ### `token` -/

/-- The call of the tests, token.rs 396-405: with a state under `ABCDEF`. -/
def tokenRun (s : Issuer.Stage) (j : Json) : Res Resp × World State :=
  (readTokenRequest j).elim (.error (.serverError ""), holding []) fun r => ask (holding [("ABCDEF", normal s)]) (.token (tokenRequestSeen r))

/-- Whether a test of the token endpoint comes out as recorded: the answer, the state under the code gone, the state under the token, token.rs 407-426. -/
def tokenCheck (s : Issuer.Stage) (j answer state : Json) : Bool :=
  let r := tokenRun s j
  is answer (shown r.1) && gone r.2 "ABCDEF" && is state (match r.1 with | .ok (.token t) => stored r.2 t.accessToken | _ => .null)

-- `pre_authorized`, token.rs 363-427
example : tokenCheck (.offered { items := some [item (.configurationId "EmployeeID_JWT" none)], txCode := some "1234" })
    tokenPreAuthorized tokenPreAuthorizedResponse tokenPreAuthorizedState = true := by decide +kernel
-- `authorized`, token.rs 429-492
example : tokenCheck (.authorized { clientId := clientId, redirectUri := none, codeChallenge := testChallenge, codeChallengeMethod := .s256
                                    items := [item (.configurationId "EmployeeID_JWT" none)] })
    tokenAuthorized tokenAuthorizedResponse tokenAuthorizedState = true := by decide +kernel
-- `authorization_details`, token.rs 494-577
example : tokenCheck (.authorized { clientId := clientId, redirectUri := some "https://example.com", codeChallenge := testChallenge, codeChallengeMethod := .s256
                                    items := [item (.format (.jwtVcJson { type_ := some ["VerifiableCredential", "EmployeeIDCredential"] }))] })
    tokenDetails tokenAuthorizationDetailsResponse tokenAuthorizationDetailsState = true := by decide +kernel

/-! ### `credential`, `deferred` -/

/-- The call of the tests, credential.rs 521-532. -/
def credentialRun (j : Json) : Res Resp × World State :=
  (readCredentialRequest j).elim (.error (.serverError ""), holding []) fun r => ask (holding [("ABCDEF", validated "ABCDEF")]) (.credential r)

-- `identifier`, credential.rs 533-562
example : is credentialIdentifierResponse (at599 (shown (credentialRun credentialIdentifier).1)) = true := by decide +kernel
example : is credentialIdentifierVc (match (credentialRun credentialIdentifier).1 with | .ok r => vcJson r | _ => .null) = true := by decide +kernel
example : is credentialIdentifierState (stored (credentialRun credentialIdentifier).2 "ABCDEF") = true := by decide +kernel

-- `format`, credential.rs 564-646, is ignored in the code: there would be no snapshot to compare with, but the call goes through
example : is credentialIdentifierVc (match (credentialRun credentialFormat).1 with | .ok r => vcJson r | _ => .null) = true := by decide +kernel

/-- The call of the test, /repo/vercre-issuer/src/deferred.rs 92-160. -/
def deferredRun : Res Resp × World State :=
  (readCredentialRequest credentialIdentifier).elim (.error (.serverError ""), holding []) fun r =>
    ask (holding [("tkn-ABCDEF", validated "tkn-ABCDEF"), ("txn-ABCDEF", normal (.deferred "txn-ABCDEF" { r with accessToken := "tkn-ABCDEF" }))])
      (.deferred { credentialIssuer, accessToken := "tkn-ABCDEF", transactionId := "txn-ABCDEF" })

-- deferred.rs 161-201
example : is deferredDeferredOkResponse (at599 (shown deferredRun.1)) = true := by decide +kernel
example : is deferredDeferredOkVc (match deferredRun.1 with | .ok r => vcJson r | _ => .null) = true := by decide +kernel
example : is deferredDeferredOkState (stored deferredRun.2 "tkn-ABCDEF") = true := by decide +kernel
example : gone deferredRun.2 "txn-ABCDEF" = true := by decide +kernel

/-! ### `notification`, `metadata`, `oauth_server`, `register` -/

/-- The call of the test, /repo/vercre-issuer/src/notification.rs 84-110. -/
def notified : Res Resp × World State :=
  ask (holding [("123456", normal (.issued {}))]) (.notification { notificationId := "123456" })

-- notification.rs 111-114
example : is notificationOkResponse (shown notified.1) = true ∧ gone notified.2 "123456" = true := by decide +kernel

-- /repo/vercre-issuer/src/metadata.rs 66-88, over what the issuer's metadata is in full
example : (readIssuerMeta issuerJson).any (fun m => is metadataMetadataOkResponse (writeIssuerMeta m)) = true := by decide +kernel
-- /repo/vercre-issuer/src/oauth_server.rs 68-83
example : (readServer serverJson).any (fun s => is oauthServerMetadataOkResponse (writeServerReply s)) = true := by decide +kernel
-- /repo/vercre-issuer/src/register.rs 60-110
example : (readRegistration (.obj ([("credential_issuer", .str credentialIssuer), ("access_token", .str "ABCDEF")] ++ membersOf registration))).any
    (fun r => is registerRegistrationOkResponse (.obj (writeClientMeta r.client))) = true := by decide +kernel

end Verif.Conform
