import Verif.Conform.HolderTests
import Verif.Wire.Macro
import Verif.Server.Redirect
/-!
# The tests of the types, the macros and the encodings, replayed on the models

The unit tests of /repo/crates/openid, /repo/crates/w3c-vc, /repo/crates/core, /repo/crates/dif-exch and /repo/crates/macro-tests: what the readers and writers of the
models do is compared with what was recorded. Evaluated when this file is compiled (`#guard`), not by the kernel.
-/
namespace Verif.Conform
open Verif Verif.Wire

/-- /repo/crates/openid/src/snapshots/vercre_openid__issuer__tests__authorization_configuration_id.snap. -/
def snapConfigurationId : Json :=
  .obj [
    ("credential_issuer", .str "https://example.com"),
    ("response_type", .str "code"),
    ("client_id", .str "1234"),
    ("redirect_uri", .str "http://localhost:3000/callback"),
    ("state", .str "1234"),
    ("code_challenge", .str "1234"),
    ("code_challenge_method", .str "S256"),
    ("authorization_details", .str "[authorization_details]"),
    ("subject_id", .str "1234"),
    ("wallet_issuer", .str "1234")]

/-- /repo/crates/openid/src/snapshots/vercre_openid__issuer__tests__authorization_details.snap. -/
def snapDetails : Json :=
  .arr [
    .obj [
      ("type", .str "openid_credential"),
      ("credential_configuration_id", .str "EmployeeID_JWT"),
      ("credential_definition", .obj [("credentialSubject", .obj [("email", .obj []), ("family_name", .obj []), ("given_name", .obj [])])])]]

/-- /repo/crates/openid/src/snapshots/vercre_openid__issuer__tests__credential_format.snap. -/
def snapCredentialFormat : Json :=
  .obj [
    ("credential_issuer", .str "https://example.com"),
    ("access_token", .str "1234"),
    ("format", .str "jwt_vc_json"),
    ("credential_definition", .obj [("type", .arr [.str "VerifiableCredential", .str "EmployeeIDCredential"])]),
    ("proof", .obj [("proof_type", .str "jwt"), ("jwt", .str "SomeJWT")])]

/-- /repo/crates/openid/src/snapshots/vercre_openid__issuer__tests__credential_identifier.snap. -/
def snapCredentialIdentifier : Json :=
  .obj [
    ("credential_issuer", .str "https://example.com"),
    ("access_token", .str "1234"),
    ("credential_identifier", .str "EngineeringDegree2023"),
    ("proof", .obj [("proof_type", .str "jwt"), ("jwt", .str "SomeJWT")])]

/-- /repo/crates/openid/src/snapshots/vercre_openid__issuer__tests__multiple_proofs.snap. -/
def snapMultipleProofs : Json :=
  .obj [
    ("credential_issuer", .str "https://example.com"),
    ("access_token", .str "1234"),
    ("credential_identifier", .str "EngineeringDegree2023"),
    ("proofs", .obj [("jwt", .arr [.str "SomeJWT1", .str "SomeJWT2"])])]

/-- /repo/crates/openid/src/snapshots/vercre_openid__issuer__tests__authorization_format.snap. -/
def snapFormat : String :=
  "credential_issuer=https%3A%2F%2Fexample.com&response_type=code&client_id=1234&redirect_uri=http%3A%2F%2Flocalhost%3A3000%2Fcallback&state=1234&code_challenge=1234&code_challenge_method=S256&authorization_details=%5B%7B%22type%22%3A%22openid_credential%22%2C%22format%22%3A%22jwt_vc_json%22%2C%22credential_definition%22%3A%7B%22type%22%3A%5B%22VerifiableCredential%22%2C%22EmployeeIDCredential%22%5D%7D%7D%5D&subject_id=1234&wallet_issuer=1234"

/-- /repo/crates/macro-tests/tests/snapshots/authorization__configuration_id.snap. -/
def macroAuthorizationConfigurationId : Json :=
  .obj [
    ("credential_issuer", .str "http://vercre.io"),
    ("response_type", .str "code"),
    ("client_id", .str "96bfb9cb-0513-7d64-5532-bed74c48f9ab"),
    ("redirect_uri", .str "http://localhost:3000/callback"),
    ("state", .str "1234"),
    ("code_challenge", .str "[base64]"),
    ("code_challenge_method", .str "S256"),
    ("authorization_details", .arr [.obj [("type", .str "openid_credential"), ("credential_configuration_id", .str "EmployeeID_JWT")]]),
    ("subject_id", .str "normal_user"),
    ("wallet_issuer", .str "http://vercre.io")]

/-- /repo/crates/macro-tests/tests/snapshots/authorization__credential_definition.snap. -/
def macroAuthorizationCredentialDefinition : Json :=
  .obj [
    ("credential_issuer", .str "http://vercre.io"),
    ("response_type", .str "code"),
    ("client_id", .str "96bfb9cb-0513-7d64-5532-bed74c48f9ab"),
    ("redirect_uri", .str "http://localhost:3000/callback"),
    ("state", .str "1234"),
    ("code_challenge", .str "[base64]"),
    ("code_challenge_method", .str "S256"),
    ("authorization_details", .str "[authorization_details]"),
    ("subject_id", .str "normal_user"),
    ("wallet_issuer", .str "http://vercre.io")]

/-- /repo/crates/macro-tests/tests/snapshots/authorization__format.snap. -/
def macroAuthorizationFormat : Json :=
  .obj [
    ("credential_issuer", .str "http://vercre.io"),
    ("response_type", .str "code"),
    ("client_id", .str "96bfb9cb-0513-7d64-5532-bed74c48f9ab"),
    ("redirect_uri", .str "http://localhost:3000/callback"),
    ("state", .str "1234"),
    ("code_challenge", .str "[base64]"),
    ("code_challenge_method", .str "S256"),
    ("authorization_details", .str "[authorization_details]"),
    ("subject_id", .str "normal_user"),
    ("wallet_issuer", .str "http://vercre.io")]

/-- /repo/crates/macro-tests/tests/snapshots/authorization__scope.snap. -/
def macroAuthorizationScope : Json :=
  .obj [
    ("credential_issuer", .str "http://vercre.io"),
    ("response_type", .str "code"),
    ("client_id", .str "96bfb9cb-0513-7d64-5532-bed74c48f9ab"),
    ("redirect_uri", .str "http://localhost:3000/callback"),
    ("state", .str "1234"),
    ("code_challenge", .str "B6qi8EPWVTnONnO8XNSAsN7O2ejthn3pCKwZUO0HzU8"),
    ("code_challenge_method", .str "S256"),
    ("scope", .str "EmployeeIDCredential"),
    ("subject_id", .str "normal_user"),
    ("wallet_issuer", .str "http://vercre.io")]

/-- /repo/crates/macro-tests/tests/snapshots/create_offer__default.snap. -/
def macroCreateOfferDefault : Json :=
  .obj [
    ("credential_issuer", .str "http://vercre.io"),
    ("credential_configuration_ids", .arr [.str "EmployeeID_JWT"]),
    ("tx_code_required", .bool false),
    ("send_type", .str "ByVal")]

/-- /repo/crates/macro-tests/tests/snapshots/create_offer__pre-authorized.snap. -/
def macroCreateOfferPreAuthorized : Json :=
  .obj [
    ("credential_issuer", .str "http://vercre.io"),
    ("subject_id", .str "normal_user"),
    ("credential_configuration_ids", .arr [.str "EmployeeID_JWT"]),
    ("grant_types", .arr [.str "urn:ietf:params:oauth:grant-type:pre-authorized_code"]),
    ("tx_code_required", .bool true),
    ("send_type", .str "ByVal")]

/-- /repo/crates/macro-tests/tests/snapshots/credential__format-jwt.snap. -/
def macroCredentialFormatJwt : Json :=
  .obj [
    ("credential_issuer", .str "http://vercre.io"),
    ("access_token", .str "AVCDEF12345"),
    ("format", .str "jwt_vc_json"),
    ("credential_definition", .obj [("type", .arr [.str "VerifiableCredential", .str "EmployeeIDCredential"])]),
    ("proof", .obj [("proof_type", .str "jwt"), ("jwt", .str "eyJhbGciOiJFZERTQSIsInR5cCI6Im9wZW5pZDR2Y...")])]

/-- /repo/crates/macro-tests/tests/snapshots/credential__identifier-jwt.snap. -/
def macroCredentialIdentifierJwt : Json :=
  .obj [
    ("credential_issuer", .str "http://vercre.io"),
    ("access_token", .str "AVCDEF12345"),
    ("credential_identifier", .str "PHLEmployeeID"),
    ("proof", .obj [("proof_type", .str "jwt"), ("jwt", .str "eyJhbGciOiJFZERTQSIsInR5cCI6Im9wZW5pZDR2Y...")])]

/-- /repo/crates/macro-tests/tests/snapshots/token__authorization_details.snap. -/
def macroTokenAuthorizationDetails : Json :=
  .obj [
    ("credential_issuer", .str "http://vercre.io"),
    ("client_id", .str "96bfb9cb-0513-7d64-5532-bed74c48f9ab"),
    ("grant_type", .str "authorization_code"),
    ("code", .str "ABCDEF"),
    ("redirect_uri", .str "https://example.com"),
    ("code_verifier", .str "ABCDEF12345"),
    ("authorization_details", .arr [
      .obj [
        ("type", .str "openid_credential"),
        ("format", .str "jwt_vc_json"),
        ("credential_definition", .obj [("type", .arr [.str "VerifiableCredential", .str "EmployeeIDCredential"])])]])]

/-- /repo/crates/macro-tests/tests/snapshots/token__authorized.snap. -/
def macroTokenAuthorized : Json :=
  .obj [
    ("credential_issuer", .str "http://vercre.io"),
    ("client_id", .str "96bfb9cb-0513-7d64-5532-bed74c48f9ab"),
    ("grant_type", .str "authorization_code"),
    ("code", .str "ABCDEF"),
    ("code_verifier", .str "ABCDEF12345")]

/-- /repo/crates/macro-tests/tests/snapshots/token__pre_authorized.snap. -/
def macroTokenPreAuthorized : Json :=
  .obj [
    ("credential_issuer", .str "http://vercre.io"),
    ("client_id", .str "96bfb9cb-0513-7d64-5532-bed74c48f9ab"),
    ("grant_type", .str "urn:ietf:params:oauth:grant-type:pre-authorized_code"),
    ("pre-authorized_code", .str "ABCDEF"),
    ("tx_code", .str "1234")]

/-- /repo/crates/w3c-vc/src/model/snapshots/vercre_w3c_vc__model__types__tests__language_string_serialization.snap. -/
def snapLang : Json :=
  .obj [
    ("name", .obj [("@value", .str "Alice"), ("@language", .str "en")]),
    ("description", .arr [
      .obj [("@value", .str "HTML and CSS: Designing and Creating Websites"), ("@language", .str "en")],
      .obj [("@value", .str "HTML و CSS: تصميم و إنشاء مواقع الويب"), ("@language", .str "ar"), ("@direction", .str "rtl")]]),
    ("other", .str "Just a string")]

/-- /repo/crates/w3c-vc/src/model/snapshots/vercre_w3c_vc__model__types__tests__language_string_serialization_json.snap. -/
def snapLangJson : Json :=
  .obj [
    ("description", .arr [
      .obj [("@language", .str "en"), ("@value", .str "HTML and CSS: Designing and Creating Websites")],
      .obj [("@direction", .str "rtl"), ("@language", .str "ar"), ("@value", .str "HTML و CSS: تصميم و إنشاء مواقع الويب")]]),
    ("name", .obj [("@language", .str "en"), ("@value", .str "Alice")]),
    ("other", .str "Just a string")]

/-! ### Messages, /repo/crates/openid/src/issuer.rs -/

/-- Bytes that are not UTF-8 do not occur. -/
def lossy (_ : List UInt8) : List Char := []

/-- Whether two texts of JSON say the same, in whatever order. -/
def same (a b : Json) : Bool := is a b

-- `credential_offer`, issuer.rs 2195-2208
#guard
  let offer : Issuer.CredentialOffer := { credentialIssuer := "https://example.com", configIds := ["UniversityDegree_JWT"], grants := none }
  ((parseJson (writeCredentialOffer offer).chars).bind readCredentialOffer).elim false fun o => same (writeCredentialOffer o) (writeCredentialOffer offer)

/-- The request of `authorization_configuration_id`, issuer.rs 2211-2239. -/
def configurationRequest : Wire.AuthorizationRequest := .object
  { credentialIssuer := "https://example.com", clientId := "1234", redirectUri := some "http://localhost:3000/callback", state := some "1234", codeChallenge := "1234",
    authorizationDetails := some [{ credential := .configurationId "EmployeeID_JWT" (some (.w3c { credentialSubject := some [("given_name", .entry {}), ("family_name", .entry {}), ("email", .entry {})] })) }], subjectId := "1234", walletIssuer := some "1234" }

/-- The request of `authorization_format`, issuer.rs 2260-2285. -/
def formatRequest : Wire.AuthorizationRequest := .object
  { credentialIssuer := "https://example.com", clientId := "1234", redirectUri := some "http://localhost:3000/callback", state := some "1234", codeChallenge := "1234",
    authorizationDetails := some [{ credential := .format (.jwtVcJson { type_ := some ["VerifiableCredential", "EmployeeIDCredential"] }) }], subjectId := "1234", walletIssuer := some "1234" }

-- `authorization_configuration_id`, issuer.rs 2210-2256
#guard is snapConfigurationId (.obj (writeRequest configurationRequest))
#guard (Dict.get? (writeRequest configurationRequest) "authorization_details").elim false (is snapDetails)
#guard (fromStr lossy (display configurationRequest)).elim false fun r => same (.obj (writeRequest r)) (.obj (writeRequest configurationRequest))

-- `authorization_format`, issuer.rs 2258-2296
#guard String.ofList (display formatRequest) == snapFormat
#guard ((urlDecode lossy snapFormat.toList).bind readRequest).elim false fun r => same (.obj (writeRequest r)) (.obj (writeRequest formatRequest))

/-- issuer.rs 2300-2308. -/
def jsonIdentifier : Json :=
  .obj [
    ("credential_issuer", .str "https://example.com"),
    ("access_token", .str "1234"),
    ("credential_identifier", .str "EngineeringDegree2023"),
    ("proof", .obj [("proof_type", .str "jwt"), ("jwt", .str "SomeJWT")])]

/-- issuer.rs 2334-2348. -/
def jsonFormat : Json :=
  .obj [
    ("credential_issuer", .str "https://example.com"),
    ("access_token", .str "1234"),
    ("format", .str "jwt_vc_json"),
    ("credential_definition", .obj [("type", .arr [.str "VerifiableCredential", .str "EmployeeIDCredential"])]),
    ("proof", .obj [("proof_type", .str "jwt"), ("jwt", .str "SomeJWT")])]

/-- issuer.rs 2376-2386. -/
def jsonProofs : Json :=
  .obj [
    ("credential_issuer", .str "https://example.com"),
    ("access_token", .str "1234"),
    ("credential_identifier", .str "EngineeringDegree2023"),
    ("proofs", .obj [("jwt", .arr [.str "SomeJWT1", .str "SomeJWT2"])])]

-- `credential_identifier`, `credential_format` and `multiple_proofs`, issuer.rs 2298-2403
#guard (readCredentialRequest jsonIdentifier).elim false fun r => is snapCredentialIdentifier (writeCredentialRequest r)
#guard same jsonIdentifier (writeCredentialRequest
  { credentialIssuer := "https://example.com", accessToken := "1234", credential := .identifier "EngineeringDegree2023", proof := some (.single "SomeJWT") })
#guard (readCredentialRequest jsonFormat).elim false fun r => is snapCredentialFormat (writeCredentialRequest r)
#guard same jsonFormat (writeCredentialRequest
  { credentialIssuer := "https://example.com", accessToken := "1234", proof := some (.single "SomeJWT")
    credential := .format (.jwtVcJson { type_ := some ["VerifiableCredential", "EmployeeIDCredential"] }) })
#guard (readCredentialRequest jsonProofs).elim false fun r => is snapMultipleProofs (writeCredentialRequest r)
#guard same jsonProofs (writeCredentialRequest
  { credentialIssuer := "https://example.com", accessToken := "1234", credential := .identifier "EngineeringDegree2023", proof := some (.multiple ["SomeJWT1", "SomeJWT2"]) })

/-! ### Errors, /repo/crates/openid/src/error.rs -/

-- `err_json`, `err_querystring`, `err_serialize` and `proof_err`, error.rs 223-262
#guard same (.obj [("error", .str "invalid_request"), ("error_description", .str "bad request")]) (OidErr.plain .invalidRequest "bad request").toJson
#guard String.ofList (Server.errorQuery (.invalidRequest "Invalid request description")) == "error=invalid_request&error_description=Invalid%20request%20description"
#guard (OidErr.plain .invalidRequest "bad request").fields == some { error := "invalid_request", description := "bad request", state := none, cNonce := none, expiresIn := none }
#guard same (.obj [("error", .str "invalid_proof"), ("error_description", .str ""), ("c_nonce", .str "c_nonce"), ("c_nonce_expires_in", .num "10")])
  (OidErr.invalidProof "" "c_nonce" 10).toJson

/-! ### The macros, /repo/crates/macro-tests/tests -/

-- `configuration_id`, authorization.rs 12-34
#guard (Macro.authorizationRequest [("credential_issuer", .rust (.text false "http://vercre.io")), ("response_type", .str "code"),
    ("client_id", .rust (.text false "96bfb9cb-0513-7d64-5532-bed74c48f9ab")), ("redirect_uri", .str "http://localhost:3000/callback"),
    ("state", .str "1234"), ("code_challenge", .rust (.text true "B6qi8EPWVTnONnO8XNSAsN7O2ejthn3pCKwZUO0HzU8")), ("code_challenge_method", .str "S256"),
    ("authorization_details", .arr [.obj [("type", .str "openid_credential"), ("credential_configuration_id", .str "EmployeeID_JWT")]]),
    ("subject_id", .rust (.text false "normal_user")), ("wallet_issuer", .rust (.text false "http://vercre.io"))]).elim false fun r =>
  is macroAuthorizationConfigurationId (.obj (writeObject r))

-- `credential_definition`, authorization.rs 36-66
#guard (Macro.authorizationRequest [("credential_issuer", .rust (.text false "http://vercre.io")), ("response_type", .str "code"),
    ("client_id", .rust (.text false "96bfb9cb-0513-7d64-5532-bed74c48f9ab")), ("redirect_uri", .str "http://localhost:3000/callback"),
    ("state", .str "1234"), ("code_challenge", .rust (.text true "B6qi8EPWVTnONnO8XNSAsN7O2ejthn3pCKwZUO0HzU8")), ("code_challenge_method", .str "S256"),
    ("authorization_details", .arr [.obj [("type", .str "openid_credential"), ("credential_configuration_id", .str "EmployeeID_JWT"), ("credential_definition", .obj [("credentialSubject", .obj [("given_name", .obj []), ("family_name", .obj [])])])]]),
    ("subject_id", .rust (.text false "normal_user")), ("wallet_issuer", .rust (.text false "http://vercre.io"))]).elim false fun r =>
  is macroAuthorizationCredentialDefinition (.obj (writeObject r))

-- `format`, authorization.rs 68-98
#guard (Macro.authorizationRequest [("credential_issuer", .rust (.text false "http://vercre.io")), ("response_type", .str "code"),
    ("client_id", .rust (.text false "96bfb9cb-0513-7d64-5532-bed74c48f9ab")), ("redirect_uri", .str "http://localhost:3000/callback"),
    ("state", .str "1234"), ("code_challenge", .rust (.text true "B6qi8EPWVTnONnO8XNSAsN7O2ejthn3pCKwZUO0HzU8")), ("code_challenge_method", .str "S256"),
    ("authorization_details", .arr [.obj [("type", .str "openid_credential"), ("format", .str "jwt_vc_json"), ("credential_definition", .obj [("type", .arr [.str "VerifiableCredential", .str "EmployeeIDCredential"]), ("credentialSubject", .obj [])])]]),
    ("subject_id", .rust (.text false "normal_user")), ("wallet_issuer", .rust (.text false "http://vercre.io"))]).elim false fun r =>
  is macroAuthorizationFormat (.obj (writeObject r))

-- `scope`, authorization.rs 100-117
#guard (Macro.authorizationRequest [("credential_issuer", .rust (.text false "http://vercre.io")), ("response_type", .str "code"),
    ("client_id", .rust (.text false "96bfb9cb-0513-7d64-5532-bed74c48f9ab")), ("redirect_uri", .str "http://localhost:3000/callback"),
    ("state", .str "1234"), ("code_challenge", .rust (.text true "B6qi8EPWVTnONnO8XNSAsN7O2ejthn3pCKwZUO0HzU8")), ("code_challenge_method", .str "S256"),
    ("scope", .str "EmployeeIDCredential"), ("subject_id", .rust (.text false "normal_user")), ("wallet_issuer", .rust (.text false "http://vercre.io"))]).elim false fun r =>
  is macroAuthorizationScope (.obj (writeObject r))

-- `pre_authorized`, create_offer.rs 9-23
#guard (Macro.createOfferRequest [("credential_issuer", .rust (.text false "http://vercre.io")), ("credential_configuration_ids", .arr [.str "EmployeeID_JWT"]),
    ("subject_id", .rust (.text false "normal_user")), ("grant_types", .arr [.str "urn:ietf:params:oauth:grant-type:pre-authorized_code"]),
    ("tx_code_required", .bool true), ("send_type", .rust (.send .byVal))]).elim false fun r =>
  is macroCreateOfferPreAuthorized (writeCreateOffer r)

-- `default`, create_offer.rs 25-33
#guard (Macro.createOfferRequest [("credential_issuer", .str "http://vercre.io"), ("credential_configuration_ids", .arr [.str "EmployeeID_JWT"])]).elim false fun r =>
  is macroCreateOfferDefault (writeCreateOffer r)

-- `identifier`, credential.rs 8-26
#guard (Macro.credentialRequest [("credential_issuer", .rust (.text false "http://vercre.io")), ("access_token", .rust (.text false "AVCDEF12345")),
    ("credential_identifier", .rust (.text false "PHLEmployeeID")),
    ("proof", .obj [("proof_type", .str "jwt"), ("jwt", .rust (.text false "eyJhbGciOiJFZERTQSIsInR5cCI6Im9wZW5pZDR2Y..."))])]).elim false fun r =>
  is macroCredentialIdentifierJwt (writeCredentialRequest r)

-- `format`, credential.rs 28-50
#guard (Macro.credentialRequest [("credential_issuer", .rust (.text false "http://vercre.io")), ("access_token", .rust (.text false "AVCDEF12345")), ("format", .str "jwt_vc_json"),
    ("credential_definition", .obj [("type", .arr [.str "VerifiableCredential", .str "EmployeeIDCredential"])]),
    ("proof", .obj [("proof_type", .str "jwt"), ("jwt", .rust (.text false "eyJhbGciOiJFZERTQSIsInR5cCI6Im9wZW5pZDR2Y..."))])]).elim false fun r =>
  is macroCredentialFormatJwt (writeCredentialRequest r)

-- `pre_authorized`, token.rs 9-22
#guard (Macro.tokenRequest [("credential_issuer", .rust (.text false "http://vercre.io")), ("client_id", .rust (.text false "96bfb9cb-0513-7d64-5532-bed74c48f9ab")),
    ("grant_type", .str "urn:ietf:params:oauth:grant-type:pre-authorized_code"), ("pre-authorized_code", .rust (.text false "ABCDEF")),
    ("tx_code", .str "1234")]).elim false fun r =>
  is macroTokenPreAuthorized (writeTokenRequest r)

-- `authorized`, token.rs 24-38
#guard (Macro.tokenRequest [("credential_issuer", .rust (.text false "http://vercre.io")), ("client_id", .rust (.text false "96bfb9cb-0513-7d64-5532-bed74c48f9ab")),
    ("grant_type", .str "authorization_code"), ("code", .rust (.text false "ABCDEF")), ("code_verifier", .rust (.text false "ABCDEF12345"))]).elim false fun r =>
  is macroTokenAuthorized (writeTokenRequest r)

-- `authorization_details`, token.rs 40-66
#guard (Macro.tokenRequest [("credential_issuer", .rust (.text false "http://vercre.io")), ("client_id", .rust (.text false "96bfb9cb-0513-7d64-5532-bed74c48f9ab")),
    ("grant_type", .str "authorization_code"), ("code", .rust (.text false "ABCDEF")), ("code_verifier", .rust (.text false "ABCDEF12345")),
    ("redirect_uri", .str "https://example.com"),
    ("authorization_details", .arr [.obj [("type", .str "openid_credential"), ("format", .str "jwt_vc_json"), ("credential_definition", .obj [("type", .arr [.str "VerifiableCredential", .str "EmployeeIDCredential"])])]])]).elim false fun r =>
  is macroTokenAuthorizationDetails (writeTokenRequest r)

/-! ### Queries, /repo/crates/core/src/urlencode.rs -/

/-- The text of `encode_struct` and `decode_struct`, urlencode.rs 100 and 136. -/
def nestedQuery : String := "field_1=value1&field_2=value2&nested=%7B%22field_3%22%3A%22value3%22%2C%22field_4%22%3A%22value4%22%7D"

-- `encode_struct`, urlencode.rs 86-102
#guard String.ofList (urlEncode (.strct [("field_1", .str "value1"), ("field_2", .str "value2"),
  ("nested", .strct [("field_3", .str "value3"), ("field_4", .str "value4")])])) == nestedQuery
-- `encode_enum`, urlencode.rs 104-130
#guard String.ofList (urlEncode (.str "Unit")) == "Unit"
#guard String.ofList (urlEncode (.newtypeVariant "Newtype" (.int 1))) == "Newtype=1"
#guard String.ofList (urlEncode (.tupleVariant "Tuple" [.int 1, .int 2])) == "Tuple=%5B1%2C2%5D"
#guard String.ofList (urlEncode (.structVariant "Struct" [("a", .int 1)])) == "Struct=%7Ba%3A1%7D"
-- `decode_struct`, urlencode.rs 132-148
#guard (urlDecode lossy nestedQuery.toList).elim false (same (.obj [("field_1", .str "value1"), ("field_2", .str "value2"),
  ("nested", .obj [("field_3", .str "value3"), ("field_4", .str "value4")])]))

/-! ### Matching, /repo/crates/dif-exch/src/matcher.rs -/

/-- matcher.rs 208-232. -/
def matched : Json :=
  .obj [
    ("@context", .arr [.str "https://www.w3.org/2018/credentials/v1", .str "https://www.w3.org/2018/credentials/examples/v1"]),
    ("type", .arr [.str "VerifiableCredential", .str "EmployeeIDCredential"]),
    ("id", .str "https://example.com/credentials/3732"),
    ("issuer", .str "https://example.com/issuers/14"),
    ("validFrom", .str "2023-11-20T23:21:55Z"),
    ("validUntil", .str "2023-12-20T23:21:55Z"),
    ("credentialSubject", .obj [("employeeId", .str "1234567890"), ("id", .str "did:example:ebfeb1f712ebc6f1c276e12ec21")])]

/-- A JSON path of one member, the pattern of the test, and texts that are dates and times; the crates `serde_json_path`, `regex` and `chrono`, matcher.rs 57-148. -/
def ext : Dif.Ext where
  query p j := match j with | .obj m => some (m.filterMap fun e => if "$." ++ e.1 = p then some e.2 else none) | _ => some []
  regex p s := if p = "EmployeeID[a-zA-Z]+" then some ((s.splitOn "EmployeeIDC").length > 1) else none
  isDate _ := false
  isDateTime s := s == "2023-11-20T23:21:55Z"

/-- The constraints of a test, read and tried. matcher.rs 160-205. -/
def satisfies (path name value : String) : Bool :=
  match readConstraints (.obj [("fields", .arr [.obj [("path", .arr [.str path]), ("filter", .obj [("type", .str "string"), (name, .str value)])]])]) with
  | some c => match c.satisfied ext (some matched) with | .ok b => b | .error _ => false
  | none => false

-- `test_const`, `test_pattern` and `test_format`, matcher.rs 160-206; and another type, which is not there
#guard satisfies "$.type" "const" "EmployeeIDCredential"
#guard satisfies "$.type" "pattern" "EmployeeID[a-zA-Z]+"
#guard satisfies "$.validFrom" "format" "date-time"
#guard !satisfies "$.type" "const" "DeveloperCredential"

/-! ### Credentials, /repo/crates/w3c-vc/src/model -/

/-- `sample_vc`, vc.rs 706-731. -/
def sampleFull : Wire.Vc := vcOf sampleVc

/-- A member of a credential as it is written. -/
def memberOf (v : Wire.Vc) (k : String) : Json := (Dict.get? (membersOf (writeVc testTime v)) k).getD .null

-- `builder`, vc.rs 597-641
#guard same (memberOf sampleFull "@context") (.arr [.str "https://www.w3.org/2018/credentials/v1", .str "https://www.w3.org/2018/credentials/examples/v1"])
#guard same (memberOf sampleFull "id") (.str "https://example.com/credentials/3732")
#guard same (memberOf sampleFull "type") (.arr [.str "VerifiableCredential", .str "EmployeeIDCredential"])
#guard same (memberOf sampleFull "credentialSubject") (.obj [("employeeId", .str "1234567890"), ("id", .str "did:example:ebfeb1f712ebc6f1c276e12ec21")])
#guard same (memberOf sampleFull "issuer") (.str "https://example.com/issuers/14")
#guard same (memberOf sampleFull "validFrom") (.str "2023-11-20T23:21:55Z")
#guard (readVc testTime (writeVc testTime sampleFull)).elim false fun v => same (writeVc testTime v) (writeVc testTime sampleFull)

-- `flexvec`, vc.rs 643-672
#guard same (memberOf { sampleFull with schema := some (.many [{}, {}]) } "credentialSchema") (.arr [.obj [("id", .str ""), ("type", .str "")], .obj [("id", .str ""), ("type", .str "")]])
#guard match readVc testTime (writeVc testTime { sampleFull with schema := some (.many [{}, {}]) }) with
  | some { schema := some (.many [_, _]), proof := none, .. } => true
  | _ => false

-- `strobj`, vc.rs 674-704
#guard same (memberOf { sampleFull with issuer := .object { id := "https://example.com/issuers/14", extra := some [("name", .str "Example University")] } } "issuer")
  (.obj [("id", .str "https://example.com/issuers/14"), ("name", .str "Example University")])
#guard match readVc testTime (writeVc testTime { sampleFull with issuer := .object { id := "https://example.com/issuers/14", extra := some [("name", .str "Example University")] } }) with
  | some { issuer := .object { id := "https://example.com/issuers/14", extra := some [("name", .str "Example University")] }, .. } => true
  | _ => false

/-- `info_sample`, types.rs 141-163. -/
def infoSample : List (String × Json) :=
  [("name", .obj [("@value", .str "Alice"), ("@language", .str "en")]),
   ("description", .arr [.obj [("@value", .str "HTML and CSS: Designing and Creating Websites"), ("@language", .str "en")],
     .obj [("@value", .str "HTML و CSS: تصميم و إنشاء مواقع الويب"), ("@language", .str "ar"), ("@direction", .str "rtl")]]),
   ("other", .str "Just a string")]

/-- The texts of the sample, read. types.rs 168 and 183. -/
def info (k : String) : Option LangString := (Dict.get? infoSample k).bind readLang

-- `language_string_serialization`, types.rs 165-176
#guard (infoSample.mapM fun p => (readLang p.2).map fun l => (p.1, writeLang l)).elim false fun m => is snapLang (.obj m) && is snapLangJson (.obj m)
-- `language_string_value`, types.rs 178-189
#guard (info "name").bind (·.value "en") == some "Alice"
#guard (info "other").bind (·.value "en") == some "Just a string"
#guard (info "description").isSome && ((info "description").bind (·.value "es")).isNone

/-- `base_vp`, vp.rs 298-319. -/
def baseVp : Except String Verif.Vp :=
  match ((((Verif.Vc.builder.addContext (.string "https://www.w3.org/2018/credentials/examples/v1")).setId "https://example.com/credentials/3732").addType "EmployeeIDCredential").setIssuer
      "https://example.com/issuers/14").addSubject { id := some "did:example:ebfeb1f712ebc6f1c276e12ec21", claims := [("employeeID", .str "1234567890")] } |>.build with
  | .ok vc => ((((Verif.Vp.builder "1").addContext (.string "https://www.w3.org/2018/credentials/examples/v1")).addType "EmployeeIDCredential").addCredential (.object vc)).build
  | .error e => .error e

-- `test_vp_build`, vp.rs 252-296
#guard match baseVp with
  | .ok vp =>
    let j := writeVp testTime (vpOf vp)
    same ((Dict.get? (membersOf j) "@context").getD .null) (.arr [.str "https://www.w3.org/2018/credentials/v1", .str "https://www.w3.org/2018/credentials/examples/v1"]) &&
    same ((Dict.get? (membersOf j) "type").getD .null) (.arr [.str "VerifiablePresentation", .str "EmployeeIDCredential"]) &&
    (match Dict.get? (membersOf j) "verifiableCredential" with
      | some (.arr [.obj c]) =>
        same ((Dict.get? c "credentialSubject").getD .null) (.obj [("employeeID", .str "1234567890"), ("id", .str "did:example:ebfeb1f712ebc6f1c276e12ec21")]) &&
        same ((Dict.get? c "issuer").getD .null) (.str "https://example.com/issuers/14")
      | _ => false) &&
    (readVp testTime j).elim false fun v => same (writeVp testTime v) j
  | .error _ => false

end Verif.Conform
