import Verif.Core.Data
/-!
# The data of the tests of the code: what the test providers hold, and what insta recorded

Generated from the JSON files of /repo/crates/test-utils/src/store and the `.snap` files of /repo, member for member. A text such as
`[code]` in a snapshot stands for a value the test leaves out of the comparison.
-/
namespace Verif.Conform

/-- /repo/crates/test-utils/src/store/issuer.json. -/
def issuerJson : Json :=
  .obj [
    ("credential_issuer", .str "http://vercre.io"),
    ("credential_endpoint", .str "http://vercre.io/credential"),
    ("deferred_credential_endpoint", .str "http://vercre.io/deferred"),
    ("display", .obj [("name", .str "Vercre"), ("locale", .str "en-NZ")]),
    ("credential_configurations_supported", .obj [
      ("EmployeeID_JWT", .obj [
        ("format", .str "jwt_vc_json"),
        ("scope", .str "EmployeeIDCredential"),
        ("cryptographic_binding_methods_supported", .arr [.str "did:key", .str "did:web"]),
        ("credential_signing_alg_values_supported", .arr [.str "ES256K", .str "EdDSA"]),
        ("proof_types_supported", .obj [("jwt", .obj [("proof_signing_alg_values_supported", .arr [.str "ES256K", .str "EdDSA"])])]),
        ("display", .arr [
          .obj [
            ("name", .str "Employee ID"),
            ("description", .str "Vercre employee ID credential"),
            ("locale", .str "en-NZ"),
            ("logo", .obj [("uri", .str "https://vercre.github.io/assets/employee.png"), ("alt_text", .str "Vercre Logo")]),
            ("text_color", .str "#ffffff"),
            ("background_color", .str "#323ed2"),
            ("background_image", .obj [
              ("uri", .str "https://vercre.github.io/assets/vercre-background.png"),
              ("alt_text", .str "Vercre Background")])]]),
        ("credential_definition", .obj [
          ("type", .arr [.str "VerifiableCredential", .str "EmployeeIDCredential"]),
          ("credentialSubject", .obj [
            ("email", .obj [
              ("mandatory", .bool true),
              ("value_type", .str "string"),
              ("display", .arr [.obj [("name", .str "Email"), ("locale", .str "en-NZ")]])]),
            ("family_name", .obj [
              ("mandatory", .bool true),
              ("value_type", .str "string"),
              ("display", .arr [.obj [("name", .str "Family name"), ("locale", .str "en-NZ")]])]),
            ("given_name", .obj [
              ("mandatory", .bool true),
              ("value_type", .str "string"),
              ("display", .arr [.obj [("name", .str "Given name"), ("locale", .str "en-NZ")]])]),
            ("address", .obj [
              ("street_address", .obj [
                ("value_type", .str "string"),
                ("display", .arr [.obj [("name", .str "Street Address"), ("locale", .str "en-NZ")]])]),
              ("locality", .obj [("value_type", .str "string"), ("display", .arr [.obj [("name", .str "Locality"), ("locale", .str "en-NZ")]])]),
              ("region", .obj [("value_type", .str "string"), ("display", .arr [.obj [("name", .str "Region"), ("locale", .str "en-NZ")]])]),
              ("country", .obj [("value_type", .str "string"), ("display", .arr [.obj [("name", .str "Country"), ("locale", .str "en-NZ")]])])])])])]),
      ("Developer_JWT", .obj [
        ("format", .str "jwt_vc_json"),
        ("scope", .str "DeveloperCredential"),
        ("cryptographic_binding_methods_supported", .arr [.str "did:key", .str "did:web"]),
        ("credential_signing_alg_values_supported", .arr [.str "ES256K", .str "EdDSA"]),
        ("proof_types_supported", .obj [("jwt", .obj [("proof_signing_alg_values_supported", .arr [.str "ES256K", .str "EdDSA"])])]),
        ("display", .arr [
          .obj [
            ("name", .str "Developer"),
            ("description", .str "Vercre certified developer credential"),
            ("locale", .str "en-NZ"),
            ("logo", .obj [("uri", .str "https://vercre.github.io/assets/developer.png"), ("alt_text", .str "Vercre Logo")]),
            ("text_color", .str "#ffffff"),
            ("background_color", .str "#010100"),
            ("background_image", .obj [
              ("uri", .str "https://vercre.github.io/assets/vercre-background.png"),
              ("alt_text", .str "Vercre Background")])]]),
        ("credential_definition", .obj [
          ("type", .arr [.str "VerifiableCredential", .str "DeveloperCredential"]),
          ("credentialSubject", .obj [
            ("proficiency", .obj [
              ("mandatory", .bool true),
              ("value_type", .str "number"),
              ("display", .arr [.obj [("name", .str "Proficiency"), ("locale", .str "en-NZ")]])]),
            ("family_name", .obj [("value_type", .str "string"), ("display", .arr [.obj [("name", .str "Family name"), ("locale", .str "en-NZ")]])]),
            ("given_name", .obj [("value_type", .str "string"), ("display", .arr [.obj [("name", .str "Given name"), ("locale", .str "en-NZ")]])])])])]),
      ("org.iso.18013.5.1.mDL", .obj [
        ("format", .str "mso_mdoc"),
        ("doctype", .str "org.iso.18013.5.1.mDL"),
        ("scope", .str "DriverLicence"),
        ("cryptographic_binding_methods_supported", .arr [.str "did:key", .str "did:web"]),
        ("credential_signing_alg_values_supported", .arr [.str "ES256K", .str "EdDSA"]),
        ("proof_types_supported", .obj [("jwt", .obj [("proof_signing_alg_values_supported", .arr [.str "ES256K", .str "EdDSA"])])]),
        ("display", .arr [
          .obj [
            ("name", .str "Employee ID"),
            ("description", .str "Vercre employee ID credential"),
            ("locale", .str "en-NZ"),
            ("logo", .obj [("uri", .str "https://vercre.github.io/assets/employee.png"), ("alt_text", .str "Vercre Logo")]),
            ("text_color", .str "#ffffff"),
            ("background_color", .str "#323ed2"),
            ("background_image", .obj [
              ("uri", .str "https://vercre.github.io/assets/vercre-background.png"),
              ("alt_text", .str "Vercre Background")])]]),
        ("claims", .obj [
          ("org.iso.18013.5.1", .obj [
            ("email", .obj [
              ("mandatory", .bool true),
              ("value_type", .str "string"),
              ("display", .arr [.obj [("name", .str "Email"), ("locale", .str "en-NZ")]])]),
            ("family_name", .obj [
              ("mandatory", .bool true),
              ("value_type", .str "string"),
              ("display", .arr [.obj [("name", .str "Family name"), ("locale", .str "en-NZ")]])]),
            ("given_name", .obj [
              ("mandatory", .bool true),
              ("value_type", .str "string"),
              ("display", .arr [.obj [("name", .str "Given name"), ("locale", .str "en-NZ")]])])]),
          ("org.iso.18013.5.1.aamva", .obj [("organ_donor", .obj [])])])])])]

/-- /repo/crates/test-utils/src/store/server.json. -/
def serverJson : Json :=
  .obj [
    ("issuer", .str "http://vercre.io"),
    ("authorization_endpoint", .str "/auth"),
    ("token_endpoint", .str "/token"),
    ("scopes_supported", .arr [.str "openid", .str "credential"]),
    ("response_types_supported", .arr [.str "code"]),
    ("response_modes_supported", .arr [.str "query"]),
    ("grant_types_supported", .arr [.str "authorization_code", .str "urn:ietf:params:oauth:grant-type:pre-authorized_code"]),
    ("code_challenge_methods_supported", .arr [.str "S256"]),
    ("pre-authorized_grant_anonymous_access_supported", .bool true)]

/-- /repo/crates/test-utils/src/store/client.json. -/
def clientJson : Json :=
  .obj [
    ("client_id", .str "96bfb9cb-0513-7d64-5532-bed74c48f9ab"),
    ("client_name", .str "Wallet"),
    ("redirect_uris", .arr [.str "http://localhost:3000/callback"]),
    ("grant_types", .arr [.str "authorization_code", .str "urn:ietf:params:oauth:grant-type:pre-authorized_code"]),
    ("response_types", .arr [.str "code"]),
    ("scope", .str "openid credential"),
    ("credential_offer_endpoint", .str "openid-credential-offer://")]

/-- /repo/crates/test-utils/src/store/datasets.json. -/
def datasetsJson : Json :=
  .obj [
    ("normal_user", .obj [
      ("PHLEmployeeID", .obj [
        ("configuration_id", .str "EmployeeID_JWT"),
        ("claims", .obj [
          ("given_name", .str "Normal"),
          ("family_name", .str "Person"),
          ("email", .str "normal.user@example.com"),
          ("address", .obj [("street_address", .str "123 Fake St"), ("locality", .str "Wellington")])]),
        ("pending", .bool false)]),
      ("PHLDeveloper", .obj [
        ("configuration_id", .str "Developer_JWT"),
        ("claims", .obj [("given_name", .str "Normal"), ("family_name", .str "Person"), ("proficiency", .str "3")]),
        ("pending", .bool false)]),
      ("DriverLicence", .obj [
        ("configuration_id", .str "org.iso.18013.5.1.mDL"),
        ("claims", .obj [("given_name", .str "Normal"), ("family_name", .str "Person"), ("email", .str "normal.user@example.com")]),
        ("pending", .bool false)])]),
    ("pending_user", .obj [
      ("PHLEmployeeID", .obj [
        ("configuration_id", .str "EmployeeID_JWT"),
        ("claims", .obj [
          ("given_name", .str "Pending"),
          ("family_name", .str "Person"),
          ("email", .str "pending.user@example.com"),
          ("address", .obj [("street_address", .str "123 Fake St"), ("locality", .str "Wellington")])]),
        ("pending", .bool true)])])]

/-- /repo/crates/test-utils/src/store/verifier.json. -/
def verifierJson : Json :=
  .obj [
    ("client_id", .str "http://localhost:8080"),
    ("client_name", .str "Verifier"),
    ("redirect_uris", .arr [.str "http://localhost:3000/callback"]),
    ("response_types", .arr [.str "vp_token", .str "id_token vp_token"]),
    ("vp_formats", .obj [("jwt_vp_json", .obj [("alg", .arr [.str "ES256K"]), ("proof_type", .arr [.str "JsonWebSignature2020"])])])]

/-- /repo/vercre-issuer/src/snapshots/authorize:claims:state.snap. -/
def authorizeClaimsState : Json :=
  .obj [
    ("subject_id", .str "normal_user"),
    ("stage", .obj [
      ("authorized", .obj [
        ("client_id", .str "96bfb9cb-0513-7d64-5532-bed74c48f9ab"),
        ("redirect_uri", .str "http://localhost:3000/callback"),
        ("code_challenge", .str "B6qi8EPWVTnONnO8XNSAsN7O2ejthn3pCKwZUO0HzU8"),
        ("code_challenge_method", .str "S256"),
        ("items", .arr [
          .obj [
            ("AuthorizationDetail", .obj [
              ("type", .str "openid_credential"),
              ("credential_configuration_id", .str "EmployeeID_JWT"),
              ("credential_definition", .obj [
                ("credentialSubject", .obj [
                  ("address", .obj [("locality", .obj []), ("street_address", .obj [])]),
                  ("email", .obj []),
                  ("family_name", .obj []),
                  ("given_name", .obj [])])])]),
            ("credential_configuration_id", .str "EmployeeID_JWT"),
            ("credential_identifiers", .arr [.str "PHLEmployeeID"])]])])]),
    ("expires_at", .str "[expires_at]")]

/-- /repo/vercre-issuer/src/snapshots/authorize:claims_err:state.snap. -/
def authorizeClaimsErrState : Json :=
  .obj [
    ("subject_id", .str "normal_user"),
    ("stage", .obj [
      ("authorized", .obj [
        ("client_id", .str "96bfb9cb-0513-7d64-5532-bed74c48f9ab"),
        ("redirect_uri", .str "http://localhost:3000/callback"),
        ("code_challenge", .str "B6qi8EPWVTnONnO8XNSAsN7O2ejthn3pCKwZUO0HzU8"),
        ("code_challenge_method", .str "S256"),
        ("items", .arr [
          .obj [
            ("AuthorizationDetail", .obj [
              ("type", .str "openid_credential"),
              ("format", .str "jwt_vc_json"),
              ("credential_definition", .obj [
                ("type", .arr [.str "VerifiableCredential", .str "EmployeeIDCredential"]),
                ("credentialSubject", .obj [("employee_id", .obj []), ("family_name", .obj []), ("given_name", .obj [])])])]),
            ("credential_configuration_id", .str "EmployeeID_JWT"),
            ("credential_identifiers", .arr [.str "PHLEmployeeID"])]])])]),
    ("expires_at", .str "[expires_at]")]

/-- /repo/vercre-issuer/src/snapshots/authorize:configuration_id:response.snap. -/
def authorizeConfigurationIdResponse : Json :=
  .obj [("code", .str "[code]"), ("state", .str "1234"), ("redirect_uri", .str "http://localhost:3000/callback")]

/-- /repo/vercre-issuer/src/snapshots/authorize:configuration_id:state.snap. -/
def authorizeConfigurationIdState : Json :=
  .obj [
    ("subject_id", .str "normal_user"),
    ("stage", .obj [
      ("authorized", .obj [
        ("client_id", .str "96bfb9cb-0513-7d64-5532-bed74c48f9ab"),
        ("redirect_uri", .str "http://localhost:3000/callback"),
        ("code_challenge", .str "B6qi8EPWVTnONnO8XNSAsN7O2ejthn3pCKwZUO0HzU8"),
        ("code_challenge_method", .str "S256"),
        ("items", .arr [
          .obj [
            ("AuthorizationDetail", .obj [("type", .str "openid_credential"), ("credential_configuration_id", .str "EmployeeID_JWT")]),
            ("credential_configuration_id", .str "EmployeeID_JWT"),
            ("credential_identifiers", .arr [.str "PHLEmployeeID"])]])])]),
    ("expires_at", .str "[expires_at]")]

/-- /repo/vercre-issuer/src/snapshots/authorize:format:response.snap. -/
def authorizeFormatResponse : Json :=
  .obj [("code", .str "[code]"), ("state", .str "1234"), ("redirect_uri", .str "http://localhost:3000/callback")]

/-- /repo/vercre-issuer/src/snapshots/authorize:format:state.snap. -/
def authorizeFormatState : Json :=
  .obj [
    ("subject_id", .str "normal_user"),
    ("stage", .obj [
      ("authorized", .obj [
        ("client_id", .str "96bfb9cb-0513-7d64-5532-bed74c48f9ab"),
        ("redirect_uri", .str "http://localhost:3000/callback"),
        ("code_challenge", .str "B6qi8EPWVTnONnO8XNSAsN7O2ejthn3pCKwZUO0HzU8"),
        ("code_challenge_method", .str "S256"),
        ("items", .arr [
          .obj [
            ("AuthorizationDetail", .obj [
              ("type", .str "openid_credential"),
              ("format", .str "jwt_vc_json"),
              ("credential_definition", .obj [("type", .arr [.str "VerifiableCredential", .str "EmployeeIDCredential"])])]),
            ("credential_configuration_id", .str "EmployeeID_JWT"),
            ("credential_identifiers", .arr [.str "PHLEmployeeID"])]])])]),
    ("expires_at", .str "[expires_at]")]

/-- /repo/vercre-issuer/src/snapshots/authorize:scope:response.snap. -/
def authorizeScopeResponse : Json :=
  .obj [("code", .str "[code]"), ("state", .str "1234"), ("redirect_uri", .str "http://localhost:3000/callback")]

/-- /repo/vercre-issuer/src/snapshots/authorize:scope:state.snap. -/
def authorizeScopeState : Json :=
  .obj [
    ("subject_id", .str "normal_user"),
    ("stage", .obj [
      ("authorized", .obj [
        ("client_id", .str "96bfb9cb-0513-7d64-5532-bed74c48f9ab"),
        ("redirect_uri", .str "http://localhost:3000/callback"),
        ("code_challenge", .str "B6qi8EPWVTnONnO8XNSAsN7O2ejthn3pCKwZUO0HzU8"),
        ("code_challenge_method", .str "S256"),
        ("items", .arr [
          .obj [
            ("Scope", .str "EmployeeIDCredential"),
            ("credential_configuration_id", .str "EmployeeID_JWT"),
            ("credential_identifiers", .arr [.str "PHLEmployeeID"])]])])]),
    ("expires_at", .str "[expires_at]")]

/-- /repo/vercre-issuer/src/snapshots/create_offer:pre-authorized:response.snap. -/
def createOfferPreAuthorizedResponse : Json :=
  .obj [
    ("credential_offer", .obj [
      ("credential_issuer", .str "http://vercre.io"),
      ("credential_configuration_ids", .arr [.str "EmployeeID_JWT"]),
      ("grants", .obj [
        ("urn:ietf:params:oauth:grant-type:pre-authorized_code", .obj [
          ("pre-authorized_code", .str "[pre-authorized_code]"),
          ("tx_code", .obj [("input_mode", .str "numeric"), ("length", .num "6"), ("description", .str "Please provide the one-time code received")])])])]),
    ("tx_code", .str "[tx_code]")]

/-- /repo/vercre-issuer/src/snapshots/create_offer:pre-authorized:state.snap. -/
def createOfferPreAuthorizedState : Json :=
  .obj [
    ("subject_id", .str "normal_user"),
    ("stage", .obj [
      ("offered", .obj [
        ("items", .arr [
          .obj [
            ("AuthorizationDetail", .obj [("type", .str "openid_credential"), ("credential_configuration_id", .str "EmployeeID_JWT")]),
            ("credential_configuration_id", .str "EmployeeID_JWT"),
            ("credential_identifiers", .arr [.str "PHLEmployeeID"])]]),
        ("tx_code", .str "[tx_code]")])]),
    ("expires_at", .str "[expires_at]")]

/-- /repo/vercre-issuer/src/snapshots/credential:identifier:response.snap. -/
def credentialIdentifierResponse : Json :=
  .obj [
    ("credential", .str "[credential]"),
    ("c_nonce", .str "[c_nonce]"),
    ("c_nonce_expires_in", .num "599"),
    ("notification_id", .str "[notification_id]")]

/-- /repo/vercre-issuer/src/snapshots/credential:identifier:state.snap. -/
def credentialIdentifierState : Json :=
  .obj [
    ("subject_id", .str "normal_user"),
    ("stage", .obj [
      ("validated", .obj [
        ("access_token", .str "ABCDEF"),
        ("c_nonce", .str "[c_nonce]"),
        ("c_nonce_expires_at", .str "[c_nonce_expires_at]"),
        ("credentials", .obj [
          ("PHLEmployeeID", .obj [("credential_identifier", .str "PHLEmployeeID"), ("credential_configuration_id", .str "EmployeeID_JWT")])])])]),
    ("expires_at", .str "[expires_at]")]

/-- /repo/vercre-issuer/src/snapshots/credential:identifier:vc.snap. -/
def credentialIdentifierVc : Json :=
  .obj [
    ("@context", .arr [.str "https://www.w3.org/2018/credentials/v1", .str "http://vercre.io/credentials/v1"]),
    ("id", .str "http://vercre.io/credentials/EmployeeIDCredential"),
    ("type", .arr [.str "VerifiableCredential", .str "EmployeeIDCredential"]),
    ("name", .obj [("@value", .str "Employee ID"), ("@language", .str "en-NZ")]),
    ("description", .obj [("@value", .str "Vercre employee ID credential"), ("@language", .str "en-NZ")]),
    ("issuer", .str "http://vercre.io"),
    ("credentialSubject", .obj [
      ("address", .obj [("locality", .str "Wellington"), ("street_address", .str "123 Fake St")]),
      ("email", .str "normal.user@example.com"),
      ("family_name", .str "Person"),
      ("given_name", .str "Normal"),
      ("id", .str "did:key:z6Mkj8Jr1rg3YjVWWhg7ahEYJibqhjBgZt1pDCbT4Lv7D4HX")]),
    ("validFrom", .str "[validFrom]")]

/-- /repo/vercre-issuer/src/snapshots/credential:iso_mdl:response.snap. -/
def credentialIsoMdlResponse : Json :=
  .obj [
    ("credential", .str "[credential]"),
    ("c_nonce", .str "[c_nonce]"),
    ("c_nonce_expires_in", .num "599"),
    ("notification_id", .str "[notification_id]")]

/-- /repo/vercre-issuer/src/snapshots/credential:iso_mdl:state.snap. -/
def credentialIsoMdlState : Json :=
  .obj [
    ("subject_id", .str "normal_user"),
    ("stage", .obj [
      ("validated", .obj [
        ("access_token", .str "ABCDEF"),
        ("c_nonce", .str "[c_nonce]"),
        ("c_nonce_expires_at", .str "[c_nonce_expires_at]"),
        ("credentials", .obj [
          ("DriverLicence", .obj [("credential_identifier", .str "DriverLicence"), ("credential_configuration_id", .str "org.iso.18013.5.1.mDL")])])])]),
    ("expires_at", .str "[expires_at]")]

/-- /repo/vercre-issuer/src/snapshots/credential:iso_mdl:vc.snap. -/
def credentialIsoMdlVc : Json :=
  .obj [
    ("@context", .arr [.str "https://www.w3.org/2018/credentials/v1", .str "http://vercre.io/credentials/v1"]),
    ("id", .str "http://vercre.io/credentials/org.iso.18013.5.1.mDL"),
    ("type", .arr [.str "VerifiableCredential", .str "org.iso.18013.5.1.mDL"]),
    ("issuer", .str "http://vercre.io"),
    ("validFrom", .str "[validFrom]"),
    ("credentialSubject", .obj [
      ("email", .str "normal.user@example.com"),
      ("family_name", .str "Person"),
      ("given_name", .str "Normal"),
      ("id", .str "did:key:z6Mkj8Jr1rg3YjVWWhg7ahEYJibqhjBgZt1pDCbT4Lv7D4HX")])]

/-- /repo/vercre-issuer/src/snapshots/credential_offer:request_jwt:response.snap. -/
def credentialOfferRequestJwtResponse : Json :=
  .obj [
    ("credential_offer", .obj [
      ("credential_issuer", .str "http://vercre.io"),
      ("credential_configuration_ids", .arr [.str "EmployeeID_JWT"]),
      ("grants", .obj [
        ("urn:ietf:params:oauth:grant-type:pre-authorized_code", .obj [
          ("pre-authorized_code", .str "[pre-authorized_code]"),
          ("tx_code", .obj [("input_mode", .str "numeric"), ("length", .num "6"), ("description", .str "Please provide the one-time code received")])])])])]

/-- /repo/vercre-issuer/src/snapshots/deferred:deferred_ok:response.snap. -/
def deferredDeferredOkResponse : Json :=
  .obj [
    ("credential", .str "[credential]"),
    ("c_nonce", .str "[c_nonce]"),
    ("c_nonce_expires_in", .num "599"),
    ("notification_id", .str "[notification_id]")]

/-- /repo/vercre-issuer/src/snapshots/deferred:deferred_ok:state.snap. -/
def deferredDeferredOkState : Json :=
  .obj [
    ("subject_id", .str "normal_user"),
    ("stage", .obj [
      ("validated", .obj [
        ("access_token", .str "[access_token]"),
        ("c_nonce", .str "[c_nonce]"),
        ("c_nonce_expires_at", .str "[c_nonce_expires_at]"),
        ("credentials", .obj [
          ("PHLEmployeeID", .obj [("credential_identifier", .str "PHLEmployeeID"), ("credential_configuration_id", .str "EmployeeID_JWT")])])])]),
    ("expires_at", .str "[expires_at]")]

/-- /repo/vercre-issuer/src/snapshots/deferred:deferred_ok:vc.snap. -/
def deferredDeferredOkVc : Json :=
  .obj [
    ("@context", .arr [.str "https://www.w3.org/2018/credentials/v1", .str "http://vercre.io/credentials/v1"]),
    ("id", .str "http://vercre.io/credentials/EmployeeIDCredential"),
    ("type", .arr [.str "VerifiableCredential", .str "EmployeeIDCredential"]),
    ("name", .obj [("@value", .str "Employee ID"), ("@language", .str "en-NZ")]),
    ("description", .obj [("@value", .str "Vercre employee ID credential"), ("@language", .str "en-NZ")]),
    ("issuer", .str "http://vercre.io"),
    ("credentialSubject", .obj [
      ("address", .obj [("locality", .str "Wellington"), ("street_address", .str "123 Fake St")]),
      ("email", .str "normal.user@example.com"),
      ("family_name", .str "Person"),
      ("given_name", .str "Normal"),
      ("id", .str "did:key:z6Mkj8Jr1rg3YjVWWhg7ahEYJibqhjBgZt1pDCbT4Lv7D4HX")]),
    ("validFrom", .str "[validFrom]")]

/-- /repo/vercre-issuer/src/snapshots/metadata:metadata_ok:response.snap. -/
def metadataMetadataOkResponse : Json :=
  .obj [
    ("credential_issuer", .str "http://vercre.io"),
    ("credential_endpoint", .str "http://vercre.io/credential"),
    ("deferred_credential_endpoint", .str "http://vercre.io/deferred"),
    ("display", .obj [("name", .str "Vercre"), ("locale", .str "en-NZ")]),
    ("credential_configurations_supported", .obj [
      ("Developer_JWT", .obj [
        ("format", .str "jwt_vc_json"),
        ("credential_definition", .obj [
          ("type", .arr [.str "VerifiableCredential", .str "DeveloperCredential"]),
          ("credentialSubject", .obj [
            ("family_name", .obj [("value_type", .str "string"), ("display", .arr [.obj [("name", .str "Family name"), ("locale", .str "en-NZ")]])]),
            ("given_name", .obj [("value_type", .str "string"), ("display", .arr [.obj [("name", .str "Given name"), ("locale", .str "en-NZ")]])]),
            ("proficiency", .obj [
              ("mandatory", .bool true),
              ("value_type", .str "number"),
              ("display", .arr [.obj [("name", .str "Proficiency"), ("locale", .str "en-NZ")]])])])]),
        ("scope", .str "DeveloperCredential"),
        ("cryptographic_binding_methods_supported", .arr [.str "did:key", .str "did:web"]),
        ("credential_signing_alg_values_supported", .arr [.str "ES256K", .str "EdDSA"]),
        ("proof_types_supported", .obj [("jwt", .obj [("proof_signing_alg_values_supported", .arr [.str "ES256K", .str "EdDSA"])])]),
        ("display", .arr [
          .obj [
            ("name", .str "Developer"),
            ("locale", .str "en-NZ"),
            ("logo", .obj [("uri", .str "https://vercre.github.io/assets/developer.png"), ("alt_text", .str "Vercre Logo")]),
            ("description", .str "Vercre certified developer credential"),
            ("background_color", .str "#010100"),
            ("background_image", .obj [
              ("uri", .str "https://vercre.github.io/assets/vercre-background.png"),
              ("alt_text", .str "Vercre Background")]),
            ("text_color", .str "#ffffff")]])]),
      ("EmployeeID_JWT", .obj [
        ("format", .str "jwt_vc_json"),
        ("credential_definition", .obj [
          ("type", .arr [.str "VerifiableCredential", .str "EmployeeIDCredential"]),
          ("credentialSubject", .obj [
            ("address", .obj [
              ("country", .obj [("value_type", .str "string"), ("display", .arr [.obj [("name", .str "Country"), ("locale", .str "en-NZ")]])]),
              ("locality", .obj [("value_type", .str "string"), ("display", .arr [.obj [("name", .str "Locality"), ("locale", .str "en-NZ")]])]),
              ("region", .obj [("value_type", .str "string"), ("display", .arr [.obj [("name", .str "Region"), ("locale", .str "en-NZ")]])]),
              ("street_address", .obj [
                ("value_type", .str "string"),
                ("display", .arr [.obj [("name", .str "Street Address"), ("locale", .str "en-NZ")]])])]),
            ("email", .obj [
              ("mandatory", .bool true),
              ("value_type", .str "string"),
              ("display", .arr [.obj [("name", .str "Email"), ("locale", .str "en-NZ")]])]),
            ("family_name", .obj [
              ("mandatory", .bool true),
              ("value_type", .str "string"),
              ("display", .arr [.obj [("name", .str "Family name"), ("locale", .str "en-NZ")]])]),
            ("given_name", .obj [
              ("mandatory", .bool true),
              ("value_type", .str "string"),
              ("display", .arr [.obj [("name", .str "Given name"), ("locale", .str "en-NZ")]])])])]),
        ("scope", .str "EmployeeIDCredential"),
        ("cryptographic_binding_methods_supported", .arr [.str "did:key", .str "did:web"]),
        ("credential_signing_alg_values_supported", .arr [.str "ES256K", .str "EdDSA"]),
        ("proof_types_supported", .obj [("jwt", .obj [("proof_signing_alg_values_supported", .arr [.str "ES256K", .str "EdDSA"])])]),
        ("display", .arr [
          .obj [
            ("name", .str "Employee ID"),
            ("locale", .str "en-NZ"),
            ("logo", .obj [("uri", .str "https://vercre.github.io/assets/employee.png"), ("alt_text", .str "Vercre Logo")]),
            ("description", .str "Vercre employee ID credential"),
            ("background_color", .str "#323ed2"),
            ("background_image", .obj [
              ("uri", .str "https://vercre.github.io/assets/vercre-background.png"),
              ("alt_text", .str "Vercre Background")]),
            ("text_color", .str "#ffffff")]])]),
      ("org.iso.18013.5.1.mDL", .obj [
        ("format", .str "mso_mdoc"),
        ("doctype", .str "org.iso.18013.5.1.mDL"),
        ("claims", .obj [
          ("org.iso.18013.5.1", .obj [
            ("email", .obj [
              ("mandatory", .bool true),
              ("value_type", .str "string"),
              ("display", .arr [.obj [("name", .str "Email"), ("locale", .str "en-NZ")]])]),
            ("family_name", .obj [
              ("mandatory", .bool true),
              ("value_type", .str "string"),
              ("display", .arr [.obj [("name", .str "Family name"), ("locale", .str "en-NZ")]])]),
            ("given_name", .obj [
              ("mandatory", .bool true),
              ("value_type", .str "string"),
              ("display", .arr [.obj [("name", .str "Given name"), ("locale", .str "en-NZ")]])])]),
          ("org.iso.18013.5.1.aamva", .obj [("organ_donor", .obj [])])]),
        ("scope", .str "DriverLicence"),
        ("cryptographic_binding_methods_supported", .arr [.str "did:key", .str "did:web"]),
        ("credential_signing_alg_values_supported", .arr [.str "ES256K", .str "EdDSA"]),
        ("proof_types_supported", .obj [("jwt", .obj [("proof_signing_alg_values_supported", .arr [.str "ES256K", .str "EdDSA"])])]),
        ("display", .arr [
          .obj [
            ("name", .str "Employee ID"),
            ("locale", .str "en-NZ"),
            ("logo", .obj [("uri", .str "https://vercre.github.io/assets/employee.png"), ("alt_text", .str "Vercre Logo")]),
            ("description", .str "Vercre employee ID credential"),
            ("background_color", .str "#323ed2"),
            ("background_image", .obj [
              ("uri", .str "https://vercre.github.io/assets/vercre-background.png"),
              ("alt_text", .str "Vercre Background")]),
            ("text_color", .str "#ffffff")]])])])]

/-- /repo/vercre-issuer/src/snapshots/notification:ok:response.snap. -/
def notificationOkResponse : Json :=
  .obj []

/-- /repo/vercre-issuer/src/snapshots/oauth_server:metadata_ok:response.snap. -/
def oauthServerMetadataOkResponse : Json :=
  .obj [
    ("authorization_server", .obj [
      ("issuer", .str "http://vercre.io"),
      ("authorization_endpoint", .str "/auth"),
      ("token_endpoint", .str "/token"),
      ("scopes_supported", .arr [.str "openid", .str "credential"]),
      ("response_types_supported", .arr [.str "code"]),
      ("response_modes_supported", .arr [.str "query"]),
      ("grant_types_supported", .arr [.str "authorization_code", .str "urn:ietf:params:oauth:grant-type:pre-authorized_code"]),
      ("code_challenge_methods_supported", .arr [.str "S256"]),
      ("pre-authorized_grant_anonymous_access_supported", .bool true)])]

/-- /repo/vercre-issuer/src/snapshots/par:request:response.snap. -/
def parRequestResponse : Json :=
  .obj [("request_uri", .str "[request_uri]"), ("expires_in", .num "600")]

/-- /repo/vercre-issuer/src/snapshots/par:request:state.snap. -/
def parRequestState : Json :=
  .obj [
    ("stage", .obj [
      ("pushed_authorization", .obj [
        ("request", .obj [
          ("credential_issuer", .str "http://vercre.io"),
          ("response_type", .str "code"),
          ("client_id", .str "96bfb9cb-0513-7d64-5532-bed74c48f9ab"),
          ("redirect_uri", .str "http://localhost:3000/callback"),
          ("state", .str "1234"),
          ("code_challenge", .str "B6qi8EPWVTnONnO8XNSAsN7O2ejthn3pCKwZUO0HzU8"),
          ("code_challenge_method", .str "S256"),
          ("authorization_details", .arr [.obj [("type", .str "openid_credential"), ("credential_configuration_id", .str "EmployeeID_JWT")]]),
          ("subject_id", .str "normal_user"),
          ("wallet_issuer", .str "http://vercre.io")]),
        ("expires_at", .str "[expires_at]")])]),
    ("expires_at", .str "[expires_at]")]

/-- /repo/vercre-issuer/src/snapshots/register:registration_ok:response.snap. -/
def registerRegistrationOkResponse : Json :=
  .obj [
    ("client_id", .str "[client_id]"),
    ("redirect_uris", .arr [.str "http://localhost:3000/callback"]),
    ("grant_types", .arr [.str "authorization_code", .str "urn:ietf:params:oauth:grant-type:pre-authorized_code"]),
    ("response_types", .arr [.str "code"]),
    ("scope", .str "openid credential"),
    ("credential_offer_endpoint", .str "openid-credential-offer://")]

/-- /repo/vercre-issuer/src/snapshots/token:authorization_details:response.snap. -/
def tokenAuthorizationDetailsResponse : Json :=
  .obj [
    ("access_token", .str "[access_token]"),
    ("token_type", .str "Bearer"),
    ("expires_in", .num "900"),
    ("c_nonce", .str "[c_nonce]"),
    ("c_nonce_expires_in", .num "600"),
    ("authorization_details", .arr [
      .obj [
        ("type", .str "openid_credential"),
        ("format", .str "jwt_vc_json"),
        ("credential_definition", .obj [("type", .arr [.str "VerifiableCredential", .str "EmployeeIDCredential"])]),
        ("credential_identifiers", .arr [.str "PHLEmployeeID"])]])]

/-- /repo/vercre-issuer/src/snapshots/token:authorization_details:state.snap. -/
def tokenAuthorizationDetailsState : Json :=
  .obj [
    ("subject_id", .str "normal_user"),
    ("stage", .obj [
      ("validated", .obj [
        ("access_token", .str "[access_token]"),
        ("c_nonce", .str "[c_nonce]"),
        ("c_nonce_expires_at", .str "[c_nonce_expires_at]"),
        ("credentials", .obj [
          ("PHLEmployeeID", .obj [("credential_identifier", .str "PHLEmployeeID"), ("credential_configuration_id", .str "EmployeeID_JWT")])])])]),
    ("expires_at", .str "[expires_at]")]

/-- /repo/vercre-issuer/src/snapshots/token:authorized:response.snap. -/
def tokenAuthorizedResponse : Json :=
  .obj [
    ("access_token", .str "[access_token]"),
    ("token_type", .str "Bearer"),
    ("expires_in", .num "900"),
    ("c_nonce", .str "[c_nonce]"),
    ("c_nonce_expires_in", .num "600"),
    ("authorization_details", .arr [
      .obj [
        ("type", .str "openid_credential"),
        ("credential_configuration_id", .str "EmployeeID_JWT"),
        ("credential_identifiers", .arr [.str "PHLEmployeeID"])]])]

/-- /repo/vercre-issuer/src/snapshots/token:authorized:state.snap. -/
def tokenAuthorizedState : Json :=
  .obj [
    ("subject_id", .str "normal_user"),
    ("stage", .obj [
      ("validated", .obj [
        ("access_token", .str "[access_token]"),
        ("c_nonce", .str "[c_nonce]"),
        ("c_nonce_expires_at", .str "[c_nonce_expires_at]"),
        ("credentials", .obj [
          ("PHLEmployeeID", .obj [("credential_identifier", .str "PHLEmployeeID"), ("credential_configuration_id", .str "EmployeeID_JWT")])])])]),
    ("expires_at", .str "[expires_at]")]

/-- /repo/vercre-issuer/src/snapshots/token:pre_authorized:response.snap. -/
def tokenPreAuthorizedResponse : Json :=
  .obj [
    ("access_token", .str "[access_token]"),
    ("token_type", .str "Bearer"),
    ("expires_in", .num "900"),
    ("c_nonce", .str "[c_nonce]"),
    ("c_nonce_expires_in", .num "600"),
    ("authorization_details", .arr [
      .obj [
        ("type", .str "openid_credential"),
        ("credential_configuration_id", .str "EmployeeID_JWT"),
        ("credential_identifiers", .arr [.str "PHLEmployeeID"])]])]

/-- /repo/vercre-issuer/src/snapshots/token:pre_authorized:state.snap. -/
def tokenPreAuthorizedState : Json :=
  .obj [
    ("subject_id", .str "normal_user"),
    ("stage", .obj [
      ("validated", .obj [
        ("access_token", .str "[access_token]"),
        ("c_nonce", .str "[c_nonce]"),
        ("c_nonce_expires_at", .str "[c_nonce_expires_at]"),
        ("credentials", .obj [
          ("PHLEmployeeID", .obj [("credential_identifier", .str "PHLEmployeeID"), ("credential_configuration_id", .str "EmployeeID_JWT")])])])]),
    ("expires_at", .str "[expires_at]")]

/-- /repo/vercre-verifier/src/snapshots/vercre_verifier__create_request__tests__cd-state.snap. -/
def createRequestState : Json :=
  .obj [
    ("expires_at", .str "[expires_at]"),
    ("request_object", .obj [
      ("response_type", .str "vp_token"),
      ("client_id", .str "http://localhost:8080/post"),
      ("response_mode", .str "direct_post"),
      ("response_uri", .str "http://localhost:8080/post"),
      ("nonce", .str "[nonce]"),
      ("state", .str "[state]"),
      ("presentation_definition", .str "[presentation_definition]"),
      ("client_id_scheme", .str "redirect_uri"),
      ("client_metadata", .str "[client_metadata]")])]

/-- /repo/vercre-verifier/src/snapshots/vercre_verifier__create_request__tests__sd-response.snap. -/
def createRequestResponse : Json :=
  .obj [
    ("request_object", .obj [
      ("response_type", .str "vp_token"),
      ("client_id", .str "http://localhost:8080/callback"),
      ("nonce", .str "[nonce]"),
      ("state", .str "[state]"),
      ("presentation_definition", .str "[presentation_definition]"),
      ("client_id_scheme", .str "redirect_uri"),
      ("client_metadata", .str "[client_metadata]")])]

/-- /repo/vercre-verifier/src/snapshots/vercre_verifier__metadata__tests__response.snap. -/
def verifierMetadata : Json :=
  .obj [
    ("client_id", .str "http://localhost:8080"),
    ("redirect_uris", .arr [.str "http://localhost:3000/callback"]),
    ("response_types", .arr [.str "vp_token", .str "id_token vp_token"]),
    ("client_name", .str "Verifier"),
    ("vp_formats", .obj [("jwt_vp_json", .obj [("alg", .arr [.str "ES256K"]), ("proof_type", .arr [.str "JsonWebSignature2020"])])])]

/-- /repo/vercre-verifier/src/snapshots/vercre_verifier__request_object__tests__response.snap. -/
def requestObjectResponse : Json :=
  .obj [
    ("header", .obj [("alg", .str "EdDSA"), ("typ", .str "oauth-authz-req+jwt"), ("kid", .str "did:web:demo.credibil.io#key-0")]),
    ("claims", .obj [
      ("response_type", .str "vp_token"),
      ("client_id", .str "http://localhost:8080/post"),
      ("response_mode", .str "direct_post"),
      ("response_uri", .str "http://localhost:8080/post"),
      ("nonce", .str "1234567890"),
      ("state", .str "ABCDEF123456"),
      ("presentation_definition", .obj [("id", .str ""), ("input_descriptors", .arr [])]),
      ("client_id_scheme", .str "redirect_uri"),
      ("client_metadata", .obj [("client_id", .str "")])])]

/-- /repo/vercre-issuer/tests/snapshots/credential@issuer:authorization.snap. -/
def flowIssuerAuthorization : Json :=
  .obj [
    ("@context", .arr [.str "https://www.w3.org/2018/credentials/v1", .str "http://vercre.io/credentials/v1"]),
    ("id", .str "http://vercre.io/credentials/EmployeeIDCredential"),
    ("type", .arr [.str "VerifiableCredential", .str "EmployeeIDCredential"]),
    ("name", .obj [("@value", .str "Employee ID"), ("@language", .str "en-NZ")]),
    ("description", .obj [("@value", .str "Vercre employee ID credential"), ("@language", .str "en-NZ")]),
    ("issuer", .str "http://vercre.io"),
    ("credentialSubject", .obj [
      ("address", .obj [("locality", .str "Wellington"), ("street_address", .str "123 Fake St")]),
      ("email", .str "normal.user@example.com"),
      ("family_name", .str "Person"),
      ("given_name", .str "Normal"),
      ("id", .str "did:key:z6Mkj8Jr1rg3YjVWWhg7ahEYJibqhjBgZt1pDCbT4Lv7D4HX")]),
    ("validFrom", .str "[validFrom]")]

/-- /repo/vercre-issuer/tests/snapshots/credential@issuer:authorization:ByRef.snap. -/
def flowIssuerAuthorizationByRef : Json :=
  .obj [
    ("@context", .arr [.str "https://www.w3.org/2018/credentials/v1", .str "http://vercre.io/credentials/v1"]),
    ("id", .str "http://vercre.io/credentials/EmployeeIDCredential"),
    ("type", .arr [.str "VerifiableCredential", .str "EmployeeIDCredential"]),
    ("name", .obj [("@value", .str "Employee ID"), ("@language", .str "en-NZ")]),
    ("description", .obj [("@value", .str "Vercre employee ID credential"), ("@language", .str "en-NZ")]),
    ("issuer", .str "http://vercre.io"),
    ("credentialSubject", .obj [
      ("address", .obj [("locality", .str "Wellington"), ("street_address", .str "123 Fake St")]),
      ("email", .str "normal.user@example.com"),
      ("family_name", .str "Person"),
      ("given_name", .str "Normal"),
      ("id", .str "did:key:z6Mkj8Jr1rg3YjVWWhg7ahEYJibqhjBgZt1pDCbT4Lv7D4HX")]),
    ("validFrom", .str "[validFrom]")]

/-- /repo/vercre-issuer/tests/snapshots/credential@issuer:authorization:ByVal.snap. -/
def flowIssuerAuthorizationByVal : Json :=
  .obj [
    ("@context", .arr [.str "https://www.w3.org/2018/credentials/v1", .str "http://vercre.io/credentials/v1"]),
    ("id", .str "http://vercre.io/credentials/EmployeeIDCredential"),
    ("type", .arr [.str "VerifiableCredential", .str "EmployeeIDCredential"]),
    ("name", .obj [("@value", .str "Employee ID"), ("@language", .str "en-NZ")]),
    ("description", .obj [("@value", .str "Vercre employee ID credential"), ("@language", .str "en-NZ")]),
    ("issuer", .str "http://vercre.io"),
    ("credentialSubject", .obj [
      ("address", .obj [("locality", .str "Wellington"), ("street_address", .str "123 Fake St")]),
      ("email", .str "normal.user@example.com"),
      ("family_name", .str "Person"),
      ("given_name", .str "Normal"),
      ("id", .str "did:key:z6Mkj8Jr1rg3YjVWWhg7ahEYJibqhjBgZt1pDCbT4Lv7D4HX")]),
    ("validFrom", .str "[validFrom]")]

/-- /repo/vercre-issuer/tests/snapshots/credential@issuer:deferred.snap. -/
def flowIssuerDeferred : Json :=
  .obj [
    ("@context", .arr [.str "https://www.w3.org/2018/credentials/v1", .str "http://vercre.io/credentials/v1"]),
    ("id", .str "http://vercre.io/credentials/EmployeeIDCredential"),
    ("type", .arr [.str "VerifiableCredential", .str "EmployeeIDCredential"]),
    ("name", .obj [("@value", .str "Employee ID"), ("@language", .str "en-NZ")]),
    ("description", .obj [("@value", .str "Vercre employee ID credential"), ("@language", .str "en-NZ")]),
    ("issuer", .str "http://vercre.io"),
    ("credentialSubject", .obj [
      ("address", .obj [("locality", .str "Wellington"), ("street_address", .str "123 Fake St")]),
      ("email", .str "pending.user@example.com"),
      ("family_name", .str "Person"),
      ("given_name", .str "Pending"),
      ("id", .str "did:key:z6Mkj8Jr1rg3YjVWWhg7ahEYJibqhjBgZt1pDCbT4Lv7D4HX")]),
    ("validFrom", .str "[validFrom]")]

/-- /repo/vercre-issuer/tests/snapshots/credential@issuer:immediate.snap. -/
def flowIssuerImmediate : Json :=
  .obj [
    ("@context", .arr [.str "https://www.w3.org/2018/credentials/v1", .str "http://vercre.io/credentials/v1"]),
    ("id", .str "http://vercre.io/credentials/EmployeeIDCredential"),
    ("type", .arr [.str "VerifiableCredential", .str "EmployeeIDCredential"]),
    ("name", .obj [("@value", .str "Employee ID"), ("@language", .str "en-NZ")]),
    ("description", .obj [("@value", .str "Vercre employee ID credential"), ("@language", .str "en-NZ")]),
    ("issuer", .str "http://vercre.io"),
    ("credentialSubject", .obj [
      ("address", .obj [("locality", .str "Wellington"), ("street_address", .str "123 Fake St")]),
      ("email", .str "normal.user@example.com"),
      ("family_name", .str "Person"),
      ("given_name", .str "Normal"),
      ("id", .str "did:key:z6Mkj8Jr1rg3YjVWWhg7ahEYJibqhjBgZt1pDCbT4Lv7D4HX")]),
    ("validFrom", .str "[validFrom]")]

/-- /repo/vercre-issuer/tests/snapshots/credential@issuer:jwt_vc_json.snap. -/
def flowIssuerJwtVcJson : Json :=
  .obj [
    ("@context", .arr [.str "https://www.w3.org/2018/credentials/v1", .str "http://vercre.io/credentials/v1"]),
    ("id", .str "http://vercre.io/credentials/EmployeeIDCredential"),
    ("type", .arr [.str "VerifiableCredential", .str "EmployeeIDCredential"]),
    ("name", .obj [("@value", .str "Employee ID"), ("@language", .str "en-NZ")]),
    ("description", .obj [("@value", .str "Vercre employee ID credential"), ("@language", .str "en-NZ")]),
    ("issuer", .str "http://vercre.io"),
    ("credentialSubject", .obj [
      ("address", .obj [("locality", .str "Wellington"), ("street_address", .str "123 Fake St")]),
      ("email", .str "normal.user@example.com"),
      ("family_name", .str "Person"),
      ("given_name", .str "Normal"),
      ("id", .str "did:key:z6Mkj8Jr1rg3YjVWWhg7ahEYJibqhjBgZt1pDCbT4Lv7D4HX")]),
    ("validFrom", .str "[validFrom]")]

/-- /repo/vercre-issuer/tests/snapshots/credential@wallet:deferred.snap. -/
def flowWalletDeferred : Json :=
  .obj [
    ("@context", .arr [.str "https://www.w3.org/2018/credentials/v1", .str "http://vercre.io/credentials/v1"]),
    ("id", .str "http://vercre.io/credentials/EmployeeIDCredential"),
    ("type", .arr [.str "VerifiableCredential", .str "EmployeeIDCredential"]),
    ("name", .obj [("@value", .str "Employee ID"), ("@language", .str "en-NZ")]),
    ("description", .obj [("@value", .str "Vercre employee ID credential"), ("@language", .str "en-NZ")]),
    ("issuer", .str "http://vercre.io"),
    ("credentialSubject", .obj [
      ("address", .obj [("locality", .str "Wellington"), ("street_address", .str "123 Fake St")]),
      ("email", .str "normal.user@example.com"),
      ("family_name", .str "Person"),
      ("given_name", .str "Normal"),
      ("id", .str "did:key:z6Mkj8Jr1rg3YjVWWhg7ahEYJibqhjBgZt1pDCbT4Lv7D4HX")]),
    ("validFrom", .str "[validFrom]")]

/-- /repo/vercre-issuer/tests/snapshots/credential@wallet:immediate.snap. -/
def flowWalletImmediate : Json :=
  .obj [
    ("@context", .arr [.str "https://www.w3.org/2018/credentials/v1", .str "http://vercre.io/credentials/v1"]),
    ("id", .str "http://vercre.io/credentials/EmployeeIDCredential"),
    ("type", .arr [.str "VerifiableCredential", .str "EmployeeIDCredential"]),
    ("name", .obj [("@value", .str "Employee ID"), ("@language", .str "en-NZ")]),
    ("description", .obj [("@value", .str "Vercre employee ID credential"), ("@language", .str "en-NZ")]),
    ("issuer", .str "http://vercre.io"),
    ("credentialSubject", .obj [
      ("address", .obj [("locality", .str "Wellington"), ("street_address", .str "123 Fake St")]),
      ("email", .str "normal.user@example.com"),
      ("family_name", .str "Person"),
      ("given_name", .str "Normal"),
      ("id", .str "did:key:z6Mkj8Jr1rg3YjVWWhg7ahEYJibqhjBgZt1pDCbT4Lv7D4HX")]),
    ("validFrom", .str "[validFrom]")]

/-- /repo/vercre-holder/tests/snapshots/issuer_auth__created.snap. -/
def walletIssuerAuthCreated : Json :=
  .obj [
    ("issuance_id", .str "[issuance_id]"),
    ("issuer", .str "http://vercre.io"),
    ("offered", .obj [
      ("EmployeeID_JWT", .obj [
        ("format", .str "jwt_vc_json"),
        ("credential_definition", .obj [
          ("type", .arr [.str "VerifiableCredential", .str "EmployeeIDCredential"]),
          ("credentialSubject", .obj [
            ("address", .obj [
              ("country", .obj [("value_type", .str "string"), ("display", .arr [.obj [("name", .str "Country"), ("locale", .str "en-NZ")]])]),
              ("locality", .obj [("value_type", .str "string"), ("display", .arr [.obj [("name", .str "Locality"), ("locale", .str "en-NZ")]])]),
              ("region", .obj [("value_type", .str "string"), ("display", .arr [.obj [("name", .str "Region"), ("locale", .str "en-NZ")]])]),
              ("street_address", .obj [
                ("value_type", .str "string"),
                ("display", .arr [.obj [("name", .str "Street Address"), ("locale", .str "en-NZ")]])])]),
            ("email", .obj [
              ("mandatory", .bool true),
              ("value_type", .str "string"),
              ("display", .arr [.obj [("name", .str "Email"), ("locale", .str "en-NZ")]])]),
            ("family_name", .obj [
              ("mandatory", .bool true),
              ("value_type", .str "string"),
              ("display", .arr [.obj [("name", .str "Family name"), ("locale", .str "en-NZ")]])]),
            ("given_name", .obj [
              ("mandatory", .bool true),
              ("value_type", .str "string"),
              ("display", .arr [.obj [("name", .str "Given name"), ("locale", .str "en-NZ")]])])])]),
        ("scope", .str "EmployeeIDCredential"),
        ("cryptographic_binding_methods_supported", .arr [.str "did:key", .str "did:web"]),
        ("credential_signing_alg_values_supported", .arr [.str "ES256K", .str "EdDSA"]),
        ("proof_types_supported", .obj [("jwt", .obj [("proof_signing_alg_values_supported", .arr [.str "ES256K", .str "EdDSA"])])]),
        ("display", .arr [
          .obj [
            ("name", .str "Employee ID"),
            ("locale", .str "en-NZ"),
            ("logo", .obj [("uri", .str "https://vercre.github.io/assets/employee.png"), ("alt_text", .str "Vercre Logo")]),
            ("description", .str "Vercre employee ID credential"),
            ("background_color", .str "#323ed2"),
            ("background_image", .obj [
              ("uri", .str "https://vercre.github.io/assets/vercre-background.png"),
              ("alt_text", .str "Vercre Background")]),
            ("text_color", .str "#ffffff")]])])]),
    ("grants", .obj [("authorization_code", .obj [("issuer_state", .str "[issuer_state]")])])]

/-- /repo/vercre-holder/tests/snapshots/issuer_auth__credentials.snap. -/
def walletIssuerAuthCredentials : Json :=
  .arr [
    .obj [
      ("id", .str "http://vercre.io/credentials/EmployeeIDCredential"),
      ("issuer", .str "http://vercre.io"),
      ("vc", .obj [
        ("@context", .arr [.str "https://www.w3.org/2018/credentials/v1", .str "http://vercre.io/credentials/v1"]),
        ("credentialSubject", .obj [
          ("address", .obj [("locality", .str "Wellington"), ("street_address", .str "123 Fake St")]),
          ("email", .str "normal.user@example.com"),
          ("family_name", .str "Person"),
          ("given_name", .str "Normal"),
          ("id", .str "did:key:z6Mkj8Jr1rg3YjVWWhg7ahEYJibqhjBgZt1pDCbT4Lv7D4HX")]),
        ("description", .obj [("@value", .str "Vercre employee ID credential"), ("@language", .str "en-NZ")]),
        ("id", .str "http://vercre.io/credentials/EmployeeIDCredential"),
        ("issuer", .str "http://vercre.io"),
        ("name", .obj [("@value", .str "Employee ID"), ("@language", .str "en-NZ")]),
        ("type", .arr [.str "VerifiableCredential", .str "EmployeeIDCredential"]),
        ("validFrom", .str "[validFrom]")]),
      ("issued", .str "[issued]"),
      ("issuance_date", .str "[issuance_date]"),
      ("display", .arr [
        .obj [
          ("name", .str "Employee ID"),
          ("locale", .str "en-NZ"),
          ("logo", .obj [("uri", .str "https://vercre.github.io/assets/employee.png"), ("alt_text", .str "Vercre Logo")]),
          ("description", .str "Vercre employee ID credential"),
          ("background_color", .str "#323ed2"),
          ("background_image", .obj [("uri", .str "https://vercre.github.io/assets/vercre-background.png"), ("alt_text", .str "Vercre Background")]),
          ("text_color", .str "#ffffff")]]),
      ("logo", .obj [("image", .str ""), ("mediaType", .str "")])]]

/-- /repo/vercre-holder/tests/snapshots/issuer_auth_no_grants__created.snap. -/
def walletIssuerAuthNoGrantsCreated : Json :=
  .obj [
    ("issuance_id", .str "[issuance_id]"),
    ("issuer", .str "http://vercre.io"),
    ("offered", .obj [
      ("EmployeeID_JWT", .obj [
        ("format", .str "jwt_vc_json"),
        ("credential_definition", .obj [
          ("type", .arr [.str "VerifiableCredential", .str "EmployeeIDCredential"]),
          ("credentialSubject", .obj [
            ("address", .obj [
              ("country", .obj [("value_type", .str "string"), ("display", .arr [.obj [("name", .str "Country"), ("locale", .str "en-NZ")]])]),
              ("locality", .obj [("value_type", .str "string"), ("display", .arr [.obj [("name", .str "Locality"), ("locale", .str "en-NZ")]])]),
              ("region", .obj [("value_type", .str "string"), ("display", .arr [.obj [("name", .str "Region"), ("locale", .str "en-NZ")]])]),
              ("street_address", .obj [
                ("value_type", .str "string"),
                ("display", .arr [.obj [("name", .str "Street Address"), ("locale", .str "en-NZ")]])])]),
            ("email", .obj [
              ("mandatory", .bool true),
              ("value_type", .str "string"),
              ("display", .arr [.obj [("name", .str "Email"), ("locale", .str "en-NZ")]])]),
            ("family_name", .obj [
              ("mandatory", .bool true),
              ("value_type", .str "string"),
              ("display", .arr [.obj [("name", .str "Family name"), ("locale", .str "en-NZ")]])]),
            ("given_name", .obj [
              ("mandatory", .bool true),
              ("value_type", .str "string"),
              ("display", .arr [.obj [("name", .str "Given name"), ("locale", .str "en-NZ")]])])])]),
        ("scope", .str "EmployeeIDCredential"),
        ("cryptographic_binding_methods_supported", .arr [.str "did:key", .str "did:web"]),
        ("credential_signing_alg_values_supported", .arr [.str "ES256K", .str "EdDSA"]),
        ("proof_types_supported", .obj [("jwt", .obj [("proof_signing_alg_values_supported", .arr [.str "ES256K", .str "EdDSA"])])]),
        ("display", .arr [
          .obj [
            ("name", .str "Employee ID"),
            ("locale", .str "en-NZ"),
            ("logo", .obj [("uri", .str "https://vercre.github.io/assets/employee.png"), ("alt_text", .str "Vercre Logo")]),
            ("description", .str "Vercre employee ID credential"),
            ("background_color", .str "#323ed2"),
            ("background_image", .obj [
              ("uri", .str "https://vercre.github.io/assets/vercre-background.png"),
              ("alt_text", .str "Vercre Background")]),
            ("text_color", .str "#ffffff")]])])]),
    ("grants", .null)]

/-- /repo/vercre-holder/tests/snapshots/issuer_auth_no_grants__credentials.snap. -/
def walletIssuerAuthNoGrantsCredentials : Json :=
  .arr [
    .obj [
      ("id", .str "http://vercre.io/credentials/EmployeeIDCredential"),
      ("issuer", .str "http://vercre.io"),
      ("vc", .obj [
        ("@context", .arr [.str "https://www.w3.org/2018/credentials/v1", .str "http://vercre.io/credentials/v1"]),
        ("credentialSubject", .obj [
          ("address", .obj [("locality", .str "Wellington"), ("street_address", .str "123 Fake St")]),
          ("email", .str "normal.user@example.com"),
          ("family_name", .str "Person"),
          ("given_name", .str "Normal"),
          ("id", .str "did:key:z6Mkj8Jr1rg3YjVWWhg7ahEYJibqhjBgZt1pDCbT4Lv7D4HX")]),
        ("description", .obj [("@value", .str "Vercre employee ID credential"), ("@language", .str "en-NZ")]),
        ("id", .str "http://vercre.io/credentials/EmployeeIDCredential"),
        ("issuer", .str "http://vercre.io"),
        ("name", .obj [("@value", .str "Employee ID"), ("@language", .str "en-NZ")]),
        ("type", .arr [.str "VerifiableCredential", .str "EmployeeIDCredential"]),
        ("validFrom", .str "[validFrom]")]),
      ("issued", .str "[issued]"),
      ("issuance_date", .str "[issuance_date]"),
      ("display", .arr [
        .obj [
          ("name", .str "Employee ID"),
          ("locale", .str "en-NZ"),
          ("logo", .obj [("uri", .str "https://vercre.github.io/assets/employee.png"), ("alt_text", .str "Vercre Logo")]),
          ("description", .str "Vercre employee ID credential"),
          ("background_color", .str "#323ed2"),
          ("background_image", .obj [("uri", .str "https://vercre.github.io/assets/vercre-background.png"), ("alt_text", .str "Vercre Background")]),
          ("text_color", .str "#ffffff")]]),
      ("logo", .obj [("image", .str ""), ("mediaType", .str "")])]]

/-- /repo/vercre-holder/tests/snapshots/preauth__created.snap. -/
def walletPreauthCreated : Json :=
  .obj [
    ("issuance_id", .str "[issuance_id]"),
    ("issuer", .str "http://vercre.io"),
    ("offered", .obj [
      ("EmployeeID_JWT", .obj [
        ("format", .str "jwt_vc_json"),
        ("credential_definition", .obj [
          ("type", .arr [.str "VerifiableCredential", .str "EmployeeIDCredential"]),
          ("credentialSubject", .obj [
            ("address", .obj [
              ("country", .obj [("value_type", .str "string"), ("display", .arr [.obj [("name", .str "Country"), ("locale", .str "en-NZ")]])]),
              ("locality", .obj [("value_type", .str "string"), ("display", .arr [.obj [("name", .str "Locality"), ("locale", .str "en-NZ")]])]),
              ("region", .obj [("value_type", .str "string"), ("display", .arr [.obj [("name", .str "Region"), ("locale", .str "en-NZ")]])]),
              ("street_address", .obj [
                ("value_type", .str "string"),
                ("display", .arr [.obj [("name", .str "Street Address"), ("locale", .str "en-NZ")]])])]),
            ("email", .obj [
              ("mandatory", .bool true),
              ("value_type", .str "string"),
              ("display", .arr [.obj [("name", .str "Email"), ("locale", .str "en-NZ")]])]),
            ("family_name", .obj [
              ("mandatory", .bool true),
              ("value_type", .str "string"),
              ("display", .arr [.obj [("name", .str "Family name"), ("locale", .str "en-NZ")]])]),
            ("given_name", .obj [
              ("mandatory", .bool true),
              ("value_type", .str "string"),
              ("display", .arr [.obj [("name", .str "Given name"), ("locale", .str "en-NZ")]])])])]),
        ("scope", .str "EmployeeIDCredential"),
        ("cryptographic_binding_methods_supported", .arr [.str "did:key", .str "did:web"]),
        ("credential_signing_alg_values_supported", .arr [.str "ES256K", .str "EdDSA"]),
        ("proof_types_supported", .obj [("jwt", .obj [("proof_signing_alg_values_supported", .arr [.str "ES256K", .str "EdDSA"])])]),
        ("display", .arr [
          .obj [
            ("name", .str "Employee ID"),
            ("locale", .str "en-NZ"),
            ("logo", .obj [("uri", .str "https://vercre.github.io/assets/employee.png"), ("alt_text", .str "Vercre Logo")]),
            ("description", .str "Vercre employee ID credential"),
            ("background_color", .str "#323ed2"),
            ("background_image", .obj [
              ("uri", .str "https://vercre.github.io/assets/vercre-background.png"),
              ("alt_text", .str "Vercre Background")]),
            ("text_color", .str "#ffffff")]])])]),
    ("grants", .obj [
      ("urn:ietf:params:oauth:grant-type:pre-authorized_code", .obj [
        ("pre-authorized_code", .str "[pre-authorized_code]"),
        ("tx_code", .obj [("input_mode", .str "numeric"), ("length", .num "6"), ("description", .str "Please provide the one-time code received")])])])]

/-- /repo/vercre-holder/tests/snapshots/preauth__credentials.snap. -/
def walletPreauthCredentials : Json :=
  .arr [
    .obj [
      ("id", .str "http://vercre.io/credentials/EmployeeIDCredential"),
      ("issuer", .str "http://vercre.io"),
      ("vc", .obj [
        ("@context", .arr [.str "https://www.w3.org/2018/credentials/v1", .str "http://vercre.io/credentials/v1"]),
        ("credentialSubject", .obj [
          ("address", .obj [("locality", .str "Wellington"), ("street_address", .str "123 Fake St")]),
          ("email", .str "normal.user@example.com"),
          ("family_name", .str "Person"),
          ("given_name", .str "Normal"),
          ("id", .str "did:key:z6Mkj8Jr1rg3YjVWWhg7ahEYJibqhjBgZt1pDCbT4Lv7D4HX")]),
        ("description", .obj [("@value", .str "Vercre employee ID credential"), ("@language", .str "en-NZ")]),
        ("id", .str "http://vercre.io/credentials/EmployeeIDCredential"),
        ("issuer", .str "http://vercre.io"),
        ("name", .obj [("@value", .str "Employee ID"), ("@language", .str "en-NZ")]),
        ("type", .arr [.str "VerifiableCredential", .str "EmployeeIDCredential"]),
        ("validFrom", .str "[validFrom]")]),
      ("issued", .str "[issued]"),
      ("issuance_date", .str "[issuance_date]"),
      ("display", .arr [
        .obj [
          ("name", .str "Employee ID"),
          ("locale", .str "en-NZ"),
          ("logo", .obj [("uri", .str "https://vercre.github.io/assets/employee.png"), ("alt_text", .str "Vercre Logo")]),
          ("description", .str "Vercre employee ID credential"),
          ("background_color", .str "#323ed2"),
          ("background_image", .obj [("uri", .str "https://vercre.github.io/assets/vercre-background.png"), ("alt_text", .str "Vercre Background")]),
          ("text_color", .str "#ffffff")]]),
      ("logo", .obj [("image", .str ""), ("mediaType", .str "")])]]

/-- /repo/vercre-holder/tests/snapshots/preauth_deferred__created.snap. -/
def walletPreauthDeferredCreated : Json :=
  .obj [
    ("issuance_id", .str "[issuance_id]"),
    ("issuer", .str "http://vercre.io"),
    ("offered", .obj [
      ("EmployeeID_JWT", .obj [
        ("format", .str "jwt_vc_json"),
        ("credential_definition", .obj [
          ("type", .arr [.str "VerifiableCredential", .str "EmployeeIDCredential"]),
          ("credentialSubject", .obj [
            ("address", .obj [
              ("country", .obj [("value_type", .str "string"), ("display", .arr [.obj [("name", .str "Country"), ("locale", .str "en-NZ")]])]),
              ("locality", .obj [("value_type", .str "string"), ("display", .arr [.obj [("name", .str "Locality"), ("locale", .str "en-NZ")]])]),
              ("region", .obj [("value_type", .str "string"), ("display", .arr [.obj [("name", .str "Region"), ("locale", .str "en-NZ")]])]),
              ("street_address", .obj [
                ("value_type", .str "string"),
                ("display", .arr [.obj [("name", .str "Street Address"), ("locale", .str "en-NZ")]])])]),
            ("email", .obj [
              ("mandatory", .bool true),
              ("value_type", .str "string"),
              ("display", .arr [.obj [("name", .str "Email"), ("locale", .str "en-NZ")]])]),
            ("family_name", .obj [
              ("mandatory", .bool true),
              ("value_type", .str "string"),
              ("display", .arr [.obj [("name", .str "Family name"), ("locale", .str "en-NZ")]])]),
            ("given_name", .obj [
              ("mandatory", .bool true),
              ("value_type", .str "string"),
              ("display", .arr [.obj [("name", .str "Given name"), ("locale", .str "en-NZ")]])])])]),
        ("scope", .str "EmployeeIDCredential"),
        ("cryptographic_binding_methods_supported", .arr [.str "did:key", .str "did:web"]),
        ("credential_signing_alg_values_supported", .arr [.str "ES256K", .str "EdDSA"]),
        ("proof_types_supported", .obj [("jwt", .obj [("proof_signing_alg_values_supported", .arr [.str "ES256K", .str "EdDSA"])])]),
        ("display", .arr [
          .obj [
            ("name", .str "Employee ID"),
            ("locale", .str "en-NZ"),
            ("logo", .obj [("uri", .str "https://vercre.github.io/assets/employee.png"), ("alt_text", .str "Vercre Logo")]),
            ("description", .str "Vercre employee ID credential"),
            ("background_color", .str "#323ed2"),
            ("background_image", .obj [
              ("uri", .str "https://vercre.github.io/assets/vercre-background.png"),
              ("alt_text", .str "Vercre Background")]),
            ("text_color", .str "#ffffff")]])])]),
    ("grants", .obj [
      ("urn:ietf:params:oauth:grant-type:pre-authorized_code", .obj [
        ("pre-authorized_code", .str "[pre-authorized_code]"),
        ("tx_code", .obj [("input_mode", .str "numeric"), ("length", .num "6"), ("description", .str "Please provide the one-time code received")])])])]

/-- /repo/vercre-holder/tests/snapshots/preauth_deferred__credentials.snap. -/
def walletPreauthDeferredCredentials : Json :=
  .arr [
    .obj [
      ("id", .str "http://vercre.io/credentials/EmployeeIDCredential"),
      ("issuer", .str "http://vercre.io"),
      ("vc", .obj [
        ("@context", .arr [.str "https://www.w3.org/2018/credentials/v1", .str "http://vercre.io/credentials/v1"]),
        ("credentialSubject", .obj [
          ("address", .obj [("locality", .str "Wellington"), ("street_address", .str "123 Fake St")]),
          ("email", .str "pending.user@example.com"),
          ("family_name", .str "Person"),
          ("given_name", .str "Pending"),
          ("id", .str "did:key:z6Mkj8Jr1rg3YjVWWhg7ahEYJibqhjBgZt1pDCbT4Lv7D4HX")]),
        ("description", .obj [("@value", .str "Vercre employee ID credential"), ("@language", .str "en-NZ")]),
        ("id", .str "http://vercre.io/credentials/EmployeeIDCredential"),
        ("issuer", .str "http://vercre.io"),
        ("name", .obj [("@value", .str "Employee ID"), ("@language", .str "en-NZ")]),
        ("type", .arr [.str "VerifiableCredential", .str "EmployeeIDCredential"]),
        ("validFrom", .str "[validFrom]")]),
      ("issued", .str "[issued]"),
      ("issuance_date", .str "[issuance_date]"),
      ("display", .arr [
        .obj [
          ("name", .str "Employee ID"),
          ("locale", .str "en-NZ"),
          ("logo", .obj [("uri", .str "https://vercre.github.io/assets/employee.png"), ("alt_text", .str "Vercre Logo")]),
          ("description", .str "Vercre employee ID credential"),
          ("background_color", .str "#323ed2"),
          ("background_image", .obj [("uri", .str "https://vercre.github.io/assets/vercre-background.png"), ("alt_text", .str "Vercre Background")]),
          ("text_color", .str "#ffffff")]]),
      ("logo", .obj [("image", .str ""), ("mediaType", .str "")])]]

/-- /repo/vercre-holder/tests/snapshots/preauth_narrow__created.snap. -/
def walletPreauthNarrowCreated : Json :=
  .obj [
    ("issuance_id", .str "[issuance_id]"),
    ("issuer", .str "http://vercre.io"),
    ("offered", .obj [
      ("Developer_JWT", .obj [
        ("format", .str "jwt_vc_json"),
        ("credential_definition", .obj [
          ("type", .arr [.str "VerifiableCredential", .str "DeveloperCredential"]),
          ("credentialSubject", .obj [
            ("family_name", .obj [("value_type", .str "string"), ("display", .arr [.obj [("name", .str "Family name"), ("locale", .str "en-NZ")]])]),
            ("given_name", .obj [("value_type", .str "string"), ("display", .arr [.obj [("name", .str "Given name"), ("locale", .str "en-NZ")]])]),
            ("proficiency", .obj [
              ("mandatory", .bool true),
              ("value_type", .str "number"),
              ("display", .arr [.obj [("name", .str "Proficiency"), ("locale", .str "en-NZ")]])])])]),
        ("scope", .str "DeveloperCredential"),
        ("cryptographic_binding_methods_supported", .arr [.str "did:key", .str "did:web"]),
        ("credential_signing_alg_values_supported", .arr [.str "ES256K", .str "EdDSA"]),
        ("proof_types_supported", .obj [("jwt", .obj [("proof_signing_alg_values_supported", .arr [.str "ES256K", .str "EdDSA"])])]),
        ("display", .arr [
          .obj [
            ("name", .str "Developer"),
            ("locale", .str "en-NZ"),
            ("logo", .obj [("uri", .str "https://vercre.github.io/assets/developer.png"), ("alt_text", .str "Vercre Logo")]),
            ("description", .str "Vercre certified developer credential"),
            ("background_color", .str "#010100"),
            ("background_image", .obj [
              ("uri", .str "https://vercre.github.io/assets/vercre-background.png"),
              ("alt_text", .str "Vercre Background")]),
            ("text_color", .str "#ffffff")]])]),
      ("EmployeeID_JWT", .obj [
        ("format", .str "jwt_vc_json"),
        ("credential_definition", .obj [
          ("type", .arr [.str "VerifiableCredential", .str "EmployeeIDCredential"]),
          ("credentialSubject", .obj [
            ("address", .obj [
              ("country", .obj [("value_type", .str "string"), ("display", .arr [.obj [("name", .str "Country"), ("locale", .str "en-NZ")]])]),
              ("locality", .obj [("value_type", .str "string"), ("display", .arr [.obj [("name", .str "Locality"), ("locale", .str "en-NZ")]])]),
              ("region", .obj [("value_type", .str "string"), ("display", .arr [.obj [("name", .str "Region"), ("locale", .str "en-NZ")]])]),
              ("street_address", .obj [
                ("value_type", .str "string"),
                ("display", .arr [.obj [("name", .str "Street Address"), ("locale", .str "en-NZ")]])])]),
            ("email", .obj [
              ("mandatory", .bool true),
              ("value_type", .str "string"),
              ("display", .arr [.obj [("name", .str "Email"), ("locale", .str "en-NZ")]])]),
            ("family_name", .obj [
              ("mandatory", .bool true),
              ("value_type", .str "string"),
              ("display", .arr [.obj [("name", .str "Family name"), ("locale", .str "en-NZ")]])]),
            ("given_name", .obj [
              ("mandatory", .bool true),
              ("value_type", .str "string"),
              ("display", .arr [.obj [("name", .str "Given name"), ("locale", .str "en-NZ")]])])])]),
        ("scope", .str "EmployeeIDCredential"),
        ("cryptographic_binding_methods_supported", .arr [.str "did:key", .str "did:web"]),
        ("credential_signing_alg_values_supported", .arr [.str "ES256K", .str "EdDSA"]),
        ("proof_types_supported", .obj [("jwt", .obj [("proof_signing_alg_values_supported", .arr [.str "ES256K", .str "EdDSA"])])]),
        ("display", .arr [
          .obj [
            ("name", .str "Employee ID"),
            ("locale", .str "en-NZ"),
            ("logo", .obj [("uri", .str "https://vercre.github.io/assets/employee.png"), ("alt_text", .str "Vercre Logo")]),
            ("description", .str "Vercre employee ID credential"),
            ("background_color", .str "#323ed2"),
            ("background_image", .obj [
              ("uri", .str "https://vercre.github.io/assets/vercre-background.png"),
              ("alt_text", .str "Vercre Background")]),
            ("text_color", .str "#ffffff")]])])]),
    ("grants", .obj [("urn:ietf:params:oauth:grant-type:pre-authorized_code", .obj [("pre-authorized_code", .str "[pre-authorized_code]")])])]

/-- /repo/vercre-holder/tests/snapshots/preauth_narrow__credentials.snap. -/
def walletPreauthNarrowCredentials : Json :=
  .arr [
    .obj [
      ("id", .str "http://vercre.io/credentials/DeveloperCredential"),
      ("issuer", .str "http://vercre.io"),
      ("vc", .obj [
        ("@context", .arr [.str "https://www.w3.org/2018/credentials/v1", .str "http://vercre.io/credentials/v1"]),
        ("credentialSubject", .obj [
          ("family_name", .str "Person"),
          ("given_name", .str "Normal"),
          ("id", .str "did:key:z6Mkj8Jr1rg3YjVWWhg7ahEYJibqhjBgZt1pDCbT4Lv7D4HX"),
          ("proficiency", .str "3")]),
        ("description", .obj [("@value", .str "Vercre certified developer credential"), ("@language", .str "en-NZ")]),
        ("id", .str "http://vercre.io/credentials/DeveloperCredential"),
        ("issuer", .str "http://vercre.io"),
        ("name", .obj [("@value", .str "Developer"), ("@language", .str "en-NZ")]),
        ("type", .arr [.str "VerifiableCredential", .str "DeveloperCredential"]),
        ("validFrom", .str "[validFrom]")]),
      ("issued", .str "[issued]"),
      ("issuance_date", .str "[issuance_date]"),
      ("display", .arr [
        .obj [
          ("name", .str "Developer"),
          ("locale", .str "en-NZ"),
          ("logo", .obj [("uri", .str "https://vercre.github.io/assets/developer.png"), ("alt_text", .str "Vercre Logo")]),
          ("description", .str "Vercre certified developer credential"),
          ("background_color", .str "#010100"),
          ("background_image", .obj [("uri", .str "https://vercre.github.io/assets/vercre-background.png"), ("alt_text", .str "Vercre Background")]),
          ("text_color", .str "#ffffff")]]),
      ("logo", .obj [("image", .str ""), ("mediaType", .str "")])]]

/-- /repo/vercre-holder/tests/snapshots/preauth_narrow__token.snap. -/
def walletPreauthNarrowToken : Json :=
  .obj [("issuance_id", .str "[issuance_id]"), ("authorized", .obj [("Developer_JWT", .arr [.str "PHLDeveloper"])])]

/-- /repo/vercre-holder/tests/snapshots/preauth_no_grants__created.snap. -/
def walletPreauthNoGrantsCreated : Json :=
  .obj [
    ("issuance_id", .str "[issuance_id]"),
    ("issuer", .str "http://vercre.io"),
    ("offered", .obj [
      ("EmployeeID_JWT", .obj [
        ("format", .str "jwt_vc_json"),
        ("credential_definition", .obj [
          ("type", .arr [.str "VerifiableCredential", .str "EmployeeIDCredential"]),
          ("credentialSubject", .obj [
            ("address", .obj [
              ("country", .obj [("value_type", .str "string"), ("display", .arr [.obj [("name", .str "Country"), ("locale", .str "en-NZ")]])]),
              ("locality", .obj [("value_type", .str "string"), ("display", .arr [.obj [("name", .str "Locality"), ("locale", .str "en-NZ")]])]),
              ("region", .obj [("value_type", .str "string"), ("display", .arr [.obj [("name", .str "Region"), ("locale", .str "en-NZ")]])]),
              ("street_address", .obj [
                ("value_type", .str "string"),
                ("display", .arr [.obj [("name", .str "Street Address"), ("locale", .str "en-NZ")]])])]),
            ("email", .obj [
              ("mandatory", .bool true),
              ("value_type", .str "string"),
              ("display", .arr [.obj [("name", .str "Email"), ("locale", .str "en-NZ")]])]),
            ("family_name", .obj [
              ("mandatory", .bool true),
              ("value_type", .str "string"),
              ("display", .arr [.obj [("name", .str "Family name"), ("locale", .str "en-NZ")]])]),
            ("given_name", .obj [
              ("mandatory", .bool true),
              ("value_type", .str "string"),
              ("display", .arr [.obj [("name", .str "Given name"), ("locale", .str "en-NZ")]])])])]),
        ("scope", .str "EmployeeIDCredential"),
        ("cryptographic_binding_methods_supported", .arr [.str "did:key", .str "did:web"]),
        ("credential_signing_alg_values_supported", .arr [.str "ES256K", .str "EdDSA"]),
        ("proof_types_supported", .obj [("jwt", .obj [("proof_signing_alg_values_supported", .arr [.str "ES256K", .str "EdDSA"])])]),
        ("display", .arr [
          .obj [
            ("name", .str "Employee ID"),
            ("locale", .str "en-NZ"),
            ("logo", .obj [("uri", .str "https://vercre.github.io/assets/employee.png"), ("alt_text", .str "Vercre Logo")]),
            ("description", .str "Vercre employee ID credential"),
            ("background_color", .str "#323ed2"),
            ("background_image", .obj [
              ("uri", .str "https://vercre.github.io/assets/vercre-background.png"),
              ("alt_text", .str "Vercre Background")]),
            ("text_color", .str "#ffffff")]])])]),
    ("grants", .null)]

/-- /repo/vercre-holder/tests/snapshots/preauth_no_grants__credentials.snap. -/
def walletPreauthNoGrantsCredentials : Json :=
  .arr [
    .obj [
      ("id", .str "http://vercre.io/credentials/EmployeeIDCredential"),
      ("issuer", .str "http://vercre.io"),
      ("vc", .obj [
        ("@context", .arr [.str "https://www.w3.org/2018/credentials/v1", .str "http://vercre.io/credentials/v1"]),
        ("credentialSubject", .obj [
          ("address", .obj [("locality", .str "Wellington"), ("street_address", .str "123 Fake St")]),
          ("email", .str "normal.user@example.com"),
          ("family_name", .str "Person"),
          ("given_name", .str "Normal"),
          ("id", .str "did:key:z6Mkj8Jr1rg3YjVWWhg7ahEYJibqhjBgZt1pDCbT4Lv7D4HX")]),
        ("description", .obj [("@value", .str "Vercre employee ID credential"), ("@language", .str "en-NZ")]),
        ("id", .str "http://vercre.io/credentials/EmployeeIDCredential"),
        ("issuer", .str "http://vercre.io"),
        ("name", .obj [("@value", .str "Employee ID"), ("@language", .str "en-NZ")]),
        ("type", .arr [.str "VerifiableCredential", .str "EmployeeIDCredential"]),
        ("validFrom", .str "[validFrom]")]),
      ("issued", .str "[issued]"),
      ("issuance_date", .str "[issuance_date]"),
      ("display", .arr [
        .obj [
          ("name", .str "Employee ID"),
          ("locale", .str "en-NZ"),
          ("logo", .obj [("uri", .str "https://vercre.github.io/assets/employee.png"), ("alt_text", .str "Vercre Logo")]),
          ("description", .str "Vercre employee ID credential"),
          ("background_color", .str "#323ed2"),
          ("background_image", .obj [("uri", .str "https://vercre.github.io/assets/vercre-background.png"), ("alt_text", .str "Vercre Background")]),
          ("text_color", .str "#ffffff")]]),
      ("logo", .obj [("image", .str ""), ("mediaType", .str "")])]]

/-- /repo/vercre-holder/tests/snapshots/presentation__presentation_requested.snap. -/
def walletPresentationPresentationRequested : Json :=
  .obj [
    ("presentation_id", .str "[presentation_id]"),
    ("status", .str "Requested"),
    ("credentials", .arr [
      .obj [
        ("id", .str "https://example.com/credentials/3732"),
        ("issuer", .str "https://vercre.io"),
        ("vc", .obj [
          ("@context", .arr [.str "https://www.w3.org/2018/credentials/v1", .str "https://www.w3.org/2018/credentials/examples/v1"]),
          ("id", .str "https://example.com/credentials/3732"),
          ("type", .arr [.str "VerifiableCredential", .str "EmployeeIDCredential"]),
          ("issuer", .str "https://example.com/issuers/14"),
          ("credentialSubject", .obj [("employeeId", .str "1234567890"), ("id", .str "did:example:ebfeb1f712ebc6f1c276e12ec21")]),
          ("validFrom", .str "2023-11-20T23:21:55Z"),
          ("validUntil", .str "2033-12-20T23:21:55Z")]),
        ("issued", .str "[issued]"),
        ("issuance_date", .str "[issuance_date]")]])]

/-- /repo/vercre-holder/tests/snapshots/presentation__presentation_requested2.snap. -/
def walletPresentationPresentationRequested2 : Json :=
  .obj [
    ("presentation_id", .str "[presentation_id]"),
    ("status", .str "Requested"),
    ("credentials", .arr [
      .obj [
        ("id", .str "https://example.com/credentials/3732"),
        ("issuer", .str "https://vercre.io"),
        ("vc", .obj [
          ("@context", .arr [.str "https://www.w3.org/2018/credentials/v1", .str "https://www.w3.org/2018/credentials/examples/v1"]),
          ("id", .str "https://example.com/credentials/3732"),
          ("type", .arr [.str "VerifiableCredential", .str "EmployeeIDCredential"]),
          ("issuer", .str "https://example.com/issuers/14"),
          ("credentialSubject", .obj [("id", .str "did:example:ebfeb1f712ebc6f1c276e12ec21"), ("employeeId", .str "1234567890")]),
          ("validFrom", .str "2023-11-20T23:21:55Z"),
          ("validUntil", .str "2033-12-20T23:21:55Z")]),
        ("issued", .str "[issued]"),
        ("issuance_date", .str "[issuance_date]")]])]

/-- /repo/vercre-holder/tests/snapshots/presentation__response_response.snap. -/
def walletPresentationResponseResponse : Json :=
  .obj [("redirect_uri", .str "http://localhost:3000/cb"), ("response_code", .null)]

/-- /repo/vercre-holder/tests/snapshots/presentation__response_response2.snap. -/
def walletPresentationResponseResponse2 : Json :=
  .obj [("redirect_uri", .str "http://localhost:3000/cb"), ("response_code", .null)]

/-- /repo/vercre-holder/tests/snapshots/wallet_cred_def__claims.snap. -/
def walletWalletCredDefClaims : Json :=
  .obj [
    ("credential_definition", .obj [
      ("type", .arr [.str "VerifiableCredential", .str "EmployeeIDCredential"]),
      ("credentialSubject", .obj [
        ("address", .obj [
          ("country", .obj [("value_type", .str "string"), ("display", .arr [.obj [("name", .str "Country"), ("locale", .str "en-NZ")]])]),
          ("locality", .obj [("value_type", .str "string"), ("display", .arr [.obj [("name", .str "Locality"), ("locale", .str "en-NZ")]])]),
          ("region", .obj [("value_type", .str "string"), ("display", .arr [.obj [("name", .str "Region"), ("locale", .str "en-NZ")]])]),
          ("street_address", .obj [
            ("value_type", .str "string"),
            ("display", .arr [.obj [("name", .str "Street Address"), ("locale", .str "en-NZ")]])])]),
        ("email", .obj [
          ("mandatory", .bool true),
          ("value_type", .str "string"),
          ("display", .arr [.obj [("name", .str "Email"), ("locale", .str "en-NZ")]])]),
        ("family_name", .obj [
          ("mandatory", .bool true),
          ("value_type", .str "string"),
          ("display", .arr [.obj [("name", .str "Family name"), ("locale", .str "en-NZ")]])]),
        ("given_name", .obj [
          ("mandatory", .bool true),
          ("value_type", .str "string"),
          ("display", .arr [.obj [("name", .str "Given name"), ("locale", .str "en-NZ")]])])])])]

/-- /repo/vercre-holder/tests/snapshots/wallet_cred_def__credentials.snap. -/
def walletWalletCredDefCredentials : Json :=
  .arr [
    .obj [
      ("id", .str "http://vercre.io/credentials/EmployeeIDCredential"),
      ("issuer", .str "http://vercre.io"),
      ("vc", .obj [
        ("@context", .arr [.str "https://www.w3.org/2018/credentials/v1", .str "http://vercre.io/credentials/v1"]),
        ("credentialSubject", .obj [
          ("address", .obj [("locality", .str "Wellington"), ("street_address", .str "123 Fake St")]),
          ("email", .str "normal.user@example.com"),
          ("family_name", .str "Person"),
          ("given_name", .str "Normal"),
          ("id", .str "did:key:z6Mkj8Jr1rg3YjVWWhg7ahEYJibqhjBgZt1pDCbT4Lv7D4HX")]),
        ("description", .obj [("@value", .str "Vercre employee ID credential"), ("@language", .str "en-NZ")]),
        ("id", .str "http://vercre.io/credentials/EmployeeIDCredential"),
        ("issuer", .str "http://vercre.io"),
        ("name", .obj [("@value", .str "Employee ID"), ("@language", .str "en-NZ")]),
        ("type", .arr [.str "VerifiableCredential", .str "EmployeeIDCredential"]),
        ("validFrom", .str "[validFrom]")]),
      ("issued", .str "[issued]"),
      ("issuance_date", .str "[issuance_date]"),
      ("display", .arr [
        .obj [
          ("name", .str "Employee ID"),
          ("locale", .str "en-NZ"),
          ("logo", .obj [("uri", .str "https://vercre.github.io/assets/employee.png"), ("alt_text", .str "Vercre Logo")]),
          ("description", .str "Vercre employee ID credential"),
          ("background_color", .str "#323ed2"),
          ("background_image", .obj [("uri", .str "https://vercre.github.io/assets/vercre-background.png"), ("alt_text", .str "Vercre Background")]),
          ("text_color", .str "#ffffff")]]),
      ("logo", .obj [("image", .str ""), ("mediaType", .str "")])]]

/-- /repo/vercre-holder/tests/snapshots/wallet_format__credential_def.snap. -/
def walletWalletFormatCredentialDef : Json :=
  .obj [
    ("type", .arr [.str "VerifiableCredential", .str "EmployeeIDCredential"]),
    ("credentialSubject", .obj [
      ("address", .obj [
        ("country", .obj [("value_type", .str "string"), ("display", .arr [.obj [("name", .str "Country"), ("locale", .str "en-NZ")]])]),
        ("locality", .obj [("value_type", .str "string"), ("display", .arr [.obj [("name", .str "Locality"), ("locale", .str "en-NZ")]])]),
        ("region", .obj [("value_type", .str "string"), ("display", .arr [.obj [("name", .str "Region"), ("locale", .str "en-NZ")]])]),
        ("street_address", .obj [
          ("value_type", .str "string"),
          ("display", .arr [.obj [("name", .str "Street Address"), ("locale", .str "en-NZ")]])])]),
      ("email", .obj [
        ("mandatory", .bool true),
        ("value_type", .str "string"),
        ("display", .arr [.obj [("name", .str "Email"), ("locale", .str "en-NZ")]])]),
      ("family_name", .obj [
        ("mandatory", .bool true),
        ("value_type", .str "string"),
        ("display", .arr [.obj [("name", .str "Family name"), ("locale", .str "en-NZ")]])]),
      ("given_name", .obj [
        ("mandatory", .bool true),
        ("value_type", .str "string"),
        ("display", .arr [.obj [("name", .str "Given name"), ("locale", .str "en-NZ")]])])])]

/-- /repo/vercre-holder/tests/snapshots/wallet_format__credentials.snap. -/
def walletWalletFormatCredentials : Json :=
  .arr [
    .obj [
      ("id", .str "http://vercre.io/credentials/EmployeeIDCredential"),
      ("issuer", .str "http://vercre.io"),
      ("vc", .obj [
        ("@context", .arr [.str "https://www.w3.org/2018/credentials/v1", .str "http://vercre.io/credentials/v1"]),
        ("credentialSubject", .obj [
          ("address", .obj [("locality", .str "Wellington"), ("street_address", .str "123 Fake St")]),
          ("email", .str "normal.user@example.com"),
          ("family_name", .str "Person"),
          ("given_name", .str "Normal"),
          ("id", .str "did:key:z6Mkj8Jr1rg3YjVWWhg7ahEYJibqhjBgZt1pDCbT4Lv7D4HX")]),
        ("description", .obj [("@value", .str "Vercre employee ID credential"), ("@language", .str "en-NZ")]),
        ("id", .str "http://vercre.io/credentials/EmployeeIDCredential"),
        ("issuer", .str "http://vercre.io"),
        ("name", .obj [("@value", .str "Employee ID"), ("@language", .str "en-NZ")]),
        ("type", .arr [.str "VerifiableCredential", .str "EmployeeIDCredential"]),
        ("validFrom", .str "[validFrom]")]),
      ("issued", .str "[issued]"),
      ("issuance_date", .str "[issuance_date]"),
      ("display", .arr [
        .obj [
          ("name", .str "Employee ID"),
          ("locale", .str "en-NZ"),
          ("logo", .obj [("uri", .str "https://vercre.github.io/assets/employee.png"), ("alt_text", .str "Vercre Logo")]),
          ("description", .str "Vercre employee ID credential"),
          ("background_color", .str "#323ed2"),
          ("background_image", .obj [("uri", .str "https://vercre.github.io/assets/vercre-background.png"), ("alt_text", .str "Vercre Background")]),
          ("text_color", .str "#ffffff")]]),
      ("logo", .obj [("image", .str ""), ("mediaType", .str "")])]]

/-- /repo/vercre-holder/tests/snapshots/wallet_scope__auth_credentials.snap. -/
def walletWalletScopeAuthCredentials : Json :=
  .obj [("issuance_id", .str "[issuance_id]")]

/-- /repo/vercre-holder/tests/snapshots/wallet_scope__credentials.snap. -/
def walletWalletScopeCredentials : Json :=
  .arr [
    .obj [
      ("id", .str "http://vercre.io/credentials/EmployeeIDCredential"),
      ("issuer", .str "http://vercre.io"),
      ("vc", .obj [
        ("@context", .arr [.str "https://www.w3.org/2018/credentials/v1", .str "http://vercre.io/credentials/v1"]),
        ("credentialSubject", .obj [
          ("address", .obj [("locality", .str "Wellington"), ("street_address", .str "123 Fake St")]),
          ("email", .str "normal.user@example.com"),
          ("family_name", .str "Person"),
          ("given_name", .str "Normal"),
          ("id", .str "did:key:z6Mkj8Jr1rg3YjVWWhg7ahEYJibqhjBgZt1pDCbT4Lv7D4HX")]),
        ("description", .obj [("@value", .str "Vercre employee ID credential"), ("@language", .str "en-NZ")]),
        ("id", .str "http://vercre.io/credentials/EmployeeIDCredential"),
        ("issuer", .str "http://vercre.io"),
        ("name", .obj [("@value", .str "Employee ID"), ("@language", .str "en-NZ")]),
        ("type", .arr [.str "VerifiableCredential", .str "EmployeeIDCredential"]),
        ("validFrom", .str "[validFrom]")]),
      ("issued", .str "[issued]"),
      ("issuance_date", .str "[issuance_date]"),
      ("display", .arr [
        .obj [
          ("name", .str "Employee ID"),
          ("locale", .str "en-NZ"),
          ("logo", .obj [("uri", .str "https://vercre.github.io/assets/employee.png"), ("alt_text", .str "Vercre Logo")]),
          ("description", .str "Vercre employee ID credential"),
          ("background_color", .str "#323ed2"),
          ("background_image", .obj [("uri", .str "https://vercre.github.io/assets/vercre-background.png"), ("alt_text", .str "Vercre Background")]),
          ("text_color", .str "#ffffff")]]),
      ("logo", .obj [("image", .str ""), ("mediaType", .str "")])]]

end Verif.Conform
