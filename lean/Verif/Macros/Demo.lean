import Verif.Macros.Agree
/-!
# Calls of the macros (C131)

The calls are those shown in /repo/crates/macros/src/lib.rs, and such as go wrong.
-/
namespace Verif.Macros.Demo
open Verif Verif.Macros

/-- The Rust names in the calls of /repo/crates/macros/src/lib.rs 27-140. -/
def env : String → Rust
  | "CREDENTIAL_ISSUER" => .borrowed "http://vercre.io"
  | "CLIENT_ID" => .borrowed "96bfb9cb"
  | "subject_id" => .borrowed "normal_user"
  | "SendType::ByVal" => .sendType .byVal
  | "encode_string(..)" => .owned "challenge"
  | "pre_auth_code" => .borrowed "ABCDEF"
  | "jwt" => .borrowed "eyJ"
  | _ => .other

/-- /repo/crates/macros/src/lib.rs 31-38. -/
def offer (grants : List Value) : Fields :=
  [("credential_issuer", .expr "CREDENTIAL_ISSUER"), ("credential_configuration_ids", .arr [.str "EmployeeID_JWT"]), ("subject_id", .expr "subject_id"),
    ("grant_types", .arr grants), ("tx_code_required", .bool true), ("send_type", .expr "SendType::ByVal")]

/-- /repo/crates/macros/src/lib.rs 63-77, with these details and this response type. -/
def authorization (response : String) (details : List Value) : Fields :=
  [("credential_issuer", .expr "CREDENTIAL_ISSUER"), ("response_type", .str response), ("client_id", .expr "CLIENT_ID"),
    ("redirect_uri", .str "http://localhost:3000/callback"), ("state", .str "1234"), ("code_challenge", .expr "encode_string(..)"),
    ("code_challenge_method", .str "S256"), ("authorization_details", .arr details), ("subject_id", .expr "subject_id"), ("wallet_issuer", .expr "CREDENTIAL_ISSUER")]

/-- A detail as in /repo/crates/macros/src/lib.rs 71-74, with more written in it. -/
def detail (more : Fields) : Value := .obj ([("type", .str "openid_credential"), ("credential_configuration_id", .str "EmployeeID_JWT")] ++ more)

/-- /repo/crates/macros/src/lib.rs 103-109. -/
def token : Fields :=
  [("credential_issuer", .expr "CREDENTIAL_ISSUER"), ("client_id", .expr "CLIENT_ID"),
    ("grant_type", .str "urn:ietf:params:oauth:grant-type:pre-authorized_code"), ("pre-authorized_code", .expr "pre_auth_code"), ("tx_code", .str "1234")]

/-- /repo/crates/macros/src/lib.rs 130-138. -/
def credential : Fields :=
  [("credential_issuer", .expr "CREDENTIAL_ISSUER"), ("access_token", .str "access_token"), ("credential_identifier", .str "PHLEmployeeID"),
    ("proof", .obj [("proof_type", .str "jwt"), ("jwt", .expr "jwt")])]

/-- `C131_offer_request_partial` on the offer of the documentation. -/
example : OfferSays env (offer [.str "urn:ietf:params:oauth:grant-type:pre-authorized_code"])
    { credentialIssuer := "http://vercre.io"
      subjectId := some "normal_user"
      configIds := ["EmployeeID_JWT"]
      grantTypes := some [.preAuthorizedCode]
      txCodeRequired := true
      sendType := .byVal } := C131_offer_request_partial.1 rfl

/-- `C131_two_grants_never`: the same with both kinds. -/
example : createOffer env (offer [.str "urn:ietf:params:oauth:grant-type:pre-authorized_code", .str "authorization_code"]) = none :=
  C131_two_grants_never (l := [.str "urn:ietf:params:oauth:grant-type:pre-authorized_code", .str "authorization_code"]) (get_some.1 rfl) (Nat.le_refl 2)

/-- `C131_authorization_request_partial` on the request of the documentation. -/
example : AuthorizationSays env (IsDetail env) (authorization "code" [detail []])
    { credentialIssuer := "http://vercre.io"
      responseType := .code
      clientId := "96bfb9cb"
      redirectUri := some "http://localhost:3000/callback"
      state := some "1234"
      codeChallenge := "challenge"
      authorizationDetails := some [{ credential := .configurationId "EmployeeID_JWT" none, locations := none }]
      subjectId := "normal_user"
      walletIssuer := some "http://vercre.io" } := C131_authorization_request_partial rfl

/-- `C131_authorization_request_made_partial`. -/
example : ∃ r, authorizationRequest env (authorization "code" [detail []]) = some r :=
  C131_authorization_request_made_partial (C131_authorization_request_partial (env := env) (m := authorization "code" [detail []]) rfl)

/-- `C131_two_details_never`. -/
example : authorizationRequest env (authorization "code" [detail [], detail []]) = none :=
  (C131_two_details_never (l := [detail [], detail []]) (get_some.1 rfl) (Nat.le_refl 2)).1

/-- `C131_locations_lost`: a location is written. -/
example : ∃ r ds, authorizationRequest env (authorization "code" [detail [("locations", .arr [.str "http://vercre.io"])]]) = some r ∧
    r.authorizationDetails = some ds ∧ ds ≠ [] ∧ ∀ d ∈ ds, d.locations = none :=
  ⟨_, _, rfl, rfl, by simp, C131_locations_lost (env := env) (m := authorization "code" [detail [("locations", .arr [.str "http://vercre.io"])]]) rfl rfl⟩

/-- What is asked for when a claim is said to be mandatory. -/
def mandatory : Fields := [("credential_definition", .obj [("credentialSubject", .obj [("email", .obj [("mandatory", .bool true)])])])]

/-- `C131_mandatory_misread`. -/
example : ∃ r, authorizationRequest env (authorization "code" [detail mandatory]) = some r ∧
    ∃ (d : Wire.AuthorizationDetail) (x : Wire.CredentialDefinition) (cs s : Dict Wire.Claim), r.authorizationDetails = some [d] ∧
      ((∃ id, d.credential = .configurationId id (some (.w3c x))) ∨ d.credential = .format (.jwtVcJson x)) ∧
      x.credentialSubject = some cs ∧ cs.get? "email" = some (.set s) ∧ s.get? "mandatory" = some (.entry {}) :=
  ⟨_, rfl, C131_mandatory_misread (env := env) (m := authorization "code" [detail mandatory]) rfl (b := .bool true) nofun (get_some.1 rfl) (get_some.1 rfl)
    (get_some.1 rfl) (get_some.1 rfl)⟩

/-- `C131_response_type_lost`: the implicit flow is asked for. -/
example : ∃ r, authorizationRequest env (authorization "token" [detail []]) = some r ∧ r.responseType = .code :=
  ⟨_, rfl, C131_response_type_lost (env := env) (m := authorization "token" [detail []]) rfl (get_some.1 rfl)⟩

/-- `C131_token_request_partial` on the request of the documentation. -/
example : TokenSays env token
    { credentialIssuer := "http://vercre.io"
      clientId := some "96bfb9cb"
      grantType := .preAuthorizedCode "ABCDEF" (some "1234")
      authorizationDetails := none
      clientAssertion := none } := C131_token_request_partial.1 rfl

/-- `C131_verifier_needed`. -/
example : tokenRequest env [("credential_issuer", .expr "CREDENTIAL_ISSUER"), ("grant_type", .str "authorization_code"), ("code", .str "ABC")] = none :=
  C131_verifier_needed (get_some.1 rfl) (get_none.1 rfl)

/-- `C131_credential_request_partial` on the request of the documentation. -/
example : CredentialSays env credential
    { credentialIssuer := "http://vercre.io"
      accessToken := "access_token"
      credential := .identifier "PHLEmployeeID"
      proof := some "eyJ"
      encryption := none } := C131_credential_request_partial.1 rfl

/-- A request by format, with claims. -/
def byFormat : Fields :=
  [("credential_issuer", .expr "CREDENTIAL_ISSUER"), ("access_token", .str "access_token"), ("format", .str "jwt_vc_json"),
    ("credential_definition", .obj [("type", .arr [.str "VerifiableCredential"]), ("credentialSubject", .obj [("email", .obj [])])])]

/-- `C131_claims_lost`. -/
example : ∃ r d, credentialRequest env byFormat = some r ∧ r.credential = .format (.jwtVcJson d) ∧ d.credentialSubject = none :=
  ⟨_, _, rfl, rfl, C131_claims_lost (env := env) (m := byFormat) rfl rfl⟩

theorem known : Known env := by
  intro e
  unfold env
  split <;> simp

/-- `C131_offers_agree` and `C131_tokens_agree` on the calls of the documentation. -/
example : Wire.Macro.createOfferRequest (toFields env (offer [.str "authorization_code"])) = createOffer env (offer [.str "authorization_code"]) ∧
    (createOffer env (offer [.str "authorization_code"])).isSome = true ∧ Wire.Macro.tokenRequest (toFields env token) = tokenRequest env token :=
  ⟨C131_offers_agree known, rfl, C131_tokens_agree known⟩

/-- `C131_authorizations_agree` on a request with claims. -/
example : Wire.Macro.authorizationRequest (toFields env (authorization "code" [detail mandatory])) = authorizationRequest env (authorization "code" [detail mandatory]) :=
  C131_authorizations_agree known (by simp [TidyFields, Tidy, TidyList, authorization, detail, mandatory])

/-- `C131_credentials_agree` on the call of the documentation. -/
example : ∃ r r', credentialRequest env credential = some r ∧ Wire.Macro.credentialRequest (toFields env credential) = some r' ∧ SameRequest r r' :=
  have ⟨r', h⟩ := (C131_credentials_agree (m := credential) known).1 _ rfl
  ⟨_, r', rfl, h⟩

end Verif.Macros.Demo
