import Verif.Wire.ForeignProps
import Verif.Wire.ForeignMetaProps
import Verif.Wire.ForeignAskProps
import Verif.Wire.ForeignVcProps
/-!
# Examples for C128

For each theorem, a message as another implementation may write it, to which the theorem applies: members in another order, and members that this implementation
does not know.
-/
namespace Verif.Wire.Demo

theorem has_nil (m : List (String × Json)) : Has m [] := fun _ h => nomatch h

theorem has_cons {m : List (String × Json)} {k : String} {o : Option Json} {fs : List (String × Option Json)} (h : Says m k o) (hs : Has m fs) : Has m ((k, o) :: fs) := by
  intro f hf
  rcases List.mem_cons.1 hf with e | e
  · subst e; exact h
  · exact hs f e

theorem readVec_one {α : Type} {r : Json → Option α} {j : Json} {a : α} (h : r j = some a) : readVec r (.arr [j]) = some [a] := by simp [readVec, h]

/-- Shows what members a message on hand has. -/
local macro "members" : tactic => `(tactic| repeat (first | exact has_nil _ | refine has_cons rfl ?_))

/-! ### Offers -/

/-- C128_create_offer. -/
example : readCreateOffer (.obj [("send_type", .str "ByVal"), ("grant_types", .arr [.str "urn:ietf:params:oauth:grant-type:pre-authorized_code"]),
      ("credential_configuration_ids", .arr [.str "Employee"]), ("tx_code_required", .bool true), ("subject_id", .str "normal"), ("trace", .num "7")]) =
    some { credentialIssuer := "", subjectId := some "normal", configIds := ["Employee"], grantTypes := some [.preAuthorizedCode], txCodeRequired := true, sendType := .byVal } :=
  C128_create_offer none (some "normal") ["Employee"] (some [.preAuthorizedCode]) true "ByVal" (.inl rfl) (by members)

/-- A grant with a code, as another issuer writes it. -/
def codeGrant : List (String × Json) := [("authorization_server", .str "https://as.example"), ("issuer_state", .str "s")]

/-- C128_code_grant. -/
theorem codeGrant_read : readCodeGrant (.obj codeGrant) = some { issuerState := some "s", authorizationServer := some "https://as.example" } :=
  C128_code_grant (some "s") (some "https://as.example") (by members)

/-- A PIN, as another issuer describes it. -/
def pin : List (String × Json) := [("description", .str "sent by letter"), ("length", .num (4 : Int).repr), ("input_mode", .str "numeric")]

/-- A grant with a pre-authorized code and a PIN. -/
def preGrant : List (String × Json) := [("tx_code", .obj pin), ("interval", .num "5"), ("pre-authorized_code", .str "c")]

/-- C128_pre_authorized_grant. -/
theorem preGrant_read : readPreAuthorized (.obj preGrant) = some { preAuthorizedCode := "c", txCode := true, authorizationServer := none } :=
  C128_pre_authorized_grant (t := pin) "c" none (some "numeric") (some "sent by letter") true (some 4) (fun n h => by cases h; decide) (by members) (by members)

/-- An offer. -/
def offer : List (String × Json) :=
  [("grants", .obj [("urn:ietf:params:oauth:grant-type:pre-authorized_code", .obj preGrant), ("authorization_code", .obj codeGrant)]),
   ("credential_configuration_ids", .arr [.str "Employee", .str "Developer"]), ("credential_issuer", .str "https://issuer.example")]

/-- What it says. -/
def offerMeant : Issuer.CredentialOffer where
  credentialIssuer := "https://issuer.example"
  configIds := ["Employee", "Developer"]
  grants := some { authorizationCode := some { issuerState := some "s", authorizationServer := some "https://as.example" }
                   preAuthorizedCode := some { preAuthorizedCode := "c", txCode := true, authorizationServer := none } }

/-- C128_credential_offer. -/
theorem offer_read : readCredentialOffer (.obj offer) = some offerMeant :=
  C128_credential_offer (gm := [("urn:ietf:params:oauth:grant-type:pre-authorized_code", .obj preGrant), ("authorization_code", .obj codeGrant)]) (some "https://issuer.example") ["Employee", "Developer"] (some (.obj codeGrant)) (some (.obj preGrant)) _ _
    (congrArg (Option.map some) codeGrant_read) (congrArg (Option.map some) preGrant_read) (by members) (by members)

/-- C128_credential_offer_bare. -/
example : readCredentialOffer (.obj [("credential_configuration_ids", .arr [.str "Employee"]), ("credential_issuer", .str "https://issuer.example")]) =
    some { credentialIssuer := "https://issuer.example", configIds := ["Employee"], grants := none } :=
  C128_credential_offer_bare (some "https://issuer.example") ["Employee"] (by members)

/-- C128_offered, the offer itself. -/
example : readOffered (.obj [("credential_offer", .obj offer), ("tx_code", .str "1234")]) = some { offerType := .object offerMeant, txCode := some "1234" } :=
  (C128_offered (some "1234")).1 _ _ offer_read (by members)

/-- C128_offered, where to fetch it. -/
example : readOffered (.obj [("credential_offer_uri", .str "https://issuer.example/offer/1")]) = some { offerType := .uri "https://issuer.example/offer/1", txCode := none } :=
  (C128_offered none).2 _ (by members)

/-! ### Authorization and tokens -/

/-- C128_authorization_reply. -/
example : readAuthorizationReply (.obj [("redirect_uri", .str "https://wallet.example/cb"), ("state", .str "s"), ("iss", .str "https://as.example"), ("code", .str "c")]) =
    some { code := "c", state := some "s", redirectUri := "https://wallet.example/cb" } :=
  C128_authorization_reply "c" "https://wallet.example/cb" (some "s") (by members)

/-- C128_pushed_reply. -/
example : readParReply (.obj [("expires_in", .num (600 : Int).repr), ("request_uri", .str "urn:x")]) = some { requestUri := "urn:x", expiresIn := 600 } :=
  C128_pushed_reply "urn:x" 600 (fun n h => by cases h; decide) (by members)

/-- A detail that names a configuration. -/
def detail : List (String × Json) := [("credential_configuration_id", .str "Employee"), ("type", .str "openid_credential"), ("locations", .arr [.str "https://issuer.example"])]

/-- C128_detail_by_configuration. -/
theorem detail_read : readDetail (.obj detail) = some { credential := .configurationId "Employee" none, locations := some ["https://issuer.example"] } :=
  (C128_detail_by_configuration "Employee" (some ["https://issuer.example"])).1 (by members)

/-- C128_token_request_code. -/
example : (readTokenRequest (.obj [("redirect_uri", .str "https://wallet.example/cb"), ("code", .str "c"), ("client_id", .str "wallet"), ("grant_type", .str "authorization_code"),
      ("authorization_details", .arr [.obj detail]), ("code_verifier", .str "v"), ("resource", .str "https://issuer.example")])).isSome = true := by
  rw [C128_token_request_code none (some "wallet") (some "https://wallet.example/cb") (some "v") none "c" (some (.arr [.obj detail])) (some [_])
    (congrArg (Option.map some) (readVec_one detail_read)) (by members)]; rfl

/-- C128_token_request_pre_authorized. -/
example : (readTokenRequest (.obj [("tx_code", .str "1234"), ("pre-authorized_code", .str "c"), ("grant_type", .str "urn:ietf:params:oauth:grant-type:pre-authorized_code"),
      ("client_assertion", .str "jwt"), ("client_assertion_type", .str "urn:ietf:params:oauth:client-assertion-type:jwt-bearer")])).isSome = true := by
  rw [C128_token_request_pre_authorized none none (some "1234") (some "jwt") "c" none none rfl (by members)]; rfl

/-- C128_token_response_partial. -/
example : (readTokenResponse (.obj [("token_type", .str "Bearer"), ("c_nonce_expires_in", .num (86400 : Int).repr), ("expires_in", .num (3600 : Int).repr), ("scope", .str "openid"),
      ("c_nonce", .str "n"), ("access_token", .str "t")])).map (fun r => (r.accessToken, r.cNonce, r.expiresIn)) = some ("t", some "n", 3600) := by
  rw [C128_token_response_partial "t" (some "n") 3600 (some 86400) none none (fun n h => by cases h; decide) (fun n h => by cases h; decide) rfl (by members)]; rfl

/-- C128_token_type_refused. -/
example : readTokenResponse (.obj [("token_type", .str "bearer"), ("access_token", .str "t"), ("expires_in", .num "3600")]) = none :=
  C128_token_type_refused "bearer" (by decide) (by members)

/-! ### Formats and credentials -/

/-- A credential definition. -/
def definition : List (String × Json) := [("type", .arr [.str "VerifiableCredential", .str "EmployeeID"]), ("@context", .arr [.str "https://www.w3.org/2018/credentials/v1"])]

/-- C128_credential_definition. -/
theorem definition_read : readDefinition (.obj definition) =
    some { context := some ["https://www.w3.org/2018/credentials/v1"], type_ := some ["VerifiableCredential", "EmployeeID"], credentialSubject := none } :=
  C128_credential_definition (some ["https://www.w3.org/2018/credentials/v1"]) (some ["VerifiableCredential", "EmployeeID"]) none none rfl (by members)

/-- C128_w3c_format. -/
example : (readFormat [("credential_definition", .obj definition), ("format", .str "jwt_vc_json")]).isSome = true := by
  rw [(C128_w3c_format _ _ definition_read).1 (by members)]; rfl

/-- C128_linked_data_refused. -/
example : readFormat [("format", .str "ldp_vc"), ("credential_definition", .obj definition)] = none := C128_linked_data_refused (by members)

/-- C128_named_format. -/
example : readFormat [("doctype", .str "org.iso.18013.5.1.mDL"), ("format", .str "mso_mdoc")] = some (.isoMdl "org.iso.18013.5.1.mDL" none) ∧
    readFormat [("vct", .str "https://issuer.example/id"), ("format", .str "vc+sd-jwt")] = some (.vcSdJwt "https://issuer.example/id" none) :=
  ⟨(C128_named_format _ none none rfl).1 (by members), (C128_named_format _ none none rfl).2 (by members)⟩

/-- C128_credential_request_by_identifier, with a proof. -/
example : (readCredentialRequest (.obj [("proof", .obj [("jwt", .str "j"), ("proof_type", .str "jwt")]), ("credential_identifier", .str "emp-1")])).isSome = true := by
  rw [(C128_credential_request_by_identifier none none "emp-1" none).1 [("jwt", .str "j"), ("proof_type", .str "jwt")] "j" (by members) (by members)]; rfl

/-- C128_credential_request_by_format. -/
example : (readCredentialRequest (.obj [("credential_definition", .obj definition), ("format", .str "jwt_vc_json")])).isSome = true := by
  rw [(C128_credential_request_by_format none none none).1 _ _ definition_read (by members)]; rfl

/-- C128_credential_response, a credential. -/
example : (readCredentialResponse readStr (.obj [("notification_id", .str "n"), ("credential", .str "j"), ("c_nonce", .str "x"), ("c_nonce_expires_in", .num (60 : Int).repr)])).isSome = true := by
  rw [(C128_credential_response readStr (some "x") (some "n") (some 60) (fun n h => by cases h; decide)).1 "j" (by members)]; rfl

/-- C128_deferred_request. -/
example : (readDeferredRequest (.obj [("transaction_id", .str "t")])).isSome = true := by
  rw [C128_deferred_request none none "t" (by members)]; rfl

/-- C128_notification. -/
example : (readNotification (.obj [("event", .str "credential_failure"), ("notification_id", .str "n"), ("event_description", .str "no room")])).isSome = true := by
  rw [C128_notification none none (some "no room") "n" .failure (by members)]; rfl

/-! ### Metadata -/

/-- C128_image. -/
theorem image_read : readImage (.obj [("alt_text", .str "logo"), ("uri", .str "https://issuer.example/logo")]) = some { uri := some "https://issuer.example/logo", altText := some "logo" } :=
  C128_image (some "https://issuer.example/logo") (some "logo") (by members)

/-- How a credential is shown. -/
def display : List (String × Json) := [("locale", .str "en"), ("logo", .obj [("alt_text", .str "logo"), ("uri", .str "https://issuer.example/logo")]), ("name", .str "Employee")]

/-- C128_credential_display. -/
theorem display_read : readCredentialDisplay (.obj display) =
    some { name := "Employee", locale := some "en", logo := some { uri := some "https://issuer.example/logo", altText := some "logo" } } :=
  C128_credential_display "Employee" (some "en") none none none (some (.obj [("alt_text", .str "logo"), ("uri", .str "https://issuer.example/logo")])) none (some _) none
    (congrArg (Option.map some) image_read) rfl (by members)

/-- A configuration. -/
def config : List (String × Json) := [("credential_definition", .obj definition), ("display", .arr [.obj display]), ("scope", .str "EmployeeID"), ("format", .str "jwt_vc_json"),
  ("order", .num "1")]

/-- C128_configuration. -/
theorem config_read : ∃ c, readConfig (.obj config) = some c :=
  ⟨_, C128_configuration (some "EmployeeID") none none none (some (.arr [.obj display])) none (some [_]) rfl (congrArg (Option.map some) (readVec_one display_read)) _ _
    definition_read (by members)⟩

/-- Metadata of an issuer, with two configurations. -/
def metadata : List (String × Json) :=
  [("credential_configurations_supported", .obj [("Employee", .obj config)]), ("credential_endpoint", .str "https://issuer.example/credential"),
   ("credential_issuer", .str "https://issuer.example"), ("nonce_endpoint", .str "https://issuer.example/nonce"),
   ("batch_credential_issuance", .obj [("batch_size", .num (10 : Int).repr)]),
   ("credential_response_encryption", .obj [("encryption_required", .bool false), ("enc_values_supported", .arr [.str "A128GCM"]), ("alg_values_supported", .arr [.str "ECDH-ES"])])]

/-- C128_issuer_metadata_partial. -/
example : (readIssuerMeta (.obj metadata)).isSome = true := by
  obtain ⟨c, hc⟩ := config_read
  rw [C128_issuer_metadata_partial (em := [("encryption_required", .bool false), ("enc_values_supported", .arr [.str "A128GCM"]), ("alg_values_supported", .arr [.str "ECDH-ES"])])
    (bm := [("batch_size", .num (10 : Int).repr)]) (some "https://issuer.example") none none none none "https://issuer.example/credential" ["ECDH-ES"] ["A128GCM"] false 10
    (fun n h => by cases h; decide) [("Employee", .obj config)] [("Employee", c)] (by simp [readMap, readMap.go, hc]; rfl) (by members) (by members) (by members)]
  rfl

/-- C128_issuer_displays_refused. -/
example : readIssuerMeta (.obj (("display", .arr [.obj [("name", .str "Example")]]) :: metadata)) = none := C128_issuer_displays_refused [] (by members)

/-- Metadata of an authorization server. -/
def server : List (String × Json) :=
  [("token_endpoint", .str "https://as.example/token"), ("authorization_endpoint", .str "https://as.example/authorize"), ("issuer", .str "https://as.example"),
   ("response_types_supported", .arr [.str "code"]), ("grant_types_supported", .arr [.str "authorization_code"]), ("code_challenge_methods_supported", .arr [.str "S256"]),
   ("authorization_response_iss_parameter_supported", .bool true), ("pre-authorized_grant_anonymous_access_supported", .bool true)]

/-- C128_server_metadata_partial. -/
example : (readServer (.obj server)).isSome = true := by
  rw [C128_server_metadata_partial "https://as.example" "https://as.example/authorize" "https://as.example/token" none none none none none none none none none none none none none
    none none [.code] none (some [.authorizationCode]) none none (some [.s256]) none true (by members)]
  rfl

/-- C128_silent_server_refused. -/
example : readServer (.obj (server.take 7)) = none := C128_silent_server_refused (by members)

/-! ### Presentations -/

/-- C128_client_partial. -/
example : (readClient [("redirect_uris", .arr [.str "https://verifier.example/cb"]), ("client_id", .str "https://verifier.example"), ("vp_formats", .obj [])]).isSome = true := by
  rw [C128_client_partial "https://verifier.example" none none none none none none none none none none none none none none none (some ["https://verifier.example/cb"]) none none
    none none (fun n h => nomatch h) (fun n h => nomatch h) (by members)]
  rfl

/-- C128_client_with_contacts_refused. -/
example : readClient [("client_id", .str "https://verifier.example"), ("contacts", .arr [.str "ve7jtb@example.org"])] = none ∧
    readClient [("client_id", .str "https://verifier.example"), ("jwks", .obj [("keys", .arr [])])] = none :=
  ⟨(C128_client_with_contacts_refused [.str "ve7jtb@example.org"] []).1 (by members), (C128_client_with_contacts_refused [] [("keys", .arr [])]).2 (by members)⟩

/-- A filter. -/
def filter : List (String × Json) := [("const", .str "EmployeeID"), ("type", .str "string")]

/-- C128_filter_partial. -/
theorem filter_read : readFilter (.obj filter) = some ⟨"string", .const "EmployeeID"⟩ := (C128_filter_partial "string" "EmployeeID").1 _ (.inr rfl)

/-- A field. -/
def field : List (String × Json) := [("filter", .obj filter), ("path", .arr [.str "$.type"])]

/-- C128_field. -/
theorem field_read : readField (.obj field) = some { path := ["$.type"], filter := some ⟨"string", .const "EmployeeID"⟩ } :=
  C128_field ["$.type"] none none none none none none (some (.obj filter)) (some _) (congrArg (Option.map some) filter_read) (by members)

/-- A descriptor. -/
def descriptor : List (String × Json) := [("constraints", .obj [("limit_disclosure", .str "required"), ("fields", .arr [.obj field])]), ("id", .str "employee")]

/-- C128_descriptor. -/
theorem descriptor_read : readDescriptor (.obj descriptor) =
    some { id := "employee", constraints := { fields := some [{ path := ["$.type"], filter := some ⟨"string", .const "EmployeeID"⟩ }], limitDisclosure := some "required" } } :=
  C128_descriptor (cm := [("limit_disclosure", .str "required"), ("fields", .arr [.obj field])]) "employee" none none (some "required") none (some (.arr [.obj field])) none (some [_]) rfl
    (congrArg (Option.map some) (readVec_one field_read)) (by members) (by members)

/-- A definition. -/
def asked : List (String × Json) := [("input_descriptors", .arr [.obj descriptor]), ("id", .str "d"), ("submission_requirements", .arr [])]

/-- C128_definition. -/
theorem asked_read : ∃ a, readAsked (.obj asked) = some a :=
  ⟨_, C128_definition "d" none none none (.arr [.obj descriptor]) none [_] rfl (readVec_one descriptor_read) (by members)⟩

/-- A request object. -/
def requestObject : List (String × Json) :=
  [("client_id", .str "https://verifier.example"), ("nonce", .str "n"), ("response_type", .str "vp_token"), ("response_mode", .str "direct_post"),
   ("response_uri", .str "https://verifier.example/cb"), ("aud", .str "https://self-issued.me/v2"), ("presentation_definition", .obj asked), ("client_metadata", .obj [("client_id", .str "v")])]

/-- C128_request_object. -/
example (md : Verifier.Metadata) (h : readMetadata (.obj [("client_id", .str "v")]) = some md) : (readAsk (.obj requestObject)).isSome = true := by
  obtain ⟨a, ha⟩ := asked_read
  rw [C128_request_object .vpToken "https://verifier.example" "n" none (some "direct_post") (some "https://verifier.example/cb") none none none a _ md ha h (by members)]
  rfl

/-- Its hypothesis. -/
example : (readMetadata (.obj [("client_id", .str "v")])).isSome = true := by decide +kernel

/-- Where a credential is found in an answer. -/
def mapping : List (String × Json) := [("path_nested", .obj [("path", .str "$.verifiableCredential[0]"), ("format", .str "jwt_vc_json")]), ("path", .str "$"), ("format", .str "jwt_vp_json"),
  ("id", .str "employee")]

/-- C128_mapping_partial. -/
theorem mapping_read : readMapping (.obj mapping) =
    some { id := "employee", format := "jwt_vp_json", path := "$", pathNested := { format := "jwt_vc_json", path := "$.verifiableCredential[0]" } } :=
  C128_mapping_partial (nm := [("path", .str "$.verifiableCredential[0]"), ("format", .str "jwt_vc_json")]) "employee" "jwt_vp_json" "$" "jwt_vc_json" "$.verifiableCredential[0]" (by members)
    (by members)

/-- C128_direct_mapping_refused. -/
example : readMapping (.obj [("path", .str "$"), ("format", .str "mso_mdoc"), ("id", .str "mdl")]) = none := C128_direct_mapping_refused (by members)

/-- C128_answer_partial. -/
example : (readAnswer readStr (.obj [("state", .str "s"), ("presentation_submission", .obj [("descriptor_map", .arr [.obj mapping]), ("id", .str "a"), ("definition_id", .str "d")]),
      ("vp_token", .arr [.str "jwt"])])).isSome = true := by
  rw [C128_answer_partial readStr (sm := [("descriptor_map", .arr [.obj mapping]), ("id", .str "a"), ("definition_id", .str "d")]) "a" "d" (some "s") ["jwt"] (.arr [.obj mapping]) [_]
    (readVec_one mapping_read) (by members) (by members)]
  rfl

/-- C128_single_presentation_refused. -/
example : readAnswer readStr (.obj [("vp_token", .str "jwt"), ("state", .str "s")]) = none := C128_single_presentation_refused readStr "jwt" (by members)

/-- C128_redirect. -/
example : readRedirect (.obj [("redirect_uri", .str "https://verifier.example/done#response_code=1")]) =
    some { redirectUri := some "https://verifier.example/done#response_code=1", responseCode := none } :=
  C128_redirect (some "https://verifier.example/done#response_code=1") none (by members)

/-! ### Credentials -/

/-- C128_credential_issuer. -/
example : (readIssuer (.obj [("name", .str "Example"), ("id", .str "did:example:issuer")])).isSome = true := by
  rw [C128_credential_issuer "did:example:issuer" [("name", .str "Example")] rfl (by members)]; rfl

/-- C128_subject. -/
theorem subject_read : readSubject (.obj [("degree", .str "BSc"), ("id", .str "did:example:holder")]) = some { id := some "did:example:holder", claims := [("degree", .str "BSc")] } :=
  C128_subject (some "did:example:holder") [("degree", .str "BSc")] rfl (by members)

/-- A credential. -/
def credential : List (String × Json) :=
  [("credentialSubject", .obj [("degree", .str "BSc"), ("id", .str "did:example:holder")]), ("issuer", .str "did:example:issuer"), ("type", .arr [.str "VerifiableCredential"]),
   ("@context", .arr [.str "https://www.w3.org/ns/credentials/v2"]), ("confidenceMethod", .obj [])]

/-- C128_credential. -/
theorem credential_read (T : TimeText) : ∃ vc, readVc T (.obj credential) = some vc :=
  ⟨_, C128_credential T ["https://www.w3.org/ns/credentials/v2"] ["VerifiableCredential"] none (.str "did:example:issuer") (.obj [("degree", .str "BSc"), ("id", .str "did:example:holder")])
    (.string "did:example:issuer") (.one _) none none none none none none none none none none none none none none none none none none none none rfl
    (by simp only [readQuota, subject_read]; rfl) rfl rfl rfl rfl rfl rfl rfl rfl rfl (by members)⟩

/-- C128_status_refused. -/
example (T : TimeText) : readVc T (.obj (("credentialStatus", .obj [("type", .str "BitstringStatusListEntry"), ("statusPurpose", .str "revocation")]) :: credential)) = none :=
  C128_status_refused T (sm := [("type", .str "BitstringStatusListEntry"), ("statusPurpose", .str "revocation")]) (by members) (by members)

/-- C128_credential_claims. -/
example (T : TimeText) : ∃ c, readVcClaims T (.obj [("vc", .obj credential), ("iss", .str "did:example:issuer"), ("sub", .str "did:example:holder"), ("jti", .str "urn:1"),
      ("iat", .num (1700000000 : Int).repr)]) = some c := by
  obtain ⟨vc, h⟩ := credential_read T
  exact ⟨_, C128_credential_claims T "did:example:holder" "did:example:issuer" "urn:1" none none 1700000000 _ vc (fun n h => nomatch h) (fun n h => nomatch h)
    (fun n h => by cases h; decide) h (by members)⟩

/-- C128_nameless_claims_refused. -/
example (T : TimeText) : readVcClaims T (.obj [("vc", .obj credential), ("iss", .str "did:example:issuer"), ("iat", .num "1700000000")]) = none :=
  C128_nameless_claims_refused T (.inl (by members))

end Verif.Wire.Demo
