import Verif.Wire.ForeignProps
/-!
# C128, continued: metadata and presentations written by others
-/
namespace Verif.Wire
open Verifier (OAuthClient Metadata)

/-! ### Metadata -/

/-- C128: A configuration that an issuer publishes. -/
theorem C128_configuration {m : List (String × Json)} (scope : Option String) (binding algs : Option (List String)) (p d : Option Json)
    (proofs : Option (Dict (List String))) (display : Option (List CredentialDisplay)) (hp : optional (readDictOf readProofType) p = some proofs)
    (hd : optional (readVec readCredentialDisplay) d = some display) (fd : Json) (definition : CredentialDefinition) (hf : readDefinition fd = some definition)
    (h : Has m [("scope", txt scope), ("cryptographic_binding_methods_supported", txts binding), ("credential_signing_alg_values_supported", txts algs),
      ("proof_types_supported", p), ("display", d), ("format", txt (some "jwt_vc_json")), ("credential_definition", some fd)]) :
    readConfig (.obj m) = some { format := .jwtVcJson definition, scope := scope, bindingMethods := binding, signingAlgs := algs, proofTypes := proofs, display := display } := by
  have e1 := (C128_w3c_format fd definition hf).1 ((h.drop 5).restOf (names := configNames) (by simp [configNames]))
  unfold readConfig
  rw [(h.take 5).flat (names := configNames) rfl]
  simp only [List.take_succ_cons, List.take_zero, List.map_cons, List.map_nil, Option.bind_eq_bind, Option.bind_some, optional_txt, optional_txts, hp, hd, e1]

/-- C128: The looks of a credential. -/
theorem C128_credential_display {m : List (String × Json)} (name : String) (locale description background text : Option String) (l b : Option Json)
    (logo image : Option Image) (hl : optional readImage l = some logo) (hb : optional readImage b = some image)
    (h : Has m [("name", txt (some name)), ("locale", txt locale), ("logo", l), ("description", txt description), ("background_color", txt background),
      ("background_image", b), ("text_color", txt text)]) :
    readCredentialDisplay (.obj m) = some { name := name, locale := locale, logo := logo, description := description, backgroundColor := background,
                                            backgroundImage := image, textColor := text } := by
  have e1 : required readStr (txt (some name)) = some name := rfl
  unfold readCredentialDisplay
  rw [h.struct (names := ["name", "locale", "logo", "description", "background_color", "background_image", "text_color"]) rfl]
  simp only [List.map_cons, List.map_nil, Option.bind_eq_bind, Option.bind_some, optional_txt, hl, hb, e1]

/-- C128: An image. -/
theorem C128_image {m : List (String × Json)} (uri text : Option String) (h : Has m [("uri", txt uri), ("alt_text", txt text)]) :
    readImage (.obj m) = some { uri := uri, altText := text } := by
  unfold readImage
  rw [h.struct (names := ["uri", "alt_text"]) rfl]
  simp only [List.map_cons, List.map_nil, Option.bind_eq_bind, Option.bind_some, optional_txt]

/-- C128: The metadata of an issuer that says nothing about its own looks. -/
theorem C128_issuer_metadata_partial {m em bm : List (String × Json)} (issuer deferred notification signed : Option String) (servers : Option (List String)) (endpoint : String)
    (algs encs : List String) (encryption : Bool) (batch : Int) (hb : SoundI64 (some batch)) (cs : List (String × Json)) (configs : Dict CredentialConfiguration)
    (hc : readMap readConfig cs = some configs)
    (he : Has em [("alg_values_supported", txts (some algs)), ("enc_values_supported", txts (some encs)), ("encryption_required", truth (some encryption))])
    (hbm : Has bm [("batch_size", int (some batch))])
    (h : Has m [("credential_issuer", txt issuer), ("authorization_servers", txts servers), ("credential_endpoint", txt (some endpoint)),
      ("deferred_credential_endpoint", txt deferred), ("notification_endpoint", txt notification), ("credential_response_encryption", some (.obj em)),
      ("batch_credential_issuance", some (.obj bm)), ("signed_metadata", txt signed), ("display", none), ("credential_configurations_supported", some (.obj cs))]) :
    readIssuerMeta (.obj m) =
      some { credentialIssuer := issuer.getD "", authorizationServers := servers, credentialEndpoint := endpoint, deferredEndpoint := deferred,
             notificationEndpoint := notification, encryption := some { algs := algs, encs := encs, required := encryption }, batchSize := some batch,
             signedMetadata := signed, display := none, configs := configs } := by
  have e0 : required readBool (truth (some encryption)) = some encryption := rfl
  have e1 : readEncryption (.obj em) = some { algs := algs, encs := encs, required := encryption } := by
    unfold readEncryption
    rw [he.struct (names := ["alg_values_supported", "enc_values_supported", "encryption_required"]) rfl]
    simp only [List.map_cons, List.map_nil, Option.bind_eq_bind, Option.bind_some, required_txts, e0]
  have e2 : readBatch (.obj bm) = some batch := by
    unfold readBatch
    rw [hbm.struct (names := ["batch_size"]) rfl]
    simp only [List.map_cons, List.map_nil, Option.bind_eq_bind, Option.bind_some, required_int hb]
  have e3 : optional readEncryption (some (.obj em)) = some (some { algs := algs, encs := encs, required := encryption }) := congrArg (Option.map some) e1
  have e4 : optional readBatch (some (.obj bm)) = some (some batch) := congrArg (Option.map some) e2
  have e5 : required (readDictOf readConfig) (some (.obj cs)) = some configs := hc
  have e6 : optional readDisplay none = some none := rfl
  have e7 : required readStr (txt (some endpoint)) = some endpoint := rfl
  have e8 : issuerNames.mapM (single m) = _ := h.fields
  unfold readIssuerMeta
  simp only [e8, List.map_cons, List.map_nil, Option.bind_eq_bind, Option.bind_some, optional_txt, optional_txts, defaulted_txt, e3, e4, e5, e6, e7]

/-- C128 is violated for issuers that say how they look: OpenID4VCI has a list of displays, one for each language, vercre a single one. A list of objects is refused, and
the metadata with it. -/
theorem C128_issuer_displays_refused {m d : List (String × Json)} (ds : List Json) (h : Has m [("display", some (.arr (.obj d :: ds)))]) : readIssuerMeta (.obj m) = none := by
  have e : readDisplay (.arr (.obj d :: ds)) = none := by
    unfold readDisplay
    cases ds with
    | nil => rfl
    | cons a l => cases l <;> rfl
  have e1 : optional readDisplay (some (.arr (.obj d :: ds))) = none := optional_refused e (fun h => nomatch h)
  cases hr : readIssuerMeta (.obj m) with
  | none => rfl
  | some r =>
    exfalso
    unfold readIssuerMeta at hr
    obtain ⟨l, hl, hr⟩ := Option.bind_eq_some_iff.1 hr
    have hk := found hl 8 rfl (h _ (List.mem_singleton.2 rfl))
    match l, hr, hk with
    | [_, _, _, _, _, _, _, _, _, _], hr, hk =>
      cases hk
      obtain ⟨_, -, hr⟩ := Option.bind_eq_some_iff.1 hr
      obtain ⟨_, -, hr⟩ := Option.bind_eq_some_iff.1 hr
      obtain ⟨_, -, hr⟩ := Option.bind_eq_some_iff.1 hr
      obtain ⟨_, -, hr⟩ := Option.bind_eq_some_iff.1 hr
      obtain ⟨_, -, hr⟩ := Option.bind_eq_some_iff.1 hr
      obtain ⟨_, -, hr⟩ := Option.bind_eq_some_iff.1 hr
      obtain ⟨_, -, hr⟩ := Option.bind_eq_some_iff.1 hr
      obtain ⟨_, -, hr⟩ := Option.bind_eq_some_iff.1 hr
      obtain ⟨_, ht, -⟩ := Option.bind_eq_some_iff.1 hr
      rw [e1] at ht
      cases ht

/-- The names of the ways in which an authorization server answers, in OAuth 2.0 and JARM. -/
def modeSpec : ResponseMode → String
  | .query => "query"
  | .jarm => "jarm"

/-- The names of the ways in which clients authenticate, in OAuth 2.0. -/
def authSpec : Verifier.TokenEndpointAuth → String
  | .none => "none"
  | .clientSecretJwt => "client_secret_jwt"
  | .privateKeyJwt => "private_key_jwt"

/-- The names of signing algorithms, in JOSE. -/
def algSpec : SigningAlg → String
  | .es256k => "ES256K"
  | .edDsa => "EdDSA"

/-- The names of response types, in OAuth 2.0 and OpenID4VP. -/
def responseSpec : Verif.ResponseType → String
  | .code => "code"
  | .vpToken => "vp_token"
  | .idToken => "id_token vp_token"

/-- C128: The metadata of an authorization server that keeps to what vercre knows. -/
theorem C128_server_metadata_partial {m : List (String × Json)} (issuer authorization token : String) (jwks registration documentation policy tos revocation introspection signed
    par : Option String) (scopes locales revMethods revAlgs intMethods intAlgs : Option (List String)) (types : List Verif.ResponseType) (modes : Option (List ResponseMode))
    (grants : Option (List GrantType)) (methods : Option (List Verifier.TokenEndpointAuth)) (algs : Option (List SigningAlg)) (challenge : Option (List CodeChallengeMethod))
    (require : Option Bool) (anonymous : Bool)
    (h : Has m [("issuer", txt (some issuer)), ("authorization_endpoint", txt (some authorization)), ("token_endpoint", txt (some token)), ("jwks_uri", txt jwks),
      ("registration_endpoint", txt registration), ("scopes_supported", txts scopes), ("response_types_supported", names responseSpec (some types)),
      ("response_modes_supported", names modeSpec modes), ("grant_types_supported", names grantSpec grants),
      ("token_endpoint_auth_methods_supported", names authSpec methods), ("token_endpoint_auth_signing_alg_values_supported", names algSpec algs),
      ("service_documentation", txt documentation), ("ui_locales_supported", txts locales), ("op_policy_uri", txt policy), ("op_tos_uri", txt tos),
      ("revocation_endpoint", txt revocation), ("revocation_endpoint_auth_methods_supported", txts revMethods),
      ("revocation_endpoint_auth_signing_alg_values_supported", txts revAlgs), ("introspection_endpoint", txt introspection),
      ("introspection_endpoint_auth_methods_supported", txts intMethods), ("introspection_endpoint_auth_signing_alg_values_supported", txts intAlgs),
      ("code_challenge_methods_supported", names (fun _ => "S256") challenge), ("signed_metadata", txt signed), ("pushed_authorization_request_endpoint", txt par),
      ("require_pushed_authorization_requests", truth require), ("pre-authorized_grant_anonymous_access_supported", truth (some anonymous))]) :
    readServer (.obj m) =
      some { oauth := { issuer := issuer, authorizationEndpoint := authorization, tokenEndpoint := token, jwksUri := jwks, registrationEndpoint := registration,
                        scopesSupported := scopes, responseTypesSupported := types, responseModesSupported := modes, grantTypesSupported := grants,
                        authMethodsSupported := methods, authAlgsSupported := algs, serviceDocumentation := documentation, uiLocalesSupported := locales,
                        policyUri := policy, tosUri := tos, revocationEndpoint := revocation, revocationMethods := revMethods, revocationAlgs := revAlgs,
                        introspectionEndpoint := introspection, introspectionMethods := intMethods, introspectionAlgs := intAlgs, codeChallengeMethods := challenge,
                        signedMetadata := signed, parEndpoint := par, requirePar := require },
             anonymousAccess := anonymous } := by
  have h3 := (h.take 25).restOf (names := ["pre-authorized_grant_anonymous_access_supported"]) (by simp)
  have e1 : ∀ s : String, required readStr (txt (some s)) = some s := fun _ => rfl
  have e2 : serverNames.mapM (single (m.filter fun p => ¬ p.1 ∈ ["pre-authorized_grant_anonymous_access_supported"])) =
      some [txt (some issuer), txt (some authorization), txt (some token), txt jwks, txt registration, txts scopes, names responseSpec (some types), names modeSpec modes,
        names grantSpec grants, names authSpec methods, names algSpec algs, txt documentation, txts locales, txt policy, txt tos, txt revocation, txts revMethods,
        txts revAlgs, txt introspection, txts intMethods, txts intAlgs, names (fun _ => "S256") challenge, txt signed, txt par, truth require] := h3.fields
  have e3 : required readBool (truth (some anonymous)) = some anonymous := rfl
  have e4 := (h.drop 25).flat (names := ["pre-authorized_grant_anonymous_access_supported"]) rfl
  clear h h3
  have r1 : required (readVec readOauthResponse) (names responseSpec (some types)) = some types := required_names (fun a => by cases a <;> rfl) types
  have r2 : optional (readVec (readUnit modeOf)) (names modeSpec modes) = some modes := optional_names (fun a => by cases a <;> rfl) modes
  have r3 : optional (readVec (readUnit grantOf)) (names grantSpec grants) = some grants := optional_names readGrantSpec grants
  have r4 : optional (readVec (readUnit authOf)) (names authSpec methods) = some methods := optional_names (fun a => by cases a <;> rfl) methods
  have r5 : optional (readVec (readUnit algOf)) (names algSpec algs) = some algs := optional_names (fun a => by cases a <;> rfl) algs
  have r6 : optional (readVec readChallengeMethod) (names (fun _ => "S256") challenge) = some challenge := optional_names (fun a => by cases a; rfl) challenge
  have hb : ∀ {α β : Type} (a : α) (f : α → Option β), (some a >>= f) = f a := fun _ _ => rfl
  rw [readServer, e4]
  clear e4
  generalize (m.filter fun p => ¬ p.1 ∈ ["pre-authorized_grant_anonymous_access_supported"]) = rest at *
  have e5 : readOAuthServer rest =
      some { issuer := issuer, authorizationEndpoint := authorization, tokenEndpoint := token, jwksUri := jwks,
             registrationEndpoint := registration, scopesSupported := scopes, responseTypesSupported := types, responseModesSupported := modes,
             grantTypesSupported := grants, authMethodsSupported := methods, authAlgsSupported := algs, serviceDocumentation := documentation,
             uiLocalesSupported := locales, policyUri := policy, tosUri := tos, revocationEndpoint := revocation,
             revocationMethods := revMethods, revocationAlgs := revAlgs, introspectionEndpoint := introspection,
             introspectionMethods := intMethods, introspectionAlgs := intAlgs, codeChallengeMethods := challenge, signedMetadata := signed,
             parEndpoint := par, requirePar := require } := by
    rw [readOAuthServer, e2]
    clear e2
    simp only [hb, e1, optional_txt, optional_txts, optional_truth, r1, r2, r3, r4, r5, r6]
  simp only [List.drop_succ_cons, List.drop_zero, List.map_cons, List.map_nil, hb, e5, e3]

/-- What is read of a server's metadata is read member by member. -/
theorem readServer_members {m : List (String × Json)} {s : ServerMeta} (h : readServer (.obj m) = some s) :
    (∃ a, required readBool a ≠ none ∧ single m "pre-authorized_grant_anonymous_access_supported" = some a) ∧
    (∀ o, Says m "response_modes_supported" o → optional (readVec (readUnit modeOf)) o ≠ none) ∧
    (∀ o, Says m "grant_types_supported" o → optional (readVec (readUnit grantOf)) o ≠ none) ∧
    (∀ o, Says m "token_endpoint_auth_methods_supported" o → optional (readVec (readUnit authOf)) o ≠ none) ∧
    (∀ o, Says m "token_endpoint_auth_signing_alg_values_supported" o → optional (readVec (readUnit algOf)) o ≠ none) ∧
    (∀ o, Says m "code_challenge_methods_supported" o → optional (readVec readChallengeMethod) o ≠ none) := by
  unfold readServer flatFields at h
  obtain ⟨⟨l, rest⟩, hl, h⟩ := Option.bind_eq_some_iff.1 h
  obtain ⟨l0, hl0, e⟩ := Option.map_eq_some_iff.1 hl
  cases e
  have rs : ∀ {k o}, k ≠ "pre-authorized_grant_anonymous_access_supported" → Says m k o →
      Says (m.filter fun p => ¬ p.1 ∈ ["pre-authorized_grant_anonymous_access_supported"]) k o := fun {k o} hk hs =>
    (show Has m [(k, o)] from fun f hf => by cases List.mem_singleton.1 hf; exact hs).restOf (names := ["pre-authorized_grant_anonymous_access_supported"])
      (by simpa using hk) _ (List.mem_singleton.2 rfl)
  match l, hl0, h with
  | [a], hl0, h =>
    obtain ⟨o, ho, h⟩ := Option.bind_eq_some_iff.1 h
    obtain ⟨b, hb, h⟩ := Option.bind_eq_some_iff.1 h
    unfold readOAuthServer at ho
    obtain ⟨q, hq, ho⟩ := Option.bind_eq_some_iff.1 ho
    match q, hq, ho with
    | [i, a1, t, j, r, sc, rt, rm, gt, am, aa, sd, ul, po, to, re, rme, ra, ie, im, ia, cm, sm, pe, rp], hq, ho =>
      obtain ⟨_, x0, ho⟩ := Option.bind_eq_some_iff.1 ho
      obtain ⟨_, x1, ho⟩ := Option.bind_eq_some_iff.1 ho
      obtain ⟨_, x2, ho⟩ := Option.bind_eq_some_iff.1 ho
      obtain ⟨_, x3, ho⟩ := Option.bind_eq_some_iff.1 ho
      obtain ⟨_, x4, ho⟩ := Option.bind_eq_some_iff.1 ho
      obtain ⟨_, x5, ho⟩ := Option.bind_eq_some_iff.1 ho
      obtain ⟨_, x6, ho⟩ := Option.bind_eq_some_iff.1 ho
      obtain ⟨_, x7, ho⟩ := Option.bind_eq_some_iff.1 ho
      obtain ⟨_, x8, ho⟩ := Option.bind_eq_some_iff.1 ho
      obtain ⟨_, x9, ho⟩ := Option.bind_eq_some_iff.1 ho
      obtain ⟨_, x10, ho⟩ := Option.bind_eq_some_iff.1 ho
      obtain ⟨_, x11, ho⟩ := Option.bind_eq_some_iff.1 ho
      obtain ⟨_, x12, ho⟩ := Option.bind_eq_some_iff.1 ho
      obtain ⟨_, x13, ho⟩ := Option.bind_eq_some_iff.1 ho
      obtain ⟨_, x14, ho⟩ := Option.bind_eq_some_iff.1 ho
      obtain ⟨_, x15, ho⟩ := Option.bind_eq_some_iff.1 ho
      obtain ⟨_, x16, ho⟩ := Option.bind_eq_some_iff.1 ho
      obtain ⟨_, x17, ho⟩ := Option.bind_eq_some_iff.1 ho
      obtain ⟨_, x18, ho⟩ := Option.bind_eq_some_iff.1 ho
      obtain ⟨_, x19, ho⟩ := Option.bind_eq_some_iff.1 ho
      obtain ⟨_, x20, ho⟩ := Option.bind_eq_some_iff.1 ho
      obtain ⟨_, x21, ho⟩ := Option.bind_eq_some_iff.1 ho
      obtain ⟨_, x22, ho⟩ := Option.bind_eq_some_iff.1 ho
      obtain ⟨_, x23, ho⟩ := Option.bind_eq_some_iff.1 ho
      obtain ⟨_, x24, ho⟩ := Option.bind_eq_some_iff.1 ho
      refine ⟨⟨a, ?_, ?_⟩, ?_, ?_, ?_, ?_, ?_⟩
      · rw [hb]; exact fun h => nomatch h
      · rw [List.mapM_cons] at hl0
        obtain ⟨a', ha', hl0⟩ := Option.bind_eq_some_iff.1 hl0
        obtain ⟨_, hn, hl0⟩ := Option.bind_eq_some_iff.1 hl0
        cases hl0
        exact ha'
      · intro o hs
        cases found hq 7 rfl (rs (by decide) hs)
        rw [x7]; exact fun h => nomatch h
      · intro o hs
        cases found hq 8 rfl (rs (by decide) hs)
        rw [x8]; exact fun h => nomatch h
      · intro o hs
        cases found hq 9 rfl (rs (by decide) hs)
        rw [x9]; exact fun h => nomatch h
      · intro o hs
        cases found hq 10 rfl (rs (by decide) hs)
        rw [x10]; exact fun h => nomatch h
      · intro o hs
        cases found hq 21 rfl (rs (by decide) hs)
        rw [x21]; exact fun h => nomatch h

/-- C128 is violated for authorization servers that do not say whether they let in clients that do not identify themselves, which OpenID4VCI lets them leave out. -/
theorem C128_silent_server_refused {m : List (String × Json)} (h : Has m [("pre-authorized_grant_anonymous_access_supported", none)]) : readServer (.obj m) = none := by
  cases hr : readServer (.obj m) with
  | none => rfl
  | some s =>
    obtain ⟨⟨a, h1, h2⟩, -⟩ := readServer_members hr
    rw [h.get (List.mem_singleton.2 rfl)] at h2
    cases h2
    exact absurd rfl h1

/-- C128 is violated for authorization servers that know more than vercre: if they publish one grant, one way of answering, one way for clients to authenticate, one signing
algorithm or one code challenge method that vercre does not know, all their metadata is refused. -/
theorem C128_capable_server_refused {m : List (String × Json)} (js : List Json) (name : String) (hn : .str name ∈ js) :
    (name ∉ ["authorization_code", "urn:ietf:params:oauth:grant-type:pre-authorized_code"] → Has m [("grant_types_supported", some (.arr js))] → readServer (.obj m) = none) ∧
    (name ∉ ["query", "jarm"] → Has m [("response_modes_supported", some (.arr js))] → readServer (.obj m) = none) ∧
    (name ∉ ["none", "client_secret_jwt", "private_key_jwt"] → Has m [("token_endpoint_auth_methods_supported", some (.arr js))] → readServer (.obj m) = none) ∧
    (name ∉ ["ES256K", "EdDSA"] → Has m [("token_endpoint_auth_signing_alg_values_supported", some (.arr js))] → readServer (.obj m) = none) ∧
    (name ≠ "S256" → Has m [("code_challenge_methods_supported", some (.arr js))] → readServer (.obj m) = none) := by
  have none_of {α : Type} {r : Json → Option α} (hr : r (.str name) = none) : optional (readVec r) (some (.arr js)) = none :=
    optional_refused (readVec_refused hn hr) (fun h => nomatch h)
  refine ⟨fun hx h => ?_, fun hx h => ?_, fun hx h => ?_, fun hx h => ?_, fun hx h => ?_⟩ <;>
    (cases hr : readServer (.obj m) with
     | none => rfl
     | some s =>
       obtain ⟨-, h1, h2, h3, h4, h5⟩ := readServer_members hr
       have hs := h _ (List.mem_singleton.2 rfl)
       try simp only [List.mem_cons, List.not_mem_nil, or_false, not_or] at hx
       first
       | exact absurd (none_of (by simp [readUnit, grantOf, hx])) (h2 _ hs)
       | exact absurd (none_of (by simp [readUnit, modeOf, hx])) (h1 _ hs)
       | exact absurd (none_of (by simp [readUnit, authOf, hx])) (h3 _ hs)
       | exact absurd (none_of (by simp [readUnit, algOf, hx])) (h4 _ hs)
       | exact absurd (none_of (by simp [readChallengeMethod, readUnit, hx])) (h5 _ hs))

end Verif.Wire
