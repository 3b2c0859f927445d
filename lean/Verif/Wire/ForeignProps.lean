import Verif.Wire.Foreign
/-!
# C128: Messages written by other implementations are understood

Each theorem gives the names of the members of a message as OpenID4VCI, OpenID4VP, OAuth 2.0 and DIF Presentation Exchange have them, says what value each has, and
concludes how the message is understood; whatever the order of the members, and whatever other members there are. Members that are objects themselves are
given by how they are understood.
-/
namespace Verif.Wire

/-! ### Offers -/

/-- C128: A request to make an offer. -/
theorem C128_create_offer {m : List (String × Json)} (issuer subject : Option String) (ids : List String) (grants : Option (List GrantType)) (tx : Bool) (send : String)
    (hs : send = "ByVal" ∨ send = "ByRef")
    (h : Has m [("credential_issuer", txt issuer), ("subject_id", txt subject), ("credential_configuration_ids", txts (some ids)), ("grant_types", names grantSpec grants),
      ("tx_code_required", truth (some tx)), ("send_type", txt (some send))]) :
    readCreateOffer (.obj m) = some { credentialIssuer := issuer.getD "", subjectId := subject, configIds := ids, grantTypes := grants, txCodeRequired := tx,
                                      sendType := if send = "ByVal" then .byVal else .byRef } := by
  have e1 : required readBool (truth (some tx)) = some tx := rfl
  have e2 : required (readUnit sendOf) (txt (some send)) = some (if send = "ByVal" then .byVal else .byRef) := by
    rcases hs with rfl | rfl <;> rfl
  unfold readCreateOffer
  rw [h.struct (names := ["credential_issuer", "subject_id", "credential_configuration_ids", "grant_types", "tx_code_required", "send_type"]) rfl]
  simp only [List.map_cons, List.map_nil, Option.bind_eq_bind, Option.bind_some, optional_txt, defaulted_txt, required_txts, optional_names readGrantSpec, e1, e2]

/-- C128: The grants of an offer: a code that the wallet gets from the authorization endpoint. -/
theorem C128_code_grant {m : List (String × Json)} (state server : Option String) (h : Has m [("issuer_state", txt state), ("authorization_server", txt server)]) :
    readCodeGrant (.obj m) = some { issuerState := state, authorizationServer := server } := by
  unfold readCodeGrant
  rw [h.struct (names := ["issuer_state", "authorization_server"]) rfl]
  simp only [List.map_cons, List.map_nil, Option.bind_eq_bind, Option.bind_some, optional_txt]

/-- C128: The grants of an offer: a code that comes with it, with a PIN or without. -/
theorem C128_pre_authorized_grant {m t : List (String × Json)} (code : String) (server mode description : Option String) (pin : Bool) (length : Option Int)
    (hl : ∀ n, length = some n → -2 ^ 31 ≤ n ∧ n < 2 ^ 31)
    (ht : Has t [("input_mode", txt mode), ("length", int length), ("description", txt description)])
    (h : Has m [("pre-authorized_code", txt (some code)), ("tx_code", if pin then some (.obj t) else none), ("authorization_server", txt server)]) :
    readPreAuthorized (.obj m) = some { preAuthorizedCode := code, txCode := pin, authorizationServer := server } := by
  have e0 : optional readI32 (int length) = some length := by
    cases length with
    | none => rfl
    | some n =>
      have hr := hl n rfl
      have e : readI64 (.num n.repr) = some n := readI64_write ⟨by omega, by omega⟩
      have e' : readI32 (.num n.repr) = some n := by simp only [readI32, e, Option.filter_some, hr, and_self, decide_true, if_true]
      exact congrArg (Option.map some) e'
  have e1 : optional readTxCode (if pin then some (.obj t) else none) = some (if pin then some () else none) := by
    cases pin with
    | false => rfl
    | true =>
      suffices h : readTxCode (.obj t) = some () from congrArg (Option.map some) h
      unfold readTxCode
      rw [ht.struct (names := ["input_mode", "length", "description"]) rfl]
      simp only [List.map_cons, List.map_nil, Option.bind_eq_bind, Option.bind_some, optional_txt, e0]
  have e2 : required readStr (txt (some code)) = some code := rfl
  unfold readPreAuthorized
  rw [h.struct (names := ["pre-authorized_code", "tx_code", "authorization_server"]) rfl]
  simp only [List.map_cons, List.map_nil, Option.bind_eq_bind, Option.bind_some, optional_txt, e1, e2]
  cases pin <;> rfl

/-- C128: An offer with its grants. -/
theorem C128_credential_offer {m gm : List (String × Json)} (issuer : Option String) (ids : List String) (a p : Option Json) (code : Option Issuer.AuthorizationCodeGrant)
    (pre : Option Issuer.PreAuthorizedCodeGrant) (ha : optional readCodeGrant a = some code) (hp : optional readPreAuthorized p = some pre)
    (hg : Has gm [("authorization_code", a), ("urn:ietf:params:oauth:grant-type:pre-authorized_code", p)])
    (h : Has m [("credential_issuer", txt issuer), ("credential_configuration_ids", txts (some ids)), ("grants", some (.obj gm))]) :
    readCredentialOffer (.obj m) = some { credentialIssuer := issuer.getD "", configIds := ids, grants := some { authorizationCode := code, preAuthorizedCode := pre } } := by
  have e1 : readGrants (.obj gm) = some { authorizationCode := code, preAuthorizedCode := pre } := by
    unfold readGrants
    rw [hg.struct (names := ["authorization_code", "urn:ietf:params:oauth:grant-type:pre-authorized_code"]) rfl]
    simp only [List.map_cons, List.map_nil, Option.bind_eq_bind, Option.bind_some, ha, hp]
  have e2 : optional readGrants (some (.obj gm)) = some (some { authorizationCode := code, preAuthorizedCode := pre }) := congrArg (Option.map some) e1
  unfold readCredentialOffer
  rw [h.struct (names := ["credential_issuer", "credential_configuration_ids", "grants"]) rfl]
  simp only [List.map_cons, List.map_nil, Option.bind_eq_bind, Option.bind_some, required_txts, defaulted_txt, e2]

/-- C128: An offer without grants. -/
theorem C128_credential_offer_bare {m : List (String × Json)} (issuer : Option String) (ids : List String)
    (h : Has m [("credential_issuer", txt issuer), ("credential_configuration_ids", txts (some ids)), ("grants", none)]) :
    readCredentialOffer (.obj m) = some { credentialIssuer := issuer.getD "", configIds := ids, grants := none } := by
  have e2 : optional readGrants none = some none := rfl
  unfold readCredentialOffer
  rw [h.struct (names := ["credential_issuer", "credential_configuration_ids", "grants"]) rfl]
  simp only [List.map_cons, List.map_nil, Option.bind_eq_bind, Option.bind_some, required_txts, defaulted_txt, e2]

/-- C128: An offer that was made, sent itself or by where to fetch it. -/
theorem C128_offered {m : List (String × Json)} (pin : Option String) :
    (∀ (j : Json) (o : Issuer.CredentialOffer), readCredentialOffer j = some o →
      Has m [("credential_offer", some j), ("credential_offer_uri", none), ("tx_code", txt pin)] → readOffered (.obj m) = some { offerType := .object o, txCode := pin }) ∧
    (∀ uri : String, Has m [("credential_offer", none), ("credential_offer_uri", txt (some uri)), ("tx_code", txt pin)] →
      readOffered (.obj m) = some { offerType := .uri uri, txCode := pin }) := by
  have hq : ∀ p : String × Json, decide (p.1 = "credential_offer" ∨ p.1 = "credential_offer_uri") = true → p.1 = "credential_offer" ∨ p.1 = "credential_offer_uri" :=
    fun p hp => by simpa using hp
  refine ⟨fun j o hj h => ?_, fun uri h => ?_⟩
  · have h2 : Has m [("credential_offer", some j), ("credential_offer_uri", none)] := h.sub (by simp)
    have h3 := h2.restOf (names := ["tx_code"]) (by simp)
    have e : readOfferType (m.filter fun p => ¬ p.1 ∈ ["tx_code"]) = some (.object o) := by
      unfold readOfferType
      rw [h3.find (k := "credential_offer") (j := j) (by simp) (fun p hp => by rcases hq p hp with e | e <;> simp [e]) (by simp)]
      simp only [if_true, hj, Option.map_some]
    unfold readOffered
    rw [(h.sub (gs := [("tx_code", txt pin)]) (by simp)).flat (names := ["tx_code"]) rfl]
    simp only [List.map_cons, List.map_nil, Option.bind_eq_bind, Option.bind_some, optional_txt, e]
  · have h2 : Has m [("credential_offer", none), ("credential_offer_uri", some (.str uri))] := h.sub (by simp [txt])
    have h3 := h2.restOf (names := ["tx_code"]) (by simp)
    have e : readOfferType (m.filter fun p => ¬ p.1 ∈ ["tx_code"]) = some (.uri uri) := by
      unfold readOfferType
      rw [h3.find (k := "credential_offer_uri") (j := .str uri) (by simp) (fun p hp => by rcases hq p hp with e | e <;> simp [e]) (by simp)]
      rfl
    unfold readOffered
    rw [(h.sub (gs := [("tx_code", txt pin)]) (by simp)).flat (names := ["tx_code"]) rfl]
    simp only [List.map_cons, List.map_nil, Option.bind_eq_bind, Option.bind_some, optional_txt, e]

/-! ### Authorization and tokens -/

/-- C128: The answer to an authorization request. -/
theorem C128_authorization_reply {m : List (String × Json)} (code redirect : String) (state : Option String)
    (h : Has m [("code", txt (some code)), ("state", txt state), ("redirect_uri", txt (some redirect))]) :
    readAuthorizationReply (.obj m) = some { code := code, state := state, redirectUri := redirect } := by
  have e1 (s : String) : required readStr (txt (some s)) = some s := rfl
  unfold readAuthorizationReply
  rw [h.struct (names := ["code", "state", "redirect_uri"]) rfl]
  simp only [List.map_cons, List.map_nil, Option.bind_eq_bind, Option.bind_some, optional_txt, e1]

/-- C128: The answer to a pushed authorization request. -/
theorem C128_pushed_reply {m : List (String × Json)} (uri : String) (lifetime : Int) (hl : SoundI64 (some lifetime))
    (h : Has m [("request_uri", txt (some uri)), ("expires_in", int (some lifetime))]) : readParReply (.obj m) = some { requestUri := uri, expiresIn := lifetime } := by
  have e1 (s : String) : required readStr (txt (some s)) = some s := rfl
  unfold readParReply
  rw [h.struct (names := ["request_uri", "expires_in"]) rfl]
  simp only [List.map_cons, List.map_nil, Option.bind_eq_bind, Option.bind_some, required_int hl, e1]

/-- C128: A token request with a code from the authorization endpoint. -/
theorem C128_token_request_code {m : List (String × Json)} (issuer client uri verifier assertion : Option String) (code : String) (d : Option Json)
    (details : Option (List AuthorizationDetail)) (hd : optional (readVec readDetail) d = some details)
    (h : Has m [("credential_issuer", txt issuer), ("client_id", txt client), ("authorization_details", d), ("grant_type", txt (some "authorization_code")),
      ("code", txt (some code)), ("redirect_uri", txt uri), ("code_verifier", txt verifier),
      ("client_assertion_type", txt (assertion.map fun _ => "urn:ietf:params:oauth:client-assertion-type:jwt-bearer")), ("client_assertion", txt assertion)]) :
    readTokenRequest (.obj m) = some { credentialIssuer := issuer.getD "", clientId := client, grantType := .authorizationCode code uri verifier,
                                       authorizationDetails := details, clientAssertion := assertion } := by
  have h3 := (h.drop 3).restOf (names := ["credential_issuer", "client_id", "authorization_details"]) (by simp)
  have e1 (s : String) : required readStr (txt (some s)) = some s := rfl
  have g1 := h3.get (k := "grant_type") (o := some (.str "authorization_code")) (by simp [txt])
  have g2 := h3.get (k := "code") (o := txt (some code)) (by simp)
  have g3 := h3.get (k := "redirect_uri") (o := txt uri) (by simp)
  have g4 := h3.get (k := "code_verifier") (o := txt verifier) (by simp)
  have g5 := h3.get (k := "client_assertion_type") (o := txt (assertion.map fun _ => "urn:ietf:params:oauth:client-assertion-type:jwt-bearer")) (by simp)
  have g6 := h3.get (k := "client_assertion") (o := txt assertion) (by simp)
  have e2 : readGrantType (m.filter fun p => ¬ p.1 ∈ ["credential_issuer", "client_id", "authorization_details"]) = some (.authorizationCode code uri verifier) := by
    unfold readGrantType
    rw [g1]
    simp only [if_true, g2, g3, g4, Option.bind_eq_bind, Option.bind_some, e1, optional_txt]
  have e3 : readAssertion (m.filter fun p => ¬ p.1 ∈ ["credential_issuer", "client_id", "authorization_details"]) = assertion := by
    unfold readAssertion
    rw [g5, g6]
    cases assertion <;> rfl
  unfold readTokenRequest
  rw [(h.take 3).flat (names := ["credential_issuer", "client_id", "authorization_details"]) rfl]
  simp only [List.take_succ_cons, List.take_zero, List.map_cons, List.map_nil, Option.bind_eq_bind, Option.bind_some, optional_txt, defaulted_txt, e2, hd, e3]

/-- C128: A token request with a code that came with an offer. -/
theorem C128_token_request_pre_authorized {m : List (String × Json)} (issuer client pin assertion : Option String) (code : String) (d : Option Json)
    (details : Option (List AuthorizationDetail)) (hd : optional (readVec readDetail) d = some details)
    (h : Has m [("credential_issuer", txt issuer), ("client_id", txt client), ("authorization_details", d),
      ("grant_type", txt (some "urn:ietf:params:oauth:grant-type:pre-authorized_code")), ("pre-authorized_code", txt (some code)), ("tx_code", txt pin),
      ("client_assertion_type", txt (assertion.map fun _ => "urn:ietf:params:oauth:client-assertion-type:jwt-bearer")), ("client_assertion", txt assertion)]) :
    readTokenRequest (.obj m) = some { credentialIssuer := issuer.getD "", clientId := client, grantType := .preAuthorizedCode code pin,
                                       authorizationDetails := details, clientAssertion := assertion } := by
  have h3 := (h.drop 3).restOf (names := ["credential_issuer", "client_id", "authorization_details"]) (by simp)
  have e1 (s : String) : required readStr (txt (some s)) = some s := rfl
  have g1 := h3.get (k := "grant_type") (o := some (.str "urn:ietf:params:oauth:grant-type:pre-authorized_code")) (by simp [txt])
  have g2 := h3.get (k := "pre-authorized_code") (o := txt (some code)) (by simp)
  have g3 := h3.get (k := "tx_code") (o := txt pin) (by simp)
  have g5 := h3.get (k := "client_assertion_type") (o := txt (assertion.map fun _ => "urn:ietf:params:oauth:client-assertion-type:jwt-bearer")) (by simp)
  have g6 := h3.get (k := "client_assertion") (o := txt assertion) (by simp)
  have e2 : readGrantType (m.filter fun p => ¬ p.1 ∈ ["credential_issuer", "client_id", "authorization_details"]) = some (.preAuthorizedCode code pin) := by
    unfold readGrantType
    rw [g1]
    simp only [show ¬ "urn:ietf:params:oauth:grant-type:pre-authorized_code" = "authorization_code" by decide, if_true, if_false, g2, g3, Option.bind_eq_bind,
      Option.bind_some, e1, optional_txt]
  have e3 : readAssertion (m.filter fun p => ¬ p.1 ∈ ["credential_issuer", "client_id", "authorization_details"]) = assertion := by
    unfold readAssertion
    rw [g5, g6]
    cases assertion <;> rfl
  unfold readTokenRequest
  rw [(h.take 3).flat (names := ["credential_issuer", "client_id", "authorization_details"]) rfl]
  simp only [List.take_succ_cons, List.take_zero, List.map_cons, List.map_nil, Option.bind_eq_bind, Option.bind_some, optional_txt, defaulted_txt, e2, hd, e3]

/-- C128: A token response. -/
theorem C128_token_response_partial {m : List (String × Json)} (token : String) (nonce : Option String) (lifetime : Int) (nonceLifetime : Option Int) (d : Option Json)
    (details : Option (List AuthorizedDetail)) (hl : SoundI64 (some lifetime)) (hn : SoundI64 nonceLifetime)
    (hd : optional (readVec readAuthorizedDetail) d = some details)
    (h : Has m [("access_token", txt (some token)), ("token_type", txt (some "Bearer")), ("expires_in", int (some lifetime)), ("c_nonce", txt nonce),
      ("c_nonce_expires_in", int nonceLifetime), ("authorization_details", d)]) :
    readTokenResponse (.obj m) =
      some { accessToken := token, expiresIn := lifetime, cNonce := nonce, cNonceExpiresIn := nonceLifetime, authorizationDetails := details } := by
  have e1 : required readStr (txt (some token)) = some token := rfl
  have e2 : required readTokenType (txt (some "Bearer")) = some () := rfl
  unfold readTokenResponse
  rw [h.struct (names := ["access_token", "token_type", "expires_in", "c_nonce", "c_nonce_expires_in", "authorization_details"]) rfl]
  simp only [List.map_cons, List.map_nil, Option.bind_eq_bind, Option.bind_some, e1, e2, required_int hl, optional_int hn, hd, optional_txt]

/-- C128 is violated for the type of a token, which OAuth 2.0 has compared without regard to case: a token response that does not write it as vercre does is refused. -/
theorem C128_token_type_refused {m : List (String × Json)} (type : String) (ht : type ≠ "Bearer") (h : Has m [("token_type", txt (some type))]) :
    readTokenResponse (.obj m) = none := by
  have e1 : required readTokenType (txt (some type)) = none := by
    show (if type = "Bearer" then some () else none) = none
    rw [if_neg ht]
  cases hr : readTokenResponse (.obj m) with
  | none => rfl
  | some r =>
    exfalso
    unfold readTokenResponse at hr
    obtain ⟨l, hl, hr⟩ := Option.bind_eq_some_iff.1 hr
    have hk := found hl 1 rfl (h _ (List.mem_singleton.2 rfl))
    match l, hr, hk with
    | [_, t, _, _, _, _], hr, hk =>
      cases hk
      obtain ⟨_, -, hr⟩ := Option.bind_eq_some_iff.1 hr
      obtain ⟨_, ht, -⟩ := Option.bind_eq_some_iff.1 hr
      rw [e1] at ht
      cases ht

/-! ### Authorization details -/

/-- C128: The definition of a credential. -/
theorem C128_credential_definition {m : List (String × Json)} (context type : Option (List String)) (s : Option Json) (subject : Option (List (String × Claim)))
    (hs : optional readDict s = some subject) (h : Has m [("@context", txts context), ("type", txts type), ("credentialSubject", s)]) :
    readDefinition (.obj m) = some { context := context, type_ := type, credentialSubject := subject } := by
  unfold readDefinition
  rw [h.struct (names := ["@context", "type", "credentialSubject"]) rfl]
  simp only [List.map_cons, List.map_nil, optional_txts, hs]

/-- C128: A format with the definition of a credential. -/
theorem C128_w3c_format {m : List (String × Json)} (d : Json) (definition : CredentialDefinition) (hd : readDefinition d = some definition) :
    (Has m [("format", txt (some "jwt_vc_json")), ("credential_definition", some d)] → readFormat m = some (.jwtVcJson definition)) ∧
    (Has m [("format", txt (some "jwt_vc_json-ld")), ("credential_definition", some d)] → readFormat m = some (.jwtVcJsonLd definition)) := by
  have step (f : String) (h : Has m [("format", txt (some f)), ("credential_definition", some d)]) :
      single m "format" = some (some (.str f)) ∧ readW3c (m.filter fun p => p.1 ≠ "format") = some definition := by
    refine ⟨h.get (by simp [txt]), ?_⟩
    have h3 := (h.drop 1).rest (q := fun p => decide (p.1 ≠ "format")) (by simp)
    have g := h3.get (k := "credential_definition") (o := some d) (by simp)
    unfold readW3c
    rw [g]
    exact hd
  refine ⟨fun h => ?_, fun h => ?_⟩
  · obtain ⟨e1, e2⟩ := step _ h
    unfold readFormat
    rw [e1]
    simp only [e2, if_true, Option.map_some]
  · obtain ⟨e1, e2⟩ := step _ h
    unfold readFormat
    rw [e1]
    simp only [e2, show ¬ "jwt_vc_json-ld" = "jwt_vc_json" by decide, show ¬ "jwt_vc_json-ld" = "ldp-vc" by decide, if_true, if_false, Option.map_some]

/-- C128 is violated for linked data credentials: the name of their format in OpenID4VCI is not the one vercre knows. -/
theorem C128_linked_data_refused {m : List (String × Json)} (h : Has m [("format", txt (some "ldp_vc"))]) : readFormat m = none := by
  unfold readFormat
  rw [h.get (k := "format") (o := some (.str "ldp_vc")) (by simp [txt])]
  rfl

/-- C128: A format with a name and claims: mobile documents and SD-JWT credentials. -/
theorem C128_named_format {m : List (String × Json)} (name : String) (c : Option Json) (claims : Option (List (String × Claim))) (hc : optional readDict c = some claims) :
    (Has m [("format", txt (some "mso_mdoc")), ("doctype", txt (some name)), ("claims", c)] → readFormat m = some (.isoMdl name claims)) ∧
    (Has m [("format", txt (some "vc+sd-jwt")), ("vct", txt (some name)), ("claims", c)] → readFormat m = some (.vcSdJwt name claims)) := by
  have step (f k : String) (hk : k ≠ "format") (h : Has m [("format", txt (some f)), (k, txt (some name)), ("claims", c)]) :
      single m "format" = some (some (.str f)) ∧ readNamed k (m.filter fun p => p.1 ≠ "format") = some (name, claims) := by
    refine ⟨h.get (by simp [txt]), ?_⟩
    have h3 := (h.drop 1).rest (q := fun p => decide (p.1 ≠ "format")) (by simp [hk])
    have g := h3.get (k := k) (o := txt (some name)) (by simp)
    have g2 := h3.get (k := "claims") (o := c) (by simp)
    have e1 : required readStr (txt (some name)) = some name := rfl
    unfold readNamed
    rw [g, g2]
    simp only [e1, hc]
  refine ⟨fun h => ?_, fun h => ?_⟩
  · obtain ⟨e1, e2⟩ := step _ "doctype" (by decide) h
    unfold readFormat
    rw [e1]
    simp only [e2, show ¬ "mso_mdoc" = "jwt_vc_json" by decide, show ¬ "mso_mdoc" = "ldp-vc" by decide, show ¬ "mso_mdoc" = "jwt_vc_json-ld" by decide, if_true, if_false,
      Option.map_some]
  · obtain ⟨e1, e2⟩ := step _ "vct" (by decide) h
    unfold readFormat
    rw [e1]
    simp only [e2, show ¬ "vc+sd-jwt" = "jwt_vc_json" by decide, show ¬ "vc+sd-jwt" = "ldp-vc" by decide, show ¬ "vc+sd-jwt" = "jwt_vc_json-ld" by decide,
      show ¬ "vc+sd-jwt" = "mso_mdoc" by decide, if_true, if_false, Option.map_some]

/-- C128: A detail by configuration, with the claims that are wanted, or without. -/
theorem C128_detail_by_configuration {m : List (String × Json)} (id : String) (locations : Option (List String)) :
    (Has m [("type", txt (some "openid_credential")), ("credential_configuration_id", txt (some id)), ("locations", txts locations), ("credential_definition", none),
        ("claims", none)] →
      readDetail (.obj m) = some { credential := .configurationId id none, locations := locations }) ∧
    (∀ (d : Json) (definition : CredentialDefinition), readDefinition d = some definition →
      Has m [("type", txt (some "openid_credential")), ("credential_configuration_id", txt (some id)), ("locations", txts locations), ("credential_definition", some d),
        ("claims", none)] →
      readDetail (.obj m) = some { credential := .configurationId id (some (.w3c definition)), locations := locations }) := by
  have step (d c : Option Json) (h : Has m [("type", txt (some "openid_credential")), ("credential_configuration_id", txt (some id)), ("locations", txts locations),
      ("credential_definition", d), ("claims", c)]) (w : Option ProfileClaims)
      (hw : ∀ m' : List (String × Json), Has m' [("credential_definition", d), ("claims", c)] → readProfileClaims m' = w) :
      readDetail (.obj m) = some { credential := .configurationId id w, locations := locations } := by
    have g1 := h.get (k := "type") (o := txt (some "openid_credential")) (by simp)
    have g2 := h.get (k := "locations") (o := txts locations) (by simp)
    have h3 : Has (m.filter fun p => decide (p.1 ≠ "type" ∧ p.1 ≠ "locations")) [("credential_configuration_id", txt (some id)), ("credential_definition", d), ("claims", c)] :=
      (h.sub (by simp +contextual)).rest (by simp)
    have g3 := h3.get (k := "credential_configuration_id") (o := some (.str id)) (by simp [txt])
    have h4 : Has ((m.filter fun p => decide (p.1 ≠ "type" ∧ p.1 ≠ "locations")).filter fun p => decide (p.1 ≠ "credential_configuration_id"))
      [("credential_definition", d), ("claims", c)] := (h3.drop 1).rest (by simp)
    have e1 : required readDetailType (txt (some "openid_credential")) = some () := rfl
    have e2 : readCredential (m.filter fun p => decide (p.1 ≠ "type" ∧ p.1 ≠ "locations")) = some (.configurationId id w) := by
      unfold readCredential
      rw [g3]
      simp only [hw _ h4]
    simp only [readDetail, g1, g2, e1, e2, optional_txts]
  have hq : ∀ p : String × Json, decide (p.1 = "credential_definition" ∨ p.1 = "claims") = true → p.1 = "credential_definition" ∨ p.1 = "claims" :=
    fun p hp => by simpa using hp
  refine ⟨fun h => step _ _ h none fun m' h' => ?_, fun d definition hd h => step _ _ h _ fun m' h' => ?_⟩
  · unfold readProfileClaims
    rw [h'.find_none fun p hp => by rcases hq p hp with e | e <;> simp [e]]
  · unfold readProfileClaims
    rw [h'.find (k := "credential_definition") (j := d) (by simp) (fun p hp => by rcases hq p hp with e | e <;> simp [e]) (by simp)]
    simp only [if_true, hd, Option.map_some]

/-! ### Credentials -/

/-- C128: A request for a credential by identifier, with a proof, several, or none. -/
theorem C128_credential_request_by_identifier {m : List (String × Json)} (issuer token : Option String) (id : String) (e : Option Json) :
    (∀ (p : List (String × Json)) (jwt : String), Has p [("proof_type", txt (some "jwt")), ("jwt", txt (some jwt))] →
      Has m [("credential_issuer", txt issuer), ("access_token", txt token), ("credential_response_encryption", e), ("credential_identifier", txt (some id)),
        ("proof", some (.obj p)), ("proofs", none)] →
      readCredentialRequest (.obj m) = some { credentialIssuer := issuer.getD "", accessToken := token.getD "", credential := .identifier id, proof := some (.single jwt) }) ∧
    (∀ jwts : List String,
      Has m [("credential_issuer", txt issuer), ("access_token", txt token), ("credential_response_encryption", e), ("credential_identifier", txt (some id)),
        ("proof", none), ("proofs", some (.obj [("jwt", .arr (jwts.map .str))]))] →
      readCredentialRequest (.obj m) = some { credentialIssuer := issuer.getD "", accessToken := token.getD "", credential := .identifier id, proof := some (.multiple jwts) }) ∧
    (Has m [("credential_issuer", txt issuer), ("access_token", txt token), ("credential_response_encryption", e), ("credential_identifier", txt (some id)),
        ("proof", none), ("proofs", none)] →
      readCredentialRequest (.obj m) = some { credentialIssuer := issuer.getD "", accessToken := token.getD "", credential := .identifier id, proof := none }) := by
  have step (p ps : Option Json) (proof : Option Issuer.Proof)
      (h : Has m [("credential_issuer", txt issuer), ("access_token", txt token), ("credential_response_encryption", e), ("credential_identifier", txt (some id)),
        ("proof", p), ("proofs", ps)])
      (hp : ∀ m' : List (String × Json), Has m' [("proof", p), ("proofs", ps)] → readProof m' = proof) :
      readCredentialRequest (.obj m) = some { credentialIssuer := issuer.getD "", accessToken := token.getD "", credential := .identifier id, proof := proof } := by
    have h3 := (h.drop 3).restOf (names := ["credential_issuer", "access_token", "credential_response_encryption"]) (by simp)
    have g := h3.get (k := "credential_identifier") (o := some (.str id)) (by simp [txt])
    have e1 : readIssuance (m.filter fun p => ¬ p.1 ∈ ["credential_issuer", "access_token", "credential_response_encryption"]) = some (.identifier id) := by
      unfold readIssuance
      rw [g]
    have e2 := hp _ (h3.drop 1)
    unfold readCredentialRequest
    rw [(h.take 3).flat (names := ["credential_issuer", "access_token", "credential_response_encryption"]) rfl]
    simp only [List.take_succ_cons, List.take_zero, List.map_cons, List.map_nil, Option.bind_eq_bind, Option.bind_some, defaulted_txt, e1, e2]
  have hq : ∀ p : String × Json, decide (p.1 = "proof" ∨ p.1 = "proofs") = true → p.1 = "proof" ∨ p.1 = "proofs" := fun p hp => by simpa using hp
  refine ⟨fun p jwt hj h => step _ _ _ h fun m' h' => ?_, fun jwts h => step _ _ _ h fun m' h' => ?_, fun h => step _ _ _ h fun m' h' => ?_⟩
  · unfold readProof
    rw [h'.find (k := "proof") (j := .obj p) (by simp) (fun p hp => by rcases hq p hp with e | e <;> simp [e]) (by simp)]
    have g1 := hj.get (k := "proof_type") (o := some (.str "jwt")) (by simp [txt])
    have g2 := hj.get (k := "jwt") (o := some (.str jwt)) (by simp [txt])
    simp only [if_true, readSingleProof, g1, g2]
  · unfold readProof
    rw [h'.find (k := "proofs") (j := .obj [("jwt", .arr (jwts.map .str))]) (by simp) (fun p hp => by rcases hq p hp with e | e <;> simp [e]) (by simp)]
    simp only [show ¬ "proofs" = "proof" by decide, if_false, readProofs, readVec_txts, Option.map_some]
  · unfold readProof
    rw [h'.find_none fun p hp => by rcases hq p hp with e | e <;> simp [e]]

/-- C128: A request for a credential by format. -/
theorem C128_credential_request_by_format {m : List (String × Json)} (issuer token : Option String) (e : Option Json) :
    (∀ (d : Json) (definition : CredentialDefinition), readDefinition d = some definition →
      Has m [("credential_issuer", txt issuer), ("access_token", txt token), ("credential_response_encryption", e), ("credential_identifier", none),
        ("proof", none), ("proofs", none), ("format", txt (some "jwt_vc_json")), ("credential_definition", some d)] →
      readCredentialRequest (.obj m) =
        some { credentialIssuer := issuer.getD "", accessToken := token.getD "", credential := .format (formatSeen (.jwtVcJson definition)), proof := none }) ∧
    (∀ (name : String) (c : Option Json) (claims : Option (List (String × Claim))), optional readDict c = some claims →
      Has m [("credential_issuer", txt issuer), ("access_token", txt token), ("credential_response_encryption", e), ("credential_identifier", none),
        ("proof", none), ("proofs", none), ("format", txt (some "mso_mdoc")), ("doctype", txt (some name)), ("claims", c)] →
      readCredentialRequest (.obj m) =
        some { credentialIssuer := issuer.getD "", accessToken := token.getD "", credential := .format (formatSeen (.isoMdl name claims)), proof := none }) ∧
    (∀ (name : String) (c : Option Json) (claims : Option (List (String × Claim))), optional readDict c = some claims →
      Has m [("credential_issuer", txt issuer), ("access_token", txt token), ("credential_response_encryption", e), ("credential_identifier", none),
        ("proof", none), ("proofs", none), ("format", txt (some "vc+sd-jwt")), ("vct", txt (some name)), ("claims", c)] →
      readCredentialRequest (.obj m) =
        some { credentialIssuer := issuer.getD "", accessToken := token.getD "", credential := .format (formatSeen (.vcSdJwt name claims)), proof := none }) := by
  have step (fs : List (String × Option Json)) (f : Format) (hn : ∀ g ∈ fs, g.1 ∉ ["credential_issuer", "access_token", "credential_response_encryption"])
      (h : Has m ([("credential_issuer", txt issuer), ("access_token", txt token), ("credential_response_encryption", e), ("credential_identifier", none),
        ("proof", none), ("proofs", none)] ++ fs)) (hf : ∀ m' : List (String × Json), Has m' fs → readFormat m' = some f) :
      readCredentialRequest (.obj m) = some { credentialIssuer := issuer.getD "", accessToken := token.getD "", credential := .format (formatSeen f), proof := none } := by
    have h0 : Has m [("credential_issuer", txt issuer), ("access_token", txt token), ("credential_response_encryption", e), ("credential_identifier", none),
        ("proof", none), ("proofs", none)] := h.sub fun g hg => List.mem_append_left _ hg
    have h3 := (h0.drop 3).restOf (names := ["credential_issuer", "access_token", "credential_response_encryption"]) (by simp)
    have g := h3.get (k := "credential_identifier") (o := none) (by simp)
    have hq : ∀ p : String × Json, decide (p.1 = "proof" ∨ p.1 = "proofs") = true → p.1 = "proof" ∨ p.1 = "proofs" := fun p hp => by simpa using hp
    have e0 := hf _ ((h.sub fun g hg => List.mem_append_right _ hg).restOf hn)
    have e1 : readIssuance (m.filter fun p => ¬ p.1 ∈ ["credential_issuer", "access_token", "credential_response_encryption"]) = some (.format (formatSeen f)) := by
      unfold readIssuance
      rw [g]
      simp only [e0, Option.map_some]
    have e2 : readProof (m.filter fun p => ¬ p.1 ∈ ["credential_issuer", "access_token", "credential_response_encryption"]) = none := by
      unfold readProof
      rw [h3.find_none fun p hp => by rcases hq p hp with e | e <;> simp [e]]
    unfold readCredentialRequest
    rw [(h0.take 3).flat (names := ["credential_issuer", "access_token", "credential_response_encryption"]) rfl]
    simp only [List.take_succ_cons, List.take_zero, List.map_cons, List.map_nil, Option.bind_eq_bind, Option.bind_some, defaulted_txt, e1, e2]
  exact ⟨fun d definition hd h => step _ _ (by simp) h fun m' h' => (C128_w3c_format d definition hd).1 h',
    fun name c claims hc h => step _ _ (by simp) h fun m' h' => (C128_named_format name c claims hc).1 h',
    fun name c claims hc h => step _ _ (by simp) h fun m' h' => (C128_named_format name c claims hc).2 h'⟩

/-- C128: A credential response, immediate or deferred. -/
theorem C128_credential_response {α : Type} (r : Json → Option α) {m : List (String × Json)} (nonce notification : Option String) (lifetime : Option Int)
    (hl : SoundI64 lifetime) :
    (∀ jwt : String,
      Has m [("credential", txt (some jwt)), ("credentials", none), ("transaction_id", none), ("c_nonce", txt nonce), ("c_nonce_expires_in", int lifetime),
        ("notification_id", txt notification)] →
      readCredentialResponse r (.obj m) =
        some { response := .credential (.string jwt), cNonce := nonce, cNonceExpiresIn := lifetime, notificationId := notification }) ∧
    (∀ jwts : List String,
      Has m [("credential", none), ("credentials", txts (some jwts)), ("transaction_id", none), ("c_nonce", txt nonce), ("c_nonce_expires_in", int lifetime),
        ("notification_id", txt notification)] →
      readCredentialResponse r (.obj m) =
        some { response := .credentials (jwts.map .string), cNonce := nonce, cNonceExpiresIn := lifetime, notificationId := notification }) ∧
    (∀ id : String,
      Has m [("credential", none), ("credentials", none), ("transaction_id", txt (some id)), ("c_nonce", txt nonce), ("c_nonce_expires_in", int lifetime),
        ("notification_id", txt notification)] →
      readCredentialResponse r (.obj m) =
        some { response := .transactionId id, cNonce := nonce, cNonceExpiresIn := lifetime, notificationId := notification }) := by
  have step (c cs t : Option Json) (d : Delivered α)
      (h : Has m [("credential", c), ("credentials", cs), ("transaction_id", t), ("c_nonce", txt nonce), ("c_nonce_expires_in", int lifetime),
        ("notification_id", txt notification)])
      (hd : ∀ m' : List (String × Json), Has m' [("credential", c), ("credentials", cs), ("transaction_id", t)] → readDelivered r m' = some d) :
      readCredentialResponse r (.obj m) = some { response := d, cNonce := nonce, cNonceExpiresIn := lifetime, notificationId := notification } := by
    have e1 := hd _ ((h.take 3).restOf (names := ["c_nonce", "c_nonce_expires_in", "notification_id"]) (by simp))
    unfold readCredentialResponse
    rw [(h.drop 3).flat (names := ["c_nonce", "c_nonce_expires_in", "notification_id"]) rfl]
    simp only [List.drop_succ_cons, List.drop_zero, List.map_cons, List.map_nil, Option.bind_eq_bind, Option.bind_some, optional_txt, optional_int hl, e1]
  have hq : ∀ p : String × Json, decide (p.1 = "credential" ∨ p.1 = "credentials" ∨ p.1 = "transaction_id") = true →
      p.1 = "credential" ∨ p.1 = "credentials" ∨ p.1 = "transaction_id" := fun p hp => by simpa using hp
  refine ⟨fun jwt h => step _ _ _ _ h fun m' h' => ?_, fun jwts h => step _ _ _ _ h fun m' h' => ?_, fun id h => step _ _ _ _ h fun m' h' => ?_⟩
  · unfold readDelivered
    rw [h'.find (k := "credential") (j := .str jwt) (by simp [txt]) (fun p hp => by rcases hq p hp with e | e | e <;> simp [e]) (by simp)]
    rfl
  · unfold readDelivered
    rw [h'.find (k := "credentials") (j := .arr (jwts.map .str)) (by simp [txts]) (fun p hp => by rcases hq p hp with e | e | e <;> simp [e]) (by simp)]
    have e : readVec (readKind r) (.arr (jwts.map .str)) = some (jwts.map .string) := by
      show (jwts.map Json.str).mapM (readKind r) = _
      clear h h'
      induction jwts with
      | nil => rfl
      | cons a l ih => rw [List.map_cons, List.mapM_cons, ih]; rfl
    simp only [show ¬ "credentials" = "credential" by decide, if_true, if_false, e, Option.map_some]
  · unfold readDelivered
    rw [h'.find (k := "transaction_id") (j := .str id) (by simp [txt]) (fun p hp => by rcases hq p hp with e | e | e <;> simp [e]) (by simp)]
    rfl

/-- C128: A request for a deferred credential. -/
theorem C128_deferred_request {m : List (String × Json)} (issuer token : Option String) (id : String)
    (h : Has m [("credential_issuer", txt issuer), ("access_token", txt token), ("transaction_id", txt (some id))]) :
    readDeferredRequest (.obj m) = some { credentialIssuer := issuer.getD "", accessToken := token.getD "", transactionId := id } := by
  have e1 : required readStr (txt (some id)) = some id := rfl
  unfold readDeferredRequest
  rw [h.struct (names := ["credential_issuer", "access_token", "transaction_id"]) rfl]
  simp only [List.map_cons, List.map_nil, Option.bind_eq_bind, Option.bind_some, defaulted_txt, e1]

/-- The names of the events a wallet notifies an issuer of, in OpenID4VCI. -/
def eventSpec : Holder.NotificationEvent → String
  | .accepted => "credential_accepted"
  | .failure => "credential_failure"
  | .deleted => "credential_deleted"

/-- C128: A notification. -/
theorem C128_notification {m : List (String × Json)} (issuer token description : Option String) (id : String) (event : Holder.NotificationEvent)
    (h : Has m [("credential_issuer", txt issuer), ("access_token", txt token), ("notification_id", txt (some id)), ("event", txt (some (eventSpec event))),
      ("event_description", txt description)]) :
    readNotification (.obj m) = some { credentialIssuer := issuer.getD "", accessToken := token.getD "", notificationId := id, event := event } := by
  have e1 : required readStr (txt (some id)) = some id := rfl
  have e2 : required (readUnit eventOf) (txt (some (eventSpec event))) = some event := by cases event <;> rfl
  unfold readNotification
  rw [h.struct (names := ["credential_issuer", "access_token", "notification_id", "event", "event_description"]) rfl]
  simp only [List.map_cons, List.map_nil, Option.bind_eq_bind, Option.bind_some, optional_txt, defaulted_txt, e1, e2]

end Verif.Wire
