import Verif.Wire.ForeignMetaProps
/-!
# C128, continued: presentations asked for and given by others
-/
namespace Verif.Wire
open Verifier (OAuthClient Metadata VpFormat)

/-! ### Clients -/

/-- C128: The metadata of a client that keeps to what vercre knows. -/
theorem C128_client_partial {m : List (String × Json)} (client : String) (issued expires : Option Int) (secret name uri logo scope contacts tos policy jwksUri jwks software version
    offers : Option String) (uris : Option (List String)) (method : Option Verifier.TokenEndpointAuth) (grants : Option (List GrantType))
    (types : Option (List Verif.ResponseType)) (par : Option Bool) (hi : SoundI64 issued) (he : SoundI64 expires)
    (h : Has m [("client_id", txt (some client)), ("client_id_issued_at", int issued), ("client_secret", txt secret), ("client_secret_expires_at", int expires),
      ("redirect_uris", txts uris), ("token_endpoint_auth_method", txt (method.map authSpec)), ("grant_types", names grantSpec grants),
      ("response_types", names responseSpec types), ("client_name", txt name), ("client_uri", txt uri), ("logo_uri", txt logo), ("scope", txt scope),
      ("contacts", txt contacts), ("tos_uri", txt tos), ("policy_uri", txt policy), ("jwks_uri", txt jwksUri), ("jwks", txt jwks),
      ("software_id", txt software), ("software_version", txt version), ("require_pushed_authorization_requests", truth par),
      ("credential_offer_endpoint", txt offers)]) :
    readClient m =
      some { clientId := client, clientIdIssuedAt := issued, clientSecret := secret, clientSecretExpiresAt := expires, redirectUris := uris,
             tokenEndpointAuthMethod := method, grantTypes := grants, responseTypes := types, clientName := name, clientUri := uri,
             logoUri := logo, scope := scope, contacts := contacts, tosUri := tos, policyUri := policy, jwksUri := jwksUri, jwks := jwks,
             softwareId := software, softwareVersion := version, requirePushedAuthorizationRequests := par, credentialOfferEndpoint := offers } := by
  have e1 : required readStr (txt (some client)) = some client := rfl
  have e2 : clientNames.mapM (single m) =
      some [txt (some client), int issued, txt secret, int expires, txts uris, txt (method.map authSpec), names grantSpec grants, names responseSpec types,
        txt name, txt uri, txt logo, txt scope, txt contacts, txt tos, txt policy, txt jwksUri, txt jwks, txt software, txt version, truth par, txt offers] := h.fields
  clear h
  have r1 : optional (readVec readOauthResponse) (names responseSpec types) = some types := optional_names (fun a => by cases a <;> rfl) types
  have r2 : optional (readVec (readUnit grantOf)) (names grantSpec grants) = some grants := optional_names readGrantSpec grants
  have r3 : optional (readUnit authOf) (txt (method.map authSpec)) = some method := by
    cases method with
    | none => rfl
    | some a => cases a <;> rfl
  have hb : ∀ {α β : Type} (a : α) (f : α → Option β), (some a >>= f) = f a := fun _ _ => rfl
  rw [readClient, e2]
  clear e2
  simp only [hb, e1, optional_txt, optional_txts, optional_truth, optional_int hi, optional_int he, r1, r2, r3]

/-- C128 is violated for clients with contacts, a list in OAuth 2.0, and for clients that give their keys, an object: vercre takes text for both, and refuses the client. -/
theorem C128_client_with_contacts_refused {m : List (String × Json)} (l : List Json) (keys : List (String × Json)) :
    (Has m [("contacts", some (.arr l))] → readClient m = none) ∧ (Has m [("jwks", some (.obj keys))] → readClient m = none) := by
  refine ⟨fun h => ?_, fun h => ?_⟩ <;>
    (cases hr : readClient m with
     | none => rfl
     | some c =>
       exfalso
       unfold readClient at hr
       obtain ⟨q, hq, hr⟩ := Option.bind_eq_some_iff.1 hr
       match q, hq, hr with
       | [c, ia, s, se, ru, ta, gt, rt, n, u, lo, sc, co, to, po, ju, jw, si, sv, rp, oe], hq, hr =>
         obtain ⟨_, x0, hr⟩ := Option.bind_eq_some_iff.1 hr
         obtain ⟨_, x1, hr⟩ := Option.bind_eq_some_iff.1 hr
         obtain ⟨_, x2, hr⟩ := Option.bind_eq_some_iff.1 hr
         obtain ⟨_, x3, hr⟩ := Option.bind_eq_some_iff.1 hr
         obtain ⟨_, x4, hr⟩ := Option.bind_eq_some_iff.1 hr
         obtain ⟨_, x5, hr⟩ := Option.bind_eq_some_iff.1 hr
         obtain ⟨_, x6, hr⟩ := Option.bind_eq_some_iff.1 hr
         obtain ⟨_, x7, hr⟩ := Option.bind_eq_some_iff.1 hr
         obtain ⟨_, x8, hr⟩ := Option.bind_eq_some_iff.1 hr
         obtain ⟨_, x9, hr⟩ := Option.bind_eq_some_iff.1 hr
         obtain ⟨_, x10, hr⟩ := Option.bind_eq_some_iff.1 hr
         obtain ⟨_, x11, hr⟩ := Option.bind_eq_some_iff.1 hr
         obtain ⟨_, x12, hr⟩ := Option.bind_eq_some_iff.1 hr
         obtain ⟨_, x13, hr⟩ := Option.bind_eq_some_iff.1 hr
         obtain ⟨_, x14, hr⟩ := Option.bind_eq_some_iff.1 hr
         obtain ⟨_, x15, hr⟩ := Option.bind_eq_some_iff.1 hr
         obtain ⟨_, x16, hr⟩ := Option.bind_eq_some_iff.1 hr
         obtain ⟨_, x17, hr⟩ := Option.bind_eq_some_iff.1 hr
         obtain ⟨_, x18, hr⟩ := Option.bind_eq_some_iff.1 hr
         obtain ⟨_, x19, hr⟩ := Option.bind_eq_some_iff.1 hr
         obtain ⟨_, x20, hr⟩ := Option.bind_eq_some_iff.1 hr
         first
         | (cases found hq 12 rfl (h _ (List.mem_singleton.2 rfl)); cases x12)
         | (cases found hq 16 rfl (h _ (List.mem_singleton.2 rfl)); cases x16))

/-! ### Presentation definitions -/

/-- C128: What a value is compared with. -/
theorem C128_filter_partial (type value : String) :
    (∀ m, m = [("type", .str type), ("const", .str value)] ∨ m = [("const", .str value), ("type", .str type)] → readFilter (.obj m) = some ⟨type, .const value⟩) ∧
    (∀ m, m = [("type", .str type), ("pattern", .str value)] ∨ m = [("pattern", .str value), ("type", .str type)] → readFilter (.obj m) = some ⟨type, .pattern value⟩) := by
  refine ⟨fun m h => ?_, fun m h => ?_⟩ <;> rcases h with rfl | rfl <;> rfl

/-- C128 is violated for filters that say more, or less, than a type and one of `const`, `pattern` and `format`: DIF Presentation Exchange allows any JSON Schema. -/
theorem C128_filter_refused {m : List (String × Json)} (h : ∀ t k v, k = "const" ∨ k = "pattern" ∨ k = "format" → ¬ m.Perm [("type", .str t), (k, .str v)]) :
    readFilter (.obj m) = none := by
  cases hr : readFilter (.obj m) with
  | none => rfl
  | some f =>
    exfalso
    unfold readFilter flatFields at hr
    obtain ⟨⟨l, rest⟩, hl, hr⟩ := Option.bind_eq_some_iff.1 hr
    obtain ⟨l0, hl0, e⟩ := Option.map_eq_some_iff.1 hl
    simp only [Prod.mk.injEq] at e
    obtain ⟨rfl, e⟩ := e
    match l0, rest, hl0, e, hr with
    | [t], [(k, v)], hl0, e, hr =>
      rw [List.mapM_cons] at hl0
      obtain ⟨t', ht', hl0⟩ := Option.bind_eq_some_iff.1 hl0
      obtain ⟨_, hn, hl0⟩ := Option.bind_eq_some_iff.1 hl0
      cases hn
      cases hl0
      obtain ⟨ty, hty, hr⟩ := Option.bind_eq_some_iff.1 hr
      obtain ⟨s, hs, hend⟩ := Option.bind_eq_some_iff.1 hr
      have hv : v = .str s := by cases v <;> cases hs; rfl
      have ht : t = some (.str ty) := by
        cases t with
        | none => cases hty
        | some j => cases j <;> cases hty; rfl
      subst hv ht
      have hk : k = "const" ∨ k = "pattern" ∨ k = "format" := by
        by_cases h1 : k = "const"
        · exact .inl h1
        by_cases h2 : k = "pattern"
        · exact .inr (.inl h2)
        by_cases h3 : k = "format"
        · exact .inr (.inr h3)
        rw [if_neg h1, if_neg h2, if_neg h3] at hend
        cases hend
      have ht1 : m.filter (fun p => decide (p.1 = "type")) = [("type", .str ty)] := by
        unfold single at ht'
        split at ht'
        · cases ht'
        · rename_i p hp
          obtain ⟨a, b⟩ := p
          have hm : (a, b) ∈ m.filter fun p => decide (p.1 = "type") := by rw [hp]; exact List.mem_singleton.2 rfl
          have ha : a = "type" := by simpa using (List.mem_filter.1 hm).2
          cases ht'
          rw [hp, ha]
        · cases ht'
      refine h ty k s hk ?_
      have hp := List.filter_append_perm (fun p : String × Json => decide (p.1 = "type")) m
      rw [ht1, show (m.filter fun x => !decide (x.1 = "type")) = [(k, .str s)] by rw [← e]; exact List.filter_congr fun x _ => by simp] at hp
      exact hp.symm

/-- C128: A field that is asked for. -/
theorem C128_field {m : List (String × Json)} (path : List String) (id predicate purpose name : Option String) (optional_ retain : Option Bool) (f : Option Json)
    (filter : Option Dif.Filter) (hf : optional readFilter f = some filter)
    (h : Has m [("id", txt id), ("path", txts (some path)), ("filter", f), ("predicate", txt predicate), ("purpose", txt purpose), ("name", txt name),
      ("optional", truth optional_), ("intent_to_retain", truth retain)]) :
    readField (.obj m) = some { path := path, filter := filter, optional := optional_, id := id, predicate := predicate, purpose := purpose, name := name,
                                intentToRetain := retain } := by
  unfold readField
  rw [h.struct (names := fieldNames) rfl]
  simp only [List.map_cons, List.map_nil, Option.bind_eq_bind, Option.bind_some, optional_txt, required_txts, optional_truth, hf]

/-- C128: A credential that is asked for. -/
theorem C128_descriptor {m cm : List (String × Json)} (id : String) (name purpose limit : Option String) (f fs : Option Json) (format : Option (Dict Dif.ClaimFormat))
    (fields : Option (List Dif.Field)) (hf : optional (readObj readClaimFormat) f = some format) (hfs : optional (readVec readField) fs = some fields)
    (hc : Has cm [("fields", fs), ("limit_disclosure", txt limit)])
    (h : Has m [("id", txt (some id)), ("name", txt name), ("purpose", txt purpose), ("format", f), ("constraints", some (.obj cm))]) :
    readDescriptor (.obj m) =
      some { id := id, name := name, purpose := purpose, format := format, constraints := { fields := fields, limitDisclosure := limit } } := by
  have e1 : required readStr (txt (some id)) = some id := rfl
  have e2 : readConstraints (.obj cm) = some { fields := fields, limitDisclosure := limit } := by
    unfold readConstraints
    rw [hc.struct (names := ["fields", "limit_disclosure"]) rfl]
    simp only [List.map_cons, List.map_nil, Option.bind_eq_bind, Option.bind_some, optional_txt, hfs]
  have e3 : required readConstraints (some (.obj cm)) = some { fields := fields, limitDisclosure := limit } := e2
  unfold readDescriptor
  rw [h.struct (names := ["id", "name", "purpose", "format", "constraints"]) rfl]
  simp only [List.map_cons, List.map_nil, Option.bind_eq_bind, Option.bind_some, optional_txt, e1, e3, hf]

/-- C128: What is asked for. -/
theorem C128_definition {m : List (String × Json)} (id : String) (name purpose : Option String) (f : Option Json) (ds : Json) (format : Option (Dict Dif.ClaimFormat))
    (descriptors : List Dif.InputDescriptor) (hf : optional (readObj readClaimFormat) f = some format) (hd : readVec readDescriptor ds = some descriptors)
    (h : Has m [("id", txt (some id)), ("input_descriptors", some ds), ("name", txt name), ("purpose", txt purpose), ("format", f)]) :
    readAsked (.obj m) = some { id := id, inputDescriptors := descriptors, name := name, purpose := purpose, format := format } := by
  have e1 : required readStr (txt (some id)) = some id := rfl
  have e2 : required (readVec readDescriptor) (some ds) = some descriptors := hd
  unfold readAsked
  rw [h.struct (names := ["id", "input_descriptors", "name", "purpose", "format"]) rfl]
  simp only [List.map_cons, List.map_nil, Option.bind_eq_bind, Option.bind_some, optional_txt, e1, e2, hf]

/-! ### Requests and answers -/

/-- The names of response types, in OpenID4VP. -/
def vpSpec : Verifier.ResponseType → String
  | .vpToken => "vp_token"
  | .vpTokenIdToken => "vp_token id_token"
  | .code => "code"

/-- The names of the kinds of client identifiers, in OpenID4VP. -/
def schemeSpec : Verifier.ClientIdScheme → String
  | .redirectUri => "redirect_uri"
  | .did => "did"

/-- C128: A presentation request. -/
theorem C128_request_object {m dm : List (String × Json)} (type : Verifier.ResponseType) (client nonce : String) (redirect mode response scope state : Option String)
    (scheme : Option Verifier.ClientIdScheme) (definition : Dif.PresentationDefinition) (md : Json) (metadata : Metadata)
    (hd : readAsked (.obj dm) = some definition) (hm : readMetadata md = some metadata)
    (h : Has m [("response_type", txt (some (vpSpec type))), ("client_id", txt (some client)), ("redirect_uri", txt redirect), ("response_mode", txt mode),
      ("response_uri", txt response), ("scope", txt scope), ("nonce", txt (some nonce)), ("state", txt state), ("presentation_definition", some (.obj dm)),
      ("client_id_scheme", txt (scheme.map schemeSpec)), ("client_metadata", some md)]) :
    readAsk (.obj m) = some { responseType := type, clientId := client, redirectUri := redirect, responseMode := mode, responseUri := response, scope := scope,
                              nonce := nonce, state := state, presentationDefinition := .object definition, clientIdScheme := scheme, clientMetadata := metadata } := by
  have e1 : ∀ s : String, required readStr (txt (some s)) = some s := fun _ => rfl
  have e2 : required (readKind readAsked) (some (.obj dm)) = some (.object definition) := congrArg (Option.map Kind.object) hd
  have e3 : required readMetadata (some md) = some metadata := hm
  have e4 : required (readUnit vResponseOf) (txt (some (vpSpec type))) = some type := by cases type <;> rfl
  have e5 : optional (readUnit schemeOf) (txt (scheme.map schemeSpec)) = some scheme := by
    cases scheme with
    | none => rfl
    | some s => cases s <;> rfl
  have hb : ∀ {α β : Type} (a : α) (f : α → Option β), (some a >>= f) = f a := fun _ _ => rfl
  unfold readAsk
  rw [h.struct (names := askNames) rfl]
  simp only [List.map_cons, List.map_nil, hb, optional_txt, e1, e2, e3, e4, e5]

/-- C128: Where in the answer a credential is found. -/
theorem C128_mapping_partial {m nm : List (String × Json)} (id format path nformat npath : String) (hn : Has nm [("format", txt (some nformat)), ("path", txt (some npath))])
    (h : Has m [("id", txt (some id)), ("format", txt (some format)), ("path", txt (some path)), ("path_nested", some (.obj nm))]) :
    readMapping (.obj m) = some { id := id, format := format, path := path, pathNested := { format := nformat, path := npath } } := by
  have e1 : ∀ s : String, required readStr (txt (some s)) = some s := fun _ => rfl
  have e2 : readNested (.obj nm) = some { format := nformat, path := npath } := by
    unfold readNested
    rw [hn.struct (names := ["format", "path"]) rfl]
    simp only [List.map_cons, List.map_nil, Option.bind_eq_bind, Option.bind_some, e1]
  have e3 : required readNested (some (.obj nm)) = some { format := nformat, path := npath } := e2
  unfold readMapping
  rw [h.struct (names := ["id", "format", "path", "path_nested"]) rfl]
  simp only [List.map_cons, List.map_nil, Option.bind_eq_bind, Option.bind_some, e1, e3]

/-- C128 is violated for answers that point at a credential directly: without `path_nested`, which DIF Presentation Exchange lets them leave out, they are refused. -/
theorem C128_direct_mapping_refused {m : List (String × Json)} (h : Has m [("path_nested", none)]) : readMapping (.obj m) = none := by
  cases hr : readMapping (.obj m) with
  | none => rfl
  | some r =>
    exfalso
    unfold readMapping at hr
    obtain ⟨l, hl, hr⟩ := Option.bind_eq_some_iff.1 hr
    have hk := found hl 3 rfl (h _ (List.mem_singleton.2 rfl))
    match l, hr, hk with
    | [_, _, _, n], hr, hk =>
      cases hk
      obtain ⟨_, -, hr⟩ := Option.bind_eq_some_iff.1 hr
      obtain ⟨_, -, hr⟩ := Option.bind_eq_some_iff.1 hr
      obtain ⟨_, -, hr⟩ := Option.bind_eq_some_iff.1 hr
      obtain ⟨_, ht, -⟩ := Option.bind_eq_some_iff.1 hr
      cases ht

/-- C128: The answer of a wallet, with a list of signed presentations. -/
theorem C128_answer_partial {α : Type} (r : Json → Option α) {m sm : List (String × Json)} (id definition : String) (state : Option String) (tokens : List String) (ds : Json)
    (mappings : List Dif.DescriptorMap) (hd : readVec readMapping ds = some mappings)
    (hs : Has sm [("id", txt (some id)), ("definition_id", txt (some definition)), ("descriptor_map", some ds)])
    (h : Has m [("vp_token", txts (some tokens)), ("presentation_submission", some (.obj sm)), ("state", txt state)]) :
    readAnswer r (.obj m) =
      some { vpToken := some (tokens.map .string), submission := some { id := id, definitionId := definition, descriptorMap := mappings }, state := state } := by
  have e1 : ∀ s : String, required readStr (txt (some s)) = some s := fun _ => rfl
  have e2 : readSubmission (.obj sm) = some { id := id, definitionId := definition, descriptorMap := mappings } := by
    have e : required (readVec readMapping) (some ds) = some mappings := hd
    unfold readSubmission
    rw [hs.struct (names := ["id", "definition_id", "descriptor_map"]) rfl]
    simp only [List.map_cons, List.map_nil, Option.bind_eq_bind, Option.bind_some, e1, e]
  have e3 : optional readSubmission (some (.obj sm)) = some (some { id := id, definitionId := definition, descriptorMap := mappings }) := congrArg (Option.map some) e2
  have e4 : optional (readVec (readKind r)) (txts (some tokens)) = some (some (tokens.map .string)) := by
    suffices e : (tokens.map Json.str).mapM (readKind r) = some (tokens.map .string) from congrArg (Option.map some) e
    clear h
    induction tokens with
    | nil => rfl
    | cons a l ih => rw [List.map_cons, List.mapM_cons, ih]; rfl
  unfold readAnswer
  rw [h.struct (names := ["vp_token", "presentation_submission", "state"]) rfl]
  simp only [List.map_cons, List.map_nil, Option.bind_eq_bind, Option.bind_some, optional_txt, e3, e4]

/-- C128 is violated for answers with a single presentation that is not in a list, which is how OpenID4VP has it: they are refused. -/
theorem C128_single_presentation_refused {α : Type} (r : Json → Option α) {m : List (String × Json)} (token : String) (h : Has m [("vp_token", txt (some token))]) :
    readAnswer r (.obj m) = none := by
  cases hr : readAnswer r (.obj m) with
  | none => rfl
  | some a =>
    exfalso
    unfold readAnswer at hr
    obtain ⟨l, hl, hr⟩ := Option.bind_eq_some_iff.1 hr
    have hk := found hl 0 rfl (h _ (List.mem_singleton.2 rfl))
    match l, hr, hk with
    | [v, _, _], hr, hk =>
      cases hk
      obtain ⟨_, ht, -⟩ := Option.bind_eq_some_iff.1 hr
      cases ht

/-- C128: The answer of a verifier. -/
theorem C128_redirect {m : List (String × Json)} (uri code : Option String) (h : Has m [("redirect_uri", txt uri), ("response_code", txt code)]) :
    readRedirect (.obj m) = some { redirectUri := uri, responseCode := code } := by
  unfold readRedirect
  rw [h.struct (names := ["redirect_uri", "response_code"]) rfl]
  simp only [List.map_cons, List.map_nil, Option.bind_eq_bind, Option.bind_some, optional_txt]

end Verif.Wire
