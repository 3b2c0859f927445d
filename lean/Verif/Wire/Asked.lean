import Verif.Wire.Store
import Verif.Verifier.Model
/-!
# Presentation requests on the wire

`PresentationDefinition` and what it is made of, /repo/crates/dif-exch/src/lib.rs; the metadata of a verifier, /repo/crates/openid/src/oauth.rs 19-129 and
/repo/crates/openid/src/verifier.rs 591-640; `RequestObject` and `RequestObjectResponse`, verifier.rs 119-500; `State`, /repo/vercre-verifier/src/state.rs.
Left out of `serde`'s readers: variants given by their number.
-/
namespace Verif.Wire
open Verifier (VState Metadata OAuthClient VpFormat TokenEndpointAuth)

/-! ### Presentation definitions -/

/-- Derived reader of `ClaimFormat`, dif-exch lib.rs 112-123, and of `VpFormat`, verifier.rs 590-599, which have the same members. -/
def readFormats (j : Json) : Option (Option (List String) × Option (List String)) := do
  match ← structFields ["alg", "proof_type"] j with
  | [a, p] =>
    let a ← optional (readVec readStr) a
    let p ← optional (readVec readStr) p
    some (a, p)
  | _ => none

/-- Derived writer of `ClaimFormat` and `VpFormat`. dif-exch lib.rs 112-123 and verifier.rs 590-599. -/
def writeFormats (a p : Option (List String)) : Json := .obj (members [("alg", a.map (writeVec .str)), ("proof_type", p.map (writeVec .str))])

/-- Derived reader of `ClaimFormat`, dif-exch lib.rs 112-123. -/
def readClaimFormat (j : Json) : Option Dif.ClaimFormat := (readFormats j).map fun f => { alg := f.1, proofType := f.2 }

/-- Derived writer of `ClaimFormat`, dif-exch lib.rs 112-123. -/
def writeClaimFormat (f : Dif.ClaimFormat) : Json := writeFormats f.alg f.proofType

/-- Derived reader of `Filter`, lib.rs 214-239: with `deny_unknown_fields` a single member beside the type, named after a variant of `FilterValue`. -/
def readFilter (j : Json) : Option Dif.Filter := do
  match ← flatFields ["type"] j with
  | ([t], [(k, v)]) =>
    let t ← required readStr t
    let v ← readStr v
    if k = "const" then some ⟨t, .const v⟩
    else if k = "pattern" then some ⟨t, .pattern v⟩
    else if k = "format" then some ⟨t, .format v⟩
    else none
  | _ => none

/-- Derived writer of `FilterValue` into flattened members, lib.rs 227-239. -/
def writeFilterValue : Dif.FilterValue → List (String × Json)
  | .const s => [("const", .str s)]
  | .pattern s => [("pattern", .str s)]
  | .format s => [("format", .str s)]

/-- Derived writer of `Filter`, lib.rs 214-224. -/
def writeFilter (f : Dif.Filter) : Json := .obj (members [("type", some (.str f.type_))] ++ writeFilterValue f.value)

/-- The names of the members of `Field`, lib.rs 158-210. -/
def fieldNames : List String := ["id", "path", "filter", "predicate", "purpose", "name", "optional", "intent_to_retain"]

/-- Derived reader of `Field`, lib.rs 158-210. -/
def readField (j : Json) : Option Dif.Field := do
  match ← structFields fieldNames j with
  | [i, p, f, pr, pu, n, o, r] =>
    let i ← optional readStr i
    let p ← required (readVec readStr) p
    let f ← optional readFilter f
    let pr ← optional readStr pr
    let pu ← optional readStr pu
    let n ← optional readStr n
    let o ← optional readBool o
    let r ← optional readBool r
    some { path := p, filter := f, optional := o, id := i, predicate := pr, purpose := pu, name := n, intentToRetain := r }
  | _ => none

/-- Derived writer of `Field`, lib.rs 158-210. -/
def writeField (f : Dif.Field) : Json :=
  .obj (members [("id", f.id.map .str), ("path", some (writeVec .str f.path)), ("filter", f.filter.map writeFilter), ("predicate", f.predicate.map .str),
    ("purpose", f.purpose.map .str), ("name", f.name.map .str), ("optional", f.optional.map .bool), ("intent_to_retain", f.intentToRetain.map .bool)])

/-- Derived reader of `Constraints`, lib.rs 127-153. -/
def readConstraints (j : Json) : Option Dif.Constraints := do
  match ← structFields ["fields", "limit_disclosure"] j with
  | [f, l] =>
    let f ← optional (readVec readField) f
    let l ← optional readStr l
    some { fields := f, limitDisclosure := l }
  | _ => none

/-- Derived writer of `Constraints`, lib.rs 127-153. -/
def writeConstraints (c : Dif.Constraints) : Json :=
  .obj (members [("fields", c.fields.map (writeVec writeField)), ("limit_disclosure", c.limitDisclosure.map .str)])

/-- A map of formats, lib.rs 69 and 96. -/
def writeFormatMap (m : Dict Dif.ClaimFormat) : Json := .obj (writeMap writeClaimFormat m)

/-- Derived reader of `InputDescriptor`, lib.rs 74-101. -/
def readDescriptor (j : Json) : Option Dif.InputDescriptor := do
  match ← structFields ["id", "name", "purpose", "format", "constraints"] j with
  | [i, n, p, f, c] =>
    let i ← required readStr i
    let n ← optional readStr n
    let p ← optional readStr p
    let f ← optional (readObj readClaimFormat) f
    let c ← required readConstraints c
    some { id := i, name := n, purpose := p, format := f, constraints := c }
  | _ => none

/-- Derived writer of `InputDescriptor`, lib.rs 74-101. -/
def writeDescriptor (d : Dif.InputDescriptor) : Json :=
  .obj (members [("id", some (.str d.id)), ("name", d.name.map .str), ("purpose", d.purpose.map .str), ("format", d.format.map writeFormatMap),
    ("constraints", some (writeConstraints d.constraints))])

/-- Derived reader of `PresentationDefinition`, lib.rs 38-70. -/
def readAsked (j : Json) : Option Dif.PresentationDefinition := do
  match ← structFields ["id", "input_descriptors", "name", "purpose", "format"] j with
  | [i, d, n, p, f] =>
    let i ← required readStr i
    let d ← required (readVec readDescriptor) d
    let n ← optional readStr n
    let p ← optional readStr p
    let f ← optional (readObj readClaimFormat) f
    some { id := i, inputDescriptors := d, name := n, purpose := p, format := f }
  | _ => none

/-- Derived writer of `PresentationDefinition`, lib.rs 38-70. -/
def writeAsked (d : Dif.PresentationDefinition) : Json :=
  .obj (members [("id", some (.str d.id)), ("input_descriptors", some (writeVec writeDescriptor d.inputDescriptors)), ("name", d.name.map .str),
    ("purpose", d.purpose.map .str), ("format", d.format.map writeFormatMap)])

/-! ### Metadata -/

/-- The names of `TokenEndpointAuth`, oauth.rs 348-369. -/
def authOf (s : String) : Option TokenEndpointAuth :=
  if s = "none" then some .none else if s = "client_secret_jwt" then some .clientSecretJwt else if s = "private_key_jwt" then some .privateKeyJwt else none

/-- As `authOf`, writing. oauth.rs 348-369. -/
def authName : TokenEndpointAuth → String
  | .none => "none"
  | .clientSecretJwt => "client_secret_jwt"
  | .privateKeyJwt => "private_key_jwt"

/-- The names of `GrantType`, oauth.rs 288-298. -/
def grantOf (s : String) : Option GrantType :=
  if s = "authorization_code" then some .authorizationCode
  else if s = "urn:ietf:params:oauth:grant-type:pre-authorized_code" then some .preAuthorizedCode else none

/-- As `grantOf`, writing. oauth.rs 288-298. -/
def grantName : GrantType → String
  | .authorizationCode => "authorization_code"
  | .preAuthorizedCode => "urn:ietf:params:oauth:grant-type:pre-authorized_code"

/-- Reader of `oauth::ResponseType`, oauth.rs 301-315. -/
def readOauthResponse (j : Json) : Option Verif.ResponseType := (readUnit ResponseType.ofName j).map responseSeen

/-- The names of the members of `OAuthClient`, oauth.rs 20-129. -/
def clientNames : List String :=
  ["client_id", "client_id_issued_at", "client_secret", "client_secret_expires_at", "redirect_uris", "token_endpoint_auth_method", "grant_types", "response_types",
    "client_name", "client_uri", "logo_uri", "scope", "contacts", "tos_uri", "policy_uri", "jwks_uri", "jwks", "software_id", "software_version",
    "require_pushed_authorization_requests", "credential_offer_endpoint"]

/-- Derived reader of `OAuthClient` from flattened members, oauth.rs 20-129. -/
def readClient (m : List (String × Json)) : Option OAuthClient := do
  match ← clientNames.mapM (single m) with
  | [c, ia, s, se, ru, ta, gt, rt, n, u, lo, sc, co, to, po, ju, jw, si, sv, rp, oe] =>
    let c ← required readStr c
    let ia ← optional readI64 ia
    let s ← optional readStr s
    let se ← optional readI64 se
    let ru ← optional (readVec readStr) ru
    let ta ← optional (readUnit authOf) ta
    let gt ← optional (readVec (readUnit grantOf)) gt
    let rt ← optional (readVec readOauthResponse) rt
    let n ← optional readStr n
    let u ← optional readStr u
    let lo ← optional readStr lo
    let sc ← optional readStr sc
    let co ← optional readStr co
    let to ← optional readStr to
    let po ← optional readStr po
    let ju ← optional readStr ju
    let jw ← optional readStr jw
    let si ← optional readStr si
    let sv ← optional readStr sv
    let rp ← optional readBool rp
    let oe ← optional readStr oe
    some { clientId := c, clientIdIssuedAt := ia, clientSecret := s, clientSecretExpiresAt := se, redirectUris := ru, tokenEndpointAuthMethod := ta, grantTypes := gt,
           responseTypes := rt, clientName := n, clientUri := u, logoUri := lo, scope := sc, contacts := co, tosUri := to, policyUri := po, jwksUri := ju, jwks := jw,
           softwareId := si, softwareVersion := sv, requirePushedAuthorizationRequests := rp, credentialOfferEndpoint := oe }
  | _ => none

/-- The members of an `OAuthClient`, oauth.rs 20-129. -/
def clientFields (c : OAuthClient) : List (String × Option Json) :=
  [("client_id", some (.str c.clientId)), ("client_id_issued_at", c.clientIdIssuedAt.map writeInt), ("client_secret", c.clientSecret.map .str),
    ("client_secret_expires_at", c.clientSecretExpiresAt.map writeInt), ("redirect_uris", c.redirectUris.map (writeVec .str)),
    ("token_endpoint_auth_method", c.tokenEndpointAuthMethod.map fun a => .str (authName a)), ("grant_types", c.grantTypes.map (writeVec fun g => .str (grantName g))),
    ("response_types", c.responseTypes.map (writeVec fun r => .str (responseOf r).name)), ("client_name", c.clientName.map .str), ("client_uri", c.clientUri.map .str),
    ("logo_uri", c.logoUri.map .str), ("scope", c.scope.map .str), ("contacts", c.contacts.map .str), ("tos_uri", c.tosUri.map .str), ("policy_uri", c.policyUri.map .str),
    ("jwks_uri", c.jwksUri.map .str), ("jwks", c.jwks.map .str), ("software_id", c.softwareId.map .str), ("software_version", c.softwareVersion.map .str),
    ("require_pushed_authorization_requests", c.requirePushedAuthorizationRequests.map .bool), ("credential_offer_endpoint", c.credentialOfferEndpoint.map .str)]

/-- Derived reader of `VpFormat`, verifier.rs 590-599. -/
def readVpFormat (j : Json) : Option VpFormat := (readFormats j).map fun f => { alg := f.1, proofType := f.2 }

/-- Derived writer of `VpFormat`, verifier.rs 590-599. -/
def writeVpFormat (f : VpFormat) : Json := writeFormats f.alg f.proofType

/-- Reader of `HashMap<Format, VpFormat>`, verifier.rs 630 and 638-643: the only key is `jwt_vp_json`, and the last entry counts. -/
def readVpFormats : Json → Option (Option VpFormat)
  | .obj m => (readMap readVpFormat m).bind fun d => if d.keys.all (· = "jwt_vp_json") then some (d.head?.map Prod.snd) else none
  | _ => none

/-- Writer of `HashMap<Format, VpFormat>`. verifier.rs 630 and 638-643. -/
def writeVpFormats (f : Option VpFormat) : Json := .obj (members [("jwt_vp_json", f.map writeVpFormat)])

/-- Derived reader of `Verifier`, verifier.rs 609-631. -/
def readMetadata (j : Json) : Option Metadata := do
  match ← flatFields ["vp_formats"] j with
  | ([f], rest) =>
    let c ← readClient rest
    let f ← optional readVpFormats f
    some { oauth := c, vpFormats := f }
  | _ => none

/-- Derived writer of `Verifier`, verifier.rs 609-631. -/
def writeMetadata (m : Metadata) : Json := .obj (members (clientFields m.oauth) ++ members [("vp_formats", m.vpFormats.map writeVpFormats)])

/-! ### Request objects -/

/-- The names of `verifier::ResponseType`, verifier.rs 229-244. -/
def vResponseOf (s : String) : Option Verifier.ResponseType :=
  if s = "vp_token" then some .vpToken else if s = "vp_token id_token" then some .vpTokenIdToken else if s = "code" then some .code else none

/-- As `vResponseOf`, writing. verifier.rs 229-244. -/
def vResponseName : Verifier.ResponseType → String
  | .vpToken => "vp_token"
  | .vpTokenIdToken => "vp_token id_token"
  | .code => "code"

/-- The names of `ClientIdScheme`, verifier.rs 247-274. -/
def schemeOf (s : String) : Option Verifier.ClientIdScheme := if s = "redirect_uri" then some .redirectUri else if s = "did" then some .did else none

/-- As `schemeOf`, writing. verifier.rs 247-274. -/
def schemeName : Verifier.ClientIdScheme → String
  | .redirectUri => "redirect_uri"
  | .did => "did"

/-- The names of the members of `RequestObject`, verifier.rs 118-226. -/
def askNames : List String :=
  ["response_type", "client_id", "redirect_uri", "response_mode", "response_uri", "scope", "nonce", "state", "presentation_definition", "client_id_scheme",
    "client_metadata"]

/-- Derived reader of `RequestObject`, verifier.rs 118-226. -/
def readAsk (j : Json) : Option Verifier.RequestObject := do
  match ← structFields askNames j with
  | [rt, c, ru, rm, rs, sc, n, st, pd, cs, md] =>
    let rt ← required (readUnit vResponseOf) rt
    let c ← required readStr c
    let ru ← optional readStr ru
    let rm ← optional readStr rm
    let rs ← optional readStr rs
    let sc ← optional readStr sc
    let n ← required readStr n
    let st ← optional readStr st
    let pd ← required (readKind readAsked) pd
    let cs ← optional (readUnit schemeOf) cs
    let md ← required readMetadata md
    some { responseType := rt, clientId := c, redirectUri := ru, responseMode := rm, responseUri := rs, scope := sc, nonce := n, state := st,
           presentationDefinition := pd, clientIdScheme := cs, clientMetadata := md }
  | _ => none

/-- The members of a `RequestObject`, verifier.rs 118-226. -/
def askFields (r : Verifier.RequestObject) : List (String × Option Json) :=
  [("response_type", some (.str (vResponseName r.responseType))), ("client_id", some (.str r.clientId)), ("redirect_uri", r.redirectUri.map .str),
    ("response_mode", r.responseMode.map .str), ("response_uri", r.responseUri.map .str), ("scope", r.scope.map .str), ("nonce", some (.str r.nonce)),
    ("state", r.state.map .str), ("presentation_definition", some (writeKind writeAsked r.presentationDefinition)),
    ("client_id_scheme", r.clientIdScheme.map fun s => .str (schemeName s)), ("client_metadata", some (writeMetadata r.clientMetadata))]

/-- Derived writer of `RequestObject`, verifier.rs 118-226. -/
def writeAsk (r : Verifier.RequestObject) : List (String × Json) := members (askFields r)

/-! ### State -/

/-- Derived reader of `State`, /repo/vercre-verifier/src/state.rs 22-31. -/
def readVState (T : TimeText) (j : Json) : Option VState := do
  match ← structFields ["expires_at", "request_object"] j with
  | [e, r] =>
    let e ← required T.readJson e
    let r ← required readAsk r
    some { expiresAt := e, requestObject := r }
  | _ => none

/-- Derived writer of `State`, state.rs 22-31. -/
def writeVState (T : TimeText) (s : VState) : Json :=
  .obj (members [("expires_at", some (T.writeJson s.expiresAt)), ("request_object", some (.obj (writeAsk s.requestObject)))])

/-- `serde_json::to_vec` of a state, as characters (/repo/crates/test-utils/src/store/state.rs 24). -/
def vStateText (T : TimeText) (s : VState) : List Char := (writeVState T s).chars

/-- `serde_json::from_slice` of a state, from characters (store/state.rs 33). -/
def textVState (T : TimeText) (t : List Char) : Option VState := (parseJson t).bind (readVState T)

end Verif.Wire
