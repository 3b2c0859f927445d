import Verif.Wire.Message
/-!
# What an issuer publishes, and clients register

`Issuer` with `CredentialConfiguration`, `Server` and `Client`, /repo/crates/openid/src/issuer.rs 1362-1520, 1537-1696, 1781-1849 and 2000-2034, and `OAuthServer`,
/repo/crates/openid/src/oauth.rs 160-285. All members.
-/
namespace Verif.Wire
open Verifier (OAuthClient TokenEndpointAuth)

/-! ### Issuers -/

/-- `Image`, issuer.rs 1838-1849. -/
structure Image where
  uri : Option String := none
  altText : Option String := none

/-- Derived reader of `Image`, issuer.rs 1837-1849. -/
def readImage (j : Json) : Option Image := do
  match ← structFields ["uri", "alt_text"] j with
  | [u, a] =>
    let u ← optional readStr u
    let a ← optional readStr a
    some { uri := u, altText := a }
  | _ => none

/-- Derived writer of `Image`, issuer.rs 1837-1849. -/
def writeImage (i : Image) : Json := .obj (members [("uri", i.uri.map .str), ("alt_text", i.altText.map .str)])

/-- `CredentialDisplay`, issuer.rs 1801-1833. -/
structure CredentialDisplay where
  name : String
  locale : Option String := none
  logo : Option Image := none
  description : Option String := none
  backgroundColor : Option String := none
  backgroundImage : Option Image := none
  textColor : Option String := none

/-- Derived reader of `CredentialDisplay`, issuer.rs 1800-1833. -/
def readCredentialDisplay (j : Json) : Option CredentialDisplay := do
  match ← structFields ["name", "locale", "logo", "description", "background_color", "background_image", "text_color"] j with
  | [n, l, lo, d, bc, bi, t] =>
    let n ← required readStr n
    let l ← optional readStr l
    let lo ← optional readImage lo
    let d ← optional readStr d
    let bc ← optional readStr bc
    let bi ← optional readImage bi
    let t ← optional readStr t
    some { name := n, locale := l, logo := lo, description := d, backgroundColor := bc, backgroundImage := bi, textColor := t }
  | _ => none

/-- Derived writer of `CredentialDisplay`, issuer.rs 1800-1833. -/
def writeCredentialDisplay (d : CredentialDisplay) : Json :=
  .obj (members [("name", some (.str d.name)), ("locale", d.locale.map .str), ("logo", d.logo.map writeImage), ("description", d.description.map .str),
    ("background_color", d.backgroundColor.map .str), ("background_image", d.backgroundImage.map writeImage), ("text_color", d.textColor.map .str)])

/-- `CredentialConfiguration`, issuer.rs 1595-1696; of `ProofTypesSupported`, 1781-1797, the algorithms. -/
structure CredentialConfiguration where
  format : Format
  scope : Option String := none
  bindingMethods : Option (List String) := none
  signingAlgs : Option (List String) := none
  proofTypes : Option (Dict (List String)) := none
  display : Option (List CredentialDisplay) := none

/-- Derived reader of `ProofTypesSupported`, issuer.rs 1780-1797. -/
def readProofType (j : Json) : Option (List String) := do
  match ← structFields ["proof_signing_alg_values_supported"] j with
  | [a] => required (readVec readStr) a
  | _ => none

/-- Derived writer of `ProofTypesSupported`, issuer.rs 1780-1797. -/
def writeProofType (a : List String) : Json := .obj (members [("proof_signing_alg_values_supported", some (writeVec .str a))])

/-- A `HashMap` in a member. issuer.rs 1441-1520. -/
def readDictOf {α : Type} (r : Json → Option α) : Json → Option (Dict α)
  | .obj m => readMap r m
  | _ => none

/-- The names of the members of `CredentialConfiguration` beside its format. issuer.rs 1595-1696. -/
def configNames : List String :=
  ["scope", "cryptographic_binding_methods_supported", "credential_signing_alg_values_supported", "proof_types_supported", "display"]

/-- Derived reader of `CredentialConfiguration`, issuer.rs 1593-1696: the flattened format has no default. -/
def readConfig (j : Json) : Option CredentialConfiguration := do
  match ← flatFields configNames j with
  | ([s, b, a, p, d], rest) =>
    let f ← readFormat rest
    let s ← optional readStr s
    let b ← optional (readVec readStr) b
    let a ← optional (readVec readStr) a
    let p ← optional (readDictOf readProofType) p
    let d ← optional (readVec readCredentialDisplay) d
    some { format := f, scope := s, bindingMethods := b, signingAlgs := a, proofTypes := p, display := d }
  | _ => none

/-- Derived writer of `CredentialConfiguration`, issuer.rs 1593-1696. -/
def writeConfig (c : CredentialConfiguration) : Json :=
  .obj (writeFormat c.format ++ members [("scope", c.scope.map .str), ("cryptographic_binding_methods_supported", c.bindingMethods.map (writeVec .str)),
    ("credential_signing_alg_values_supported", c.signingAlgs.map (writeVec .str)), ("proof_types_supported", c.proofTypes.map fun m => .obj (writeMap writeProofType m)),
    ("display", c.display.map (writeVec writeCredentialDisplay))])

/-- `SupportedCredentialResponseEncryption`, issuer.rs 1540-1564. -/
structure ResponseEncryption where
  algs : List String
  encs : List String
  required : Bool

/-- Derived reader of `SupportedCredentialResponseEncryption`, issuer.rs 1539-1564. -/
def readEncryption (j : Json) : Option ResponseEncryption := do
  match ← structFields ["alg_values_supported", "enc_values_supported", "encryption_required"] j with
  | [a, e, r] =>
    let a ← required (readVec readStr) a
    let e ← required (readVec readStr) e
    let r ← required readBool r
    some { algs := a, encs := e, required := r }
  | _ => none

/-- Derived writer of `SupportedCredentialResponseEncryption`, issuer.rs 1539-1564. -/
def writeEncryption (e : ResponseEncryption) : Json :=
  .obj (members [("alg_values_supported", some (writeVec .str e.algs)), ("enc_values_supported", some (writeVec .str e.encs)), ("encryption_required", some (.bool e.required))])

/-- Derived reader of `BatchCredentialIssuance`, issuer.rs 1571-1575. -/
def readBatch (j : Json) : Option Int := do
  match ← structFields ["batch_size"] j with
  | [b] => required readI64 b
  | _ => none

/-- Derived writer of `BatchCredentialIssuance`, issuer.rs 1571-1575. -/
def writeBatch (n : Int) : Json := .obj (members [("batch_size", some (writeInt n))])

/-- `Issuer`, issuer.rs 1441-1520. -/
structure IssuerMeta where
  credentialIssuer : String
  authorizationServers : Option (List String) := none
  credentialEndpoint : String := ""
  deferredEndpoint : Option String := none
  notificationEndpoint : Option String := none
  encryption : Option ResponseEncryption := none
  batchSize : Option Int := none
  signedMetadata : Option String := none
  display : Option Display := none
  configs : Dict CredentialConfiguration := []

/-- The names of the members of `Issuer`. issuer.rs 1441-1520. -/
def issuerNames : List String :=
  ["credential_issuer", "authorization_servers", "credential_endpoint", "deferred_credential_endpoint", "notification_endpoint", "credential_response_encryption",
    "batch_credential_issuance", "signed_metadata", "display", "credential_configurations_supported"]

/-- Derived reader of `Issuer`, issuer.rs 1440-1520, and of `MetadataResponse`, 1380-1385, whose only member is flattened: objects only. -/
def readIssuerMeta : Json → Option IssuerMeta
  | .obj m => do
    match ← issuerNames.mapM (single m) with
    | [i, a, c, d, n, e, b, s, di, cs] =>
      let i ← defaulted "" readStr i
      let a ← optional (readVec readStr) a
      let c ← required readStr c
      let d ← optional readStr d
      let n ← optional readStr n
      let e ← optional readEncryption e
      let b ← optional readBatch b
      let s ← optional readStr s
      let di ← optional readDisplay di
      let cs ← required (readDictOf readConfig) cs
      some { credentialIssuer := i, authorizationServers := a, credentialEndpoint := c, deferredEndpoint := d, notificationEndpoint := n, encryption := e, batchSize := b,
             signedMetadata := s, display := di, configs := cs }
    | _ => none
  | _ => none

/-- Derived writer of `Issuer`, issuer.rs 1440-1520, and of `MetadataResponse`, 1380-1385. -/
def writeIssuerMeta (i : IssuerMeta) : Json :=
  .obj (members [("credential_issuer", nonEmpty i.credentialIssuer), ("authorization_servers", i.authorizationServers.map (writeVec .str)),
    ("credential_endpoint", some (.str i.credentialEndpoint)), ("deferred_credential_endpoint", i.deferredEndpoint.map .str),
    ("notification_endpoint", i.notificationEndpoint.map .str), ("credential_response_encryption", i.encryption.map writeEncryption),
    ("batch_credential_issuance", i.batchSize.map writeBatch), ("signed_metadata", i.signedMetadata.map .str), ("display", i.display.map writeDisplay),
    ("credential_configurations_supported", some (.obj (writeMap writeConfig i.configs)))])

/-! ### Servers -/

/-- `ResponseMode`, oauth.rs 336-346. -/
inductive ResponseMode where
  | query
  | jarm
  deriving DecidableEq

/-- The names of `ResponseMode`, oauth.rs 336-346. -/
def modeOf (s : String) : Option ResponseMode := if s = "query" then some .query else if s = "jarm" then some .jarm else none

/-- As `modeOf`, writing. oauth.rs 336-346. -/
def modeName : ResponseMode → String
  | .query => "query"
  | .jarm => "jarm"

/-- `TokenEndpointAuthSigningAlg`, oauth.rs 374-385. -/
inductive SigningAlg where
  | es256k
  | edDsa
  deriving DecidableEq

/-- The names of `TokenEndpointAuthSigningAlg`, oauth.rs 374-385. -/
def algOf (s : String) : Option SigningAlg := if s = "ES256K" then some .es256k else if s = "EdDSA" then some .edDsa else none

/-- As `algOf`, writing. oauth.rs 374-385. -/
def algName : SigningAlg → String
  | .es256k => "ES256K"
  | .edDsa => "EdDSA"

/-- Derived reader of `CodeChallengeMethod`, oauth.rs 388-393. -/
def readChallengeMethod : Json → Option CodeChallengeMethod := readUnit fun s => if s = "S256" then some .s256 else none

/-- Derived writer of `CodeChallengeMethod`, oauth.rs 388-393. -/
def writeChallengeMethod : CodeChallengeMethod → Json
  | .s256 => .str "S256"

/-- `OAuthServer`, oauth.rs 164-285. -/
structure OAuthServer where
  issuer : String := ""
  authorizationEndpoint : String := ""
  tokenEndpoint : String := ""
  jwksUri : Option String := none
  registrationEndpoint : Option String := none
  scopesSupported : Option (List String) := none
  responseTypesSupported : List Verif.ResponseType := []
  responseModesSupported : Option (List ResponseMode) := none
  grantTypesSupported : Option (List GrantType) := none
  authMethodsSupported : Option (List TokenEndpointAuth) := none
  authAlgsSupported : Option (List SigningAlg) := none
  serviceDocumentation : Option String := none
  uiLocalesSupported : Option (List String) := none
  policyUri : Option String := none
  tosUri : Option String := none
  revocationEndpoint : Option String := none
  revocationMethods : Option (List String) := none
  revocationAlgs : Option (List String) := none
  introspectionEndpoint : Option String := none
  introspectionMethods : Option (List String) := none
  introspectionAlgs : Option (List String) := none
  codeChallengeMethods : Option (List CodeChallengeMethod) := none
  signedMetadata : Option String := none
  parEndpoint : Option String := none
  requirePar : Option Bool := none

/-- The names of the members of `OAuthServer`, oauth.rs 164-285. -/
def serverNames : List String :=
  ["issuer", "authorization_endpoint", "token_endpoint", "jwks_uri", "registration_endpoint", "scopes_supported", "response_types_supported", "response_modes_supported",
    "grant_types_supported", "token_endpoint_auth_methods_supported", "token_endpoint_auth_signing_alg_values_supported", "service_documentation", "ui_locales_supported",
    "op_policy_uri", "op_tos_uri", "revocation_endpoint", "revocation_endpoint_auth_methods_supported", "revocation_endpoint_auth_signing_alg_values_supported",
    "introspection_endpoint", "introspection_endpoint_auth_methods_supported", "introspection_endpoint_auth_signing_alg_values_supported",
    "code_challenge_methods_supported", "signed_metadata", "pushed_authorization_request_endpoint", "require_pushed_authorization_requests"]

/-- Derived reader of `OAuthServer` from flattened members, oauth.rs 164-285. -/
def readOAuthServer (m : List (String × Json)) : Option OAuthServer := do
  match ← serverNames.mapM (single m) with
  | [i, a, t, j, r, sc, rt, rm, gt, am, aa, sd, ul, po, to, re, rme, ra, ie, im, ia, cm, sm, pe, rp] =>
    let i ← required readStr i
    let a ← required readStr a
    let t ← required readStr t
    let j ← optional readStr j
    let r ← optional readStr r
    let sc ← optional (readVec readStr) sc
    let rt ← required (readVec readOauthResponse) rt
    let rm ← optional (readVec (readUnit modeOf)) rm
    let gt ← optional (readVec (readUnit grantOf)) gt
    let am ← optional (readVec (readUnit authOf)) am
    let aa ← optional (readVec (readUnit algOf)) aa
    let sd ← optional readStr sd
    let ul ← optional (readVec readStr) ul
    let po ← optional readStr po
    let to ← optional readStr to
    let re ← optional readStr re
    let rme ← optional (readVec readStr) rme
    let ra ← optional (readVec readStr) ra
    let ie ← optional readStr ie
    let im ← optional (readVec readStr) im
    let ia ← optional (readVec readStr) ia
    let cm ← optional (readVec readChallengeMethod) cm
    let sm ← optional readStr sm
    let pe ← optional readStr pe
    let rp ← optional readBool rp
    some { issuer := i, authorizationEndpoint := a, tokenEndpoint := t, jwksUri := j, registrationEndpoint := r, scopesSupported := sc, responseTypesSupported := rt,
           responseModesSupported := rm, grantTypesSupported := gt, authMethodsSupported := am, authAlgsSupported := aa, serviceDocumentation := sd,
           uiLocalesSupported := ul, policyUri := po, tosUri := to, revocationEndpoint := re, revocationMethods := rme, revocationAlgs := ra,
           introspectionEndpoint := ie, introspectionMethods := im, introspectionAlgs := ia, codeChallengeMethods := cm, signedMetadata := sm, parEndpoint := pe,
           requirePar := rp }
  | _ => none

/-- The members of an `OAuthServer`, oauth.rs 164-285. -/
def serverFields (s : OAuthServer) : List (String × Option Json) :=
  [("issuer", some (.str s.issuer)), ("authorization_endpoint", some (.str s.authorizationEndpoint)), ("token_endpoint", some (.str s.tokenEndpoint)),
    ("jwks_uri", s.jwksUri.map .str), ("registration_endpoint", s.registrationEndpoint.map .str), ("scopes_supported", s.scopesSupported.map (writeVec .str)),
    ("response_types_supported", some (writeVec (fun r => .str (responseOf r).name) s.responseTypesSupported)),
    ("response_modes_supported", s.responseModesSupported.map (writeVec fun m => .str (modeName m))),
    ("grant_types_supported", s.grantTypesSupported.map (writeVec fun g => .str (grantName g))),
    ("token_endpoint_auth_methods_supported", s.authMethodsSupported.map (writeVec fun a => .str (authName a))),
    ("token_endpoint_auth_signing_alg_values_supported", s.authAlgsSupported.map (writeVec fun a => .str (algName a))),
    ("service_documentation", s.serviceDocumentation.map .str), ("ui_locales_supported", s.uiLocalesSupported.map (writeVec .str)),
    ("op_policy_uri", s.policyUri.map .str), ("op_tos_uri", s.tosUri.map .str), ("revocation_endpoint", s.revocationEndpoint.map .str),
    ("revocation_endpoint_auth_methods_supported", s.revocationMethods.map (writeVec .str)),
    ("revocation_endpoint_auth_signing_alg_values_supported", s.revocationAlgs.map (writeVec .str)), ("introspection_endpoint", s.introspectionEndpoint.map .str),
    ("introspection_endpoint_auth_methods_supported", s.introspectionMethods.map (writeVec .str)),
    ("introspection_endpoint_auth_signing_alg_values_supported", s.introspectionAlgs.map (writeVec .str)),
    ("code_challenge_methods_supported", s.codeChallengeMethods.map (writeVec writeChallengeMethod)), ("signed_metadata", s.signedMetadata.map .str),
    ("pushed_authorization_request_endpoint", s.parEndpoint.map .str), ("require_pushed_authorization_requests", s.requirePar.map .bool)]

/-- `Server`, issuer.rs 2025-2034. -/
structure ServerMeta where
  oauth : OAuthServer
  anonymousAccess : Bool

/-- Derived reader of `Server`, issuer.rs 2024-2034: whether anonymous access is supported has to be said. -/
def readServer (j : Json) : Option ServerMeta := do
  match ← flatFields ["pre-authorized_grant_anonymous_access_supported"] j with
  | ([a], rest) =>
    let o ← readOAuthServer rest
    let a ← required readBool a
    some { oauth := o, anonymousAccess := a }
  | _ => none

/-- Derived writer of `Server`, issuer.rs 2024-2034. -/
def writeServer (s : ServerMeta) : Json :=
  .obj (members (serverFields s.oauth) ++ members [("pre-authorized_grant_anonymous_access_supported", some (.bool s.anonymousAccess))])

/-- Derived reader of `OAuthServerResponse`, issuer.rs 1407-1411. -/
def readServerReply (j : Json) : Option ServerMeta := do
  match ← structFields ["authorization_server"] j with
  | [s] => required readServer s
  | _ => none

/-- Derived writer of `OAuthServerResponse`, issuer.rs 1407-1411. -/
def writeServerReply (s : ServerMeta) : Json := .obj (members [("authorization_server", some (writeServer s))])

/-! ### Clients -/

/-- `Client`, issuer.rs 2010-2020. -/
structure ClientMeta where
  oauth : OAuthClient
  credentialOfferEndpoint : Option String := none

/-- Derived reader of `Client` from flattened members, issuer.rs 2009-2020: `credential_offer_endpoint` is the name of a member of `Client`, and of one of the flattened
`OAuthClient`, which never gets to see it. -/
def readClientMeta (m : List (String × Json)) : Option ClientMeta := do
  match ← flatFields ["credential_offer_endpoint"] (.obj m) with
  | ([e], rest) =>
    let o ← readClient rest
    let e ← optional readStr e
    some { oauth := o, credentialOfferEndpoint := e }
  | _ => none

/-- Derived writer of `Client`, issuer.rs 2009-2020. -/
def writeClientMeta (c : ClientMeta) : List (String × Json) :=
  members (clientFields c.oauth) ++ members [("credential_offer_endpoint", c.credentialOfferEndpoint.map .str)]

/-- `RegistrationRequest`, issuer.rs 1415-1429. -/
structure Registration where
  credentialIssuer : String := ""
  accessToken : String := ""
  client : ClientMeta

/-- Derived reader of `RegistrationRequest`, issuer.rs 1414-1429. -/
def readRegistration (j : Json) : Option Registration := do
  match ← flatFields ["credential_issuer", "access_token"] j with
  | ([i, a], rest) =>
    let i ← defaulted "" readStr i
    let a ← defaulted "" readStr a
    let c ← readClientMeta rest
    some { credentialIssuer := i, accessToken := a, client := c }
  | _ => none

/-- Derived writer of `RegistrationRequest`, issuer.rs 1414-1429. -/
def writeRegistration (r : Registration) : Json :=
  .obj (members [("credential_issuer", nonEmpty r.credentialIssuer), ("access_token", nonEmpty r.accessToken)] ++ writeClientMeta r.client)

/-! ### What the endpoints see -/

/-- The members of a display the model keeps. issuer.rs 1801-1833. -/
def displaySeen (d : CredentialDisplay) : Verif.CredentialDisplay where
  name := d.name
  locale := d.locale
  description := d.description
  logoUri := d.logo.bind Image.uri

/-- The members of a configuration the model keeps. issuer.rs 1595-1696. -/
def configSeen (c : CredentialConfiguration) : Verif.CredentialConfiguration where
  format := formatSeen c.format
  scope := c.scope
  proofTypes := c.proofTypes.map Dict.keys
  display := c.display.map (·.map displaySeen)

/-- The members of an issuer's metadata the model keeps. issuer.rs 1441-1520. -/
def issuerSeen (i : IssuerMeta) : Verif.Issuer where
  credentialIssuer := i.credentialIssuer
  authorizationServers := i.authorizationServers
  configs := i.configs.map fun p => (p.1, configSeen p.2)

/-- The members of a server's metadata the model keeps. issuer.rs 2025-2034. -/
def serverSeen (s : ServerMeta) : Verif.Server where
  scopesSupported := s.oauth.scopesSupported
  responseTypesSupported := s.oauth.responseTypesSupported
  grantTypesSupported := s.oauth.grantTypesSupported
  codeChallengeMethodsSupported := s.oauth.codeChallengeMethods
  requirePar := s.oauth.requirePar
  anonymousAccess := s.anonymousAccess

end Verif.Wire
