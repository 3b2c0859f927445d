import Verif.Openid.Claims
/-!
# Issuer requests, responses, state and providers
-/
namespace Verif.Issuer

/-- One second in nanoseconds. Of `chrono`, used at /repo/vercre-issuer/src/state.rs 223-231. -/
def sec : Int := 1000000000

/-- `Expire::Authorized` = 5 minutes, /repo/vercre-issuer/src/state.rs 223-231. -/
def authorizedDur : Int := 5 * 60 * sec
/-- `Expire::Access` = 15 minutes, state.rs 223-231. -/
def accessDur : Int := 15 * 60 * sec
/-- `Expire::Nonce` = 10 minutes, state.rs 223-231. -/
def nonceDur : Int := 10 * 60 * sec
/-- Lifetime of a pushed authorization request, /repo/vercre-issuer/src/par.rs 67. -/
def parDur : Int := 600 * sec

/-- `TimeDelta::num_seconds`: whole seconds, truncated toward zero. Of `chrono`, used at /repo/vercre-issuer/src/state.rs 36 and 192. -/
def numSeconds (d : Int) : Int := d.tdiv sec

/-! ### Offers (/repo/crates/openid/src/issuer.rs) -/

/-- `SendType`, issuer.rs 122-132. -/
inductive SendType where
  | byVal
  | byRef
  deriving DecidableEq, Repr

/-- `CreateOfferRequest`, issuer.rs 88-118. -/
structure CreateOfferRequest where
  credentialIssuer : String
  subjectId : Option String
  configIds : List String
  grantTypes : Option (List GrantType)
  txCodeRequired : Bool
  sendType : SendType
  deriving DecidableEq, Repr

/-- `AuthorizationCodeGrant`, issuer.rs 290-306. -/
structure AuthorizationCodeGrant where
  issuerState : Option String
  authorizationServer : Option String
  deriving DecidableEq, Repr

/-- `PreAuthorizedCodeGrant`, issuer.rs 311-341. Simplification: the fixed description of the transaction code
(`TxCode`) is reduced to its presence. -/
structure PreAuthorizedCodeGrant where
  preAuthorizedCode : String
  txCode : Bool
  authorizationServer : Option String
  deriving DecidableEq, Repr

/-- `Grants`, issuer.rs 276-285. -/
structure Grants where
  authorizationCode : Option AuthorizationCodeGrant
  preAuthorizedCode : Option PreAuthorizedCodeGrant
  deriving DecidableEq, Repr

/-- `CredentialOffer`, issuer.rs 185-216. -/
structure CredentialOffer where
  credentialIssuer : String
  configIds : List String
  grants : Option Grants
  deriving DecidableEq, Repr

/-- `OfferType`, issuer.rs 170-180. -/
inductive OfferType where
  | object (o : CredentialOffer)
  | uri (u : String)
  deriving DecidableEq, Repr

/-- `CreateOfferResponse`, issuer.rs 154-165. -/
structure CreateOfferResponse where
  offerType : OfferType
  txCode : Option String
  deriving DecidableEq, Repr

/-- `CredentialOfferRequest`, issuer.rs 390-397. -/
structure CredentialOfferRequest where
  credentialIssuer : String
  id : String
  deriving DecidableEq, Repr

/-! ### Authorization -/

/-- `RequestObject`, issuer.rs 531-608: members read by the endpoints. -/
structure RequestObject where
  credentialIssuer : String
  responseType : ResponseType := .code
  clientId : String
  redirectUri : Option String
  state : Option String := none
  codeChallenge : String
  codeChallengeMethod : CodeChallengeMethod := .s256
  authorizationDetails : Option (List AuthorizationDetail)
  scope : Option String
  subjectId : String
  issuerState : Option String

/-- `AuthorizationRequest`, issuer.rs 411-418. -/
inductive AuthorizationRequest where
  | uri (requestUri : String)
  | object (r : RequestObject)

/-- `AuthorizationResponse`, issuer.rs 893-904. -/
structure AuthorizationResponse where
  code : String
  state : Option String
  redirectUri : String
  deriving DecidableEq, Repr

/-- `PushedAuthorizationResponse`, issuer.rs 926-935. -/
structure ParResponse where
  requestUri : String
  expiresIn : Int
  deriving DecidableEq, Repr

/-! ### Token -/

/-- `TokenGrantType`, issuer.rs 983-1019. -/
inductive TokenGrantType where
  | authorizationCode (code : String) (redirectUri : Option String) (codeVerifier : Option String)
  | preAuthorizedCode (code : String) (txCode : Option String)
  deriving DecidableEq, Repr

/-- The code presented by a token request. /repo/vercre-issuer/src/token.rs 40-45. -/
def TokenGrantType.code : TokenGrantType → String
  | authorizationCode c _ _ => c
  | preAuthorizedCode c _ => c

/-- `TokenRequest`, issuer.rs 944-978 (`client_assertion` is never read). -/
structure TokenRequest where
  credentialIssuer : String
  clientId : Option String
  grantType : TokenGrantType
  authorizationDetails : Option (List AuthorizationDetail)

/-- `AuthorizedDetail`, issuer.rs 1092-1104. -/
structure AuthorizedDetail where
  detail : AuthorizationDetail
  identifiers : List String

/-- `TokenResponse`, issuer.rs 1048-1075 (`token_type` has a single value). -/
structure TokenResponse where
  accessToken : String
  expiresIn : Int
  cNonce : Option String
  cNonceExpiresIn : Option Int
  authorizationDetails : Option (List AuthorizedDetail)

/-! ### Credential -/

/-- `CredentialIssuance`, issuer.rs 1148-1162. -/
inductive CredentialIssuance where
  | identifier (id : String)
  | format (f : Format)

/-- `Proof` with `SingleProof` / `MultipleProofs`, issuer.rs 1175-1225. -/
inductive Proof where
  | single (jwt : String)
  | multiple (jwts : List String)
  deriving DecidableEq, Repr

/-- `CredentialRequest`, issuer.rs 1110-1142 (`credential_response_encryption` is never read). -/
structure CredentialRequest where
  credentialIssuer : String
  accessToken : String
  credential : CredentialIssuance
  proof : Option Proof

/-- A signed credential as returned to the wallet. Simplification: the JWT or mdoc string is represented by who signed
it and what was signed. /repo/vercre-issuer/src/credential.rs 288-316. -/
inductive IssuedCredential where
  | jwtVc (signer : String) (vc : Vc) (issuedAt : Int)
  | mdoc (signer : String) (claims : Dict Json)

/-- `CredentialResponseType`, issuer.rs 1311-1326 (`Credentials` is never built). -/
inductive CredentialResponseType where
  | credential (c : IssuedCredential)
  | transactionId (id : String)

/-- `CredentialResponse`, issuer.rs 1283-1306. -/
structure CredentialResponse where
  response : CredentialResponseType
  cNonce : Option String := none
  cNonceExpiresIn : Option Int := none
  notificationId : Option String := none

/-- `DeferredCredentialRequest`, issuer.rs 1338-1352. -/
structure DeferredRequest where
  credentialIssuer : String
  accessToken : String
  transactionId : String
  deriving DecidableEq, Repr

/-- `NotificationRequest`, issuer.rs 2040-2065 (the event itself is only logged). -/
structure NotificationRequest where
  notificationId : String
  deriving DecidableEq, Repr

/-- `RegistrationRequest`, issuer.rs 1415-1429. -/
structure RegistrationRequest where
  accessToken : String
  client : Client
  deriving DecidableEq, Repr

/-! ### State (/repo/vercre-issuer/src/state.rs) -/

/-- `ItemType`, state.rs 157-163. -/
inductive ItemType where
  | detail (d : AuthorizationDetail)
  | scope (s : String)

/-- `AuthorizedItem`, state.rs 144-154. -/
structure AuthorizedItem where
  item : ItemType
  configId : String
  identifiers : List String

/-- `Offer`, state.rs 78-87. -/
structure Offer where
  items : Option (List AuthorizedItem)
  txCode : Option String

/-- `Authorization`, state.rs 114-130. -/
structure Authorization where
  clientId : String
  redirectUri : Option String
  codeChallenge : String
  codeChallengeMethod : CodeChallengeMethod
  items : List AuthorizedItem

/-- `Authorized`, state.rs 91-109. -/
structure Authorized where
  identifier : String
  configId : String
  claimIds : Option (List String)
  deriving DecidableEq, Repr

/-- `Token`, state.rs 173-188. -/
structure Token where
  accessToken : String
  cNonce : String
  cNonceExpiresAt : Int
  credentials : Dict Authorized

/-- `Stage`, state.rs 43-74. -/
inductive Stage where
  | unauthorized
  | pending (o : CredentialOffer)
  | offered (o : Offer)
  | pushed (r : RequestObject) (expiresAt : Int)
  | authorized (a : Authorization)
  | validated (t : Token)
  | issued (vc : Vc)
  | deferred (transactionId : String) (r : CredentialRequest)

/-- `State`, state.rs 18-31. -/
structure State where
  subjectId : Option String
  stage : Stage
  expiresAt : Int

/-- `State::is_expired`, state.rs 35-37. -/
def State.isExpired (s : State) (now : Int) : Bool := numSeconds (s.expiresAt - now) < 0

/-- `Token::c_nonce_expires_in`, state.rs 191-193. -/
def Token.cNonceExpiresIn (t : Token) (now : Int) : Int := numSeconds (t.cNonceExpiresAt - now)

/-- `Token::c_nonce_expired`, state.rs 195-197. -/
def Token.cNonceExpired (t : Token) (now : Int) : Bool := t.cNonceExpiresIn now < 0

/-! ### Providers -/

/-- `Dataset`, issuer.rs 77-84. -/
structure Dataset where
  claims : Dict Json
  pending : Bool

/-- A decoded and signature-checked proof JWT: `typ` is the proof type or not, its nonce, and its key id if it has one
(`jws::decode` of the external `vercre-infosec` crate, used in /repo/vercre-issuer/src/credential.rs 127-154); and the remaining members of
`ProofClaims` (/repo/crates/openid/src/issuer.rs 1236-1253): the client, the credential issuer the proof is for, and when it was made. -/
structure ProofJwt where
  typIsProof : Bool
  nonce : Option String
  kid : Option String
  iss : Option String := none
  aud : String := ""
  iat : Int := 0
  deriving DecidableEq, Repr

/-- Everything the issuer asks of its provider other than state storage: `Metadata`, `Subject` (issuer.rs 39-72),
`Status`, `SecOps`, `DidResolver` and hashing. All members are arbitrary functions; `none` is a provider error. `iter` is the (arbitrary)
iteration order of Rust hash maps. -/
structure Provider where
  client : String → Option Client
  issuer : String → Option Issuer
  server : String → Option Server
  register : Client → Option Client
  authorize : String → String → Option (List String)
  dataset : String → String → Option Dataset
  /-- `Status::status`, /repo/crates/status/src/issuer.rs 15-25: of a subject and a credential identifier -/
  status : String → String → Option (Option (Quota CredentialStatus))
  /-- `SecOps::signer`; the value names the signing key. -/
  signer : String → Option String
  /-- whether signing a credential (JWT or mdoc) with this key succeeds -/
  signOk : String → IssuedCredential → Bool
  /-- `jws::decode` with key resolution: `none` for anything but a well-formed, correctly signed JWT -/
  decodeProof : String → Option ProofJwt
  /-- `pkce::code_challenge`, /repo/crates/core/src/pkce.rs -/
  codeChallenge : String → String
  /-- `gen::tx_code` as a function of the random token drawn for it -/
  txCode : String → String
  /-- the order in which this process iterates over a hash map: any reordering of its entries -/
  iter : {α : Type} → Dict α → List (String × α)
  iter_perm : ∀ {α : Type} (m : Dict α), (iter m).Perm m

/-- Issuer endpoint programs. Machinery of the model. -/
abbrev IProg (α : Type) := Prog State α

end Verif.Issuer
