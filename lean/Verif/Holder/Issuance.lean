import Verif.Holder.Model
/-!
# The wallet's issuance endpoints

/repo/vercre-holder/src/issuance.rs and issuance/*.rs.
-/
namespace Verif.Holder
open Verif HProg

/-- `Issuance::new`, issuance.rs 99-105. -/
def newIssuance (clientId : String) : HProg Issuance := do
  let id ← drawE
  pure { id, clientId }

/-- `Issuance::set_issuer`, issuance.rs 113-134. -/
def setIssuer (i : Issuance) (credentialIssuer : String) : HProg Issuance := do
  let md ← callE (.metadata credentialIssuer)
  let server ← callE (.oauthServer credentialIssuer)
  pure { i with issuer := md, server := server }

/-- Picking the offered configurations out of the metadata, offer.rs 131-141. -/
def offeredConfigs (configs : Dict CredentialConfiguration) : List String → Dict CredentialConfiguration → HRes (Dict CredentialConfiguration)
  | [], acc => .ok acc
  | id :: ids, acc => do
    let found ← need (configs.get? id) "unsupported credential type in offer"
    offeredConfigs configs ids (acc.insert id found)

/-- `offer`, /repo/vercre-holder/src/issuance/offer.rs 66-151. -/
def offer (req : OfferRequest) : HProg Resp := do
  lift (check (!req.offer.configIds.isEmpty) "no credential IDs")
  let i ← newIssuance req.clientId
  let i ← setIssuer { i with subjectId := req.subjectId, status := .offered, offer := req.offer } req.offer.credentialIssuer
  let i := { i with status := .ready }
  putE i.id (.issuance i)
  let offered ← lift (offeredConfigs i.issuer.configs req.offer.configIds [])
  pure (.offer i.id req.offer.credentialIssuer offered req.offer.grants)

/-- The claims of one accepted credential in the shape of its format, accept.rs 121-141. -/
def specClaims (configs : Dict CredentialConfiguration) (s : AuthorizationSpec) : HRes (Option ProfileClaims) :=
  match s.claims with
  | none => .ok none
  | some claims =>
    match configs.get? s.configId with
    | none => .error (.refused "credential configuration accepted not found in offer")
    | some c => .ok (some (match c.format with
      | .jwtVcJson _ | .jwtVcJsonLd _ | .ldpVc _ => .w3c { credentialSubject := some claims }
      | .isoMdl _ _ => .isoMdl claims
      | .vcSdJwt _ _ => .sdJwt claims))

/-- The loop of `narrow_scope`, accept.rs 119-153. -/
def specDetails (configs : Dict CredentialConfiguration) : List AuthorizationSpec → HRes (List AuthorizationDetail)
  | [] => .ok []
  | s :: l => do
    let claims ← specClaims configs s
    let rest ← specDetails configs l
    pure ({ credential := .configurationId s.configId claims } :: rest)

/-- `narrow_scope`, accept.rs 112-156. -/
def narrowScope (configs : Dict CredentialConfiguration) : Option (List AuthorizationSpec) → HRes (Option (List AuthorizationDetail))
  | none => .ok none
  | some l => do
    let d ← specDetails configs l
    pure (some d)

/-- Whether the offer asks for a transaction code, accept.rs 93-99. -/
def needsPin (o : Issuer.CredentialOffer) : Bool :=
  match o.grants with
  | some g => match g.preAuthorizedCode with
    | some p => p.txCode
    | none => false
  | none => false

/-- `accept`, /repo/vercre-holder/src/issuance/accept.rs 60-110. -/
def accept (req : AcceptRequest) : HProg Resp := do
  let i ← getIssuance req.issuanceId
  lift (check (i.status == .ready) "invalid issuance state")
  lift (check (match req.accept with | some l => !l.isEmpty | none => true) "if accept is provided it cannot be empty")
  let accepted ← lift (narrowScope i.issuer.configs req.accept)
  putE i.id (.issuance { i with accepted := accepted, status := if needsPin i.offer then .pendingPin else .accepted })
  pure (.flow i.id)

/-- `pin`, /repo/vercre-holder/src/issuance/pin.rs 31-58. -/
def pin (req : PinRequest) : HProg Resp := do
  let i ← getIssuance req.issuanceId
  lift (check (i.status == .pendingPin) "invalid issuance state")
  putE i.id (.issuance { i with pin := some req.pin, status := .accepted })
  pure (.flow i.id)

/-- The pre-authorized code of an offer. /repo/vercre-holder/src/issuance/token.rs 58-62 and 108-116. -/
def preAuthorized (o : Issuer.CredentialOffer) : Option Issuer.PreAuthorizedCodeGrant := o.grants.bind (·.preAuthorizedCode)

/-- `token_request`, /repo/vercre-holder/src/issuance/token.rs 104-123. -/
def tokenRequest (i : Issuance) : HRes Issuer.TokenRequest := do
  let g ← need i.offer.grants "no grants in offer is not supported"
  let p ← need g.preAuthorizedCode "no pre-authorized code in offer is not supported"
  pure {
    credentialIssuer := i.issuer.credentialIssuer
    clientId := some i.clientId
    grantType := .preAuthorizedCode p.preAuthorizedCode i.pin
    authorizationDetails := i.accepted }

/-- The configuration an authorized detail is about, token.rs 134-142 and credentials.rs 195-211. -/
def detailConfig (iss : Verif.Issuer) (d : Issuer.AuthorizedDetail) : HRes String :=
  match d.detail.credential with
  | .configurationId id _ => .ok id
  | .format f => need (iss.configurationId f) "credential configuration not found"

/-- `authorized_credentials`, token.rs 129-146. -/
def authorizedCredentials (iss : Verif.Issuer) : List Issuer.AuthorizedDetail → Dict (List String) → HRes (Dict (List String))
  | [], acc => .ok acc
  | d :: l, acc => do
    let cfg ← detailConfig iss d
    authorizedCredentials iss l (acc.insert cfg d.identifiers)

/-- The authorized credentials of a token response, token.rs 84-90. -/
def authorizedOf (iss : Verif.Issuer) : Option (List Issuer.AuthorizedDetail) → HRes (Option (Dict (List String)))
  | none => .ok none
  | some l => do
    let m ← authorizedCredentials iss l []
    pure (some m)

/-- `token`, token.rs 44-101. -/
def token (issuanceId : String) : HProg Resp := do
  let i ← getIssuance issuanceId
  lift (check ((preAuthorized i.offer).isSome && i.status == .accepted) "invalid issuance state. Must be pre-authorized and accepted")
  let r ← lift (tokenRequest i)
  let t ← callE (.token r)
  let a ← lift (authorizedOf i.issuer t.authorizationDetails)
  putE i.id (.issuance { i with token := t, status := .tokenReceived })
  pure (.authorized i.id a)

/-- The checks on a flow to be authorized, /repo/vercre-holder/src/issuance/authorize.rs 106-135. -/
def authorizable (i : Issuance) : HRes Unit :=
  match i.offer.grants with
  | some g => check (g.authorizationCode.isSome && i.status == .accepted)
      "invalid issuance state. Must be accepted and support authorization issuance flow"
  | none =>
    match i.server.grantTypesSupported with
    | none => .error (.refused "no grants in offer is not supported")
    | some l => check (l.contains .authorizationCode && i.status == .accepted)
        "invalid issuance state. Must be accepted and support authorization issuance flow"

/-- Finding or starting the flow, authorize.rs 101-168. -/
def startFlow (req : AuthorizeRequest) : HProg Issuance :=
  match req.initiator with
  | .issuer id => do
    let i ← getIssuance id
    lift (authorizable i)
    pure i
  | .wallet clientId issuer scope subjectId => do
    lift (check (!(req.authorizationDetails.isSome && scope.isSome))
      "wallet-initiated issuance should use authorization details or scope, not both")
    let i ← newIssuance clientId
    let i ← setIssuer { i with subjectId := subjectId } issuer
    pure { i with scope := scope }

/-- The claims of a whole configuration, authorize.rs 321-331. -/
def formatClaims (f : Format) : Option ProfileClaims :=
  f.claims.map fun c => match f with
    | .jwtVcJson d | .ldpVc d | .jwtVcJsonLd d => .w3c { credentialSubject := d.credentialSubject }
    | .isoMdl _ _ => .isoMdl c
    | .vcSdJwt _ _ => .sdJwt c

/-- Details for everything offered, authorize.rs 314-340. -/
def offerDetails (configs : Dict CredentialConfiguration) : List String → HRes (List AuthorizationDetail)
  | [] => .ok []
  | id :: ids => do
    let c ← need (configs.get? id) "unsupported credential type in offer"
    let rest ← offerDetails configs ids
    pure ({ credential := .configurationId id (formatClaims c.format) } :: rest)

/-- Whether the wallet started the flow. /repo/vercre-holder/src/issuance/authorize.rs 311. -/
def Initiator.isWallet : Initiator → Bool
  | .wallet .. => true
  | .issuer _ => false

/-- The scope asked for, authorize.rs 246-249. -/
def Initiator.scope : Initiator → Option String
  | .wallet _ _ s _ => s
  | .issuer _ => none

/-- `authorization_details`, authorize.rs 305-341. -/
def authorizationDetails (i : Issuance) (req : AuthorizeRequest) : HRes (List AuthorizationDetail) :=
  match i.accepted with
  | some l => .ok l
  | none =>
    if req.initiator.isWallet then .error (.refused "authorization details are required for wallet-initiated issuance")
    else offerDetails i.issuer.configs i.offer.configIds

/-- Authorization details of the request: none with a scope, authorize.rs 251-261. -/
def requestDetails (i : Issuance) (req : AuthorizeRequest) : HRes (Option (List AuthorizationDetail)) :=
  match req.initiator.scope with
  | some _ => .ok none
  | none => do
    let l ← authorizationDetails i req
    pure (some l)

/-- The issuer's state from the offer, authorize.rs 232-244. -/
def offeredState (i : Issuance) : Initiator → Option String
  | .wallet .. => none
  | .issuer _ => (i.offer.grants.bind (·.authorizationCode)).bind (·.issuerState)

/-- `authorization_request`, authorize.rs 225-284. Simplification: resource, wallet issuer and user hint dropped, as no endpoint reads them. -/
def authorizationRequest (i : Issuance) (req : AuthorizeRequest) : HRes Issuer.RequestObject := do
  let challenge ← need i.codeChallenge "missing code challenge"
  let details ← requestDetails i req
  let methods ← need i.server.codeChallengeMethodsSupported "code challenge methods missing from authorization server metadata"
  let responseType ← first i.server.responseTypesSupported
  let method ← first methods
  pure {
    credentialIssuer := i.issuer.credentialIssuer
    responseType := responseType
    clientId := i.clientId
    redirectUri := req.redirectUri
    state := some i.id
    codeChallenge := challenge
    codeChallengeMethod := method
    authorizationDetails := details
    scope := req.initiator.scope
    subjectId := i.subjectId
    issuerState := offeredState i req.initiator }

/-- `token_request`, authorize.rs 287-302. -/
def codeTokenRequest (i : Issuance) (req : AuthorizeRequest) (a : Issuer.AuthorizationResponse) : Issuer.TokenRequest where
  credentialIssuer := i.issuer.credentialIssuer
  clientId := some i.clientId
  grantType := .authorizationCode a.code req.redirectUri i.codeVerifier
  authorizationDetails := i.accepted

/-- The authorized credentials of a token response, authorize.rs 202-211: an empty list counts as none. -/
def authorizedOfNonempty (iss : Verif.Issuer) : Option (List Issuer.AuthorizedDetail) → HRes (Option (Dict (List String)))
  | none => .ok none
  | some [] => .ok none
  | some l => authorizedOf iss (some l)

/-- `authorize`, authorize.rs 96-222. -/
def authorize (P : Provider) (req : AuthorizeRequest) : HProg Resp := do
  let i ← startFlow req
  let v ← drawE
  let i := { i with accepted := req.authorizationDetails, codeChallenge := some (P.codeChallenge v), codeVerifier := some v }
  let r ← lift (authorizationRequest i req)
  let a ← callE (.authorization r)
  let t ← callE (.token (codeTokenRequest i req a))
  let m ← lift (authorizedOfNonempty i.issuer t.authorizationDetails)
  putE i.id (.issuance { i with token := t, status := .tokenReceived })
  pure (.authorized i.id m)

/-- The address of the logo to fetch, credentials.rs 318-322. `display[0]` panics on an empty list. -/
def logoUri (display : Option (List CredentialDisplay)) : HRes (Option String) :=
  match display with
  | none => .ok none
  | some l => do
    let d ← first l
    pure d.logoUri

/-- Fetching the logo, credentials.rs 323-325: a failure is ignored. -/
def fetchLogo : Option String → HProg (Option Logo)
  | none => pure none
  | some uri => callO (.logo uri)

/-- The identifier of a stored credential, credentials.rs 307. -/
def storableId (vc : Vc) : HProg String :=
  match vc.id with
  | some id => pure id
  | none => do
    let u ← drawE
    pure ("urn:uuid:" ++ u)

/-- `credential`, credentials.rs 283-331. -/
def storable (P : Provider) (config : CredentialConfiguration) (kind : Kind Vc) : HProg Credential := do
  let p ← lift (ofRes (Proof.verifyVc P.jose kind))
  match p with
  | .vp .. => refuse "expected VerifiableCredential"
  | .vc vc issuedAt => do
    lift (check (P.validTime issuedAt) "invalid issuance date")
    match kind with
    | .object _ => refuse "credential is not a JWT"
    | .string token => do
      let id ← storableId vc
      let uri ← lift (logoUri config.display)
      let logo ← fetchLogo uri
      pure {
        id
        issuer := match vc.issuer with | .string i => i | .object o => o.id
        vc
        issued := token
        issuanceDate := issuedAt
        display := config.display
        logo }

/-- The loop over several credentials, credentials.rs 271-276. -/
def storables (P : Provider) (config : CredentialConfiguration) : List (Kind Vc) → HProg (List Credential)
  | [] => pure []
  | k :: l => do
    let c ← storable P config k
    let rest ← storables P config l
    pure (c :: rest)

/-- `process_credential_response`, credentials.rs 260-280: the credentials received or the transaction to redeem later. -/
def process (P : Provider) (config : CredentialConfiguration) (r : CredentialResponse) : HProg (List Credential × Option String) :=
  match r.response with
  | .credential k => do
    let c ← storable P config k
    pure ([c], none)
  | .credentials l => do
    let cs ← storables P config l
    pure (cs, none)
  | .transactionId id => pure ([], some id)

/-- Recording what a response brought, credentials.rs 171-177, 232-238 and deferred.rs 81-87. -/
def Issuance.record (i : Issuance) (cfg : String) (out : List Credential × Option String) : Issuance :=
  { i with credentials := i.credentials ++ out.1, deferred := match out.2 with | some t => i.deferred.insert t cfg | none => i.deferred }

/-- `credential_by_format`, credentials.rs 139-184. -/
def byFormat (P : Provider) (i : Issuance) (req : CredentialsRequest) (jwt : String) : HProg Issuance := do
  lift (check req.identifiers.isNone "credential identifiers must be `None` for scope-based issuance")
  let format ← lift (need req.format "format must be provided for scope-based issuance")
  let e ← lift (need (i.issuer.configs.find? fun e => e.2.scope == i.scope && e.2.format.eqv format)
    "credential configuration not found for scope and format")
  let r ← callE (.credential {
    credentialIssuer := i.issuer.credentialIssuer
    accessToken := i.token.accessToken
    credential := .format e.2.format
    proof := some (.single jwt) })
  let out ← process P e.2 r
  pure (i.record e.1 out)

/-- Taking over a new nonce, credentials.rs 245-250. -/
def Issuance.renew (i : Issuance) (r : CredentialResponse) : Issuance :=
  { i with token := { i.token with cNonce := r.cNonce.or i.token.cNonce, cNonceExpiresIn := r.cNonceExpiresIn.or i.token.cNonceExpiresIn } }

/-- The request for one identifier, credentials.rs 220-228. -/
def identifierRequest (i : Issuance) (jwt id : String) : Issuer.CredentialRequest where
  credentialIssuer := i.issuer.credentialIssuer
  accessToken := i.token.accessToken
  credential := .identifier id
  proof := some (.single jwt)

/-- Whether the caller wants an identifier: all of them when none are named, credentials.rs 214-218. -/
def wants : Option (List String) → String → Bool
  | some l, id => l.contains id
  | none, _ => true

/-- The loop over the identifiers of one configuration, credentials.rs 213-251. -/
def byIdentifiers (P : Provider) (jwt cfg : String) (config : CredentialConfiguration) (wanted : Option (List String)) :
    List String → Issuance → HProg Issuance
  | [], i => pure i
  | id :: ids, i =>
    if wants wanted id then do
      let r ← callE (.credential (identifierRequest i jwt id))
      let out ← process P config r
      byIdentifiers P jwt cfg config wanted ids ((i.record cfg out).renew r)
    else byIdentifiers P jwt cfg config wanted ids i

/-- The loop over the authorized configurations, credentials.rs 194-252. -/
def byDetails (P : Provider) (jwt : String) (wanted : Option (List String)) : List Issuer.AuthorizedDetail → Issuance → HProg Issuance
  | [], i => pure i
  | d :: l, i => do
    let cfg ← lift (detailConfig i.issuer d)
    let config ← lift (need (i.issuer.configs.get? cfg) "authorized credential configuration not found in issuer metadata")
    let i ← byIdentifiers P jwt cfg config wanted d.identifiers i
    byDetails P jwt wanted l i

/-- `credential_by_identifier`, credentials.rs 187-254. -/
def byIdentifier (P : Provider) (i : Issuance) (req : CredentialsRequest) (jwt : String) : HProg Issuance := do
  let l ← lift (need i.token.authorizationDetails "no authorization details in token response")
  byDetails P jwt req.identifiers l i

/-- The outstanding transactions of a response, credentials.rs 129-130 and deferred.rs 108-109. -/
def Issuance.outstanding (i : Issuance) : Option (Dict String) := if i.deferred.isEmpty then none else some i.deferred

/-- The claims of the key proof, credentials.rs 89-94. -/
def proofClaims (i : Issuance) (now : Int) : ProofClaims where
  iss := some i.clientId
  aud := i.offer.credentialIssuer
  iat := timestamp now
  nonce := i.token.cNonce

/-- Requests by format with a scope, by identifier without, credentials.rs 102-119. -/
def fetch (P : Provider) (i : Issuance) (req : CredentialsRequest) (jwt : String) : HProg Issuance :=
  if i.scope.isSome then byFormat P i req jwt else byIdentifier P i req jwt

/-- `credentials`, /repo/vercre-holder/src/issuance/credentials.rs 72-136. -/
def credentials (P : Provider) (req : CredentialsRequest) : HProg Resp := do
  let i ← getIssuance req.issuanceId
  lift (check (i.status == .tokenReceived) "invalid issuance state")
  let now ← nowE
  let jwt ← lift (need (P.signProof (proofClaims i now)) "signing")
  let i ← fetch P i req jwt
  putE i.id (.issuance i)
  pure (.credentials i.id i.outstanding)

/-- `HashMap::remove`. /repo/vercre-holder/src/issuance/deferred.rs 51. -/
def remove {α : Type} (m : Dict α) (k : String) : Dict α := m.filter fun e => e.1 != k

/-- Storing or dropping the flow, deferred.rs 94-106. -/
def stash (i : Issuance) : HProg Unit :=
  if i.deferred.isEmpty && i.credentials.isEmpty then purgeE i.id else putE i.id (.issuance i)

/-- `deferred`, /repo/vercre-holder/src/issuance/deferred.rs 35-115. -/
def deferred (P : Provider) (req : DeferredRequest) : HProg Resp := do
  let i ← getIssuance req.issuanceId
  lift (check (i.status == .tokenReceived) "invalid issuance state")
  let i := { i with deferred := remove i.deferred req.transactionId }
  let r ← callE (.deferred {
    transactionId := req.transactionId
    credentialIssuer := i.issuer.credentialIssuer
    accessToken := i.token.accessToken })
  let config ← lift (need (i.issuer.configs.get? req.configId) "credential configuration not found in issuer metadata")
  let out ← process P config r
  let i := i.record req.configId out
  stash i
  pure (.credentials i.id i.outstanding)

/-- A notification of the outcome of a flow. /repo/vercre-holder/src/issuance/cancel.rs 43-47, save.rs 49-53 and 74-78. -/
def notify (i : Issuance) (id : String) (event : NotificationEvent) : Call :=
  .notification { credentialIssuer := i.issuer.credentialIssuer, accessToken := i.token.accessToken, notificationId := id, event }

/-- Telling the issuer that storing failed, save.rs 42-62: a failure of this call is ignored. -/
def notifyFailure (i : Issuance) : HProg Unit :=
  match i.notificationId with
  | none => pure ()
  | some n => do
    let _ ← callO (notify i n .failure)
    pure ()

/-- The loop of `save`, save.rs 36-66. -/
def saveAll (i : Issuance) : List Credential → HProg Unit
  | [] => pure ()
  | c :: l => do
    let o ← callO (.save c)
    match o with
    | some () => saveAll i l
    | none => do
      notifyFailure i
      lift (.error .provider)

/-- Telling the issuer the outcome, save.rs 70-87 and cancel.rs 40-56. -/
def notifyOutcome (i : Issuance) (event : NotificationEvent) : HProg Unit :=
  match i.notificationId with
  | none => pure ()
  | some n => do
    let _ ← callE (notify i n event)
    pure ()

/-- Dropping the flow unless credentials are still to come, save.rs 89-96. -/
def endFlow (i : Issuance) (issuanceId : String) : HProg Unit := if i.deferred.isEmpty then purgeE issuanceId else pure ()

/-- `save`, /repo/vercre-holder/src/issuance/save.rs 29-99. -/
def save (issuanceId : String) : HProg Resp := do
  let i ← getIssuance issuanceId
  saveAll i i.credentials
  notifyOutcome i .accepted
  endFlow i issuanceId
  pure (.flow issuanceId)

/-- `cancel`, /repo/vercre-holder/src/issuance/cancel.rs 28-65. -/
def cancel (issuanceId : String) : HProg Resp := do
  let i ← getIssuance issuanceId
  notifyOutcome i .deleted
  purgeE issuanceId
  pure (.flow i.id)

end Verif.Holder
