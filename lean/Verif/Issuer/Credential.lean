import Verif.Issuer.State
/-!
# `credential`, `deferred`, `notification`, `register`
-/
namespace Verif.Issuer
open Prog

namespace Credential

/-- `Context`, /repo/vercre-issuer/src/credential.rs 71-77 (without `holder_did`, which is a result of `verify`). -/
structure Ctx where
  state : State
  issuer : Issuer
  authorized : Authorized
  config : CredentialConfiguration

/-- `Context::authorized`, credential.rs 344-362. -/
def authorized (P : Provider) (iss : Issuer) (state : State) (req : CredentialRequest) : Res Authorized :=
  match state.stage with
  | .validated t =>
    match req.credential with
    | .identifier id =>
      orErr (t.credentials.get? id) (.invalidCredentialRequest "unauthorized credential requested")
    | .format f => do
      let cid ← orErr (iss.configurationId f) (.unsupportedFormat "invalid credential format")
      orErr ((Dict.values (P.iter t.credentials)).find? fun a => a.configId == cid)
        (.invalidCredentialRequest "unauthorized credential requested")
  | _ => .error (.accessDenied "invalid access token state")

/-- `Context::invalid_proof`, credential.rs 411-435, in the position `return Err(self.invalid_proof(..).await?)`. -/
def invalidProof {α : Type} (state : State) (hint : String) : IProg α := do
  let cNonce ← drawE
  let now ← nowE
  match state.stage with
  | .validated t => do
    let now' ← nowE
    putE t.accessToken
      { state with
        expiresAt := now + accessDur
        stage := .validated { t with cNonce, cNonceExpiresAt := now' + nonceDur } }
      (.serverError "issue saving state")
    lift (.error (.invalidProof hint cNonce (numSeconds nonceDur)))
  | _ => lift (.error (.accessDenied "invalid access token state"))

/-- Result of checking one proof JWT, credential.rs 125-162: the holder DID or the hint of the failure.
`kid.split('#').next()` never fails. -/
def checkProof (P : Provider) (cNonce : String) (jwt : String) : Except String String :=
  match P.decodeProof jwt with
  | none => .error "issue decoding JWT"
  | some p =>
    if !p.typIsProof then .error "Proof JWT 'typ' is not openid4vci-proof+jwt"
    else if p.nonce != some cNonce then .error "Proof JWT nonce claim is invalid"
    else match p.kid with
      | none => .error "Proof JWT 'kid' is missing"
      | some kid => .ok (beforeHash kid)

/-- Loop over the proof JWTs, credential.rs 125-163; the last DID wins, the initial one is the empty string. -/
def checkProofs (P : Provider) (cNonce : String) : List String → String → Except String String
  | [], did => .ok did
  | j :: js, _ =>
    match checkProof P cNonce j with
    | .error h => .error h
    | .ok did => checkProofs P cNonce js did

/-- Proof JWTs of a request, credential.rs 116-123. -/
def proofJwts : Proof → List String
  | .single j => [j]
  | .multiple js => js

/-- `Context::verify`, credential.rs 88-167. Returns the holder DID. -/
def verify (P : Provider) (ctx : Ctx) (req : CredentialRequest) : IProg String := do
  let now ← nowE
  lift (require (!ctx.state.isExpired now) (.invalidCredentialRequest "token state expired"))
  match ctx.state.stage with
  | .validated t => do
    let now' ← nowE
    lift (require (!t.cNonceExpired now') (.accessDenied "c_nonce has expired"))
    match ctx.config.proofTypes with
    | none => pure ""
    | some types =>
      match req.proof with
      | none => invalidProof ctx.state "proof not set"
      | some proof => do
        lift (require (types.contains "jwt") (.invalidCredentialRequest "proof type not supported"))
        match checkProofs P t.cNonce (proofJwts proof) "" with
        | .error hint => invalidProof ctx.state hint
        | .ok did => pure did
  | _ => lift (.error (.accessDenied "invalid access token state"))

/-- Claim names a request narrows the dataset to, credential.rs 384-404. -/
def narrowing (req : CredentialRequest) : Option (List String) :=
  match req.credential with
  | .identifier _ => none
  | .format f =>
    match f with
    | .jwtVcJson d | .jwtVcJsonLd d | .ldpVc d => d.credentialSubject.map Dict.keys
    | .isoMdl _ c => c.map Dict.keys
    | .vcSdJwt _ c => c.map Dict.keys

/-- Narrowing a claim set to some names, credential.rs 379-381 and 401-403. -/
def narrow (claims : Dict Json) : Option (List String) → Dict Json
  | none => claims
  | some ids => claims.retainKeys fun k => ids.contains k

/-- `Context::dataset`, credential.rs 365-407. -/
def dataset (P : Provider) (ctx : Ctx) (req : CredentialRequest) : Res Dataset := do
  let subject ← orErr ctx.state.subjectId (.accessDenied "invalid subject id")
  let ds ← orErr (P.dataset subject ctx.authorized.identifier) (.serverError "issue populating claims")
  pure { ds with claims := narrow (narrow ds.claims ctx.authorized.claimIds) (narrowing req) }

/-- `create_names`, credential.rs 440-468. -/
def createNames : List CredentialDisplay → Option LangString → Option LangString → Option LangString × Option LangString
  | [], n, d => (n, d)
  | c :: cs, n, d =>
    let nv : LangValue := { value := c.name, language := c.locale }
    let n' := match n with
      | some nm => some (LangString.add nm nv)
      | none => some (LangString.newObject nv)
    let d' := match c.description with
      | none => d
      | some t =>
        let dv : LangValue := { value := t, language := c.locale }
        match d with
        | some ds => some (LangString.add ds dv)
        | none => some (LangString.newObject dv)
    createNames cs n' d'

/-- `Context::w3c_vc`, credential.rs 247-286. -/
def w3cVc (P : Provider) (ctx : Ctx) (holderDid : String) (d : CredentialDefinition) (ds : Dataset) : Res Vc := do
  let types ← orErr d.type_ (.serverError "Credential type not set")
  let ty ← orErr types[1]? (.serverError "Credential type not set")
  let subject ← orErr ctx.state.subjectId (.accessDenied "invalid subject id")
  let status ← orErr (P.status subject "credential_identifier") (.serverError "issue populating credential status")
  let iss := ctx.issuer.credentialIssuer
  let (name, description) := match ctx.config.display with
    | none => (none, none)
    | some l => createNames l none none
  let vc := Vc.builder.addContext (.string (iss ++ "/credentials/v1"))
    |>.setId (iss ++ "/credentials/" ++ ty)
    |>.addType ty
    |>.addName name
    |>.addDescription description
    |>.setIssuer iss
    |>.addSubject { id := some holderDid, claims := ds.claims }
    |>.setStatus status
  match vc.build with
  | .ok vc => .ok vc
  | .error _ => .error (.serverError "issue building VC")

/-- The signed credential, credential.rs 193-208, 289-316. Three formats are `todo!()` in the code, which panics.
`proof::create` on a built credential with one subject cannot panic. -/
def signed (P : Provider) (ctx : Ctx) (holderDid : String) (req : CredentialRequest) (ds : Dataset) (now : Int) :
    Res IssuedCredential := do
  let signer ← orErr (P.signer req.credentialIssuer) (.serverError "issue  resolving signer")
  match ctx.config.format with
  | .jwtVcJson d => do
    let vc ← w3cVc P ctx holderDid d ds
    let c := IssuedCredential.jwtVc signer vc (now.fdiv sec)
    require (P.signOk signer c) (.serverError "issue generating `jwt_vc_json` credential")
    pure c
  | .isoMdl _ _ => do
    let c := IssuedCredential.mdoc signer ds.claims
    require (P.signOk signer c) (.serverError "issue generating `mso_mdoc` credential")
    pure c
  | .jwtVcJsonLd _ | .ldpVc _ | .vcSdJwt _ _ => .error (.panic "not yet implemented")

/-- `Context::issue_response`, credential.rs 187-241. -/
def issueResponse (P : Provider) (ctx : Ctx) (holderDid : String) (req : CredentialRequest) (ds : Dataset) :
    IProg CredentialResponse := do
  let now ← nowE
  let c ← lift (signed P ctx holderDid req ds now)
  let now₁ ← nowE
  match ctx.state.stage with
  | .validated t => do
    let cNonce ← drawE
    let now₂ ← nowE
    let t' : Token := { t with cNonce, cNonceExpiresAt := now₂ + nonceDur }
    let state' : State := { ctx.state with expiresAt := now₁ + accessDur, stage := .validated t' }
    putE t'.accessToken state' (.serverError "issue saving state")
    let notificationId ← drawE
    putE notificationId state' (.serverError "issue saving state")
    let now₃ ← nowE
    pure {
      response := .credential c
      cNonce := some t'.cNonce
      cNonceExpiresIn := some (t'.cNonceExpiresIn now₃)
      notificationId := some notificationId }
  | _ => lift (.error (.accessDenied "invalid access token state"))

/-- `Context::defer_response`, credential.rs 319-340. -/
def deferResponse (req : CredentialRequest) : IProg CredentialResponse := do
  let txn ← drawE
  let now ← nowE
  putE txn { subjectId := none, stage := .deferred txn req, expiresAt := now + accessDur }
    (.serverError "issue saving state")
  pure { response := .transactionId txn }

/-- `Context::process`, credential.rs 170-184. -/
def process (P : Provider) (ctx : Ctx) (holderDid : String) (req : CredentialRequest) : IProg CredentialResponse := do
  let ds ← lift (dataset P ctx req)
  if ds.pending then deferResponse req else issueResponse P ctx holderDid req ds

/-- Building the context, credential.rs 45-64. -/
def context (P : Provider) (state : State) (req : CredentialRequest) : Res Ctx := do
  let iss ← orErr (P.issuer req.credentialIssuer) (.serverError "metadata issue")
  let auth ← authorized P iss state req
  let cfg ← orErr (iss.configs.get? auth.configId) (.serverError "credential configuration unable to be found")
  pure { state, issuer := iss, authorized := auth, config := cfg }

end Credential

/-- `credential`, credential.rs 39-68. -/
def credential (P : Provider) (req : CredentialRequest) : IProg CredentialResponse := do
  let state ← getE req.accessToken (.accessDenied "invalid access token")
  let ctx ← lift (Credential.context P state req)
  let did ← Credential.verify P ctx req
  Credential.process P ctx did req

/-- The saved request of a deferred state, /repo/vercre-issuer/src/deferred.rs 47-49. -/
def deferredRequest (state : State) : Res CredentialRequest :=
  match state.stage with
  | .deferred _ r => .ok r
  | _ => .error (.serverError "Deferred state not found.")

/-- `deferred`, /repo/vercre-issuer/src/deferred.rs 28-72. -/
def deferred (P : Provider) (req : DeferredRequest) : IProg CredentialResponse := do
  let state ← getE req.transactionId (.invalidTransactionId "deferred state not found")
  let now ← nowE
  lift (require (!state.isExpired now) (.invalidRequest "state expired"))
  let saved ← lift (deferredRequest state)
  purgeE req.transactionId (.serverError "issue purging state")
  let resp ← credential P { saved with credentialIssuer := req.credentialIssuer, accessToken := req.accessToken }
  match resp.response with
  | .transactionId _ => lift (.error (.issuancePending 5))
  | .credential _ => pure resp

/-- The stage check of `notification`, /repo/vercre-issuer/src/notification.rs 51-53. -/
def issuedState (state : State) : Res Unit :=
  match state.stage with
  | .issued _ => .ok ()
  | _ => .error (.serverError "issued state not found")

/-- `notification`, /repo/vercre-issuer/src/notification.rs 35-67. -/
def notification (req : NotificationRequest) : IProg Unit := do
  let state ← getE req.notificationId (.accessDenied "invalid access token")
  lift (issuedState state)
  purgeE req.notificationId (.serverError "failed to purge state")

/-- `register`, /repo/vercre-issuer/src/register.rs 17-46. -/
def register (P : Provider) (req : RegistrationRequest) : IProg Client := do
  let _ ← getE req.accessToken (.serverError "State not found")
  lift (orErr (P.register req.client) (.serverError "Registration failed"))

/-- `metadata`, /repo/vercre-issuer/src/metadata.rs 39-53. -/
def metadata (P : Provider) (credentialIssuer : String) : IProg Issuer :=
  lift (orErr (P.issuer credentialIssuer) (.serverError "issue getting metadata"))

/-- `oauth_server`, /repo/vercre-issuer/src/oauth_server.rs 35-55. Simplification: the optional server id of the request
is not passed on (no other endpoint uses it). -/
def oauthServer (P : Provider) (credentialIssuer : String) : IProg Server :=
  lift (orErr (P.server credentialIssuer) (.serverError "issue getting authorization server metadata"))

end Verif.Issuer
