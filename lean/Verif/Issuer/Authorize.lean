import Verif.Issuer.State
/-!
# `authorize` and `par`
-/
namespace Verif.Issuer
open Prog

namespace Authorize

/-- Configuration id and requested claims of an authorization detail, /repo/vercre-issuer/src/authorize.rs 285-301. -/
def detailTarget (iss : Issuer) (d : AuthorizationDetail) : Res (String × Option (Dict Claim)) :=
  match d.credential with
  | .configurationId id profile => .ok (id, profile.bind ProfileClaims.claims)
  | .format f => do
    let id ← orErr (iss.configurationId f) (.serverError "issue getting `credential_configuration_id`")
    pure (id, f.claims)

/-- Claims check of one detail, authorize.rs 304-314. -/
def checkClaims (iss : Issuer) (configId : String) (claims : Option (Dict Claim)) : Res Unit :=
  match claims with
  | none => .ok ()
  | some req => do
    let cfg ← orErr (iss.configs.get? configId) (.invalidAuthorizationDetails "invalid credential_configuration_id")
    require (cfg.verifyClaims req) (.invalidRequest "claim error")

/-- `verify_authorization_details`, authorize.rs 273-321: returns the `auth_dets` map of the context. The type check
(278-282) is vacuous as the type has one value. -/
def verifyDetails (iss : Issuer) : List AuthorizationDetail → Dict AuthorizationDetail → Res (Dict AuthorizationDetail)
  | [], acc => .ok acc
  | d :: ds, acc => do
    let t ← detailTarget iss d
    checkClaims iss t.1 t.2
    verifyDetails iss ds (acc.insert t.1 d)

/-- `verify_scope`, authorize.rs 325-349: returns the `scope_items` map of the context. -/
def verifyScope (iss : Issuer) (details : Dict AuthorizationDetail) (scope : String) : Res (Dict String) :=
  match splitWs scope with
  | [] => .ok []
  | item :: _ =>
    let m := (iss.configs.filter fun e => !details.has e.1 && e.2.scope == some item).map fun e => (e.1, item)
    if m.isEmpty then .error (.invalidScope ("scope item " ++ item ++ " is unsupported")) else .ok m

/-- Client scope supported by the server, authorize.rs 169-180 (also /repo/vercre-issuer/src/token.rs 161-172). -/
def checkScopes (client : Client) (server : Server) : Res Unit := do
  let cs ← orErr client.scope (.invalidRequest "client scope not set")
  let ss ← orErr server.scopesSupported (.invalidRequest "server supported scopes not set")
  require ((splitWs cs).all fun s => ss.contains s) (.invalidRequest "client scope not supported")

/-- The `issuer_state` check, authorize.rs 202-216. -/
def checkIssuerState (req : RequestObject) : IProg Unit :=
  match req.issuerState with
  | none => pure ()
  | some key => do
    let state ← getE key (.serverError "issue getting state")
    let now ← nowE
    lift (require (!state.isExpired now) (.invalidRequest "issuer state expired"))
    lift (require (state.subjectId == some req.subjectId) (.invalidRequest "request `subject_id` does not match offer"))

/-- Checks before the state lookup, authorize.rs 151-199. -/
def verifyPre (client : Client) (server : Server) (isPar : Bool) (req : RequestObject) : Res Unit := do
  require (!(server.requirePar == some true && !isPar)) (.invalidRequest "pushed authorization request is required")
  require (server.responseTypesSupported.contains req.responseType)
    (.unsupportedResponseType "`response_type` not supported by server")
  checkScopes client server
  require ((client.grantTypes.getD []).contains .authorizationCode)
    (.unauthorizedClient "authorization_code grant not supported for client")
  require ((server.grantTypesSupported.getD []).contains .authorizationCode)
    (.invalidRequest "authorization_code grant not supported by server")
  require (req.subjectId != "") (.invalidRequest "missing holder subject")

/-- authorize.rs 224-226. -/
def verifyDetailsOpt (iss : Issuer) : Option (List AuthorizationDetail) → Res (Dict AuthorizationDetail)
  | none => .ok []
  | some ds => verifyDetails iss ds []

/-- authorize.rs 228-230. -/
def verifyScopeOpt (iss : Issuer) (details : Dict AuthorizationDetail) : Option String → Res (Dict String)
  | none => .ok []
  | some s => verifyScope iss details s

/-- Checks after the state lookup, authorize.rs 219-267. Returns the maps of authorization details and scope items. -/
def verifyPost (iss : Issuer) (client : Client) (server : Server) (req : RequestObject) :
    Res (Dict AuthorizationDetail × Dict String) := do
  require (!(req.authorizationDetails.isNone && req.scope.isNone)) (.invalidRequest "no credentials requested")
  let details ← verifyDetailsOpt iss req.authorizationDetails
  let scopes ← verifyScopeOpt iss details req.scope
  let uri ← orErr req.redirectUri (.invalidRequest "no `redirect_uri` specified")
  let uris ← orErr client.redirectUris (.serverError "`redirect_uri`s not set for client")
  require (uris.contains uri) (.invalidRequest "`redirect_uri` is not registered")
  require ((client.responseTypes.getD []).contains req.responseType)
    (.unsupportedResponseType "`response_type` not supported for client")
  require (server.responseTypesSupported.contains req.responseType)
    (.unsupportedResponseType "`response_type` not supported by server")
  require ((server.codeChallengeMethodsSupported.getD []).contains req.codeChallengeMethod)
    (.invalidRequest "unsupported `code_challenge_method`")
  require (!(req.codeChallenge.utf8ByteSize < 43 || req.codeChallenge.utf8ByteSize > 128))
    (.invalidRequest "code_challenge must be between 43 and 128 characters")
  pure (details, scopes)

/-- `Context::verify`, authorize.rs 137-268. -/
def verify (P : Provider) (iss : Issuer) (isPar : Bool) (req : RequestObject) :
    IProg (Dict AuthorizationDetail × Dict String) := do
  let client ← lift (orErr (P.client req.clientId) (.invalidClient "invalid `client_id`"))
  let server ← lift (orErr (P.server req.credentialIssuer) (.invalidRequest "invalid `credential_issuer`"))
  lift (verifyPre client server isPar req)
  checkIssuerState req
  lift (verifyPost iss client server req)

/-- Asking the subject provider for each authorization detail, authorize.rs 361-372. -/
def authorizeDetails (P : Provider) (subject : String) : List (String × AuthorizationDetail) → Res (List AuthorizedItem)
  | [] => .ok []
  | (id, d) :: rest => do
    let identifiers ← orErr (P.authorize subject id) (.accessDenied "issue authorizing subject")
    let more ← authorizeDetails P subject rest
    pure ({ item := .detail d, configId := id, identifiers } :: more)

/-- Asking the subject provider for each scope item, authorize.rs 375-385. -/
def authorizeScopes (P : Provider) (subject : String) : List (String × String) → Res (List AuthorizedItem)
  | [] => .ok []
  | (id, s) :: rest => do
    let identifiers ← orErr (P.authorize subject id) (.accessDenied "issue authorizing holder")
    let more ← authorizeScopes P subject rest
    pure ({ item := .scope s, configId := id, identifiers } :: more)

/-- Authorized items, authorize.rs 361-392. -/
def authorizeItems (P : Provider) (subject : String) (details : Dict AuthorizationDetail) (scopes : Dict String) :
    Res (List AuthorizedItem) := do
  let a ← authorizeDetails P subject (P.iter details)
  let b ← authorizeScopes P subject (P.iter scopes)
  require (!(a ++ b).isEmpty) (.accessDenied "holder is not authorized for requested credentials")
  pure (a ++ b)

/-- Removing the offer state, authorize.rs 413-417. -/
def purgeOffer (req : RequestObject) : IProg Unit :=
  match req.issuerState with
  | none => pure ()
  | some k => purgeE k (.serverError "issue purging offer state")

/-- `Context::process`, authorize.rs 355-424. -/
def process (P : Provider) (req : RequestObject) (details : Dict AuthorizationDetail) (scopes : Dict String) :
    IProg AuthorizationResponse := do
  let items ← lift (authorizeItems P req.subjectId details scopes)
  let now ← nowE
  let code ← drawE
  putE code {
      expiresAt := now + authorizedDur
      subjectId := some req.subjectId
      stage := .authorized {
        codeChallenge := req.codeChallenge
        codeChallengeMethod := req.codeChallengeMethod
        items
        clientId := req.clientId
        redirectUri := req.redirectUri } }
    (.serverError "issue saving authorization state")
  purgeOffer req
  pure { code, state := req.state, redirectUri := req.redirectUri.getD "" }

/-- The pushed request of a state and its expiry, authorize.rs 102-104. -/
def pushed (state : State) : Res (RequestObject × Int) :=
  match state.stage with
  | .pushed r exp => .ok (r, exp)
  | _ => .error (.invalidRequest "invalid state")

/-- Resolving the request, authorize.rs 94-111. -/
def resolve : AuthorizationRequest → IProg (Bool × RequestObject)
  | .object r => pure (false, r)
  | .uri u => do
    let state ← getE u (.serverError "state issue")
    let p ← lift (pushed state)
    let now ← nowE
    lift (require (!decide (p.2 < now)) (.invalidRequest "`request_uri` has expired"))
    pure (true, p.1)

end Authorize

/-- `authorize`, authorize.rs 90-125. -/
def authorize (P : Provider) (request : AuthorizationRequest) : IProg AuthorizationResponse := do
  let r ← Authorize.resolve request
  let iss ← lift (orErr (P.issuer r.2.credentialIssuer) (.invalidRequest "invalid `credential_issuer`"))
  let v ← Authorize.verify P iss r.1 r.2
  Authorize.process P r.2 v.1 v.2

/-- `par`, /repo/vercre-issuer/src/par.rs 28-86. The verification context has `is_par = false` (par.rs 49-52). -/
def par (P : Provider) (req : RequestObject) : IProg ParResponse := do
  let iss ← lift (orErr (P.issuer req.credentialIssuer) (.invalidClient "invalid `credential_issuer`"))
  let _ ← Authorize.verify P iss false req
  let token ← drawE
  let now ← nowE
  let now' ← nowE
  putE ("urn:ietf:params:oauth:request_uri:" ++ token)
    { subjectId := none, stage := .pushed req (now + parDur), expiresAt := now' + parDur }
    (.serverError "issue saving state")
  pure { requestUri := "urn:ietf:params:oauth:request_uri:" ++ token, expiresIn := 600 }

end Verif.Issuer
