import Verif.Issuer.Authorize
/-!
# `token`
-/
namespace Verif.Issuer
open Prog

namespace Token

/-- Grant specific checks, /repo/vercre-issuer/src/token.rs 86-153. -/
def checkGrant (P : Provider) (server : Server) (supported : List GrantType) (state : State) (req : TokenRequest) :
    Res Unit :=
  match req.grantType with
  | .preAuthorizedCode _ txCode =>
    match state.stage with
    | .offered o => do
      require (supported.contains .preAuthorizedCode) (.invalidGrant "unsupported `grant_type`")
      require (!(req.clientId.isNone || (req.clientId == some "" && !server.anonymousAccess)))
        (.invalidClient "anonymous access is not supported")
      require (txCode == o.txCode) (.invalidGrant "invalid `tx_code` provided")
    | _ => .error (.serverError "pre-authorized state not set")
  | .authorizationCode _ redirectUri codeVerifier =>
    match state.stage with
    | .authorized a => do
      require (supported.contains .authorizationCode) (.invalidGrant "unsupported `grant_type`")
      require req.clientId.isSome (.invalidRequest "`client_id` is missing")
      require (req.clientId == some a.clientId) (.invalidClient "`client_id` differs from authorized one")
      require (redirectUri == a.redirectUri) (.invalidGrant "`redirect_uri` differs from authorized one")
      let v ← orErr codeVerifier (.accessDenied "`code_verifier` is missing")
      require (P.codeChallenge v == a.codeChallenge) (.accessDenied "`code_verifier` is invalid")
    | _ => .error (.serverError "authorization state not set")

/-- Client checks, token.rs 155-173. -/
def checkClient (P : Provider) (server : Server) (req : TokenRequest) : Res Unit :=
  match req.clientId with
  | none => .ok ()
  | some cid => do
    let client ← orErr (P.client cid) (.invalidClient "invalid `client_id`")
    Authorize.checkScopes client server

/-- `Context::verify`, token.rs 70-176. -/
def verify (P : Provider) (state : State) (now : Int) (req : TokenRequest) : Res Unit := do
  require (!state.isExpired now) (.invalidRequest "authorization state expired")
  let server ← orErr (P.server req.credentialIssuer) (.invalidRequest "unknown authorization server")
  let supported ← orErr server.grantTypesSupported (.serverError "authorization server grant types not set")
  checkGrant P server supported state req
  checkClient P server req

/-- Configuration id and claims of a requested credential, token.rs 282-293. -/
def claimsTarget (iss : Issuer) : CredentialAuthorization → Res (String × Option (Dict Claim))
  | .configurationId id profile => .ok (id, profile.bind ProfileClaims.claims)
  | .format f => do
    let id ← orErr (iss.configurationId f) (.serverError "issuer issue")
    pure (id, f.claims)

/-- `verify_claims`, token.rs 280-307. -/
def verifyClaims (iss : Issuer) (c : CredentialAuthorization) : Res Unit := do
  let t ← claimsTarget iss c
  match t.2 with
  | none => .ok ()
  | some req => do
    let cfg ← orErr (iss.configs.get? t.1) (.invalidAuthorizationDetails "invalid `credential_configuration_id`")
    require (cfg.verifyClaims req) (.invalidAuthorizationDetails "claim error")

/-- Inner loop of `retain_details`, token.rs 258-267: the first authorized item for the same credential. -/
def findItem (items : List AuthorizedItem) (c : CredentialAuthorization) : Option AuthorizedItem :=
  items.find? fun it => match it.item with
    | .detail ad => ad.credential.eqv c
    | .scope _ => false

/-- Outer loop of `retain_details`, token.rs 255-273. -/
def retainLoop (iss : Issuer) (items : List AuthorizedItem) : List AuthorizationDetail → Res (List AuthorizedItem)
  | [] => .ok []
  | d :: ds => do
    let it ← orErr (findItem items d.credential) (.accessDenied "requested credential has not been authorized")
    verifyClaims iss d.credential
    let rest ← retainLoop iss items ds
    pure (it :: rest)

/-- `retain_details`, token.rs 240-276. -/
def retainDetails (P : Provider) (req : TokenRequest) (items : List AuthorizedItem) : Res (List AuthorizedItem) :=
  match req.authorizationDetails with
  | none => .ok items
  | some ds => do
    let iss ← orErr (P.issuer req.credentialIssuer) (.invalidRequest "unknown authorization server")
    retainLoop iss items ds

/-- `authorized_details`, token.rs 309-327. -/
def authorizedDetails (items : List AuthorizedItem) : Option (List AuthorizedDetail) :=
  let l := items.filterMap fun it => match it.item with
    | .detail d => some { detail := d, identifiers := it.identifiers }
    | .scope _ => none
  if l.isEmpty then none else some l

/-- Inner loop of `authorized_credentials`, token.rs 333-342. -/
def insertIdentifiers (configId : String) : List String → Dict Authorized → Dict Authorized
  | [], acc => acc
  | i :: is, acc => insertIdentifiers configId is (acc.insert i { identifier := i, configId, claimIds := none })

/-- `authorized_credentials`, token.rs 329-346. -/
def authorizedCredentials (items : List AuthorizedItem) : Dict Authorized :=
  items.foldl (fun acc it => insertIdentifiers it.configId it.identifiers acc) []

/-- The items a token will grant, token.rs 186-209. -/
def grantedItems (P : Provider) (state : State) (req : TokenRequest) : Res (List AuthorizedItem) :=
  match req.grantType with
  | .preAuthorizedCode _ _ =>
    match state.stage with
    | .offered o => do
      let items ← orErr o.items (.serverError "no authorized items")
      retainDetails P req items
    | _ => .error (.serverError "pre-authorized state not set")
  | .authorizationCode _ _ _ =>
    match state.stage with
    | .authorized a => .ok a.items
    | _ => .error (.serverError "authorization state not set")

/-- `Context::process`, token.rs 181-235. -/
def process (P : Provider) (state : State) (req : TokenRequest) : IProg TokenResponse := do
  let items ← lift (grantedItems P state req)
  let accessToken ← drawE
  let cNonce ← drawE
  let now ← nowE
  putE accessToken
    { state with
      stage := .validated {
        accessToken, credentials := authorizedCredentials items, cNonce, cNonceExpiresAt := now + nonceDur } }
    (.serverError "issue saving state")
  pure {
    accessToken
    expiresIn := numSeconds accessDur
    cNonce := some cNonce
    cNonceExpiresIn := some (numSeconds nonceDur)
    authorizationDetails := authorizedDetails items }

end Token

/-- `token`, token.rs 38-61. -/
def token (P : Provider) (req : TokenRequest) : IProg TokenResponse := do
  let state ← getE req.grantType.code (.invalidGrant "authorization code is invalid")
  purgeE req.grantType.code (.serverError "issue purging authorizaiton state")
  let now ← nowE
  lift (Token.verify P state now req)
  Token.process P state req

end Verif.Issuer
