import Verif.Issuer.State
/-!
# `create_offer` and `credential_offer`
-/
namespace Verif.Issuer
open Prog

namespace CreateOffer

/-- `grant_types.clone().unwrap_or_default()`, /repo/vercre-issuer/src/create_offer.rs 166 and 231. -/
def grants (req : CreateOfferRequest) : List GrantType := req.grantTypes.getD []

/-- `Context::verify`, create_offer.rs 116-158. -/
def verify (iss : Issuer) (srv : Server) (req : CreateOfferRequest) : Res Unit := do
  require (req.credentialIssuer != "") (.invalidRequest "no `credential_issuer` specified")
  require (!req.configIds.isEmpty) (.invalidRequest "no credentials requested")
  require (req.configIds.all fun id => iss.configs.has id)
    (.unsupportedCredentialType "requested credential is unsupported")
  match req.grantTypes with
  | none => pure ()
  | some gts => do
    require (match srv.grantTypesSupported with | none => true | some s => gts.all fun g => s.contains g)
      (.unsupportedGrantType "unsupported grant type")
    require (!(gts.contains .preAuthorizedCode && req.subjectId.isNone))
      (.invalidRequest "`subject_id` is required for pre-authorization")

/-- Selection of the authorization server, create_offer.rs 235-236: `servers[0]` on an empty list panics. -/
def authorizationServer (iss : Issuer) : Res (Option String) :=
  match iss.authorizationServers with
  | none => .ok none
  | some [] => .error (.panic "index out of bounds")
  | some (s :: _) => .ok (some s)

/-- `Context::credential_offer`, create_offer.rs 229-281. The random `auth_code` is a parameter. -/
def credentialOffer (iss : Issuer) (req : CreateOfferRequest) (authCode : String) : Res CredentialOffer := do
  let authServer ← authorizationServer iss
  let pre : Option PreAuthorizedCodeGrant :=
    if (grants req).contains .preAuthorizedCode then
      some { preAuthorizedCode := authCode, txCode := req.txCodeRequired, authorizationServer := authServer }
    else none
  let auth : Option AuthorizationCodeGrant :=
    if (grants req).contains .authorizationCode then
      some { issuerState := some authCode, authorizationServer := authServer }
    else none
  pure {
    credentialIssuer := req.credentialIssuer
    configIds := req.configIds
    grants := if auth.isSome || pre.isSome then some { authorizationCode := auth, preAuthorizedCode := pre } else none }

/-- `authorize`, create_offer.rs 285-313. -/
def authorize (P : Provider) (subjectId : String) : List String → Res (List AuthorizedItem)
  | [] => pure []
  | id :: ids => do
    let identifiers ← orErr (P.authorize subjectId id) (.serverError "issue authorizing holder")
    let rest ← authorize P subjectId ids
    pure ({ item := .detail { credential := .configurationId id none }, configId := id, identifiers } :: rest)

/-- `state_key`, create_offer.rs 317-335. -/
def stateKey (g : Option Grants) : Res String :=
  match g with
  | none => .error (.serverError "no grants")
  | some g =>
    match g.preAuthorizedCode with
    | some p => .ok p.preAuthorizedCode
    | none =>
      match g.authorizationCode with
      | some a => orErr a.issuerState (.serverError "no issuer_state")
      | none => .error (.serverError "no state key")

/-- The transaction code, create_offer.rs 168-173. -/
def txCode (P : Provider) (req : CreateOfferRequest) : IProg (Option String) :=
  if req.txCodeRequired && (grants req).contains .preAuthorizedCode then do
    let r ← drawE
    pure (some (P.txCode r))
  else pure none

/-- The authorized items of the offer, create_offer.rs 179-183. -/
def offerItems (P : Provider) (req : CreateOfferRequest) : Res (Option (List AuthorizedItem)) :=
  if (grants req).contains .preAuthorizedCode then
    (authorize P (req.subjectId.getD "") req.configIds).map some
  else .ok none

/-- Saving the offer details, create_offer.rs 176-197. -/
def saveOffer (P : Provider) (req : CreateOfferRequest) (offer : CredentialOffer) (txCode : Option String) :
    IProg Unit :=
  if (grants req).contains .preAuthorizedCode || (grants req).contains .authorizationCode then do
    let items ← lift (offerItems P req)
    let key ← lift (stateKey offer.grants)
    let now ← nowE
    putE key { expiresAt := now + authorizedDur, subjectId := req.subjectId, stage := .offered { items, txCode } }
      (.serverError "issue saving state")
  else pure ()

/-- The tail of `Context::process`, create_offer.rs 200-225. -/
def respond (req : CreateOfferRequest) (offer : CredentialOffer) (txCode : Option String) :
    IProg CreateOfferResponse :=
  match req.sendType with
  | .byVal => pure { offerType := .object offer, txCode }
  | .byRef => do
    let token ← drawE
    let now ← nowE
    putE token { expiresAt := now + authorizedDur, subjectId := req.subjectId, stage := .pending offer }
      (.serverError "issue saving state")
    pure { offerType := .uri (req.credentialIssuer ++ "/credential_offer/" ++ token), txCode }

/-- `Context::process`, create_offer.rs 161-226. -/
def process (P : Provider) (iss : Issuer) (req : CreateOfferRequest) : IProg CreateOfferResponse := do
  let authCode ← drawE
  let offer ← lift (credentialOffer iss req authCode)
  let txCode ← txCode P req
  saveOffer P req offer txCode
  respond req offer txCode

end CreateOffer

/-- `create_offer`, create_offer.rs 90-107. -/
def createOffer (P : Provider) (req : CreateOfferRequest) : IProg CreateOfferResponse := do
  let iss ← lift (orErr (P.issuer req.credentialIssuer) (.serverError "issue getting issuer metadata"))
  let srv ← lift (orErr (P.server req.credentialIssuer) (.serverError "issue getting issuer metadata"))
  lift (CreateOffer.verify iss srv req)
  CreateOffer.process P iss req

/-- The offer of a state, /repo/vercre-issuer/src/credential_offer.rs 56-58. -/
def pendingOffer (state : State) : Res CredentialOffer :=
  match state.stage with
  | .pending o => .ok o
  | _ => .error (.invalidRequest "no credential offer found")

/-- `credential_offer`, /repo/vercre-issuer/src/credential_offer.rs 33-66. -/
def credentialOffer (req : CredentialOfferRequest) : IProg CredentialOffer := do
  let state ← getE req.id (.serverError "issue fetching state")
  purgeE req.id (.serverError "issue purging state")
  let now ← nowE
  lift (require (!state.isExpired now) (.invalidRequest "state expired"))
  let offer ← lift (pendingOffer state)
  lift (require (offer.credentialIssuer == req.credentialIssuer) (.invalidRequest "credential_issuer mismatch"))
  pure offer

end Verif.Issuer
