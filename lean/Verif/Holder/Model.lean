import Verif.Issuer.State
import Verif.Verifier.Model
/-!
# The wallet: types, effects and semantics

/repo/vercre-holder/src. A holder endpoint is an `async` function over a `HolderProvider` (provider.rs 29-122): it reads and writes flow state, draws
UUIDs and calls out to issuers, verifiers and the credential storage. Everything called is arbitrary: each answer is chosen by an oracle that sees the
whole history, so the theorems hold for every issuer, verifier and storage, honest or not.
-/
namespace Verif.Holder
open Verif

/-- Failures of holder endpoints (`anyhow::Error` in the code): flow state cannot be read, cannot be written, a provider call failed, the endpoint
refused, or it panicked. Machinery of the model; the services are those of /repo/vercre-holder/src/provider.rs 28-122. -/
inductive HErr where
  | load
  | store
  | provider
  | refused (why : String)
  | panic (what : String)
  deriving DecidableEq, Repr

/-- Machinery of the model; the services are those of /repo/vercre-holder/src/provider.rs 28-122. -/
abbrev HRes (α : Type) := Except HErr α

/-! ### Issuance state (issuance.rs) -/

/-- `Status`, /repo/vercre-holder/src/issuance.rs 141-175. -/
inductive Status where
  | inactive
  | offered
  | ready
  | pendingPin
  | accepted
  | tokenReceived
  | requested
  | failed (m : String)
  deriving DecidableEq, Repr

/-- `Logo`, /repo/vercre-holder/src/credential.rs 56-66. -/
structure Logo where
  image : String
  mediaType : String
  deriving DecidableEq, Repr

/-- `Credential`, credential.rs 16-45. The issuance date is in seconds. -/
structure Credential where
  id : String
  issuer : String
  vc : Vc
  issued : String
  issuanceDate : Int
  display : Option (List CredentialDisplay)
  logo : Option Logo

/-- `Issuance`, issuance.rs 38-93. -/
structure Issuance where
  id : String
  clientId : String
  subjectId : String := ""
  status : Status := .inactive
  offer : Issuer.CredentialOffer := { credentialIssuer := "", configIds := [], grants := none }
  issuer : Verif.Issuer := { credentialIssuer := "" }
  server : Server := {}
  accepted : Option (List AuthorizationDetail) := none
  pin : Option String := none
  codeVerifier : Option String := none
  codeChallenge : Option String := none
  token : Issuer.TokenResponse := { accessToken := "", expiresIn := 0, cNonce := none, cNonceExpiresIn := none, authorizationDetails := none }
  scope : Option String := none
  deferred : Dict String := []
  notificationId : Option String := none
  credentials : List Credential := []

/-! ### Presentation state (presentation.rs) -/

/-- `Status`, /repo/vercre-holder/src/presentation.rs 50-66. -/
inductive PStatus where
  | inactive
  | requested
  | authorized
  | failed (m : String)
  deriving DecidableEq, Repr

/-- `Presentation`, presentation.rs 25-48. The submission is never written back and is dropped. -/
structure Presentation where
  id : String
  status : PStatus
  request : Verifier.RequestObject
  credentials : List Credential
  filter : Dif.Constraints

/-- What the wallet's state store holds. Reading one kind where the other is stored fails, as their JSON forms lack each other's members.
Machinery of the model; the services are those of /repo/vercre-holder/src/provider.rs 28-122. -/
inductive HVal where
  | issuance (i : Issuance)
  | presentation (p : Presentation)

/-! ### Messages -/

/-- `CredentialResponseType` as a wallet may receive it, /repo/crates/openid/src/issuer.rs 1311-1326. -/
inductive CredentialResponseType where
  | credential (c : Kind Vc)
  | credentials (l : List (Kind Vc))
  | transactionId (id : String)

/-- `CredentialResponse`, issuer.rs 1283-1306. -/
structure CredentialResponse where
  response : CredentialResponseType
  cNonce : Option String := none
  cNonceExpiresIn : Option Int := none
  notificationId : Option String := none

/-- `NotificationEvent`, issuer.rs 2070-2086. -/
inductive NotificationEvent where
  | accepted
  | failure
  | deleted
  deriving DecidableEq, Repr

/-- `NotificationRequest`, issuer.rs 2040-2065. -/
structure Notification where
  credentialIssuer : String
  accessToken : String
  notificationId : String
  event : NotificationEvent
  deriving DecidableEq, Repr

/-- `RequestObjectType`, /repo/crates/openid/src/verifier.rs 419-427. -/
inductive RequestObjectType where
  | object (r : Verifier.RequestObject)
  | jwt (token : String)

/-- Calls to the issuer, the verifier and the credential storage (provider.rs 38-122). -/
inductive Call where
  | metadata (issuer : String)
  | oauthServer (issuer : String)
  | authorization (r : Issuer.RequestObject)
  | token (r : Issuer.TokenRequest)
  | credential (r : Issuer.CredentialRequest)
  | deferred (r : Issuer.DeferredRequest)
  | logo (url : String)
  | notification (r : Notification)
  | requestObject (url : String)
  | present (uri : Option String) (r : Verifier.ResponseRequest)
  | save (c : Credential)
  | find (filter : Dif.Constraints)

/-- What each call answers when it does not fail. Machinery of the model; the services are those of /repo/vercre-holder/src/provider.rs 28-122. -/
def Call.Reply : Call → Type
  | .metadata _ => Verif.Issuer
  | .oauthServer _ => Server
  | .authorization _ => Issuer.AuthorizationResponse
  | .token _ => Issuer.TokenResponse
  | .credential _ => CredentialResponse
  | .deferred _ => CredentialResponse
  | .logo _ => Logo
  | .notification _ => Unit
  | .requestObject _ => RequestObjectType
  | .present _ _ => Verifier.ResponseResponse
  | .save _ => Unit
  | .find _ => List Credential

/-- A call made and how it was answered (`none`: it failed). Machinery of the model; the services are those of /repo/vercre-holder/src/provider.rs 28-122. -/
structure Event where
  call : Call
  reply : Option call.Reply

/-- `ProofClaims`, issuer.rs 1236-1253. -/
structure ProofClaims where
  iss : Option String
  aud : String
  iat : Int
  nonce : Option String
  deriving DecidableEq, Repr

/-- Signing, verification and parsing the wallet does through external crates and its own key.
Machinery of the model; the services are those of /repo/vercre-holder/src/provider.rs 28-122. -/
structure Provider where
  /-- `Signer::verification_method` -/
  kid : String
  /-- `jws::encode(Type::Proof, ..)` -/
  signProof : ProofClaims → Option String
  jose : Jose
  /-- `jws::decode` of a request object with key resolution -/
  decodeRequest : String → Option Verifier.RequestObject
  /-- `urlencode::from_str::<RequestObject>` -/
  parseRequest : String → Option Verifier.RequestObject
  /-- `urlencoding::decode` -/
  percentDecode : String → Option String
  /-- `pkce::code_challenge` -/
  codeChallenge : String → String
  /-- whether `DateTime::from_timestamp` accepts these seconds -/
  validTime : Int → Bool

/-! ### Requests and responses of the wallet's own endpoints -/

/-- `OfferRequest`, issuance/offer.rs 22-37. -/
structure OfferRequest where
  clientId : String
  subjectId : String
  offer : Issuer.CredentialOffer

/-- `AuthorizationSpec`, issuance/accept.rs 29-38. -/
structure AuthorizationSpec where
  configId : String
  claims : Option (Dict Claim)

/-- `AcceptRequest`, accept.rs 42-53. -/
structure AcceptRequest where
  issuanceId : String
  accept : Option (List AuthorizationSpec)

/-- `PinRequest`, issuance/pin.rs 16-23. -/
structure PinRequest where
  issuanceId : String
  pin : String

/-- `Initiator`, issuance/authorize.rs 52-83. -/
inductive Initiator where
  | wallet (clientId issuer : String) (scope : Option String) (subjectId : String)
  | issuer (issuanceId : String)

/-- `AuthorizeRequest`, authorize.rs 30-48. -/
structure AuthorizeRequest where
  initiator : Initiator
  redirectUri : Option String
  authorizationDetails : Option (List AuthorizationDetail)

/-- `CredentialsRequest`, issuance/credentials.rs 28-48. -/
structure CredentialsRequest where
  issuanceId : String
  identifiers : Option (List String)
  format : Option Format

/-- `DeferredRequest`, issuance/deferred.rs 16-28. -/
structure DeferredRequest where
  issuanceId : String
  transactionId : String
  configId : String

/-- /repo/vercre-holder/src/issuance/*.rs and presentation/*.rs, the argument of each endpoint. -/
inductive Req where
  | offer (r : OfferRequest)
  | accept (r : AcceptRequest)
  | pin (r : PinRequest)
  | token (issuanceId : String)
  | authorize (r : AuthorizeRequest)
  | credentials (r : CredentialsRequest)
  | deferred (r : DeferredRequest)
  | save (issuanceId : String)
  | cancel (issuanceId : String)
  | request (url : String)
  | authorizePresentation (presentationId : String)
  | present (presentationId : String)

/-- /repo/vercre-holder/src/issuance/*.rs and presentation/*.rs, the result of each endpoint. -/
inductive Resp where
  /-- `OfferResponse`, offer.rs 43-57 -/
  | offer (issuanceId issuer : String) (offered : Dict CredentialConfiguration) (grants : Option Issuer.Grants)
  /-- the flow id, returned by `accept`, `pin`, `save` and `cancel` -/
  | flow (issuanceId : String)
  /-- `AuthorizedCredentials`, token.rs 22-32 -/
  | authorized (issuanceId : String) (authorized : Option (Dict (List String)))
  /-- `CredentialsResponse`, credentials.rs 52-62 -/
  | credentials (issuanceId : String) (deferred : Option (Dict String))
  /-- `RequestResponse`, presentation/request.rs 25-35 -/
  | request (presentationId : String) (status : PStatus) (credentials : List Credential)
  | status (s : PStatus)
  | presented (r : Verifier.ResponseResponse)

/-- One endpoint call: with which keys, when, what was asked, how it ended and what was called meanwhile.
Machinery of the model; the services are those of /repo/vercre-holder/src/provider.rs 28-122. -/
structure Entry where
  provider : Provider
  now : Int
  req : Req
  result : HRes Resp
  events : List Event

/-! ### Programs -/

/-- Machinery of the model; the services are those of /repo/vercre-holder/src/provider.rs 28-122. -/
inductive HProg (α : Type) where
  | ret (r : HRes α)
  | get (k : String) (cont : Option HVal → HProg α)
  | put (k : String) (v : HVal) (cont : Bool → HProg α)
  | purge (k : String) (cont : Bool → HProg α)
  | draw (cont : String → HProg α)
  | now (cont : Int → HProg α)
  | call (c : Call) (cont : Option c.Reply → HProg α)

namespace HProg
variable {α β : Type}

/-- Sequencing with early return on error (the `?` operator). Machinery of the model; the services are those of /repo/vercre-holder/src/provider.rs 28-122. -/
def bind : HProg α → (α → HProg β) → HProg β
  | ret (.ok a), f => f a
  | ret (.error e), _ => ret (.error e)
  | get k c, f => get k fun o => (c o).bind f
  | put k v c, f => put k v fun b => (c b).bind f
  | purge k c, f => purge k fun b => (c b).bind f
  | draw c, f => draw fun s => (c s).bind f
  | now c, f => now fun t => (c t).bind f
  | call c k, f => call c fun o => (k o).bind f

/-- Machinery of the model; the services are those of /repo/vercre-holder/src/provider.rs 28-122. -/
instance : Monad HProg where
  pure a := ret (.ok a)
  bind := bind

/-- A `Result` as a program. Machinery of the model; the services are those of /repo/vercre-holder/src/provider.rs 28-122. -/
def lift (r : HRes α) : HProg α := ret r

/-- `bail!` / `return Err(anyhow!(..))`. Machinery of the model; the services are those of /repo/vercre-holder/src/provider.rs 28-122. -/
def refuse (why : String) : HProg α := ret (.error (.refused why))

/-- `StateStore::get::<Issuance>(..)?`. Machinery of the model; the services are those of /repo/vercre-holder/src/provider.rs 28-122. -/
def getIssuance (k : String) : HProg Issuance :=
  get k fun o => match o with
    | some (.issuance i) => ret (.ok i)
    | _ => ret (.error .load)

/-- `get_presentation`, presentation.rs 100-102. -/
def getPresentation (k : String) : HProg Presentation :=
  get k fun o => match o with
    | some (.presentation p) => ret (.ok p)
    | _ => ret (.error .load)

/-- `StateStore::put(..)?`. Machinery of the model; the services are those of /repo/vercre-holder/src/provider.rs 28-122. -/
def putE (k : String) (v : HVal) : HProg Unit := put k v fun b => ret (if b then .ok () else .error .store)

/-- `StateStore::purge(..)?`. Machinery of the model; the services are those of /repo/vercre-holder/src/provider.rs 28-122. -/
def purgeE (k : String) : HProg Unit := purge k fun b => ret (if b then .ok () else .error .store)

/-- `Uuid::new_v4()` and `pkce::code_verifier()`. Machinery of the model; the services are those of /repo/vercre-holder/src/provider.rs 28-122. -/
def drawE : HProg String := draw fun s => ret (.ok s)

/-- `Utc::now()`. Machinery of the model; the services are those of /repo/vercre-holder/src/provider.rs 28-122. -/
def nowE : HProg Int := now fun t => ret (.ok t)

/-- A provider call followed by `?`. Machinery of the model; the services are those of /repo/vercre-holder/src/provider.rs 28-122. -/
def callE (c : Call) : HProg c.Reply := call c fun o => ret (match o with | some r => .ok r | none => .error .provider)

/-- A provider call whose failure is looked at. Machinery of the model; the services are those of /repo/vercre-holder/src/provider.rs 28-122. -/
def callO (c : Call) : HProg (Option c.Reply) := call c fun o => ret (.ok o)

end HProg

/-- `if !c { bail!(..) }`. Machinery of the model; the services are those of /repo/vercre-holder/src/provider.rs 28-122. -/
def check (c : Bool) (why : String) : HRes Unit := if c then .ok () else .error (.refused why)

/-- `let Some(x) = o else { bail!(..) }`. Machinery of the model; the services are those of /repo/vercre-holder/src/provider.rs 28-122. -/
def need {α : Type} (o : Option α) (why : String) : HRes α :=
  match o with
  | some a => .ok a
  | none => .error (.refused why)

/-- Indexing at zero. Machinery of the model; the services are those of /repo/vercre-holder/src/provider.rs 28-122. -/
def first {α : Type} : List α → HRes α
  | [] => .error (.panic "index out of bounds")
  | a :: _ => .ok a

/-- A result of the shared proof code, as a holder result. Machinery of the model; the services are those of /repo/vercre-holder/src/provider.rs 28-122. -/
def ofRes {α : Type} : Res α → HRes α
  | .ok a => .ok a
  | .error (.panic w) => .error (.panic w)
  | .error _ => .error (.refused "proof")

/-! ### Semantics -/

/-- Everything the wallet does not control. Machinery of the model; the services are those of /repo/vercre-holder/src/provider.rs 28-122. -/
structure HEnv where
  rng : Nat → String
  fault : Nat → Fault
  oracle : List Entry → List Event → (c : Call) → Option c.Reply

/-- The wallet's world: its state store, the clock, counters, the calls served so far, and what the call being served has done.
Machinery of the model; the services are those of /repo/vercre-holder/src/provider.rs 28-122. -/
structure HWorld where
  store : String → Option HVal
  now : Int
  drawn : Nat
  ops : Nat
  log : List Entry
  recent : List Event

namespace HProg
variable {α : Type}

/-- Running one endpoint. Machinery of the model; the services are those of /repo/vercre-holder/src/provider.rs 28-122. -/
def run (e : HEnv) : HProg α → HWorld → HRes α × HWorld
  | ret r, w => (r, w)
  | get k c, w => (c (Prog.getRes (e.fault w.ops) (w.store k))).run e { w with ops := w.ops + 1 }
  | put k v c, w => (c (e.fault w.ops == .ok)).run e { w with store := Prog.writeRes (e.fault w.ops) w.store k (some v), ops := w.ops + 1 }
  | purge k c, w => (c (e.fault w.ops == .ok)).run e { w with store := Prog.writeRes (e.fault w.ops) w.store k none, ops := w.ops + 1 }
  | draw c, w => (c (e.rng w.drawn)).run e { w with drawn := w.drawn + 1 }
  | now c, w => (c w.now).run e w
  | call c k, w => (k (e.oracle w.log w.recent c)).run e { w with recent := w.recent ++ [⟨c, e.oracle w.log w.recent c⟩] }

end HProg

end Verif.Holder
