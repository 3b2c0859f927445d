import Verif.Wire.Store
import Verif.Wire.Asked
import Verif.Wire.Credential
import Verif.Holder.Model
/-!
# The messages between a wallet and an issuer

Requests and responses of the issuance endpoints, /repo/crates/openid/src/issuer.rs 87-182, 388-405, 886-1104, 1280-1440 and 2036-2090.
-/
namespace Verif.Wire

/-! ### Offers -/

/-- The names of `SendType`, issuer.rs 120-130. -/
def sendOf (s : String) : Option Issuer.SendType := if s = "ByVal" then some .byVal else if s = "ByRef" then some .byRef else none

/-- As `sendOf`, writing. issuer.rs 120-130. -/
def sendName : Issuer.SendType → String
  | .byVal => "ByVal"
  | .byRef => "ByRef"

/-- Derived reader of `CreateOfferRequest`, issuer.rs 87-117. -/
def readCreateOffer (j : Json) : Option Issuer.CreateOfferRequest := do
  match ← structFields ["credential_issuer", "subject_id", "credential_configuration_ids", "grant_types", "tx_code_required", "send_type"] j with
  | [i, s, c, g, t, k] =>
    let i ← defaulted "" readStr i
    let s ← optional readStr s
    let c ← required (readVec readStr) c
    let g ← optional (readVec (readUnit grantOf)) g
    let t ← required readBool t
    let k ← required (readUnit sendOf) k
    some { credentialIssuer := i, subjectId := s, configIds := c, grantTypes := g, txCodeRequired := t, sendType := k }
  | _ => none

/-- Derived writer of `CreateOfferRequest`, issuer.rs 87-117. -/
def writeCreateOffer (r : Issuer.CreateOfferRequest) : Json :=
  .obj (members [("credential_issuer", nonEmpty r.credentialIssuer), ("subject_id", r.subjectId.map .str), ("credential_configuration_ids", some (writeVec .str r.configIds)),
    ("grant_types", r.grantTypes.map (writeVec fun g => .str (grantName g))), ("tx_code_required", some (.bool r.txCodeRequired)), ("send_type", some (.str (sendName r.sendType)))])

/-- Derived reader of the externally tagged `OfferType` from flattened members, issuer.rs 169-180: the first member named after a variant counts. -/
def readOfferType (m : List (String × Json)) : Option Issuer.OfferType :=
  match m.find? fun p => p.1 = "credential_offer" ∨ p.1 = "credential_offer_uri" with
  | none => none
  | some (k, j) => if k = "credential_offer" then (readCredentialOffer j).map .object else (readStr j).map .uri

/-- Derived writer of `OfferType`, issuer.rs 169-180. -/
def writeOfferType : Issuer.OfferType → List (String × Json)
  | .object o => [("credential_offer", writeCredentialOffer o)]
  | .uri u => [("credential_offer_uri", .str u)]

/-- Derived reader of `CreateOfferResponse`, issuer.rs 153-165. -/
def readOffered (j : Json) : Option Issuer.CreateOfferResponse := do
  match ← flatFields ["tx_code"] j with
  | ([t], rest) =>
    let o ← readOfferType rest
    let t ← optional readStr t
    some { offerType := o, txCode := t }
  | _ => none

/-- Derived writer of `CreateOfferResponse`, issuer.rs 153-165. -/
def writeOffered (r : Issuer.CreateOfferResponse) : Json := .obj (writeOfferType r.offerType ++ members [("tx_code", r.txCode.map .str)])

/-- Derived reader of `CredentialOfferRequest`, issuer.rs 389-397. -/
def readOfferRequest (j : Json) : Option Issuer.CredentialOfferRequest := do
  match ← structFields ["credential_issuer", "id"] j with
  | [c, i] =>
    let c ← required readStr c
    let i ← required readStr i
    some { credentialIssuer := c, id := i }
  | _ => none

/-- Derived writer of `CredentialOfferRequest`, issuer.rs 389-397. -/
def writeOfferRequest (r : Issuer.CredentialOfferRequest) : Json := .obj (members [("credential_issuer", some (.str r.credentialIssuer)), ("id", some (.str r.id))])

/-- Derived reader of `CredentialOfferResponse`, issuer.rs 401-405. -/
def readOfferReply (j : Json) : Option Issuer.CredentialOffer := do
  match ← structFields ["credential_offer"] j with
  | [o] => required readCredentialOffer o
  | _ => none

/-- Derived writer of `CredentialOfferResponse`, issuer.rs 401-405. -/
def writeOfferReply (o : Issuer.CredentialOffer) : Json := .obj (members [("credential_offer", some (writeCredentialOffer o))])

/-! ### Authorization -/

/-- Derived reader of `AuthorizationResponse`, issuer.rs 892-904. -/
def readAuthorizationReply (j : Json) : Option Issuer.AuthorizationResponse := do
  match ← structFields ["code", "state", "redirect_uri"] j with
  | [c, s, u] =>
    let c ← required readStr c
    let s ← optional readStr s
    let u ← required readStr u
    some { code := c, state := s, redirectUri := u }
  | _ => none

/-- Derived writer of `AuthorizationResponse`, issuer.rs 892-904. -/
def writeAuthorizationReply (r : Issuer.AuthorizationResponse) : Json :=
  .obj (members [("code", some (.str r.code)), ("state", r.state.map .str), ("redirect_uri", some (.str r.redirectUri))])

/-- Derived reader of `PushedAuthorizationResponse`, issuer.rs 925-935. -/
def readParReply (j : Json) : Option Issuer.ParResponse := do
  match ← structFields ["request_uri", "expires_in"] j with
  | [u, e] =>
    let u ← required readStr u
    let e ← required readI64 e
    some { requestUri := u, expiresIn := e }
  | _ => none

/-- Derived writer of `PushedAuthorizationResponse`, issuer.rs 925-935. -/
def writeParReply (r : Issuer.ParResponse) : Json := .obj (members [("request_uri", some (.str r.requestUri)), ("expires_in", some (writeInt r.expiresIn))])

/-! ### Tokens -/

/-- `TokenRequest`, issuer.rs 943-978, with all members; of `ClientAssertion`, 1032-1043, the token. -/
structure TokenRequest where
  credentialIssuer : String := ""
  clientId : Option String := none
  grantType : Issuer.TokenGrantType
  authorizationDetails : Option (List AuthorizationDetail) := none
  clientAssertion : Option String := none

/-- Derived reader of the internally tagged `TokenGrantType`, issuer.rs 981-1014. -/
def readGrantType (m : List (String × Json)) : Option Issuer.TokenGrantType :=
  match single m "grant_type" with
  | some (some (.str t)) =>
    if t = "authorization_code" then do
      let c ← single m "code"
      let u ← single m "redirect_uri"
      let v ← single m "code_verifier"
      let c ← required readStr c
      let u ← optional readStr u
      let v ← optional readStr v
      some (.authorizationCode c u v)
    else if t = "urn:ietf:params:oauth:grant-type:pre-authorized_code" then do
      let c ← single m "pre-authorized_code"
      let t ← single m "tx_code"
      let c ← required readStr c
      let t ← optional readStr t
      some (.preAuthorizedCode c t)
    else none
  | _ => none

/-- Derived writer of `TokenGrantType`, issuer.rs 981-1014. -/
def writeGrantType : Issuer.TokenGrantType → List (String × Json)
  | .authorizationCode c u v =>
    members [("grant_type", some (.str "authorization_code")), ("code", some (.str c)), ("redirect_uri", u.map .str), ("code_verifier", v.map .str)]
  | .preAuthorizedCode c t =>
    members [("grant_type", some (.str "urn:ietf:params:oauth:grant-type:pre-authorized_code")), ("pre-authorized_code", some (.str c)), ("tx_code", t.map .str)]

/-- Derived reader of the internally tagged `ClientAssertion`, issuer.rs 1032-1043. The flattened `Option` takes any error for `None`. -/
def readAssertion (m : List (String × Json)) : Option String :=
  match single m "client_assertion_type", single m "client_assertion" with
  | some (some (.str "urn:ietf:params:oauth:client-assertion-type:jwt-bearer")), some (some (.str t)) => some t
  | _, _ => none

/-- Derived writer of `Option<ClientAssertion>`, issuer.rs 974-977 and 1032-1043. -/
def writeAssertion : Option String → List (String × Json)
  | none => []
  | some t => [("client_assertion_type", .str "urn:ietf:params:oauth:client-assertion-type:jwt-bearer"), ("client_assertion", .str t)]

/-- Derived reader of `TokenRequest`, issuer.rs 942-978. -/
def readTokenRequest (j : Json) : Option TokenRequest := do
  match ← flatFields ["credential_issuer", "client_id", "authorization_details"] j with
  | ([i, c, a], rest) =>
    let i ← defaulted "" readStr i
    let c ← optional readStr c
    let g ← readGrantType rest
    let a ← optional (readVec readDetail) a
    some { credentialIssuer := i, clientId := c, grantType := g, authorizationDetails := a, clientAssertion := readAssertion rest }
  | _ => none

/-- Derived writer of `TokenRequest`, issuer.rs 942-978: `client_id` is always written. -/
def writeTokenRequest (r : TokenRequest) : Json :=
  .obj (members [("credential_issuer", nonEmpty r.credentialIssuer), ("client_id", some (nullable .str r.clientId))] ++ (writeGrantType r.grantType ++
    (members [("authorization_details", r.authorizationDetails.map (writeVec writeDetail))] ++ writeAssertion r.clientAssertion)))

/-- `AuthorizedDetail`, issuer.rs 1092-1104. -/
structure AuthorizedDetail where
  detail : AuthorizationDetail
  identifiers : List String

/-- Derived reader of `AuthorizedDetail`, issuer.rs 1091-1104: the detail is read from the other members. -/
def readAuthorizedDetail (j : Json) : Option AuthorizedDetail := do
  match ← flatFields ["credential_identifiers"] j with
  | ([i], rest) =>
    let d ← readDetail (.obj rest)
    let i ← required (readVec readStr) i
    some { detail := d, identifiers := i }
  | _ => none

/-- The members of a detail, issuer.rs 621-648. -/
def detailMembers (d : AuthorizationDetail) : List (String × Json) :=
  ("type", .str "openid_credential") :: writeCredential d.credential ++ opt "locations" (writeVec .str) d.locations

/-- Derived writer of `AuthorizedDetail`, issuer.rs 1091-1104. -/
def writeAuthorizedDetail (d : AuthorizedDetail) : Json := .obj (detailMembers d.detail ++ members [("credential_identifiers", some (writeVec .str d.identifiers))])

/-- `TokenResponse`, issuer.rs 1047-1075 (`token_type` has a single value). -/
structure TokenResponse where
  accessToken : String
  expiresIn : Int
  cNonce : Option String := none
  cNonceExpiresIn : Option Int := none
  authorizationDetails : Option (List AuthorizedDetail) := none

/-- Derived reader of `TokenType`, issuer.rs 1079-1085. -/
def readTokenType : Json → Option Unit := readUnit fun s => if s = "Bearer" then some () else none

/-- Derived reader of `TokenResponse`, issuer.rs 1047-1075. -/
def readTokenResponse (j : Json) : Option TokenResponse := do
  match ← structFields ["access_token", "token_type", "expires_in", "c_nonce", "c_nonce_expires_in", "authorization_details"] j with
  | [a, t, e, n, ne, d] =>
    let a ← required readStr a
    let _ ← required readTokenType t
    let e ← required readI64 e
    let n ← optional readStr n
    let ne ← optional readI64 ne
    let d ← optional (readVec readAuthorizedDetail) d
    some { accessToken := a, expiresIn := e, cNonce := n, cNonceExpiresIn := ne, authorizationDetails := d }
  | _ => none

/-- Derived writer of `TokenResponse`, issuer.rs 1047-1075. -/
def writeTokenResponse (r : TokenResponse) : Json :=
  .obj (members [("access_token", some (.str r.accessToken)), ("token_type", some (.str "Bearer")), ("expires_in", some (writeInt r.expiresIn)), ("c_nonce", r.cNonce.map .str),
    ("c_nonce_expires_in", r.cNonceExpiresIn.map writeInt), ("authorization_details", r.authorizationDetails.map (writeVec writeAuthorizedDetail))])

/-! ### Credentials -/

/-- `CredentialResponseType`, issuer.rs 1311-1326; `α` stands for credentials that are not signed. -/
inductive Delivered (α : Type) where
  | credential (c : Kind α)
  | credentials (l : List (Kind α))
  | transactionId (id : String)

/-- `CredentialResponse`, issuer.rs 1283-1306. -/
structure CredentialResponse (α : Type) where
  response : Delivered α
  cNonce : Option String := none
  cNonceExpiresIn : Option Int := none
  notificationId : Option String := none

/-- Derived reader of the externally tagged `CredentialResponseType` from flattened members, issuer.rs 1309-1326: the first member named after a variant counts. -/
def readDelivered {α : Type} (r : Json → Option α) (m : List (String × Json)) : Option (Delivered α) :=
  match m.find? fun p => p.1 = "credential" ∨ p.1 = "credentials" ∨ p.1 = "transaction_id" with
  | none => none
  | some (k, j) =>
    if k = "credential" then (readKind r j).map .credential
    else if k = "credentials" then (readVec (readKind r) j).map .credentials
    else (readStr j).map .transactionId

/-- Derived writer of `CredentialResponseType`, issuer.rs 1309-1326. -/
def writeDelivered {α : Type} (w : α → Json) : Delivered α → List (String × Json)
  | .credential c => [("credential", writeKind w c)]
  | .credentials l => [("credentials", writeVec (writeKind w) l)]
  | .transactionId t => [("transaction_id", .str t)]

/-- Derived reader of `CredentialResponse`, issuer.rs 1282-1306, and of `DeferredCredentialResponse`, 1356-1361, which has the same members. -/
def readCredentialResponse {α : Type} (r : Json → Option α) (j : Json) : Option (CredentialResponse α) := do
  match ← flatFields ["c_nonce", "c_nonce_expires_in", "notification_id"] j with
  | ([n, e, i], rest) =>
    let d ← readDelivered r rest
    let n ← optional readStr n
    let e ← optional readI64 e
    let i ← optional readStr i
    some { response := d, cNonce := n, cNonceExpiresIn := e, notificationId := i }
  | _ => none

/-- Derived writer of `CredentialResponse`, issuer.rs 1282-1306, and of `DeferredCredentialResponse`, 1356-1361. -/
def writeCredentialResponse {α : Type} (w : α → Json) (r : CredentialResponse α) : Json :=
  .obj (writeDelivered w r.response ++
    members [("c_nonce", r.cNonce.map .str), ("c_nonce_expires_in", r.cNonceExpiresIn.map writeInt), ("notification_id", r.notificationId.map .str)])

/-- Derived reader of `DeferredCredentialRequest`, issuer.rs 1337-1352. -/
def readDeferredRequest (j : Json) : Option Issuer.DeferredRequest := do
  match ← structFields ["credential_issuer", "access_token", "transaction_id"] j with
  | [i, a, t] =>
    let i ← defaulted "" readStr i
    let a ← defaulted "" readStr a
    let t ← required readStr t
    some { credentialIssuer := i, accessToken := a, transactionId := t }
  | _ => none

/-- Derived writer of `DeferredCredentialRequest`, issuer.rs 1337-1352. -/
def writeDeferredRequest (r : Issuer.DeferredRequest) : Json :=
  .obj (members [("credential_issuer", nonEmpty r.credentialIssuer), ("access_token", nonEmpty r.accessToken), ("transaction_id", some (.str r.transactionId))])

/-! ### Notifications -/

/-- The names of `NotificationEvent`, issuer.rs 2069-2086. -/
def eventOf (s : String) : Option Holder.NotificationEvent :=
  if s = "credential_accepted" then some .accepted else if s = "credential_failure" then some .failure else if s = "credential_deleted" then some .deleted else none

/-- As `eventOf`, writing. issuer.rs 2069-2086. -/
def eventName : Holder.NotificationEvent → String
  | .accepted => "credential_accepted"
  | .failure => "credential_failure"
  | .deleted => "credential_deleted"

/-- Derived reader of `NotificationRequest`, issuer.rs 2039-2065. Simplification: the description, which the wallet never sends and no endpoint reads, is checked and dropped. -/
def readNotification (j : Json) : Option Holder.Notification := do
  match ← structFields ["credential_issuer", "access_token", "notification_id", "event", "event_description"] j with
  | [i, a, n, e, d] =>
    let i ← defaulted "" readStr i
    let a ← defaulted "" readStr a
    let n ← required readStr n
    let e ← required (readUnit eventOf) e
    let _ ← optional readStr d
    some { credentialIssuer := i, accessToken := a, notificationId := n, event := e }
  | _ => none

/-- Derived writer of `NotificationRequest`, issuer.rs 2039-2065. -/
def writeNotification (r : Holder.Notification) : Json :=
  .obj (members [("credential_issuer", nonEmpty r.credentialIssuer), ("access_token", nonEmpty r.accessToken), ("notification_id", some (.str r.notificationId)),
    ("event", some (.str (eventName r.event))), ("event_description", none)])

end Verif.Wire
