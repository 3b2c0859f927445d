import Verif.Conform.Provider
import Verif.Wire.Message
/-!
# The issuer's tests of whole flows, replayed on the model

/repo/vercre-issuer/tests: an offer is made, the wallet of the tests takes it to a credential, and the credential is compared with what was recorded.
-/
namespace Verif.Conform
open Verif Verif.Wire Verif.Issuer

/-- `Wallet::authorize`, /repo/vercre-issuer/tests/wallet.rs 87-112; without an issuer state. -/
def flowAuthorize : Json :=
  .obj [
    ("credential_issuer", .str "http://vercre.io"),
    ("response_type", .str "code"),
    ("client_id", .str "96bfb9cb-0513-7d64-5532-bed74c48f9ab"),
    ("redirect_uri", .str "http://localhost:3000/callback"),
    ("state", .str "1234"),
    ("code_challenge", .str "B6qi8EPWVTnONnO8XNSAsN7O2ejthn3pCKwZUO0HzU8"),
    ("code_challenge_method", .str "S256"),
    ("authorization_details", .arr [
      .obj [
        ("type", .str "openid_credential"),
        ("format", .str "jwt_vc_json"),
        ("credential_definition", .obj [
          ("type", .arr [.str "VerifiableCredential", .str "EmployeeIDCredential"]),
          ("credentialSubject", .obj [("given_name", .obj []), ("family_name", .obj []), ("email", .obj [])])])]]),
    ("subject_id", .str "normal_user"),
    ("wallet_issuer", .str "http://vercre.io")]

/-- /repo/vercre-issuer/tests/issuer_initiated.rs 29-36. -/
def flowOffer : Json :=
  .obj [
    ("credential_issuer", .str "http://vercre.io"),
    ("credential_configuration_ids", .arr [.str "EmployeeID_JWT"]),
    ("subject_id", .str "normal_user"),
    ("grant_types", .arr [.str "urn:ietf:params:oauth:grant-type:pre-authorized_code"]),
    ("tx_code_required", .bool true),
    ("send_type", .str "ByVal")]

/-- issuer_initiated.rs 88-94. -/
def flowOfferNoGrants : Json :=
  .obj [
    ("credential_issuer", .str "http://vercre.io"),
    ("credential_configuration_ids", .arr [.str "EmployeeID_JWT"]),
    ("subject_id", .str "normal_user"),
    ("tx_code_required", .bool true),
    ("send_type", .str "ByVal")]

/-- `Wallet::credential` and `Wallet::deferred`, wallet.rs 126-197: the credential, or what went wrong. -/
def collect (w : World State) (t : Issuer.TokenResponse) : Json :=
  match t.authorizationDetails with
  | some ({ identifiers := i :: _, .. } :: _) =>
    match ask w (.credential { credentialIssuer, accessToken := t.accessToken, credential := .identifier i, proof := some (.single (t.cNonce.getD "")) }) with
    | (.ok (.credential { response := .transactionId x, .. }), w) =>
      match ask w (.deferred { credentialIssuer, accessToken := t.accessToken, transactionId := x }) (first := false) with
      | (.ok r, _) => vcJson r
      | (.error _, _) => .str "deferred refused"
    | (.ok r, _) => vcJson r
    | (.error _, _) => .str "credential refused"
  | _ => .str "nothing authorized"

/-- `Wallet::token`, wallet.rs 115-124. -/
def redeem (w : World State) (g : TokenGrantType) : Json :=
  match ask w (.token { credentialIssuer, clientId := some clientId, grantType := g, authorizationDetails := none }) with
  | (.ok (.token t), w) => collect w t
  | _ => .str "token refused"

/-- `Wallet::authorize` and what follows, wallet.rs 33-44 and 75-83. -/
def authorizeThen (w : World State) (issuerState : Option String) : Json :=
  match readRequest flowAuthorize with
  | some (.object o) =>
    match ask w (.authorize (authorizationRequestSeen (.object { o with state := some (issuerState.getD "1234") }))) with
    | (.ok (.authorize a), w) => redeem w (.authorizationCode a.code (some a.redirectUri) (some "ABCDEF12345"))
    | _ => .str "authorization refused"
  | _ => .str "not a request"

/-- `Wallet::issuer_initiated` with an offer, wallet.rs 66-83. -/
def takeUp (w : World State) (o : CredentialOffer) (txCode : Option String) : Json :=
  match o.grants with
  | some { preAuthorizedCode := some g, .. } => redeem w (.preAuthorizedCode g.preAuthorizedCode txCode)
  | some { authorizationCode := some g, .. } => authorizeThen w g.issuerState
  | _ => authorizeThen w none

/-- The tests of issuer_initiated.rs: an offer is made and taken up, wallet.rs 46-84. -/
def issuerInitiated (offer : Json) (subject : String) (how : SendType) : Json :=
  match readCreateOffer offer with
  | none => .str "not a request"
  | some r =>
    match ask (holding []) (.createOffer { r with subjectId := some subject, sendType := how }) with
    | (.ok (.createOffer { offerType := .object o, txCode }), w) => takeUp w o txCode
    | (.ok (.createOffer { offerType := .uri u, txCode }), w) =>
      match ask w (.credentialOffer { credentialIssuer, id := String.ofList (u.toList.drop "http://vercre.io/credential_offer/".length) }) with
      | (.ok (.credentialOffer o), w) => takeUp w o txCode
      | _ => .str "offer not found"
    | _ => .str "offer refused"

-- `issuance`, issuer_initiated.rs 16-52
example : is flowIssuerImmediate (issuerInitiated flowOffer "normal_user" .byVal) = true := by decide +kernel
example : is flowIssuerDeferred (issuerInitiated flowOffer "pending_user" .byVal) = true := by decide +kernel
-- `format`, 54-81
example : is flowIssuerJwtVcJson (issuerInitiated flowOffer "normal_user" .byVal) = true := by decide +kernel
-- `authorization`, 83-107
example : is flowIssuerAuthorization (issuerInitiated flowOfferNoGrants "normal_user" .byVal) = true := by decide +kernel
-- `offer_type`, 109-137
example : is flowIssuerAuthorizationByRef (issuerInitiated flowOffer "normal_user" .byRef) = true := by decide +kernel
example : is flowIssuerAuthorizationByVal (issuerInitiated flowOffer "normal_user" .byVal) = true := by decide +kernel
-- /repo/vercre-issuer/tests/wallet_initiated.rs 12-27: the user is the same in both cases
example : is flowWalletImmediate (authorizeThen (holding []) none) = true := by decide +kernel
example : is flowWalletDeferred (authorizeThen (holding []) none) = true := by decide +kernel

end Verif.Conform
