import Verif.Wire.Message
import Verif.Wire.IssuerMeta
import Verif.Interop.Model
/-!
# The wallet connected to the issuer by text

The connection of `Interop.Net`, with every request and every response of the issuer written as JSON text on one side and read on the other, by the readers and writers
the library derives for them.
-/
namespace Verif.Wire
open Interop (Net)

/-! ### Messages of the models as they are on the wire -/

/-- Derived reader of `MetadataRequest`, /repo/crates/openid/src/issuer.rs 1364-1378, without the languages. -/
def readMetadataRequest (j : Json) : Option String := do
  match ← structFields ["credential_issuer", "languages"] j with
  | [i, l] =>
    let i ← defaulted "" readStr i
    let _ ← optional readStr l
    some i
  | _ => none

/-- Derived writer of `MetadataRequest`, issuer.rs 1364-1378. -/
def writeMetadataRequest (i : String) : Json := .obj (members [("credential_issuer", nonEmpty i), ("languages", none)])

/-- Derived reader of `OAuthServerRequest`, issuer.rs 1390-1404, without the issuer of the server. -/
def readServerRequest (j : Json) : Option String := do
  match ← structFields ["credential_issuer", "issuer"] j with
  | [i, s] =>
    let i ← defaulted "" readStr i
    let _ ← optional readStr s
    some i
  | _ => none

/-- Derived writer of `OAuthServerRequest`, issuer.rs 1390-1404. -/
def writeServerRequest (i : String) : Json := .obj (members [("credential_issuer", nonEmpty i), ("issuer", none)])

/-- A token request of the wallet, which sends no client assertion, issuer.rs 943-978. -/
def tokenRequestOf (r : Issuer.TokenRequest) : TokenRequest :=
  { credentialIssuer := r.credentialIssuer, clientId := r.clientId, grantType := r.grantType, authorizationDetails := r.authorizationDetails.map (·.map detailOf) }

/-- What the token endpoint sees of a request, issuer.rs 943-978. -/
def tokenRequestSeen (r : TokenRequest) : Issuer.TokenRequest :=
  { credentialIssuer := r.credentialIssuer, clientId := r.clientId, grantType := r.grantType, authorizationDetails := r.authorizationDetails.map (·.map detailSeen) }

/-- An authorized detail of a response, issuer.rs 1092-1104. -/
def authorizedOf (d : Issuer.AuthorizedDetail) : AuthorizedDetail := { detail := detailOf d.detail, identifiers := d.identifiers }

/-- What the wallet sees of it, issuer.rs 1092-1104. -/
def authorizedSeen (d : AuthorizedDetail) : Issuer.AuthorizedDetail := { detail := detailSeen d.detail, identifiers := d.identifiers }

/-- A token response, issuer.rs 1048-1075. -/
def tokenResponseOf (r : Issuer.TokenResponse) : TokenResponse :=
  { accessToken := r.accessToken, expiresIn := r.expiresIn, cNonce := r.cNonce, cNonceExpiresIn := r.cNonceExpiresIn
    authorizationDetails := r.authorizationDetails.map (·.map authorizedOf) }

/-- What the wallet sees of it, issuer.rs 1048-1075. -/
def tokenResponseSeen (r : TokenResponse) : Issuer.TokenResponse :=
  { accessToken := r.accessToken, expiresIn := r.expiresIn, cNonce := r.cNonce, cNonceExpiresIn := r.cNonceExpiresIn
    authorizationDetails := r.authorizationDetails.map (·.map authorizedSeen) }

/-- A credential response, issuer.rs 1283-1326. -/
def deliveryOf (r : Holder.CredentialResponse) : CredentialResponse Verif.Vc where
  response := match r.response with
    | .credential c => .credential c
    | .credentials l => .credentials l
    | .transactionId t => .transactionId t
  cNonce := r.cNonce
  cNonceExpiresIn := r.cNonceExpiresIn
  notificationId := r.notificationId

/-- As `deliveryOf`, back. -/
def deliverySeen (r : CredentialResponse Verif.Vc) : Holder.CredentialResponse where
  response := match r.response with
    | .credential c => .credential c
    | .credentials l => .credentials l
    | .transactionId t => .transactionId t
  cNonce := r.cNonce
  cNonceExpiresIn := r.cNonceExpiresIn
  notificationId := r.notificationId

/-- What an authorization endpoint sees of a request, issuer.rs 408-419. -/
def authorizationRequestSeen : AuthorizationRequest → Issuer.AuthorizationRequest
  | .uri u => .uri u
  | .object o => .object (objectSeen o)

/-! ### The connection -/

/-- A value sent as JSON text. Connects wallet and issuer as /repo/vercre-holder/tests/provider.rs 51-96 does, with JSON text in between. -/
def sent {β : Type} (j : Json) (read : Json → Option β) : Option β := (parseJson j.chars).bind read

/-- What the issuer makes of a call of the wallet, sent as text to the endpoint `Interop.request` names.
Connects wallet and issuer as /repo/vercre-holder/tests/provider.rs 51-96 does, with JSON text in between. -/
def carried : Holder.Call → Option Issuer.Req
  | .metadata i => (sent (writeMetadataRequest i) readMetadataRequest).map .metadata
  | .oauthServer i => (sent (writeServerRequest i) readServerRequest).map .oauthServer
  | .authorization r => (sent (.obj (writeRequest (.object (objectOf r)))) readRequest).map fun q => .authorize (authorizationRequestSeen q)
  | .token r => (sent (writeTokenRequest (tokenRequestOf r)) readTokenRequest).map fun q => .token (tokenRequestSeen q)
  | .credential r => (sent (writeCredentialRequest r) readCredentialRequest).map .credential
  | .deferred r => (sent (writeDeferredRequest r) readDeferredRequest).map .deferred
  | .notification r => (sent (writeNotification r) readNotification).map fun q => .notification { notificationId := q.notificationId }
  | .logo _ | .requestObject _ | .present _ _ | .save _ | .find _ => none

/-- An issuer and its surroundings, with what it publishes in full: the models of the endpoints keep only the members they read. `readPlain` and `writePlain` are for
credentials that are not signed, which the issuer never sends.
Connects wallet and issuer as /repo/vercre-holder/tests/provider.rs 51-96 does, with JSON text in between. -/
structure TextNet extends Net where
  page : Verif.Issuer → IssuerMeta
  serverPage : Verif.Server → ServerMeta
  readPlain : Json → Option Verif.Vc
  writePlain : Verif.Vc → Json

namespace TextNet
variable (n : TextNet)

/-- What the wallet makes of an answer of the issuer, sent as text.
Connects wallet and issuer as /repo/vercre-holder/tests/provider.rs 51-96 does, with JSON text in between. -/
def reply : (c : Holder.Call) → Res Issuer.Resp → Option c.Reply
  | .metadata _, .ok (.metadata i) => (sent (writeIssuerMeta (n.page i)) readIssuerMeta).map issuerSeen
  | .oauthServer _, .ok (.oauthServer s) => (sent (writeServerReply (n.serverPage s)) readServerReply).map serverSeen
  | .authorization _, .ok (.authorize a) => sent (writeAuthorizationReply a) readAuthorizationReply
  | .token _, .ok (.token t) => (sent (writeTokenResponse (tokenResponseOf t)) readTokenResponse).map tokenResponseSeen
  | .credential _, .ok (.credential r) =>
    (sent (writeCredentialResponse n.writePlain (deliveryOf (Interop.deliver n.encode r))) (readCredentialResponse n.readPlain)).map deliverySeen
  | .deferred _, .ok (.deferred r) =>
    (sent (writeCredentialResponse n.writePlain (deliveryOf (Interop.deliver n.encode r))) (readCredentialResponse n.readPlain)).map deliverySeen
  | .notification _, .ok .notification => some ()
  | _, _ => none

/-- One more call of the wallet: how many reached the issuer, and the issuer after it.
Connects wallet and issuer as /repo/vercre-holder/tests/provider.rs 51-96 does, with JSON text in between. -/
def next (s : Nat × World Issuer.State) (c : Holder.Call) : Nat × World Issuer.State :=
  match carried c with
  | none => s
  | some r => (s.1 + 1, (n.serve s.1 s.2 r).2)

/-- The issuer after some calls of the wallet. Connects wallet and issuer as /repo/vercre-holder/tests/provider.rs 51-96 does, with JSON text in between. -/
def after (w : World Issuer.State) (calls : List Holder.Call) : Nat × World Issuer.State := calls.foldl n.next (0, w)

/-- What the wallet's calls answer: the issuer was in world `w` when the wallet had `skip` entries in its history. A request that cannot be read fails.
Connects wallet and issuer as /repo/vercre-holder/tests/provider.rs 51-96 does, with JSON text in between. -/
def oracle (w : World Issuer.State) (skip : Nat) (log : List Holder.Entry) (recent : List Holder.Event) (c : Holder.Call) : Option c.Reply :=
  match Interop.request c with
  | none => n.rest log recent c
  | some _ =>
    match carried c with
    | none => none
    | some r => n.reply c (n.serve (n.after w (Net.made skip log recent)).1 (n.after w (Net.made skip log recent)).2 r).1

end TextNet

end Verif.Wire
