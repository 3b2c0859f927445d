import Verif.Wire.Form
import Verif.Wire.VerifierNet
/-!
# The example programs connected by forms

The example wallet's client (/repo/examples/wallet/src-tauri/src/provider) sends token requests and presentations as forms; everything else it sends is left
as it was. What it is connected to is arbitrary.
-/
namespace Verif.Wire
open Holder (HEnv)

/-- The body of a token request, issuer_client.rs 54-63. -/
def tokenForm (r : Issuer.TokenRequest) : Option (List UInt8) := writeForm (writeTokenRequest (tokenRequestOf r))

/-- What the example issuer makes of the body of a token request, /repo/examples/issuer/src/main.rs 317-326. -/
def tokenFormSeen (lossy : List UInt8 → List Char) (body : List UInt8) : Option Issuer.TokenRequest := (readForm lossy readTokenRequest body).map tokenRequestSeen

/-- The body of a presentation, verifier_client.rs 26-38. `w` writes presentations that are not signed. -/
def answerForm (w : Verif.Vp → Json) (r : Verifier.ResponseRequest) : Option (List UInt8) := writeForm (writeAnswer w (answerOf r))

/-- What the example verifier makes of a body (or, of a `GET`, of a query), /repo/examples/verifier/src/main.rs 43-44 and 75-83. -/
def answerFormSeen (lossy : List UInt8 → List Char) (r : Json → Option Verif.Vp) (body : List UInt8) : Option Verifier.ResponseRequest :=
  (readForm lossy (readAnswer r) body).map answerSeen

/-- `response` of the example verifier, main.rs 75-83: `none` if the body cannot be read, which `axum` answers itself. -/
def servePost (lossy : List UInt8 → List Char) (rd : Json → Option Verif.Vp) (P : Verifier.Provider) (e : Env) (w : World Verifier.VState) (body : List UInt8) :
    Option (Res Verifier.ResponseResponse) :=
  (answerFormSeen lossy rd body).map fun q => ((Verifier.response P q).run e w).1

/-- The query of the redirect after a login, /repo/examples/issuer/src/main.rs 267-269: `urlencode::to_string` of the request that was kept. -/
def redirectQuery (r : Issuer.RequestObject) : List UInt8 := utf8 (display (.object (objectOf r)))

/-- What the authorization endpoint of the example issuer makes of a query, main.rs 135-138. -/
def querySeen (lossy : List UInt8 → List Char) (query : List UInt8) : Option Issuer.AuthorizationRequest := (readRequestForm lossy query).map authorizationRequestSeen

/-- What its `par` endpoint makes of a query, main.rs 197-200. `PushedAuthorizationRequest` (/repo/crates/openid/src/issuer.rs 909-920) flattens the request, whose members are
read as if they were alone; the client assertion is left out. -/
def pushSeen (lossy : List UInt8 → List Char) (query : List UInt8) : Option Issuer.RequestObject := (readForm lossy readObject query).map objectSeen

/-- Those who take forms: what comes back from a URL, given all that went before.
/repo/examples/wallet/src-tauri/src/provider/issuer_client.rs 54-66 and verifier_client.rs 26-42. -/
structure Takers where
  token : List Holder.Entry → List Holder.Event → String → List UInt8 → Option Issuer.TokenResponse
  present : List Holder.Entry → List Holder.Event → String → List UInt8 → Option Verifier.ResponseResponse

/-- The surroundings of the example wallet: `Issuer::token` of issuer_client.rs 54-66, `Verifier::present` of verifier_client.rs 26-42, all else as in `e`. -/
def byForms (w : Verif.Vp → Json) (t : Takers) (e : HEnv) : HEnv where
  rng := e.rng
  fault := e.fault
  oracle log recent
    | .token r => (tokenForm r).bind fun body => t.token log recent (r.credentialIssuer ++ "/token") body
    | .present uri r => uri.bind fun url => (answerForm w r).bind fun body => t.present log recent url body
    | c => e.oracle log recent c

end Verif.Wire
