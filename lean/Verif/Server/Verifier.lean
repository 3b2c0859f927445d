import Verif.Wire.FormNet
import Verif.Verifier.Model
/-!
# The example verifier: a web server around the verifier's endpoints

/repo/examples/verifier/src/main.rs, with the store of verifiers of /repo/crates/test-utils/src/store/presentation.rs.
-/
namespace Verif.Server
open Verifier (VState CreateRequestRequest Metadata)

/-- A web request to the example verifier, main.rs 40-44. Simplification: the body of `/create_request` has been read already. -/
inductive VHttp where
  /-- `POST /create_request`, main.rs 53-61 -/
  | create (host : String) (body : CreateRequestRequest)
  /-- `GET /request/:object_id`, main.rs 63-73 -/
  | fetch (host id : String)
  /-- `GET /callback`, main.rs 43 and 75-83, with its query -/
  | callback (host : String) (query : List UInt8)
  /-- `POST /post`, main.rs 44 and 75-83, with its body -/
  | post (host : String) (body : List UInt8)

/-- What comes back. /repo/examples/verifier/src/main.rs 40-108. -/
inductive VReply where
  /-- status 200 with a response, main.rs 99 -/
  | ok (r : Verifier.Resp)
  /-- status 500 with an error, main.rs 100 -/
  | failed (e : Err)
  /-- the form could not be read: `axum` answers by itself, with status 400 or 422 -/
  | unreadable
  /-- the handler panics, and the connection is closed -/
  | panic

/-- What surrounds the server. `lossy` and `vp` are as in `Wire.answerFormSeen`. /repo/examples/verifier/src/main.rs 40-108. -/
structure VAround where
  env : Env
  lossy : List UInt8 → List Char
  vp : Json → Option Verif.Vp

/-- A response of the verifier as a reply, main.rs 89-104. -/
def vreply : Res Verifier.Resp → VReply
  | .ok r => .ok r
  | .error (.panic _) => .panic
  | .error e => .failed e

/-- Handing a request on to the library. /repo/examples/verifier/src/main.rs 40-108. -/
def vcall (a : VAround) (P : Verifier.Provider) (wait : Nat) (w : World VState) (req : Verifier.Req) : VReply × World VState :=
  let x := Verifier.step a.env w { provider := P, wait, req }
  (vreply x.1, x.2)

/-- `response`, main.rs 75-83. -/
def vresponse (a : VAround) (P : Verifier.Provider) (wait : Nat) (w : World VState) (form : List UInt8) : VReply × World VState :=
  match Wire.answerFormSeen a.lossy a.vp form with
  | none => (.unreadable, { w with now := w.now + wait })
  | some q => vcall a P wait w (.response q)

/-- Serving a web request, main.rs 40-83. -/
def vserve (a : VAround) (P : Verifier.Provider) (wait : Nat) (w : World VState) : VHttp → VReply × World VState
  | .create host body => vcall a P wait w (.createRequest { body with clientId := "http://" ++ host })
  | .fetch host id => vcall a P wait w (.requestObject { clientId := "http://" ++ host, id })
  | .callback _ query => vresponse a P wait w query
  | .post _ body => vresponse a P wait w body

/-- A visit: some time after the one before, a web request; providers may change their answers meanwhile. Machinery of the model. -/
structure VVisit where
  provider : Verifier.Provider
  wait : Nat := 0
  http : VHttp

/-- The reply to a visit. Machinery of the model. -/
def vanswer (a : VAround) (w : World VState) (v : VVisit) : VReply := (vserve a v.provider v.wait w v.http).1

/-- The server after some visits. Machinery of the model. -/
def vafter (a : VAround) (w : World VState) : List VVisit → World VState
  | [] => w
  | v :: l => vafter a (vserve a v.provider v.wait w v.http).2 l

/-- The one verifier that the example's store holds, /repo/crates/test-utils/src/store/verifier.json. -/
def onlyVerifier : Metadata where
  oauth := {
    clientId := "http://localhost:8080"
    clientName := some "Verifier"
    redirectUris := some ["http://localhost:3000/callback"]
    responseTypes := some [.vpToken, .idToken] }
  vpFormats := some (some { alg := some ["ES256K"], proofType := some ["JsonWebSignature2020"] })

/-- `Store::new` and `Store::get`, presentation.rs 16-36. -/
def verifierStore (clientId : String) : Option Metadata := if clientId = onlyVerifier.oauth.clientId then some onlyVerifier else none

end Verif.Server
