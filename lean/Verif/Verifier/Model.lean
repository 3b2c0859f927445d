import Verif.Dif.Model
import Verif.W3c.Proof
import Verif.Openid.Types
/-!
# The verifier's endpoints

Models /repo/vercre-verifier/src: `create_request`, `request_object`, `response`, `metadata`, with the messages of
/repo/crates/openid/src/verifier.rs.
-/
namespace Verif.Verifier
open Verif Prog

/-- `DeviceFlow`, /repo/crates/openid/src/verifier.rs 69-94. -/
inductive DeviceFlow where
  | crossDevice
  | sameDevice
  deriving DecidableEq, Repr

/-- `CreateRequestRequest`, verifier.rs 45-64 (`client_id_scheme` is never read). -/
structure CreateRequestRequest where
  clientId : String
  purpose : String
  inputDescriptors : List Dif.InputDescriptor
  deviceFlow : DeviceFlow
  deriving DecidableEq

/-- `ResponseType`, verifier.rs 230-244. -/
inductive ResponseType where
  | vpToken
  | vpTokenIdToken
  | code
  deriving DecidableEq, Repr

/-- `ClientIdScheme`, verifier.rs 248-315. -/
inductive ClientIdScheme where
  | redirectUri
  | did
  deriving DecidableEq, Repr

/-- `TokenEndpointAuth`, /repo/crates/openid/src/oauth.rs 347-369. -/
inductive TokenEndpointAuth where
  | none
  | clientSecretJwt
  | privateKeyJwt
  deriving DecidableEq, Repr

/-- `OAuthClient`, oauth.rs 19-129. -/
structure OAuthClient where
  clientId : String
  clientIdIssuedAt : Option Int := .none
  clientSecret : Option String := .none
  clientSecretExpiresAt : Option Int := .none
  redirectUris : Option (List String) := .none
  tokenEndpointAuthMethod : Option TokenEndpointAuth := .none
  grantTypes : Option (List GrantType) := .none
  responseTypes : Option (List Verif.ResponseType) := .none
  clientName : Option String := .none
  clientUri : Option String := .none
  logoUri : Option String := .none
  scope : Option String := .none
  contacts : Option String := .none
  tosUri : Option String := .none
  policyUri : Option String := .none
  jwksUri : Option String := .none
  jwks : Option String := .none
  softwareId : Option String := .none
  softwareVersion : Option String := .none
  requirePushedAuthorizationRequests : Option Bool := .none
  credentialOfferEndpoint : Option String := .none
  deriving DecidableEq

/-- `VpFormat`, verifier.rs 589-597. -/
structure VpFormat where
  alg : Option (List String) := none
  proofType : Option (List String) := none
  deriving DecidableEq, Repr

/-- `Verifier`, verifier.rs 608-628, the client metadata. `vp_formats` is a map whose keys have a single value, so it is empty or has one entry. -/
structure Metadata where
  oauth : OAuthClient
  vpFormats : Option (Option VpFormat) := none
  deriving DecidableEq

/-- `RequestObject`, verifier.rs 119-226. -/
structure RequestObject where
  responseType : ResponseType
  clientId : String
  redirectUri : Option String := none
  responseMode : Option String := none
  responseUri : Option String := none
  scope : Option String := none
  nonce : String
  state : Option String := none
  presentationDefinition : Kind Dif.PresentationDefinition
  clientIdScheme : Option ClientIdScheme := none
  clientMetadata : Metadata
  deriving DecidableEq

/-- `CreateRequestResponse`, verifier.rs 99-109. -/
structure CreateRequestResponse where
  requestObject : Option RequestObject := none
  requestUri : Option String := none
  deriving DecidableEq

/-- `RequestObjectRequest`, verifier.rs 397-404. -/
structure RequestObjectRequest where
  clientId : String
  id : String

/-- `ResponseRequest`, verifier.rs 506-530. -/
structure ResponseRequest where
  vpToken : Option (List (Kind Vp))
  submission : Option Dif.PresentationSubmission
  state : Option String

/-- `ResponseResponse`, verifier.rs 534-563. -/
structure ResponseResponse where
  redirectUri : Option String
  responseCode : Option String
  deriving DecidableEq, Repr

/-- `State`, /repo/vercre-verifier/src/state.rs 22-31. -/
structure VState where
  expiresAt : Int
  requestObject : RequestObject

/-- `Expire::Request`, state.rs 14-20: five minutes. -/
def requestDur : Int := 5 * 60 * 1000000000

/-- What the verifier's provider and external crates answer. /repo/crates/openid/src/verifier.rs 25-45. -/
structure Provider where
  /-- `Metadata::verifier` -/
  verifier : String → Option Metadata
  /-- `SecOps::signer` -/
  signer : String → Option String
  /-- `jws::encode(Type::Request, ..)` -/
  encodeRequest : String → RequestObject → Option String
  jose : Jose
  ext : Dif.Ext
  /-- `serde_json::to_value` of a presentation -/
  vpJson : Vp → Option Json
  /-- `to_json` of a credential -/
  vcJson : Vc → Option Json
  /-- `serde_json::from_value` to a credential -/
  vcOfJson : Json → Option Vc

/-- Machinery of the model. -/
abbrev VProg := Prog VState

namespace CreateRequest

/-- The presentation definition, create_request.rs 113-124. -/
def definition (uuid : String) (req : CreateRequestRequest) : Dif.PresentationDefinition where
  id := uuid
  inputDescriptors := req.inputDescriptors
  purpose := some req.purpose
  format := some [("jwt_vc", { alg := some ["EdDSA"] })]

/-- The request object, create_request.rs 132-153. -/
def object (req : CreateRequestRequest) (uuid uriToken nonce : String) (md : Metadata) : RequestObject :=
  match req.deviceFlow with
  | .crossDevice => {
    responseType := .vpToken
    clientId := req.clientId ++ "/post"
    responseMode := some "direct_post"
    responseUri := some (req.clientId ++ "/post")
    nonce
    state := some uriToken
    presentationDefinition := .object (definition uuid req)
    clientIdScheme := some .redirectUri
    clientMetadata := md }
  | .sameDevice => {
    responseType := .vpToken
    clientId := req.clientId ++ "/callback"
    nonce
    state := some uriToken
    presentationDefinition := .object (definition uuid req)
    clientIdScheme := some .redirectUri
    clientMetadata := md }

/-- The response, create_request.rs 142-154. -/
def reply (req : CreateRequestRequest) (uriToken : String) (obj : RequestObject) : CreateRequestResponse :=
  match req.deviceFlow with
  | .crossDevice => { requestUri := some (req.clientId ++ "/request/" ++ uriToken) }
  | .sameDevice => { requestObject := some obj }

end CreateRequest

/-- `create_request`, create_request.rs 90-167. -/
def createRequest (P : Provider) (req : CreateRequestRequest) : VProg CreateRequestResponse := do
  lift (require (!req.inputDescriptors.isEmpty) (.invalidRequest "no credentials specified"))
  let uuid ← drawE
  let uriToken ← drawE
  let md ← lift (orErr (P.verifier req.clientId) (.invalidRequest "invalid client_id"))
  let nonce ← drawE
  let now ← nowE
  putE uriToken { expiresAt := now + requestDur, requestObject := CreateRequest.object req uuid uriToken nonce md }
    (.serverError "issue saving state")
  pure (CreateRequest.reply req uriToken (CreateRequest.object req uuid uriToken nonce md))

/-- `request_object`, request_object.rs 33-65. -/
def requestObject (P : Provider) (req : RequestObjectRequest) : VProg String := do
  let state ← getE req.id (.serverError "issue fetching state")
  lift (require (state.requestObject.clientId == req.clientId ++ "/post") (.invalidRequest "client ID mismatch"))
  let signer ← lift (orErr (P.signer req.clientId) (.serverError "issue  resolving signer"))
  lift (orErr (P.encodeRequest signer state.requestObject) (.serverError "issue encoding jwt"))

namespace Response

/-- Errors of `proof::verify` become server errors (response.rs 79); panics stay. -/
def mapErr {α : Type} (e : Err) (r : Res α) : Res α :=
  match r with
  | .ok a => .ok a
  | .error (.panic m) => .error (.panic m)
  | .error _ => .error e

/-- One presentation, response.rs 76-88. -/
def checkVp (P : Provider) (nonce : String) (v : Kind Vp) : Res Vp := do
  match ← mapErr (.serverError "issue verifying VP proof") (Proof.verifyVp P.jose v) with
  | .vp vp _ n => do
    require (n == nonce) (.invalidRequest "nonce does not match")
    pure vp
  | .vc _ _ => .error (.invalidRequest "proof payload is invalid")

/-- All presentations, response.rs 72-89. -/
def checkVps (P : Provider) (nonce : String) : List (Kind Vp) → Res (List Vp)
  | [] => .ok []
  | v :: vs => do
    let vp ← checkVp P nonce v
    let rest ← checkVps P nonce vs
    pure (vp :: rest)

/-- The values of the presentations in an array. /repo/vercre-verifier/src/response.rs 117. -/
def vpValues (P : Provider) : List Vp → Option (List Json)
  | [] => some []
  | v :: vs => match P.vpJson v, vpValues P vs with
    | some j, some js => some (j :: js)
    | _, _ => none

/-- The value that paths are evaluated on, response.rs 114-119. -/
def tokenValue (P : Provider) : List Vp → Res Json
  | [vp] => orErr (P.vpJson vp) (.serverError "issue converting VP to Value")
  | vps => do
    let l ← orErr (vpValues P vps) (.serverError "issue aggregating vp values")
    pure (.arr l)

/-- `vc_kind`, response.rs 153-161. -/
def vcKind (P : Provider) : Json → Res (Kind Vc)
  | .str t => .ok (.string t)
  | .obj m => do
    let vc ← orErr (P.vcOfJson (.obj m)) (.serverError "issue deserializing vc")
    pure (.object vc)
  | _ => .error (.invalidRequest "unexpected VC format")

/-- Exactly one node, response.rs 146-151. -/
def onlyNode : List Json → Option Json
  | [n] => some n
  | _ => none

/-- Format check, response.rs 133-141. -/
def formatOk (input : Dif.InputDescriptor) (m : Dif.DescriptorMap) : Bool :=
  match input.format with
  | none => true
  | some f => Dict.has f m.pathNested.format

/-- `vc.valid_until.is_some_and(|exp| exp < now)`, response.rs 180. -/
def expired (vc : Vc) (now : Int) : Bool :=
  match vc.validUntil with
  | none => false
  | some t => decide (t < now)

/-- One input descriptor, response.rs 126-182. -/
def checkInput (P : Provider) (now : Int) (value : Json) (maps : List Dif.DescriptorMap) (input : Dif.InputDescriptor) : Res Unit := do
  let m ← orErr (maps.find? fun m => m.id == input.id) (.invalidRequest "input descriptor mapping req_obj not found")
  require (formatOk input m) (.invalidRequest "invalid format")
  let nodes ← orErr (P.ext.query m.pathNested.path value) (.serverError "issue parsing JSON Path")
  let node ← orErr (onlyNode nodes) (.invalidRequest "no match for path_nested")
  let kind ← vcKind P node
  match ← mapErr (.invalidRequest "invalid VC proof") (Proof.verifyVc P.jose kind) with
  | .vp _ _ _ => .error (.invalidRequest "proof payload is invalid")
  | .vc vc _ => do
    let ok ← mapErr (.serverError "issue matching constraints") (input.constraints.satisfied P.ext (P.vcJson vc))
    require ok (.invalidRequest "input constraints not satisfied")
    require (!expired vc now) (.invalidRequest "credential has expired")

/-- All input descriptors, if the clock stands still. Specification; `inTurn` is the model of the loop. -/
def checkInputs (P : Provider) (now : Int) (value : Json) (maps : List Dif.DescriptorMap) : List Dif.InputDescriptor → Res Unit
  | [] => .ok ()
  | i :: is => do
    checkInput P now value maps i
    checkInputs P now value maps is

/-- The definition of the saved request, response.rs 94-99. -/
def definition (ro : RequestObject) : Res Dif.PresentationDefinition :=
  match ro.presentationDefinition with
  | .object d => .ok d
  | .string _ => .error (.invalidRequest "presentation_definition_uri is unsupported")

/-- The checks of `verify` between the state lookup and the loop over the input descriptors, response.rs 68-119. Returns what the loop needs: the value that
paths are evaluated on, the mapping objects and the input descriptors. -/
def prepare (P : Provider) (ro : RequestObject) (req : ResponseRequest) : Res (Json × List Dif.DescriptorMap × List Dif.InputDescriptor) := do
  let vpToken ← orErr req.vpToken (.invalidRequest "vp_token not founnd")
  let vps ← checkVps P ro.nonce vpToken
  let subm ← orErr req.submission (.invalidRequest "no presentation_submission")
  let d ← definition ro
  require (subm.definitionId == d.id) (.invalidRequest "definition_ids do not match")
  let value ← tokenValue P vps
  pure (value, subm.descriptorMap, d.inputDescriptors)

/-- The loop over the input descriptors, response.rs 124-188. The clock is read for each credential (line 180), so it may move in between. Simplification: it is
read before the other checks of the descriptor, which do not use it. -/
def inTurn (P : Provider) (value : Json) (maps : List Dif.DescriptorMap) : List Dif.InputDescriptor → VProg Unit
  | [] => pure ()
  | i :: is => do
    let now ← nowE
    lift (checkInput P now value maps i)
    inTurn P value maps is

/-- The checks of `verify` after the state was found, response.rs 68-195. -/
def verify (P : Provider) (ro : RequestObject) (req : ResponseRequest) : VProg Unit := do
  let p ← lift (prepare P ro req)
  inTurn P p.1 p.2.1 p.2.2

/-- The same checks, if the clock stands still. Specification; `Response.verify` is the model of the code. -/
def check (P : Provider) (now : Int) (ro : RequestObject) (req : ResponseRequest) : Res Unit := do
  let p ← prepare P ro req
  checkInputs P now p.1 p.2.1 p.2.2

end Response

/-- `response`, response.rs 41-216. -/
def response (P : Provider) (req : ResponseRequest) : VProg ResponseResponse := do
  let key ← lift (orErr req.state (.invalidRequest "client state not found"))
  let state ← getE key (.invalidRequest "state not found")
  Response.verify P state.requestObject req
  purgeE key (.serverError "issue purging state")
  pure { redirectUri := some "http://localhost:3000/cb", responseCode := none }

/-- `metadata`, metadata.rs 19-35. -/
def metadata (P : Provider) (clientId : String) : VProg Metadata :=
  lift (orErr (P.verifier clientId) (.serverError "issue getting metadata"))

/-! ### The verifier as a service -/

/-- A request to one of the endpoints (/repo/vercre-verifier/src/lib.rs). -/
inductive Req where
  | createRequest (r : CreateRequestRequest)
  | requestObject (r : RequestObjectRequest)
  | response (r : ResponseRequest)
  | metadata (clientId : String)

/-- The matching responses. Machinery of the model; the endpoints are those of /repo/vercre-verifier/src/lib.rs 180-183. -/
inductive Resp where
  | createRequest (r : CreateRequestResponse)
  | requestObject (jwt : String)
  | response (r : ResponseResponse)
  | metadata (m : Metadata)

/-- Dispatch. Machinery of the model; the endpoints are those of /repo/vercre-verifier/src/lib.rs 180-183. -/
def call (P : Provider) : Req → VProg Resp
  | .createRequest r => do let x ← createRequest P r; pure (.createRequest x)
  | .requestObject r => do let x ← requestObject P r; pure (.requestObject x)
  | .response r => do let x ← response P r; pure (.response x)
  | .metadata c => do let x ← metadata P c; pure (.metadata x)

/-- One step of a history: time passes, then a request is served with whatever the provider answers then.
Machinery of the model; the endpoints are those of /repo/vercre-verifier/src/lib.rs 180-183. -/
structure Step where
  provider : Provider
  wait : Nat := 0
  req : Req

/-- Serving one step. Machinery of the model; the endpoints are those of /repo/vercre-verifier/src/lib.rs 180-183. -/
def step (e : Env) (w : World VState) (s : Step) : Res Resp × World VState :=
  (call s.provider s.req).run e { w with now := w.now + s.wait }

/-- The world after a history. Machinery of the model; the endpoints are those of /repo/vercre-verifier/src/lib.rs 180-183. -/
def exec (e : Env) (w : World VState) : List Step → World VState
  | [] => w
  | s :: rest => exec e (step e w s).2 rest

/-- The initial world: empty store. Machinery of the model; the endpoints are those of /repo/vercre-verifier/src/lib.rs 180-183. -/
def start (now : Int) : World VState := { store := fun _ => none, now, drawn := 0, ops := 0 }

end Verif.Verifier
