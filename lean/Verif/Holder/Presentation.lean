import Verif.Holder.Issuance
/-!
# The wallet's presentation endpoints, and histories of wallet calls

/repo/vercre-holder/src/presentation.rs and presentation/*.rs.
-/
namespace Verif.Holder
open Verif HProg

/-- `build_filter`, /repo/vercre-holder/src/presentation/request.rs 121-132. -/
def buildFilter (r : Verifier.RequestObject) : HRes Dif.Constraints :=
  match r.presentationDefinition with
  | .string _ => .error (.refused "presentation_definition_uri is unsupported")
  | .object pd =>
    match pd.inputDescriptors with
    | [] => .error (.refused "no input descriptors found")
    | d :: _ => .ok d.constraints

/-- Whether a text contains another (`str::contains`). /repo/vercre-holder/src/presentation/request.rs 59. -/
def containsText (t : List Char) : List Char → Bool
  | [] => t.isEmpty
  | c :: l => t.isPrefixOf (c :: l) || containsText t l

/-- `parse_request_object_response`, request.rs 105-116. -/
def parseResponse (P : Provider) : RequestObjectType → HRes Verifier.RequestObject
  | .object _ => .error (.refused "no serialized JWT found in response")
  | .jwt t => need (P.decodeRequest t) "failed to parse JWT"

/-- Parsing or getting the request, request.rs 59-75. -/
def obtainRequest (P : Provider) (url decoded : String) : HProg Verifier.RequestObject :=
  if containsText "&presentation_definition".toList url.toList then lift (need (P.parseRequest url) "issue parsing RequestObject")
  else do
    let r ← callE (.requestObject decoded)
    lift (parseResponse P r)

/-- `request`, request.rs 42-102. -/
def request (P : Provider) (url : String) : HProg Resp := do
  let decoded ← lift (need (P.percentDecode url) "unable to decode request url string")
  let id ← drawE
  let r ← obtainRequest P url decoded
  let filter ← lift (buildFilter r)
  let creds ← callE (.find filter)
  putE id (.presentation { id, status := .requested, request := r, credentials := creds, filter })
  pure (.request id .requested creds)

/-- `authorize`, /repo/vercre-holder/src/presentation/authorize.rs 15-35. -/
def authorizePresentation (id : String) : HProg Resp := do
  let p ← getPresentation id
  lift (check (p.status == .requested) "invalid presentation state")
  putE p.id (.presentation { p with status := .authorized })
  pure (.status .authorized)

/-- The descriptor map, /repo/vercre-holder/src/presentation/present.rs 92-106. -/
def descriptorMap (ds : List Dif.InputDescriptor) : List Dif.DescriptorMap :=
  ds.map fun d => {
    id := d.id
    path := "$"
    pathNested := { format := "jwt_vc_json", path := "$.verifiableCredential[0]" }
    format := "jwt_vc_json" }

/-- `create_submission`, present.rs 85-113. -/
def createSubmission (p : Presentation) : HProg Dif.PresentationSubmission :=
  match p.request.presentationDefinition with
  | .string _ => refuse "presentation_definition_uri is unsupported"
  | .object pd => do
    let id ← drawE
    pure { id, definitionId := pd.id, descriptorMap := descriptorMap pd.inputDescriptors }

/-- The constants asked for by the fields of a definition, present.rs 128-138. -/
def constTypes (pd : Dif.PresentationDefinition) : List String :=
  pd.inputDescriptors.flatMap fun d => (d.constraints.fields.getD []).filterMap fun f => f.filter.bind fun x => match x.value with
    | .const c => some c
    | _ => none

/-- `create_vp`, present.rs 116-145. -/
def createVp (p : Presentation) (holder : String) : HProg Vp := do
  let u ← drawE
  let vp := ((Vp.builder u).addContext (.string "https://www.w3.org/2018/credentials/examples/v1")).setHolder holder
  match p.request.presentationDefinition with
  | .string _ => refuse "presentation_definition_uri is unsupported"
  | .object pd =>
    lift (match ((p.credentials.map fun c => Kind.string c.issued).foldl Vp.addCredential ((constTypes pd).foldl Vp.addType vp)).build with
      | .ok vp => .ok vp
      | .error e => .error (.refused e))

/-- `str::trim_end_matches('/')`. /repo/vercre-holder/src/presentation/present.rs 73. -/
def trimSlashes (s : String) : String := String.ofList (s.toList.reverse.dropWhile (· == '/')).reverse

/-- `present`, present.rs 22-82. -/
def present (P : Provider) (id : String) : HProg Resp := do
  let p ← getPresentation id
  lift (check (p.status == .authorized) "Invalid presentation state")
  let submission ← createSubmission p
  let vp ← createVp p (beforeHash P.kid)
  let now ← nowE
  let jwt ← lift (ofRes (Proof.create P.jose .jwtVcJson (.vp vp p.request.clientId p.request.nonce) P.kid now))
  let r ← callE (.present (p.request.responseUri.map trimSlashes)
    { vpToken := some [.string jwt], submission := some submission, state := p.request.state })
  pure (.presented r)

/-! ### Histories -/

/-- Dispatch. Machinery of the model; the endpoints are those of /repo/vercre-holder/src/lib.rs 42-45. -/
def serve (P : Provider) : Req → HProg Resp
  | .offer r => offer r
  | .accept r => accept r
  | .pin r => pin r
  | .token id => token id
  | .authorize r => authorize P r
  | .credentials r => credentials P r
  | .deferred r => deferred P r
  | .save id => save id
  | .cancel id => cancel id
  | .request u => request P u
  | .authorizePresentation id => authorizePresentation id
  | .present id => present P id

/-- One call: with which keys, how long after the previous one, and what is asked. Machinery of the model. -/
structure HStep where
  provider : Provider
  wait : Nat := 0
  req : Req

/-- Serving one call: the world after it, with the call recorded. Machinery of the model. -/
def step (e : HEnv) (w : HWorld) (s : HStep) : HRes Resp × HWorld :=
  let out := (serve s.provider s.req).run e { w with now := w.now + s.wait, recent := [] }
  (out.1, { out.2 with log := out.2.log ++ [⟨s.provider, w.now + s.wait, s.req, out.1, out.2.recent⟩], recent := [] })

/-- The world after a history. Machinery of the model. -/
def exec (e : HEnv) (w : HWorld) : List HStep → HWorld
  | [] => w
  | s :: l => exec e (step e w s).2 l

/-- A new wallet. Machinery of the model. -/
def start (now : Int) : HWorld := { store := fun _ => none, now, drawn := 0, ops := 0, log := [], recent := [] }

/-- Worlds a new wallet can get into. Specification; models no code. -/
def Reachable (e : HEnv) (w : HWorld) : Prop := ∃ now steps, w = exec e (start now) steps

end Verif.Holder
