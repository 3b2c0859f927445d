import Verif.Wire.Asked
/-!
# Asking the verifier for a request, as JSON

/repo/crates/openid/src/verifier.rs 41-109: what a front end sends to have a request made, and what it gets back.
-/
namespace Verif.Wire
open Verifier (CreateRequestRequest CreateRequestResponse DeviceFlow)

/-- The variants of `DeviceFlow`, verifier.rs 70-94. -/
def flowOf : String → Option DeviceFlow
  | "CrossDevice" => some .crossDevice
  | "SameDevice" => some .sameDevice
  | _ => none

/-- Derived name of a `DeviceFlow`, verifier.rs 70-94. -/
def flowName : DeviceFlow → String
  | .crossDevice => "CrossDevice"
  | .sameDevice => "SameDevice"

/-- The members of `CreateRequestRequest`, verifier.rs 45-64. -/
def createRequestNames : List String := ["client_id", "purpose", "input_descriptors", "device_flow", "client_id_scheme"]

/-- Derived reader of `CreateRequestRequest` (`#[serde(default)]`), verifier.rs 43-64. `client_id_scheme` has to be a text, and is dropped: no endpoint reads it. -/
def readCreateRequest (j : Json) : Option CreateRequestRequest := do
  match ← structDefault createRequestNames j with
  | [c, p, ds, f, sc] =>
    let c ← defaulted "" readStr c
    let p ← defaulted "" readStr p
    let ds ← defaulted [] (readVec readDescriptor) ds
    let f ← defaulted .crossDevice (readUnit flowOf) f
    let _ ← defaulted "" readStr sc
    pure { clientId := c, purpose := p, inputDescriptors := ds, deviceFlow := f }
  | _ => none

/-- Derived writer of `CreateRequestRequest`, verifier.rs 43-64, with the `client_id_scheme` that the model drops. -/
def writeCreateRequest (scheme : String) (r : CreateRequestRequest) : Json :=
  .obj (members [("client_id", some (.str r.clientId)), ("purpose", some (.str r.purpose)),
    ("input_descriptors", some (writeVec writeDescriptor r.inputDescriptors)), ("device_flow", some (.str (flowName r.deviceFlow))),
    ("client_id_scheme", some (.str scheme))])

/-- Derived reader of `CreateRequestResponse`, verifier.rs 97-109. -/
def readCreated (j : Json) : Option CreateRequestResponse := do
  match ← structFields ["request_object", "request_uri"] j with
  | [o, u] =>
    let o ← optional readAsk o
    let u ← optional readStr u
    pure { requestObject := o, requestUri := u }
  | _ => none

/-- Derived writer of `CreateRequestResponse`, verifier.rs 97-109. -/
def writeCreated (r : CreateRequestResponse) : Json :=
  .obj (members [("request_object", r.requestObject.map fun o => .obj (writeAsk o)), ("request_uri", r.requestUri.map .str)])

end Verif.Wire
