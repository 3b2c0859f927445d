import Verif.Wire.Asked
import Verif.Wire.Credential
import Verif.Holder.Model
/-!
# The messages between a wallet and a verifier

`RequestObjectResponse`, `ResponseRequest` and `ResponseResponse`, /repo/crates/openid/src/verifier.rs 407-562, `PresentationSubmission`,
/repo/crates/dif-exch/src/lib.rs 252-309.
-/
namespace Verif.Wire

/-! ### Request objects that are fetched -/

/-- `RequestObject::default`, verifier.rs 118. -/
def defaultAsk : Verifier.RequestObject where
  responseType := .vpToken
  clientId := ""
  nonce := ""
  presentationDefinition := .string ""
  clientMetadata := { oauth := { clientId := "" } }

/-- The visitor's loop over the members of an object, verifier.rs 480-493: each member replaces what was read before. -/
def readFetchedMembers : Holder.RequestObjectType → List (String × Json) → Option Holder.RequestObjectType
  | acc, [] => some acc
  | _, (k, j) :: l =>
    if k = "request_object" then (readAsk j).bind fun r => readFetchedMembers (.object r) l
    else if k = "jwt" then (readStr j).bind fun t => readFetchedMembers (.jwt t) l
    else none

/-- `Deserialize` of `RequestObjectResponse`, verifier.rs 455-500. -/
def readFetched : Json → Option Holder.RequestObjectType
  | .str t => some (.jwt t)
  | .obj m => readFetchedMembers (.object defaultAsk) m
  | _ => none

/-- `Serialize` of `RequestObjectResponse`, verifier.rs 437-452, with that of the externally tagged `RequestObjectType`, 417-427. -/
def writeFetched : Holder.RequestObjectType → Json
  | .object r => .obj [("request_object", .obj [("request_object", .obj (writeAsk r))])]
  | .jwt t => .str t

/-! ### Answers -/

/-- Derived reader of `PathNested`, lib.rs 301-309. -/
def readNested (j : Json) : Option Dif.PathNested := do
  match ← structFields ["format", "path"] j with
  | [f, p] =>
    let f ← required readStr f
    let p ← required readStr p
    some { format := f, path := p }
  | _ => none

/-- Derived writer of `PathNested`, lib.rs 301-309. -/
def writeNested (n : Dif.PathNested) : Json := .obj (members [("format", some (.str n.format)), ("path", some (.str n.path))])

/-- Derived reader of `DescriptorMap`, lib.rs 274-297. -/
def readMapping (j : Json) : Option Dif.DescriptorMap := do
  match ← structFields ["id", "format", "path", "path_nested"] j with
  | [i, f, p, n] =>
    let i ← required readStr i
    let f ← required readStr f
    let p ← required readStr p
    let n ← required readNested n
    some { id := i, format := f, path := p, pathNested := n }
  | _ => none

/-- Derived writer of `DescriptorMap`, lib.rs 274-297. -/
def writeMapping (d : Dif.DescriptorMap) : Json :=
  .obj (members [("id", some (.str d.id)), ("format", some (.str d.format)), ("path", some (.str d.path)), ("path_nested", some (writeNested d.pathNested))])

/-- Derived reader of `PresentationSubmission`, lib.rs 251-262. -/
def readSubmission (j : Json) : Option Dif.PresentationSubmission := do
  match ← structFields ["id", "definition_id", "descriptor_map"] j with
  | [i, d, m] =>
    let i ← required readStr i
    let d ← required readStr d
    let m ← required (readVec readMapping) m
    some { id := i, definitionId := d, descriptorMap := m }
  | _ => none

/-- Derived writer of `PresentationSubmission`, lib.rs 251-262. -/
def writeSubmission (s : Dif.PresentationSubmission) : Json :=
  .obj (members [("id", some (.str s.id)), ("definition_id", some (.str s.definitionId)), ("descriptor_map", some (writeVec writeMapping s.descriptorMap))])

/-- `ResponseRequest`, verifier.rs 506-530, with all members of presentations (`α` is `Wire.Vp`). -/
structure Answer (α : Type) where
  vpToken : Option (List (Kind α))
  submission : Option Dif.PresentationSubmission
  state : Option String

/-- Derived reader of `ResponseRequest`, verifier.rs 505-530. -/
def readAnswer {α : Type} (r : Json → Option α) (j : Json) : Option (Answer α) := do
  match ← structFields ["vp_token", "presentation_submission", "state"] j with
  | [v, p, s] =>
    let v ← optional (readVec (readKind r)) v
    let p ← optional readSubmission p
    let s ← optional readStr s
    some { vpToken := v, submission := p, state := s }
  | _ => none

/-- Derived writer of `ResponseRequest`, verifier.rs 505-530. -/
def writeAnswer {α : Type} (w : α → Json) (a : Answer α) : Json :=
  .obj (members [("vp_token", a.vpToken.map (writeVec (writeKind w))), ("presentation_submission", a.submission.map writeSubmission), ("state", a.state.map .str)])

/-- Derived reader of `ResponseResponse`, verifier.rs 534-562. -/
def readRedirect (j : Json) : Option Verifier.ResponseResponse := do
  match ← structFields ["redirect_uri", "response_code"] j with
  | [u, c] =>
    let u ← optional readStr u
    let c ← optional readStr c
    some { redirectUri := u, responseCode := c }
  | _ => none

/-- Derived writer of `ResponseResponse`, verifier.rs 534-562: what is missing is written as `null`. -/
def writeRedirect (r : Verifier.ResponseResponse) : Json :=
  .obj (members [("redirect_uri", some (nullable .str r.redirectUri)), ("response_code", some (nullable .str r.responseCode))])

end Verif.Wire
