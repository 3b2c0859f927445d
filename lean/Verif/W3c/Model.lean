import Verif.Base
import Verif.Core.Data
/-!
# W3C data model: credentials, presentations, builders, language strings
-/
namespace Verif

/-- `Direction`, /repo/crates/w3c-vc/src/model/types.rs 128-136. -/
inductive Direction where
  | ltr
  | rtl
  deriving DecidableEq, Repr

/-- `LangValue`, types.rs 108-124. -/
structure LangValue where
  value : String
  language : Option String := none
  direction : Option Direction := none
  deriving DecidableEq, Repr

/-- `LangString`, types.rs 17. -/
abbrev LangString := Kind (Quota LangValue)

namespace LangString

/-- `LangString::new_string`, types.rs 22-24. -/
def newString (v : String) : LangString := .string v

/-- `LangString::new_object`, types.rs 28-30. -/
def newObject (v : LangValue) : LangString := .object (.one v)

/-- `LangString::add`, types.rs 33-48. -/
def add : LangString → LangValue → LangString
  | .string s, v => .object (.many [{ value := s }, v])
  | .object q, v => .object (q.add v)

/-- `LangString::len`, types.rs 52-57. -/
def len : LangString → Nat
  | .string _ => 1
  | .object q => q.len

/-- `LangString::is_empty`, types.rs 61-63. -/
def isEmpty (s : LangString) : Bool := s.len == 0

/-- `LangString::value`, types.rs 74-95 (`none` is the "Language tag not found" error). -/
def value : LangString → String → Option String
  | .string s, _ => some s
  | .object (.one v), lang => if v.language = some lang then some v.value else none
  | .object (.many l), lang => (l.find? fun v => v.language = some lang).map LangValue.value

end LangString

/-- `CredentialSubject`, /repo/crates/w3c-vc/src/model/vc.rs 182-191. -/
structure CredentialSubject where
  id : Option String := none
  claims : Dict Json := []

/-- `subj == CredentialSubject::default()` (vc.rs 501, 563; the default is no id and no claims). -/
def CredentialSubject.isDefault (s : CredentialSubject) : Bool := s.id.isNone && s.claims.isEmpty

/-- Issuer object, vc.rs 165-175. Simplification: `extra` members dropped. -/
structure IssuerObj where
  id : String
  deriving DecidableEq, Repr

/-- `StatusPurpose`, vc.rs 266-275. -/
inductive StatusPurpose where
  | revocation
  | suspension
  | message
  deriving DecidableEq, Repr

/-- `CredentialStatus` with its only type `Bitstring`, vc.rs 197-260. Simplification: status messages and reference
dropped. -/
structure CredentialStatus where
  id : Option String
  purpose : StatusPurpose
  listIndex : Nat
  listCredential : String
  size : Option Nat
  deriving DecidableEq, Repr

/-- Data integrity proof, /repo/crates/w3c-vc/src/proof/integrity.rs 66-137. Simplification: only the members the
library reads or a verifier would need. -/
structure IntegrityProof where
  type_ : String
  verificationMethod : String
  challenge : Option String
  proofValue : String
  deriving DecidableEq, Repr

/-- `VerifiableCredential`, vc.rs 29-133. Simplification: schema, related resource, refresh service, terms of use and
evidence dropped (no modelled code reads them). Times are nanoseconds. -/
structure Vc where
  context : List (Kind Json) := []
  id : Option String := none
  type_ : Quota String := .one ""
  name : Option LangString := none
  description : Option LangString := none
  issuer : Kind IssuerObj := .string ""
  subject : Quota CredentialSubject := .one {}
  validFrom : Option Int := none
  validUntil : Option Int := none
  status : Option (Quota CredentialStatus) := none
  proof : Option (Quota IntegrityProof) := none

/-- Base context of credentials and presentations (vc.rs 448, vp.rs 107). -/
def baseContext : Kind Json := .string "https://www.w3.org/2018/credentials/v1"

namespace Vc

/-- `VcBuilder::new`, vc.rs 442-452. -/
def builder : Vc := { context := [baseContext], type_ := .one "VerifiableCredential" }

/-- `VcBuilder::add_context`, vc.rs 456-459. -/
def addContext (vc : Vc) (c : Kind Json) : Vc := { vc with context := vc.context ++ [c] }

/-- `VcBuilder::id`, vc.rs 463-466. -/
def setId (vc : Vc) (i : String) : Vc := { vc with id := some i }

/-- `VcBuilder::add_type`, vc.rs 470-473. -/
def addType (vc : Vc) (t : String) : Vc := { vc with type_ := vc.type_.add t }

/-- `VcBuilder::add_name`, vc.rs 477-480. -/
def addName (vc : Vc) (n : Option LangString) : Vc := { vc with name := n }

/-- `VcBuilder::add_description`, vc.rs 484-487. -/
def addDescription (vc : Vc) (d : Option LangString) : Vc := { vc with description := d }

/-- `VcBuilder::issuer`, vc.rs 491-494. -/
def setIssuer (vc : Vc) (i : String) : Vc := { vc with issuer := .string i }

/-- `VcBuilder::add_subject`, vc.rs 498-515. -/
def addSubject (vc : Vc) (s : CredentialSubject) : Vc :=
  match vc.subject with
  | .one o => if o.isDefault then { vc with subject := .one s } else { vc with subject := .many [o, s] }
  | .many l => { vc with subject := .many (l ++ [s]) }

/-- `VcBuilder::add_proof`, vc.rs 519-531. -/
def addProof (vc : Vc) (p : IntegrityProof) : Vc :=
  match vc.proof with
  | none => { vc with proof := some (.one p) }
  | some (.one o) => { vc with proof := some (.many [o, p]) }
  | some (.many l) => { vc with proof := some (.many (l ++ [p])) }

/-- `VcBuilder::status`, vc.rs 535-538. -/
def setStatus (vc : Vc) (s : Option (Quota CredentialStatus)) : Vc := { vc with status := s }

/-- `VcBuilder::build`, vc.rs 546-569. -/
def build (vc : Vc) : Except String Vc :=
  if vc.context.length < 2 then .error "no context set"
  else if vc.type_.len < 2 then .error "no type set"
  else if (match vc.issuer with | .string i => i == "" | .object _ => false) then .error "no issuer.id set"
  else if (match vc.subject with | .one s => s.isDefault | .many _ => false) then .error "no credential_subject set"
  else .ok vc

end Vc

/-- `VerifiablePresentation`, /repo/crates/w3c-vc/src/model/vp.rs 26-63. The credentials are strings (JWTs) or objects. -/
structure Vp where
  context : List (Kind Json) := []
  id : Option String := none
  type_ : Quota String := .one ""
  credentials : Option (List (Kind Vc)) := none
  holder : Option String := none
  proof : Option (Quota IntegrityProof) := none

namespace Vp

/-- `VpBuilder::new`, vp.rs 102-110. The random UUID is a parameter. -/
def builder (uuid : String) : Vp :=
  { id := some ("urn:uuid:" ++ uuid), context := [baseContext], type_ := .one "VerifiablePresentation" }

/-- `VpBuilder::add_context`, vp.rs 114-117. -/
def addContext (vp : Vp) (c : Kind Json) : Vp := { vp with context := vp.context ++ [c] }

/-- `VpBuilder::add_type`, vp.rs 121-130. -/
def addType (vp : Vp) (t : String) : Vp :=
  match vp.type_ with
  | .one o => { vp with type_ := .many [o, t] }
  | .many l => { vp with type_ := .many (l ++ [t]) }

/-- `VpBuilder::add_credential`, vp.rs 134-141. -/
def addCredential (vp : Vp) (c : Kind Vc) : Vp :=
  match vp.credentials with
  | some l => { vp with credentials := some (l ++ [c]) }
  | none => { vp with credentials := some [c] }

/-- `VpBuilder::holder`, vp.rs 145-148. -/
def setHolder (vp : Vp) (h : String) : Vp := { vp with holder := some h }

/-- `VpBuilder::build`, vp.rs 155-164. -/
def build (vp : Vp) : Except String Vp :=
  if vp.context.length < 2 then .error "context is required"
  else match vp.type_ with
    | .one _ => .error "type is required"
    | .many _ => .ok vp

end Vp

end Verif
