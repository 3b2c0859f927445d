import Verif.Core.Errors
/-!
# Errors of status checks as JSON

/repo/crates/status/src/bitstring.rs 41-118.
-/
namespace Verif.Status

/-- The variants of `Error`, bitstring.rs 48-65. -/
inductive StatusCode
  | retrieval | verification | listLength | range
  deriving DecidableEq, Repr

/-- `Error`, bitstring.rs 48-65. -/
structure StatusError where
  code : StatusCode
  detail : String
  deriving DecidableEq, Repr

/-- The number in the format strings of bitstring.rs 50, 54, 59 and 63, which is also the end of the type. -/
def StatusCode.number : StatusCode → List Char
  | .retrieval => "-128".toList
  | .verification => "-129".toList
  | .listLength => "-130".toList
  | .range => "-67".toList

/-- The title in the format strings of bitstring.rs 50, 54, 59 and 63. -/
def StatusCode.title : StatusCode → List Char
  | .retrieval => "status retrieval error".toList
  | .verification => "status verification error".toList
  | .listLength => "status list length error".toList
  | .range => "range error".toList

/-- What the types of the errors start with, bitstring.rs 50, 54, 59 and 63. -/
def typePrefix : List Char := "https://www.w3.org/ns/credentials/status-list#".toList

/-- `Display` (the `#[error(..)]` format strings of bitstring.rs 50, 54, 59 and 63): the detail is copied in unescaped. -/
def StatusError.display (e : StatusError) : List Char :=
  "{\"type\": \"".toList ++ typePrefix ++ e.code.number ++ "\", \"code\": ".toList ++ e.code.number ++ ", \"title\": \"".toList ++ e.code.title ++
    "\", \"detail\": \"".toList ++ e.detail.toList ++ "\"}".toList

/-- `to_json`, bitstring.rs 81-83: `Null` if the text is not JSON. -/
def StatusError.toJson (e : StatusError) : Json := (parseJson e.display).getD .null

/-- `ValidationError`, bitstring.rs 90-118. -/
structure ValidationError where
  type_ : String
  code : String
  title : Option String
  detail : Option String
  deriving DecidableEq, Repr

/-- Derived `Deserialize` of an `i32` field. Simplification: the range of `i32` is not checked, the number is kept as text. /repo/crates/status/src/bitstring.rs 103. -/
def reqNum (ms : List (String × Json)) (k : String) : Option String :=
  match ms.filter (·.1 == k) with
  | [(_, .num s)] => some s
  | _ => none

/-- `serde_json::from_str::<ValidationError>`, bitstring.rs 71. -/
def ValidationError.ofText (l : List Char) : Option ValidationError := do
  match parseJson l with
  | some (.obj ms) =>
    let type_ ← reqString ms "type"
    let code ← reqNum ms "code"
    let title ← optString ms "title"
    let detail ← optString ms "detail"
    some { type_, code, title, detail }
  | _ => none

/-- `Serialize for Error`, bitstring.rs 67-76: what is handed to the serializer, or failure. -/
def StatusError.fields (e : StatusError) : Option ValidationError := ValidationError.ofText e.display

end Verif.Status
