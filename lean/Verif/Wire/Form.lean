import Verif.Wire.Message
import Verif.Wire.Answer
import Verif.Wire.Request
import Verif.Core.Percent
/-!
# Requests sent as forms

The example wallet sends token requests and presentations as forms, with `RequestBuilder::form` of the crate `reqwest`
(/repo/examples/wallet/src-tauri/src/provider/issuer_client.rs 53-66, verifier_client.rs 25-41); the example issuer and the example verifier take them with
`axum::Form` (/repo/examples/issuer/src/main.rs 135-138, 197-200, 317-324, /repo/examples/verifier/src/main.rs 77-83). Both rest on the crate
`serde_urlencoded`, and this on `form_urlencoded`, which are modelled here from their documentation: a form is a list of names with texts, and nothing
else fits in. Headers are left out.
-/
namespace Verif.Wire

/-- Bytes that stand for themselves, `form_urlencoded::byte_serialize`: digits, letters and `* - . _`.
Used by /repo/examples/wallet/src-tauri/src/provider/issuer_client.rs 61 (`form`) and /repo/examples/issuer/src/main.rs 320 (`Form`). -/
def formKeep (b : UInt8) : Bool :=
  (48 ≤ b && b ≤ 57) || (65 ≤ b && b ≤ 90) || (97 ≤ b && b ≤ 122) || b == 42 || b == 45 || b == 46 || b == 95

/-- One byte, `form_urlencoded::byte_serialize`: a space becomes `+`.
Used by /repo/examples/wallet/src-tauri/src/provider/issuer_client.rs 61 (`form`) and /repo/examples/issuer/src/main.rs 320 (`Form`). -/
def formByte (b : UInt8) : List UInt8 :=
  if formKeep b then [b] else if b = 32 then [43] else [37, hexUpper (b.toNat / 16), hexUpper (b.toNat % 16)]

/-- A name or a text. Used by /repo/examples/wallet/src-tauri/src/provider/issuer_client.rs 61 (`form`) and /repo/examples/issuer/src/main.rs 320 (`Form`). -/
def formBytes (s : String) : List UInt8 := (utf8 s.toList).flatMap formByte

/-- `name=text`. Used by /repo/examples/wallet/src-tauri/src/provider/issuer_client.rs 61 (`form`) and /repo/examples/issuer/src/main.rs 320 (`Form`). -/
def formPair (p : String × String) : List UInt8 := formBytes p.1 ++ 61 :: formBytes p.2

/-- The pairs of a form, with `&` between them.
Used by /repo/examples/wallet/src-tauri/src/provider/issuer_client.rs 61 (`form`) and /repo/examples/issuer/src/main.rs 320 (`Form`). -/
def formPairs : List (String × String) → List UInt8
  | [] => []
  | [p] => formPair p
  | p :: l => formPair p ++ 38 :: formPairs l

/-- What `serde_urlencoded` makes of the value of a member: nothing is sent of `None`; there is an error for whatever has parts.
Used by /repo/examples/wallet/src-tauri/src/provider/issuer_client.rs 61 (`form`) and /repo/examples/issuer/src/main.rs 320 (`Form`). -/
def formValue : Json → Option (Option String)
  | .null => some none
  | .bool b => some (some (if b then "true" else "false"))
  | .num t => some (some t)
  | .str s => some (some s)
  | .arr _ => none
  | .obj _ => none

/-- The members of a struct as pairs, `serde_urlencoded::to_string`.
Used by /repo/examples/wallet/src-tauri/src/provider/issuer_client.rs 61 (`form`) and /repo/examples/issuer/src/main.rs 320 (`Form`). -/
def formMembers : List (String × Json) → Option (List (String × String))
  | [] => some []
  | (k, j) :: l => do
    let v ← formValue j
    let l ← formMembers l
    some ((v.map fun v => (k, v)).toList ++ l)

/-- What the wallet sends as the body of a request, if it sends anything.
Used by /repo/examples/wallet/src-tauri/src/provider/issuer_client.rs 61 (`form`) and /repo/examples/issuer/src/main.rs 320 (`Form`). -/
def writeForm : Json → Option (List UInt8)
  | .obj m => (formMembers m).map formPairs
  | _ => none

/-- Cutting at each `&`.
Used by /repo/examples/wallet/src-tauri/src/provider/issuer_client.rs 61 (`form`) and /repo/examples/issuer/src/main.rs 320 (`Form`). -/
def cutAll : List UInt8 → List UInt8 → List (List UInt8)
  | [], acc => [acc]
  | b :: l, acc => if b = 38 then acc :: cutAll l [] else cutAll l (acc ++ [b])

/-- Cutting at the first `=`.
Used by /repo/examples/wallet/src-tauri/src/provider/issuer_client.rs 61 (`form`) and /repo/examples/issuer/src/main.rs 320 (`Form`). -/
def cutFirst : List UInt8 → List UInt8 × List UInt8
  | [] => ([], [])
  | b :: l => if b = 61 then ([], l) else (b :: (cutFirst l).1, (cutFirst l).2)

/-- `form_urlencoded::decode`: `+` is a space, then percent-decoding; what replaces ill-formed UTF-8 is left to `lossy`.
Used by /repo/examples/wallet/src-tauri/src/provider/issuer_client.rs 61 (`form`) and /repo/examples/issuer/src/main.rs 320 (`Form`). -/
def formText (lossy : List UInt8 → List Char) (bs : List UInt8) : String :=
  let d := decodeBytes (bs.map fun b => if b = 43 then 32 else b)
  String.ofList ((utf8? d).getD (lossy d))

/-- `form_urlencoded::parse`.
Used by /repo/examples/wallet/src-tauri/src/provider/issuer_client.rs 61 (`form`) and /repo/examples/issuer/src/main.rs 320 (`Form`). -/
def parseForm (lossy : List UInt8 → List Char) (bs : List UInt8) : List (String × String) :=
  ((cutAll bs []).filter (· ≠ [])).map fun p => (formText lossy (cutFirst p).1, formText lossy (cutFirst p).2)

/-- The pairs of a form as members, each of them a text.
Used by /repo/examples/wallet/src-tauri/src/provider/issuer_client.rs 61 (`form`) and /repo/examples/issuer/src/main.rs 320 (`Form`). -/
def formJson (l : List (String × String)) : Json := .obj (l.map fun p => (p.1, .str p.2))

/-- `serde_urlencoded::from_bytes`, for structs that have texts, names of variants, and whatever does not fit in a form for members.
Used by /repo/examples/wallet/src-tauri/src/provider/issuer_client.rs 61 (`form`) and /repo/examples/issuer/src/main.rs 320 (`Form`). -/
def readForm {α : Type} (lossy : List UInt8 → List Char) (r : Json → Option α) (bs : List UInt8) : Option α := r (formJson (parseForm lossy bs))

/-- The names that `<AuthorizationRequest as Deserialize>::deserialize` knows, /repo/crates/openid/src/issuer.rs 465-503. -/
def requestNames : List String := "request_uri" :: objectNames

/-- `<AuthorizationRequest as Deserialize>::deserialize` of a form, issuer.rs 448-516. The arm for other names (505) does not take the value; here, unlike in
JSON, it is passed over. -/
def readRequestForm (lossy : List UInt8 → List Char) (bs : List UInt8) : Option AuthorizationRequest :=
  readRequest (formJson ((parseForm lossy bs).filter fun p => requestNames.contains p.1))

end Verif.Wire
