import Verif.Wire.Detail
import Verif.Core.UrlEncode
/-!
# Authorization requests as text

`AuthorizationRequest`, crates/openid/src/issuer.rs 407-608: its `Display` writes a query string, its `FromStr` reads a query string or JSON.
-/
namespace Verif.Wire

/-- `oauth::ResponseType`, crates/openid/src/oauth.rs 300-315. -/
inductive ResponseType where
  | code
  | vpToken
  | idToken
deriving DecidableEq

/-- The names of the response types, oauth.rs 305, 309, 313. -/
def ResponseType.ofName (s : String) : Option ResponseType :=
  if s = "code" then some .code else if s = "vp_token" then some .vpToken else if s = "id_token vp_token" then some .idToken else none

/-- As `ResponseType.ofName`, writing. oauth.rs 305, 309, 313. -/
def ResponseType.name : ResponseType → String
  | .code => "code"
  | .vpToken => "vp_token"
  | .idToken => "id_token vp_token"

/-- `RequestObject`, issuer.rs 524-608. `oauth::CodeChallengeMethod` (oauth.rs 386-392) has a single value and is left out. -/
structure RequestObject where
  credentialIssuer : String := ""
  responseType : ResponseType := .code
  clientId : String := ""
  redirectUri : Option String := none
  state : Option String := none
  codeChallenge : String := ""
  authorizationDetails : Option (List AuthorizationDetail) := none
  scope : Option String := none
  resource : Option String := none
  subjectId : String := ""
  walletIssuer : Option String := none
  userHint : Option String := none
  issuerState : Option String := none

/-- `AuthorizationRequest`, issuer.rs 408-419. -/
inductive AuthorizationRequest where
  | uri (requestUri : String)
  | object (o : RequestObject)

/-- The only `CodeChallengeMethod`, oauth.rs 387-392. -/
def readMethod : Json → Option Unit := readUnit fun s => if s = "S256" then some () else none

/-- The loop of `visit_map`, issuer.rs 465-511. The arm for other keys does not take the value, so the streaming reader of `serde_json` next finds a colon where it
wants a comma, and fails. -/
def readRequestMembers : List (String × Json) → RequestObject → String → Option AuthorizationRequest
  | [], obj, uri => some (if uri = "" then .object obj else .uri uri)
  | (k, j) :: l, obj, uri =>
    if k = "credential_issuer" then (readStr j).bind fun s => readRequestMembers l { obj with credentialIssuer := s } uri
    else if k = "response_type" then (readUnit ResponseType.ofName j).bind fun t => readRequestMembers l { obj with responseType := t } uri
    else if k = "client_id" then (readStr j).bind fun s => readRequestMembers l { obj with clientId := s } uri
    else if k = "redirect_uri" then (readStr j).bind fun s => readRequestMembers l { obj with redirectUri := some s } uri
    else if k = "state" then (readStr j).bind fun s => readRequestMembers l { obj with state := some s } uri
    else if k = "code_challenge" then (readStr j).bind fun s => readRequestMembers l { obj with codeChallenge := s } uri
    else if k = "code_challenge_method" then (readMethod j).bind fun _ => readRequestMembers l obj uri
    else if k = "authorization_details" then (readVec readDetail j).bind fun d => readRequestMembers l { obj with authorizationDetails := some d } uri
    else if k = "scope" then (readStr j).bind fun s => readRequestMembers l { obj with scope := some s } uri
    else if k = "resource" then (readStr j).bind fun s => readRequestMembers l { obj with resource := some s } uri
    else if k = "subject_id" then (readStr j).bind fun s => readRequestMembers l { obj with subjectId := s } uri
    else if k = "wallet_issuer" then (readStr j).bind fun s => readRequestMembers l { obj with walletIssuer := some s } uri
    else if k = "user_hint" then (readStr j).bind fun s => readRequestMembers l { obj with userHint := some s } uri
    else if k = "issuer_state" then (readStr j).bind fun s => readRequestMembers l { obj with issuerState := some s } uri
    else if k = "request_uri" then (readStr j).bind fun s => readRequestMembers l obj s
    else none

/-- `<AuthorizationRequest as Deserialize>::deserialize`, issuer.rs 448-516. -/
def readRequest : Json → Option AuthorizationRequest
  | .obj m => readRequestMembers m {} ""
  | _ => none

/-- The names of the members of `RequestObject`, issuer.rs 524-608. -/
def objectNames : List String :=
  ["credential_issuer", "response_type", "client_id", "redirect_uri", "state", "code_challenge", "code_challenge_method", "authorization_details", "scope", "resource",
    "subject_id", "wallet_issuer", "user_hint", "issuer_state"]

/-- The members of a struct with defaults for all of them (`#[serde(default)]`): an array may then be shorter. issuer.rs 524-525. -/
def structFieldsDefault (names : List String) : Json → Option (List (Option Json))
  | .obj m => names.mapM (single m)
  | .arr l => if l.length ≤ names.length then some (l.map some ++ List.replicate (names.length - l.length) none) else none
  | _ => none

/-- Derived reader of `RequestObject`, issuer.rs 524-525. -/
def readObject (j : Json) : Option RequestObject :=
  match structFieldsDefault objectNames j with
  | some [ci, rt, cid, ru, st, cc, cm, ad, sc, rs, sid, wi, uh, is] =>
    (defaulted "" readStr ci).bind fun ci => (defaulted .code (readUnit ResponseType.ofName) rt).bind fun rt => (defaulted "" readStr cid).bind fun cid =>
    (optional readStr ru).bind fun ru => (optional readStr st).bind fun st => (defaulted "" readStr cc).bind fun cc => (defaulted () readMethod cm).bind fun _ =>
    (optional (readVec readDetail) ad).bind fun ad => (optional readStr sc).bind fun sc => (optional readStr rs).bind fun rs => (defaulted "" readStr sid).bind fun sid =>
    (optional readStr wi).bind fun wi => (optional readStr uh).bind fun uh => (optional readStr is).bind fun is =>
    some { credentialIssuer := ci, responseType := rt, clientId := cid, redirectUri := ru, state := st, codeChallenge := cc, authorizationDetails := ad, scope := sc,
           resource := rs, subjectId := sid, walletIssuer := wi, userHint := uh, issuerState := is }
  | _ => none

/-- Derived writer of `RequestObject`, issuer.rs 524-608. -/
def writeObject (o : RequestObject) : List (String × Json) :=
  (if o.credentialIssuer = "" then [] else [("credential_issuer", .str o.credentialIssuer)]) ++
  [("response_type", .str o.responseType.name), ("client_id", .str o.clientId)] ++ opt "redirect_uri" .str o.redirectUri ++ opt "state" .str o.state ++
  [("code_challenge", .str o.codeChallenge), ("code_challenge_method", .str "S256")] ++ opt "authorization_details" (writeVec writeDetail) o.authorizationDetails ++
  opt "scope" .str o.scope ++ opt "resource" .str o.resource ++ [("subject_id", .str o.subjectId)] ++ opt "wallet_issuer" .str o.walletIssuer ++
  opt "user_hint" .str o.userHint ++ opt "issuer_state" .str o.issuerState

/-- Derived writer of the untagged `AuthorizationRequest`, issuer.rs 408-419 and 521-529: the members of a struct. -/
def writeRequest : AuthorizationRequest → List (String × Json)
  | .uri u => [("request_uri", .str u)]
  | .object o => writeObject o

mutual

/-- What a value below the top level hands to the serializer. Structs are handed over as maps, which the serializer writes alike there (`ser_strct_nested`);
numbers, which do not occur, are left out. What `serde` hands to /repo/crates/core/src/urlencode/ser.rs. -/
def toS : Json → SVal
  | .null => .unit
  | .bool b => .bool b
  | .num _ => .unit
  | .str s => .str s
  | .arr l => .seq (toSs l)
  | .obj m => .map (toSm m)

/-- As `toS`, of elements. /repo/crates/core/src/urlencode/ser.rs. -/
def toSs : List Json → List SVal
  | [] => []
  | j :: l => toS j :: toSs l

/-- As `toS`, of members. /repo/crates/core/src/urlencode/ser.rs. -/
def toSm : List (String × Json) → List (String × SVal)
  | [] => []
  | (k, j) :: l => (k, toS j) :: toSm l

end

/-- `<AuthorizationRequest as Display>::fmt`, issuer.rs 427-432. -/
def display (r : AuthorizationRequest) : List Char := urlEncode (.strct (toSm (writeRequest r)))

/-- `AuthorizationRequest::from_str`, issuer.rs 434-444. -/
def fromStr (lossy : List UInt8 → List Char) (s : List Char) : Option AuthorizationRequest :=
  if '=' ∈ s ∧ '&' ∈ s then (urlDecode lossy s).bind readRequest
  else ((parseJson s).bind readObject).map .object

end Verif.Wire
