import Verif.Wire.Message
/-!
# The request macros

`create_offer_request!`, `authorization_request!`, `token_request!` and `credential_request!`, /repo/crates/macros/src. A macro is given JSON-like text in which
Rust expressions may stand for values, and expands to an expression that builds a request. Here a macro is a function from the text, parsed into a tree, to the
request built; `none` means that the program does not compile, whether the macro reports an error, the macro panics, or the compiler refuses the code it
made. The splitting of Rust source into tokens is left out.
-/
namespace Verif.Wire.Macro

/-- A Rust expression in place of a value, parse.rs 137-144: what matters of it is its type and its value. Texts are `String`s or `&str`s. Simplification:
expressions of further types that happen to fit (say a `Vec<String>`) are left out. -/
inductive Rust where
  | text (owned : Bool) (s : String)
  | send (k : Issuer.SendType)
  | other

/-- `Value`, parse.rs 53-64, with the members of objects as they are given. `Null` is never parsed: `null` is an identifier. -/
inductive Value where
  | bool (b : Bool)
  | number (n : Int)
  | str (s : String)
  | arr (l : List Value)
  | obj (m : List (String × Value))
  | rust (e : Rust)

/-- The members given to a macro, and of an object in it. parse.rs 53-83. -/
abbrev Fields := List (String × Value)

/-- What is found under a key, parse.rs 79-83, 122-125 and 17-19: every member given is inserted into a map, so the last one of a name counts. -/
def get (m : Fields) (k : String) : Option Value := (m.reverse.find? fun p => p.1 = k).map (·.2)

/-- `check_consumed`, parse.rs 37-44, if these are the members that were taken. -/
def consumed (names : List String) (m : Fields) : Bool := m.all fun p => names.contains p.1

/-- `Into::into(#v)` or `#v.into()` where a `String` is wanted, and the tokens of `v`, parse.rs 27, 34 and 159-190. -/
def Value.into : Value → Option String
  | .str s => some s
  | .rust (.text _ s) => some s
  | _ => none

/-- `#v` where a `String` is wanted: the tokens of `v` as they are, parse.rs 159-190. -/
def Value.string : Value → Option String
  | .str s => some s
  | .rust (.text true s) => some s
  | _ => none

/-- `#v` where a `Vec<String>` is wanted, parse.rs 168-175. -/
def Value.strings : Value → Option (List String)
  | .arr l => l.mapM Value.string
  | _ => none

/-- `Json::expect` where a `String` is wanted, parse.rs 22-28. -/
def expect (m : Fields) (k : String) : Option String := (get m k).bind Value.into

/-- `Json::option` where an `Option<String>` is wanted, parse.rs 31-36. -/
def option (m : Fields) (k : String) : Option (Option String) :=
  match get m k with
  | none => some none
  | some v => v.into.map some

/-! ### Authorization details -/

mutual

/-- `claims`, authorization.rs 222-239. -/
def claims : List (String × Value) → List (String × Claim)
  | [] => []
  | (k, v) :: l => if l.any (fun p => p.1 = k) then claims l else (k, claim v) :: claims l

/-- One member of `claims`, authorization.rs 225-233: an object with members is a set, anything else a claim. -/
def claim : Value → Claim
  | .obj (p :: m) => .set (claims (p :: m))
  | _ => .entry {}

end

/-- `subject`, authorization.rs 203-220. -/
def subject (d : Fields) : Option (Option (List (String × Claim))) :=
  match get d "credentialSubject" with
  | none => some none
  | some (.obj c) => some (some (claims c))
  | some _ => none

/-- `Some(#type_array)` or `None`, authorization.rs 161-163. -/
def types (d : Fields) : Option (Option (List String)) :=
  match get d "type" with
  | none => some none
  | some v => v.strings.map some

/-- `configuration_definition`, authorization.rs 144-173. -/
def configurationDefinition : Value → Option CredentialDefinition
  | .obj d => do
    let t ← types d
    let s ← subject d
    some { type_ := t, credentialSubject := s }
  | _ => none

/-- `format_definition`, authorization.rs 175-201. -/
def formatDefinition : Value → Option CredentialDefinition
  | .obj d => do
    let v ← get d "type"
    let t ← v.strings
    let s ← subject d
    some { type_ := some t, credentialSubject := s }
  | _ => none

/-- `format.as_str()` compared with the only format there is, authorization.rs 125-133. -/
def plainJwt : Value → Bool
  | .str s => s = "jwt_vc_json"
  | _ => false

/-- `credential_authorization`, authorization.rs 100-142. -/
def credentialAuthorization (d : Fields) : Option CredentialAuthorization :=
  match get d "credential_configuration_id" with
  | some v => do
    let id ← v.string
    match get d "credential_definition" with
    | none => some (.configurationId id none)
    | some c => (configurationDefinition c).map fun c => .configurationId id (some (.w3c c))
  | none =>
    match get d "format", get d "credential_definition" with
    | some f, some c => if plainJwt f then (formatDefinition c).map fun c => .format (.jwtVcJson c) else none
    | _, _ => none

/-- The check of the type, authorization.rs 74-83: only a literal is looked at. -/
def typed (d : Fields) : Bool :=
  match get d "type" with
  | none => false
  | some (.str t) => t = "openid_credential"
  | some _ => true

/-- One round of the loop over details, authorization.rs 68-95 and token.rs 98-125; `f` reads what identifies the credential. -/
def detail (f : Fields → Option CredentialAuthorization) : Value → Option AuthorizationDetail
  | .obj d => if typed d then (f d).map fun c => { credential := c } else none
  | _ => none

/-- `authorization_details`, authorization.rs 58-98 and token.rs 88-128. The expressions for the details are put one after the other without commas between them, so
that the compiler refuses more than one. -/
def details (f : Fields → Option CredentialAuthorization) : Value → Option (List AuthorizationDetail)
  | .arr l => if l.length ≤ 1 then l.mapM (detail f) else none
  | _ => none

/-- `authorization_details` if there is such a member, authorization.rs 30-35 and token.rs 35-40. -/
def optDetails (f : Fields → Option CredentialAuthorization) (m : Fields) : Option (Option (List AuthorizationDetail)) :=
  match get m "authorization_details" with
  | none => some none
  | some v => (details f v).map some

/-! ### `authorization_request!` -/

/-- `From<String>` and `From<&str>` of `ResponseType`, /repo/crates/openid/src/oauth.rs 317-333: any other name is taken for `code`. -/
def responseFrom (s : String) : ResponseType := if s = "code" then .code else .code

/-- `authorization::request`, authorization.rs 9-56. `From<String>` of `CodeChallengeMethod`, oauth.rs 394-410, takes any text for the only method. -/
def authorizationRequest (m : Fields) : Option RequestObject := do
  let ci ← expect m "credential_issuer"
  let rt ← expect m "response_type"
  let cid ← expect m "client_id"
  let cc ← expect m "code_challenge"
  let _ ← expect m "code_challenge_method"
  let sid ← expect m "subject_id"
  let ru ← option m "redirect_uri"
  let st ← option m "state"
  let sc ← option m "scope"
  let rs ← option m "resource"
  let wi ← option m "wallet_issuer"
  let uh ← option m "user_hint"
  let is ← option m "issuer_state"
  let ad ← optDetails credentialAuthorization m
  if consumed objectNames m then
    some { credentialIssuer := ci, responseType := responseFrom rt, clientId := cid, redirectUri := ru, state := st, codeChallenge := cc, authorizationDetails := ad, scope := sc,
           resource := rs, subjectId := sid, walletIssuer := wi, userHint := uh, issuerState := is }
  else none

/-! ### `token_request!` -/

/-- `subject`, token.rs 226-248. The path `ClaimDefinition::Claim` names nothing, so that the compiler refuses a subject with claims. -/
def tokenSubject (d : Fields) : Option (Option (List (String × Claim))) :=
  match get d "credentialSubject" with
  | none => some none
  | some (.obj []) => some (some [])
  | some _ => none

/-- `format_definition`, token.rs 196-224. -/
def tokenDefinition : Value → Option CredentialDefinition
  | .obj d => do
    let v ← get d "type"
    let t ← v.strings
    let s ← tokenSubject d
    some { type_ := some t, credentialSubject := s }
  | _ => none

/-- `credential_configuration`, token.rs 130-171. With a definition beside the configuration id, a `ProfileW3c` is put where a `ProfileClaims` is wanted, and the
compiler refuses. -/
def tokenCredential (d : Fields) : Option CredentialAuthorization :=
  match get d "credential_configuration_id" with
  | some v =>
    match get d "credential_definition" with
    | none => v.string.map fun id => .configurationId id none
    | some _ => none
  | none =>
    match get d "format", get d "credential_definition" with
    | some f, some c => if plainJwt f then (tokenDefinition c).map fun c => .format (.jwtVcJson c) else none
    | _, _ => none

/-- `as_str`, parse.rs 196-201. -/
def Value.literal : Value → Option String
  | .str s => some s
  | _ => none

/-- `token::request`, token.rs 9-86. -/
def tokenRequest (m : Fields) : Option TokenRequest := do
  let ci ← expect m "credential_issuer"
  let cid ← option m "client_id"
  let gt ← get m "grant_type"
  let gt ← gt.literal
  let ad ← optDetails tokenCredential m
  if gt = "urn:ietf:params:oauth:grant-type:pre-authorized_code" then do
    let c ← expect m "pre-authorized_code"
    let t ← option m "tx_code"
    if consumed ["credential_issuer", "client_id", "grant_type", "authorization_details", "pre-authorized_code", "tx_code"] m then
      some { credentialIssuer := ci, clientId := cid, grantType := .preAuthorizedCode c t, authorizationDetails := ad }
    else none
  else if gt = "authorization_code" then do
    let c ← expect m "code"
    let u ← option m "redirect_uri"
    let v ← expect m "code_verifier"
    if consumed ["credential_issuer", "client_id", "grant_type", "authorization_details", "code", "redirect_uri", "code_verifier"] m then
      some { credentialIssuer := ci, clientId := cid, grantType := .authorizationCode c u (some v), authorizationDetails := ad }
    else none
  else none

/-! ### `credential_request!` -/

/-- `format_definition`, credential.rs 65-90: nothing but the type is taken. -/
def issuanceDefinition : Value → Option (List String)
  | .obj d => (get d "type").bind Value.strings
  | _ => none

/-- `credential_issuance`, credential.rs 34-63, with the names of the members taken. -/
def issuance (m : Fields) : Option (Issuer.CredentialIssuance × List String) :=
  match get m "credential_identifier" with
  | some v => v.into.map fun id => (.identifier id, ["credential_identifier"])
  | none =>
    match get m "format", get m "credential_definition" with
    | some f, some c => if plainJwt f then (issuanceDefinition c).map fun t => (.format (.jwtVcJson { type_ := some t }), ["format", "credential_definition"]) else none
    | _, _ => none

/-- `proof`, credential.rs 92-124. -/
def proof (m : Fields) : Option (Option Issuer.Proof) :=
  match get m "proof" with
  | none => some none
  | some (.obj p) =>
    match get p "proof_type", get p "jwt" with
    | some (.str "jwt"), some j => j.into.map fun j => some (.single j)
    | _, _ => none
  | some _ => none

/-- `credential::request`, credential.rs 9-32. No value there is can be turned into a `CredentialResponseEncryption`. -/
def credentialRequest (m : Fields) : Option Issuer.CredentialRequest := do
  let ci ← expect m "credential_issuer"
  let at_ ← expect m "access_token"
  let (c, names) ← issuance m
  let p ← proof m
  match get m "credential_response_encryption" with
  | some _ => none
  | none =>
    if consumed (["credential_issuer", "access_token", "proof"] ++ names) m then some { credentialIssuer := ci, accessToken := at_, credential := c, proof := p } else none

/-! ### `create_offer_request!` -/

/-- `grant_types`, create_offer.rs 52-78: literals only. The variants are put one after the other without commas between them, so that the compiler refuses more than one. -/
def grantTypes (m : Fields) : Option (Option (List GrantType)) :=
  match get m "grant_types" with
  | none => some none
  | some (.arr l) => if l.length ≤ 1 then (l.mapM fun v : Value => v.literal.bind grantOf).map some else none
  | some _ => none

/-- `tx_code_required`, create_offer.rs 31. -/
def txCodeRequired (m : Fields) : Option Bool :=
  match get m "tx_code_required" with
  | none => some false
  | some (.bool b) => some b
  | some _ => none

/-- `send_type`, create_offer.rs 32-33, and `From<String>` of `SendType`, /repo/crates/openid/src/issuer.rs 143-150, which does not take `&str`. -/
def sendType (m : Fields) : Option Issuer.SendType :=
  match get m "send_type" with
  | none => some .byVal
  | some (.rust (.send k)) => some k
  | some v => v.string.map fun s => if s = "by_ref" then .byRef else .byVal

/-- `create_offer::request`, create_offer.rs 9-50. -/
def createOfferRequest (m : Fields) : Option Issuer.CreateOfferRequest := do
  let ci ← expect m "credential_issuer"
  let s ← option m "subject_id"
  let ids ← get m "credential_configuration_ids"
  let ids ← ids.strings
  let g ← grantTypes m
  let t ← txCodeRequired m
  let k ← sendType m
  if ids ≠ [] ∧ consumed ["credential_issuer", "subject_id", "credential_configuration_ids", "grant_types", "tx_code_required", "send_type"] m then
    some { credentialIssuer := ci, subjectId := s, configIds := ids, grantTypes := g, txCodeRequired := t, sendType := k }
  else none

end Verif.Wire.Macro
