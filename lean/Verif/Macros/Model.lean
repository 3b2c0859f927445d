import Verif.Wire.Request
import Verif.Wire.Message
/-!
# The macros that make requests out of JSON-like text

Models /repo/crates/macros/src. A macro call is a tree of `Value`s, and gives either a request or nothing. Nothing stands for a call that does not compile:
the macro answers with an error, it panics, or the Rust text it makes is not well formed or not well typed. What comes before the tree (tokens, literals,
trailing commas; /repo/crates/macros/src/parse.rs 65-150, by `syn`) is not modelled.
-/
namespace Verif.Macros
open Verif

/-- `Value`, /repo/crates/macros/src/parse.rs 53-63. Objects keep what was written, in order. `expr` is an identifier, path or call, of which only the result matters. `null` is an
identifier like any other (/repo/crates/macros/src/parse.rs 138-140), and `&` is skipped (141-144). -/
inductive Value where
  | bool (b : Bool)
  | num (n : Int)
  | str (s : String)
  | arr (l : List Value)
  | obj (m : List (String × Value))
  | expr (e : String)

/-- The members of an object, as written. /repo/crates/macros/src/parse.rs 47-50 and 90-101. -/
abbrev Fields := List (String × Value)

/-- What a Rust expression in a macro call evaluates to: a `String`, a `&str`, a `bool`, a `Vec<String>`, a value of a type of the message, or something
else. Rust itself; the types are those of /repo/crates/openid/src/issuer.rs and oauth.rs. -/
inductive Rust where
  | owned (s : String)
  | borrowed (s : String)
  | flag (b : Bool)
  | texts (l : List String)
  | sendType (t : Issuer.SendType)
  | responseType (r : Wire.ResponseType)
  | challengeMethod
  | encryption (e : String)
  | other

/-- `fields.get` and `fields.remove`, /repo/crates/macros/src/parse.rs 16-18 and 21-34. The map was filled in the order of writing (/repo/crates/macros/src/parse.rs 80-83, 121-124), so the last one counts. -/
def get (k : String) : Fields → Option Value
  | [] => none
  | (k', v) :: m => match get k m with
    | some w => some w
    | none => if k' = k then some v else none

/-- `Json::check_consumed`, /repo/crates/macros/src/parse.rs 38-44: every member has a name that was asked for. -/
def consumed (keys : List String) (m : Fields) : Option Unit := if m.all (fun x => keys.contains x.1) then some () else none

/-- A value where a `String` is wanted and `into` is called, /repo/crates/macros/src/parse.rs 25 and 32 with 159 and 161-162. Simplification: of the other types that Rust turns
into a `String` (`char`, `Box<str>`, `Cow<str>`) none is considered. -/
def intoString (env : String → Rust) : Value → Option String
  | .str s => some s
  | .expr e => match env e with
    | .owned s => some s
    | .borrowed s => some s
    | _ => none
  | _ => none

/-- A value where a `String` is wanted and nothing is called, /repo/crates/macros/src/parse.rs 159 and 161-162. -/
def string (env : String → Rust) : Value → Option String
  | .str s => some s
  | .expr e => match env e with
    | .owned s => some s
    | _ => none
  | _ => none

/-- A value where a `Vec<String>` is wanted, /repo/crates/macros/src/parse.rs 161-170. -/
def strings (env : String → Rust) : Value → Option (List String)
  | .arr l => l.mapM (string env)
  | .expr e => match env e with
    | .texts l => some l
    | _ => none
  | _ => none

/-- A value where a `bool` is wanted, /repo/crates/macros/src/parse.rs 158 and 161-162. -/
def boolean (env : String → Rust) : Value → Option Bool
  | .bool b => some b
  | .expr e => match env e with
    | .flag b => some b
    | _ => none
  | _ => none

/-- `Json::expect` for a `String`, /repo/crates/macros/src/parse.rs 21-26. -/
def required (env : String → Rust) (k : String) (m : Fields) : Option String := (get k m).bind (intoString env)

/-- `Json::option` for an `Option<String>`, /repo/crates/macros/src/parse.rs 29-34. -/
def optional (env : String → Rust) (k : String) (m : Fields) : Option (Option String) :=
  match get k m with
  | none => some none
  | some v => (intoString env v).map some

/-- `vec![..]` around elements written one after the other, with no comma between them: /repo/crates/macros/src/create_offer.rs 56-74, /repo/crates/macros/src/authorization.rs 70-100, /repo/crates/macros/src/token.rs 95-125.
Two elements in a row are not Rust. -/
def juxtaposed {α : Type} : List α → Option (List α)
  | [] => some []
  | [a] => some [a]
  | _ => none

/-! ### `create_offer_request!` -/

/-- One grant type, /repo/crates/macros/src/create_offer.rs 59-72. -/
def grantType : Value → Option GrantType
  | .str s =>
    if s = "urn:ietf:params:oauth:grant-type:pre-authorized_code" then some .preAuthorizedCode
    else if s = "authorization_code" then some .authorizationCode
    else none
  | _ => none

/-- `grant_types`, /repo/crates/macros/src/create_offer.rs 51-78. -/
def grantTypes : Option Value → Option (Option (List GrantType))
  | none => some none
  | some (.arr l) => ((l.mapM grantType).bind juxtaposed).map some
  | some _ => none

/-- The configurations to offer, /repo/crates/macros/src/create_offer.rs 19-27. -/
def configurationIds (env : String → Rust) : Option Value → Option (List String)
  | some (.arr l) => if l.isEmpty then none else l.mapM (string env)
  | _ => none

/-- Whether a transaction code is wanted, /repo/crates/macros/src/create_offer.rs 32. -/
def txCode (env : String → Rust) : Option Value → Option Bool
  | none => some false
  | some v => boolean env v

/-- `SendType::from`, /repo/crates/openid/src/issuer.rs 143-150. -/
def sendFrom (s : String) : Issuer.SendType := if s = "by_ref" then .byRef else .byVal

/-- How to send the offer, /repo/crates/macros/src/create_offer.rs 33-34. The default needs `SendType` in scope where the macro is used, which is taken for granted. -/
def sendType (env : String → Rust) : Option Value → Option Issuer.SendType
  | none => some .byVal
  | some (.str s) => some (sendFrom s)
  | some (.expr e) => match env e with
    | .owned s => some (sendFrom s)
    | .sendType t => some t
    | _ => none
  | some _ => none

/-- `create_offer_request!`, /repo/crates/macros/src/create_offer.rs 9-49. -/
def createOffer (env : String → Rust) (m : Fields) : Option Issuer.CreateOfferRequest := do
  let issuer ← required env "credential_issuer" m
  let subject ← optional env "subject_id" m
  let ids ← configurationIds env (get "credential_configuration_ids" m)
  let grants ← grantTypes (get "grant_types" m)
  let tx ← txCode env (get "tx_code_required" m)
  let send ← sendType env (get "send_type" m)
  consumed ["credential_issuer", "subject_id", "credential_configuration_ids", "grant_types", "tx_code_required", "send_type"] m
  pure { credentialIssuer := issuer, subjectId := subject, configIds := ids, grantTypes := grants, txCodeRequired := tx, sendType := send }

/-! ### `authorization_request!` -/

mutual

/-- One claim, /repo/crates/macros/src/authorization.rs 225-234: an object with members is a set of claims, all else a claim with nothing said about it. -/
def claim : Value → Wire.Claim
  | .obj [] => .entry {}
  | .obj (x :: m) => .set (claims (x :: m) [])
  | .bool _ => .entry {}
  | .num _ => .entry {}
  | .str _ => .entry {}
  | .arr _ => .entry {}
  | .expr _ => .entry {}

/-- `claims`, /repo/crates/macros/src/authorization.rs 222-239. The pairs are put into a map. -/
def claims : List (String × Value) → Dict Wire.Claim → Dict Wire.Claim
  | [], acc => acc
  | (k, v) :: m, acc => claims m (Dict.insert acc k (claim v))

end

/-- `subject`, /repo/crates/macros/src/authorization.rs 205-220. -/
def subject : Option Value → Option (Option (Dict Wire.Claim))
  | none => some none
  | some (.obj m) => some (some (claims m []))
  | some _ => none

/-- An optional list of types, /repo/crates/macros/src/authorization.rs 163-165. -/
def optionalTypes (env : String → Rust) : Option Value → Option (Option (List String))
  | none => some none
  | some v => (strings env v).map some

/-- `configuration_definition`, /repo/crates/macros/src/authorization.rs 148-175. -/
def configurationDefinition (env : String → Rust) : Value → Option Wire.CredentialDefinition
  | .obj m => do
    let t ← optionalTypes env (get "type" m)
    let s ← subject (get "credentialSubject" m)
    pure { context := none, type_ := t, credentialSubject := s }
  | _ => none

/-- `format_definition`, /repo/crates/macros/src/authorization.rs 177-203. -/
def formatDefinition (env : String → Rust) : Value → Option Wire.CredentialDefinition
  | .obj m => do
    let v ← get "type" m
    let t ← strings env v
    let s ← subject (get "credentialSubject" m)
    pure { context := none, type_ := some t, credentialSubject := s }
  | _ => none

/-- The check of the type, /repo/crates/macros/src/authorization.rs 77-86 and /repo/crates/macros/src/token.rs 102-111: a literal must be right, anything else passes. -/
def typed : Option Value → Option Unit
  | none => none
  | some (.str s) => if s = "openid_credential" then some () else none
  | some _ => some ()

/-- The claims that go with a configuration, /repo/crates/macros/src/authorization.rs 109-115. -/
def configurationClaims (env : String → Rust) : Option Value → Option (Option Wire.ProfileClaims)
  | none => some none
  | some v => (configurationDefinition env v).map fun d => some (.w3c d)

/-- The format, /repo/crates/macros/src/authorization.rs 123-139, /repo/crates/macros/src/token.rs 150-166 and /repo/crates/macros/src/credential.rs 44-59: only one is known. -/
def isJwtVcJson : Option Value → Option Unit
  | some (.str s) => if s = "jwt_vc_json" then some () else none
  | _ => none

/-- `credential_authorization`, /repo/crates/macros/src/authorization.rs 103-146. -/
def credentialAuthorization (env : String → Rust) (m : Fields) : Option Wire.CredentialAuthorization :=
  match get "credential_configuration_id" m with
  | some v => do
    let id ← string env v
    let c ← configurationClaims env (get "credential_definition" m)
    pure (.configurationId id c)
  | none => do
    isJwtVcJson (get "format" m)
    let v ← get "credential_definition" m
    let d ← formatDefinition env v
    pure (.format (.jwtVcJson d))

/-- One element of `authorization_details`, /repo/crates/macros/src/authorization.rs 72-97. -/
def authorizationDetail (env : String → Rust) : Value → Option Wire.AuthorizationDetail
  | .obj m => do
    typed (get "type" m)
    let c ← credentialAuthorization env m
    pure { credential := c, locations := none }
  | _ => none

/-- `authorization_details`, /repo/crates/macros/src/authorization.rs 30-35 and 62-101. -/
def authorizationDetails (env : String → Rust) : Option Value → Option (Option (List Wire.AuthorizationDetail))
  | none => some none
  | some (.arr l) => ((l.mapM (authorizationDetail env)).bind juxtaposed).map some
  | some _ => none

/-- `ResponseType::from`, /repo/crates/openid/src/oauth.rs 317-333: every text comes out as `code`. -/
def responseFrom (s : String) : Wire.ResponseType := if s = "code" then .code else .code

/-- The response type, /repo/crates/macros/src/authorization.rs 15. -/
def responseType (env : String → Rust) : Option Value → Option Wire.ResponseType
  | some (.str s) => some (responseFrom s)
  | some (.expr e) => match env e with
    | .owned s => some (responseFrom s)
    | .borrowed s => some (responseFrom s)
    | .responseType r => some r
    | _ => none
  | _ => none

/-- The challenge method, /repo/crates/macros/src/authorization.rs 18 with /repo/crates/openid/src/oauth.rs 394-410: every text is taken for the one method there is. -/
def challengeMethod (env : String → Rust) : Option Value → Option Unit
  | some (.str _) => some ()
  | some (.expr e) => match env e with
    | .owned _ => some ()
    | .borrowed _ => some ()
    | .challengeMethod => some ()
    | _ => none
  | _ => none

/-- `authorization_request!`, /repo/crates/macros/src/authorization.rs 9-60. -/
def authorizationRequest (env : String → Rust) (m : Fields) : Option Wire.RequestObject := do
  let issuer ← required env "credential_issuer" m
  let response ← responseType env (get "response_type" m)
  let client ← required env "client_id" m
  let challenge ← required env "code_challenge" m
  challengeMethod env (get "code_challenge_method" m)
  let subjectId ← required env "subject_id" m
  let redirect ← optional env "redirect_uri" m
  let state ← optional env "state" m
  let scope ← optional env "scope" m
  let resource ← optional env "resource" m
  let wallet ← optional env "wallet_issuer" m
  let hint ← optional env "user_hint" m
  let issuerState ← optional env "issuer_state" m
  let details ← authorizationDetails env (get "authorization_details" m)
  consumed ["credential_issuer", "response_type", "client_id", "code_challenge", "code_challenge_method", "subject_id", "redirect_uri", "state", "scope",
    "resource", "wallet_issuer", "user_hint", "issuer_state", "authorization_details"] m
  pure {
    credentialIssuer := issuer
    responseType := response
    clientId := client
    redirectUri := redirect
    state := state
    codeChallenge := challenge
    authorizationDetails := details
    scope := scope
    resource := resource
    subjectId := subjectId
    walletIssuer := wallet
    userHint := hint
    issuerState := issuerState }

/-! ### `token_request!` -/

/-- `subject`, /repo/crates/macros/src/token.rs 228-248. The text made for a claim names a variant that `ClaimDefinition` (/repo/crates/openid/src/issuer.rs 1953-1981) does not have,
so only an empty object compiles. -/
def tokenSubject : Option Value → Option (Option (Dict Wire.Claim))
  | none => some none
  | some (.obj []) => some (some [])
  | some _ => none

/-- `format_definition`, /repo/crates/macros/src/token.rs 200-226. -/
def tokenDefinition (env : String → Rust) : Value → Option Wire.CredentialDefinition
  | .obj m => do
    let v ← get "type" m
    let t ← strings env v
    let s ← tokenSubject (get "credentialSubject" m)
    pure { context := none, type_ := some t, credentialSubject := s }
  | _ => none

/-- `credential_configuration`, /repo/crates/macros/src/token.rs 128-173. Claims that go with a configuration are made into a `ProfileW3c` where `ProfileClaims` are wanted
(/repo/crates/openid/src/issuer.rs 664), so these do not compile. -/
def tokenConfiguration (env : String → Rust) (m : Fields) : Option Wire.CredentialAuthorization :=
  match get "credential_configuration_id" m with
  | some v => do
    let id ← string env v
    match get "credential_definition" m with
    | none => pure (.configurationId id none)
    | some _ => none
  | none => do
    isJwtVcJson (get "format" m)
    let v ← get "credential_definition" m
    let d ← tokenDefinition env v
    pure (.format (.jwtVcJson d))

/-- One element of `authorization_details`, /repo/crates/macros/src/token.rs 97-122. -/
def tokenDetail (env : String → Rust) : Value → Option Wire.AuthorizationDetail
  | .obj m => do
    typed (get "type" m)
    let c ← tokenConfiguration env m
    pure { credential := c, locations := none }
  | _ => none

/-- `authorization_details`, /repo/crates/macros/src/token.rs 34-39 and 87-126. -/
def tokenDetails (env : String → Rust) : Option Value → Option (Option (List Wire.AuthorizationDetail))
  | none => some none
  | some (.arr l) => ((l.mapM (tokenDetail env)).bind juxtaposed).map some
  | some _ => none

/-- The grant, /repo/crates/macros/src/token.rs 21-32 with 57-85, and the names of the members it takes. -/
def tokenGrant (env : String → Rust) (m : Fields) : Option (Issuer.TokenGrantType × List String) :=
  match get "grant_type" m with
  | some (.str s) =>
    if s = "urn:ietf:params:oauth:grant-type:pre-authorized_code" then do
      let c ← required env "pre-authorized_code" m
      let t ← optional env "tx_code" m
      pure (.preAuthorizedCode c t, ["pre-authorized_code", "tx_code"])
    else if s = "authorization_code" then do
      let c ← required env "code" m
      let u ← optional env "redirect_uri" m
      let v ← required env "code_verifier" m
      pure (.authorizationCode c u (some v), ["code", "redirect_uri", "code_verifier"])
    else none
  | _ => none

/-- `token_request!`, /repo/crates/macros/src/token.rs 9-55. -/
def tokenRequest (env : String → Rust) (m : Fields) : Option Wire.TokenRequest := do
  let issuer ← required env "credential_issuer" m
  let client ← optional env "client_id" m
  let grant ← tokenGrant env m
  let details ← tokenDetails env (get "authorization_details" m)
  consumed (["credential_issuer", "client_id", "grant_type", "authorization_details"] ++ grant.2) m
  pure { credentialIssuer := issuer, clientId := client, grantType := grant.1, authorizationDetails := details, clientAssertion := none }

/-! ### `credential_request!` -/

/-- `CredentialIssuance`, /repo/crates/openid/src/issuer.rs 1148-1162; `Format` only as the macro makes it. -/
inductive Asked where
  | identifier (id : String)
  | format (f : Wire.Format)

/-- `CredentialRequest`, /repo/crates/openid/src/issuer.rs 1110-1142. Simplification: of the proofs only a single one, as the macro makes no others. -/
structure CredentialRequest where
  credentialIssuer : String
  accessToken : String
  credential : Asked
  proof : Option String
  encryption : Option String

/-- `format_definition`, /repo/crates/macros/src/credential.rs 65-91. -/
def credentialDefinition (env : String → Rust) : Value → Option Wire.CredentialDefinition
  | .obj m => do
    let v ← get "type" m
    let t ← strings env v
    pure { context := none, type_ := some t, credentialSubject := none }
  | _ => none

/-- `credential_issuance`, /repo/crates/macros/src/credential.rs 34-63, and the names of the members it takes. -/
def credentialIssuance (env : String → Rust) (m : Fields) : Option (Asked × List String) :=
  match get "credential_identifier" m with
  | some v => do
    let id ← intoString env v
    pure (.identifier id, ["credential_identifier"])
  | none => do
    isJwtVcJson (get "format" m)
    let v ← get "credential_definition" m
    let d ← credentialDefinition env v
    pure (.format (.jwtVcJson d), ["credential_identifier", "format", "credential_definition"])

/-- `proof`, /repo/crates/macros/src/credential.rs 93-124. -/
def proof (env : String → Rust) : Option Value → Option (Option String)
  | none => some none
  | some (.obj m) => match get "proof_type" m with
    | some (.str s) => if s = "jwt" then (required env "jwt" m).map some else none
    | _ => none
  | some _ => none

/-- `credential_response_encryption`, /repo/crates/macros/src/credential.rs 16: only a Rust value of the type will do. -/
def encryption (env : String → Rust) : Option Value → Option (Option String)
  | none => some none
  | some (.expr e) => match env e with
    | .encryption x => some (some x)
    | _ => none
  | some _ => none

/-- `credential_request!`, /repo/crates/macros/src/credential.rs 9-32. -/
def credentialRequest (env : String → Rust) (m : Fields) : Option CredentialRequest := do
  let issuer ← required env "credential_issuer" m
  let token ← required env "access_token" m
  let asked ← credentialIssuance env m
  let p ← proof env (get "proof" m)
  let x ← encryption env (get "credential_response_encryption" m)
  consumed (["credential_issuer", "access_token", "proof", "credential_response_encryption"] ++ asked.2) m
  pure { credentialIssuer := issuer, accessToken := token, credential := asked.1, proof := p, encryption := x }

end Verif.Macros
