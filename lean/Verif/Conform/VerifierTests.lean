import Verif.Conform.Provider
import Verif.Wire.CreateRequest
import Verif.Wire.VerifierNet
import Verif.Wire.WalletStore
import Verif.Server.Verifier
/-!
# The unit tests of the verifier, replayed on the model

As for the issuer: requests are read by the model's readers, answers and states are written by its writers and compared with what was recorded.
-/
namespace Verif.Conform
open Verif Verif.Wire Verif.Verifier

/-- /repo/vercre-verifier/src/create_request.rs 183-198. -/
def sameDeviceReq : Json :=
  .obj [
    ("purpose", .str "To verify employment"),
    ("input_descriptors", .arr [
      .obj [
        ("id", .str "employment"),
        ("constraints", .obj [
          ("fields", .arr [
            .obj [("path", .arr [.str "$.type"]), ("filter", .obj [("type", .str "string"), ("const", .str "EmployeeIDCredential")])]])])]]),
    ("device_flow", .str "SameDevice")]

/-- create_request.rs 230-245. -/
def crossDeviceReq : Json :=
  .obj [
    ("purpose", .str "To verify employment"),
    ("input_descriptors", .arr [
      .obj [
        ("id", .str "employment"),
        ("constraints", .obj [
          ("fields", .arr [
            .obj [("path", .arr [.str "$.type"]), ("filter", .obj [("type", .str "string"), ("const", .str "EmployeeIDCredential")])]])])]]),
    ("device_flow", .str "CrossDevice")]

/-- `DEFINITION`, /repo/vercre-verifier/src/response.rs 290-314. -/
def definitionJson : Json :=
  .obj [
    ("id", .str "2d1691c1-2daa-4416-9d10-bc6790e72fad"),
    ("input_descriptors", .arr [
      .obj [
        ("id", .str "EmployeeIDCredential"),
        ("constraints", .obj [
          ("fields", .arr [
            .obj [("path", .arr [.str "$.type"]), ("filter", .obj [("type", .str "string"), ("const", .str "EmployeeIDCredential")])]])])]]),
    ("format", .obj [("jwt_vc", .obj [("alg", .arr [.str "EdDSA"])])])]

/-- The body of the test, response.rs 273-277, with `VP_TOKEN` (316-334) and `SUBMISSION` (335-361); `jwt` stands for the text of the credential. -/
def answerJson : Json :=
  .obj [
    ("vp_token", .arr [
      .obj [
        ("@context", .arr [.str "https://www.w3.org/2018/credentials/v1", .str "https://www.w3.org/2018/credentials/examples/v1"]),
        ("proof", .obj [("challenge", .str "ABCDEFG")]),
        ("type", .arr [.str "VerifiablePresentation", .str "EmployeeIDPresentation"]),
        ("verifiableCredential", .arr [.str "jwt"])]]),
    ("presentation_submission", .obj [
      ("id", .str "fcc96706-b20f-4aa7-b34d-c1f0b630c8cb"),
      ("definition_id", .str "2d1691c1-2daa-4416-9d10-bc6790e72fad"),
      ("descriptor_map", .arr [
        .obj [
          ("id", .str "EmployeeIDCredential"),
          ("format", .str "jwt_vc_json"),
          ("path", .str "$"),
          ("path_nested", .obj [("format", .str "jwt_vc_json"), ("path", .str "$.verifiableCredential[0]")])],
        .obj [
          ("id", .str "CitizenshipCredential"),
          ("format", .str "jwt_vc_json"),
          ("path", .str "$"),
          ("path_nested", .obj [("format", .str "jwt_vc_json"), ("path", .str "$.verifiableCredential[0]")])]])]),
    ("state", .str "1234ABCD")]

/-- What the credential of the test says: the part of the JWT between the dots, response.rs 331. -/
def jwtClaims : Json :=
  .obj [
    ("sub", .str "did:key:z6Mkj8Jr1rg3YjVWWhg7ahEYJibqhjBgZt1pDCbT4Lv7D4HX"),
    ("nbf", .num "1721702891"),
    ("iss", .str "http://vercre.io"),
    ("iat", .num "1721702891"),
    ("jti", .str "http://vercre.io/credentials/EmployeeIDCredential"),
    ("vc", .obj [
      ("@context", .arr [.str "https://www.w3.org/2018/credentials/v1", .str "http://vercre.io/credentials/v1"]),
      ("id", .str "http://vercre.io/credentials/EmployeeIDCredential"),
      ("type", .arr [.str "VerifiableCredential", .str "EmployeeIDCredential"]),
      ("issuer", .str "http://vercre.io"),
      ("issuanceDate", .str "2024-07-23T02:48:11.282989Z"),
      ("credentialSubject", .obj [
        ("id", .str "did:key:z6Mkj8Jr1rg3YjVWWhg7ahEYJibqhjBgZt1pDCbT4Lv7D4HX"),
        ("familyName", .str "Person"),
        ("givenName", .str "Normal")])])]

/-! ### The verifier the tests run against, /repo/crates/test-utils/src/verifier.rs -/

/-- `Store::new`, /repo/crates/test-utils/src/store/presentation.rs 14-24. -/
def testVerifier : Option Metadata := readMetadata verifierJson

/-- What the example verifier's model holds is what the file says. -/
example : testVerifier = some Verif.Server.onlyVerifier := by decide +kernel

/-- The JSON paths of the tests: members by name, elements by number. The crate `serde_json_path`, /repo/vercre-verifier/src/response.rs 144-151. -/
def query (p : String) (j : Json) : Option (List Json) :=
  match p, j with
  | "$.type", .obj m => some (Dict.get? m "type").toList
  | "$.verifiableCredential[0]", .obj m => some (match Dict.get? m "verifiableCredential" with | some (.arr (x :: _)) => [x] | _ => [])
  | _, _ => none

/-- What of a presentation is kept in the models, /repo/crates/w3c-vc/src/model/vp.rs 26-63. -/
def vpSeen (v : Wire.Vp) : Verif.Vp :=
  { context := v.context, id := v.id, type_ := v.type_, holder := v.holder, proof := v.proof.map (quotaMap proofSeen)
    credentials := v.credentials.map (·.map fun | .string s => .string s | .object c => .object (vcSeen c)) }

/-- The presentation in full, vp.rs 26-63. -/
def vpOf (v : Verif.Vp) : Wire.Vp :=
  { context := v.context, id := v.id, type_ := v.type_, holder := v.holder, proof := v.proof.map (quotaMap proofOf)
    credentials := v.credentials.map (·.map fun | .string s => .string s | .object c => .object (vcOf c)) }

/-- The claims of the credential as the verifier's model sees them. Only the credential is read; the numbers, which the verifier does not look at, are given. -/
def claimsSeen : Option Verif.VcClaims :=
  ((Dict.get? (membersOf jwtClaims) "vc").bind (readVc demoTime)).map fun v =>
    { sub := "did:key:z6Mkj8Jr1rg3YjVWWhg7ahEYJibqhjBgZt1pDCbT4Lv7D4HX", nbf := some 1721702891, iss := "http://vercre.io", iat := 1721702891
      jti := "http://vercre.io/credentials/EmployeeIDCredential", exp := none, vc := vcSeen v }

/-- `Provider`, verifier.rs 13-27. The only credential is that of the test. -/
def vprovider : Verifier.Provider where
  verifier c := if c = "http://localhost:8080" then testVerifier else none
  signer _ := some "did:web:demo.credibil.io#key-0"
  encodeRequest _ o := some (String.ofList (Json.obj (writeAsk o)).chars)
  jose := {
    encodeVc := fun _ _ => none
    decodeVc := fun t => if t = "jwt" then claimsSeen else none
    encodeVp := fun _ _ => none
    decodeVp := fun _ => none }
  ext := { query, regex := fun _ _ => none, isDate := fun _ => false, isDateTime := fun _ => false }
  vpJson v := some (writeVp demoTime (vpOf v))
  vcJson v := some (writeVc demoTime (vcOf v))
  vcOfJson j := (readVc demoTime j).map vcSeen

/-- A call of an endpoint. -/
def vask (w : World VState) (r : Verifier.Req) : Res Verifier.Resp × World VState := Verifier.step env w { provider := vprovider, req := r }

/-- The store holding what a test put there before the call. -/
def vholding (l : List (String × VState)) : World VState := { Verifier.start 0 with store := Dict.get? l }

/-- The state under a key, as the test sees it. -/
def vstored (w : World VState) (k : String) : Json := (w.store k).elim .null (writeVState demoTime)

/-! ### `create_request` -/

/-- The call of the tests, create_request.rs 200-204. -/
def createRun (j : Json) : Res Verifier.Resp × World VState :=
  (readCreateRequest j).elim (.error (.serverError ""), vholding []) fun r => vask (vholding []) (.createRequest { r with clientId := "http://localhost:8080" })

-- `same_device`, create_request.rs 177-222
example : (match createRun sameDeviceReq with
    | (.ok (.createRequest r), w) => is createRequestResponse (writeCreated r) && r.requestUri.isNone &&
        match r.requestObject with
        | some o => (match w.store (o.state.getD "") with | some s => s.requestObject.nonce == o.nonce | none => false) &&
            match o.presentationDefinition with | .object _ => true | .string _ => false
        | none => false
    | _ => false) = true := by decide +kernel

-- `cross_device`, create_request.rs 224-265
example : (match createRun crossDeviceReq with
    | (.ok (.createRequest { requestObject := none, requestUri := some u }), w) => is createRequestState (vstored w (String.ofList (u.toList.reverse.takeWhile (· ≠ '/')).reverse))
    | _ => false) = true := by decide +kernel

/-! ### `request_object` -/

/-- The state of the test, /repo/vercre-verifier/src/request_object.rs 87-107. -/
def jwtState : VState where
  expiresAt := requestDur
  requestObject := { responseType := .vpToken, clientId := "http://localhost:8080/post", state := some "ABCDEF123456", nonce := "1234567890"
                     responseMode := some "direct_post", responseUri := some "http://localhost:8080/post"
                     presentationDefinition := .object { id := "", inputDescriptors := [] }, clientIdScheme := some .redirectUri
                     clientMetadata := { oauth := { clientId := "" } } }

-- `request_jwt`, request_object.rs 80-129: the claims, and the state is still there
example : (match vask (vholding [("ABCDEF123456", jwtState)]) (.requestObject { clientId := "http://localhost:8080", id := "ABCDEF123456" }) with
    | (.ok (.requestObject t), w) => (parseJson t.toList).any (fun j => is (((Dict.get? (membersOf requestObjectResponse) "claims").getD .null)) j) &&
        (w.store "ABCDEF123456").isSome
    | _ => false) = true := by decide +kernel

/-! ### `response` -/

/-- The state of the test, response.rs 244-261. -/
def answerState : Option VState := (readAsked definitionJson).map fun d =>
  { expiresAt := requestDur
    requestObject := { responseType := .vpToken, clientId := "http://vercre.io", state := some "1234ABCD", nonce := "ABCDEFG", responseMode := some "direct_post.jwt"
                       responseUri := some "http://vercre.io/direct_post.jwt", presentationDefinition := .object d, clientIdScheme := some .did
                       clientMetadata := { oauth := { clientId := "" } } } }

/-- The call of the test, response.rs 279-280. -/
def answerRun (nonce : String) : Res Verifier.Resp × World VState :=
  match answerState, readAnswer (readVp demoTime) answerJson with
  | some s, some r =>
    vask (vholding [("1234ABCD", { s with requestObject := { s.requestObject with nonce := nonce } })])
      (.response (answerSeen { vpToken := r.vpToken.map (·.map fun | .string t => .string t | .object v => .object (vpSeen v)), submission := r.submission, state := r.state }))
  | _, _ => (.error (.serverError ""), vholding [])

-- `send_response`, response.rs 234-284
example : (match answerRun "ABCDEFG" with
    | (.ok (.response r), w) => r.redirectUri == some "http://localhost:3000/cb" && (w.store "1234ABCD").isNone
    | _ => false) = true := by decide +kernel
-- the same answer to another request is refused
example : (match answerRun "another" with | (.error (.invalidRequest _), _) => true | _ => false) = true := by decide +kernel

/-! ### `metadata` -/

-- `metadata_ok`, /repo/vercre-verifier/src/metadata.rs 46-59
example : (match vask (vholding []) (.metadata "http://localhost:8080") with
    | (.ok (.metadata m), _) => is verifierMetadata (writeMetadata m)
    | _ => false) = true := by decide +kernel

end Verif.Conform
