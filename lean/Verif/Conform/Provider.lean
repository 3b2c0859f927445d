import Verif.Conform.Data
import Verif.Wire.Issued
import Verif.Wire.StoreProps
import Verif.Wire.IssuerMeta
import Verif.Wire.Net
import Verif.Issuer.System
/-!
# The issuer the tests of the code run against, and how a snapshot is compared

Nothing here is used by a theorem. The tests of the code are replayed on the model, to show that the model does what the code was recorded doing.
-/
namespace Verif.Conform
open Verif Verif.Wire Verif.Issuer

/-! ### Comparing with a snapshot -/

/-- A text `[…]` in a snapshot: the value the test leaves out. The redactions of `assert_snapshot!`, /repo/vercre-issuer/src/token.rs 404-407 and elsewhere. -/
def isHole (s : String) : Bool := s.toList.head? = some '[' && s.toList.getLast? = some ']'

/-- Whether a value is what a snapshot recorded: the same members in whatever order, the same elements in the same order, holes left out. `n` bounds the depth.
`insta::assert_yaml_snapshot!` with `sorted_redaction`, /repo/vercre-issuer/src/authorize.rs 465-475 and elsewhere. -/
def fits : Nat → Json → Json → Bool
  | 0, _, _ => false
  | n + 1, s, j =>
    match s, j with
    | .str s, j => isHole s || match j with | .str t => s == t | _ => false
    | .null, .null => true
    | .bool a, .bool b => a == b
    | .num a, .num b => a == b
    | .arr l, .arr r => l.length == r.length && (l.zip r).all fun p => fits n p.1 p.2
    | .obj l, .obj r => l.length == r.length && l.all fun p => match Dict.get? r p.1 with | some j => fits n p.2 j | none => false
    | _, _ => false

/-- `fits`, deep enough for every snapshot. -/
def is (snapshot actual : Json) : Bool := fits 20 snapshot actual

/-! ### The issuer, /repo/crates/test-utils/src/issuer.rs and store/issuance.rs -/

/-- `CREDENTIAL_ISSUER`, issuer.rs 14. -/
def credentialIssuer : String := "http://vercre.io"

/-- `CLIENT_ID`, issuer.rs 15. -/
def clientId : String := "96bfb9cb-0513-7d64-5532-bed74c48f9ab"

/-- `IssuerStore::new`, store/issuance.rs 21-31. -/
def testIssuer : Verif.Issuer := ((readIssuerMeta issuerJson).map issuerSeen).getD { credentialIssuer := "" }

/-- `ServerStore::new`, store/issuance.rs 46-56. -/
def testServer : Server := ((readServer serverJson).map serverSeen).getD {}

/-- What the endpoints see of a client, /repo/crates/openid/src/issuer.rs 2010-2020. -/
def clientSeen (c : ClientMeta) : Client where
  clientId := c.oauth.clientId
  redirectUris := c.oauth.redirectUris
  grantTypes := c.oauth.grantTypes
  responseTypes := c.oauth.responseTypes
  scope := c.oauth.scope

/-- `ClientStore::new`, store/issuance.rs 71-86. -/
def testClient : Client :=
  match clientJson with
  | .obj m => ((readClientMeta m).map clientSeen).getD {}
  | _ => {}

/-- The members of an object. For reading /repo/crates/test-utils/src/store/datasets.json. -/
def membersOf : Json → List (String × Json)
  | .obj m => m
  | _ => []

/-- The data of a subject, store/issuance.rs 108-119. -/
def subject (id : String) : List (String × Json) := (Dict.get? (membersOf datasetsJson) id).elim [] membersOf

/-- `DatasetStore::authorize`, store/issuance.rs 121-143. A subject without data is a panic there, an error here. -/
def authorizeIds (subjectId config : String) : Option (List String) :=
  match (subject subjectId).filter fun c => match Dict.get? (membersOf c.2) "configuration_id" with | some (.str s) => s == config | _ => false with
  | [] => none
  | l => some (l.map (·.1))

/-- `DatasetStore::dataset`, store/issuance.rs 145-162; `first` says whether this data set was not read before: it is pending only then.
A missing subject or data set is a panic there, an error here. -/
def datasetOf (first : Bool) (subjectId id : String) : Option Dataset :=
  (Dict.get? (subject subjectId) id).map fun c =>
    { claims := (Dict.get? (membersOf c) "claims").elim [] membersOf
      pending := first && match Dict.get? (membersOf c) "pending" with | some (.bool b) => b | _ => false }

/-- `HolderKeystore::verification_method`, /repo/crates/test-utils/src/store/keystore.rs 80-118. -/
def holderKey : String :=
  "did:key:z6Mkj8Jr1rg3YjVWWhg7ahEYJibqhjBgZt1pDCbT4Lv7D4HX#z6Mkj8Jr1rg3YjVWWhg7ahEYJibqhjBgZt1pDCbT4Lv7D4HX"

/-- The challenge of the code verifier the tests use, `Base64UrlUnpadded::encode_string(&Sha256::digest("ABCDEF12345"))`, /repo/vercre-issuer/src/authorize.rs 484. -/
def testChallenge : String := "B6qi8EPWVTnONnO8XNSAsN7O2ejthn3pCKwZUO0HzU8"

/-- `Provider`, issuer.rs 20-40. A proof JWT is here the nonce it is over, signed by the holder's key. -/
def provider (first : Bool := true) : Provider where
  client c := if c = clientId ∨ c = "http://localhost:8080" then some { testClient with clientId := c } else none
  issuer i := if i = credentialIssuer ∨ i = "http://localhost:8080" then some testIssuer else none
  server i := if i = credentialIssuer ∨ i = "http://localhost:8080" then some testServer else none
  register c := some { c with clientId := "registered" }
  authorize := authorizeIds
  dataset := datasetOf first
  status _ _ := some none
  signer _ := some "did:web:demo.credibil.io#key-0"
  signOk _ _ := true
  decodeProof j := some { typIsProof := true, nonce := some j, kid := some holderKey, iss := some clientId, aud := credentialIssuer }
  codeChallenge v := if v = "ABCDEF12345" then testChallenge else ""
  txCode _ := "123456"
  iter m := m
  iter_perm m := .refl m

/-- Tokens `t`, `tt`, … -/
def rng (n : Nat) : String := String.ofList (List.replicate (n + 1) 't')

/-- No faults. -/
def env : Env := { rng, fault := fun _ => .ok }

/-- The store holding what a test put there before the call, at time 0. `StateStore::put` in the tests, /repo/vercre-issuer/src/token.rs 391-393 and elsewhere. -/
def holding (l : List (String × State)) : World State := { start 0 with store := Dict.get? l }

/-- A call of an endpoint. -/
def ask (w : World State) (r : Req) (first : Bool := true) : Res Resp × World State := step env w { provider := provider first, req := r }

/-- What a test gets to see of a credential, and when it was signed: `proof::verify` gives back what was signed, /repo/vercre-issuer/src/credential.rs 541-548. -/
def vcJson : Resp → Json
  | .credential { response := .credential (.jwtVc _ vc _), .. } => writeVc demoTime (vcOf vc)
  | .deferred { response := .credential (.jwtVc _ vc _), .. } => writeVc demoTime (vcOf vc)
  | _ => .null

/-- A credential response with the credential left as a hole, /repo/crates/openid/src/issuer.rs 1283-1326. -/
def delivered (r : Issuer.CredentialResponse) : Wire.CredentialResponse Json where
  response := match r.response with
    | .credential _ => .credential (.string "[credential]")
    | .transactionId t => .transactionId t
  cNonce := r.cNonce
  cNonceExpiresIn := r.cNonceExpiresIn
  notificationId := r.notificationId

/-- The response to a request as the test sees it, or the name of the error. The signed credential is left as a hole. -/
def shown : Res Resp → Json
  | .ok (.createOffer r) => writeOffered r
  | .ok (.credentialOffer r) => writeOfferReply r
  | .ok (.par r) => writeParReply r
  | .ok (.authorize r) => writeAuthorizationReply r
  | .ok (.token r) => writeTokenResponse (tokenResponseOf r)
  | .ok (.credential r) => writeCredentialResponse id (delivered r)
  | .ok (.deferred r) => writeCredentialResponse id (delivered r)
  | .ok .notification => .obj []
  | .ok _ => .null
  | .error _ => .str "error"

/-- The state under a key, as the test sees it. -/
def stored (w : World State) (k : String) : Json := (w.store k).elim .null (writeState demoTime)

/-- Whether there is no state under a key. -/
def gone (w : World State) (k : String) : Bool := (w.store k).isNone

end Verif.Conform
