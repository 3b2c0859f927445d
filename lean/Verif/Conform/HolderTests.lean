import Verif.Conform.FlowTests
import Verif.Conform.VerifierTests
import Verif.Wire.WalletStore
import Verif.Wire.AskQuery
import Verif.Interop.Present
/-!
# The wallet's tests, replayed on the models

/repo/vercre-holder/tests: the wallet is connected to the issuer, or the verifier, of the tests, takes an offer to a credential it keeps, or a request to an answer, and
what it shows and keeps is compared with what was recorded. The flows are evaluated when this file is compiled (`#guard`), not by the kernel.
-/
namespace Verif.Conform
open Verif Verif.Wire Verif.Holder

/-! ### The wallet, /repo/vercre-holder/tests/provider.rs -/

/-- Times as text: the two of the sample credential as in the snapshot, the others as numbers. chrono's writer, /repo/crates/w3c-vc/src/model/vc.rs 85-100. -/
def testTime : TimeText where
  text t := if t = 1700522515000000000 then "2023-11-20T23:21:55Z" else if t = 2018733715000000000 then "2033-12-20T23:21:55Z" else if t = 0 then "0" else "t" ++ t.repr
  read s := if s = "2023-11-20T23:21:55Z" then some 1700522515000000000 else if s = "2033-12-20T23:21:55Z" then some 2018733715000000000 else if s = "0" then some 0 else
    (String.ofList (s.toList.drop 1)).toInt?
  read_text t := by
    have hne : ∀ (c : Char) (s : List Char), c ≠ 't' → ("t" ++ t.repr) ≠ String.ofList (c :: s) := by
      intro c s hc h
      have := congrArg String.toList h
      simp only [String.toList_append, String.toList_ofList] at this
      exact hc (List.cons.inj this).1.symm
    by_cases h1 : t = 1700522515000000000
    · subst h1; decide
    by_cases h2 : t = 2018733715000000000
    · subst h2; decide
    by_cases h0 : t = 0
    · subst h0; decide
    simp only [h1, h2, h0, ↓reduceIte]
    rw [if_neg (show ¬ _ = "2023-11-20T23:21:55Z" from hne '2' "023-11-20T23:21:55Z".toList (by decide)), if_neg (show ¬ _ = "2033-12-20T23:21:55Z" from hne '2' "033-12-20T23:21:55Z".toList (by decide)),
      if_neg (show ¬ _ = "0" from hne '0' [] (by decide))]
    have : ("t" ++ t.repr).toList.drop 1 = t.repr.toList := by simp
    rw [this]; simp

/-- The metadata of the issuer in full, /repo/crates/test-utils/src/store/issuance.rs 21-31. -/
def fullIssuer : Option IssuerMeta := readIssuerMeta issuerJson

/-- A credential as text. In place of its signature; `proof::create`, /repo/crates/w3c-vc/src/proof.rs 80-103. -/
def vcText (v : Verif.Vc) : String := String.ofList (writeVc testTime (vcOf v)).chars

/-- What is signed, read back. `proof::verify`, /repo/crates/w3c-vc/src/proof.rs 135-156. -/
def claimsOf (t : String) : Option Verif.VcClaims :=
  ((parseJson t.toList).bind (readVc testTime)).map fun v =>
    { sub := "", nbf := none, iss := "", iat := 0, jti := "", exp := none, vc := vcSeen v }

/-- A presentation as text: with whom and what it is for. In place of its signature; `proof::create`, /repo/crates/w3c-vc/src/proof.rs 104-109. -/
def vpText (c : Verif.VpClaims) : String :=
  String.ofList (Json.arr [.str c.iss, .str c.jti, .str c.aud, .str c.nonce, writeVp testTime (vpOf c.vp)]).chars

/-- What is signed, read back; the times are not looked at. `proof::verify`, /repo/crates/w3c-vc/src/proof.rs 157-163. -/
def vpClaimsOf (t : String) : Option Verif.VpClaims :=
  match parseJson t.toList with
  | some (.arr [.str iss, .str jti, .str aud, .str nonce, vp]) =>
    (readVp testTime vp).map fun v => { iss, jti, aud, nonce, nbf := 0, iat := 0, exp := 3600, vp := vpSeen v }
  | _ => none

/-- Signing and reading of all parties, /repo/crates/test-utils/src/store/keystore.rs. -/
def jose : Jose where
  encodeVc _ c := some (vcText c.vc)
  decodeVc := claimsOf
  encodeVp _ c := some (vpText c)
  decodeVp := vpClaimsOf

/-- A code challenge: the verifier, long enough to be one. In place of its hash; /repo/crates/core/src/pkce.rs 20-23. -/
def challengeOf (v : String) : String := "B6qi8EPWVTnONnO8XNSAsN7O2ejthn3pCKwZUO0HzU8" ++ v

/-- `Provider`, provider.rs 160-185. A proof JWT is the nonce it is over; a signed request object is its text. -/
def wallet : Holder.Provider where
  kid := holderKey
  signProof c := c.nonce
  jose
  decodeRequest t := (parseJson t.toList).bind readAsk
  parseRequest t := readQuery (fun _ => []) t.toList
  percentDecode t := some (String.ofList (percentDecode (fun _ => []) t.toList))
  codeChallenge := challengeOf
  validTime _ := true

/-- What is not the issuer: notifications are dropped, logos are empty, the storage keeps everything. provider.rs 86-95 and 119-146. -/
def others (before : List Holder.Credential) (log : List Entry) (recent : List Holder.Event) : (c : Call) → Option c.Reply
  | .notification _ => some ()
  | .logo _ => some { image := "", mediaType := "" }
  | .save _ => some ()
  | .find f =>
    let kept := before ++ ((log.flatMap Entry.events) ++ recent).filterMap fun e => match e.call with | .save c => some c | _ => none
    some (kept.filter fun c => match f.satisfied vprovider.ext (some (writeVc testTime (vcOf c.vc))) with | .ok b => b | .error _ => false)
  | _ => none

/-- The wallet's issuer, provider.rs 48-84. The data of a subject are pending only before the fifth call, that for a deferred credential. -/
def net : Interop.Net where
  env
  provider i := { provider (first := i < 4) with codeChallenge := challengeOf }
  others _ := []
  encode c := match c with | .jwtVc _ vc _ => vcText vc | _ => ""
  rest := others []

/-- The wallet connected to the issuer in a given world. -/
def wenv (w : World Issuer.State) : HEnv where
  rng := rng
  fault _ := .ok
  oracle log recent
    | .notification r => others [] log recent (.notification r)
    | c => net.oracle w 0 log recent c

/-! ### What a test gets to see -/

/-- The display of a configuration in full: the model keeps only what the endpoints read of it. /repo/crates/openid/src/issuer.rs 1640-1656. -/
def displayOf (d : Verif.CredentialDisplay) : Wire.CredentialDisplay :=
  ((fullIssuer.map fun i => i.configs.flatMap fun c => c.2.display.getD []).getD []).find? (fun e => e.name == d.name) |>.getD { name := d.name }

/-- A credential of the wallet in full, /repo/vercre-holder/src/credential.rs 16-45. -/
def keptOf (c : Holder.Credential) : Kept :=
  { id := c.id, issuer := c.issuer, vc := vcOf c.vc, issued := c.issued, issuanceDate := c.issuanceDate * 1000000000, display := c.display.map (·.map displayOf), logo := c.logo }

/-- The credentials in the wallet's storage, as recorded: `CredentialStorer::find` without a filter, provider.rs 134-137. -/
def kept (w : HWorld) : Json :=
  .arr (((w.log.flatMap Entry.events).filterMap fun e => match e.call with | .save c => some c | _ => none).map fun c => writeKept testTime (keptOf c))

/-- `OfferResponse`, /repo/vercre-holder/src/issuance/offer.rs 43-57: the configurations as the issuer published them. -/
def offered : HRes Resp → Json
  | .ok (.offer id issuer cfgs grants) =>
    .obj [("issuance_id", .str id), ("issuer", .str issuer),
      ("offered", .obj (cfgs.filterMap fun c => ((fullIssuer.bind fun i => Dict.get? i.configs c.1).filter fun d => decide ((configSeen d).scope = c.2.scope ∧ (configSeen d).proofTypes = c.2.proofTypes ∧ (configSeen d).display = c.2.display)).map fun d => (c.1, writeConfig d))),
      ("grants", grants.elim .null writeGrants)]
  | _ => .str "no offer"

/-- `AuthorizedCredentials`, /repo/vercre-holder/src/issuance/token.rs 22-32. -/
def authorizedJson : HRes Resp → Json
  | .ok (.authorized id l) => .obj (Wire.members [("issuance_id", some (.str id)), ("authorized", l.map fun l => .obj (writeMap (writeVec .str) l))])
  | _ => .str "not authorized"

/-! ### Taking an offer -/

/-- `create_offer` of the issuer and the offer it answers. /repo/vercre-holder/tests/preauth.rs 29-45. -/
def offerFrom (j : Json) : Option (Issuer.CredentialOffer × World Issuer.State) :=
  match (readCreateOffer j).map fun r => ask (holding []) (.createOffer r) with
  | some (.ok (.createOffer { offerType := .object o, .. }), w) => some (o, w)
  | _ => none

/-- Calls of the wallet, one after the other: the answers and the wallet after them. -/
def calls (e : HEnv) (w : HWorld) : List Req → List (HRes Resp) × HWorld
  | [] => ([], w)
  | r :: l =>
    let out := Holder.step e w { provider := wallet, req := r }
    let rest := calls e out.2 l
    (out.1 :: rest.1, rest.2)

/-- Whether a call succeeded. -/
def good : HRes Resp → Bool
  | .ok _ => true
  | .error _ => false

/-- The wallet's flow has the first token it draws. -/
def flow : String := rng 0


/-- What a test of an offer records: the offer as shown, whether everything went as the test says, the credentials kept. `wrong` are the calls the test says fail. -/
def taken (offer : Json) (reqs : List Req) (wrong : List Nat := []) : Option (Json × Bool × Json) :=
  (offerFrom offer).map fun (o, w) =>
    let (answers, h) := calls (wenv w) (Holder.start 0) (.offer { clientId, subjectId := "normal_user", offer := o } :: reqs)
    (offered (answers.headD (.error .load)), answers.zipIdx.all fun (a, i) => good a != wrong.contains i, kept h)

/-- The snapshots of a test, compared. -/
def recorded (created credentials : Json) (t : Option (Json × Bool × Json)) : Bool :=
  t.elim false fun (c, ok, k) => is created c && ok && is credentials k

/-- Accepting everything offered. -/
def acceptAll : Req := .accept { issuanceId := flow, accept := none }

/-- Getting and keeping all credentials. -/
def collectAll : List Req := [.credentials { issuanceId := flow, identifiers := none, format := none }, .save flow]

/-- The user's name in an offer. -/
def offerTo (subject : String) (j : Json) : Json :=
  match j with
  | .obj m => .obj (m.map fun p => if p.1 = "subject_id" then (p.1, .str subject) else p)
  | j => j

/-- The authorization request of the tests after an offer, /repo/vercre-holder/tests/issuer_auth.rs 80-91. -/
def authorizeOffer : Req := .authorize { initiator := .issuer flow, redirectUri := some "http://localhost:3000/callback", authorizationDetails := none }

-- `preauth`, /repo/vercre-holder/tests/preauth.rs 25-124
#guard recorded walletPreauthCreated walletPreauthCredentials
  (taken flowOffer ([acceptAll, .pin { issuanceId := flow, pin := "123456" }, .token flow] ++ collectAll))

/-- /repo/vercre-holder/tests/preauth_narrow.rs 30-37. -/
def narrowOffer : Json :=
  .obj [("credential_issuer", .str credentialIssuer), ("credential_configuration_ids", .arr [.str "EmployeeID_JWT", .str "Developer_JWT"]), ("subject_id", .str "normal_user"),
    ("grant_types", .arr [.str "urn:ietf:params:oauth:grant-type:pre-authorized_code"]), ("tx_code_required", .bool false), ("send_type", .str "ByVal")]

/-- Only the developer's credential with only the proficiency, preauth_narrow.rs 70-76. -/
def narrow : Req :=
  .accept { issuanceId := flow, accept := some [{ configId := "Developer_JWT", claims := some [("proficiency", .entry { })] }] }

-- `preauth_narrow`, preauth_narrow.rs 25-140
#guard recorded walletPreauthNarrowCreated walletPreauthNarrowCredentials
  (taken narrowOffer [narrow, .token flow, .credentials { issuanceId := flow, identifiers := some ["PHLDeveloper"], format := none }, .save flow])
#guard (offerFrom narrowOffer).elim false fun (o, w) =>
  match calls (wenv w) (Holder.start 0) [.offer { clientId, subjectId := "normal_user", offer := o }, narrow, .token flow] with
  | ([_, _, r], _) => is walletPreauthNarrowToken (authorizedJson r)
  | _ => false

-- `preauth_deferred`, /repo/vercre-holder/tests/preauth_deferred.rs 25-139
#guard (offerFrom (offerTo "pending_user" flowOffer)).elim false fun (o, w) =>
  let (answers, h) := calls (wenv w) (Holder.start 0) [.offer { clientId, subjectId := "pending_user", offer := o }, acceptAll, .pin { issuanceId := flow, pin := "123456" },
    .token flow, .credentials { issuanceId := flow, identifiers := none, format := none }]
  match answers with
  | [r, .ok _, .ok _, .ok _, .ok (.credentials _ (some [(t, c)]))] =>
    let (rest, h) := calls (wenv w) h [.deferred { issuanceId := flow, transactionId := t, configId := c }, .save flow]
    is walletPreauthDeferredCreated (offered r) && rest.all good && is walletPreauthDeferredCredentials (kept h)
  | _ => false

-- `preauth_no_grants`, /repo/vercre-holder/tests/preauth_no_grants.rs 25-145: asking for a token right away fails
#guard recorded walletPreauthNoGrantsCreated walletPreauthNoGrantsCredentials
  (taken flowOfferNoGrants ([acceptAll, .token flow, authorizeOffer] ++ collectAll) (wrong := [2]))
#guard testServer.grantTypesSupported.elim false (·.contains .authorizationCode)

/-- /repo/vercre-holder/tests/issuer_auth.rs 30-37. -/
def authOffer : Json :=
  .obj [("credential_issuer", .str credentialIssuer), ("credential_configuration_ids", .arr [.str "EmployeeID_JWT"]), ("subject_id", .str "normal_user"),
    ("grant_types", .arr [.str "authorization_code"]), ("tx_code_required", .bool false), ("send_type", .str "ByVal")]

-- `issuer_auth`, issuer_auth.rs 25-127
#guard recorded walletIssuerAuthCreated walletIssuerAuthCredentials (taken authOffer ([acceptAll, .token flow, authorizeOffer] ++ collectAll) (wrong := [2]))

-- `issuer_auth_no_grants`, /repo/vercre-holder/tests/issuer_auth_no_grants.rs 25-127
#guard recorded walletIssuerAuthNoGrantsCreated walletIssuerAuthNoGrantsCredentials
  (taken flowOfferNoGrants ([acceptAll, authorizeOffer] ++ collectAll))

/-! ### Issuance the wallet starts -/

/-- The employee credential as the issuer publishes it, /repo/vercre-holder/tests/wallet_cred_def.rs 36-45. -/
def employee : Option Wire.CredentialDefinition :=
  (fullIssuer.bind fun i => Dict.get? i.configs "EmployeeID_JWT").bind fun c => match c.format with | .jwtVcJson d => some d | _ => none

/-- The wallet asks by itself, then collects: what was authorized, whether all went well, the credentials kept. wallet_cred_def.rs 50-105. -/
def started (scope : Option String) (details : Option (List Verif.AuthorizationDetail)) (format : Option Verif.Format) : Json × Bool × Json :=
  let (answers, h) := calls (wenv (holding [])) (Holder.start 0)
    [.authorize { initiator := .wallet clientId credentialIssuer scope "normal_user", redirectUri := some "http://localhost:3000/callback", authorizationDetails := details },
     .credentials { issuanceId := flow, identifiers := none, format }, .save flow]
  (authorizedJson (answers.headD (.error .load)), answers.all good, kept h)

/-- What the tests expect to be authorized, wallet_cred_def.rs 76-78. -/
def employeeAuthorized : Json := .obj [("issuance_id", .str "[issuance_id]"), ("authorized", .obj [("EmployeeID_JWT", .arr [.str "PHLEmployeeID"])])]

-- `wallet_credential_definition`, wallet_cred_def.rs 22-110
#guard employee.elim false fun d =>
  let (a, ok, k) := started none (some [{ credential := .configurationId "EmployeeID_JWT" (some (.w3c (definitionSeen d))) }]) none
  is employeeAuthorized a && ok && is walletWalletCredDefCredentials k && is walletWalletCredDefClaims (.obj [("credential_definition", writeDefn d)])

-- `wallet_format`, /repo/vercre-holder/tests/wallet_format.rs 22-110
#guard employee.elim false fun d =>
  let (a, ok, k) := started none (some [{ credential := .format (.jwtVcJson (definitionSeen d)) }]) none
  is employeeAuthorized a && ok && is walletWalletFormatCredentials k && is walletWalletFormatCredentialDef (writeDefn d)

-- `wallet_scope`, /repo/vercre-holder/tests/wallet_scope.rs 18-95
#guard employee.elim false fun d =>
  let (a, ok, k) := started (some "EmployeeIDCredential") none (some (.jwtVcJson (definitionSeen d)))
  is walletWalletScopeAuthCredentials a && ok && is walletWalletScopeCredentials k

/-! ### Presentation -/

/-- `setup_create_request`, /repo/vercre-holder/tests/presentation.rs 27-51. -/
def presentReq (flow : Verifier.DeviceFlow) : Verifier.CreateRequestRequest where
  clientId := "http://localhost:8080"
  deviceFlow := flow
  purpose := "To verify employment status"
  inputDescriptors := [{ id := "EmployeeID_JWT", constraints := { fields := some [{ path := ["$.type"], filter := some { type_ := "string", value := .const "EmployeeIDCredential" } }] } }]

/-- `sample_credential`, presentation.rs 53-97. -/
def sampleVc : Verif.Vc where
  context := [.string "https://www.w3.org/2018/credentials/v1", .string "https://www.w3.org/2018/credentials/examples/v1"]
  type_ := .many ["VerifiableCredential", "EmployeeIDCredential"]
  issuer := .string "https://example.com/issuers/14"
  id := some "https://example.com/credentials/3732"
  validFrom := some 1700522515000000000
  subject := .one { id := some "did:example:ebfeb1f712ebc6f1c276e12ec21", claims := [("employeeId", .str "1234567890")] }
  validUntil := some 2018733715000000000

/-- `sample_credential`, presentation.rs 88-96. -/
def sample : Holder.Credential :=
  { issuer := "https://vercre.io", id := "https://example.com/credentials/3732", vc := sampleVc, display := none, issued := vcText sampleVc, issuanceDate := 0, logo := none }

/-- The wallet's verifier, provider.rs 97-117. -/
def vnet : Interop.VNet where
  env
  provider _ := { vprovider with jose, vpJson := fun v => some (writeVp testTime (vpOf v)), vcJson := fun v => some (writeVc testTime (vcOf v)),
                                 vcOfJson := fun j => (readVc testTime j).map vcSeen }
  others _ := []
  rest := others [sample]

/-- The wallet holding the sample credential, connected to the verifier. -/
def venv (v : World Verifier.VState) : HEnv where
  rng := rng
  fault _ := .ok
  oracle := vnet.oracle v 0

/-- `RequestResponse`, /repo/vercre-holder/src/presentation/request.rs 25-35. -/
def requestedJson : HRes Resp → Json
  | .ok (.request id s l) => .obj [("presentation_id", .str id), ("status", writeShownStatus s), ("credentials", .arr (l.map fun c => writeKept testTime (keptOf c)))]
  | _ => .str "not requested"

/-- `ResponseResponse`, /repo/crates/openid/src/verifier.rs 505-516. -/
def presentedJson : HRes Resp → Json
  | .ok (.presented r) => .obj [("redirect_uri", r.redirectUri.elim .null .str), ("response_code", r.responseCode.elim .null .str)]
  | _ => .str "not presented"

/-- The test from the request on, presentation.rs 116-150. -/
def answered (requested response : Json) (v : World Verifier.VState) (url : String) : Bool :=
  match calls (venv v) (Holder.start 0) [.request url, .authorizePresentation flow, .present flow] with
  | ([r, .ok (.status .authorized), p], _) => is requested (requestedJson r) && is response (presentedJson p)
  | _ => false

-- `e2e_presentation_uri`, presentation.rs 99-151
#guard match vask (vholding []) (.createRequest (presentReq .crossDevice)) with
  | (.ok (.createRequest { requestUri := some u, .. }), v) => answered walletPresentationPresentationRequested walletPresentationResponseResponse v u
  | _ => false

-- `e2e_presentation_obj`, presentation.rs 153-199: the request is passed as a query string
#guard match vask (vholding []) (.createRequest (presentReq .sameDevice)) with
  | (.ok (.createRequest { requestObject := some o, .. }), v) =>
    answered walletPresentationPresentationRequested2 walletPresentationResponseResponse2 v (String.ofList (toQuery o))
  | _ => false

end Verif.Conform
