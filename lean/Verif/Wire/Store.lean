import Verif.Wire.Struct
import Verif.Wire.Request
import Verif.Issuer.State
import Verif.TextStore
/-!
# The issuer's state on the wire

`State` and what it is made of, /repo/vercre-issuer/src/state.rs, with the offers and requests it holds (/repo/crates/openid/src/issuer.rs).
The values are those of the issuer's model; members it leaves out are written as the library writes them if they were never set.
-/
namespace Verif.Wire
open Issuer (Stage State)

/-! ### Claims, details and requests of the issuer's model as they are on the wire -/

mutual

/-- A claim with the members no endpoint reads left unset, issuer.rs 1890-1981. -/
def claimOf : Verif.Claim → Claim
  | .entry d => .entry { mandatory := d.mandatory }
  | .set m => .set (claimsOf m)

/-- As `claimOf`, of all members. issuer.rs 1890-1981. -/
def claimsOf : List (String × Verif.Claim) → List (String × Claim)
  | [] => []
  | (k, c) :: l => (k, claimOf c) :: claimsOf l

end

mutual

/-- What the endpoints see of a claim, issuer.rs 1890-1981. -/
def claimSeen : Claim → Verif.Claim
  | .entry d => .entry { mandatory := d.mandatory }
  | .set m => .set (claimsSeen m)

/-- As `claimSeen`, of all members. issuer.rs 1890-1981. -/
def claimsSeen : List (String × Claim) → List (String × Verif.Claim)
  | [] => []
  | (k, c) :: l => (k, claimSeen c) :: claimsSeen l

end

/-- A definition with the context left unset, issuer.rs 1853-1885. -/
def definitionOf (d : Verif.CredentialDefinition) : CredentialDefinition :=
  { type_ := d.type_, credentialSubject := d.credentialSubject.map claimsOf }

/-- What the endpoints see of a definition, issuer.rs 1853-1885. -/
def definitionSeen (d : CredentialDefinition) : Verif.CredentialDefinition :=
  { type_ := d.type_, credentialSubject := d.credentialSubject.map claimsSeen }

/-- A format, issuer.rs 717-767. -/
def formatOf : Verif.Format → Format
  | .jwtVcJson d => .jwtVcJson (definitionOf d)
  | .ldpVc d => .ldpVc (definitionOf d)
  | .jwtVcJsonLd d => .jwtVcJsonLd (definitionOf d)
  | .isoMdl t c => .isoMdl t (c.map claimsOf)
  | .vcSdJwt t c => .vcSdJwt t (c.map claimsOf)

/-- What the endpoints see of a format, issuer.rs 717-767. -/
def formatSeen : Format → Verif.Format
  | .jwtVcJson d => .jwtVcJson (definitionSeen d)
  | .ldpVc d => .ldpVc (definitionSeen d)
  | .jwtVcJsonLd d => .jwtVcJsonLd (definitionSeen d)
  | .isoMdl t c => .isoMdl t (c.map claimsSeen)
  | .vcSdJwt t c => .vcSdJwt t (c.map claimsSeen)

/-- Claims to narrow a credential to, issuer.rs 805-817. -/
def profileOf : Verif.ProfileClaims → ProfileClaims
  | .w3c d => .w3c (definitionOf d)
  | .isoMdl m => .isoMdl (claimsOf m)
  | .sdJwt m => .sdJwt (claimsOf m)

/-- What the endpoints see of them, issuer.rs 805-817. -/
def profileSeen : ProfileClaims → Verif.ProfileClaims
  | .w3c d => .w3c (definitionSeen d)
  | .isoMdl m => .isoMdl (claimsSeen m)
  | .sdJwt m => .sdJwt (claimsSeen m)

/-- The credential of a detail, issuer.rs 652-673. -/
def authorizationOf : Verif.CredentialAuthorization → CredentialAuthorization
  | .configurationId id c => .configurationId id (c.map profileOf)
  | .format f => .format (formatOf f)

/-- What the endpoints see of it, issuer.rs 652-673. -/
def authorizationSeen : CredentialAuthorization → Verif.CredentialAuthorization
  | .configurationId id c => .configurationId id (c.map profileSeen)
  | .format f => .format (formatSeen f)

/-- A detail without locations, issuer.rs 622-648. -/
def detailOf (d : Verif.AuthorizationDetail) : AuthorizationDetail := { credential := authorizationOf d.credential }

/-- What the endpoints see of a detail, issuer.rs 622-648. -/
def detailSeen (d : AuthorizationDetail) : Verif.AuthorizationDetail := { credential := authorizationSeen d.credential }

/-- `ResponseType`, oauth.rs 300-315. -/
def responseOf : Verif.ResponseType → ResponseType
  | .code => .code
  | .vpToken => .vpToken
  | .idToken => .idToken

/-- As `responseOf`, back. oauth.rs 300-315. -/
def responseSeen : ResponseType → Verif.ResponseType
  | .code => .code
  | .vpToken => .vpToken
  | .idToken => .idToken

/-- An authorization request, issuer.rs 524-608, without the members no endpoint reads. -/
def objectOf (o : Issuer.RequestObject) : RequestObject :=
  { credentialIssuer := o.credentialIssuer, responseType := responseOf o.responseType, clientId := o.clientId, redirectUri := o.redirectUri, state := o.state
    codeChallenge := o.codeChallenge, authorizationDetails := o.authorizationDetails.map (·.map detailOf), scope := o.scope, subjectId := o.subjectId
    issuerState := o.issuerState }

/-- What the endpoints see of it, issuer.rs 524-608. -/
def objectSeen (o : RequestObject) : Issuer.RequestObject :=
  { credentialIssuer := o.credentialIssuer, responseType := responseSeen o.responseType, clientId := o.clientId, redirectUri := o.redirectUri, state := o.state
    codeChallenge := o.codeChallenge, authorizationDetails := o.authorizationDetails.map (·.map detailSeen), scope := o.scope, subjectId := o.subjectId
    issuerState := o.issuerState }

/-! ### Credential requests -/

/-- Derived reader of the untagged `CredentialIssuance`, issuer.rs 1146-1162: by identifier if there is one, otherwise by format. -/
def readIssuance (m : List (String × Json)) : Option Issuer.CredentialIssuance :=
  match single m "credential_identifier" with
  | some (some (.str id)) => some (.identifier id)
  | _ => (readFormat m).map fun f => .format (formatSeen f)

/-- Derived writer of `CredentialIssuance`, issuer.rs 1146-1162. -/
def writeIssuance : Issuer.CredentialIssuance → List (String × Json)
  | .identifier id => [("credential_identifier", .str id)]
  | .format f => writeFormat (formatOf f)

/-- Derived reader of the internally tagged `SingleProof` inside `Proof::Single`, issuer.rs 1175-1215: an object only, since a member is flattened. -/
def readSingleProof : Json → Option Issuer.Proof
  | .obj m =>
    match single m "proof_type" with
    | some (some (.str "jwt")) =>
      match single m "jwt" with
      | some (some (.str j)) => some (.single j)
      | _ => none
    | _ => none
  | _ => none

/-- Derived reader of `MultipleProofs`, issuer.rs 1217-1225. -/
def readProofs : Json → Option Issuer.Proof
  | .obj [("jwt", j)] => (readVec readStr j).map .multiple
  | _ => none

/-- Derived reader of the externally tagged `Proof` from flattened members, issuer.rs 1175-1191: the first member named after a variant counts. The flattened
`Option` takes any error for `None`. -/
def readProof (m : List (String × Json)) : Option Issuer.Proof :=
  match m.find? fun p => p.1 = "proof" ∨ p.1 = "proofs" with
  | none => none
  | some (k, j) => if k = "proof" then readSingleProof j else readProofs j

/-- Derived writer of `Option<Proof>`, issuer.rs 1134-1136 and 1175-1225. -/
def writeProof : Option Issuer.Proof → List (String × Json)
  | none => []
  | some (.single j) => [("proof", .obj [("proof_type", .str "jwt"), ("jwt", .str j)])]
  | some (.multiple l) => [("proofs", .obj [("jwt", writeVec .str l)])]

/-- A `String` that is left out if it is empty (`skip_serializing_if = "String::is_empty"`). issuer.rs 1108-1142. -/
def nonEmpty (s : String) : Option Json := if s = "" then none else some (.str s)

/-- Derived reader of `CredentialRequest`, issuer.rs 1108-1142. Simplification: `credential_response_encryption`, which no endpoint reads, is passed over. -/
def readCredentialRequest (j : Json) : Option Issuer.CredentialRequest := do
  match ← flatFields ["credential_issuer", "access_token", "credential_response_encryption"] j with
  | ([i, t, _], rest) =>
    let i ← defaulted "" readStr i
    let t ← defaulted "" readStr t
    let c ← readIssuance rest
    some { credentialIssuer := i, accessToken := t, credential := c, proof := readProof rest }
  | _ => none

/-- Derived writer of `CredentialRequest`, issuer.rs 1108-1142. -/
def writeCredentialRequest (r : Issuer.CredentialRequest) : Json :=
  .obj (members [("credential_issuer", nonEmpty r.credentialIssuer), ("access_token", nonEmpty r.accessToken), ("credential_response_encryption", none)] ++
    (writeIssuance r.credential ++ writeProof r.proof))

/-! ### Offers -/

/-- An `i32`. issuer.rs 358-382. -/
def readI32 (j : Json) : Option Int := (readI64 j).filter fun n => -2 ^ 31 ≤ n ∧ n < 2 ^ 31

/-- Derived reader of `TxCode`, issuer.rs 358-382, of which only the presence is kept. -/
def readTxCode (j : Json) : Option Unit := do
  match ← structFields ["input_mode", "length", "description"] j with
  | [i, l, d] =>
    let _ ← optional readStr i
    let _ ← optional readI32 l
    let _ ← optional readStr d
    some ()
  | _ => none

/-- The `TxCode` of every offer that has one, /repo/vercre-issuer/src/create_offer.rs 243-247. -/
def writeTxCode : Json :=
  .obj (members [("input_mode", some (.str "numeric")), ("length", some (writeInt 6)), ("description", some (.str "Please provide the one-time code received"))])

/-- Derived reader of `PreAuthorizedCodeGrant`, issuer.rs 310-341. -/
def readPreAuthorized (j : Json) : Option Issuer.PreAuthorizedCodeGrant := do
  match ← structFields ["pre-authorized_code", "tx_code", "authorization_server"] j with
  | [c, t, s] =>
    let c ← required readStr c
    let t ← optional readTxCode t
    let s ← optional readStr s
    some { preAuthorizedCode := c, txCode := t.isSome, authorizationServer := s }
  | _ => none

/-- Derived writer of `PreAuthorizedCodeGrant`, issuer.rs 310-341. -/
def writePreAuthorized (g : Issuer.PreAuthorizedCodeGrant) : Json :=
  .obj (members [("pre-authorized_code", some (.str g.preAuthorizedCode)), ("tx_code", if g.txCode then some writeTxCode else none),
    ("authorization_server", g.authorizationServer.map .str)])

/-- Derived reader of `AuthorizationCodeGrant`, issuer.rs 288-306. -/
def readCodeGrant (j : Json) : Option Issuer.AuthorizationCodeGrant := do
  match ← structFields ["issuer_state", "authorization_server"] j with
  | [i, s] =>
    let i ← optional readStr i
    let s ← optional readStr s
    some { issuerState := i, authorizationServer := s }
  | _ => none

/-- Derived writer of `AuthorizationCodeGrant`, issuer.rs 288-306. -/
def writeCodeGrant (g : Issuer.AuthorizationCodeGrant) : Json :=
  .obj (members [("issuer_state", g.issuerState.map .str), ("authorization_server", g.authorizationServer.map .str)])

/-- Derived reader of `Grants`, issuer.rs 275-285. -/
def readGrants (j : Json) : Option Issuer.Grants := do
  match ← structFields ["authorization_code", "urn:ietf:params:oauth:grant-type:pre-authorized_code"] j with
  | [a, p] =>
    let a ← optional readCodeGrant a
    let p ← optional readPreAuthorized p
    some { authorizationCode := a, preAuthorizedCode := p }
  | _ => none

/-- Derived writer of `Grants`, issuer.rs 275-285. -/
def writeGrants (g : Issuer.Grants) : Json :=
  .obj (members [("authorization_code", g.authorizationCode.map writeCodeGrant),
    ("urn:ietf:params:oauth:grant-type:pre-authorized_code", g.preAuthorizedCode.map writePreAuthorized)])

/-- Derived reader of `CredentialOffer`, issuer.rs 184-216. -/
def readCredentialOffer (j : Json) : Option Issuer.CredentialOffer := do
  match ← structFields ["credential_issuer", "credential_configuration_ids", "grants"] j with
  | [i, c, g] =>
    let i ← defaulted "" readStr i
    let c ← required (readVec readStr) c
    let g ← optional readGrants g
    some { credentialIssuer := i, configIds := c, grants := g }
  | _ => none

/-- Derived writer of `CredentialOffer`, issuer.rs 184-216. -/
def writeCredentialOffer (o : Issuer.CredentialOffer) : Json :=
  .obj (members [("credential_issuer", nonEmpty o.credentialIssuer), ("credential_configuration_ids", some (writeVec .str o.configIds)),
    ("grants", o.grants.map writeGrants)])

/-! ### State -/

/-- Derived reader of the externally tagged `ItemType` from flattened members, state.rs 156-163: the first member named after a variant counts. -/
def readItemType (m : List (String × Json)) : Option Issuer.ItemType :=
  match m.find? fun p => p.1 = "AuthorizationDetail" ∨ p.1 = "Scope" with
  | none => none
  | some (k, j) => if k = "AuthorizationDetail" then (readDetail j).map fun d => .detail (detailSeen d) else (readStr j).map .scope

/-- Derived writer of `ItemType`, state.rs 156-163. -/
def writeItemType : Issuer.ItemType → List (String × Json)
  | .detail d => [("AuthorizationDetail", writeDetail (detailOf d))]
  | .scope s => [("Scope", .str s)]

/-- Derived reader of `AuthorizedItem`, state.rs 143-154. -/
def readItem (j : Json) : Option Issuer.AuthorizedItem := do
  match ← flatFields ["credential_configuration_id", "credential_identifiers"] j with
  | ([c, i], rest) =>
    let t ← readItemType rest
    let c ← required readStr c
    let i ← required (readVec readStr) i
    some { item := t, configId := c, identifiers := i }
  | _ => none

/-- Derived writer of `AuthorizedItem`, state.rs 143-154. -/
def writeItem (i : Issuer.AuthorizedItem) : Json :=
  .obj (writeItemType i.item ++ members [("credential_configuration_id", some (.str i.configId)), ("credential_identifiers", some (writeVec .str i.identifiers))])

/-- Derived reader of `Offer`, state.rs 77-87. -/
def readOffer (j : Json) : Option Issuer.Offer := do
  match ← structFields ["items", "tx_code"] j with
  | [i, t] =>
    let i ← optional (readVec readItem) i
    let t ← optional readStr t
    some { items := i, txCode := t }
  | _ => none

/-- A member that is written as `null` if it is `None`. state.rs 77-87. -/
def orNull {α : Type} (w : α → Json) : Option α → Json
  | none => .null
  | some a => w a

/-- Derived writer of `Offer`, state.rs 77-87: `items` is always written. -/
def writeOffer (o : Issuer.Offer) : Json := .obj (members [("items", some (orNull (writeVec writeItem) o.items)), ("tx_code", o.txCode.map .str)])

/-- Derived reader of `Authorization`, state.rs 112-130. -/
def readAuthorization (j : Json) : Option Issuer.Authorization := do
  match ← structFields ["client_id", "redirect_uri", "code_challenge", "code_challenge_method", "items"] j with
  | [c, r, ch, m, i] =>
    let c ← required readStr c
    let r ← optional readStr r
    let ch ← required readStr ch
    let _ ← required readMethod m
    let i ← required (readVec readItem) i
    some { clientId := c, redirectUri := r, codeChallenge := ch, codeChallengeMethod := .s256, items := i }
  | _ => none

/-- Derived writer of `Authorization`, state.rs 112-130. -/
def writeAuthorization (a : Issuer.Authorization) : Json :=
  .obj (members [("client_id", some (.str a.clientId)), ("redirect_uri", a.redirectUri.map .str), ("code_challenge", some (.str a.codeChallenge)),
    ("code_challenge_method", some (.str "S256")), ("items", some (writeVec writeItem a.items))])

/-- Derived reader of `Authorized`, state.rs 90-109. -/
def readAuthorized (j : Json) : Option Issuer.Authorized := do
  match ← structFields ["credential_identifier", "credential_configuration_id", "claim_ids"] j with
  | [i, c, l] =>
    let i ← required readStr i
    let c ← required readStr c
    let l ← optional (readVec readStr) l
    some { identifier := i, configId := c, claimIds := l }
  | _ => none

/-- Derived writer of `Authorized`, state.rs 90-109. -/
def writeAuthorized (a : Issuer.Authorized) : Json :=
  .obj (members [("credential_identifier", some (.str a.identifier)), ("credential_configuration_id", some (.str a.configId)),
    ("claim_ids", a.claimIds.map (writeVec .str))])

/-- A `HashMap` is an object. state.rs. -/
def readObj {α : Type} (r : Json → Option α) : Json → Option (Dict α)
  | .obj m => readMap r m
  | _ => none

/-- Derived reader of `Token`, state.rs 172-188. -/
def readToken (T : TimeText) (j : Json) : Option Issuer.Token := do
  match ← structFields ["access_token", "c_nonce", "c_nonce_expires_at", "credentials"] j with
  | [a, n, e, c] =>
    let a ← required readStr a
    let n ← required readStr n
    let e ← required T.readJson e
    let c ← required (readObj readAuthorized) c
    some { accessToken := a, cNonce := n, cNonceExpiresAt := e, credentials := c }
  | _ => none

/-- Derived writer of `Token`, state.rs 172-188. -/
def writeToken (T : TimeText) (t : Issuer.Token) : Json :=
  .obj (members [("access_token", some (.str t.accessToken)), ("c_nonce", some (.str t.cNonce)), ("c_nonce_expires_at", some (T.writeJson t.cNonceExpiresAt)),
    ("credentials", some (.obj (writeMap writeAuthorized t.credentials)))])

/-- Derived reader of `PushedAuthorization`, state.rs 132-139. -/
def readPushed (T : TimeText) (j : Json) : Option Stage := do
  match ← structFields ["request", "expires_at"] j with
  | [r, e] =>
    let r ← required readObject r
    let e ← required T.readJson e
    some (.pushed (objectSeen r) e)
  | _ => none

/-- Derived reader of `Deferrance`, state.rs 206-214. -/
def readDeferrance (j : Json) : Option Stage := do
  match ← structFields ["transaction_id", "credential_request"] j with
  | [t, r] =>
    let t ← required readStr t
    let r ← required readCredentialRequest r
    some (.deferred t r)
  | _ => none

/-- Derived reader of the externally tagged `Stage`, state.rs 40-74. Simplification: `issued`, which no endpoint stores, cannot be read. -/
def readStage (T : TimeText) : Json → Option Stage
  | .str s => if s = "unauthorized" then some .unauthorized else none
  | .obj [(k, j)] =>
    if k = "unauthorized" then (match j with | .null => some .unauthorized | _ => none)
    else if k = "pending" then (readCredentialOffer j).map .pending
    else if k = "offered" then (readOffer j).map .offered
    else if k = "pushed_authorization" then readPushed T j
    else if k = "authorized" then (readAuthorization j).map .authorized
    else if k = "validated" then (readToken T j).map .validated
    else if k = "deferred" then readDeferrance j
    else none
  | _ => none

/-- Derived writer of `Stage`, state.rs 40-74. Simplification: `issued`, which no endpoint stores, is written without its credential. -/
def writeStage (T : TimeText) : Stage → Json
  | .unauthorized => .str "unauthorized"
  | .pending o => .obj [("pending", writeCredentialOffer o)]
  | .offered o => .obj [("offered", writeOffer o)]
  | .pushed r e => .obj [("pushed_authorization", .obj (members [("request", some (.obj (writeObject (objectOf r)))), ("expires_at", some (T.writeJson e))]))]
  | .authorized a => .obj [("authorized", writeAuthorization a)]
  | .validated t => .obj [("validated", writeToken T t)]
  | .issued _ => .obj [("issued", .null)]
  | .deferred t r => .obj [("deferred", .obj (members [("transaction_id", some (.str t)), ("credential_request", some (writeCredentialRequest r))]))]

/-- Derived reader of `State`, state.rs 17-31. -/
def readState (T : TimeText) (j : Json) : Option State := do
  match ← structFields ["subject_id", "stage", "expires_at"] j with
  | [i, s, e] =>
    let i ← optional readStr i
    let s ← required (readStage T) s
    let e ← required T.readJson e
    some { subjectId := i, stage := s, expiresAt := e }
  | _ => none

/-- Derived writer of `State`, state.rs 17-31. -/
def writeState (T : TimeText) (s : State) : Json :=
  .obj (members [("subject_id", s.subjectId.map .str), ("stage", some (writeStage T s.stage)), ("expires_at", some (T.writeJson s.expiresAt))])

/-- `serde_json::to_vec` of a state, as characters (/repo/crates/test-utils/src/store/state.rs 24). -/
def stateText (T : TimeText) (s : State) : List Char := (writeState T s).chars

/-- `serde_json::from_slice` of a state, from characters (store/state.rs 33). -/
def textState (T : TimeText) (t : List Char) : Option State := (parseJson t).bind (readState T)

end Verif.Wire
