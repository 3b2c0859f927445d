import Verif.Wire.Struct
import Verif.W3c.Model
/-!
# Credentials and presentations on the wire

`VerifiableCredential`, `VerifiablePresentation` and what they are made of, /repo/crates/w3c-vc/src/model/vc.rs, types.rs, vp.rs and proof/integrity.rs,
with the claims of the tokens that carry them, proof/jose.rs. Unlike `Verif.Vc` nothing is left out.
A value of any kind (`serde_json::Value`) is kept as it is, including members that are repeated deep inside it.
Left out of `serde`'s reader of flattened members: variants given by their number.
-/
namespace Verif.Wire

/-- `Issuer`, vc.rs 165-175. -/
structure VcIssuer where
  id : String := ""
  extra : Option (Dict Json) := none

/-- `CredentialSubject`, vc.rs 182-191. -/
structure Subject where
  id : Option String := none
  claims : Dict Json := []

/-- `StatusMessage`, vc.rs 291-299. -/
structure StatusMessage where
  status : String
  message : String

/-- `CredentialStatus` with its only type `Bitstring`, vc.rs 197-260. -/
structure Status where
  id : Option String := none
  purpose : StatusPurpose
  listIndex : Nat
  listCredential : String
  size : Option Nat := none
  message : Option (List StatusMessage) := none
  reference : Option String := none

/-- `CredentialSchema`, vc.rs 309-317. -/
structure Schema where
  id : String := ""
  type_ : String := ""

/-- `RelatedResource`, vc.rs 324-346. -/
structure RelatedResource where
  id : String := ""
  mediaType : Option String := none
  digestSri : Option (Quota String) := none
  digestMultibase : Option (Quota String) := none

/-- `RefreshService`, vc.rs 354-365. -/
structure RefreshService where
  url : String := ""
  type_ : String := ""
  refreshToken : String := ""

/-- `Term`, vc.rs 375-387. Simplification: the policy is `null` or an object, all else cannot be written. -/
structure Term where
  type_ : String := ""
  id : Option String := none
  policy : Option (Dict Json) := none

/-- `Evidence`, vc.rs 396-431. -/
structure Evidence where
  id : Option String := none
  type_ : List String := []
  name : Option String := none
  description : Option String := none
  digestSri : Option (Quota String) := none
  digestMultibase : Option (Quota String) := none
  extra : Option (Dict String) := none

/-- `Proof`, /repo/crates/w3c-vc/src/proof/integrity.rs 66-137. -/
structure IntProof where
  id : Option String := none
  type_ : String := ""
  cryptosuite : Option String := none
  purpose : String := ""
  verificationMethod : String := ""
  created : Option Int := none
  expires : Option Int := none
  domain : Option (Quota String) := none
  challenge : Option String := none
  value : String := ""
  previous : Option (Quota String) := none
  nonce : Option String := none

/-- `VerifiableCredential`, vc.rs 29-133. Times are nanoseconds. -/
structure Vc where
  context : List (Kind Json) := []
  id : Option String := none
  type_ : Quota String := .one ""
  name : Option LangString := none
  description : Option LangString := none
  issuer : Kind VcIssuer := .string ""
  subject : Quota Subject := .one {}
  validFrom : Option Int := none
  validUntil : Option Int := none
  status : Option (Quota Status) := none
  schema : Option (Quota Schema) := none
  proof : Option (Quota IntProof) := none
  related : Option (Quota RelatedResource) := none
  refresh : Option RefreshService := none
  terms : Option (Quota Term) := none
  evidence : Option (Quota Evidence) := none

/-- `VerifiablePresentation`, /repo/crates/w3c-vc/src/model/vp.rs 26-63. -/
structure Vp where
  context : List (Kind Json) := []
  id : Option String := none
  type_ : Quota String := .one ""
  credentials : Option (List (Kind Vc)) := none
  holder : Option String := none
  proof : Option (Quota IntProof) := none

/-! ### Parts -/

/-- An `Option` that is written as `null` if it is `None`. What `serde` does in vc.rs 29-133. -/
def nullable {α : Type} (w : α → Json) : Option α → Json
  | none => .null
  | some a => w a

/-- Names of `Direction`, types.rs 128-136. -/
def directionOf (s : String) : Option Direction := if s = "ltr" then some .ltr else if s = "rtl" then some .rtl else none

/-- As `directionOf`, writing. types.rs 128-136. -/
def directionName : Direction → String
  | .ltr => "ltr"
  | .rtl => "rtl"

/-- Derived reader of `LangValue`, types.rs 107-124. -/
def readLangValue (j : Json) : Option LangValue := do
  match ← structFields ["@value", "@language", "@direction"] j with
  | [v, l, d] =>
    let v ← required readStr v
    let l ← optional readStr l
    let d ← optional (readUnit directionOf) d
    some { value := v, language := l, direction := d }
  | _ => none

/-- Derived writer of `LangValue`, types.rs 107-124. -/
def writeLangValue (v : LangValue) : Json :=
  .obj (members [("@value", some (.str v.value)), ("@language", v.language.map .str), ("@direction", v.direction.map fun d => .str (directionName d))])

/-- `LangString` is transparent, types.rs 15-17. -/
def readLang : Json → Option LangString := readKind (readQuota readLangValue)

/-- As `readLang`, writing. types.rs 15-17. -/
def writeLang : LangString → Json := writeKind (writeQuota writeLangValue)

/-- Derived reader of `Issuer`, vc.rs 163-175. The flattened `Option` is always `Some`, since every object is a map. -/
def readIssuer (j : Json) : Option VcIssuer := do
  match ← flatFields ["id"] j with
  | ([i], rest) =>
    let i ← defaulted "" readStr i
    some { id := i, extra := readMap some rest }
  | _ => none

/-- Derived writer of `Issuer`, vc.rs 163-175. -/
def writeIssuer (i : VcIssuer) : Json := .obj (members [("id", some (.str i.id))] ++ writeMap id (i.extra.getD []))

/-- Derived reader of `CredentialSubject`, vc.rs 180-191. -/
def readSubject (j : Json) : Option Subject := do
  match ← flatFields ["id"] j with
  | ([i], rest) =>
    let i ← optional readStr i
    let c ← readMap some rest
    some { id := i, claims := c }
  | _ => none

/-- Derived writer of `CredentialSubject`, vc.rs 180-191. -/
def writeSubject (s : Subject) : Json := .obj (members [("id", s.id.map .str)] ++ writeMap id s.claims)

/-- Names of `StatusPurpose`, vc.rs 264-275. -/
def purposeOf (s : String) : Option StatusPurpose :=
  if s = "revocation" then some .revocation else if s = "suspension" then some .suspension else if s = "message" then some .message else none

/-- As `purposeOf`, writing. vc.rs 264-275. -/
def purposeName : StatusPurpose → String
  | .revocation => "revocation"
  | .suspension => "suspension"
  | .message => "message"

/-- Derived reader of `StatusMessage`, vc.rs 289-299. -/
def readMessage (j : Json) : Option StatusMessage := do
  match ← structFields ["status", "message"] j with
  | [s, m] =>
    let s ← required readStr s
    let m ← required readStr m
    some { status := s, message := m }
  | _ => none

/-- Derived writer of `StatusMessage`, vc.rs 289-299. -/
def writeMessage (m : StatusMessage) : Json := .obj (members [("status", some (.str m.status)), ("message", some (.str m.message))])

/-- The names of the members of `Bitstring`, vc.rs 233-260: the `rename_all` of the enum that holds it (vc.rs 214) names the members of struct variants, of
which there are none. -/
def bitstringNames : List String :=
  ["status_purpose", "status_list_index", "status_list_credential", "status_size", "status_message", "status_reference"]

/-- Derived reader of `CredentialStatus` with the internally tagged `CredentialStatusType` flattened into it, vc.rs 195-216. -/
def readStatus (j : Json) : Option Status := do
  match ← flatFields ["id", "type"] j with
  | ([i, some (.str "BitstringStatusListEntry")], rest) =>
    let i ← optional readStr i
    match ← bitstringNames.mapM (single rest) with
    | [p, n, c, s, m, r] =>
      let p ← required (readUnit purposeOf) p
      let n ← required readUsize n
      let c ← required readStr c
      let s ← optional readUsize s
      let m ← optional (readVec readMessage) m
      let r ← optional readStr r
      some { id := i, purpose := p, listIndex := n, listCredential := c, size := s, message := m, reference := r }
    | _ => none
  | _ => none

/-- Derived writer of `CredentialStatus`, vc.rs 195-260. -/
def writeStatus (s : Status) : Json :=
  .obj (members [("id", s.id.map .str), ("type", some (.str "BitstringStatusListEntry"))] ++
    members [("status_purpose", some (.str (purposeName s.purpose))), ("status_list_index", some (writeNat s.listIndex)),
      ("status_list_credential", some (.str s.listCredential)), ("status_size", s.size.map writeNat),
      ("status_message", s.message.map (writeVec writeMessage)), ("status_reference", s.reference.map .str)])

/-- Derived reader of `CredentialSchema`, vc.rs 307-317. -/
def readSchema (j : Json) : Option Schema := do
  match ← structDefault ["id", "type"] j with
  | [i, t] =>
    let i ← defaulted "" readStr i
    let t ← defaulted "" readStr t
    some { id := i, type_ := t }
  | _ => none

/-- Derived writer of `CredentialSchema`, vc.rs 307-317. -/
def writeSchema (s : Schema) : Json := .obj (members [("id", some (.str s.id)), ("type", some (.str s.type_))])

/-- Derived reader of `RelatedResource`, vc.rs 320-346. -/
def readRelated (j : Json) : Option RelatedResource := do
  match ← structDefault ["id", "mediaType", "digestSRI", "digestMultibase"] j with
  | [i, m, s, d] =>
    let i ← defaulted "" readStr i
    let m ← optional readStr m
    let s ← optional (readQuota readStr) s
    let d ← optional (readQuota readStr) d
    some { id := i, mediaType := m, digestSri := s, digestMultibase := d }
  | _ => none

/-- Derived writer of `RelatedResource`, vc.rs 320-346. -/
def writeRelated (r : RelatedResource) : Json :=
  .obj (members [("id", some (.str r.id)), ("mediaType", r.mediaType.map .str), ("digestSRI", r.digestSri.map (writeQuota .str)),
    ("digestMultibase", r.digestMultibase.map (writeQuota .str))])

/-- Derived reader of `RefreshService`, vc.rs 351-365. -/
def readRefresh (j : Json) : Option RefreshService := do
  match ← structDefault ["url", "type", "refreshToken"] j with
  | [u, t, r] =>
    let u ← defaulted "" readStr u
    let t ← defaulted "" readStr t
    let r ← defaulted "" readStr r
    some { url := u, type_ := t, refreshToken := r }
  | _ => none

/-- Derived writer of `RefreshService`, vc.rs 351-365. -/
def writeRefresh (r : RefreshService) : Json :=
  .obj (members [("url", some (.str r.url)), ("type", some (.str r.type_)), ("refreshToken", some (.str r.refreshToken))])

/-- Derived reader of `Term`, vc.rs 373-387. The flattened policy is always an object. -/
def readTerm (j : Json) : Option Term := do
  match ← flatFields ["type", "id"] j with
  | ([t, i], rest) =>
    let t ← defaulted "" readStr t
    let i ← optional readStr i
    some { type_ := t, id := i, policy := readMap some rest }
  | _ => none

/-- Derived writer of `Term`, vc.rs 373-387. -/
def writeTerm (t : Term) : Json :=
  .obj (members [("type", some (.str t.type_)), ("id", some (nullable .str t.id))] ++ writeMap id (t.policy.getD []))

/-- Derived reader of `Evidence`, vc.rs 394-431. The flattened `Option` takes any error for `None`. -/
def readEvidence (j : Json) : Option Evidence := do
  match ← flatFields ["id", "type", "name", "description", "digestSRI", "digestMultibase"] j with
  | ([i, t, n, d, s, m], rest) =>
    let i ← optional readStr i
    let t ← defaulted [] (readVec readStr) t
    let n ← optional readStr n
    let d ← optional readStr d
    let s ← optional (readQuota readStr) s
    let m ← optional (readQuota readStr) m
    some { id := i, type_ := t, name := n, description := d, digestSri := s, digestMultibase := m, extra := readMap readStr rest }
  | _ => none

/-- Derived writer of `Evidence`, vc.rs 394-431. -/
def writeEvidence (e : Evidence) : Json :=
  .obj (members [("id", e.id.map .str), ("type", some (writeVec .str e.type_)), ("name", some (nullable .str e.name)),
    ("description", some (nullable .str e.description)), ("digestSRI", e.digestSri.map (writeQuota .str)),
    ("digestMultibase", e.digestMultibase.map (writeQuota .str))] ++ writeMap .str (e.extra.getD []))

/-- The names of the members of `Proof`, integrity.rs 64-137. -/
def proofNames : List String :=
  ["id", "type", "cryptosuite", "proofPurpose", "verificationMethod", "created", "expires", "domain", "challenge", "proofValue", "previousProof", "nonce"]

/-- Derived reader of `Proof`, integrity.rs 64-137. -/
def readIntProof (T : TimeText) (j : Json) : Option IntProof := do
  match ← structDefault proofNames j with
  | [i, t, c, p, v, cr, ex, d, ch, pv, pr, n] =>
    let i ← optional readStr i
    let t ← defaulted "" readStr t
    let c ← optional readStr c
    let p ← defaulted "" readStr p
    let v ← defaulted "" readStr v
    let cr ← optional T.readJson cr
    let ex ← optional T.readJson ex
    let d ← optional (readQuota readStr) d
    let ch ← optional readStr ch
    let pv ← defaulted "" readStr pv
    let pr ← optional (readQuota readStr) pr
    let n ← optional readStr n
    some { id := i, type_ := t, cryptosuite := c, purpose := p, verificationMethod := v, created := cr, expires := ex, domain := d, challenge := ch,
           value := pv, previous := pr, nonce := n }
  | _ => none

/-- Derived writer of `Proof`, integrity.rs 64-137. -/
def writeIntProof (T : TimeText) (p : IntProof) : Json :=
  .obj (members [("id", p.id.map .str), ("type", some (.str p.type_)), ("cryptosuite", p.cryptosuite.map .str), ("proofPurpose", some (.str p.purpose)),
    ("verificationMethod", some (.str p.verificationMethod)), ("created", p.created.map T.writeJson), ("expires", p.expires.map T.writeJson),
    ("domain", p.domain.map (writeQuota .str)), ("challenge", p.challenge.map .str), ("proofValue", some (.str p.value)),
    ("previousProof", p.previous.map (writeQuota .str)), ("nonce", p.nonce.map .str)])

/-! ### Credentials -/

/-- The names of the members of `VerifiableCredential`, vc.rs 27-133. -/
def vcNames : List String :=
  ["@context", "id", "type", "name", "description", "issuer", "credentialSubject", "validFrom", "validUntil", "credentialStatus", "credentialSchema", "proof",
    "relatedResource", "refreshService", "termsOfUse", "evidence"]

/-- Derived reader of `VerifiableCredential`, vc.rs 27-133. -/
def readVc (T : TimeText) (j : Json) : Option Vc := do
  match ← structDefault vcNames j with
  | [c, i, t, n, d, is, s, f, u, st, sc, p, r, rf, te, e] =>
    let c ← defaulted [] (readVec (readKind some)) c
    let i ← optional readStr i
    let t ← defaulted (.one "") (readQuota readStr) t
    let n ← optional readLang n
    let d ← optional readLang d
    let is ← defaulted (.string "") (readKind readIssuer) is
    let s ← defaulted (.one {}) (readQuota readSubject) s
    let f ← optional T.readJson f
    let u ← optional T.readJson u
    let st ← optional (readQuota readStatus) st
    let sc ← optional (readQuota readSchema) sc
    let p ← optional (readQuota (readIntProof T)) p
    let r ← optional (readQuota readRelated) r
    let rf ← optional readRefresh rf
    let te ← optional (readQuota readTerm) te
    let e ← optional (readQuota readEvidence) e
    some { context := c, id := i, type_ := t, name := n, description := d, issuer := is, subject := s, validFrom := f, validUntil := u, status := st,
           schema := sc, proof := p, related := r, refresh := rf, terms := te, evidence := e }
  | _ => none

/-- Derived writer of `VerifiableCredential`, vc.rs 27-133. -/
def writeVc (T : TimeText) (v : Vc) : Json :=
  .obj (members [("@context", some (writeVec (writeKind id) v.context)), ("id", some (nullable .str v.id)), ("type", some (writeQuota .str v.type_)),
    ("name", v.name.map writeLang), ("description", v.description.map writeLang), ("issuer", some (writeKind writeIssuer v.issuer)),
    ("credentialSubject", some (writeQuota writeSubject v.subject)), ("validFrom", some (nullable T.writeJson v.validFrom)),
    ("validUntil", v.validUntil.map T.writeJson), ("credentialStatus", v.status.map (writeQuota writeStatus)),
    ("credentialSchema", v.schema.map (writeQuota writeSchema)), ("proof", v.proof.map (writeQuota (writeIntProof T))),
    ("relatedResource", v.related.map (writeQuota writeRelated)), ("refreshService", v.refresh.map writeRefresh),
    ("termsOfUse", v.terms.map (writeQuota writeTerm)), ("evidence", v.evidence.map (writeQuota writeEvidence))])

/-- The names of the members of `VerifiablePresentation`, vp.rs 24-63. -/
def vpNames : List String := ["@context", "id", "type", "verifiableCredential", "holder", "proof"]

/-- Derived reader of `VerifiablePresentation`, vp.rs 24-63. -/
def readVp (T : TimeText) (j : Json) : Option Vp := do
  match ← structDefault vpNames j with
  | [c, i, t, v, h, p] =>
    let c ← defaulted [] (readVec (readKind some)) c
    let i ← optional readStr i
    let t ← defaulted (.one "") (readQuota readStr) t
    let v ← optional (readVec (readKind (readVc T))) v
    let h ← optional readStr h
    let p ← optional (readQuota (readIntProof T)) p
    some { context := c, id := i, type_ := t, credentials := v, holder := h, proof := p }
  | _ => none

/-- Derived writer of `VerifiablePresentation`, vp.rs 24-63. -/
def writeVp (T : TimeText) (v : Vp) : Json :=
  .obj (members [("@context", some (writeVec (writeKind id) v.context)), ("id", v.id.map .str), ("type", some (writeQuota .str v.type_)),
    ("verifiableCredential", v.credentials.map (writeVec (writeKind (writeVc T)))), ("holder", v.holder.map .str),
    ("proof", v.proof.map (writeQuota (writeIntProof T)))])

/-! ### Claims of the tokens -/

/-- `VcClaims`, /repo/crates/w3c-vc/src/proof/jose.rs 50-85. Times are seconds. -/
structure VcClaims where
  sub : String
  nbf : Option Int := none
  iss : String
  iat : Int
  jti : String
  exp : Option Int := none
  vc : Vc

/-- Whole seconds (`DateTime::timestamp`). proof/jose.rs 106. -/
def seconds (t : Int) : Int := t.fdiv 1000000000

/-- The subject a token is for, jose.rs 89-92; `none` is the panic on an empty list. -/
def Vc.firstSubject (vc : Vc) : Option Subject :=
  match vc.subject with
  | .one s => some s
  | .many l => l.head?

/-- The issuer a token is by, jose.rs 94-97. -/
def Vc.issuerId (vc : Vc) : String :=
  match vc.issuer with
  | .string i => i
  | .object o => o.id

/-- `VcClaims::from_vc`, jose.rs 88-109; `none` is the panic on an empty list of subjects. -/
def VcClaims.ofVc (vc : Vc) (issuedAt : Int) : Option VcClaims :=
  vc.firstSubject.map fun s =>
    { sub := s.id.getD "", iss := vc.issuerId, iat := issuedAt, jti := vc.id.getD "", exp := vc.validUntil.map seconds, vc := vc }

/-- Derived reader of `VcClaims`, jose.rs 50-85. -/
def readVcClaims (T : TimeText) (j : Json) : Option VcClaims := do
  match ← structFields ["sub", "nbf", "iss", "iat", "jti", "exp", "vc"] j with
  | [s, n, i, a, t, e, v] =>
    let s ← required readStr s
    let n ← optional readI64 n
    let i ← required readStr i
    let a ← required readI64 a
    let t ← required readStr t
    let e ← optional readI64 e
    let v ← required (readVc T) v
    some { sub := s, nbf := n, iss := i, iat := a, jti := t, exp := e, vc := v }
  | _ => none

/-- Derived writer of `VcClaims`, jose.rs 50-85. -/
def writeVcClaims (T : TimeText) (c : VcClaims) : Json :=
  .obj (members [("sub", some (.str c.sub)), ("nbf", some (nullable writeInt c.nbf)), ("iss", some (.str c.iss)), ("iat", some (writeInt c.iat)),
    ("jti", some (.str c.jti)), ("exp", c.exp.map writeInt), ("vc", some (writeVc T c.vc))])

/-- `VpClaims`, jose.rs 115-146. -/
structure VpClaims where
  iss : String
  jti : String
  aud : String
  nonce : String
  nbf : Int
  iat : Int
  exp : Int
  vp : Vp

/-- `From<VerifiablePresentation>` with the two members `create` sets, jose.rs 148-166 and /repo/crates/w3c-vc/src/proof.rs 104-109. The clock is read for each of
the three times. -/
def VpClaims.ofVp (vp : Vp) (clientId nonce : String) (now now' now'' : Int) : VpClaims :=
  { iss := vp.holder.getD "", jti := vp.id.getD "", aud := clientId, nonce := nonce, nbf := seconds now, iat := seconds now',
    exp := seconds (now'' + 3600 * 1000000000), vp := vp }

/-- Derived reader of `VpClaims`, jose.rs 115-146. -/
def readVpClaims (T : TimeText) (j : Json) : Option VpClaims := do
  match ← structFields ["iss", "jti", "aud", "nonce", "nbf", "iat", "exp", "vp"] j with
  | [i, t, a, n, b, at_, e, v] =>
    let i ← required readStr i
    let t ← required readStr t
    let a ← required readStr a
    let n ← required readStr n
    let b ← required readI64 b
    let at_ ← required readI64 at_
    let e ← required readI64 e
    let v ← required (readVp T) v
    some { iss := i, jti := t, aud := a, nonce := n, nbf := b, iat := at_, exp := e, vp := v }
  | _ => none

/-- Derived writer of `VpClaims`, jose.rs 115-146. -/
def writeVpClaims (T : TimeText) (c : VpClaims) : Json :=
  .obj (members [("iss", some (.str c.iss)), ("jti", some (.str c.jti)), ("aud", some (.str c.aud)), ("nonce", some (.str c.nonce)),
    ("nbf", some (writeInt c.nbf)), ("iat", some (writeInt c.iat)), ("exp", some (writeInt c.exp)), ("vp", some (writeVp T c.vp))])

end Verif.Wire
