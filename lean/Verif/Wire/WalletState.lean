import Verif.Wire.Answer
import Verif.Wire.Asked
import Verif.Wire.IssuerMeta
import Verif.Wire.Issued
import Verif.Wire.Net
/-!
# What the wallet keeps between calls, as JSON

`StateStore` (/repo/crates/openid/src/provider.rs 13-25) takes and hands back values as `impl Serialize` and `DeserializeOwned`: what the wallet's store keeps is what the
derived writers of `Issuance` and `Presentation` made of the flow.
-/
namespace Verif.Wire

/-! ### Credentials the wallet holds -/

/-- `Credential`, /repo/vercre-holder/src/credential.rs 16-45. The issuance date is in nanoseconds. -/
structure Kept where
  id : String
  issuer : String
  vc : Vc
  issued : String
  issuanceDate : Int
  display : Option (List CredentialDisplay)
  logo : Option Holder.Logo

/-- Derived reader of `Logo`, credential.rs 56-66. -/
def readLogo (j : Json) : Option Holder.Logo := do
  match ← structFields ["image", "mediaType"] j with
  | [i, m] =>
    let i ← required readStr i
    let m ← required readStr m
    some { image := i, mediaType := m }
  | _ => none

/-- Derived writer of `Logo`, credential.rs 56-66. -/
def writeLogo (l : Holder.Logo) : Json := .obj (members [("image", some (.str l.image)), ("mediaType", some (.str l.mediaType))])

/-- Derived reader of `Credential`, credential.rs 15-45. -/
def readKept (T : TimeText) (j : Json) : Option Kept := do
  match ← structFields ["id", "issuer", "vc", "issued", "issuance_date", "display", "logo"] j with
  | [a, b, c, d, e, f, g] =>
    let a ← required readStr a
    let b ← required readStr b
    let c ← required (readVc T) c
    let d ← required readStr d
    let e ← required T.readJson e
    let f ← optional (readVec readCredentialDisplay) f
    let g ← optional readLogo g
    some { id := a, issuer := b, vc := c, issued := d, issuanceDate := e, display := f, logo := g }
  | _ => none

/-- Derived writer of `Credential`, credential.rs 15-45. -/
def writeKept (T : TimeText) (k : Kept) : Json :=
  .obj (members [("id", some (.str k.id)), ("issuer", some (.str k.issuer)), ("vc", some (writeVc T k.vc)), ("issued", some (.str k.issued)),
    ("issuance_date", some (T.writeJson k.issuanceDate)), ("display", k.display.map (writeVec writeCredentialDisplay)), ("logo", k.logo.map writeLogo)])

/-! ### Issuance -/

/-- `Status`, /repo/vercre-holder/src/issuance.rs 141-175: the variants without content. -/
def statusNamed (s : String) : Option Holder.Status :=
  if s = "Inactive" then some .inactive
  else if s = "Offered" then some .offered
  else if s = "Ready" then some .ready
  else if s = "PendingPin" then some .pendingPin
  else if s = "Accepted" then some .accepted
  else if s = "TokenReceived" then some .tokenReceived
  else if s = "Requested" then some .requested
  else none

/-- Derived reader of `Status`, issuance.rs 145-175. -/
def readFlowStatus : Json → Option Holder.Status
  | .obj [("Failed", .str m)] => some (.failed m)
  | j => readUnit statusNamed j

/-- Derived writer of `Status`, issuance.rs 145-175. -/
def writeFlowStatus : Holder.Status → Json
  | .inactive => .str "Inactive"
  | .offered => .str "Offered"
  | .ready => .str "Ready"
  | .pendingPin => .str "PendingPin"
  | .accepted => .str "Accepted"
  | .tokenReceived => .str "TokenReceived"
  | .requested => .str "Requested"
  | .failed m => .obj [("Failed", .str m)]

/-- `Issuance`, issuance.rs 38-93, with the issuer's and the server's metadata in full. Simplification: of the description of a transaction code in an offer only
whether there is one is kept. -/
structure Flow where
  id : String
  clientId : String
  subjectId : String
  status : Holder.Status
  offer : Issuer.CredentialOffer
  issuer : IssuerMeta
  server : ServerMeta
  accepted : Option (List AuthorizationDetail)
  pin : Option String
  codeVerifier : Option String
  codeChallenge : Option String
  token : TokenResponse
  scope : Option String
  deferred : Dict String
  notificationId : Option String
  credentials : List Kept

/-- Members of `Issuance`, issuance.rs 38-93. -/
def flowNames : List String :=
  ["id", "client_id", "subject_id", "status", "offer", "issuer", "authorization_server", "accepted", "pin", "code_verifier", "code_challenge", "token", "scope", "deferred",
    "notification_id", "credentials"]

/-- Derived reader of `Issuance`, issuance.rs 37-93. -/
def readFlow (T : TimeText) (j : Json) : Option Flow := do
  match ← structFields flowNames j with
  | [a, b, c, d, e, f, g, h, i, k, l, m, n, o, p, q] =>
    let a ← required readStr a
    let b ← required readStr b
    let c ← required readStr c
    let d ← required readFlowStatus d
    let e ← required readCredentialOffer e
    let f ← required readIssuerMeta f
    let g ← required readServer g
    let h ← optional (readVec readDetail) h
    let i ← optional readStr i
    let k ← optional readStr k
    let l ← optional readStr l
    let m ← required readTokenResponse m
    let n ← optional readStr n
    let o ← required (readDictOf readStr) o
    let p ← optional readStr p
    let q ← required (readVec (readKept T)) q
    some { id := a, clientId := b, subjectId := c, status := d, offer := e, issuer := f, server := g, accepted := h, pin := i, codeVerifier := k, codeChallenge := l,
           token := m, scope := n, deferred := o, notificationId := p, credentials := q }
  | _ => none

/-- Derived writer of `Issuance`, issuance.rs 37-93: what is `None` is written as `null`. -/
def writeFlow (T : TimeText) (i : Flow) : Json :=
  .obj (members [("id", some (.str i.id)), ("client_id", some (.str i.clientId)), ("subject_id", some (.str i.subjectId)), ("status", some (writeFlowStatus i.status)),
    ("offer", some (writeCredentialOffer i.offer)), ("issuer", some (writeIssuerMeta i.issuer)), ("authorization_server", some (writeServer i.server)),
    ("accepted", some (nullable (writeVec writeDetail) i.accepted)), ("pin", some (nullable .str i.pin)), ("code_verifier", some (nullable .str i.codeVerifier)),
    ("code_challenge", some (nullable .str i.codeChallenge)), ("token", some (writeTokenResponse i.token)), ("scope", some (nullable .str i.scope)),
    ("deferred", some (.obj (writeMap .str i.deferred))), ("notification_id", some (nullable .str i.notificationId)),
    ("credentials", some (writeVec (writeKept T) i.credentials))])

/-! ### Presentation -/

/-- `Status`, /repo/vercre-holder/src/presentation.rs 50-66: the variants without content. -/
def shownNamed (s : String) : Option Holder.PStatus :=
  if s = "Inactive" then some .inactive else if s = "Requested" then some .requested else if s = "Authorized" then some .authorized else none

/-- Derived reader of `Status`, presentation.rs 51-66. -/
def readShownStatus : Json → Option Holder.PStatus
  | .obj [("Failed", .str m)] => some (.failed m)
  | j => readUnit shownNamed j

/-- Derived writer of `Status`, presentation.rs 51-66. -/
def writeShownStatus : Holder.PStatus → Json
  | .inactive => .str "Inactive"
  | .requested => .str "Requested"
  | .authorized => .str "Authorized"
  | .failed m => .obj [("Failed", .str m)]

/-- `Presentation`, presentation.rs 25-48. -/
structure Shown where
  id : String
  status : Holder.PStatus
  request : Verifier.RequestObject
  credentials : List Kept
  filter : Dif.Constraints
  submission : Dif.PresentationSubmission

/-- Derived reader of `Presentation`, presentation.rs 24-48. -/
def readShown (T : TimeText) (j : Json) : Option Shown := do
  match ← structFields ["id", "status", "request", "credentials", "filter", "submission"] j with
  | [a, b, c, d, e, f] =>
    let a ← required readStr a
    let b ← required readShownStatus b
    let c ← required readAsk c
    let d ← required (readVec (readKept T)) d
    let e ← required readConstraints e
    let f ← required readSubmission f
    some { id := a, status := b, request := c, credentials := d, filter := e, submission := f }
  | _ => none

/-- Derived writer of `Presentation`, presentation.rs 24-48. -/
def writeShown (T : TimeText) (p : Shown) : Json :=
  .obj (members [("id", some (.str p.id)), ("status", some (writeShownStatus p.status)), ("request", some (.obj (writeAsk p.request))),
    ("credentials", some (writeVec (writeKept T) p.credentials)), ("filter", some (writeConstraints p.filter)), ("submission", some (writeSubmission p.submission))])

end Verif.Wire
