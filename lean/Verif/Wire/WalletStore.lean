import Verif.Wire.WalletState
import Verif.Holder.Presentation
/-!
# The wallet over a store that keeps text

`StateStore` (/repo/crates/openid/src/provider.rs 13-25) keeps what the derived writers of `Issuance` and `Presentation` made of the wallet's flows. Here the wallet's
endpoints run on a store of text.
-/
namespace Verif.Wire
open Holder (HVal HProg HRes HEnv HWorld HStep)

/-! ### What the wallet's endpoints see of what is kept -/

/-- What of a credential's status is kept in the models, /repo/crates/w3c-vc/src/model/vc.rs 197-260. -/
def statusSeen (s : Status) : CredentialStatus :=
  { id := s.id, purpose := s.purpose, listIndex := s.listIndex, listCredential := s.listCredential, size := s.size }

/-- What of a proof is kept in the models, /repo/crates/w3c-vc/src/proof/integrity.rs 66-137. -/
def proofSeen (p : IntProof) : IntegrityProof :=
  { type_ := p.type_, verificationMethod := p.verificationMethod, challenge := p.challenge, proofValue := p.value }

/-- What of a credential is kept in the models, vc.rs 29-133. -/
def vcSeen (v : Vc) : Verif.Vc :=
  { context := v.context, id := v.id, type_ := v.type_, name := v.name, description := v.description
    issuer := match v.issuer with | .string i => .string i | .object o => .object { id := o.id }
    subject := quotaMap (fun s => { id := s.id, claims := s.claims }) v.subject
    validFrom := v.validFrom, validUntil := v.validUntil, status := v.status.map (quotaMap statusSeen), proof := v.proof.map (quotaMap proofSeen) }

/-- What was received in full: the models of the endpoints keep only the members they read.
The wallet over the store of /repo/examples/wallet/src-tauri/src/provider.rs 38-66. -/
structure Pages where
  T : TimeText
  issuer : Verif.Issuer → IssuerMeta
  server : Verif.Server → ServerMeta
  display : Verif.CredentialDisplay → CredentialDisplay
  vc : Verif.Vc → Vc

namespace Pages
variable (p : Pages)

/-- A credential to keep, /repo/vercre-holder/src/credential.rs 16-45: the issuance date is made of whole seconds (credentials.rs 293-295). -/
def keptOf (c : Holder.Credential) : Kept :=
  { id := c.id, issuer := c.issuer, vc := p.vc c.vc, issued := c.issued, issuanceDate := c.issuanceDate * 1000000000, display := c.display.map (·.map p.display)
    logo := c.logo }

/-- What is seen of a credential that was kept, credential.rs 16-45. -/
def keptSeen (c : Kept) : Holder.Credential :=
  { id := c.id, issuer := c.issuer, vc := vcSeen c.vc, issued := c.issued, issuanceDate := seconds c.issuanceDate, display := c.display.map (·.map displaySeen)
    logo := c.logo }

/-- A flow of issuance to keep, /repo/vercre-holder/src/issuance.rs 38-93. -/
def flowOf (i : Holder.Issuance) : Flow :=
  { id := i.id, clientId := i.clientId, subjectId := i.subjectId, status := i.status, offer := i.offer, issuer := p.issuer i.issuer, server := p.server i.server
    accepted := i.accepted.map (·.map detailOf), pin := i.pin, codeVerifier := i.codeVerifier, codeChallenge := i.codeChallenge, token := tokenResponseOf i.token
    scope := i.scope, deferred := i.deferred, notificationId := i.notificationId, credentials := i.credentials.map p.keptOf }

/-- What is seen of a flow that was kept, issuance.rs 38-93. -/
def flowSeen (i : Flow) : Holder.Issuance :=
  { id := i.id, clientId := i.clientId, subjectId := i.subjectId, status := i.status, offer := i.offer, issuer := issuerSeen i.issuer, server := serverSeen i.server
    accepted := i.accepted.map (·.map detailSeen), pin := i.pin, codeVerifier := i.codeVerifier, codeChallenge := i.codeChallenge, token := tokenResponseSeen i.token
    scope := i.scope, deferred := i.deferred, notificationId := i.notificationId, credentials := i.credentials.map keptSeen }

/-- A flow of presentation to keep, /repo/vercre-holder/src/presentation.rs 25-48: the submission is never written back. -/
def shownOf (s : Holder.Presentation) : Shown :=
  { id := s.id, status := s.status, request := s.request, credentials := s.credentials.map p.keptOf, filter := s.filter
    submission := { id := "", definitionId := "", descriptorMap := [] } }

/-- What is seen of a flow that was kept, presentation.rs 25-48. -/
def shownSeen (s : Shown) : Holder.Presentation :=
  { id := s.id, status := s.status, request := s.request, credentials := s.credentials.map keptSeen, filter := s.filter }

/-- What is stored as text, provider.rs 18. -/
def text : HVal → List Char
  | .issuance i => (writeFlow p.T (p.flowOf i)).chars
  | .presentation s => (writeShown p.T (p.shownOf s)).chars

/-- What is made of a text, provider.rs 21. An endpoint that reads the one kind takes the other for an error. -/
def value (t : List Char) : Option HVal :=
  (parseJson t).bind fun j => ((readFlow p.T j).map fun i => .issuance (flowSeen i)).or ((readShown p.T j).map fun s => .presentation (shownSeen s))

end Pages

/-! ### Endpoints over text -/

/-- The wallet's world with a store of text. The wallet over the store of /repo/examples/wallet/src-tauri/src/provider.rs 38-66. -/
structure TextWallet where
  store : String → Option (List Char)
  now : Int
  drawn : Nat
  ops : Nat
  log : List Holder.Entry
  recent : List Holder.Event

/-- The wallet's world with every flow written. The wallet over the store of /repo/examples/wallet/src-tauri/src/provider.rs 38-66. -/
def Pages.encode (p : Pages) (w : HWorld) : TextWallet :=
  { store := encStore p.text w.store, now := w.now, drawn := w.drawn, ops := w.ops, log := w.log, recent := w.recent }

/-- Running an endpoint of the wallet (`HProg.run`) on a store of text. The wallet over the store of /repo/examples/wallet/src-tauri/src/provider.rs 38-66. -/
def runText {α : Type} (p : Pages) (e : HEnv) : HProg α → TextWallet → HRes α × TextWallet
  | .ret r, w => (r, w)
  | .get k c, w => runText p e (c ((Prog.getRes (e.fault w.ops) (w.store k)).bind p.value)) { w with ops := w.ops + 1 }
  | .put k v c, w => runText p e (c (e.fault w.ops == .ok)) { w with store := Prog.writeRes (e.fault w.ops) w.store k (some (p.text v)), ops := w.ops + 1 }
  | .purge k c, w => runText p e (c (e.fault w.ops == .ok)) { w with store := Prog.writeRes (e.fault w.ops) w.store k none, ops := w.ops + 1 }
  | .draw c, w => runText p e (c (e.rng w.drawn)) { w with drawn := w.drawn + 1 }
  | .now c, w => runText p e (c w.now) w
  | .call c k, w => runText p e (k (e.oracle w.log w.recent c)) { w with recent := w.recent ++ [⟨c, e.oracle w.log w.recent c⟩] }

/-- Serving one call (`Holder.step`). The wallet over the store of /repo/examples/wallet/src-tauri/src/provider.rs 38-66. -/
def stepText (p : Pages) (e : HEnv) (w : TextWallet) (s : HStep) : HRes Holder.Resp × TextWallet :=
  let out := runText p e (Holder.serve s.provider s.req) { w with now := w.now + s.wait, recent := [] }
  (out.1, { out.2 with log := out.2.log ++ [⟨s.provider, w.now + s.wait, s.req, out.1, out.2.recent⟩], recent := [] })

/-- The world after a history (`Holder.exec`). The wallet over the store of /repo/examples/wallet/src-tauri/src/provider.rs 38-66. -/
def execText (p : Pages) (e : HEnv) (w : TextWallet) : List HStep → TextWallet
  | [] => w
  | s :: l => execText p e (stepText p e w s).2 l

/-- A new wallet (`Holder.start`). The wallet over the store of /repo/examples/wallet/src-tauri/src/provider.rs 38-66. -/
def walletText (now : Int) : TextWallet := { store := fun _ => none, now, drawn := 0, ops := 0, log := [], recent := [] }

end Verif.Wire
