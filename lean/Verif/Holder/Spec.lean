import Verif.Holder.Receive
/-!
# Vocabulary about histories of wallet calls

Everything here is about what can be seen from outside: which endpoints were called, how they ended, and which calls went out to issuers, verifiers and
storage. Nothing refers to the state the wallet keeps.
-/
namespace Verif.Holder
open Verif

/-- Identifiers are never drawn twice (UUIDs). -/
def HEnv.Fresh (e : HEnv) : Prop := ∀ a b, e.rng a = e.rng b → a = b

/-- No write takes effect while being reported as failed. -/
def HEnv.NoLate (e : HEnv) : Prop := ∀ n, e.fault n ≠ .failAfter

/-- There are entries with these properties, in this order. -/
def InOrder : List (Entry → Prop) → List Entry → Prop
  | [], _ => True
  | p :: ps, log => ∃ pre en post, log = pre ++ en :: post ∧ p en ∧ InOrder ps post

/-- The offer says a transaction code is needed. -/
def RequiresTxCode (o : Issuer.CredentialOffer) : Prop := ∃ g p, o.grants = some g ∧ g.preAuthorizedCode = some p ∧ p.txCode = true

/-- An offer was taken in, and the issuer it names answered with this metadata; if the call came back, it named this flow. -/
def IsOffer (k : String) (o : Issuer.CredentialOffer) (md : Verif.Issuer) (en : Entry) : Prop :=
  (∃ r, en.req = .offer r ∧ r.offer = o) ∧ ⟨.metadata o.credentialIssuer, some md⟩ ∈ en.events ∧ ∀ resp, en.result = .ok resp → ∃ iss cs g, resp = .offer k iss cs g

/-- The authorization details that stand for what the holder picked: none for everything, otherwise one per pick, same configuration, same claims. -/
def Narrowed : Option (List AuthorizationSpec) → Option (List AuthorizationDetail) → Prop
  | none, ds => ds = none
  | some l, ds => ∃ d, ds = some d ∧ l.length = d.length ∧
      ∀ p ∈ l.zip d, ∃ c, p.2.credential = .configurationId p.1.configId c ∧ c.bind ProfileClaims.claims = p.1.claims

/-- The flow was accepted, with these authorization details, by a call that was not refused. -/
def IsAccept (k : String) (ds : Option (List AuthorizationDetail)) (en : Entry) : Prop :=
  (∃ r, en.req = .accept r ∧ r.issuanceId = k ∧ Narrowed r.accept ds) ∧ (en.result = .error .store ∨ ∃ resp, en.result = .ok resp)

/-- The PIN was given for the flow, by a call that was not refused. -/
def IsPin (k pin : String) (en : Entry) : Prop :=
  en.req = .pin ⟨k, pin⟩ ∧ (en.result = .error .store ∨ ∃ resp, en.result = .ok resp)

/-- An access token was received for the flow, and this scope was asked for. A flow the wallet started is named by the `state` of its authorization
request; only such a flow can ask for a scope. -/
def IsToken (k : String) (scope : Option String) (t : Issuer.TokenResponse) (en : Entry) : Prop :=
  (∃ tr, ⟨.token tr, some t⟩ ∈ en.events) ∧
  ((en.req = .token k ∧ scope = none) ∨ ∃ r, en.req = .authorize r ∧
    ((r.initiator = .issuer k ∧ scope = none) ∨
      ∃ q o c iss sub, r.initiator = .wallet c iss scope sub ∧ ⟨.authorization q, o⟩ ∈ en.events ∧ q.state = some k))

/-- Credentials received by an entry, if it was a successful credentials or deferred call for the flow. -/
def receivedBy (k : String) (en : Entry) : List String :=
  match en.req, en.result with
  | .credentials r, .ok _ => if r.issuanceId = k then en.events.flatMap Event.tokens else []
  | .deferred r, .ok _ => if r.issuanceId = k then en.events.flatMap Event.tokens else []
  | _, _ => []

/-- All credentials received for a flow. -/
def received (k : String) (log : List Entry) : List String := log.flatMap (receivedBy k)

/-- Outstanding transactions of a flow after one more entry: successful calls add what the issuer put off, and a successful deferred call redeems one. -/
def outstandingStep (k : String) (ts : List String) (en : Entry) : List String :=
  match en.req, en.result with
  | .credentials r, .ok _ => if r.issuanceId = k then ts ++ en.events.flatMap Event.transactions else ts
  | .deferred r, .ok _ => if r.issuanceId = k then ts.filter (· != r.transactionId) ++ en.events.flatMap Event.transactions else ts
  | _, _ => ts

/-- Transactions put off and not redeemed yet. -/
def outstanding (k : String) (log : List Entry) : List String := log.foldl (outstandingStep k) []

/-- A credential came out of a response to a call for this flow, and its signature was checked then. -/
def Came (k : String) (c : Credential) (en : Entry) : Prop :=
  ((∃ r, en.req = .credentials r ∧ r.issuanceId = k) ∨ ∃ r, en.req = .deferred r ∧ r.issuanceId = k) ∧
    c.issued ∈ en.events.flatMap Event.tokens ∧ Verified en.provider.jose c

/-- The request object came out of the text itself, or out of a signed object fetched from the decoded text and checked. -/
inductive Obtained (P : Provider) (url : String) : Verifier.RequestObject → List Event → Prop
  | inline {q} (h : P.parseRequest url = some q) (hc : containsText "&presentation_definition".toList url.toList = true) : Obtained P url q []
  | fetched {q u t} (hu : P.percentDecode url = some u) (h : P.decodeRequest t = some q)
      (hc : containsText "&presentation_definition".toList url.toList = false) : Obtained P url q [⟨.requestObject u, some (.jwt t)⟩]

/-- A presentation request was taken in, and these credentials were found for its first input descriptor; if the call came back, it named this flow. -/
def IsRequest (k : String) (q : Verifier.RequestObject) (creds : List Credential) (en : Entry) : Prop :=
  ∃ url pre pd d ds, en.req = .request url ∧ Obtained en.provider url q pre ∧
    q.presentationDefinition = .object pd ∧ pd.inputDescriptors = d :: ds ∧ en.events = pre ++ [⟨.find d.constraints, some creds⟩] ∧
    ∀ resp, en.result = .ok resp → resp = .request k .requested creds

/-- The presentation was authorized by a call that was not refused. -/
def IsAuthorized (k : String) (en : Entry) : Prop :=
  en.req = .authorizePresentation k ∧ (en.result = .error .store ∨ ∃ resp, en.result = .ok resp)

/-! ### Facts about this vocabulary -/

theorem InOrder.append {ps : List (Entry → Prop)} {log : List Entry} (l : List Entry) (h : InOrder ps log) : InOrder ps (log ++ l) := by
  induction ps generalizing log with
  | nil => trivial
  | cons p ps ih =>
    obtain ⟨pre, en, post, rfl, hp, hr⟩ := h
    exact ⟨pre, en, post ++ l, by simp, hp, ih hr⟩

theorem InOrder.snoc {ps : List (Entry → Prop)} {log : List Entry} {p : Entry → Prop} {en : Entry} (h : InOrder ps log) (hp : p en) :
    InOrder (ps ++ [p]) (log ++ [en]) := by
  induction ps generalizing log with
  | nil => exact ⟨log, en, [], rfl, hp, trivial⟩
  | cons q ps ih =>
    obtain ⟨pre, x, post, rfl, hx, hr⟩ := h
    exact ⟨pre, x, post ++ [en], by simp, hx, ih hr⟩

theorem InOrder.one {log : List Entry} {p : Entry → Prop} {en : Entry} (hp : p en) : InOrder [p] (log ++ [en]) :=
  ⟨log, en, [], rfl, hp, trivial⟩

theorem received_append (k : String) (a b : List Entry) : received k (a ++ b) = received k a ++ received k b := by simp [received]

theorem outstanding_snoc (k : String) (a : List Entry) (en : Entry) : outstanding k (a ++ [en]) = outstandingStep k (outstanding k a) en := by
  simp [outstanding]

end Verif.Holder
