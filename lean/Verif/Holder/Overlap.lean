import Verif.Holder.Sched
import Verif.Holder.PresentProps
/-!
# What the wallet's endpoints guarantee each other when they overlap

Specification vocabulary first: everything is about which calls were made to the wallet (`calls`), what they drew (`rng`) and what they have done so far
(a `Trace`).
-/
namespace Verif.Holder
open Verif HProg

section
variable (rng : Nat → Nat → String) (calls : Nat → Provider × Req)

/-! ### Specification -/

/-- This offer was taken in as flow `k`. Specification; models no code. -/
def WasOffered (H : Trace) (k : String) (o : Issuer.CredentialOffer) : Prop :=
  ∃ j r n, (calls j).2 = .offer r ∧ r.offer = o ∧ k = rng j n ∧ (j, .wrote) ∈ H

/-- The holder accepted the offer of this flow. Specification; models no code. -/
def WasAccepted (H : Trace) (k : String) : Prop := ∃ j r, (calls j).2 = .accept r ∧ r.issuanceId = k ∧ (j, .wrote) ∈ H

/-- The holder gave this PIN for the flow. Specification; models no code. -/
def PinGiven (H : Trace) (k pin : String) : Prop := ∃ j, (calls j).2 = .pin ⟨k, pin⟩ ∧ (j, .wrote) ∈ H

/-- This token came in answer to a call for the flow. A flow the wallet started is named by the `state` of its authorization request.
Specification; models no code. -/
def TokenCame (H : Trace) (k : String) (t : Issuer.TokenResponse) : Prop :=
  ∃ j q, (j, .made ⟨.token q, some t⟩) ∈ H ∧ ((calls j).2 = .token k ∨ ∃ r, (calls j).2 = .authorize r ∧
    (r.initiator = .issuer k ∨ ∃ a o, (j, .made ⟨.authorization a, o⟩) ∈ H ∧ a.state = some k))

/-- This credential came in answer to a call for the flow, and its signature was checked. Specification; models no code. -/
def CredentialCame (H : Trace) (k : String) (c : Credential) : Prop :=
  ∃ j ev, (j, .made ev) ∈ H ∧ ((∃ r, (calls j).2 = .credentials r ∧ r.issuanceId = k) ∨ ∃ r, (calls j).2 = .deferred r ∧ r.issuanceId = k) ∧
    c.issued ∈ ev.tokens ∧ Verified (calls j).1.jose c

/-- The wallet took this request in as presentation `k`, and found these credentials for it. Specification; models no code. -/
def WasRequested (H : Trace) (k : String) (q : Verifier.RequestObject) (creds : List Credential) : Prop :=
  ∃ j url n pre pd d ds, (calls j).2 = .request url ∧ k = rng j n ∧ Obtained (calls j).1 url q pre ∧ (∀ ev ∈ pre, (j, .made ev) ∈ H) ∧
    q.presentationDefinition = .object pd ∧ pd.inputDescriptors = d :: ds ∧ (j, .made ⟨.find d.constraints, some creds⟩) ∈ H

/-- The holder authorized this presentation. Specification; models no code. -/
def WasAuthorized (H : Trace) (k : String) : Prop := ∃ j, (calls j).2 = .authorizePresentation k ∧ (j, .wrote) ∈ H

/-- The flow or presentation a call names. Specification; models no code. -/
inductive Concerns : Req → String → Prop
  | accept (r : AcceptRequest) : Concerns (.accept r) r.issuanceId
  | pin (r : PinRequest) : Concerns (.pin r) r.issuanceId
  | token (k : String) : Concerns (.token k) k
  | authorize (r : AuthorizeRequest) (k : String) : r.initiator = .issuer k → Concerns (.authorize r) k
  | credentials (r : CredentialsRequest) : Concerns (.credentials r) r.issuanceId
  | deferred (r : DeferredRequest) : Concerns (.deferred r) r.issuanceId
  | save (k : String) : Concerns (.save k) k
  | cancel (k : String) : Concerns (.cancel k) k
  | authorizePresentation (k : String) : Concerns (.authorizePresentation k) k
  | present (k : String) : Concerns (.present k) k

/-- The flow a call is about: the one it names, or the one it starts. Specification; models no code. -/
def Own (i : Nat) (k : String) : Prop := Concerns (calls i).2 k ∨ ∃ n, k = rng i n

/-- What goes out to a verifier in answer to request `q`: signed, with exactly these credentials, made out to the client and nonce of the request.
Specification; models no code. -/
def Answers (P : Provider) (q : Verifier.RequestObject) (creds : List Credential) (uri : Option String) (rr : Verifier.ResponseRequest) : Prop :=
  ∃ jwt claims, rr.vpToken = some [.string jwt] ∧ P.jose.encodeVp P.kid claims = some jwt ∧
    claims.vp.credentials.getD [] = creds.map (fun c => Kind.string c.issued) ∧ claims.aud = q.clientId ∧ claims.nonce = q.nonce ∧
    uri = q.responseUri.map trimSlashes ∧ rr.state = q.state

/-- What has to have happened before call `i` may turn to somebody else. Specification; models no code. -/
def Due (i : Nat) (H : Trace) : Call → Prop
  | .token q =>
    (∃ k o g p pin, (calls i).2 = .token k ∧ WasOffered rng calls H k o ∧ WasAccepted calls H k ∧ o.grants = some g ∧ g.preAuthorizedCode = some p ∧
      q.grantType = .preAuthorizedCode p.preAuthorizedCode pin ∧ (RequiresTxCode o → ∃ t, pin = some t ∧ PinGiven calls H k t)) ∨
    ∃ r, (calls i).2 = .authorize r ∧ ∀ k, r.initiator = .issuer k → WasAccepted calls H k ∧ ∃ o, WasOffered rng calls H k o
  | .credential q => ∃ r t, (calls i).2 = .credentials r ∧ TokenCame calls H r.issuanceId t ∧ q.accessToken = t.accessToken
  | .deferred q => ∃ r t, (calls i).2 = .deferred r ∧ TokenCame calls H r.issuanceId t ∧ q.accessToken = t.accessToken ∧
      q.transactionId = r.transactionId
  | .save c => ∃ k, (calls i).2 = .save k ∧ CredentialCame calls H k c
  | .present uri rr => ∃ k q creds, (calls i).2 = .present k ∧ WasRequested rng calls H k q creds ∧ WasAuthorized calls H k ∧
      Answers (calls i).1 q creds uri rr
  | .notification _ => False
  | _ => True

/-! ### What is stored -/

/-- Specification; models no code. -/
structure FlowFacts (H : Trace) (k : String) (f : Issuance) : Prop where
  id : f.id = k
  offered : f.status = .ready ∨ f.status = .pendingPin ∨ f.status = .accepted → WasOffered rng calls H k f.offer
  accepted : f.status = .pendingPin ∨ f.status = .accepted → WasAccepted calls H k
  pin : f.status = .accepted → RequiresTxCode f.offer → ∃ p, f.pin = some p ∧ PinGiven calls H k p
  token : f.status = .tokenReceived → ∃ t, TokenCame calls H k t ∧ f.token.accessToken = t.accessToken
  creds : ∀ c ∈ f.credentials, CredentialCame calls H k c
  silent : f.notificationId = none

/-- Specification; models no code. -/
structure PresentationFacts (H : Trace) (k : String) (p : Presentation) : Prop where
  id : p.id = k
  requested : WasRequested rng calls H k p.request p.credentials
  authorized : p.status = .authorized → WasAuthorized calls H k

/-- Specification; models no code. -/
def Facts (H : Trace) (k : String) : HVal → Prop
  | .issuance f => FlowFacts rng calls H k f
  | .presentation p => PresentationFacts rng calls H k p

end

section
variable {rng : Nat → Nat → String} {calls : Nat → Provider × Req} {H H' : Trace} {k : String}

theorem WasOffered.mono {o : Issuer.CredentialOffer} (h : H <+: H') : WasOffered rng calls H k o → WasOffered rng calls H' k o := by
  rintro ⟨j, r, n, h1, h2, h3, h4⟩; exact ⟨j, r, n, h1, h2, h3, h.subset h4⟩

theorem WasAccepted.mono (h : H <+: H') : WasAccepted calls H k → WasAccepted calls H' k := by
  rintro ⟨j, r, h1, h2, h3⟩; exact ⟨j, r, h1, h2, h.subset h3⟩

theorem PinGiven.mono {p : String} (h : H <+: H') : PinGiven calls H k p → PinGiven calls H' k p := by
  rintro ⟨j, h1, h2⟩; exact ⟨j, h1, h.subset h2⟩

theorem TokenCame.mono {t : Issuer.TokenResponse} (h : H <+: H') : TokenCame calls H k t → TokenCame calls H' k t := by
  rintro ⟨j, q, h1, h2 | ⟨r, h2, h3 | ⟨a, o, h3, h4⟩⟩⟩
  · exact ⟨j, q, h.subset h1, .inl h2⟩
  · exact ⟨j, q, h.subset h1, .inr ⟨r, h2, .inl h3⟩⟩
  · exact ⟨j, q, h.subset h1, .inr ⟨r, h2, .inr ⟨a, o, h.subset h3, h4⟩⟩⟩

theorem CredentialCame.mono {c : Credential} (h : H <+: H') : CredentialCame calls H k c → CredentialCame calls H' k c := by
  rintro ⟨j, ev, h1, h2⟩; exact ⟨j, ev, h.subset h1, h2⟩

theorem WasRequested.mono {q : Verifier.RequestObject} {cs : List Credential} (h : H <+: H') :
    WasRequested rng calls H k q cs → WasRequested rng calls H' k q cs := by
  rintro ⟨j, url, n, pre, pd, d, ds, h1, h2, h3, h4, h5, h6, h7⟩
  exact ⟨j, url, n, pre, pd, d, ds, h1, h2, h3, fun ev hev => h.subset (h4 ev hev), h5, h6, h.subset h7⟩

theorem WasAuthorized.mono (h : H <+: H') : WasAuthorized calls H k → WasAuthorized calls H' k := by
  rintro ⟨j, h1, h2⟩; exact ⟨j, h1, h.subset h2⟩

theorem FlowFacts.mono {f : Issuance} (h : H <+: H') (hf : FlowFacts rng calls H k f) : FlowFacts rng calls H' k f where
  id := hf.id
  offered hs := (hf.offered hs).mono h
  accepted hs := (hf.accepted hs).mono h
  pin hs hr := by obtain ⟨p, h1, h2⟩ := hf.pin hs hr; exact ⟨p, h1, h2.mono h⟩
  token hs := by obtain ⟨t, h1, h2⟩ := hf.token hs; exact ⟨t, h1.mono h, h2⟩
  creds c hc := (hf.creds c hc).mono h
  silent := hf.silent

end

/-- The pact of the wallet's endpoints. Specification; models no code. -/
def pact (rng : Nat → Nat → String) (calls : Nat → Provider × Req) : Pact where
  R := Facts rng calls
  C := Due rng calls
  G := Own rng calls
  D i s := ∃ n, s = rng i n
  mono {H H' k v} h hv := by
    cases v with
    | issuance f => exact FlowFacts.mono h hv
    | presentation p => exact ⟨hv.id, hv.requested.mono h, fun hs => (hv.authorized hs).mono h⟩

/-! ### The endpoints -/

section
variable {rng : Nat → Nat → String} {calls : Nat → Provider × Req} {i : Nat} {P : Provider} {H : Trace}

local notation "T" => pact rng calls

theorem flow_keeps {k : String} (hg : Own rng calls i k) : Keeps T i (getIssuance k) H fun H' f => FlowFacts rng calls H' k f := Keeps.getIssuance hg

theorem presentation_keeps {k : String} (hg : Own rng calls i k) : Keeps T i (getPresentation k) H fun H' p => PresentationFacts rng calls H' k p :=
  Keeps.getPresentation hg

theorem put_keeps {k : String} {v : HVal} (hg : Own rng calls i k) (hr : ∀ H', H <+: H' → (i, .wrote) ∈ H' → Facts rng calls H' k v) :
    Keeps T i (putE k v) H fun _ _ => True := Keeps.putE hg hr

theorem purge_keeps {k : String} (hg : Own rng calls i k) : Keeps T i (purgeE k) H fun _ _ => True := Keeps.purgeE hg

theorem call_keeps {c : Call} (hc : ∀ H', H <+: H' → Due rng calls i H' c) :
    Keeps T i (callE c) H fun H' a => (i, .made ⟨c, some a⟩) ∈ H' := Keeps.callE hc

theorem answer_keeps {c : Call} (hc : ∀ H', H <+: H' → Due rng calls i H' c) :
    Keeps T i (callO c) H fun H' o => (i, .made ⟨c, o⟩) ∈ H' := Keeps.callO hc

theorem check_ok' {c : Bool} {why : String} {u : Unit} (h : check c why = .ok u) : c = true := check_ok h.symm

theorem status_is {f : Issuance} {st : Status} {why : String} {u : Unit} (h : check (f.status == st) why = .ok u) : f.status = st := by
  exact of_decide_eq_true (check_ok' h)

theorem newIssuance_keeps {c : String} : Keeps T i (newIssuance c) H fun _ f => (∃ n, f.id = rng i n) ∧ f = { id := f.id, clientId := c } := by
  refine Keeps.drawE.bind fun s H1 _ hs => ?_
  exact Keeps.pure fun _ _ => ⟨hs, rfl⟩

theorem setIssuer_keeps {f : Issuance} {u : String} : Keeps T i (setIssuer f u) H fun _ g => ∃ md sv, g = { f with issuer := md, server := sv } := by
  refine (Keeps.callE fun _ _ => True.intro).bind fun md H1 _ _ => ?_
  refine (Keeps.callE fun _ _ => True.intro).bind fun sv H2 _ _ => ?_
  exact Keeps.pure fun _ _ => ⟨md, sv, rfl⟩

theorem offer_keeps {r : OfferRequest} (hc : (calls i).2 = .offer r) : Keeps T i (offer r) H fun _ _ => True := by
  refine Keeps.lift.bind fun _ _ _ _ => ?_
  refine newIssuance_keeps.bind fun f H1 _ hf => ?_
  refine setIssuer_keeps.bind fun g H2 _ hg => ?_
  obtain ⟨⟨n, hn⟩, hf⟩ := hf
  obtain ⟨md, sv, rfl⟩ := hg
  refine (put_keeps (.inr ⟨n, hn⟩) fun H3 _ hw => ?_).bind fun _ H3 _ _ => ?_
  · exact {
      id := rfl
      offered := fun _ => ⟨i, r, n, hc, rfl, hn, hw⟩
      accepted := by rintro (h | h) <;> cases h
      pin := fun h => by cases h
      token := fun h => by cases h
      creds := by rw [hf]; intro c hc; cases hc
      silent := by rw [hf] }
  · refine Keeps.lift.bind fun _ _ _ _ => ?_
    exact Keeps.pure fun _ _ => trivial

theorem accept_keeps {r : AcceptRequest} (hc : (calls i).2 = .accept r) : Keeps T i (accept r) H fun _ _ => True := by
  refine (flow_keeps (.inl (by rw [hc]; constructor))).bind fun f H1 _ hf => ?_
  refine Keeps.lift.bind fun _ H2 h2 hs => ?_
  refine Keeps.lift.bind fun _ H3 h3 _ => ?_
  refine Keeps.lift.bind fun acc H4 h4 _ => ?_
  have hf : FlowFacts rng calls H1 r.issuanceId f := hf
  have hs : f.status = .ready := status_is hs
  have hid : f.id = r.issuanceId := hf.id
  refine (put_keeps (.inl (by rw [hc, hid]; exact .accept r)) fun H5 h5 hw => ?_).bind fun _ H5 _ _ => Keeps.pure fun _ _ => trivial
  have hf5 := hf.mono (h2.trans (h3.trans (h4.trans h5)))
  have hacc : WasAccepted calls H5 f.id := ⟨i, r, hc, hid.symm, hw⟩
  rw [← hid] at hf5
  exact {
    id := rfl
    offered := fun _ => hf5.offered (.inl hs)
    accepted := fun _ => hacc
    pin := fun h hr => by
      simp only at h hr
      rw [if_pos ((needsPin_iff _).2 hr)] at h
      cases h
    token := fun h => by
      simp only at h
      split at h <;> cases h
    creds := hf5.creds
    silent := hf5.silent }

theorem pin_keeps {r : PinRequest} (hc : (calls i).2 = .pin r) : Keeps T i (pin r) H fun _ _ => True := by
  refine (flow_keeps (.inl (by rw [hc]; constructor))).bind fun f H1 _ hf => ?_
  refine Keeps.lift.bind fun _ H2 h2 hs => ?_
  have hf : FlowFacts rng calls H1 r.issuanceId f := hf
  have hs : f.status = .pendingPin := status_is hs
  have hid : f.id = r.issuanceId := hf.id
  refine (put_keeps (.inl (by rw [hc, hid]; exact .pin r)) fun H5 h5 hw => ?_).bind fun _ H5 _ _ => Keeps.pure fun _ _ => trivial
  have hf5 := hf.mono (h2.trans h5)
  rw [← hid] at hf5
  exact {
    id := rfl
    offered := fun _ => hf5.offered (.inr (.inl hs))
    accepted := fun _ => hf5.accepted (.inl hs)
    pin := fun _ _ => ⟨r.pin, rfl, i, by rw [hc]; exact congrArg (fun x => Req.pin ⟨x, r.pin⟩) hid.symm, hw⟩
    token := fun h => by cases h
    creds := hf5.creds
    silent := hf5.silent }

theorem hbind_ok {α β : Type} {m : HRes α} {f : α → HRes β} {b : β} (h : (m >>= f) = .ok b) : ∃ a, m = .ok a ∧ f a = .ok b := by
  cases m with
  | error x => cases h
  | ok a => exact ⟨a, rfl, h⟩

theorem token_keeps {k : String} (hc : (calls i).2 = .token k) : Keeps T i (token k) H fun _ _ => True := by
  refine (flow_keeps (.inl (by rw [hc]; constructor))).bind fun f H1 _ hf => ?_
  refine Keeps.lift.bind fun _ H2 h2 hs => ?_
  refine Keeps.lift.bind fun q H3 h3 hq => ?_
  have hf : FlowFacts rng calls H1 k f := hf
  have hs : f.status = .accepted := by
    have := check_ok' hs
    simp at this; exact this.2
  have hid : f.id = k := hf.id
  refine (call_keeps fun H4 h4 => ?_).bind fun t H4 h4 ht => ?_
  · have hf4 := hf.mono (h2.trans (h3.trans h4))
    simp only [tokenRequest] at hq
    obtain ⟨g, hg, hq⟩ := hbind_ok hq
    obtain ⟨p, hp, hq⟩ := hbind_ok hq
    cases hq
    refine .inl ⟨k, f.offer, g, p, f.pin, hc, hf4.offered (.inr (.inr hs)), hf4.accepted (.inr hs), need_ok hg.symm, need_ok hp.symm, rfl, hf4.pin hs⟩
  refine Keeps.lift.bind fun _ H5 h5 _ => ?_
  refine (put_keeps (.inl (by rw [hc, hid]; exact .token k)) fun H6 h6 hw => ?_).bind fun _ _ _ _ => Keeps.pure fun _ _ => trivial
  have hf6 := hf.mono (h2.trans (h3.trans (h4.trans (h5.trans h6))))
  rw [← hid] at hf6
  exact {
    id := rfl
    offered := by rintro (h | h | h) <;> cases h
    accepted := by rintro (h | h) <;> cases h
    pin := fun h => by cases h
    token := fun _ => ⟨t, ⟨i, q, (h5.trans h6).subset ht, .inl (by rw [hc]; exact congrArg Req.token hid.symm)⟩, rfl⟩
    creds := hf6.creds
    silent := hf6.silent }

theorem authorizable_ok {f : Issuance} {u : Unit} (h : authorizable f = .ok u) : f.status = .accepted := by
  unfold authorizable at h
  split at h
  · have := check_ok' h; simp at this; exact this.2
  · split at h
    · cases h
    · have := check_ok' h; simp at this; exact this.2

/-- A flow about to be authorized: a stored one that was accepted, or a new one. Specification; models no code. -/
def Begun (rng : Nat → Nat → String) (calls : Nat → Provider × Req) (i : Nat) (r : AuthorizeRequest) (H : Trace) (f : Issuance) : Prop :=
  (∃ k, r.initiator = .issuer k ∧ FlowFacts rng calls H k f ∧ f.status = .accepted) ∨
    (∃ c u s b, r.initiator = .wallet c u s b) ∧ (∃ n, f.id = rng i n) ∧ f.credentials = [] ∧ f.notificationId = none

theorem startFlow_keeps {r : AuthorizeRequest} (hc : (calls i).2 = .authorize r) : Keeps T i (startFlow r) H (Begun rng calls i r) := by
  unfold startFlow
  split
  · rename_i k hk
    refine (flow_keeps (.inl (by rw [hc]; exact .authorize r k hk))).bind fun f H1 _ hf => ?_
    refine Keeps.lift.bind fun _ H2 h2 hs => ?_
    exact Keeps.pure fun H3 h3 => .inl ⟨k, hk, FlowFacts.mono (h2.trans h3) hf, authorizable_ok hs⟩
  · rename_i c u s b hk
    refine Keeps.lift.bind fun _ H1 _ _ => ?_
    refine newIssuance_keeps.bind fun f H2 _ hf => ?_
    refine setIssuer_keeps.bind fun g H3 _ hg => ?_
    obtain ⟨md, sv, rfl⟩ := hg
    refine Keeps.pure fun H4 _ => .inr ⟨⟨c, u, s, b, hk⟩, hf.1, ?_, ?_⟩
    · rw [hf.2]
    · rw [hf.2]

theorem authorize_keeps {r : AuthorizeRequest} (hc : (calls i).2 = .authorize r) : Keeps T i (authorize P r) H fun _ _ => True := by
  refine (startFlow_keeps hc).bind fun f H1 _ hf => ?_
  refine Keeps.drawE.bind fun v H2 h2 _ => ?_
  refine Keeps.lift.bind fun q H3 h3 hq => ?_
  have hst := authorizationRequest_state hq
  refine (Keeps.callE fun _ _ => True.intro).bind fun a H4 h4 ha => ?_
  refine (call_keeps fun H5 h5 => ?_).bind fun t H5 h5 ht => ?_
  · refine .inr ⟨r, hc, fun k hk => ?_⟩
    rcases hf with ⟨k', hk', hf, hs⟩ | ⟨⟨_, _, _, _, hw⟩, _⟩
    · rw [hk] at hk'; cases hk'
      have hf5 := hf.mono (h2.trans (h3.trans (h4.trans h5)))
      exact ⟨hf5.accepted (.inr hs), _, hf5.offered (.inr (.inr hs))⟩
    · rw [hk] at hw; cases hw
  refine Keeps.lift.bind fun _ H6 h6 _ => ?_
  refine (put_keeps ?_ fun H7 h7 hw => ?_).bind fun _ _ _ _ => Keeps.pure fun _ _ => trivial
  · rcases hf with ⟨k, hk, hf, _⟩ | ⟨_, hn, _⟩
    · refine .inl ?_
      have hid : f.id = k := hf.id
      show Concerns _ f.id
      rw [hc, hid]; exact .authorize r k hk
    · exact .inr hn
  have htok : TokenCame calls H7 f.id t := by
    refine ⟨i, _, (h6.trans h7).subset ht, .inr ⟨r, hc, .inr ⟨q, _, (h5.trans (h6.trans h7)).subset ha, hst⟩⟩⟩
  have hcr : ∀ c ∈ f.credentials, CredentialCame calls H7 f.id c := by
    intro c hcm
    rcases hf with ⟨k, hk, hf, _⟩ | ⟨_, _, hn, _⟩
    · rw [hf.id]; exact (hf.creds c hcm).mono (h2.trans (h3.trans (h4.trans (h5.trans (h6.trans h7)))))
    · rw [hn] at hcm; cases hcm
  have hno : f.notificationId = none := by
    rcases hf with ⟨k, hk, hf, _⟩ | ⟨_, _, _, hn⟩
    · exact hf.silent
    · exact hn
  exact {
    id := rfl
    offered := by rintro (h | h | h) <;> cases h
    accepted := by rintro (h | h) <;> cases h
    pin := fun h => by cases h
    token := fun _ => ⟨t, htok, rfl⟩
    creds := hcr
    silent := hno }

/-! Receiving credentials -/

/-- Each of these credentials is in this response, and its signature was checked. Specification; models no code. -/
def Brought (J : Jose) (toks : List String) (cs : List Credential) : Prop := ∀ c ∈ cs, c.issued ∈ toks ∧ Verified J c

theorem fetchLogo_keeps {u : Option String} : Keeps T i (fetchLogo u) H fun _ _ => True := by
  cases u with
  | none => exact Keeps.pure fun _ _ => trivial
  | some u => exact (Keeps.callO fun _ _ => True.intro).imp fun _ _ _ _ => trivial

theorem storableId_keeps {vc : Vc} : Keeps T i (storableId vc) H fun _ id => ∀ x, vc.id = some x → id = x := by
  unfold storableId
  split
  · rename_i id hid
    exact Keeps.pure fun _ _ x hx => by rw [hid] at hx; cases hx; rfl
  · rename_i hid
    refine Keeps.drawE.bind fun _ _ _ _ => Keeps.pure fun _ _ x hx => by rw [hid] at hx; cases hx

theorem verifyVc_ok {J : Jose} {t : String} {vc : Vc} {at_ : Int} (h : ofRes (Proof.verifyVc J (.string t)) = .ok (.vc vc at_)) :
    ∃ claims, J.decodeVc t = some claims ∧ claims.vc = vc ∧ claims.iat = at_ := by
  simp only [Proof.verifyVc] at h
  cases hd : J.decodeVc t with
  | none => rw [hd] at h; simp [orErr, Bind.bind, Except.bind, ofRes] at h
  | some cl =>
    rw [hd] at h
    simp only [orErr, Bind.bind, Except.bind, ofRes, Pure.pure, Except.pure, Except.ok.injEq, Payload.vc.injEq] at h
    exact ⟨cl, rfl, h.1.symm ▸ rfl, h.2.symm ▸ rfl⟩

theorem storable_keeps {config : CredentialConfiguration} {kd : Kind Vc} :
    Keeps T i (storable P config kd) H fun _ c => kd = .string c.issued ∧ Verified P.jose c := by
  unfold storable
  refine Keeps.lift.bind fun p H1 _ hp => ?_
  cases p with
  | vp v c n => exact Keeps.refuse
  | vc vc at_ =>
    refine Keeps.lift.bind fun _ H2 _ _ => ?_
    cases kd with
    | object v => exact Keeps.refuse
    | string t =>
      obtain ⟨cl, hd, rfl, rfl⟩ := verifyVc_ok hp
      refine storableId_keeps.bind fun id H3 _ hid => ?_
      refine Keeps.lift.bind fun _ H4 _ _ => ?_
      refine fetchLogo_keeps.bind fun _ H5 _ _ => ?_
      exact Keeps.pure fun _ _ => ⟨rfl, cl, hd, rfl, rfl, rfl, hid⟩

theorem storables_keeps {config : CredentialConfiguration} {l : List (Kind Vc)} :
    Keeps T i (storables P config l) H fun _ cs => ∀ c ∈ cs, Kind.string c.issued ∈ l ∧ Verified P.jose c := by
  induction l generalizing H with
  | nil => exact Keeps.pure fun _ _ c hc => by cases hc
  | cons kd l ih =>
    unfold storables
    refine storable_keeps.bind fun c H1 _ hc => ?_
    refine ih.bind fun cs H2 _ hcs => ?_
    refine Keeps.pure fun _ _ x hx => ?_
    rcases List.mem_cons.1 hx with rfl | hx
    · exact ⟨by rw [hc.1]; exact .head _, hc.2⟩
    · exact ⟨.tail _ (hcs x hx).1, (hcs x hx).2⟩

theorem process_keeps {config : CredentialConfiguration} {r : CredentialResponse} :
    Keeps T i (process P config r) H fun _ out => Brought P.jose r.response.tokens out.1 := by
  unfold process
  split
  · rename_i kd hk
    refine storable_keeps.bind fun c H1 _ hc => Keeps.pure fun _ _ x hx => ?_
    simp only [List.mem_singleton] at hx
    subst hx
    rw [hk, hc.1]
    exact ⟨.head _, hc.2⟩
  · rename_i l hl
    refine storables_keeps.bind fun cs H1 _ hc => Keeps.pure fun _ _ x hx => ?_
    obtain ⟨h1, h2⟩ := hc x hx
    rw [hl]
    exact ⟨List.mem_filterMap.2 ⟨_, h1, rfl⟩, h2⟩
  · exact Keeps.pure fun _ _ x hx => by cases hx

/-- A flow with its token, receiving credentials. Specification; models no code. -/
structure Holding (rng : Nat → Nat → String) (calls : Nat → Provider × Req) (k tok : String) (H : Trace) (f : Issuance) : Prop where
  facts : FlowFacts rng calls H k f
  status : f.status = .tokenReceived
  token : f.token.accessToken = tok

theorem Holding.mono {k tok : String} {H H' : Trace} {f : Issuance} (h : H <+: H') (hf : Holding rng calls k tok H f) : Holding rng calls k tok H' f :=
  ⟨hf.facts.mono h, hf.status, hf.token⟩

theorem Holding.record {k tok : String} {f : Issuance} (hf : Holding rng calls k tok H f) {ev : Event} (hev : (i, .made ev) ∈ H)
    (hi : (∃ r, (calls i).2 = .credentials r ∧ r.issuanceId = k) ∨ ∃ r, (calls i).2 = .deferred r ∧ r.issuanceId = k)
    {out : List Credential × Option String} (ho : Brought (calls i).1.jose ev.tokens out.1) (cfg : String) :
    Holding rng calls k tok H (f.record cfg out) where
  facts := {
    id := hf.facts.id
    offered := by intro h; rw [show (f.record cfg out).status = f.status from rfl, hf.status] at h; rcases h with h | h | h <;> cases h
    accepted := by intro h; rw [show (f.record cfg out).status = f.status from rfl, hf.status] at h; rcases h with h | h <;> cases h
    pin := by intro h; rw [show (f.record cfg out).status = f.status from rfl, hf.status] at h; cases h
    token := hf.facts.token
    creds := by
      intro c hc
      rcases List.mem_append.1 hc with hc | hc
      · exact hf.facts.creds c hc
      · exact ⟨i, ev, hev, hi, ho c hc⟩
    silent := hf.facts.silent }
  status := hf.status
  token := hf.token

theorem Holding.renew {k tok : String} {f : Issuance} (hf : Holding rng calls k tok H f) (r : CredentialResponse) : Holding rng calls k tok H (f.renew r) where
  facts := {
    id := hf.facts.id
    offered := by intro h; rw [show (f.renew r).status = f.status from rfl, hf.status] at h; rcases h with h | h | h <;> cases h
    accepted := by intro h; rw [show (f.renew r).status = f.status from rfl, hf.status] at h; rcases h with h | h <;> cases h
    pin := by intro h; rw [show (f.renew r).status = f.status from rfl, hf.status] at h; cases h
    token := hf.facts.token
    creds := hf.facts.creds
    silent := hf.facts.silent }
  status := hf.status
  token := hf.token

theorem asks_due {r : CredentialsRequest} (hc : (calls i).2 = .credentials r) {tok : String} {f : Issuance} {H0 : Trace}
    (hf : Holding rng calls r.issuanceId tok H0 f) {q : Issuer.CredentialRequest} (hq : q.accessToken = f.token.accessToken) (h : H0 <+: H) :
    Due rng calls i H (.credential q) := by
  obtain ⟨t, h1, h2⟩ := hf.facts.token hf.status
  exact ⟨r, t, hc, h1.mono h, hq.trans h2⟩

theorem byIdentifiers_keeps {r : CredentialsRequest} (hc : (calls i).2 = .credentials r) (hP : P = (calls i).1) {tok jwt cfg : String}
    {config : CredentialConfiguration} {wanted : Option (List String)} {ids : List String} {f : Issuance}
    (hf : Holding rng calls r.issuanceId tok H f) :
    Keeps T i (byIdentifiers P jwt cfg config wanted ids f) H (Holding rng calls r.issuanceId tok) := by
  induction ids generalizing H f with
  | nil => exact Keeps.pure fun _ h => hf.mono h
  | cons id ids ih =>
    unfold byIdentifiers
    split
    · refine (call_keeps fun H1 h1 => asks_due hc hf rfl h1).bind fun resp H1 h1 hev => ?_
      refine process_keeps.bind fun out H2 h2 ho => ?_
      rw [hP] at ho
      exact ih (((hf.mono (h1.trans h2)).record (h2.subset hev) (.inl ⟨r, hc, rfl⟩) ho cfg).renew resp)
    · exact ih hf

theorem byDetails_keeps {r : CredentialsRequest} (hc : (calls i).2 = .credentials r) (hP : P = (calls i).1) {tok jwt : String}
    {wanted : Option (List String)} {l : List Issuer.AuthorizedDetail} {f : Issuance} (hf : Holding rng calls r.issuanceId tok H f) :
    Keeps T i (byDetails P jwt wanted l f) H (Holding rng calls r.issuanceId tok) := by
  induction l generalizing H f with
  | nil => exact Keeps.pure fun _ h => hf.mono h
  | cons d l ih =>
    unfold byDetails
    refine Keeps.lift.bind fun _ H1 h1 _ => ?_
    refine Keeps.lift.bind fun _ H2 h2 _ => ?_
    refine (byIdentifiers_keeps hc hP (hf.mono (h1.trans h2))).bind fun g H3 _ hg => ?_
    exact ih hg

theorem fetch_keeps {r : CredentialsRequest} (hc : (calls i).2 = .credentials r) (hP : P = (calls i).1) {tok jwt : String} {f : Issuance}
    (hf : Holding rng calls r.issuanceId tok H f) : Keeps T i (fetch P f r jwt) H (Holding rng calls r.issuanceId tok) := by
  unfold fetch
  split
  · unfold byFormat
    refine Keeps.lift.bind fun _ H1 h1 _ => ?_
    refine Keeps.lift.bind fun _ H2 h2 _ => ?_
    refine Keeps.lift.bind fun x H3 h3 _ => ?_
    refine (call_keeps fun H4 h4 => asks_due hc hf rfl (h1.trans (h2.trans (h3.trans h4)))).bind fun resp H4 h4 hev => ?_
    refine process_keeps.bind fun out H5 h5 ho => ?_
    rw [hP] at ho
    exact Keeps.pure fun H6 h6 => (((hf.mono (h1.trans (h2.trans (h3.trans (h4.trans h5))))).record (h5.subset hev) (.inl ⟨r, hc, rfl⟩) ho _).mono h6)
  · unfold byIdentifier
    refine Keeps.lift.bind fun _ H1 h1 _ => ?_
    exact byDetails_keeps hc hP (hf.mono h1)

theorem credentials_keeps {r : CredentialsRequest} (hc : (calls i).2 = .credentials r) (hP : P = (calls i).1) :
    Keeps T i (credentials P r) H fun _ _ => True := by
  refine (flow_keeps (.inl (by rw [hc]; constructor))).bind fun f H1 _ hf => ?_
  refine Keeps.lift.bind fun _ H2 h2 hs => ?_
  refine Keeps.nowE.bind fun _ H3 h3 _ => ?_
  refine Keeps.lift.bind fun jwt H4 h4 _ => ?_
  have hf : Holding rng calls r.issuanceId f.token.accessToken H1 f := ⟨hf, status_is hs, rfl⟩
  refine (fetch_keeps hc hP (hf.mono (h2.trans (h3.trans h4)))).bind fun g H5 _ hg => ?_
  have hid : g.id = r.issuanceId := hg.facts.id
  refine (put_keeps (.inl (by rw [hc, hid]; exact .credentials r)) fun H6 h6 _ => ?_).bind fun _ _ _ _ => Keeps.pure fun _ _ => trivial
  rw [hid]
  exact hg.facts.mono h6

theorem deferred_keeps {r : DeferredRequest} (hc : (calls i).2 = .deferred r) (hP : P = (calls i).1) :
    Keeps T i (deferred P r) H fun _ _ => True := by
  refine (flow_keeps (.inl (by rw [hc]; constructor))).bind fun f H1 _ hf => ?_
  refine Keeps.lift.bind fun _ H2 h2 hs => ?_
  have hs : f.status = .tokenReceived := status_is hs
  have hf : FlowFacts rng calls H1 r.issuanceId f := hf
  have hf : Holding rng calls r.issuanceId f.token.accessToken H1 { f with deferred := remove f.deferred r.transactionId } :=
    ⟨⟨hf.id, hf.offered, hf.accepted, hf.pin, hf.token, hf.creds, hf.silent⟩, hs, rfl⟩
  refine (call_keeps fun H3 h3 => ?_).bind fun resp H3 h3 hev => ?_
  · obtain ⟨t, h4, h5⟩ := hf.facts.token hs
    exact ⟨r, t, hc, h4.mono (h2.trans h3), h5, rfl⟩
  refine Keeps.lift.bind fun config H4 h4 _ => ?_
  refine process_keeps.bind fun out H5 h5 ho => ?_
  rw [hP] at ho
  have hg := (hf.mono (h2.trans (h3.trans (h4.trans h5)))).record ((h4.trans h5).subset hev) (.inr ⟨r, hc, rfl⟩) ho r.configId
  refine Keeps.bind (Q := fun _ _ => True) ?_ fun _ _ _ _ => Keeps.pure fun _ _ => trivial
  generalize ({ f with deferred := remove f.deferred r.transactionId } : Issuance).record r.configId out = g at hg
  have hid : g.id = r.issuanceId := hg.facts.id
  have hown : Own rng calls i g.id := .inl (by rw [hc, hid]; exact .deferred r)
  unfold stash
  split
  · exact purge_keeps hown
  · refine put_keeps hown fun H6 h6 _ => ?_
    rw [hid]
    exact hg.facts.mono h6

/-! Ending a flow -/

theorem saveAll_keeps {k : String} (hc : (calls i).2 = .save k) {f : Issuance} (hn : f.notificationId = none) {l : List Credential}
    (hl : ∀ c ∈ l, CredentialCame calls H k c) : Keeps T i (saveAll f l) H fun _ _ => True := by
  induction l generalizing H with
  | nil => exact Keeps.pure fun _ _ => trivial
  | cons c l ih =>
    unfold saveAll
    refine (answer_keeps (rng := rng) (calls := calls) (c := .save c) fun H1 h1 => ⟨k, hc, (hl c (.head _)).mono h1⟩).bind fun o H1 h1 _ => ?_
    match o with
    | some () => exact ih fun c' hc' => (hl c' (.tail _ hc')).mono h1
    | none =>
      refine Keeps.bind (Q := fun _ _ => True) ?_ fun _ _ _ _ => True.intro
      unfold notifyFailure
      rw [hn]
      exact Keeps.pure fun _ _ => trivial

theorem notifyOutcome_keeps {f : Issuance} (hn : f.notificationId = none) {ev : NotificationEvent} :
    Keeps T i (notifyOutcome f ev) H fun _ _ => True := by
  unfold notifyOutcome
  rw [hn]
  exact Keeps.pure fun _ _ => trivial

theorem save_keeps {k : String} (hc : (calls i).2 = .save k) : Keeps T i (save k) H fun _ _ => True := by
  refine (flow_keeps (.inl (by rw [hc]; constructor))).bind fun f H1 _ hf => ?_
  have hf : FlowFacts rng calls H1 k f := hf
  refine (saveAll_keeps hc hf.silent hf.creds).bind fun _ H2 _ _ => ?_
  refine (notifyOutcome_keeps hf.silent).bind fun _ H3 _ _ => ?_
  refine Keeps.bind (Q := fun _ _ => True) ?_ fun _ _ _ _ => Keeps.pure fun _ _ => trivial
  unfold endFlow
  split
  · exact purge_keeps (.inl (by rw [hc]; exact .save k))
  · exact Keeps.pure fun _ _ => trivial

theorem cancel_keeps {k : String} (hc : (calls i).2 = .cancel k) : Keeps T i (cancel k) H fun _ _ => True := by
  refine (flow_keeps (.inl (by rw [hc]; constructor))).bind fun f H1 _ hf => ?_
  have hf : FlowFacts rng calls H1 k f := hf
  refine (notifyOutcome_keeps hf.silent).bind fun _ H3 _ _ => ?_
  refine (purge_keeps (.inl (by rw [hc]; exact .cancel k))).bind fun _ _ _ _ => Keeps.pure fun _ _ => trivial

/-! Presenting -/

theorem obtainRequest_keeps {url u : String} (hP : P = (calls i).1) (hu : P.percentDecode url = some u) :
    Keeps T i (obtainRequest P url u) H fun H' q => ∃ pre, Obtained (calls i).1 url q pre ∧ ∀ ev ∈ pre, (i, .made ev) ∈ H' := by
  subst hP
  have inl : containsText "&presentation_definition".toList url.toList = true → ∀ q, (calls i).1.parseRequest url = some q →
      Obtained (calls i).1 url q [] := fun h q hq => .inline hq h
  have fet : containsText "&presentation_definition".toList url.toList = false → ∀ q t, (calls i).1.decodeRequest t = some q →
      Obtained (calls i).1 url q [⟨.requestObject u, some (.jwt t)⟩] := fun h q t hq => .fetched hu hq h
  unfold obtainRequest
  generalize containsText "&presentation_definition".toList url.toList = b at inl fet
  cases b with
  | true => exact Keeps.lift.imp fun q H1 _ hq => ⟨[], inl rfl q (need_ok hq.symm), fun ev hev => by cases hev⟩
  | false =>
    refine Keeps.bind (Keeps.callE fun _ _ => True.intro) fun r H1 _ hr => ?_
    cases r with
    | object o => trivial
    | jwt t =>
      refine Keeps.lift.imp fun q H2 h2 hq => ⟨[⟨.requestObject u, some (.jwt t)⟩], fet rfl q t (need_ok hq.symm), fun ev hev => ?_⟩
      rw [List.mem_singleton] at hev
      subst hev
      exact h2.subset hr

theorem request_keeps {url : String} (hc : (calls i).2 = .request url) (hP : P = (calls i).1) : Keeps T i (request P url) H fun _ _ => True := by
  refine Keeps.lift.bind fun u H1 _ hu => ?_
  refine Keeps.drawE.bind fun id H2 _ hid => ?_
  refine (obtainRequest_keeps hP (need_ok hu.symm)).bind fun q H3 _ hq => ?_
  obtain ⟨pre, hq, hpre⟩ := hq
  refine Keeps.lift.bind fun c H4 h4 hcs => ?_
  obtain ⟨pd, d, ds, hpd, hd, rfl⟩ := buildFilter_ok hcs
  refine (Keeps.callE fun _ _ => True.intro).bind fun creds H5 h5 hfind => ?_
  obtain ⟨n, rfl⟩ := hid
  refine (put_keeps (.inr ⟨n, rfl⟩) fun H6 h6 _ => ?_).bind fun _ _ _ _ => Keeps.pure fun _ _ => trivial
  exact {
    id := rfl
    requested := ⟨i, url, n, pre, pd, d, ds, hc, rfl, hq, fun ev hev => (h4.trans (h5.trans h6)).subset (hpre ev hev), hpd, hd, h6.subset hfind⟩
    authorized := fun h => by cases h }

theorem authorizePresentation_keeps {k : String} (hc : (calls i).2 = .authorizePresentation k) :
    Keeps T i (authorizePresentation k) H fun _ _ => True := by
  refine (presentation_keeps (.inl (by rw [hc]; constructor))).bind fun p H1 _ hp => ?_
  refine Keeps.lift.bind fun _ H2 h2 hs => ?_
  have hp : PresentationFacts rng calls H1 k p := hp
  have hid : p.id = k := hp.id
  refine (put_keeps (.inl (by rw [hc, hid]; exact .authorizePresentation k)) fun H3 h3 hw => ?_).bind fun _ _ _ _ => Keeps.pure fun _ _ => trivial
  have hr := hp.requested.mono (h2.trans h3)
  have ha : WasAuthorized calls H3 k := ⟨i, hc, hw⟩
  rw [← hid] at hr ha
  exact { id := rfl, requested := hr, authorized := fun _ => ha }

theorem createSubmission_keeps {p : Presentation} : Keeps T i (createSubmission p) H fun _ _ => True := by
  unfold createSubmission
  split
  · exact Keeps.refuse
  · exact Keeps.drawE.bind fun _ _ _ _ => Keeps.pure fun _ _ => trivial

theorem createVp_keeps {p : Presentation} {holder : String} :
    Keeps T i (createVp p holder) H fun _ vp => vp.credentials.getD [] = p.credentials.map (fun c => Kind.string c.issued) := by
  unfold createVp
  refine Keeps.drawE.bind fun u H1 _ _ => ?_
  split
  · exact Keeps.refuse
  · rename_i pd hpd
    refine Keeps.lift.imp fun vp H2 _ hvp => ?_
    have hb : (vpDraft u p pd holder).build = .ok vp := by
      unfold vpDraft
      split at hvp
      · rename_i vp' h'; cases hvp; exact h'
      · cases hvp
    exact (vpDraft_ok hb).1

theorem ofRes_ok {α : Type} {r : Res α} {a : α} (h : ofRes r = .ok a) : r = .ok a := by
  cases r with
  | ok b => cases h; rfl
  | error x => cases x <;> cases h

theorem present_keeps {k : String} (hc : (calls i).2 = .present k) (hP : P = (calls i).1) : Keeps T i (present P k) H fun _ _ => True := by
  refine (presentation_keeps (.inl (by rw [hc]; constructor))).bind fun p H1 _ hp => ?_
  refine Keeps.lift.bind fun _ H2 h2 hs => ?_
  have hp : PresentationFacts rng calls H1 k p := hp
  have hs : p.status = .authorized := by simpa using check_ok' hs
  refine createSubmission_keeps.bind fun sub H3 h3 _ => ?_
  refine createVp_keeps.bind fun vp H4 h4 hvp => ?_
  refine Keeps.nowE.bind fun now H5 h5 _ => ?_
  refine Keeps.lift.bind fun jwt H6 h6 hj => ?_
  refine (call_keeps fun H7 h7 => ?_).bind fun _ _ _ _ => Keeps.pure fun _ _ => trivial
  have hpre := h2.trans (h3.trans (h4.trans (h5.trans (h6.trans h7))))
  refine ⟨k, p.request, p.credentials, hc, hp.requested.mono hpre, (hp.authorized hs).mono hpre, jwt, _, rfl, hP ▸ create_ok (ofRes_ok hj), hvp, rfl, rfl, rfl, rfl⟩

theorem serve_keeps (i : Nat) : Keeps T i (serve (calls i).1 (calls i).2) H fun _ _ => True := by
  cases hc : (calls i).2 with
  | offer r => exact offer_keeps hc
  | accept r => exact accept_keeps hc
  | pin r => exact pin_keeps hc
  | token k => exact token_keeps hc
  | authorize r => exact authorize_keeps hc
  | credentials r => exact credentials_keeps hc rfl
  | deferred r => exact deferred_keeps hc rfl
  | save k => exact save_keeps hc
  | cancel k => exact cancel_keeps hc
  | request u => exact request_keeps hc rfl
  | authorizePresentation k => exact authorizePresentation_keeps hc
  | present k => exact present_keeps hc rfl

end

/-- All calls keep the pact, in every schedule. -/
theorem pool_safe (rng : Nat → Nat → String) (calls : Nat → Provider × Req) (now : Int) (s : List Turn) :
    HPool.Safe (pact rng calls) (HPool.turns rng (HPool.start now calls) s) :=
  HPool.Safe.turns (T := pact rng calls) (fun _ n => ⟨n, rfl⟩) (HPool.Safe.start serve_keeps) s

end Verif.Holder
