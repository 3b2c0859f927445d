import Verif.Holder.HomeOverlap
/-!
# What requests say when calls overlap (C208)
-/
namespace Verif.Holder
open Verif HProg

section
variable (rng : Nat → Nat → String) (calls : Nat → Provider × Req)

/-! ### Specification -/

/-- This offer was taken in as flow `k`, in the name of client `c`. Specification; models no code. -/
def OfferedTo (H : Trace) (k : String) (o : Issuer.CredentialOffer) (c : String) : Prop :=
  ∃ j r n, (calls j).2 = .offer r ∧ r.offer = o ∧ r.clientId = c ∧ k = rng j n ∧ (j, .wrote) ∈ H

/-- The wallet started flow `k` itself, in the name of client `c`. Specification; models no code. -/
def SelfStarted (k c : String) : Prop := ∃ j r n u s b, (calls j).2 = .authorize r ∧ r.initiator = .wallet c u s b ∧ k = rng j n

/-- These details stand for what the holder picked when accepting the offer of the flow. Specification; models no code. -/
def Picked (H : Trace) (k : String) (ds : Option (List AuthorizationDetail)) : Prop :=
  ∃ j r, (calls j).2 = .accept r ∧ r.issuanceId = k ∧ (j, .wrote) ∈ H ∧ Narrowed r.accept ds

/-- This nonce came for the flow: with its token, or with credentials asked for in it. Specification; models no code. -/
def NonceCame (H : Trace) (k n : String) : Prop :=
  (∃ tr t, GivenFor rng calls H k tr t ∧ t.cNonce = some n) ∨
    ∃ j r q x, (calls j).2 = .credentials r ∧ r.issuanceId = k ∧ (j, .made ⟨.credential q, some x⟩) ∈ H ∧ x.cNonce = some n

/-- A proof of possession for the flow: in the name of its client, over a nonce that came for it if over any, and made out to the issuer of its offer,
or to nobody if the wallet started the flow. Specification; models no code. -/
def ProofFor (H : Trace) (k : String) (p : ProofClaims) : Prop :=
  (∃ c, p.iss = some c ∧ ((∃ o, OfferedTo rng calls H k o c ∧ p.aud = o.credentialIssuer) ∨ SelfStarted rng calls k c ∧ p.aud = "")) ∧
    ∀ n, p.nonce = some n → NonceCame rng calls H k n

/-- What the requests of call `i` say. Specification; models no code. -/
def Apt (i : Nat) (H : Trace) : Call → Prop
  | .token q =>
    (∃ k o c g p pin, (calls i).2 = .token k ∧ OfferedTo rng calls H k o c ∧ q.clientId = some c ∧ o.grants = some g ∧ g.preAuthorizedCode = some p ∧
      q.grantType = .preAuthorizedCode p.preAuthorizedCode pin ∧ (∀ t, pin = some t → PinGiven calls H k t) ∧ Picked calls H k q.authorizationDetails) ∨
    ∃ r a x n, (calls i).2 = .authorize r ∧ (i, .made ⟨.authorization a, some x⟩) ∈ H ∧ q.clientId = some a.clientId ∧
      q.grantType = .authorizationCode x.code a.redirectUri (some (rng i n)) ∧ a.codeChallenge = (calls i).1.codeChallenge (rng i n) ∧
      q.authorizationDetails = r.authorizationDetails
  | .authorization a => ∃ k r, (calls i).2 = .authorize r ∧ IsFor rng calls i k ∧ a.state = some k ∧ a.redirectUri = r.redirectUri ∧
      ((∃ o, OfferedTo rng calls H k o a.clientId) ∨ SelfStarted rng calls k a.clientId)
  | .credential q => ∃ r tr t, (calls i).2 = .credentials r ∧ GivenFor rng calls H r.issuanceId tr t ∧ q.accessToken = t.accessToken ∧
      (∀ id, q.credential = .identifier id → (∃ l, t.authorizationDetails = some l ∧ ∃ d ∈ l, id ∈ d.identifiers) ∧ ∀ w, r.identifiers = some w → id ∈ w) ∧
      ∃ p jwt, q.proof = some (.single jwt) ∧ (calls i).1.signProof p = some jwt ∧ ProofFor rng calls H r.issuanceId p
  | _ => True

/-! ### What is stored -/

/-- Specification; models no code. -/
structure ContentFacts (H : Trace) (k : String) (f : Issuance) : Prop where
  id : f.id = k
  origin : OfferedTo rng calls H k f.offer f.clientId ∨
    SelfStarted rng calls k f.clientId ∧ f.offer = { credentialIssuer := "", configIds := [], grants := none }
  picked : f.status = .pendingPin ∨ f.status = .accepted → Picked calls H k f.accepted
  pin : ∀ t, f.pin = some t → PinGiven calls H k t
  token : f.status = .tokenReceived → ∃ tr t, GivenFor rng calls H k tr t ∧ f.token.accessToken = t.accessToken ∧ f.token.authorizationDetails = t.authorizationDetails
  nonce : f.status = .tokenReceived → ∀ n, f.token.cNonce = some n → NonceCame rng calls H k n

end

section
variable {rng : Nat → Nat → String} {calls : Nat → Provider × Req} {H H' : Trace} {k : String}

theorem OfferedTo.mono {o : Issuer.CredentialOffer} {c : String} (h : H <+: H') : OfferedTo rng calls H k o c → OfferedTo rng calls H' k o c := by
  rintro ⟨j, r, n, h1, h2, h3, h4, h5⟩; exact ⟨j, r, n, h1, h2, h3, h4, h.subset h5⟩

theorem Picked.mono {ds : Option (List AuthorizationDetail)} (h : H <+: H') : Picked calls H k ds → Picked calls H' k ds := by
  rintro ⟨j, r, h1, h2, h3, h4⟩; exact ⟨j, r, h1, h2, h.subset h3, h4⟩

theorem NonceCame.mono {n : String} (h : H <+: H') : NonceCame rng calls H k n → NonceCame rng calls H' k n := by
  rintro (⟨tr, t, h1, h2⟩ | ⟨j, r, q, x, h1, h2, h3, h4⟩)
  · exact .inl ⟨tr, t, h1.mono h, h2⟩
  · exact .inr ⟨j, r, q, x, h1, h2, h.subset h3, h4⟩

theorem ProofFor.mono {p : ProofClaims} (h : H <+: H') : ProofFor rng calls H k p → ProofFor rng calls H' k p := by
  rintro ⟨⟨c, h1, h2⟩, h3⟩
  refine ⟨⟨c, h1, ?_⟩, fun n hn => (h3 n hn).mono h⟩
  rcases h2 with ⟨o, h2, h4⟩ | h2
  · exact .inl ⟨o, h2.mono h, h4⟩
  · exact .inr h2

theorem ContentFacts.mono {f : Issuance} (h : H <+: H') (hf : ContentFacts rng calls H k f) : ContentFacts rng calls H' k f where
  id := hf.id
  origin := hf.origin.imp (·.mono h) fun x => x
  picked hs := (hf.picked hs).mono h
  pin t ht := (hf.pin t ht).mono h
  token hs := by obtain ⟨tr, t, h1, h2⟩ := hf.token hs; exact ⟨tr, t, h1.mono h, h2⟩
  nonce hs n hn := (hf.nonce hs n hn).mono h

end

/-- What the wallet's endpoints rely on and guarantee, as to what their requests say. Specification; models no code. -/
def contentPact (rng : Nat → Nat → String) (calls : Nat → Provider × Req) : Pact where
  R H k
    | .issuance f => ContentFacts rng calls H k f
    | .presentation _ => True
  C := Apt rng calls
  G _ _ := True
  D i s := ∃ n, s = rng i n
  mono {H H' k v} h hv := by
    cases v with
    | issuance f => exact ContentFacts.mono h hv
    | presentation p => trivial

section
variable {rng : Nat → Nat → String} {calls : Nat → Provider × Req} {i : Nat} {P : Provider} {H : Trace}

local notation "TT" => contentPact rng calls

theorem content_presentation {k : String} {p : Presentation} : Keeps TT i (putE k (.presentation p)) H fun _ _ => True :=
  Keeps.putE (T := TT) (v := .presentation p) trivial fun _ _ _ => trivial

/-! ### The endpoints -/

theorem content_flow {k : String} : Keeps TT i (getIssuance k) H fun H' f => ContentFacts rng calls H' k f := Keeps.getIssuance trivial

theorem content_put {k : String} {f : Issuance} (hr : ∀ H', H <+: H' → (i, .wrote) ∈ H' → ContentFacts rng calls H' k f) :
    Keeps TT i (putE k (.issuance f)) H fun _ _ => True := Keeps.putE (T := TT) (v := .issuance f) trivial hr

theorem content_new {c : String} : Keeps TT i (newIssuance c) H fun _ f => (∃ n, f.id = rng i n) ∧ f = { id := f.id, clientId := c } :=
  Keeps.drawE.bind fun _ _ _ hs => Keeps.pure fun _ _ => ⟨hs, rfl⟩

theorem content_setIssuer {f : Issuance} {u : String} : Keeps TT i (setIssuer f u) H fun _ g => ∃ md sv, g = { f with issuer := md, server := sv } := by
  refine (Keeps.callE fun _ _ => True.intro).bind fun md H1 _ h1 => ?_
  refine (Keeps.callE fun _ _ => True.intro).bind fun sv H2 h2 _ => ?_
  exact Keeps.pure fun _ h3 => ⟨md, sv, rfl⟩

theorem content_offer {r : OfferRequest} (hc : (calls i).2 = .offer r) : Keeps TT i (offer r) H fun _ _ => True := by
  refine Keeps.lift.bind fun _ _ _ _ => ?_
  refine content_new.bind fun f H1 _ hf => ?_
  refine content_setIssuer.bind fun g H2 _ hg => ?_
  obtain ⟨⟨n, hn⟩, hf⟩ := hf
  obtain ⟨md, sv, rfl⟩ := hg
  refine (content_put fun H3 h3 hw => ?_).bind fun _ H3 _ _ => ?_
  · have hcl : r.clientId = f.clientId := by rw [hf]
    have hpin : f.pin = none := by rw [hf]
    exact {
      id := rfl
      origin := .inl ⟨i, r, n, hc, rfl, hcl, hn, hw⟩
      picked := by rintro (h | h) <;> cases h
      pin := fun t (ht : f.pin = some t) => by rw [hpin] at ht; cases ht
      token := fun h => by cases h
      nonce := fun h => by cases h }
  · exact Keeps.lift.bind fun _ _ _ _ => Keeps.pure fun _ _ => trivial

theorem content_accept {r : AcceptRequest} (hc : (calls i).2 = .accept r) : Keeps TT i (accept r) H fun _ _ => True := by
  refine content_flow.bind fun f H1 _ hf => ?_
  refine Keeps.lift.bind fun _ H2 h2 _ => ?_
  refine Keeps.lift.bind fun _ H3 h3 _ => ?_
  refine Keeps.lift.bind fun acc H4 h4 hacc => ?_
  refine (content_put fun H5 h5 hw => ?_).bind fun _ H5 _ _ => Keeps.pure fun _ _ => trivial
  have hf5 := hf.mono (h2.trans (h3.trans (h4.trans h5)))
  rw [← hf.id] at hf5
  exact {
    id := rfl
    origin := hf5.origin
    picked := fun _ => ⟨i, r, hc, hf.id.symm, hw, narrowScope_narrowed hacc⟩
    pin := hf5.pin
    token := fun h => by simp only at h; split at h <;> cases h
    nonce := fun h => by simp only at h; split at h <;> cases h }

theorem content_pin {r : PinRequest} (hc : (calls i).2 = .pin r) : Keeps TT i (pin r) H fun _ _ => True := by
  refine content_flow.bind fun f H1 _ hf => ?_
  refine Keeps.lift.bind fun _ H2 h2 hs => ?_
  refine (content_put fun H5 h5 hw => ?_).bind fun _ H5 _ _ => Keeps.pure fun _ _ => trivial
  have hf5 := hf.mono (h2.trans h5)
  rw [← hf.id] at hf5
  exact {
    id := rfl
    origin := hf5.origin
    picked := fun _ => hf5.picked (.inl (status_is hs))
    pin := fun t ht => by
      cases ht
      exact ⟨i, by rw [hc]; exact congrArg (fun x => Req.pin ⟨x, r.pin⟩) hf.id.symm, hw⟩
    token := fun h => by cases h
    nonce := fun h => by cases h }

theorem content_token {k : String} (hc : (calls i).2 = .token k) : Keeps TT i (token k) H fun _ _ => True := by
  refine content_flow.bind fun f H1 _ hf => ?_
  refine Keeps.lift.bind fun _ H2 h2 hs => ?_
  refine Keeps.lift.bind fun q H3 h3 hq => ?_
  have hs : f.status = .accepted := by
    have := check_ok' hs
    simp at this; exact this.2
  refine (Keeps.callE fun H4 h4 => ?_).bind fun t H4 h4 ht => ?_
  · have hf4 := hf.mono (h2.trans (h3.trans h4))
    simp only [tokenRequest] at hq
    obtain ⟨g, hg, hq⟩ := hbind_ok hq
    obtain ⟨p, hp, hq⟩ := hbind_ok hq
    cases hq
    rcases hf4.origin with ho | ⟨_, ho⟩
    · exact .inl ⟨k, f.offer, f.clientId, g, p, f.pin, hc, ho, rfl, need_ok hg.symm, need_ok hp.symm, rfl, hf4.pin, hf4.picked (.inr hs)⟩
    · have := need_ok hg.symm
      rw [ho] at this
      cases this
  refine Keeps.lift.bind fun _ H5 h5 _ => ?_
  refine (content_put fun H6 h6 _ => ?_).bind fun _ _ _ _ => Keeps.pure fun _ _ => trivial
  have hf6 := hf.mono (h2.trans (h3.trans (h4.trans (h5.trans h6))))
  rw [← hf.id] at hf6
  have hgiven : GivenFor rng calls H6 f.id q t := ⟨i, (h5.trans h6).subset ht, .inl (by rw [hc, hf.id]; rfl)⟩
  exact {
    id := rfl
    origin := hf6.origin
    picked := by rintro (h | h) <;> cases h
    pin := hf6.pin
    token := fun _ => ⟨q, t, hgiven, rfl, rfl⟩
    nonce := fun _ n hn => .inl ⟨q, t, hgiven, hn⟩ }

/-- A flow about to be authorized. Specification; models no code. -/
structure ContentBegun (rng : Nat → Nat → String) (calls : Nat → Provider × Req) (i : Nat) (H : Trace) (f : Issuance) : Prop where
  own : IsFor rng calls i f.id
  origin : OfferedTo rng calls H f.id f.offer f.clientId ∨
    SelfStarted rng calls f.id f.clientId ∧ f.offer = { credentialIssuer := "", configIds := [], grants := none }
  pin : ∀ t, f.pin = some t → PinGiven calls H f.id t

theorem ContentBegun.mono {f : Issuance} {H' : Trace} (h : H <+: H') (hf : ContentBegun rng calls i H f) : ContentBegun rng calls i H' f :=
  ⟨hf.own, hf.origin.imp (·.mono h) fun x => x, fun t ht => (hf.pin t ht).mono h⟩

theorem content_start {r : AuthorizeRequest} (hc : (calls i).2 = .authorize r) : Keeps TT i (startFlow r) H (ContentBegun rng calls i) := by
  unfold startFlow
  split
  · rename_i k hk
    refine content_flow.bind fun f H1 _ hf => ?_
    refine Keeps.lift.bind fun _ H2 h2 _ => ?_
    refine Keeps.pure fun H3 h3 => ?_
    have hf3 := hf.mono (h2.trans h3)
    rw [← hf.id] at hf3
    exact ⟨.inl (by rw [hc, hf.id]; simp only [flowOf, hk]), hf3.origin, hf3.pin⟩
  · rename_i c u s b hk
    refine Keeps.lift.bind fun _ H1 _ _ => ?_
    refine content_new.bind fun f H2 _ hf => ?_
    refine content_setIssuer.bind fun g H3 _ hg => ?_
    obtain ⟨md, sv, rfl⟩ := hg
    obtain ⟨⟨n, hn⟩, hf⟩ := hf
    have hcl : f.clientId = c := by rw [hf]
    have hof : f.offer = { credentialIssuer := "", configIds := [], grants := none } := by rw [hf]
    have hpin : f.pin = none := by rw [hf]
    exact Keeps.pure fun H4 h4 => ⟨.inr ⟨⟨r, c, u, s, b, hc, hk⟩, n, hn⟩, .inr ⟨⟨i, r, n, u, s, b, hc, by rw [← hcl] at hk; exact hk, hn⟩, hof⟩,
      fun t (ht : f.pin = some t) => by rw [hpin] at ht; cases ht⟩

theorem authorizationRequest_content {f : Issuance} {r : AuthorizeRequest} {q : Issuer.RequestObject} (h : authorizationRequest f r = .ok q) :
    q.clientId = f.clientId ∧ q.redirectUri = r.redirectUri ∧ f.codeChallenge = some q.codeChallenge := by
  unfold authorizationRequest at h
  obtain ⟨a, h1, h⟩ := hbind_ok h
  obtain ⟨b, _, h⟩ := hbind_ok h
  obtain ⟨c, _, h⟩ := hbind_ok h
  obtain ⟨d, _, h⟩ := hbind_ok h
  obtain ⟨e, _, h⟩ := hbind_ok h
  cases h
  exact ⟨rfl, rfl, need_ok h1.symm⟩

theorem content_authorize {r : AuthorizeRequest} (hc : (calls i).2 = .authorize r) (hP : P = (calls i).1) :
    Keeps TT i (authorize P r) H fun _ _ => True := by
  refine (content_start hc).bind fun f H1 _ hf => ?_
  refine Keeps.drawE.bind fun v H2 h2 hv => ?_
  refine Keeps.lift.bind fun q H3 h3 hq => ?_
  obtain ⟨n, rfl⟩ := hv
  have hst : q.state = some f.id := (authorizationRequest_state hq :)
  obtain ⟨hcl, hru, hch⟩ := authorizationRequest_content hq
  refine (Keeps.callE fun H4 h4 => ?_).bind fun a H4 h4 ha => ?_
  · have hf4 := hf.mono (h2.trans (h3.trans h4))
    refine ⟨f.id, r, hc, hf.own, hst, hru, ?_⟩
    rw [hcl]
    exact hf4.origin.imp (fun h => ⟨_, h⟩) fun h => h.1
  refine (Keeps.callE fun H5 h5 => ?_).bind fun t H5 h5 ht => ?_
  · refine .inr ⟨r, q, a, n, hc, h5.subset ha, by rw [hcl]; rfl, by rw [hru]; rfl, ?_, rfl⟩
    rw [← hP]
    exact (Option.some.inj hch).symm
  refine Keeps.lift.bind fun _ H6 h6 _ => ?_
  refine (content_put fun H7 h7 _ => ?_).bind fun _ _ _ _ => Keeps.pure fun _ _ => trivial
  have hf7 := hf.mono (h2.trans (h3.trans (h4.trans (h5.trans (h6.trans h7)))))
  have hgiven : GivenFor rng calls H7 f.id _ t := ⟨i, (h6.trans h7).subset ht, hf.own⟩
  exact {
    id := rfl
    origin := hf7.origin
    picked := by rintro (h | h) <;> cases h
    pin := hf7.pin
    token := fun _ => ⟨_, t, hgiven, rfl, rfl⟩
    nonce := fun _ n hn => .inl ⟨_, t, hgiven, hn⟩ }

theorem content_logo {u : Option String} : Keeps TT i (fetchLogo u) H fun _ _ => True := by
  cases u with
  | none => exact Keeps.pure fun _ _ => trivial
  | some u => exact (Keeps.callO fun _ _ => True.intro).imp fun _ _ _ _ => trivial

theorem content_storable {config : CredentialConfiguration} {kd : Kind Vc} : Keeps TT i (storable P config kd) H fun _ _ => True := by
  unfold storable
  refine Keeps.lift.bind fun p H1 _ hp => ?_
  cases p with
  | vp v c n => exact Keeps.refuse
  | vc vc at_ =>
    refine Keeps.lift.bind fun _ H2 _ _ => ?_
    cases kd with
    | object v => exact Keeps.refuse
    | string t =>
      refine Keeps.bind (Q := fun _ _ => True) ?_ fun id H3 _ _ => ?_
      · unfold storableId
        split
        · exact Keeps.pure fun _ _ => trivial
        · exact Keeps.drawE.bind fun _ _ _ _ => Keeps.pure fun _ _ => trivial
      refine Keeps.lift.bind fun _ H4 _ _ => ?_
      exact content_logo.bind fun _ H5 _ _ => Keeps.pure fun _ _ => trivial

theorem content_storables {config : CredentialConfiguration} {l : List (Kind Vc)} : Keeps TT i (storables P config l) H fun _ _ => True := by
  induction l generalizing H with
  | nil => exact Keeps.pure fun _ _ => trivial
  | cons kd l ih =>
    unfold storables
    exact content_storable.bind fun c H1 _ _ => ih.bind fun cs H2 _ _ => Keeps.pure fun _ _ => trivial

theorem content_process {config : CredentialConfiguration} {r : CredentialResponse} : Keeps TT i (process P config r) H fun _ _ => True := by
  unfold process
  split
  · exact content_storable.bind fun c H1 _ _ => Keeps.pure fun _ _ => trivial
  · exact content_storables.bind fun c H1 _ _ => Keeps.pure fun _ _ => trivial
  · exact Keeps.pure fun _ _ => trivial

/-- A flow with its token `t`. Specification; models no code. -/
structure ContentHolding (rng : Nat → Nat → String) (calls : Nat → Provider × Req) (k : String) (t : Issuer.TokenResponse) (H : Trace) (f : Issuance) : Prop where
  facts : ContentFacts rng calls H k f
  status : f.status = .tokenReceived
  token : f.token.accessToken = t.accessToken
  given : ∃ tr, GivenFor rng calls H k tr t

theorem ContentHolding.mono {k : String} {t : Issuer.TokenResponse} {H H' : Trace} {f : Issuance} (h : H <+: H')
    (hf : ContentHolding rng calls k t H f) : ContentHolding rng calls k t H' f :=
  ⟨hf.facts.mono h, hf.status, hf.token, by obtain ⟨tr, hg⟩ := hf.given; exact ⟨tr, hg.mono h⟩⟩

theorem ContentHolding.record {k : String} {t : Issuer.TokenResponse} {f : Issuance} (hf : ContentHolding rng calls k t H f) (cfg : String)
    (out : List Credential × Option String) : ContentHolding rng calls k t H (f.record cfg out) :=
  ⟨⟨hf.facts.id, hf.facts.origin, hf.facts.picked, hf.facts.pin, hf.facts.token, hf.facts.nonce⟩, hf.status, hf.token, hf.given⟩

theorem ContentHolding.renew {k : String} {t : Issuer.TokenResponse} {f : Issuance} (hf : ContentHolding rng calls k t H f) {r : CredentialsRequest}
    (hc : (calls i).2 = .credentials r) (hk : r.issuanceId = k) {q : Issuer.CredentialRequest} {x : CredentialResponse}
    (hx : (i, .made ⟨.credential q, some x⟩) ∈ H) : ContentHolding rng calls k t H (f.renew x) := by
  refine ⟨⟨hf.facts.id, hf.facts.origin, hf.facts.picked, hf.facts.pin, hf.facts.token, fun hs n hn => ?_⟩, hf.status, hf.token, hf.given⟩
  have hn : x.cNonce.or f.token.cNonce = some n := hn
  cases hxn : x.cNonce with
  | none => rw [hxn] at hn; exact hf.facts.nonce hf.status n hn
  | some m =>
    rw [hxn] at hn
    cases hn
    exact .inr ⟨i, r, q, x, hc, hk, hx, hxn⟩

theorem ContentFacts.proof {k : String} {f : Issuance} (hf : ContentFacts rng calls H k f) (hs : f.status = .tokenReceived) (now : Int) :
    ProofFor rng calls H k (proofClaims f now) := by
  refine ⟨⟨f.clientId, rfl, ?_⟩, hf.nonce hs⟩
  rcases hf.origin with h | ⟨h, ho⟩
  · exact .inl ⟨f.offer, h, rfl⟩
  · exact .inr ⟨h, by simp only [proofClaims, ho]⟩

section
variable {r : CredentialsRequest} {t : Issuer.TokenResponse} {jwt : String} {p : ProofClaims}

theorem content_asks (hc : (calls i).2 = .credentials r) {f : Issuance} {H0 : Trace} (hf : ContentHolding rng calls r.issuanceId t H0 f) (h : H0 <+: H)
    (hj : (calls i).1.signProof p = some jwt) (hp : ProofFor rng calls H0 r.issuanceId p) {q : Issuer.CredentialRequest}
    (htok : q.accessToken = f.token.accessToken) (hpr : q.proof = some (.single jwt))
    (hid : ∀ id, q.credential = .identifier id → (∃ l, t.authorizationDetails = some l ∧ ∃ d ∈ l, id ∈ d.identifiers) ∧ ∀ w, r.identifiers = some w → id ∈ w) :
    Apt rng calls i H (.credential q) := by
  obtain ⟨tr, hg⟩ := hf.given
  exact ⟨r, tr, t, hc, hg.mono h, htok.trans hf.token, hid, p, jwt, hpr, hj, hp.mono h⟩

theorem content_byIdentifiers (hc : (calls i).2 = .credentials r) {cfg : String} (hj : (calls i).1.signProof p = some jwt)
    {config : CredentialConfiguration} {ids : List String} (hids : ∀ id ∈ ids, ∃ l, t.authorizationDetails = some l ∧ ∃ d ∈ l, id ∈ d.identifiers)
    {f : Issuance} (hp : ProofFor rng calls H r.issuanceId p) (hf : ContentHolding rng calls r.issuanceId t H f) :
    Keeps TT i (byIdentifiers P jwt cfg config r.identifiers ids f) H (ContentHolding rng calls r.issuanceId t) := by
  induction ids generalizing H f with
  | nil => exact Keeps.pure fun _ h => hf.mono h
  | cons id ids ih =>
    unfold byIdentifiers
    split
    · rename_i hw
      refine (Keeps.callE fun H1 h1 => content_asks hc hf h1 hj hp rfl rfl fun id' hid' => ?_).bind fun resp H1 h1 hev => ?_
      · cases hid'
        refine ⟨hids id (.head _), fun w hw' => ?_⟩
        rw [hw'] at hw
        simpa [wants] using hw
      refine content_process.bind fun out H2 h2 ho => ?_
      exact ih (fun id' h' => hids id' (.tail _ h')) (hp.mono (h1.trans h2))
        (((hf.mono (h1.trans h2)).record cfg out).renew hc rfl (h2.subset hev))
    · exact ih (fun id' h' => hids id' (.tail _ h')) hp hf

theorem content_byDetails (hc : (calls i).2 = .credentials r) (hj : (calls i).1.signProof p = some jwt) {all l : List Issuer.AuthorizedDetail}
    (hall : t.authorizationDetails = some all) (hl : ∀ d ∈ l, d ∈ all) {f : Issuance} (hp : ProofFor rng calls H r.issuanceId p)
    (hf : ContentHolding rng calls r.issuanceId t H f) :
    Keeps TT i (byDetails P jwt r.identifiers l f) H (ContentHolding rng calls r.issuanceId t) := by
  induction l generalizing H f with
  | nil => exact Keeps.pure fun _ h => hf.mono h
  | cons d l ih =>
    unfold byDetails
    refine Keeps.lift.bind fun _ H1 h1 _ => ?_
    refine Keeps.lift.bind fun _ H2 h2 _ => ?_
    refine (content_byIdentifiers hc hj (fun id hid => ⟨all, hall, d, hl d (.head _), hid⟩) (hp.mono (h1.trans h2)) (hf.mono (h1.trans h2))).bind fun g H3 h3 hg => ?_
    exact ih (fun d' h' => hl d' (.tail _ h')) (hp.mono (h1.trans (h2.trans h3))) hg

theorem content_credentials (hc : (calls i).2 = .credentials r) (hP : P = (calls i).1) : Keeps TT i (credentials P r) H fun _ _ => True := by
  refine content_flow.bind fun f H1 _ hf => ?_
  refine Keeps.lift.bind fun _ H2 h2 hs => ?_
  refine Keeps.nowE.bind fun now H3 h3 _ => ?_
  refine Keeps.lift.bind fun jwt H4 h4 hj => ?_
  have hs : f.status = .tokenReceived := status_is hs
  have hj : (calls i).1.signProof (proofClaims f now) = some jwt := by rw [← hP]; exact need_ok hj.symm
  obtain ⟨tr, t, hg, ht1, ht2⟩ := hf.token hs
  have h14 := h2.trans (h3.trans h4)
  have hh : ContentHolding rng calls r.issuanceId t H4 f := ContentHolding.mono h14 ⟨hf, hs, ht1, tr, hg⟩
  have hp := (hf.mono h14).proof hs now
  refine Keeps.bind (Q := ContentHolding rng calls r.issuanceId t) ?_ fun g H5 _ hg => ?_
  · unfold fetch
    split
    · unfold byFormat
      refine Keeps.lift.bind fun _ H1 h1 _ => ?_
      refine Keeps.lift.bind fun _ H2 h2 _ => ?_
      refine Keeps.lift.bind fun x H3 h3 _ => ?_
      refine (Keeps.callE fun H4 h4 => content_asks hc hh (h1.trans (h2.trans (h3.trans h4))) hj hp rfl rfl fun id hid => by cases hid).bind
        fun resp H4 h4 hev => ?_
      refine content_process.bind fun out H5 h5 ho => ?_
      exact Keeps.pure fun H6 h6 => (hh.mono (h1.trans (h2.trans (h3.trans (h4.trans (h5.trans h6)))))).record _ _
    · unfold byIdentifier
      refine Keeps.lift.bind fun l H1 h1 hl => ?_
      exact content_byDetails hc hj (ht2.symm.trans (need_ok hl.symm)) (fun _ h => h) (hp.mono h1) (hh.mono h1)
  refine (content_put fun H6 h6 _ => ?_).bind fun _ _ _ _ => Keeps.pure fun _ _ => trivial
  rw [hg.facts.id]
  exact hg.facts.mono h6

end

theorem content_deferred {r : DeferredRequest} : Keeps TT i (deferred P r) H fun _ _ => True := by
  refine content_flow.bind fun f H1 _ hf => ?_
  refine Keeps.lift.bind fun _ H2 h2 hs => ?_
  refine (Keeps.callE fun H3 h3 => True.intro).bind fun resp H3 h3 hev => ?_
  refine Keeps.lift.bind fun config H4 h4 _ => ?_
  refine content_process.bind fun out H5 h5 ho => ?_
  have hf5 := hf.mono (h2.trans (h3.trans (h4.trans h5)))
  have hg : ContentFacts rng calls H5 r.issuanceId (({ f with deferred := remove f.deferred r.transactionId } : Issuance).record r.configId out) :=
    ⟨hf5.id, hf5.origin, hf5.picked, hf5.pin, hf5.token, hf5.nonce⟩
  refine Keeps.bind (Q := fun _ _ => True) ?_ fun _ _ _ _ => Keeps.pure fun _ _ => trivial
  generalize ({ f with deferred := remove f.deferred r.transactionId } : Issuance).record r.configId out = g at hg
  unfold stash
  split
  · exact Keeps.purgeE trivial
  · refine content_put fun H6 h6 _ => ?_
    rw [hg.id]
    exact hg.mono h6

theorem content_notifyFailure {f : Issuance} : Keeps TT i (notifyFailure f) H fun _ _ => True := by
  unfold notifyFailure
  split
  · exact Keeps.pure fun _ _ => trivial
  · exact (Keeps.callO fun _ _ => True.intro).bind fun _ _ _ _ => Keeps.pure fun _ _ => trivial

theorem content_notifyOutcome {f : Issuance} {ev : NotificationEvent} : Keeps TT i (notifyOutcome f ev) H fun _ _ => True := by
  unfold notifyOutcome
  split
  · exact Keeps.pure fun _ _ => trivial
  · exact (Keeps.callE fun _ _ => True.intro).bind fun _ _ _ _ => Keeps.pure fun _ _ => trivial

theorem content_saveAll {f : Issuance} {l : List Credential} : Keeps TT i (saveAll f l) H fun _ _ => True := by
  induction l generalizing H with
  | nil => exact Keeps.pure fun _ _ => trivial
  | cons c l ih =>
    unfold saveAll
    refine (Keeps.callO (T := TT) (c := .save c) fun H1 h1 => True.intro).bind fun o H1 h1 _ => ?_
    match o with
    | some () => exact ih
    | none => exact content_notifyFailure.bind fun _ _ _ _ => True.intro

theorem content_serve (i : Nat) : Keeps TT i (serve (calls i).1 (calls i).2) H fun _ _ => True := by
  cases hc : (calls i).2 with
  | offer r => exact content_offer hc
  | accept r => exact content_accept hc
  | pin r => exact content_pin hc
  | token k => exact content_token hc
  | authorize r => exact content_authorize hc rfl
  | credentials r => exact content_credentials hc rfl
  | deferred r => exact content_deferred
  | save k =>
    refine content_flow.bind fun f H1 _ _ => content_saveAll.bind fun _ H2 _ _ => content_notifyOutcome.bind fun _ H3 _ _ => ?_
    refine Keeps.bind (Q := fun _ _ => True) ?_ fun _ _ _ _ => Keeps.pure fun _ _ => trivial
    unfold endFlow
    split
    · exact Keeps.purgeE trivial
    · exact Keeps.pure fun _ _ => trivial
  | cancel k =>
    exact content_flow.bind fun f H1 _ _ => content_notifyOutcome.bind fun _ H3 _ _ =>
      (Keeps.purgeE trivial).bind fun _ _ _ _ => Keeps.pure fun _ _ => trivial
  | request u =>
    refine Keeps.lift.bind fun u' H1 _ hu => Keeps.drawE.bind fun id H2 _ hid => ?_
    refine Keeps.bind (Q := fun _ _ => True) ?_ fun q H3 _ _ => ?_
    · unfold obtainRequest
      split
      · exact Keeps.lift.imp fun _ _ _ _ => trivial
      · refine Keeps.bind (Keeps.callE fun _ _ => True.intro) fun r H1 _ hr => ?_
        cases r with
        | object o => trivial
        | jwt t => exact Keeps.lift.imp fun _ _ _ _ => trivial
    refine Keeps.lift.bind fun c H4 h4 hcs => (Keeps.callE fun _ _ => True.intro).bind fun creds H5 h5 hfind => ?_
    exact content_presentation.bind fun _ _ _ _ => Keeps.pure fun _ _ => trivial
  | authorizePresentation k =>
    refine (Keeps.getPresentation (T := TT) trivial).bind fun p H1 _ hp => Keeps.lift.bind fun _ H2 h2 hs => ?_
    exact content_presentation.bind fun _ _ _ _ => Keeps.pure fun _ _ => trivial
  | present k =>
    refine (Keeps.getPresentation (T := TT) trivial).bind fun p H1 _ hp => Keeps.lift.bind fun _ H2 h2 hs => ?_
    refine Keeps.bind (Q := fun _ _ => True) ?_ fun sub H3 _ _ => ?_
    · unfold createSubmission
      split
      · exact Keeps.refuse
      · exact Keeps.drawE.bind fun _ _ _ _ => Keeps.pure fun _ _ => trivial
    refine Keeps.bind (Q := fun _ _ => True) ?_ fun vp H4 _ _ => ?_
    · unfold createVp
      refine Keeps.drawE.bind fun u H1 _ _ => ?_
      split
      · exact Keeps.refuse
      · exact Keeps.lift.imp fun _ _ _ _ => trivial
    refine Keeps.nowE.bind fun now H5 h5 _ => Keeps.lift.bind fun jwt H6 h6 hj => ?_
    exact (Keeps.callE fun H7 h7 => True.intro).bind fun _ _ _ _ => Keeps.pure fun _ _ => trivial

end

theorem pool_content (rng : Nat → Nat → String) (calls : Nat → Provider × Req) (now : Int) (s : List Turn) :
    HPool.Safe (contentPact rng calls) (HPool.turns rng (HPool.start now calls) s) :=
  HPool.Safe.turns (T := contentPact rng calls) (fun _ n => ⟨n, rfl⟩) (HPool.Safe.start content_serve) s

section
variable {rng : Nat → Nat → String} {calls : Nat → Provider × Req} {t0 : Int} {s : List Turn} {pre post : Trace} {i : Nat}

/-- **C208** With a pre-authorized code, the wallet asks for a token in the name of the client that took in the offer, with the code of this offer, a PIN
that was given for it if any, and for what the holder picked when accepting it. -/
theorem C208_pre_authorized_token_request {k : String} (hc : (calls i).2 = .token k) {q : Issuer.TokenRequest} {x : Option Issuer.TokenResponse}
    (h : (overlapped rng t0 calls s).trace = pre ++ (i, .made ⟨.token q, x⟩) :: post) :
    ∃ o c g p pin, OfferedTo rng calls pre k o c ∧ q.clientId = some c ∧ o.grants = some g ∧ g.preAuthorizedCode = some p ∧
      q.grantType = .preAuthorizedCode p.preAuthorizedCode pin ∧ (∀ t, pin = some t → PinGiven calls pre k t) ∧ Picked calls pre k q.authorizationDetails := by
  rcases (pool_content rng calls t0 s).made _ _ _ _ h with ⟨k', o, c, g, p, pin, hk, hrest⟩ | ⟨r, _, _, _, hr, _⟩
  · rw [hc] at hk; cases hk
    exact ⟨o, c, g, p, pin, hrest⟩
  · rw [hc] at hr; cases hr

/-- **C208** An authorization code is redeemed by the call that obtained it, for the same client and redirect URI, with the verifier whose challenge it
had sent, and for the details the caller asked for. -/
theorem C208_code_redeemed_by_its_call {r : AuthorizeRequest} (hc : (calls i).2 = .authorize r) {q : Issuer.TokenRequest} {x : Option Issuer.TokenResponse}
    (h : (overlapped rng t0 calls s).trace = pre ++ (i, .made ⟨.token q, x⟩) :: post) :
    ∃ a y n, (i, .made ⟨.authorization a, some y⟩) ∈ pre ∧ q.clientId = some a.clientId ∧
      q.grantType = .authorizationCode y.code a.redirectUri (some (rng i n)) ∧ a.codeChallenge = (calls i).1.codeChallenge (rng i n) ∧
      q.authorizationDetails = r.authorizationDetails := by
  rcases (pool_content rng calls t0 s).made _ _ _ _ h with ⟨k', _, _, _, _, _, hk, _⟩ | ⟨r', a, y, n, hr, hrest⟩
  · rw [hc] at hk; cases hk
  · rw [hc] at hr; cases hr
    exact ⟨a, y, n, hrest⟩

/-- **C208** An authorization request names the flow it is for and the client of this flow. -/
theorem C208_authorization_request {a : Issuer.RequestObject} {x : Option Issuer.AuthorizationResponse}
    (h : (overlapped rng t0 calls s).trace = pre ++ (i, .made ⟨.authorization a, x⟩) :: post) :
    ∃ k r, (calls i).2 = .authorize r ∧ IsFor rng calls i k ∧ a.state = some k ∧ a.redirectUri = r.redirectUri ∧
      ((∃ o, OfferedTo rng calls pre k o a.clientId) ∨ SelfStarted rng calls k a.clientId) :=
  (pool_content rng calls t0 s).made _ _ _ _ h

/-- **C208** A credential is asked for with an access token that came for the flow; by an identifier that came with the same token and that the caller
wants; and with a proof of possession for this flow. -/
theorem C208_credential_request {q : Issuer.CredentialRequest} {x : Option CredentialResponse}
    (h : (overlapped rng t0 calls s).trace = pre ++ (i, .made ⟨.credential q, x⟩) :: post) :
    ∃ r tr t, (calls i).2 = .credentials r ∧ GivenFor rng calls pre r.issuanceId tr t ∧ q.accessToken = t.accessToken ∧
      (∀ id, q.credential = .identifier id → (∃ l, t.authorizationDetails = some l ∧ ∃ d ∈ l, id ∈ d.identifiers) ∧ ∀ w, r.identifiers = some w → id ∈ w) ∧
      ∃ p jwt, q.proof = some (.single jwt) ∧ (calls i).1.signProof p = some jwt ∧ ProofFor rng calls pre r.issuanceId p :=
  (pool_content rng calls t0 s).made _ _ _ _ h

end

end Verif.Holder
