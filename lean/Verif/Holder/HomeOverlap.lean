import Verif.Holder.HomeProps
import Verif.Holder.OverlapProps
/-!
# Where access tokens, codes and proofs are sent when calls overlap (C206)
-/
namespace Verif.Holder
open Verif HProg

section
variable (rng : Nat → Nat → String) (calls : Nat → Provider × Req)

/-! ### Specification -/

/-- The call that took in or started flow `k` asked `asked` for its metadata and got `md`: `asked` is the issuer the offer names, or the one the wallet
was told to turn to. Specification; models no code. -/
def StartedAt (H : Trace) (k asked : String) (md : Verif.Issuer) : Prop :=
  ∃ j n, k = rng j n ∧ (j, .made ⟨.metadata asked, some md⟩) ∈ H ∧
    ((∃ r, (calls j).2 = .offer r ∧ r.offer.credentialIssuer = asked) ∨ ∃ r c sc sub, (calls j).2 = .authorize r ∧ r.initiator = .wallet c asked sc sub)

/-- Call `i` is about flow `k`: it names the flow, or it is an authorization that the wallet started and calls the flow so. Specification; models no
code. -/
def IsFor (i : Nat) (k : String) : Prop :=
  flowOf (calls i).2 = some k ∨ ((∃ r c u s b, (calls i).2 = .authorize r ∧ r.initiator = .wallet c u s b) ∧ ∃ n, k = rng i n)

/-- A call about the flow asked for an access token with `tr` and was answered with `t`. Specification; models no code. -/
def GivenFor (H : Trace) (k : String) (tr : Issuer.TokenRequest) (t : Issuer.TokenResponse) : Prop :=
  ∃ j, (j, .made ⟨.token tr, some t⟩) ∈ H ∧ IsFor rng calls j k

/-- What has to have happened before call `i` sends an issuer something. Specification; models no code. -/
def SentHome (i : Nat) (H : Trace) (c : Call) : Prop :=
  ∀ to, addressee c = some to → ∃ k asked md, IsFor rng calls i k ∧ StartedAt rng calls H k asked md ∧ to = md.credentialIssuer ∧
    ∀ token, bearerOf c = some token → ∃ tr t, GivenFor rng calls H k tr t ∧ t.accessToken = token ∧ tr.credentialIssuer = to

/-! ### What is stored -/

/-- Specification; models no code. -/
structure HomeFacts (H : Trace) (k : String) (f : Issuance) : Prop where
  id : f.id = k
  started : ∃ asked, StartedAt rng calls H k asked f.issuer
  token : f.status = .tokenReceived → ∃ tr t, GivenFor rng calls H k tr t ∧ t.accessToken = f.token.accessToken ∧ tr.credentialIssuer = f.issuer.credentialIssuer

end

section
variable {rng : Nat → Nat → String} {calls : Nat → Provider × Req} {H H' : Trace} {k : String}

theorem StartedAt.mono {asked : String} {md : Verif.Issuer} (h : H <+: H') : StartedAt rng calls H k asked md → StartedAt rng calls H' k asked md := by
  rintro ⟨j, n, h1, h2, h3⟩; exact ⟨j, n, h1, h.subset h2, h3⟩

theorem GivenFor.mono {tr : Issuer.TokenRequest} {t : Issuer.TokenResponse} (h : H <+: H') : GivenFor rng calls H k tr t → GivenFor rng calls H' k tr t := by
  rintro ⟨j, h1, h2⟩; exact ⟨j, h.subset h1, h2⟩

theorem HomeFacts.mono {f : Issuance} (h : H <+: H') (hf : HomeFacts rng calls H k f) : HomeFacts rng calls H' k f where
  id := hf.id
  started := by obtain ⟨a, h1⟩ := hf.started; exact ⟨a, h1.mono h⟩
  token hs := by obtain ⟨tr, t, h1, h2⟩ := hf.token hs; exact ⟨tr, t, h1.mono h, h2⟩

end

/-- What the wallet's endpoints rely on and guarantee, as to where things go. Specification; models no code. -/
def homePact (rng : Nat → Nat → String) (calls : Nat → Provider × Req) : Pact where
  R H k
    | .issuance f => HomeFacts rng calls H k f
    | .presentation _ => True
  C := SentHome rng calls
  G _ _ := True
  D i s := ∃ n, s = rng i n
  mono {H H' k v} h hv := by
    cases v with
    | issuance f => exact HomeFacts.mono h hv
    | presentation p => trivial

section
variable {rng : Nat → Nat → String} {calls : Nat → Provider × Req} {i : Nat} {P : Provider} {H : Trace}

local notation "TT" => homePact rng calls

theorem home_presentation {k : String} {p : Presentation} : Keeps TT i (putE k (.presentation p)) H fun _ _ => True :=
  Keeps.putE (T := TT) (v := .presentation p) trivial fun _ _ _ => trivial

/-- Calls that carry nothing of the kind. -/
theorem sentHome_other {c : Call} (h : addressee c = none) : SentHome rng calls i H c := fun to hto => by rw [h] at hto; cases hto

/-! ### The endpoints -/

theorem home_flow {k : String} : Keeps TT i (getIssuance k) H fun H' f => HomeFacts rng calls H' k f := Keeps.getIssuance trivial

theorem home_put {k : String} {f : Issuance} (hr : ∀ H', H <+: H' → HomeFacts rng calls H' k f) : Keeps TT i (putE k (.issuance f)) H fun _ _ => True :=
  Keeps.putE (T := TT) (v := .issuance f) trivial fun H' h _ => hr H' h

theorem home_new {c : String} : Keeps TT i (newIssuance c) H fun _ f => (∃ n, f.id = rng i n) ∧ f = { id := f.id, clientId := c } :=
  Keeps.drawE.bind fun _ _ _ hs => Keeps.pure fun _ _ => ⟨hs, rfl⟩

theorem home_setIssuer {f : Issuance} {u : String} :
    Keeps TT i (setIssuer f u) H fun H' g => ∃ md sv, g = { f with issuer := md, server := sv } ∧ (i, .made ⟨.metadata u, some md⟩) ∈ H' := by
  refine (Keeps.callE fun _ _ => sentHome_other rfl).bind fun md H1 _ h1 => ?_
  refine (Keeps.callE fun _ _ => sentHome_other rfl).bind fun sv H2 h2 _ => ?_
  exact Keeps.pure fun _ h3 => ⟨md, sv, rfl, (h2.trans h3).subset h1⟩

theorem home_offer {r : OfferRequest} (hc : (calls i).2 = .offer r) : Keeps TT i (offer r) H fun _ _ => True := by
  refine Keeps.lift.bind fun _ _ _ _ => ?_
  refine home_new.bind fun f H1 _ hf => ?_
  refine home_setIssuer.bind fun g H2 _ hg => ?_
  obtain ⟨⟨n, hn⟩, hf⟩ := hf
  obtain ⟨md, sv, rfl, hm⟩ := hg
  refine (home_put fun H3 h3 => ?_).bind fun _ H3 _ _ => ?_
  · exact ⟨rfl, ⟨_, i, n, hn, h3.subset hm, .inl ⟨r, hc, rfl⟩⟩, fun h => by cases h⟩
  · exact Keeps.lift.bind fun _ _ _ _ => Keeps.pure fun _ _ => trivial

theorem home_accept {r : AcceptRequest} : Keeps TT i (accept r) H fun _ _ => True := by
  refine home_flow.bind fun f H1 _ hf => ?_
  refine Keeps.lift.bind fun _ H2 h2 _ => ?_
  refine Keeps.lift.bind fun _ H3 h3 _ => ?_
  refine Keeps.lift.bind fun acc H4 h4 _ => ?_
  refine (home_put fun H5 h5 => ?_).bind fun _ H5 _ _ => Keeps.pure fun _ _ => trivial
  have hf5 := hf.mono (h2.trans (h3.trans (h4.trans h5)))
  exact ⟨rfl, by rw [hf.id]; exact hf5.started, fun h => by simp only at h; split at h <;> cases h⟩

theorem home_pin {r : PinRequest} : Keeps TT i (pin r) H fun _ _ => True := by
  refine home_flow.bind fun f H1 _ hf => ?_
  refine Keeps.lift.bind fun _ H2 h2 hs => ?_
  refine (home_put fun H5 h5 => ?_).bind fun _ H5 _ _ => Keeps.pure fun _ _ => trivial
  have hf5 := hf.mono (h2.trans h5)
  exact ⟨rfl, by rw [hf.id]; exact hf5.started, fun h => by cases h⟩

theorem home_token {k : String} (hc : (calls i).2 = .token k) : Keeps TT i (token k) H fun _ _ => True := by
  refine home_flow.bind fun f H1 _ hf => ?_
  refine Keeps.lift.bind fun _ H2 h2 hs => ?_
  refine Keeps.lift.bind fun q H3 h3 hq => ?_
  have hto : q.credentialIssuer = f.issuer.credentialIssuer := by
    simp only [tokenRequest] at hq
    obtain ⟨g, hg, hq⟩ := hbind_ok hq
    obtain ⟨p, hp, hq⟩ := hbind_ok hq
    cases hq
    rfl
  have hfor : IsFor rng calls i k := .inl (by rw [hc]; rfl)
  refine (Keeps.callE fun H4 h4 => ?_).bind fun t H4 h4 ht => ?_
  · intro to hto'
    simp only [addressee, Option.some.injEq] at hto'
    obtain ⟨a, ha⟩ := (hf.mono (h2.trans (h3.trans h4))).started
    exact ⟨k, a, f.issuer, hfor, ha, by rw [← hto', hto], fun token h => by cases h⟩
  refine Keeps.lift.bind fun _ H5 h5 _ => ?_
  refine (home_put fun H6 h6 => ?_).bind fun _ _ _ _ => Keeps.pure fun _ _ => trivial
  have hf6 := hf.mono (h2.trans (h3.trans (h4.trans (h5.trans h6))))
  refine ⟨rfl, by rw [hf.id]; exact hf6.started, fun _ => ⟨q, t, ⟨i, (h5.trans h6).subset ht, ?_⟩, rfl, hto⟩⟩
  rw [hf.id]
  exact hfor

/-- A flow about to be authorized. Specification; models no code. -/
def HomeBegun (rng : Nat → Nat → String) (calls : Nat → Provider × Req) (i : Nat) (H : Trace) (f : Issuance) : Prop :=
  IsFor rng calls i f.id ∧ ∃ asked, StartedAt rng calls H f.id asked f.issuer

theorem home_start {r : AuthorizeRequest} (hc : (calls i).2 = .authorize r) : Keeps TT i (startFlow r) H (HomeBegun rng calls i) := by
  unfold startFlow
  split
  · rename_i k hk
    refine home_flow.bind fun f H1 _ hf => ?_
    refine Keeps.lift.bind fun _ H2 h2 _ => ?_
    exact Keeps.pure fun H3 h3 => ⟨.inl (by rw [hc, hf.id]; simp only [flowOf, hk]), by rw [hf.id]; exact (hf.mono (h2.trans h3)).started⟩
  · rename_i c u s b hk
    refine Keeps.lift.bind fun _ H1 _ _ => ?_
    refine home_new.bind fun f H2 _ hf => ?_
    refine home_setIssuer.bind fun g H3 _ hg => ?_
    obtain ⟨md, sv, rfl, hm⟩ := hg
    obtain ⟨⟨n, hn⟩, _⟩ := hf
    exact Keeps.pure fun H4 h4 => ⟨.inr ⟨⟨r, c, u, s, b, hc, hk⟩, n, hn⟩, _, i, n, hn, h4.subset hm, .inr ⟨r, c, s, b, hc, hk⟩⟩

theorem home_authorize {r : AuthorizeRequest} (hc : (calls i).2 = .authorize r) : Keeps TT i (authorize P r) H fun _ _ => True := by
  refine (home_start hc).bind fun f H1 _ hf => ?_
  obtain ⟨hfor, asked, hst⟩ := hf
  refine Keeps.drawE.bind fun v H2 h2 _ => ?_
  refine Keeps.lift.bind fun q H3 h3 hq => ?_
  have hto : q.credentialIssuer = f.issuer.credentialIssuer := (authorizationRequest_issuer hq :)
  refine (Keeps.callE fun H4 h4 => ?_).bind fun a H4 h4 ha => ?_
  · intro to hto'
    simp only [addressee, Option.some.injEq] at hto'
    exact ⟨f.id, asked, f.issuer, hfor, hst.mono (h2.trans (h3.trans h4)), by rw [← hto', hto], fun token h => by cases h⟩
  refine (Keeps.callE fun H5 h5 => ?_).bind fun t H5 h5 ht => ?_
  · intro to hto'
    simp only [addressee, Option.some.injEq] at hto'
    exact ⟨f.id, asked, f.issuer, hfor, hst.mono (h2.trans (h3.trans (h4.trans h5))), by rw [← hto']; rfl, fun token h => by cases h⟩
  refine Keeps.lift.bind fun _ H6 h6 _ => ?_
  refine (home_put fun H7 h7 => ?_).bind fun _ _ _ _ => Keeps.pure fun _ _ => trivial
  exact ⟨rfl, ⟨asked, hst.mono (h2.trans (h3.trans (h4.trans (h5.trans (h6.trans h7)))))⟩,
    fun _ => ⟨_, t, ⟨i, (h6.trans h7).subset ht, hfor⟩, rfl, rfl⟩⟩

theorem home_logo {u : Option String} : Keeps TT i (fetchLogo u) H fun _ _ => True := by
  cases u with
  | none => exact Keeps.pure fun _ _ => trivial
  | some u => exact (Keeps.callO fun _ _ => sentHome_other rfl).imp fun _ _ _ _ => trivial

theorem home_storable {config : CredentialConfiguration} {kd : Kind Vc} : Keeps TT i (storable P config kd) H fun _ _ => True := by
  unfold storable
  refine Keeps.lift.bind fun p H1 _ hp => ?_
  cases p with
  | vp v c n => exact Keeps.refuse
  | vc vc at_ =>
    refine Keeps.lift.bind fun _ H2 _ _ => ?_
    cases kd with
    | object v => exact Keeps.refuse
    | string t =>
      refine Keeps.bind (Q := fun _ _ => True) ?_ fun id H3 _ _ => ?_
      · unfold storableId
        split
        · exact Keeps.pure fun _ _ => trivial
        · exact Keeps.drawE.bind fun _ _ _ _ => Keeps.pure fun _ _ => trivial
      refine Keeps.lift.bind fun _ H4 _ _ => ?_
      exact home_logo.bind fun _ H5 _ _ => Keeps.pure fun _ _ => trivial

theorem home_storables {config : CredentialConfiguration} {l : List (Kind Vc)} : Keeps TT i (storables P config l) H fun _ _ => True := by
  induction l generalizing H with
  | nil => exact Keeps.pure fun _ _ => trivial
  | cons kd l ih =>
    unfold storables
    exact home_storable.bind fun c H1 _ _ => ih.bind fun cs H2 _ _ => Keeps.pure fun _ _ => trivial

theorem home_process {config : CredentialConfiguration} {r : CredentialResponse} : Keeps TT i (process P config r) H fun _ _ => True := by
  unfold process
  split
  · exact home_storable.bind fun c H1 _ _ => Keeps.pure fun _ _ => trivial
  · exact home_storables.bind fun c H1 _ _ => Keeps.pure fun _ _ => trivial
  · exact Keeps.pure fun _ _ => trivial

/-- A flow with its token. Specification; models no code. -/
def HomeHolding (rng : Nat → Nat → String) (calls : Nat → Provider × Req) (k : String) (H : Trace) (f : Issuance) : Prop :=
  HomeFacts rng calls H k f ∧ f.status = .tokenReceived

theorem HomeHolding.mono {k : String} {H H' : Trace} {f : Issuance} (h : H <+: H') (hf : HomeHolding rng calls k H f) : HomeHolding rng calls k H' f :=
  ⟨hf.1.mono h, hf.2⟩

/-- The same flow with other credentials, nonces or transactions. -/
theorem HomeHolding.same {k : String} {f g : Issuance} (hf : HomeHolding rng calls k H f) (h1 : g.id = f.id) (h2 : g.issuer = f.issuer)
    (h3 : g.status = f.status) (h4 : g.token.accessToken = f.token.accessToken) : HomeHolding rng calls k H g :=
  ⟨⟨h1.trans hf.1.id, h2 ▸ hf.1.started, fun _ => by rw [h4, h2]; exact hf.1.token hf.2⟩, h3.trans hf.2⟩

theorem home_asks {k : String} {f : Issuance} {H0 : Trace} (hfor : IsFor rng calls i k) (hf : HomeHolding rng calls k H0 f) (h : H0 <+: H) {c : Call}
    (hto : addressee c = some f.issuer.credentialIssuer) (htok : bearerOf c = some f.token.accessToken) : SentHome rng calls i H c := by
  intro to hto'
  rw [hto] at hto'
  cases hto'
  obtain ⟨a, ha⟩ := (hf.1.mono h).started
  refine ⟨k, a, f.issuer, hfor, ha, rfl, fun token ht => ?_⟩
  rw [htok] at ht
  cases ht
  exact (hf.1.mono h).token hf.2

theorem home_byIdentifiers {k : String} (hfor : IsFor rng calls i k) {jwt cfg : String}
    {config : CredentialConfiguration} {wanted : Option (List String)} {ids : List String} {f : Issuance} (hf : HomeHolding rng calls k H f) :
    Keeps TT i (byIdentifiers P jwt cfg config wanted ids f) H (HomeHolding rng calls k) := by
  induction ids generalizing H f with
  | nil => exact Keeps.pure fun _ h => hf.mono h
  | cons id ids ih =>
    unfold byIdentifiers
    split
    · refine (Keeps.callE fun H1 h1 => home_asks hfor hf h1 rfl rfl).bind fun resp H1 h1 hev => ?_
      refine home_process.bind fun out H2 h2 ho => ?_
      exact ih ((hf.mono (h1.trans h2)).same rfl rfl rfl rfl)
    · exact ih hf

theorem home_byDetails {k : String} (hfor : IsFor rng calls i k) {jwt : String}
    {wanted : Option (List String)} {l : List Issuer.AuthorizedDetail} {f : Issuance} (hf : HomeHolding rng calls k H f) :
    Keeps TT i (byDetails P jwt wanted l f) H (HomeHolding rng calls k) := by
  induction l generalizing H f with
  | nil => exact Keeps.pure fun _ h => hf.mono h
  | cons d l ih =>
    unfold byDetails
    refine Keeps.lift.bind fun _ H1 h1 _ => ?_
    refine Keeps.lift.bind fun _ H2 h2 _ => ?_
    exact (home_byIdentifiers hfor (hf.mono (h1.trans h2))).bind fun g H3 _ hg => ih hg

theorem home_fetch {k : String} (hfor : IsFor rng calls i k) {r : CredentialsRequest} {jwt : String} {f : Issuance}
    (hf : HomeHolding rng calls k H f) : Keeps TT i (fetch P f r jwt) H (HomeHolding rng calls k) := by
  unfold fetch
  split
  · unfold byFormat
    refine Keeps.lift.bind fun _ H1 h1 _ => ?_
    refine Keeps.lift.bind fun _ H2 h2 _ => ?_
    refine Keeps.lift.bind fun x H3 h3 _ => ?_
    refine (Keeps.callE fun H4 h4 => home_asks hfor hf (h1.trans (h2.trans (h3.trans h4))) rfl rfl).bind fun resp H4 h4 hev => ?_
    refine home_process.bind fun out H5 h5 ho => ?_
    exact Keeps.pure fun H6 h6 => (hf.mono (h1.trans (h2.trans (h3.trans (h4.trans (h5.trans h6)))))).same rfl rfl rfl rfl
  · unfold byIdentifier
    exact Keeps.lift.bind fun _ H1 h1 _ => home_byDetails hfor (hf.mono h1)

theorem home_credentials {r : CredentialsRequest} (hc : (calls i).2 = .credentials r) : Keeps TT i (credentials P r) H fun _ _ => True := by
  refine home_flow.bind fun f H1 _ hf => ?_
  refine Keeps.lift.bind fun _ H2 h2 hs => ?_
  refine Keeps.nowE.bind fun _ H3 h3 _ => ?_
  refine Keeps.lift.bind fun jwt H4 h4 _ => ?_
  have hf : HomeHolding rng calls r.issuanceId H1 f := ⟨hf, status_is hs⟩
  refine (home_fetch (.inl (by rw [hc]; rfl)) (hf.mono (h2.trans (h3.trans h4)))).bind fun g H5 _ hg => ?_
  refine (home_put fun H6 h6 => ?_).bind fun _ _ _ _ => Keeps.pure fun _ _ => trivial
  rw [hg.1.id]
  exact hg.1.mono h6

theorem home_deferred {r : DeferredRequest} (hc : (calls i).2 = .deferred r) : Keeps TT i (deferred P r) H fun _ _ => True := by
  refine home_flow.bind fun f H1 _ hf => ?_
  refine Keeps.lift.bind fun _ H2 h2 hs => ?_
  have hf : HomeHolding rng calls r.issuanceId H1 { f with deferred := remove f.deferred r.transactionId } :=
    HomeHolding.same (f := f) ⟨hf, status_is hs⟩ rfl rfl rfl rfl
  refine (Keeps.callE fun H3 h3 => home_asks (.inl (by rw [hc]; rfl)) hf (h2.trans h3) rfl rfl).bind fun resp H3 h3 hev => ?_
  refine Keeps.lift.bind fun config H4 h4 _ => ?_
  refine home_process.bind fun out H5 h5 ho => ?_
  have hg : HomeHolding rng calls r.issuanceId H5 (({ f with deferred := remove f.deferred r.transactionId } : Issuance).record r.configId out) :=
    (hf.mono (h2.trans (h3.trans (h4.trans h5)))).same rfl rfl rfl rfl
  refine Keeps.bind (Q := fun _ _ => True) ?_ fun _ _ _ _ => Keeps.pure fun _ _ => trivial
  generalize ({ f with deferred := remove f.deferred r.transactionId } : Issuance).record r.configId out = g at hg
  unfold stash
  split
  · exact Keeps.purgeE trivial
  · refine home_put fun H6 h6 => ?_
    rw [hg.1.id]
    exact hg.1.mono h6

theorem home_notifyFailure {f : Issuance} : Keeps TT i (notifyFailure f) H fun _ _ => True := by
  unfold notifyFailure
  split
  · exact Keeps.pure fun _ _ => trivial
  · exact (Keeps.callO fun _ _ => sentHome_other rfl).bind fun _ _ _ _ => Keeps.pure fun _ _ => trivial

theorem home_notifyOutcome {f : Issuance} {ev : NotificationEvent} : Keeps TT i (notifyOutcome f ev) H fun _ _ => True := by
  unfold notifyOutcome
  split
  · exact Keeps.pure fun _ _ => trivial
  · exact (Keeps.callE fun _ _ => sentHome_other rfl).bind fun _ _ _ _ => Keeps.pure fun _ _ => trivial

theorem home_saveAll {f : Issuance} {l : List Credential} : Keeps TT i (saveAll f l) H fun _ _ => True := by
  induction l generalizing H with
  | nil => exact Keeps.pure fun _ _ => trivial
  | cons c l ih =>
    unfold saveAll
    refine (Keeps.callO (T := TT) (c := .save c) fun H1 h1 => sentHome_other rfl).bind fun o H1 h1 _ => ?_
    match o with
    | some () => exact ih
    | none => exact home_notifyFailure.bind fun _ _ _ _ => True.intro

theorem home_serve (i : Nat) : Keeps TT i (serve (calls i).1 (calls i).2) H fun _ _ => True := by
  cases hc : (calls i).2 with
  | offer r => exact home_offer hc
  | accept r => exact home_accept
  | pin r => exact home_pin
  | token k => exact home_token hc
  | authorize r => exact home_authorize hc
  | credentials r => exact home_credentials hc
  | deferred r => exact home_deferred hc
  | save k =>
    refine home_flow.bind fun f H1 _ _ => home_saveAll.bind fun _ H2 _ _ => home_notifyOutcome.bind fun _ H3 _ _ => ?_
    refine Keeps.bind (Q := fun _ _ => True) ?_ fun _ _ _ _ => Keeps.pure fun _ _ => trivial
    unfold endFlow
    split
    · exact Keeps.purgeE trivial
    · exact Keeps.pure fun _ _ => trivial
  | cancel k =>
    exact home_flow.bind fun f H1 _ _ => home_notifyOutcome.bind fun _ H3 _ _ => (Keeps.purgeE trivial).bind fun _ _ _ _ => Keeps.pure fun _ _ => trivial
  | request u =>
    refine Keeps.lift.bind fun u' H1 _ hu => Keeps.drawE.bind fun id H2 _ hid => ?_
    refine Keeps.bind (Q := fun _ _ => True) ?_ fun q H3 _ _ => ?_
    · unfold obtainRequest
      split
      · exact Keeps.lift.imp fun _ _ _ _ => trivial
      · refine Keeps.bind (Keeps.callE fun _ _ => sentHome_other rfl) fun r H1 _ hr => ?_
        cases r with
        | object o => trivial
        | jwt t => exact Keeps.lift.imp fun _ _ _ _ => trivial
    refine Keeps.lift.bind fun c H4 h4 hcs => (Keeps.callE fun _ _ => sentHome_other rfl).bind fun creds H5 h5 hfind => ?_
    exact home_presentation.bind fun _ _ _ _ => Keeps.pure fun _ _ => trivial
  | authorizePresentation k =>
    refine (Keeps.getPresentation (T := TT) trivial).bind fun p H1 _ hp => Keeps.lift.bind fun _ H2 h2 hs => ?_
    exact home_presentation.bind fun _ _ _ _ => Keeps.pure fun _ _ => trivial
  | present k =>
    refine (Keeps.getPresentation (T := TT) trivial).bind fun p H1 _ hp => Keeps.lift.bind fun _ H2 h2 hs => ?_
    refine Keeps.bind (Q := fun _ _ => True) ?_ fun sub H3 _ _ => ?_
    · unfold createSubmission
      split
      · exact Keeps.refuse
      · exact Keeps.drawE.bind fun _ _ _ _ => Keeps.pure fun _ _ => trivial
    refine Keeps.bind (Q := fun _ _ => True) ?_ fun vp H4 _ _ => ?_
    · unfold createVp
      refine Keeps.drawE.bind fun u H1 _ _ => ?_
      split
      · exact Keeps.refuse
      · exact Keeps.lift.imp fun _ _ _ _ => trivial
    refine Keeps.nowE.bind fun now H5 h5 _ => Keeps.lift.bind fun jwt H6 h6 hj => ?_
    exact (Keeps.callE fun H7 h7 => sentHome_other rfl).bind fun _ _ _ _ => Keeps.pure fun _ _ => trivial

end

theorem pool_home (rng : Nat → Nat → String) (calls : Nat → Provider × Req) (now : Int) (s : List Turn) :
    HPool.Safe (homePact rng calls) (HPool.turns rng (HPool.start now calls) s) :=
  HPool.Safe.turns (T := homePact rng calls) (fun _ n => ⟨n, rfl⟩) (HPool.Safe.start home_serve) s

section
variable {rng : Nat → Nat → String} {calls : Nat → Provider × Req} {t0 : Int} {s : List Turn}

/-- **C206**, however calls overlap and wherever they are broken off: an access token is sent only for a flow it was given to, and to the issuer it was
asked of. -/
theorem C206_token_goes_where_it_came_from_overlap {pre post : Trace} {i : Nat} {ev : Event}
    (h : (overlapped rng t0 calls s).trace = pre ++ (i, .made ev) :: post) {token : String} (hb : bearerOf ev.call = some token) :
    ∃ k tr t, IsFor rng calls i k ∧ GivenFor rng calls pre k tr t ∧ t.accessToken = token ∧ addressee ev.call = some tr.credentialIssuer := by
  obtain ⟨to, hto⟩ := addressee_of_bearer hb
  obtain ⟨k, _, _, h1, _, _, h4⟩ := (pool_home rng calls t0 s).made _ _ _ _ h to hto
  obtain ⟨tr, t, h5, h6, h7⟩ := h4 token hb
  exact ⟨k, tr, t, h1, h5, h6, by rw [hto, h7]⟩

/-- **C206**, however calls overlap and wherever they are broken off: whatever goes to an issuer goes to the one named in the metadata that was fetched
when the flow began. -/
theorem C206_sent_to_named_issuer_overlap {pre post : Trace} {i : Nat} {ev : Event}
    (h : (overlapped rng t0 calls s).trace = pre ++ (i, .made ev) :: post) {to : String} (ha : addressee ev.call = some to) :
    ∃ k asked md, IsFor rng calls i k ∧ StartedAt rng calls pre k asked md ∧ to = md.credentialIssuer := by
  obtain ⟨k, a, md, h1, h2, h3, _⟩ := (pool_home rng calls t0 s).made _ _ _ _ h to ha
  exact ⟨k, a, md, h1, h2, h3⟩

/-- **C80**, what holds however calls overlap: as long as every issuer's metadata names the issuer it was asked of, everything goes to the issuer that
made the offer of the flow, or to the one the wallet was told to turn to. -/
theorem C80_sent_to_own_issuer_overlap_partial (hown : ∀ j a md, (j, .made ⟨.metadata a, some md⟩) ∈ (overlapped rng t0 calls s).trace → md.credentialIssuer = a)
    {pre post : Trace} {i : Nat} {ev : Event} (h : (overlapped rng t0 calls s).trace = pre ++ (i, .made ev) :: post) {to : String}
    (ha : addressee ev.call = some to) :
    ∃ k md, IsFor rng calls i k ∧ StartedAt rng calls pre k to md := by
  obtain ⟨k, a, md, h1, h2, h3⟩ := C206_sent_to_named_issuer_overlap h ha
  have hm : md.credentialIssuer = a := by
    obtain ⟨j, _, _, hj, _⟩ := h2
    exact hown j a md (by rw [h]; exact List.mem_append_left _ hj)
  exact ⟨k, md, h1, by rw [h3, hm]; exact h2⟩

end

end Verif.Holder
