import Verif.Issuer.AcceptProps
import Verif.Issuer.TokenProps
/-!
# What the token endpoint accepts: C103, C104
-/
namespace Verif.Issuer
open Prog

/-! ### Specification -/

/-- The registered scope of a client is set, and all its values are supported by the server. -/
def ScopesSupported (client : Client) (server : Server) : Prop :=
  ∃ scope supported, client.scope = some scope ∧ server.scopesSupported = some supported ∧ ∀ v ∈ splitWs scope, v ∈ supported

/-- `d` names a credential of the offer, by configuration id; if it lists claims, the configuration is known to the issuer and the
claims include its mandatory ones. -/
def Names (iss : Issuer) (offered : List AuthorizedItem) (d : AuthorizationDetail) : Prop :=
  ∃ id profile, d.credential = .configurationId id profile ∧ (∃ it ∈ offered, it.configId = id) ∧
    ∀ claims, profile.bind ProfileClaims.claims = some claims → ∃ cfg, iss.configs.get? id = some cfg ∧ ClaimsFit cfg (some claims)

/-- The grant stored in state `s` is the one the token request redeems, and the request proves to be entitled to it. -/
def Redeems (P : Provider) (server : Server) (cid : String) (s : State) (req : TokenRequest) : Prop :=
  match req.grantType with
  | .preAuthorizedCode _ tx =>
    ∃ o offered, s.stage = .offered o ∧ o.items = some offered ∧ tx = o.txCode ∧ (cid = "" → server.anonymousAccess = true) ∧
      ∀ ds, req.authorizationDetails = some ds → ∃ iss, P.issuer req.credentialIssuer = some iss ∧ ∀ d ∈ ds, Names iss offered d
  | .authorizationCode _ uri verifier =>
    ∃ a v, s.stage = .authorized a ∧ cid = a.clientId ∧ uri = a.redirectUri ∧ verifier = some v ∧ P.codeChallenge v = a.codeChallenge

/-- The type of a grant. -/
def TokenGrantType.type : TokenGrantType → GrantType
  | .preAuthorizedCode _ _ => .preAuthorizedCode
  | .authorizationCode _ _ _ => .authorizationCode

/-! ### Offers name credentials by configuration id -/

/-- The items of every stored offer are named by configuration id. -/
def OfferNames (w : World State) : Prop :=
  ∀ k s o l, w.store k = some s → s.stage = .offered o → o.items = some l →
    ∀ it ∈ l, it.item = .detail { credential := .configurationId it.configId none }

theorem Reachable.offerNames {e : Env} {w : World State} (h : Reachable e w) : OfferNames w := by
  refine Reachable.induct (I := OfferNames) ?_ ?_ h
  · intro t k s o l hs; cases hs
  · intro w s hw
    let R : String → State → Prop := fun _ v => ∀ o l, v.stage = .offered o → o.items = some l →
      ∀ it ∈ l, it.item = .detail { credential := .configurationId it.configId none }
    have hg : Guar R (PutOk R) (fun _ => True) (call s.provider s.req) (fun _ => True) := by
      refine call_guar ?_ ?_ ?_ ?_ ?_ ?_ ?_ ?_ ?_
      · intro k; trivial
      · rintro k t subj items tx hd hi
        intro o l ho hl it hit
        cases ho
        obtain ⟨_, _, h⟩ := hi l hl
        exact (h it hit).2
      · rintro k t subj items hd; exact fun _ _ h => by cases h
      · rintro k t subj items hd _; exact fun _ _ h => by cases h
      · rintro r k t _ hd; exact fun _ _ h => by cases h
      · rintro r c s k n t items _ hd hn _; exact fun _ _ h => by cases h
      · rintro c s t n x y hr hs hn; exact fun _ _ h => by cases h
      · rintro c s t n k x y hr hs hn hd; exact fun _ _ h => by cases h
      · rintro k t r hd; exact fun _ _ h => by cases h
    have := (Guar.run (e := e) (w := World.wait w s.wait) hg
      (fun k v hv o l => hw k v o l hv) (fun k v h => h) (fun n _ _ => trivial)).1
    exact fun k v o l hv => this k v hv o l

theorem findItem_of_names {items : List AuthorizedItem}
    (hn : ∀ it ∈ items, it.item = .detail { credential := .configurationId it.configId none }) (c : CredentialAuthorization) :
    (∃ it, Token.findItem items c = some it) ↔ ∃ id profile, c = .configurationId id profile ∧ ∃ it ∈ items, it.configId = id := by
  have key : ∀ it ∈ items, (match it.item with | .detail ad => ad.credential.eqv c | .scope _ => false) = true ↔
      ∃ profile, c = .configurationId it.configId profile := by
    intro it hit
    rw [hn it hit]
    simp only
    rw [sameCredential_iff]
    constructor
    · intro h
      generalize hx : CredentialAuthorization.configurationId it.configId none = x at h
      cases h <;> cases hx
      exact ⟨_, rfl⟩
    · rintro ⟨p, rfl⟩; exact .configurationId _ _ _
  constructor
  · rintro ⟨it, h⟩
    have hm := List.mem_of_find?_eq_some h
    obtain ⟨p, hp⟩ := (key it hm).1 (by have := List.find?_some h; exact this)
    exact ⟨_, p, hp, it, hm, rfl⟩
  · rintro ⟨id, p, rfl, it, hm, rfl⟩
    cases hf : Token.findItem items (.configurationId it.configId p) with
    | some x => exact ⟨x, rfl⟩
    | none => exact absurd ((key it hm).2 ⟨p, rfl⟩) (List.find?_eq_none.1 hf it hm)

theorem retainLoop_ok_iff {iss : Issuer} {items : List AuthorizedItem}
    (hn : ∀ it ∈ items, it.item = .detail { credential := .configurationId it.configId none }) (ds : List AuthorizationDetail) :
    (∃ out, Token.retainLoop iss items ds = .ok out) ↔ ∀ d ∈ ds, Names iss items d := by
  induction ds with
  | nil => simp [Token.retainLoop]
  | cons d ds ih =>
    have hv : ∀ id profile, (Token.verifyClaims iss (.configurationId id profile) = .ok () ↔
        ∀ claims, profile.bind ProfileClaims.claims = some claims →
          ∃ cfg, iss.configs.get? id = some cfg ∧ ClaimsFit cfg (some claims)) := by
      intro id profile
      simp only [Token.verifyClaims, Token.claimsTarget, Except.bind_ok, Except.ok.injEq, exists_eq_left']
      cases hc : profile.bind ProfileClaims.claims with
      | none => simp
      | some claims =>
        simp only [Except.bind_ok, orErr_ok, require_ok, Option.some.injEq, forall_eq', C35_mandatory_claims]
        refine exists_congr fun cfg => and_congr_right fun _ => ?_
        exact ⟨fun h c sup hc hs => by cases hc; exact h sup hs, fun h sup hs => h _ sup rfl hs⟩
    simp only [Token.retainLoop, Except.bind_ok, orErr_ok, pure, Except.pure, Except.ok.injEq, List.mem_cons, forall_eq_or_imp]
    constructor
    · rintro ⟨out, it, h1, u, h2, rest, h3, rfl⟩
      obtain ⟨id, p, hd, hit⟩ := (findItem_of_names hn _).1 ⟨it, h1⟩
      rw [hd] at h2
      exact ⟨⟨id, p, hd, hit, (hv id p).1 h2⟩, ih.1 ⟨rest, h3⟩⟩
    · rintro ⟨⟨id, p, hd, hit, hcl⟩, hr⟩
      obtain ⟨it, h1⟩ := (findItem_of_names hn d.credential).2 ⟨id, p, hd, hit⟩
      obtain ⟨rest, h3⟩ := ih.2 hr
      exact ⟨_, it, h1, (), by rw [hd]; exact (hv id p).2 hcl, rest, h3, rfl⟩

/-- **C103**. With a working store a token request is granted exactly when the code names a live grant of its type, the server is
known and supports the grant type, the client is registered with scopes the server supports, and the request redeems the grant:
with the transaction code and naming only offered credentials, or with the client, redirection URI and PKCE verifier of the
authorization. -/
theorem C103_token_granted_iff {e : Env} {w : World State} (hw : Reachable e w) (hst : Working e w) {P : Provider} {req : TokenRequest} :
    (∃ resp w', (token P req).run e w = (.ok resp, w')) ↔
      ∃ s server supported cid client, w.store req.grantType.code = some s ∧ Live s w.now ∧
        P.server req.credentialIssuer = some server ∧ server.grantTypesSupported = some supported ∧ req.grantType.type ∈ supported ∧
        req.clientId = some cid ∧ P.client cid = some client ∧ ScopesSupported client server ∧ Redeems P server cid s req := by
  constructor
  · rintro ⟨resp, w', h⟩
    obtain ⟨s, items, _, _, _, hs, hv, hi, _⟩ := token_ok_iff.1 h
    obtain ⟨hl, server, supported, h1, h2, h3, h4⟩ := Token.verify_ok.1 hv
    have h4 := Token.checkClient_ok.1 h4
    have hnames := hw.offerNames
    cases hg : req.grantType with
    | preAuthorizedCode c tx =>
      obtain ⟨o, ho, hsup, ⟨cid, hc, han⟩, htx⟩ := (Token.checkGrant_pre hg).1 h3
      obtain ⟨client, hcl, hsc⟩ := h4 cid hc
      refine ⟨s, server, supported, cid, client, hg ▸ hs, hl, h1, h2, hsup, hc, hcl, hsc, ?_⟩
      simp only [Redeems, hg]
      simp only [Token.grantedItems, hg, ho, Except.bind_ok, orErr_ok] at hi
      obtain ⟨offered, hoi, hr⟩ := hi
      refine ⟨o, offered, ho, hoi, htx, han, ?_⟩
      intro ds hds
      simp only [Token.retainDetails, hds, Except.bind_ok, orErr_ok] at hr
      obtain ⟨iss, hiss, hr⟩ := hr
      exact ⟨iss, hiss, (retainLoop_ok_iff (hnames _ _ _ _ hs ho hoi) ds).1 ⟨_, hr⟩⟩
    | authorizationCode c uri ver =>
      obtain ⟨a, v, ha, hsup, hc, hu, hver, hch⟩ := (Token.checkGrant_auth hg).1 h3
      obtain ⟨client, hcl, hsc⟩ := h4 _ hc
      refine ⟨s, server, supported, _, client, hg ▸ hs, hl, h1, h2, hsup, hc, hcl, hsc, ?_⟩
      simp only [Redeems, hg]
      exact ⟨a, v, ha, rfl, hu, hver, hch⟩
  · rintro ⟨s, server, supported, cid, client, hs, hl, h1, h2, hsup, hc, hcl, hsc, hr⟩
    have hclient : Token.checkClient P server req = .ok () := Token.checkClient_ok.2 fun cid' h => by
      rw [hc] at h; cases h; exact ⟨client, hcl, hsc⟩
    have hrun : ∀ items, Token.checkGrant P server supported s req = .ok () → Token.grantedItems P s req = .ok items →
        ∃ resp w', (token P req).run e w = (.ok resp, w') := by
      intro items hcg hi
      refine ⟨_, _, token_ok_iff.2 ⟨s, items, hst _ (Nat.le_refl _), hst _ (by omega), hst _ (by omega), hs,
        Token.verify_ok.2 ⟨hl, server, supported, h1, h2, hcg, hclient⟩, hi, rfl, rfl⟩⟩
    cases hg : req.grantType with
    | preAuthorizedCode c tx =>
      simp only [Redeems, hg] at hr
      obtain ⟨o, offered, ho, hoi, htx, han, hds⟩ := hr
      have hcg := (Token.checkGrant_pre (P := P) (server := server) (sup := supported) (s := s) hg).2
        ⟨o, ho, by simpa [hg, TokenGrantType.type] using hsup, ⟨cid, hc, han⟩, htx⟩
      cases hd : req.authorizationDetails with
      | none =>
        refine hrun offered hcg ?_
        simp [Token.grantedItems, hg, ho, hoi, orErr, Token.retainDetails, hd]
        rfl
      | some ds =>
        obtain ⟨iss, hiss, hn⟩ := hds ds hd
        obtain ⟨out, hout⟩ := (retainLoop_ok_iff (hw.offerNames _ _ _ _ hs ho hoi) ds).2 hn
        refine hrun out hcg ?_
        simp only [Token.grantedItems, hg, ho, Except.bind_ok, orErr_ok, Token.retainDetails, hd]
        exact ⟨offered, hoi, iss, hiss, hout⟩
    | authorizationCode c uri ver =>
      simp only [Redeems, hg] at hr
      obtain ⟨a, v, ha, hcid, hu, hver, hch⟩ := hr
      refine hrun a.items ((Token.checkGrant_auth hg).2 ⟨a, v, ha, by simpa [hg, TokenGrantType.type] using hsup, hcid ▸ hc, hu, hver, hch⟩) ?_
      simp [Token.grantedItems, hg, ha]

/-- C103 is not vacuous in either direction: the demo offer is redeemed naming one of its credentials, and not with an unknown client. -/
example : ∃ s server supported cid client, Demo.offered.store (Demo.rng 0) = some s ∧ Live s Demo.offered.now ∧
    Demo.provider.server (Demo.narrowReq (Demo.rng 0)).credentialIssuer = some server ∧ server.grantTypesSupported = some supported ∧
    GrantType.preAuthorizedCode ∈ supported ∧ (Demo.narrowReq (Demo.rng 0)).clientId = some cid ∧
    Demo.provider.client cid = some client ∧ ScopesSupported client server ∧
    Redeems Demo.provider server cid s (Demo.narrowReq (Demo.rng 0)) :=
  (C103_token_granted_iff (req := Demo.narrowReq (Demo.rng 0)) ⟨0, _, rfl⟩ (Demo.working _)).1 ⟨_, _, rfl⟩

example : ¬ ∃ resp w', (token Demo.provider { Demo.tokenReq (Demo.rng 0) with clientId := some "nobody" }).run Demo.env Demo.offered =
    (.ok resp, w') := by
  intro h
  obtain ⟨_, _, _, _, _, _, _, _, _, _, hc, hcl, _⟩ := (C103_token_granted_iff (w := Demo.offered) ⟨0, _, rfl⟩ (Demo.working _)).1 h
  cases hc
  cases hcl

/-- **C104**, negation. A pre-authorized token request that names a credential by its format, rather than by configuration id, is
refused in every reachable state of the issuer, even if the offer has a credential of that format. -/
theorem C104_named_by_format_refused {e : Env} {w : World State} (hw : Reachable e w) {P : Provider} {req : TokenRequest}
    {c : String} {tx : Option String} (hg : req.grantType = .preAuthorizedCode c tx) {ds : List AuthorizationDetail}
    {d : AuthorizationDetail} (hds : req.authorizationDetails = some ds) (hd : d ∈ ds) {f : Format} (hf : d.credential = .format f)
    (resp : TokenResponse) (w' : World State) : (token P req).run e w ≠ (.ok resp, w') := by
  intro h
  obtain ⟨s, items, _, _, _, hs, hv, hi, _⟩ := token_ok_iff.1 h
  obtain ⟨hl, server, supported, h1, h2, h3, h4⟩ := Token.verify_ok.1 hv
  obtain ⟨o, ho, _⟩ := (Token.checkGrant_pre hg).1 h3
  simp only [Token.grantedItems, hg, ho, Except.bind_ok, orErr_ok, Token.retainDetails, hds] at hi
  obtain ⟨offered, hoi, iss, hiss, hr⟩ := hi
  obtain ⟨id, p, hd', _⟩ := (retainLoop_ok_iff (hw.offerNames _ _ _ _ hs ho hoi) ds).1 ⟨_, hr⟩ d hd
  rw [hf] at hd'; cases hd'

/-- C104 is not vacuous: the demo offer has a credential of this format, which is granted when named by configuration id. -/
example : ∃ cfg, Demo.issuer.configs.get? "Employee" = some cfg ∧
    Demo.isOk ((token Demo.provider (Demo.narrowReq (Demo.rng 0))).run Demo.env Demo.offered).1 = true ∧
    ∀ resp w', (token Demo.provider { Demo.tokenReq (Demo.rng 0) with
      authorizationDetails := some [{ credential := .format cfg.format }] }).run Demo.env Demo.offered ≠ (.ok resp, w') :=
  ⟨_, rfl, by decide, C104_named_by_format_refused ⟨0, _, rfl⟩ rfl rfl (.head _) rfl⟩

end Verif.Issuer
