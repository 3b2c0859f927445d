import Verif.Issuer.OfferLemmas
import Verif.Issuer.Demo
/-!
# Properties of `create_offer` and `credential_offer`: C17 – C20
-/
namespace Verif.Issuer
open Prog

/-- The offer a call of `create_offer` made available: the one in the response, or the one stored under the identifier in the
URI of the response. -/
inductive Delivers (issuer : String) (store : String → Option State) : OfferType → CredentialOffer → Prop
  | byVal (o : CredentialOffer) : Delivers issuer store (.object o) o
  | byRef (o : CredentialOffer) (id : String) (s : State) (hs : store id = some s) (hp : s.stage = .pending o) :
      Delivers issuer store (.uri (issuer ++ "/credential_offer/" ++ id)) o

/-- Requested grant types. -/
def CreateOfferRequest.requests (req : CreateOfferRequest) (g : GrantType) : Prop := ∃ l, req.grantTypes = some l ∧ g ∈ l

theorem requests_iff {req : CreateOfferRequest} {g : GrantType} : g ∈ CreateOffer.grants req ↔ req.requests g := by
  unfold CreateOffer.grants CreateOfferRequest.requests
  cases req.grantTypes <;> simp

/-- **C17.** Of a successful `create_offer`: the offer is for the requested configurations, all in the issuer's metadata; a
grant is offered exactly if requested, and then the server supports it (when it states what it supports); a pre-authorized
grant has a subject; a transaction code is returned exactly when requested for a pre-authorized grant, as the grant says. -/
theorem C17_offers_supported {P : Provider} {req : CreateOfferRequest} {e : Env} {w w' : World State}
    {resp : CreateOfferResponse} (h : (createOffer P req).run e w = (.ok resp, w')) :
    ∃ iss srv offer, P.issuer req.credentialIssuer = some iss ∧ P.server req.credentialIssuer = some srv ∧
      Delivers req.credentialIssuer w'.store resp.offerType offer ∧
      offer.credentialIssuer = req.credentialIssuer ∧ offer.configIds = req.configIds ∧ offer.configIds ≠ [] ∧
      (∀ id ∈ offer.configIds, ∃ c, (id, c) ∈ iss.configs) ∧
      ((∃ g a, offer.grants = some g ∧ g.authorizationCode = some a) ↔ req.requests .authorizationCode) ∧
      ((∃ g p, offer.grants = some g ∧ g.preAuthorizedCode = some p) ↔ req.requests .preAuthorizedCode) ∧
      (∀ g l, req.requests g → srv.grantTypesSupported = some l → g ∈ l) ∧
      (req.requests .preAuthorizedCode → ∃ subj, req.subjectId = some subj) ∧
      ((∃ c, resp.txCode = some c) ↔ req.txCodeRequired = true ∧ req.requests .preAuthorizedCode) ∧
      (∀ g p, offer.grants = some g → g.preAuthorizedCode = some p → (p.txCode = true ↔ ∃ c, resp.txCode = some c)) := by
  obtain ⟨iss, srv, offer, tx, w1, w2, w3, h1, h2, h3, h4, rfl, h5, h6, h7⟩ := createOffer_ok_iff.1 h
  obtain ⟨v1, v2, v3, v4⟩ := CreateOffer.verify_ok.1 h3
  obtain ⟨o1, o2, o3, o4, o5⟩ := CreateOffer.credentialOffer_ok h4
  obtain ⟨t1, t2⟩ := CreateOffer.txCode_ok.1 h5
  have htx : resp.txCode = tx := by
    rcases CreateOffer.respond_ok.1 h7 with ⟨_, rfl, _⟩ | ⟨_, _, rfl, _⟩ <;> rfl
  have htx' : (∃ c, resp.txCode = some c) ↔ req.txCodeRequired = true ∧ req.requests .preAuthorizedCode := by
    rw [htx, t1, ← requests_iff]
    by_cases hw : CreateOffer.wantsTx req = true
    · simp only [hw, if_true]
      simp only [CreateOffer.wantsTx, Bool.and_eq_true, List.contains_iff_mem] at hw
      simp [hw]
    · simp only [hw]
      simp only [CreateOffer.wantsTx, Bool.and_eq_true, List.contains_iff_mem] at hw
      simpa using hw
  refine ⟨iss, srv, offer, h1, h2, ?_, o1, o2, o2 ▸ v2, ?_, ?_, ?_, ?_, ?_, htx', ?_⟩
  · rcases CreateOffer.respond_ok.1 h7 with ⟨_, rfl, _⟩ | ⟨_, _, rfl, rfl⟩
    · exact .byVal _
    · exact .byRef _ _ (CreateOffer.pendingState req offer w3.now) (by simp) rfl
  · intro id hid
    obtain ⟨x, hx, rfl⟩ := List.mem_map.1 (v3 id (o2 ▸ hid))
    exact ⟨x.2, hx⟩
  · rw [← requests_iff]
    exact ⟨fun ⟨g, a, hg, ha⟩ => ((o3 g hg).1 a ha).1, o4⟩
  · rw [← requests_iff]
    exact ⟨fun ⟨g, a, hg, ha⟩ => ((o3 g hg).2 a ha).1, o5⟩
  · rintro g l ⟨gs, hgs, hg⟩ hl
    exact (v4 gs hgs).1 l hl g hg
  · rintro ⟨gs, hgs, hg⟩
    exact (v4 gs hgs).2 hg
  · intro g p hg hp
    obtain ⟨q1, _, q2⟩ := (o3 g hg).2 p hp
    rw [htx', q2, ← requests_iff]
    simp [q1]

/-- C17 is not vacuous, and an unsupported configuration id is refused. -/
example : Demo.isOk ((createOffer Demo.provider Demo.offerReq).run Demo.env (start 0)).1 = true ∧
    Demo.isOk ((createOffer Demo.provider { Demo.offerReq with configIds := ["Employee", "Nope"] }).run Demo.env (start 0)).1
      = false := by decide

/-- **C18.** The pre-authorized code and transaction code of a created offer are redeemed by any registered in-scope client
while the offer is stored and live, whatever happened in between, and the token grants exactly the offered credentials. -/
theorem C18_offer_redeemable {e : Env} (he : Env.Fresh e) {w : World State} (hw : Reachable e w) {s : Step}
    {req : CreateOfferRequest} (hreq : s.req = .createOffer req) {resp : CreateOfferResponse}
    (h : (step e w s).1 = .ok (.createOffer resp)) (hpre : req.requests .preAuthorizedCode) :
    ∃ subj offer g p, req.subjectId = some subj ∧
      Delivers req.credentialIssuer (step e w s).2.store resp.offerType offer ∧ offer.grants = some g ∧
      g.preAuthorizedCode = some p ∧
      ∀ (between : List Step) (redeem : Step) (treq : TokenRequest) (cid : String) (client : Client) (server : Server)
        (scope : String) (scopes : List String) (supported : List GrantType),
        redeem.req = .token treq →
        treq.grantType = .preAuthorizedCode p.preAuthorizedCode resp.txCode →
        treq.clientId = some cid → cid ≠ "" → treq.authorizationDetails = none →
        redeem.provider.server treq.credentialIssuer = some server →
        server.grantTypesSupported = some supported → GrantType.preAuthorizedCode ∈ supported →
        redeem.provider.client cid = some client → client.scope = some scope → server.scopesSupported = some scopes →
        (∀ x ∈ splitWs scope, x ∈ scopes) →
        (let w2 := exec e (step e w s).2 between
         w2.store p.preAuthorizedCode ≠ none ∧ (∀ n, n < 3 → e.fault (w2.ops + n) = .ok) ∧
         w2.now + redeem.wait < (w.now + s.wait) + 5 * 60 * sec + sec) →
        ∃ tr l, (step e (exec e (step e w s).2 between) redeem).1 = .ok (.token tr) ∧
          tr.authorizationDetails = some l ∧
          l.map (fun d => d.detail.credential) = offer.configIds.map (fun id => .configurationId id none) ∧
          l.map (fun d => some d.identifiers) = offer.configIds.map (s.provider.authorize subj) := by
  have hw1 := hw.step s
  have hstep := step_createOffer (e := e) (w := w) hreq
  rw [hstep] at h
  obtain ⟨resp', h, hr⟩ := map_ok.1 h
  cases hr
  have hrun := pair_of_fst h
  obtain ⟨iss, srv, offer, tx, w1, w2, w3, h1, h2, h3, h4, rfl, h5, h6, h7⟩ := createOffer_ok_iff.1 hrun
  obtain ⟨v1, v2, v3, v4⟩ := CreateOffer.verify_ok.1 h3
  obtain ⟨o1, o2, o3, o4, o5⟩ := CreateOffer.credentialOffer_ok h4
  obtain ⟨t1, t2⟩ := CreateOffer.txCode_ok.1 h5
  have hpre' := requests_iff.2 hpre
  obtain ⟨gs, hgs, hg'⟩ := hpre
  obtain ⟨subj, hsubj⟩ := (v4 gs hgs).2 hg'
  obtain ⟨g, p, hg, hp⟩ := o5 hpre'
  obtain ⟨_, hpc, _⟩ := (o3 g hg).2 p hp
  have hsv : CreateOffer.saves req = true := by simp [CreateOffer.saves, hpre']
  rcases CreateOffer.saveOffer_ok.1 h6 with ⟨hn, _⟩ | ⟨_, items, key, i1, i2, i3, rfl⟩
  · rw [hsv] at hn; cases hn
  have hkey := CreateOffer.stateKey_of h4 i2
  have hnow2 : w2.now = w.now + s.wait := by
    rw [t2]; split <;> rfl
  have hdr2 : (World.wait w s.wait).drawn < w2.drawn := by
    rw [t2]; split <;> simp [World.wait]; omega
  -- the items
  obtain ⟨its, hits, hits'⟩ : ∃ its, items = some its ∧ CreateOffer.authorize s.provider subj req.configIds = .ok its := by
    simp only [CreateOffer.offerItems, List.contains_iff_mem.2 hpre', if_true, hsubj, Option.getD_some] at i1
    cases ha : CreateOffer.authorize s.provider subj req.configIds with
    | error x => simp [ha, Except.map] at i1
    | ok its => exact ⟨its, by simpa [ha, Except.map] using i1.symm, rfl⟩
  obtain ⟨a1, a2⟩ := CreateOffer.authorize_spec hits'
  have htx : resp.txCode = tx := by
    rcases CreateOffer.respond_ok.1 h7 with ⟨_, rfl, _⟩ | ⟨_, _, rfl, _⟩ <;> rfl
  have hst : (step e w s).2.store p.preAuthorizedCode =
      some (CreateOffer.offeredState req (some its) tx (w.now + s.wait)) := by
    rw [hstep, hpc]
    show ((createOffer s.provider req).run e (World.wait w s.wait)).2.store _ = _
    rcases CreateOffer.respond_ok.1 h7 with ⟨_, _, h8⟩ | ⟨_, _, _, h8⟩
    · rw [h8, hkey, ← hits, ← hnow2]; simp
    · have hne : e.rng (World.wait w s.wait).drawn ≠ e.rng w2.drawn := fun heq => by
        have := he.inj _ _ heq; omega
      rw [h8, hkey, ← hits, ← hnow2]; simp [hne]
  have hdel : Delivers req.credentialIssuer (step e w s).2.store resp.offerType offer := by
    rw [hstep]
    show Delivers _ ((createOffer s.provider req).run e (World.wait w s.wait)).2.store _ _
    rcases CreateOffer.respond_ok.1 h7 with ⟨_, rfl, _⟩ | ⟨_, _, rfl, h8⟩
    · exact .byVal _
    · refine .byRef _ _ (CreateOffer.pendingState req offer (w.now + s.wait)) ?_ rfl
      rw [h8]; simp [hnow2]
  refine ⟨subj, offer, g, p, hsubj, hdel, hg, hp, ?_⟩
  intro between redeem treq cid client server scope scopes supported q1 q2 q3 q4 q5 q6 q7 q8 q9 q10 q11 q12 ⟨q13, q14, q15⟩
  have hfro := (hw1.frozen he hst (by rintro ⟨t, ht⟩; cases ht)).exec he between
  have hst2 : (exec e (step e w s).2 between).store p.preAuthorizedCode =
      some (CreateOffer.offeredState req (some its) tx (w.now + s.wait)) := by
    cases hc : (exec e (step e w s).2 between).store p.preAuthorizedCode with
    | none => exact absurd hc q13
    | some v => rw [hfro.same v hc]
  have hv : Token.verify redeem.provider (CreateOffer.offeredState req (some its) tx (w.now + s.wait))
      (World.wait (exec e (step e w s).2 between) redeem.wait).now treq = .ok () := by
    refine Token.verify_ok.2 ⟨q15, server, supported, q6, q7, ?_, ?_⟩
    · exact (Token.checkGrant_pre q2).2 ⟨_, rfl, q8, ⟨cid, q3, fun h => absurd h q4⟩, htx⟩
    · refine Token.checkClient_ok.2 fun cid' hcid => ?_
      rw [q3] at hcid; cases hcid
      exact ⟨client, q9, scope, scopes, q10, q11, q12⟩
  have hrun := (token_ok_iff (w := World.wait (exec e (step e w s).2 between) redeem.wait)).2
    ⟨_, its, q14 0 (by decide), q14 1 (by decide), q14 2 (by decide),
    by rw [q2]; exact hst2, hv, by
      simp only [Token.grantedItems, q2, CreateOffer.offeredState, Except.bind_ok, orErr_ok]
      exact ⟨its, rfl, by simp [Token.retainDetails, q5]⟩, rfl, rfl⟩
  have hdet : ∀ l : List AuthorizedItem, (∀ it ∈ l, ∃ d, it.item = .detail d) → l ≠ [] →
      ∃ ds, Token.authorizedDetails l = some ds ∧
        ds.map (fun d => (ItemType.detail d.detail, d.identifiers)) = l.map (fun it => (it.item, it.identifiers)) := by
    intro l hl hne
    have key : ∀ l : List AuthorizedItem, (∀ it ∈ l, ∃ d, it.item = .detail d) →
        (l.filterMap fun it => match it.item with
          | .detail d => some ({ detail := d, identifiers := it.identifiers } : AuthorizedDetail)
          | .scope _ => none).map (fun d => (ItemType.detail d.detail, d.identifiers)) =
          l.map (fun it => (it.item, it.identifiers)) := by
      intro l
      induction l with
      | nil => simp
      | cons it l ih =>
        intro hl
        obtain ⟨d, hd⟩ := hl it (by simp)
        simp only [List.filterMap_cons, hd, List.map_cons]
        rw [ih fun it hit => hl it (by simp [hit])]
    refine ⟨_, ?_, key l hl⟩
    have hlen := congrArg List.length (key l hl)
    simp only [List.length_map] at hlen
    have : 0 < l.length := List.length_pos_iff.2 hne
    unfold Token.authorizedDetails
    refine if_neg fun hem => ?_
    rw [List.isEmpty_iff] at hem
    have h0 : 0 = l.length := (congrArg List.length hem).symm.trans hlen
    omega
  have hits_ne : its ≠ [] := by
    rintro rfl
    simp only [List.map_nil] at a1
    exact v2 a1.symm
  obtain ⟨ds, hds1, hds2⟩ := hdet its (fun it hit => ⟨_, (a2 it hit).2⟩) hits_ne
  rw [step_token q1]
  refine ⟨_, ds, map_ok.2 ⟨_, congrArg Prod.fst hrun, rfl⟩, hds1, ?_, ?_⟩
  · have := congrArg (List.map fun x : ItemType × List String => match x.1 with
      | .detail d => d.credential | .scope _ => .configurationId "" none) hds2
    simp only [List.map_map, Function.comp_def] at this
    rw [this, o2, ← a1, List.map_map]
    refine List.map_congr_left fun it hit => ?_
    simp [(a2 it hit).2]
  · have := congrArg (List.map fun x : ItemType × List String => some x.2) hds2
    simp only [List.map_map, Function.comp_def] at this
    rw [this, o2, ← a1, List.map_map]
    refine List.map_congr_left fun it hit => ?_
    simp [(a2 it hit).1]

/-- C18 is not vacuous: after another offer was created and 300 s passed, the first offer is still redeemed. -/
example : Demo.isOk (step Demo.env (exec Demo.env Demo.offered
      [{ provider := Demo.provider, wait := 300000000000, req := .createOffer Demo.offerReq }])
      { provider := Demo.provider, req := .token (Demo.tokenReq (Demo.rng 0)) }).1 = true := by decide

/-- **C19.** The identifier in the URI of a by-reference offer leads, while it is stored and live, to exactly the offer that the
same call by value would have returned, whatever happened in between; no other offer is ever returned for it, and after a
successful retrieval every later one is refused. -/
theorem C19_by_reference_once_unchanged {e : Env} (he : Env.Fresh e) {w : World State} (hw : Reachable e w) {s : Step}
    {req : CreateOfferRequest} (hreq : s.req = .createOffer req) (href : req.sendType = .byRef)
    {resp : CreateOfferResponse} (h : (step e w s).1 = .ok (.createOffer resp)) :
    ∃ id offer, resp.offerType = .uri (req.credentialIssuer ++ "/credential_offer/" ++ id) ∧
      (step e w { s with req := .createOffer { req with sendType := .byVal } }).1 =
        .ok (.createOffer { offerType := .object offer, txCode := resp.txCode }) ∧
      ∀ (between : List Step) (fetch : Step) (freq : CredentialOfferRequest),
        fetch.req = .credentialOffer freq → freq.id = id →
        -- it is the offer that is returned
        (∀ r, (step e (exec e (step e w s).2 between) fetch).1 = .ok r → r = .credentialOffer offer) ∧
        -- retrieval works
        ((let w2 := exec e (step e w s).2 between
          w2.store id ≠ none ∧ freq.credentialIssuer = req.credentialIssuer ∧ (∀ n, n < 2 → e.fault (w2.ops + n) = .ok) ∧
          w2.now + fetch.wait < (w.now + s.wait) + 5 * 60 * sec + sec) →
         (step e (exec e (step e w s).2 between) fetch).1 = .ok (.credentialOffer offer)) ∧
        -- and only once
        ((∃ r, (step e (exec e (step e w s).2 between) fetch).1 = .ok r) →
          ∀ (after : List Step) (again : Step) (areq : CredentialOfferRequest),
            again.req = .credentialOffer areq → areq.id = id →
            Refused (step e (exec e (step e (exec e (step e w s).2 between) fetch).2 after) again).1) := by
  have hw1 := hw.step s
  have hstep := step_createOffer (e := e) (w := w) hreq
  rw [hstep] at h
  obtain ⟨resp', h, hr⟩ := map_ok.1 h
  cases hr
  obtain ⟨iss, srv, offer, tx, w1, w2, w3, h1, h2, h3, h4, rfl, h5, h6, h7⟩ := createOffer_ok_iff.1 (pair_of_fst h)
  rcases CreateOffer.respond_ok.1 h7 with ⟨hv, _⟩ | ⟨_, f3, hresp, hw'⟩
  · rw [href] at hv; cases hv
  have hnow3 : w3.now = w.now + s.wait := by
    have t2 := (CreateOffer.txCode_ok.1 h5).2
    have : w2.now = w.now + s.wait := by rw [t2]; split <;> rfl
    rcases CreateOffer.saveOffer_ok.1 h6 with ⟨_, rfl⟩ | ⟨_, _, _, _, _, _, rfl⟩ <;> exact this
  have hst : (step e w s).2.store (e.rng w3.drawn) = some (CreateOffer.pendingState req offer (w.now + s.wait)) := by
    rw [hstep]
    show ((createOffer s.provider req).run e (World.wait w s.wait)).2.store _ = _
    rw [hw', ← hnow3]; simp
  have hiss : offer.credentialIssuer = req.credentialIssuer := (CreateOffer.credentialOffer_ok h4).1
  refine ⟨e.rng w3.drawn, offer, by rw [hresp], ?_, ?_⟩
  · rw [step_createOffer (s := { s with req := .createOffer { req with sendType := .byVal } }) rfl]
    have : (createOffer s.provider { req with sendType := .byVal }).run e (World.wait w s.wait) =
        (.ok { offerType := .object offer, txCode := resp.txCode }, w3) := by
      refine createOffer_ok_iff.2 ⟨iss, srv, offer, tx, _, w2, w3, h1, h2, h3, h4, rfl, ?_, ?_, ?_⟩
      · exact h5
      · exact h6
      · exact CreateOffer.respond_ok.2 (.inl ⟨rfl, by rw [hresp], rfl⟩)
    exact map_ok.2 ⟨_, congrArg Prod.fst this, rfl⟩
  · rintro between fetch freq hf hid
    have hfro := (hw1.frozen he hst (by rintro ⟨t, ht⟩; cases ht)).exec he between
    have hsame : ∀ v, (exec e (step e w s).2 between).store freq.id = some v →
        v = CreateOffer.pendingState req offer (w.now + s.wait) := by
      intro v hv; rw [hid] at hv; exact hfro.same v hv
    refine ⟨?_, ?_, ?_⟩
    · intro r hr
      rw [step_credentialOffer hf] at hr
      obtain ⟨o, ho, rfl⟩ := map_ok.1 hr
      obtain ⟨st, _, _, g1, _, g2, _⟩ := credentialOffer_ok_iff.1 (pair_of_fst ho)
      rw [hsame st g1] at g2
      cases g2
      rfl
    · rintro ⟨q1, q2, q3, q4⟩
      have hst2 : (exec e (step e w s).2 between).store freq.id =
          some (CreateOffer.pendingState req offer (w.now + s.wait)) := by
        cases hc : (exec e (step e w s).2 between).store freq.id with
        | none => rw [hid] at hc; exact absurd hc q1
        | some v => rw [hsame v hc]
      rw [step_credentialOffer hf]
      have hrun := (credentialOffer_ok_iff (w := World.wait (exec e (step e w s).2 between) fetch.wait)).2
        ⟨_, q3 0 (by decide), q3 1 (by decide), hst2, q4, rfl, by rw [hiss, q2], rfl⟩
      exact map_ok.2 ⟨_, congrArg Prod.fst hrun, rfl⟩
    · rintro ⟨r, hr⟩ after again areq ha haid x hx
      have hgone : (step e (exec e (step e w s).2 between) fetch).2.store (e.rng w3.drawn) = none := by
        rw [step_credentialOffer hf] at hr ⊢
        obtain ⟨o, ho, rfl⟩ := map_ok.1 hr
        obtain ⟨st, _, _, g1, _, g2, _, g3⟩ := credentialOffer_ok_iff.1 (pair_of_fst ho)
        show ((credentialOffer freq).run e (World.wait (exec e (step e w s).2 between) fetch.wait)).2.store _ = _
        rw [g3, hid]; simp
      have hsp := ((hfro.step he fetch).spent hgone).exec he after
      rw [step_credentialOffer ha] at hx
      obtain ⟨o, ho, rfl⟩ := map_ok.1 hx
      obtain ⟨st, _, _, g1, _⟩ := credentialOffer_ok_iff.1 (pair_of_fst ho)
      have hg : (exec e (step e (exec e (step e w s).2 between) fetch).2 after).store areq.id = none := by
        rw [haid]; exact hsp.gone
      have g1' : (exec e (step e (exec e (step e w s).2 between) fetch).2 after).store areq.id = some st := g1
      rw [hg] at g1'
      cases g1'

/-- C19 is not vacuous: the demo offer by reference is fetched once. -/
example :
    let s : Step := { provider := Demo.provider, req := .createOffer { Demo.offerReq with sendType := .byRef } }
    let f : Step := { provider := Demo.provider, req := .credentialOffer { credentialIssuer := "http://vercre.io", id := Demo.rng 2 } }
    Demo.isOk (step Demo.env (start 0) s).1 = true ∧ Demo.isOk (step Demo.env (step Demo.env (start 0) s).2 f).1 = true ∧
    Demo.isOk (step Demo.env (step Demo.env (step Demo.env (start 0) s).2 f).2 f).1 = false := by decide

/-- **C20**, negation: whatever is stored under the given identifier is removed, be it a pending offer or not. -/
theorem C20_fetch_removes_anything (req : CredentialOfferRequest) (e : Env) (w : World State)
    (hf : ∀ n, n < 2 → e.fault (w.ops + n) = .ok) : ((credentialOffer req).run e w).2.store req.id = none := by
  have h0 := hf 0 (by decide)
  have h1 := hf 1 (by decide)
  simp only [Nat.add_zero] at h0
  cases hs : w.store req.id with
  | none => simp only [credentialOffer, Bind.bind, run_bind, getE, run, h0, getRes, hs]
  | some st =>
    have hrun : (credentialOffer req).run e w = ((do
        lift (require (!st.isExpired w.now) (.invalidRequest "state expired"))
        let offer ← lift (pendingOffer st)
        lift (require (offer.credentialIssuer == req.credentialIssuer) (.invalidRequest "credential_issuer mismatch"))
        pure offer) : IProg CredentialOffer).run e
          { w with store := upd w.store req.id none, ops := w.ops + 2 } := by
      simp [credentialOffer, Bind.bind, run_bind, getE, purgeE, nowE, run, h0, getRes, hs, h1, writeRes]
    rw [hrun]
    have hg : Guar (fun _ _ => True) (fun _ _ => False) (fun _ => True) ((do
        lift (require (!st.isExpired w.now) (.invalidRequest "state expired"))
        let offer ← lift (pendingOffer st)
        lift (require (offer.credentialIssuer == req.credentialIssuer) (.invalidRequest "credential_issuer mismatch"))
        pure offer) : IProg CredentialOffer) (fun _ => True) :=
      Guar.bind (Q := fun _ => True) (Guar.lift fun _ _ => trivial) fun _ _ =>
        Guar.bind (Q := fun _ => True) (Guar.lift fun _ _ => trivial) fun _ _ =>
        Guar.bind (Q := fun _ => True) (Guar.lift fun _ _ => trivial) fun _ _ => Guar.pure trivial
    have := (Guar.run (e := e) (w := { w with store := upd w.store req.id none, ops := w.ops + 2 }) hg
      (fun _ _ _ => trivial) (fun _ _ _ => trivial) (fun _ _ _ => trivial)).2.1 req.id (fun _ h => h)
    rw [this]; simp

/-- **C20**, negation, on a run: a `credential_offer` call naming an access token ends the session of that token. -/
theorem C20_fetch_ends_a_session :
    ∃ (e : Env) (w : World State) (P : Provider) (token : String) (s : State) (t : Token) (use : CredentialRequest)
      (req : CredentialOfferRequest), Env.Fresh e ∧ Reachable e w ∧ w.store token = some s ∧ s.stage = .validated t ∧
      use.accessToken = token ∧ req.id = token ∧
      Refused (step e w { provider := P, req := .credentialOffer req }).1 ∧
      (∃ resp, (step e w { provider := P, req := .credential use }).1 = .ok resp) ∧
      Refused (step e (step e w { provider := P, req := .credentialOffer req }).2
        { provider := P, req := .credential use }).1 :=
  ⟨Demo.env, Demo.validated, Demo.provider, Demo.rng 2, _, _, Demo.credReq (Demo.rng 2) (Demo.rng 3),
    { credentialIssuer := "", id := Demo.rng 2 }, Demo.env_fresh,
    ⟨0, [{ provider := Demo.provider, req := .createOffer Demo.offerReq },
      { provider := Demo.provider, req := .token (Demo.tokenReq (Demo.rng 0)) }], rfl⟩, rfl, rfl, rfl, rfl, by decide,
    ⟨_, rfl⟩, by decide⟩

/-- **C20**, what holds: no entry other than the one named changes. -/
theorem C20_only_named_entry_partial (req : CredentialOfferRequest) (e : Env) (w : World State) (k : String)
    (hk : k ≠ req.id) : ((credentialOffer req).run e w).2.store k = w.store k := by
  have := (Guar.run (e := e) (w := w) (credentialOffer_guar (R := fun _ _ => True)
    (G := fun k v => k = req.id ∧ v = none) (D := fun _ => True) (req := req) ⟨rfl, rfl⟩) (fun _ _ _ => trivial)
    (fun _ _ _ => trivial) (fun _ _ _ => trivial)).2.1
  exact this k (fun v hv => hk hv.1)

end Verif.Issuer
