import Verif.Interop.Props
import Verif.Issuer.GrantProps
/-!
# From a wallet's authorization request to its token
-/
namespace Verif.Issuer
open Prog

theorem Authorize.verifyDetails_nodup {iss : Issuer} {l : List AuthorizationDetail} {acc m : Dict AuthorizationDetail} (hn : Dict.Nodup acc)
    (h : Authorize.verifyDetails iss l acc = .ok m) : Dict.Nodup m := by
  induction l generalizing acc with
  | nil => cases h; exact hn
  | cons d l ih =>
    simp only [Authorize.verifyDetails, Except.bind_ok] at h
    obtain ⟨t, _, _, _, h3⟩ := h
    exact ih (Dict.nodup_insert hn _ _) h3

/-- What the code for a request for configurations stands for. -/
theorem code_items {P : Provider} {e : Env} (he : Env.Fresh e) {w w' : World State} (hw : Reachable e w) {r : RequestObject}
    {resp : AuthorizationResponse} (h : (authorize P (.object r)).run e w = (.ok resp, w')) {ds : List AuthorizationDetail}
    (hds : r.authorizationDetails = some ds) (hsc : r.scope = none)
    (hcf : ∀ d ∈ ds, ∃ cid cl, d.credential = .configurationId cid cl) :
    ∃ items, w'.store resp.code = some (Authorize.stored r items w.now) ∧ w'.now = w.now ∧ items ≠ [] ∧ (items.map (·.configId)).Nodup ∧
      (∀ it ∈ items, P.authorize r.subjectId it.configId = some it.identifiers ∧
        ∃ d cl, it.item = .detail d ∧ d ∈ ds ∧ d.credential = .configurationId it.configId cl) ∧
      ∀ d ∈ ds, ∀ cid cl, d.credential = .configurationId cid cl → ∃ it ∈ items, it.configId = cid := by
  obtain ⟨r', iss, client, server, dd, ss, items, h1, _, _, _, _, _, h7, h8, h9, h10, h11, h12, h13, _⟩ := authorize_ok h
  cases h1
  rw [hds] at h7
  rw [hsc] at h8
  cases h8
  obtain ⟨k1, _, k3⟩ := Authorize.verifyDetails_keys h7
  have hnd := Authorize.verifyDetails_nodup (by simp [Dict.Nodup, Dict.keys]) h7
  obtain ⟨hne, hperm, hit⟩ := Authorize.authorizeItems_spec h10
  simp only [List.map_nil, List.append_nil] at hperm
  refine ⟨items, ?_, h13, hne, hperm.nodup_iff.2 hnd, ?_, ?_⟩
  · rw [h12, h11]
    cases hk : r.issuerState with
    | none => simp
    | some k =>
      have hne : e.rng w.drawn ≠ k := by
        intro heq
        obtain ⟨s', hs', _⟩ := h9 k hk
        have := (hw.unused he (Nat.le_refl _)).1
        rw [heq, hs'] at this
        cases this
      simp [hne]
  · intro it hi
    obtain ⟨a1, a2⟩ := hit it hi
    refine ⟨a1, ?_⟩
    rcases a2 with ⟨d, b1, b2⟩ | ⟨s, _, b2⟩
    · rcases k3 _ b2 with hx | ⟨hx, c, hc⟩
      · cases hx
      · obtain ⟨cid, cl, hcr⟩ := hcf d hx
        simp only [Authorize.detailTarget, hcr, Except.ok.injEq, Prod.mk.injEq] at hc
        exact ⟨d, cl, b1, hx, by rw [hcr, hc.1]⟩
    · cases b2
  · intro d hd cid cl hcr
    have : cid ∈ dd.map Prod.fst := (k1 cid).2 (.inr ⟨d, hd, cl.bind ProfileClaims.claims, by simp [Authorize.detailTarget, hcr]⟩)
    obtain ⟨it, h1, h2⟩ := List.mem_map.1 (hperm.mem_iff.2 this)
    exact ⟨it, h1, h2⟩

/-- What the `issuer_state` of an offer stands for. -/
theorem issuerState_stored {e : Env} (he : Env.Fresh e) {w : World State} {s : Step} {req : CreateOfferRequest}
    (hreq : s.req = .createOffer req) {resp : CreateOfferResponse} (h : (step e w s).1 = .ok (.createOffer resp)) {offer : CredentialOffer}
    (hdel : Delivers req.credentialIssuer (step e w s).2.store resp.offerType offer) {g : Grants} {a : AuthorizationCodeGrant} {key : String}
    (hg : offer.grants = some g) (ha : g.authorizationCode = some a) (hk : a.issuerState = some key) :
    ∃ st, (step e w s).2.store key = some st ∧ st.subjectId = req.subjectId ∧ st.expiresAt = (w.now + s.wait) + 5 * 60 * sec := by
  have hstep := step_createOffer (e := e) (w := w) hreq
  rw [hstep] at h
  obtain ⟨resp', h, hr⟩ := map_ok.1 h
  cases hr
  have hrun := pair_of_fst h
  obtain ⟨iss, srv, offer', tx, w1, w2, w3, h1, h2, h3, h4, rfl, h5, h6, h7⟩ := createOffer_ok_iff.1 hrun
  obtain ⟨t1, t2⟩ := CreateOffer.txCode_ok.1 h5
  have hnow2 : w2.now = w.now + s.wait := by
    rw [t2]; split <;> rfl
  have hdr2 : (World.wait w s.wait).drawn < w2.drawn := by
    rw [t2]; split <;> simp [World.wait]; omega
  -- the offer of the response is the one made
  have hoff : offer = offer' := by
    rcases CreateOffer.respond_ok.1 h7 with ⟨_, rfl, h8⟩ | ⟨_, _, rfl, h8⟩
    · cases hdel; rfl
    · rw [hstep] at hdel
      have hdel : Delivers req.credentialIssuer ((createOffer s.provider req).run e (World.wait w s.wait)).2.store
        (.uri (req.credentialIssuer ++ "/credential_offer/" ++ e.rng w2.drawn)) offer := by
        rcases CreateOffer.saveOffer_ok.1 h6 with ⟨_, rfl⟩ | ⟨_, _, _, _, _, _, rfl⟩ <;> exact hdel
      rw [h8] at hdel
      generalize hu : OfferType.uri (req.credentialIssuer ++ "/credential_offer/" ++ e.rng w2.drawn) = u at hdel
      cases hdel with
      | byVal => cases hu
      | byRef o id st hs hpd =>
        simp only [OfferType.uri.injEq, String.append_right_inj] at hu
        subst hu
        rcases CreateOffer.saveOffer_ok.1 h6 with ⟨_, rfl⟩ | ⟨_, _, _, _, _, _, rfl⟩ <;>
        · simp only [upd_same, Option.some.injEq] at hs
          subst hs
          simp only [CreateOffer.pendingState, Stage.pending.injEq] at hpd
          exact hpd.symm
  subst hoff
  obtain ⟨o1, o2, o3, o4, o5⟩ := CreateOffer.credentialOffer_ok h4
  obtain ⟨hm, hst⟩ := (o3 g hg).1 a ha
  rw [hk] at hst
  cases hst
  rcases CreateOffer.saveOffer_ok.1 h6 with ⟨hn, _⟩ | ⟨_, items, key, i1, i2, i3, rfl⟩
  · simp [CreateOffer.saves, hm] at hn
  have hkey := CreateOffer.stateKey_of h4 i2
  refine ⟨CreateOffer.offeredState req items tx (w.now + s.wait), ?_, rfl, rfl⟩
  rw [hstep]
  show ((createOffer s.provider req).run e (World.wait w s.wait)).2.store _ = _
  rcases CreateOffer.respond_ok.1 h7 with ⟨_, _, h8⟩ | ⟨_, _, _, h8⟩
  · rw [h8, hkey, ← hnow2]; simp
  · have hne : e.rng (World.wait w s.wait).drawn ≠ e.rng w2.drawn := fun heq => by
      have := he.inj _ _ heq; omega
    rw [h8, hkey, ← hnow2]; simp [hne]

/-- Redeeming an authorization code. -/
theorem code_token {P : Provider} {e : Env} {w : World State} (hst : Working e w) {req : TokenRequest} {code v : String} {uri : Option String}
    (hg : req.grantType = .authorizationCode code uri (some v)) {r : RequestObject} {items : List AuthorizedItem} {t0 : Int}
    (hs : w.store code = some (Authorize.stored r items t0)) (hlive : w.now < t0 + authorizedDur + sec) {server : Server} {supported : List GrantType}
    (hsv : P.server req.credentialIssuer = some server) (hsup : server.grantTypesSupported = some supported)
    (hmem : GrantType.authorizationCode ∈ supported) (hcl : req.clientId = some r.clientId) {client : Client} (hc : P.client r.clientId = some client)
    (hscopes : ScopesSupported client server) (huri : uri = r.redirectUri) (hver : P.codeChallenge v = r.codeChallenge) :
    (token P req).run e w = (.ok (Token.response (e.rng w.drawn) (e.rng (w.drawn + 1)) items), {
      store := upd (upd w.store code none) (e.rng w.drawn)
        (some (Token.stored (Authorize.stored r items t0) (e.rng w.drawn) (e.rng (w.drawn + 1)) w.now items))
      now := w.now
      drawn := w.drawn + 2
      ops := w.ops + 3 }) := by
  refine token_ok_iff.2 ⟨_, items, hst _ (Nat.le_refl _), hst _ (by omega), hst _ (by omega), by rw [hg]; exact hs,
    Token.verify_ok.2 ⟨hlive, server, supported, hsv, hsup, (Token.checkGrant_auth hg).2 ⟨_, v, rfl, hmem, hcl, huri, rfl, hver⟩,
      Token.checkClient_ok.2 ?_⟩, ?_, rfl, by rw [hg]; rfl⟩
  · intro cid hcid
    rw [hcl] at hcid; cases hcid
    exact ⟨client, hc, hscopes⟩
  · simp [Token.grantedItems, hg, Authorize.stored]

end Verif.Issuer

namespace Verif.Holder
open Verif HProg

variable {e : HEnv} {w : HWorld}

/-- An authorization once the flow is found or started. -/
theorem authorize_runs (hf : ∀ n, e.fault n = .ok) {P : Provider} {req : AuthorizeRequest} {i : Issuance} {w' : HWorld}
    (hs : (startFlow req).run e w = (.ok i, w')) {r : Issuer.RequestObject}
    (hr : authorizationRequest (authorizing P (e.rng w'.drawn) i req) req = .ok r) {a : Issuer.AuthorizationResponse}
    (ha : e.oracle w'.log w'.recent (.authorization r) = some a) {t : Issuer.TokenResponse}
    (ht : e.oracle w'.log (w'.recent ++ [⟨.authorization r, some a⟩])
      (.token (codeTokenRequest (authorizing P (e.rng w'.drawn) i req) req a)) = some t)
    {m : Option (Dict (List String))} (hm : authorizedOfNonempty i.issuer t.authorizationDetails = .ok m) :
    (authorize P req).run e w = (.ok (.authorized i.id m), { w' with
      store := upd w'.store i.id (some (.issuance { authorizing P (e.rng w'.drawn) i req with
        token := t
        status := .tokenReceived }))
      ops := w'.ops + 1
      drawn := w'.drawn + 1
      recent := w'.recent ++ [⟨.authorization r, some a⟩, ⟨.token (codeTokenRequest (authorizing P (e.rng w'.drawn) i req) req a), some t⟩] }) := by
  simp only [authorizing] at hr ht ⊢
  simp only [authorize, run_bind, hs, run_draw, run_lift, hr]
  rw [run_call (w := { w' with drawn := w'.drawn + 1 }) ha]
  simp only
  rw [run_call (w := { w' with
    drawn := w'.drawn + 1
    recent := w'.recent ++ [⟨.authorization r, some a⟩] }) ht]
  simp only [hm]
  rw [run_put hf]
  simp [run_pure]

theorem run_recent {α : Type} (e : HEnv) (p : HProg α) (w : HWorld) : ∃ evs, (p.run e w).2.recent = w.recent ++ evs := by
  induction p generalizing w with
  | ret r => exact ⟨[], by simp [HProg.run]⟩
  | get k c ih => exact ih _ _
  | put k v c ih => exact ih _ _
  | purge k c ih => exact ih _ _
  | draw c ih => exact ih _ _
  | now c ih => exact ih _ _
  | call c k ih =>
    obtain ⟨evs, h⟩ := ih (e.oracle w.log w.recent c) { w with recent := w.recent ++ [⟨c, e.oracle w.log w.recent c⟩] }
    exact ⟨⟨c, e.oracle w.log w.recent c⟩ :: evs, by rw [HProg.run, h]; simp⟩

theorem ask_recent {α : Type} (c : Call) (f : c.Reply → HProg α) :
    ∃ evs, ((callE c >>= f).run e w).2.recent = w.recent ++ ⟨c, e.oracle w.log w.recent c⟩ :: evs := by
  rw [run_bind]
  cases h : e.oracle w.log w.recent c with
  | none => rw [run_callFail h]; exact ⟨[], rfl⟩
  | some r =>
    rw [run_call h]
    obtain ⟨evs, he⟩ := run_recent e (f r) { w with recent := w.recent ++ [⟨c, some r⟩] }
    exact ⟨evs, by simp only [he]; simp⟩

/-- Once the flow is found or started, the issuer is asked for authorization; if it gives one, it is asked for a token. -/
theorem authorize_asks {P : Provider} {req : AuthorizeRequest} {i : Issuance} {w' : HWorld} (hs : (startFlow req).run e w = (.ok i, w'))
    {r : Issuer.RequestObject} (hr : authorizationRequest (authorizing P (e.rng w'.drawn) i req) req = .ok r) :
    (∃ evs, ((authorize P req).run e w).2.recent = w'.recent ++ ⟨.authorization r, e.oracle w'.log w'.recent (.authorization r)⟩ :: evs) ∧
    ∀ a, e.oracle w'.log w'.recent (.authorization r) = some a → ∃ evs, ((authorize P req).run e w).2.recent = w'.recent ++
      ⟨.authorization r, some a⟩ :: ⟨.token (codeTokenRequest (authorizing P (e.rng w'.drawn) i req) req a),
        e.oracle w'.log (w'.recent ++ [⟨.authorization r, some a⟩]) (.token (codeTokenRequest (authorizing P (e.rng w'.drawn) i req) req a))⟩ :: evs := by
  simp only [authorizing] at hr ⊢
  unfold authorize
  rw [run_bind, hs]
  simp only
  rw [run_bind, run_draw]
  simp only
  rw [run_bind, run_lift, hr]
  simp only
  refine ⟨ask_recent (w := { w' with drawn := w'.drawn + 1 }) _ _, fun a ha => ?_⟩
  rw [run_bind, run_call (w := { w' with drawn := w'.drawn + 1 }) ha]
  simp only
  obtain ⟨evs, he⟩ := ask_recent (e := e) (w := { w' with
    drawn := w'.drawn + 1
    recent := w'.recent ++ [⟨.authorization r, some a⟩] }) (.token (codeTokenRequest { i with
        accepted := req.authorizationDetails
        codeChallenge := some (P.codeChallenge (e.rng w'.drawn))
        codeVerifier := some (e.rng w'.drawn) } req a)) _
  exact ⟨evs, by rw [he]; simp⟩

/-- Starting a flow at the wallet. -/
theorem startFlow_wallet {req : AuthorizeRequest} {client url subj : String} (hi : req.initiator = .wallet client url none subj)
    {md : Verif.Issuer} {sv : Server} (hmd : e.oracle w.log w.recent (.metadata url) = some md)
    (hsv : e.oracle w.log (w.recent ++ [⟨.metadata url, some md⟩]) (.oauthServer url) = some sv) :
    (startFlow req).run e w = (.ok { id := e.rng w.drawn, clientId := client, subjectId := subj, issuer := md, server := sv }, { w with
      drawn := w.drawn + 1
      recent := w.recent ++ [⟨.metadata url, some md⟩, ⟨.oauthServer url, some sv⟩] }) := by
  simp only [startFlow, hi, newIssuance, setIssuer, run_bind, run_lift, Option.isSome_none, Bool.and_false, Bool.not_false, check, if_true, run_draw, run_pure]
  rw [run_call (w := { w with drawn := w.drawn + 1 }) hmd]
  simp only
  rw [run_call (w := { w with drawn := w.drawn + 1, recent := w.recent ++ [⟨.metadata url, some md⟩] }) hsv]
  simp only [List.append_assoc, List.cons_append, List.nil_append]

/-- Finding the flow of an accepted offer that lets the wallet ask for authorization. -/
theorem startFlow_issuer (hf : ∀ n, e.fault n = .ok) {req : AuthorizeRequest} {k : String} (hi : req.initiator = .issuer k) {i : Issuance}
    (hk : w.store k = some (.issuance i)) {g : Issuer.Grants} (hg : i.offer.grants = some g) (hc : g.authorizationCode.isSome = true)
    (hst : i.status = .accepted) : (startFlow req).run e w = (.ok i, { w with ops := w.ops + 1 }) := by
  simp [startFlow, hi, run_bind, run_get hf hk, run_lift, authorizable, hg, hc, hst, check, run_pure]

end Verif.Holder
