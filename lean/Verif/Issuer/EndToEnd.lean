import Verif.Issuer.IssueProps
/-!
# Whole issuance flows: C95 – C97

From an offer or an authorization to the credential, for every history of other calls in between.
-/
namespace Verif.Issuer
open Prog

/-! ### Helpers -/

theorem run_now {V α : Type} (e : Env) (p : Prog V α) (w : World V) : (p.run e w).2.now = w.now := by
  induction p generalizing w with
  | ret r => rfl
  | get k c ih => exact ih _ { w with ops := w.ops + 1 }
  | put k v c ih => exact ih _ { w with store := writeRes (e.fault w.ops) w.store k (some v), ops := w.ops + 1 }
  | purge k c ih => exact ih _ { w with store := writeRes (e.fault w.ops) w.store k none, ops := w.ops + 1 }
  | draw c ih => exact ih _ { w with drawn := w.drawn + 1 }
  | now c ih => exact ih _ w

theorem step_now (e : Env) (w : World State) (s : Step) : (step e w s).2.now = w.now + s.wait := run_now e _ _

theorem exec_now_le (e : Env) (w : World State) (l : List Step) : w.now ≤ (exec e w l).now := by
  induction l generalizing w with
  | nil => exact Int.le_refl _
  | cons s l ih =>
    have := ih (step e w s).2
    rw [step_now] at this
    simp only [exec]
    omega

/-- What the token endpoint stores is a session with the credentials of the grant. -/
theorem token_session {P : Provider} {req : TokenRequest} {e : Env} {w w' : World State} {resp : TokenResponse}
    (h : (token P req).run e w = (.ok resp, w')) (hdet : req.authorizationDetails = none) {st : State}
    (hst : w.store req.grantType.code = some st) :
    ∃ s t nonce, resp.cNonce = some nonce ∧ Session w' resp.accessToken s t ∧ t.accessToken = resp.accessToken ∧
      t.cNonce = nonce ∧ t.cNonceExpiresAt = w.now + nonceDur ∧ s.expiresAt = st.expiresAt ∧ s.subjectId = st.subjectId ∧
      t.credentials = Token.authorizedCredentials st.grantItems := by
  obtain ⟨state, items, _, _, _, h4, h5, h6, rfl, rfl⟩ := token_ok_iff.1 h
  rw [hst] at h4; cases h4
  have hitems : items = st.grantItems := by
    unfold Token.grantedItems at h6
    unfold State.grantItems
    split at h6
    · split at h6
      · rename_i o ho
        simp only [Except.bind_ok, orErr_ok, Token.retainDetails, hdet] at h6
        obtain ⟨its, h7, h8⟩ := h6
        cases h8
        simp [ho, h7]
      · cases h6
    · split at h6
      · rename_i a ha
        cases h6
        simp [ha]
      · cases h6
  refine ⟨Token.stored st (e.rng w.drawn) (e.rng (w.drawn + 1)) w.now items, _, _, rfl, ⟨?_, rfl⟩, rfl, rfl, rfl, rfl, rfl, ?_⟩
  · simp [Token.response]
  · rw [hitems]

theorem granted_only {st : State} {cid id : String} (hgr : st.grants cid id) (honly : ∀ cid', st.grants cid' id → cid' = cid) :
    (id, { identifier := id, configId := cid, claimIds := none }) ∈ Token.authorizedCredentials st.grantItems := by
  obtain ⟨it, h1, h2, h3⟩ := hgr
  have hk := authorizedCredentials_keys.2 ⟨it, h1, h3⟩
  obtain ⟨⟨id', auth⟩, hm, hid⟩ := List.mem_map.1 hk
  simp only at hid
  subst hid
  obtain ⟨it', g1, g2, g3⟩ := authorizedCredentials_mem hm
  have := honly it'.configId ⟨it', g1, rfl, g2⟩
  simp only at g3
  rw [this] at g3
  rw [g3] at hm
  exact hm

/-- What a created offer with a pre-authorized code leaves in the store. -/
theorem offer_stored {e : Env} (he : Env.Fresh e) {w : World State} {s : Step} {req : CreateOfferRequest}
    (hreq : s.req = .createOffer req) {resp : CreateOfferResponse} (h : (step e w s).1 = .ok (.createOffer resp))
    (hpre : req.requests .preAuthorizedCode) {store : String → Option State} {offer : CredentialOffer}
    (hdel : Delivers req.credentialIssuer store resp.offerType offer) (hstore : store = (step e w s).2.store)
    {g : Grants} {p : PreAuthorizedCodeGrant} (hg : offer.grants = some g) (hp : g.preAuthorizedCode = some p) :
    offer.configIds = req.configIds ∧
    ∃ st, (step e w s).2.store p.preAuthorizedCode = some st ∧ ¬ st.isValidated ∧ st.subjectId = req.subjectId ∧
      st.expiresAt = (w.now + s.wait) + 5 * 60 * sec ∧
      ∀ subj, req.subjectId = some subj → ∀ cid id, st.grants cid id ↔
        cid ∈ req.configIds ∧ ∃ ids, s.provider.authorize subj cid = some ids ∧ id ∈ ids := by
  subst hstore
  have hstep := step_createOffer (e := e) (w := w) hreq
  rw [hstep] at h
  obtain ⟨resp', h, hr⟩ := map_ok.1 h
  cases hr
  have hrun := pair_of_fst h
  obtain ⟨iss, srv, offer', tx, w1, w2, w3, h1, h2, h3, h4, rfl, h5, h6, h7⟩ := createOffer_ok_iff.1 hrun
  obtain ⟨t1, t2⟩ := CreateOffer.txCode_ok.1 h5
  have hpre' := requests_iff.2 hpre
  have hsv : CreateOffer.saves req = true := by simp [CreateOffer.saves, hpre']
  rcases CreateOffer.saveOffer_ok.1 h6 with ⟨hn, _⟩ | ⟨_, items, key, i1, i2, i3, rfl⟩
  · rw [hsv] at hn; cases hn
  have hkey := CreateOffer.stateKey_of h4 i2
  have hnow2 : w2.now = w.now + s.wait := by
    rw [t2]; split <;> rfl
  have hdr2 : (World.wait w s.wait).drawn < w2.drawn := by
    rw [t2]; split <;> simp [World.wait]; omega
  -- the offer of the response is the one made
  have hoff : offer = offer' := by
    rcases CreateOffer.respond_ok.1 h7 with ⟨_, rfl, h8⟩ | ⟨_, _, rfl, h8⟩
    · cases hdel; rfl
    · rw [hstep] at hdel
      have hdel : Delivers req.credentialIssuer ((createOffer s.provider req).run e (World.wait w s.wait)).2.store
        (.uri (req.credentialIssuer ++ "/credential_offer/" ++ e.rng w2.drawn)) offer := hdel
      rw [h8] at hdel
      generalize hu : OfferType.uri (req.credentialIssuer ++ "/credential_offer/" ++ e.rng w2.drawn) = u at hdel
      cases hdel with
      | byVal => cases hu
      | byRef o id st hs hpd =>
        simp only [OfferType.uri.injEq, String.append_right_inj] at hu
        subst hu
        simp only [upd_same, Option.some.injEq] at hs
        subst hs
        simp only [CreateOffer.pendingState, Stage.pending.injEq] at hpd
        exact hpd.symm
  subst hoff
  obtain ⟨o1, o2, o3, o4, o5⟩ := CreateOffer.credentialOffer_ok h4
  obtain ⟨_, hpc, _⟩ := (o3 g hg).2 p hp
  refine ⟨o2, CreateOffer.offeredState req items tx (w.now + s.wait), ?_, ?_, rfl, rfl, ?_⟩
  · rw [hstep, hpc]
    show ((createOffer s.provider req).run e (World.wait w s.wait)).2.store _ = _
    rcases CreateOffer.respond_ok.1 h7 with ⟨_, _, h8⟩ | ⟨_, _, _, h8⟩
    · rw [h8, hkey, ← hnow2]; simp
    · have hne : e.rng (World.wait w s.wait).drawn ≠ e.rng w2.drawn := fun heq => by
        have := he.inj _ _ heq; omega
      rw [h8, hkey, ← hnow2]; simp [hne]
  · rintro ⟨t, ht⟩; cases ht
  · intro subj hsubj cid id
    obtain ⟨its, hits, hits'⟩ : ∃ its, items = some its ∧ CreateOffer.authorize s.provider subj req.configIds = .ok its := by
      simp only [CreateOffer.offerItems, List.contains_iff_mem.2 hpre', if_true, hsubj, Option.getD_some] at i1
      cases ha : CreateOffer.authorize s.provider subj req.configIds with
      | error x => simp [ha, Except.map] at i1
      | ok its => exact ⟨its, by simpa [ha, Except.map] using i1.symm, rfl⟩
    obtain ⟨a1, a2⟩ := CreateOffer.authorize_spec hits'
    simp only [State.grants, State.grantItems, CreateOffer.offeredState, hits, Option.getD_some]
    constructor
    · rintro ⟨it, b1, rfl, b3⟩
      exact ⟨by rw [← a1]; exact List.mem_map.2 ⟨it, b1, rfl⟩, _, (a2 it b1).1, b3⟩
    · rintro ⟨b1, ids, b2, b3⟩
      rw [← a1] at b1
      obtain ⟨it, c1, rfl⟩ := List.mem_map.1 b1
      rw [(a2 it c1).1] at b2
      cases b2
      exact ⟨it, c1, rfl, b3⟩

/-- What a new authorization code stands for. -/
theorem code_stored {e : Env} (he : Env.Fresh e) {w : World State} (hw : Reachable e w) {s : Step}
    {request : AuthorizationRequest} (hreq : s.req = .authorize request) {resp : AuthorizationResponse}
    (h : (step e w s).1 = .ok (.authorize resp)) {r : RequestObject} (hden : request.DenotesIn (World.wait w s.wait) r) :
    ∃ st iss, (step e w s).2.store resp.code = some st ∧ ¬ st.isValidated ∧ st.subjectId = some r.subjectId ∧
      st.expiresAt = (w.now + s.wait) + 5 * 60 * sec ∧ s.provider.issuer r.credentialIssuer = some iss ∧
      (∀ cid id, st.grants cid id → ∃ ids, s.provider.authorize r.subjectId cid = some ids ∧ id ∈ ids) ∧
      (∀ ds d, r.authorizationDetails = some ds → d ∈ ds → ∃ cid, Asks iss d cid ∧
        ∀ ids, s.provider.authorize r.subjectId cid = some ids → ∀ id ∈ ids, st.grants cid id) ∧
      (∀ scope item rest, r.scope = some scope → splitWs scope = item :: rest →
        ∀ cid cfg, (cid, cfg) ∈ iss.configs → cfg.scope = some item →
          (∀ ds d, r.authorizationDetails = some ds → d ∈ ds → ¬ Asks iss d cid) →
          ∀ ids, s.provider.authorize r.subjectId cid = some ids → ∀ id ∈ ids, st.grants cid id) := by
  rw [step_authorize hreq] at h ⊢
  obtain ⟨resp', h, hr⟩ := map_ok.1 h
  cases hr
  obtain ⟨r', iss, client, server, ds, ss, items, h1, h2, h3, h4, h5, h6, h7, h8, h9, h10, h11, h12, _⟩ :=
    authorize_ok (pair_of_fst h)
  have hrr : r' = r := by
    cases request with
    | object r0 => exact h1.trans hden.symm
    | uri u =>
      obtain ⟨s1, e1, a1, b1, _⟩ := h1
      obtain ⟨s2, e2, a2, b2, _⟩ := hden
      rw [a1] at a2; cases a2
      rw [b1] at b2; cases b2; rfl
  subst hrr
  obtain ⟨_, hperm, hit⟩ := Authorize.authorizeItems_spec h10
  have hgr : ∀ cid, cid ∈ ds.map Prod.fst ++ ss.map Prod.fst → ∀ ids, s.provider.authorize r'.subjectId cid = some ids →
      ∀ id ∈ ids, (Authorize.stored r' items (World.wait w s.wait).now).grants cid id := by
    intro cid hc ids hids id hid
    obtain ⟨it, hi1, rfl⟩ := List.mem_map.1 (hperm.mem_iff.2 hc)
    have := (hit it hi1).1
    rw [hids] at this; cases this
    exact ⟨it, hi1, rfl, hid⟩
  refine ⟨Authorize.stored r' items (World.wait w s.wait).now, iss, ?_, ?_, rfl, rfl, h2, ?_, ?_, ?_⟩
  · show ((authorize s.provider request).run e (World.wait w s.wait)).2.store resp.code = _
    rw [h12, h11]
    cases hk : r'.issuerState with
    | none => simp
    | some k =>
      have hne : e.rng (World.wait w s.wait).drawn ≠ k := by
        intro heq
        obtain ⟨s', hs', _⟩ := h9 k hk
        have := (hw.unused he (Nat.le_refl _)).1
        rw [show e.rng w.drawn = k from heq, show w.store k = some s' from hs'] at this
        cases this
      simp [hne]
  · rintro ⟨t, ht⟩; cases ht
  · rintro cid id ⟨it, hi1, rfl, hi3⟩
    exact ⟨_, (hit it hi1).1, hi3⟩
  · intro l d hl hd
    rw [hl] at h7
    obtain ⟨k1, k2, _⟩ := Authorize.verifyDetails_keys h7
    obtain ⟨id, c, g1, _⟩ := k2 d hd
    refine ⟨id, asks_of_target g1, hgr id ?_⟩
    exact List.mem_append_left _ ((k1 id).2 (.inr ⟨d, hd, c, g1⟩))
  · intro scope item rest hsc hsp cid cfg hcfg hcs hnot
    refine hgr cid (List.mem_append_right _ ?_)
    rw [hsc] at h8
    simp only [Authorize.verifyScopeOpt, Authorize.verifyScope, hsp] at h8
    split at h8
    · cases h8
    · cases h8
      have hno : Dict.has ds cid = false := by
        cases hh : Dict.has ds cid with
        | false => rfl
        | true =>
          have hk := Dict.has_iff.1 hh
          cases had : r'.authorizationDetails with
          | none => rw [had] at h7; cases h7; simp [Dict.keys] at hk
          | some l =>
            rw [had] at h7
            rcases ((Authorize.verifyDetails_keys h7).1 cid).1 hk with h | ⟨d, hd, c, h⟩
            · simp [Dict.keys] at h
            · exact absurd (asks_of_target h) (hnot l d had hd)
      simp only [List.map_map, List.mem_map, Function.comp]
      exact ⟨(cid, cfg), List.mem_filter.2 ⟨hcfg, by simp [hno, hcs]⟩, rfl⟩

/-! ### Facts about the demo issuer -/

namespace Demo

/-- Redeeming code `t` with a request, some time later. -/
def redeemStep (wait : Nat) (req : TokenRequest) : Step := { provider := provider, wait, req := .token req }

/-- Asking for the employee credential. -/
def askStep (wait : Nat) (tok nonce : String) (pending : Bool := false) : Step :=
  { provider := provider pending, wait, req := .credential (credReq tok nonce) }

/-- Something unrelated. -/
def other : Step := { provider := provider, req := .createOffer offerReq }

/-- Collecting a deferred credential. -/
def collectStep (wait : Nat) (tok txn : String) : Step :=
  { provider := provider, wait,
    req := .deferred { credentialIssuer := "http://vercre.io", accessToken := tok, transactionId := txn } }

end Demo

/-! ### Properties -/

/-- **C95**, second half: the token for a grant gets every credential of the grant. Once a code was exchanged for an access token, and
whatever other calls are served in between, a credential request with that token, for a credential identifier that the grant
authorizes (under one configuration), with proofs over the nonce of the token response, gets the credential the Subject provider has
data for — as long as nobody else used the token, the grant the code stood for would be live, and the nonce is not expired. -/
theorem C95_token_gets_credential {e : Env} {w : World State} {redeem : Step} {treq : TokenRequest}
    (hreq : redeem.req = .token treq) {tr : TokenResponse} (h : (step e w redeem).1 = .ok (.token tr))
    (hdet : treq.authorizationDetails = none) {st : State} (hst : w.store treq.grantType.code = some st) {subj : String}
    (hsub : st.subjectId = some subj) :
    ∃ nonce, tr.cNonce = some nonce ∧
      ∀ (cid id : String), st.grants cid id → (∀ cid', st.grants cid' id → cid' = cid) →
      ∀ (between : List Step) (ask : Step) (creq : CredentialRequest) (iss : Issuer) (cfg : CredentialConfiguration) (did : String)
        (ds : Dataset),
        ask.req = .credential creq → creq.accessToken = tr.accessToken → creq.credential = .identifier id →
        ask.provider.issuer creq.credentialIssuer = some iss → Dict.Nodup iss.configs → (cid, cfg) ∈ iss.configs →
        ProofsFit ask.provider cfg nonce creq did → ask.provider.dataset subj id = some ds → ds.pending = false →
        CanIssue ask.provider iss creq.credentialIssuer cfg subj →
        (let w1 := (step e w redeem).2
         let w2 := exec e w1 between
         w2.store tr.accessToken = w1.store tr.accessToken ∧ Working e w2 ∧ w2.now + ask.wait < st.expiresAt + sec ∧
         w2.now + ask.wait < (w.now + redeem.wait) + 10 * 60 * sec + sec) →
        ∃ resp c, (step e (exec e (step e w redeem).2 between) ask).1 = .ok (.credential resp) ∧ resp.response = .credential c ∧
          IsCredential c cfg.format did ds.claims := by
  have hstep := step_token (e := e) (w := w) hreq
  rw [hstep] at h
  obtain ⟨tr', h, hr⟩ := map_ok.1 h
  cases hr
  obtain ⟨s, t, nonce, h1, h2, h3, h4, h5, h6, h7, h8⟩ := token_session (pair_of_fst h) hdet
    (show (World.wait w redeem.wait).store treq.grantType.code = some st from hst)
  refine ⟨nonce, h1, ?_⟩
  intro cid id hgr honly between ask creq iss cfg did ds q1 q2 q3 q4 q5 q6 q7 q8 q9 q10 ⟨q11, q12, q13, q14⟩
  have hmem : (id, { identifier := id, configId := cid, claimIds := none }) ∈ t.credentials := h8 ▸ granted_only hgr honly
  have hw1 : (step e w redeem).2.store tr.accessToken = some s := by rw [hstep]; exact h2.1
  have hls : LiveSession (World.wait (exec e (step e w redeem).2 between) ask.wait) creq.accessToken subj s t := by
    refine ⟨⟨?_, h2.2⟩, ?_, ?_, h7.trans hsub⟩
    · rw [q2]; exact q11.trans hw1
    · unfold Live; rw [h6]; exact q13
    · rw [h5]; exact q14
  have hctx : Credential.context ask.provider s creq = .ok
      { state := s, issuer := iss, authorized := { identifier := id, configId := cid, claimIds := none }, config := cfg } :=
    Credential.context_ok.2 ⟨rfl, q4, by
      simp [Credential.authorized, h2.2, q3, Dict.get?_of_mem (h8 ▸ authorizedCredentials_nodup _) hmem, orErr],
      Dict.get?_of_mem q5 q6⟩
  obtain ⟨_, hi⟩ := credential_of (P := ask.provider) (e := e)
    (w := World.wait (exec e (step e w redeem).2 between) ask.wait) q12 hls hctx ((h4 ▸ q7 : ProofsFit ask.provider cfg t.cNonce creq did)).checked q8
  obtain ⟨resp, c, w', g1, g2, g3⟩ := hi q9 q10
  refine ⟨resp, c, ?_, g2, ?_⟩
  · rw [step_credential q1, g1]; rfl
  · simpa [Credential.narrowing, q3, Credential.narrow] using g3

/-- **C95**, from an offer to the credential. Everybody can follow a created offer with a pre-authorized code to the end: a registered
in-scope client exchanges the code (with the transaction code, if one is needed), and with the token and nonce it gets, asks for any
credential identifier the Subject provider gave for an offered configuration (and for no other one of the offer); it gets a
credential with the data the Subject provider has for the subject of the offer, bound to the holder who made the proofs. Other calls
may be served in between; the offer and token must not have been used by others, and everything has to happen within five minutes
of the offer. -/
theorem C95_offer_to_credential {e : Env} (he : Env.Fresh e) {w : World State} (hw : Reachable e w) {s : Step}
    {req : CreateOfferRequest} (hreq : s.req = .createOffer req) {oresp : CreateOfferResponse}
    (h : (step e w s).1 = .ok (.createOffer oresp)) (hpre : req.requests .preAuthorizedCode) :
    ∃ subj offer g p, req.subjectId = some subj ∧
      Delivers req.credentialIssuer (step e w s).2.store oresp.offerType offer ∧ offer.grants = some g ∧
      g.preAuthorizedCode = some p ∧
      ∀ (between : List Step) (redeem : Step) (treq : TokenRequest) (client : String) (c : Client) (server : Server)
        (scope : String) (scopes : List String) (supported : List GrantType),
        redeem.req = .token treq →
        treq.grantType = .preAuthorizedCode p.preAuthorizedCode oresp.txCode →
        treq.clientId = some client → client ≠ "" → treq.authorizationDetails = none →
        redeem.provider.server treq.credentialIssuer = some server →
        server.grantTypesSupported = some supported → GrantType.preAuthorizedCode ∈ supported →
        redeem.provider.client client = some c → c.scope = some scope → server.scopesSupported = some scopes →
        (∀ x ∈ splitWs scope, x ∈ scopes) →
        (let w2 := exec e (step e w s).2 between
         w2.store p.preAuthorizedCode ≠ none ∧ (∀ n, n < 3 → e.fault (w2.ops + n) = .ok) ∧
         w2.now + redeem.wait < (w.now + s.wait) + 5 * 60 * sec + sec) →
        ∃ tr nonce, (step e (exec e (step e w s).2 between) redeem).1 = .ok (.token tr) ∧ tr.cNonce = some nonce ∧
          ∀ (cid id : String) (ids : List String), cid ∈ offer.configIds → s.provider.authorize subj cid = some ids → id ∈ ids →
          (∀ cid' ids', cid' ∈ offer.configIds → s.provider.authorize subj cid' = some ids' → id ∈ ids' → cid' = cid) →
          ∀ (between' : List Step) (ask : Step) (creq : CredentialRequest) (iss : Issuer) (cfg : CredentialConfiguration)
            (did : String) (ds : Dataset),
            ask.req = .credential creq → creq.accessToken = tr.accessToken → creq.credential = .identifier id →
            ask.provider.issuer creq.credentialIssuer = some iss → Dict.Nodup iss.configs → (cid, cfg) ∈ iss.configs →
            ProofsFit ask.provider cfg nonce creq did → ask.provider.dataset subj id = some ds → ds.pending = false →
            CanIssue ask.provider iss creq.credentialIssuer cfg subj →
            (let w1 := (step e (exec e (step e w s).2 between) redeem).2
             let w2 := exec e w1 between'
             w2.store tr.accessToken = w1.store tr.accessToken ∧ Working e w2 ∧
             w2.now + ask.wait < (w.now + s.wait) + 5 * 60 * sec + sec) →
            ∃ resp c, (step e (exec e (step e (exec e (step e w s).2 between) redeem).2 between') ask).1 = .ok (.credential resp) ∧
              resp.response = .credential c ∧ IsCredential c cfg.format did ds.claims := by
  obtain ⟨subj, offer, g, p, h1, h2, h3, h4, h5⟩ := C18_offer_redeemable he hw hreq h hpre
  obtain ⟨hids, st, k1, k2, k3, k4, k5⟩ := offer_stored he hreq h hpre h2 rfl h3 h4
  refine ⟨subj, offer, g, p, h1, h2, h3, h4, ?_⟩
  intro between redeem treq client c server scope scopes supported q1 q2 q3 q4 q5 q6 q7 q8 q9 q10 q11 q12 q13
  obtain ⟨tr, l, hok, _⟩ := h5 between redeem treq client c server scope scopes supported q1 q2 q3 q4 q5 q6 q7 q8 q9 q10 q11 q12 q13
  have hst2 : (exec e (step e w s).2 between).store p.preAuthorizedCode = some st := by
    have hfro := ((hw.step s).frozen he k1 k2).exec he between
    cases hc : (exec e (step e w s).2 between).store p.preAuthorizedCode with
    | none => exact absurd hc q13.1
    | some v => rw [hfro.same v hc]
  obtain ⟨nonce, hn, hall⟩ := C95_token_gets_credential q1 hok q5 (st := st) (by rw [q2]; exact hst2) (k3.trans h1)
  refine ⟨tr, nonce, hok, hn, ?_⟩
  intro cid id ids r1 r2 r3 r4 between' ask creq iss cfg did ds p1 p2 p3 p4 p5 p6 p7 p8 p9 p10 ⟨p11, p12, p13⟩
  rw [hids] at r1 r4
  refine hall cid id ((k5 subj h1 cid id).2 ⟨r1, ids, r2, r3⟩) ?_ between' ask creq iss cfg did ds p1 p2 p3 p4 p5 p6 p7 p8 p9 p10
    ⟨p11, p12, ?_, ?_⟩
  · intro cid' hc
    obtain ⟨b1, ids', b2, b3⟩ := (k5 subj h1 cid' id).1 hc
    exact r4 cid' ids' b1 b2 b3
  · rw [k4]; exact p13
  · have hmono := exec_now_le e (step e w s).2 between
    rw [step_now] at hmono
    simp only [sec] at p13 ⊢
    omega

/-- C95 applies to the demo offer: it is redeemed after four minutes, the credential requested after fifty seconds more. -/
example : ∃ tr resp c, (step Demo.env Demo.offered (Demo.redeemStep 240000000000 (Demo.tokenReq (Demo.rng 0)))).1 = .ok (.token tr) ∧
    (step Demo.env (exec Demo.env (step Demo.env Demo.offered (Demo.redeemStep 240000000000 (Demo.tokenReq (Demo.rng 0)))).2
      [Demo.other]) (Demo.askStep 50000000000 tr.accessToken (Demo.rng 3))).1 = .ok (.credential resp) ∧
    resp.response = .credential c ∧ c.Says (some "did:web:holder") (Demo.data false).claims := by
  obtain ⟨subj, offer, g, p, h1, h2, h3, h4, h⟩ := C95_offer_to_credential Demo.env_fresh (w := start 0) ⟨0, [], rfl⟩
    (s := Demo.other) rfl (oresp := _) rfl ⟨_, rfl, .head _⟩
  cases h1; cases h2; cases h3; cases h4
  obtain ⟨tr, nonce, r1, r2, r3⟩ := h [] (Demo.redeemStep 240000000000 (Demo.tokenReq (Demo.rng 0)))
    _ _ _ _ _ _ _ rfl rfl rfl (by decide) rfl rfl rfl (by decide) rfl rfl rfl (by decide) ⟨by decide, fun _ _ => rfl, by decide⟩
  cases r1; cases r2
  obtain ⟨resp, c, q1, q2, q3⟩ := r3 "Employee" "emp-1" ["emp-1"] (.head _) rfl (.head _)
    (fun cid' ids' h _ _ => by cases h with | head => rfl | tail _ h => cases h) [Demo.other]
    (Demo.askStep 50000000000 _ (Demo.rng 3)) _ Demo.issuer Demo.employee "did:web:holder" (Demo.data false) rfl rfl rfl rfl
    Demo.configs_nodup (.head _) (Demo.proofsFit _ _ _) rfl rfl (Demo.canIssue _) ⟨rfl, Demo.working _, by decide⟩
  exact ⟨_, resp, c, rfl, q1, q2, q3⟩

/-- A credential configuration a request was granted: one that a detail asks for, or one that has the first value of its scope. -/
def GrantedBy (iss : Issuer) (r : RequestObject) (granted : String → Prop) : Prop :=
  (∀ ds d, r.authorizationDetails = some ds → d ∈ ds → ∃ cid, Asks iss d cid ∧ granted cid) ∧
  (∀ scope item rest, r.scope = some scope → splitWs scope = item :: rest →
    ∀ cid cfg, (cid, cfg) ∈ iss.configs → cfg.scope = some item →
      (∀ ds d, r.authorizationDetails = some ds → d ∈ ds → ¬ Asks iss d cid) → granted cid)

/-- **C96**, from an authorization to the credential. The client that was given an authorization code exchanges it with the redirect
URI of its request and a verifier for the challenge; with the token and nonce it gets, it asks for any credential identifier the
Subject provider gave for a configuration it had requested, by detail or by scope (and for no other configuration); and gets a
credential with the data the Subject provider has for the authorized subject, bound to the holder who made the proofs. -/
theorem C96_authorization_to_credential {e : Env} (he : Env.Fresh e) {w : World State} (hw : Reachable e w) {s : Step}
    {request : AuthorizationRequest} (hreq : s.req = .authorize request) {aresp : AuthorizationResponse}
    (h : (step e w s).1 = .ok (.authorize aresp)) :
    ∃ r iss, request.DenotesIn (World.wait w s.wait) r ∧ s.provider.issuer r.credentialIssuer = some iss ∧
      ∀ (between : List Step) (redeem : Step) (verifier : String) (treq : TokenRequest),
        redeem.req = .token treq → treq.authorizationDetails = none →
        treq.credentialIssuer = r.credentialIssuer → treq.clientId = some r.clientId →
        treq.grantType = .authorizationCode aresp.code r.redirectUri (some verifier) →
        redeem.provider.codeChallenge verifier = r.codeChallenge →
        redeem.provider.client r.clientId = s.provider.client r.clientId →
        redeem.provider.server r.credentialIssuer = s.provider.server r.credentialIssuer →
        (let w2 := exec e (step e w s).2 between
         w2.store aresp.code ≠ none ∧ (∀ n, n < 3 → e.fault (w2.ops + n) = .ok) ∧
         w2.now + redeem.wait < (w.now + s.wait) + 5 * 60 * sec + sec) →
        ∃ tr nonce, (step e (exec e (step e w s).2 between) redeem).1 = .ok (.token tr) ∧ tr.cNonce = some nonce ∧
          GrantedBy iss r fun cid => ∀ (id : String) (ids : List String),
            s.provider.authorize r.subjectId cid = some ids → id ∈ ids →
            (∀ cid' ids', s.provider.authorize r.subjectId cid' = some ids' → id ∈ ids' → cid' = cid) →
            ∀ (between' : List Step) (ask : Step) (creq : CredentialRequest) (iss' : Issuer) (cfg : CredentialConfiguration)
              (did : String) (ds : Dataset),
              ask.req = .credential creq → creq.accessToken = tr.accessToken → creq.credential = .identifier id →
              ask.provider.issuer creq.credentialIssuer = some iss' → Dict.Nodup iss'.configs → (cid, cfg) ∈ iss'.configs →
              ProofsFit ask.provider cfg nonce creq did → ask.provider.dataset r.subjectId id = some ds → ds.pending = false →
              CanIssue ask.provider iss' creq.credentialIssuer cfg r.subjectId →
              (let w1 := (step e (exec e (step e w s).2 between) redeem).2
               let w2 := exec e w1 between'
               w2.store tr.accessToken = w1.store tr.accessToken ∧ Working e w2 ∧
               w2.now + ask.wait < (w.now + s.wait) + 5 * 60 * sec + sec) →
              ∃ resp c,
                (step e (exec e (step e (exec e (step e w s).2 between) redeem).2 between') ask).1 = .ok (.credential resp) ∧
                resp.response = .credential c ∧ IsCredential c cfg.format did ds.claims := by
  obtain ⟨r, hden, h5⟩ := C10_code_redeemable he hw hreq h
  obtain ⟨st, iss, k1, k2, k3, k4, k5, k6, k7, k8⟩ := code_stored he hw hreq h hden
  refine ⟨r, iss, hden, k5, ?_⟩
  intro between redeem verifier treq q1 q0 q2 q3 q4 q5 q6 q7 q8
  obtain ⟨tr, hok⟩ := h5 between redeem verifier treq q1 q2 q3 q4 q5 q6 q7 q8
  have hst2 : (exec e (step e w s).2 between).store aresp.code = some st := by
    have hfro := ((hw.step s).frozen he k1 k2).exec he between
    cases hc : (exec e (step e w s).2 between).store aresp.code with
    | none => exact absurd hc q8.1
    | some v => rw [hfro.same v hc]
  obtain ⟨nonce, hn, hall⟩ := C95_token_gets_credential q1 hok q0 (st := st) (by rw [q4]; exact hst2) k3
  refine ⟨tr, nonce, hok, hn, ?_⟩
  have fin : ∀ cid, (∀ ids, s.provider.authorize r.subjectId cid = some ids → ∀ id ∈ ids, st.grants cid id) →
      ∀ (id : String) (ids : List String), s.provider.authorize r.subjectId cid = some ids → id ∈ ids →
        (∀ cid' ids', s.provider.authorize r.subjectId cid' = some ids' → id ∈ ids' → cid' = cid) →
        ∀ (between' : List Step) (ask : Step) (creq : CredentialRequest) (iss' : Issuer) (cfg : CredentialConfiguration)
          (did : String) (ds : Dataset),
          ask.req = .credential creq → creq.accessToken = tr.accessToken → creq.credential = .identifier id →
          ask.provider.issuer creq.credentialIssuer = some iss' → Dict.Nodup iss'.configs → (cid, cfg) ∈ iss'.configs →
          ProofsFit ask.provider cfg nonce creq did → ask.provider.dataset r.subjectId id = some ds → ds.pending = false →
          CanIssue ask.provider iss' creq.credentialIssuer cfg r.subjectId →
          (let w1 := (step e (exec e (step e w s).2 between) redeem).2
           let w2 := exec e w1 between'
           w2.store tr.accessToken = w1.store tr.accessToken ∧ Working e w2 ∧
           w2.now + ask.wait < (w.now + s.wait) + 5 * 60 * sec + sec) →
          ∃ resp c,
            (step e (exec e (step e (exec e (step e w s).2 between) redeem).2 between') ask).1 = .ok (.credential resp) ∧
            resp.response = .credential c ∧ IsCredential c cfg.format did ds.claims := by
    intro cid hgr id ids r1 r2 r3 between' ask creq iss' cfg did ds p1 p2 p3 p4 p5 p6 p7 p8 p9 p10 ⟨p11, p12, p13⟩
    refine hall cid id (hgr ids r1 id r2) ?_ between' ask creq iss' cfg did ds p1 p2 p3 p4 p5 p6 p7 p8 p9 p10 ⟨p11, p12, ?_, ?_⟩
    · intro cid' hc
      obtain ⟨ids', b2, b3⟩ := k6 cid' id hc
      exact r3 cid' ids' b2 b3
    · rw [k4]; exact p13
    · have hmono := exec_now_le e (step e w s).2 between
      rw [step_now] at hmono
      simp only [sec] at p13 ⊢
      omega
  constructor
  · intro l d hl hd
    obtain ⟨cid, hask, hgr⟩ := k7 l d hl hd
    exact ⟨cid, hask, fin cid hgr⟩
  · intro scope item rest hsc hsp cid cfg hcfg hcs hnot
    exact fin cid (k8 scope item rest hsc hsp cid cfg hcfg hcs hnot)

/-- C96 applies to the demo authorization. -/
example : ∃ tr resp c, (step Demo.env Demo.authorized (Demo.redeemStep 240000000000 (Demo.codeReq (Demo.rng 0)))).1 = .ok (.token tr) ∧
    (step Demo.env (exec Demo.env (step Demo.env Demo.authorized (Demo.redeemStep 240000000000 (Demo.codeReq (Demo.rng 0)))).2
      [Demo.other]) (Demo.askStep 50000000000 tr.accessToken (Demo.rng 2))).1 = .ok (.credential resp) ∧
    resp.response = .credential c ∧ c.Says (some "did:web:holder") (Demo.data false).claims := by
  obtain ⟨r, iss, h1, h2, h⟩ := C96_authorization_to_credential Demo.env_fresh (w := start 0) ⟨0, [], rfl⟩
    (s := { provider := Demo.provider, req := .authorize (.object Demo.authReq) }) rfl (aresp := _) rfl
  cases h1; cases h2
  obtain ⟨tr, nonce, r1, r2, r3, _⟩ := h [] (Demo.redeemStep 240000000000 (Demo.codeReq (Demo.rng 0)))
    "verifier" _ rfl rfl rfl rfl rfl rfl rfl rfl ⟨by decide, fun _ _ => rfl, by decide⟩
  cases r1; cases r2
  obtain ⟨cid, hask, r4⟩ := r3 _ _ rfl (.head _)
  cases hask
  obtain ⟨resp, c, q1, q2, q3⟩ := r4 "emp-1" ["emp-1"] rfl (.head _) (by
      intro cid' ids' h hm
      simp only [Demo.provider, Demo.authReq, if_true] at h
      split at h
      · assumption
      · split at h <;> cases h
        simp at hm) [Demo.other]
    (Demo.askStep 50000000000 _ (Demo.rng 2)) _ Demo.issuer Demo.employee "did:web:holder" (Demo.data false) rfl rfl rfl rfl
    Demo.configs_nodup (.head _) (Demo.proofsFit _ _ _) rfl rfl (Demo.canIssue _) ⟨rfl, Demo.working _, by decide⟩
  exact ⟨_, resp, c, rfl, q1, q2, q3⟩

/-- **C97**. A request that would be served (C93), but for which the Subject provider's data are pending, gets a transaction id; and
with that id, the same access token and nothing else, the holder collects the credential once the data are there: at any later time
at which the transaction (fifteen minutes), the token and the nonce of the original proofs are still live, whatever else was served
in between, provided nobody used the transaction id and the session is as it was. -/
theorem C97_deferred_credential_collected {e : Env} (he : Env.Fresh e) {w : World State} (hw : Reachable e w) {ask : Step}
    {creq : CredentialRequest} (hreq : ask.req = .credential creq) (hst : Working e (World.wait w ask.wait)) {subj : String}
    {s : State} {t : Token} (hs : LiveSession (World.wait w ask.wait) creq.accessToken subj s t) {iss : Issuer}
    (hiss : ask.provider.issuer creq.credentialIssuer = some iss) (hn : Dict.Nodup iss.configs) (hnt : Dict.Nodup t.credentials)
    {id : String} (hid : creq.credential = .identifier id) {auth : Authorized} (hauth : (id, auth) ∈ t.credentials)
    {cfg : CredentialConfiguration} (hcfg : (auth.configId, cfg) ∈ iss.configs) {did : String}
    (hp : ProofsFit ask.provider cfg t.cNonce creq did) {ds : Dataset}
    (hd : ask.provider.dataset subj auth.identifier = some ds) (hpend : ds.pending = true) :
    ∃ txn, (step e w ask).1 = .ok (.credential { response := .transactionId txn }) ∧
      ∀ (between : List Step) (collect : Step) (dreq : DeferredRequest) (iss' : Issuer) (cfg' : CredentialConfiguration)
        (did' : String) (ds' : Dataset),
        collect.req = .deferred dreq → dreq.transactionId = txn → dreq.accessToken = creq.accessToken →
        collect.provider.issuer dreq.credentialIssuer = some iss' → Dict.Nodup iss'.configs →
        (auth.configId, cfg') ∈ iss'.configs → ProofsFit collect.provider cfg' t.cNonce creq did' →
        collect.provider.dataset subj auth.identifier = some ds' → ds'.pending = false →
        CanIssue collect.provider iss' dreq.credentialIssuer cfg' subj →
        (let w2 := exec e (step e w ask).2 between
         w2.store txn ≠ none ∧ w2.store creq.accessToken = w.store creq.accessToken ∧ Working e w2 ∧
         w2.now + collect.wait < (w.now + ask.wait) + 15 * 60 * sec + sec ∧
         w2.now + collect.wait < s.expiresAt + sec ∧ w2.now + collect.wait < t.cNonceExpiresAt + sec) →
        ∃ resp c claims, (step e (exec e (step e w ask).2 between) collect).1 = .ok (.deferred resp) ∧
          resp.response = .credential c ∧ IsCredential c cfg'.format did' claims ∧
          ∀ k v, (k, v) ∈ claims ↔ (k, v) ∈ ds'.claims ∧ ∀ ids, auth.claimIds = some ids → k ∈ ids := by
  obtain ⟨txn, w1, hrun⟩ := (C93_credential_issued hst hs hiss hn hnt hid hauth hcfg hp hd).1 hpend
  refine ⟨txn, by rw [step_credential hreq]; exact map_ok.2 ⟨_, by rw [hrun], rfl⟩, ?_⟩
  intro between collect dreq iss' cfg' did' ds' q1 q2 q3 q4 q5 q6 q7 q8 q9 q10 ⟨q11, q12, q13, q14, q15, q16⟩
  have hw1 : (step e w ask).2 = w1 := by rw [step_credential hreq]; show _ = w1; rw [hrun]
  obtain ⟨s', ctx, t', did0, ds0, -, hs', -, -, -, -, -, -, hcase⟩ := credential_ok_iff.1 hrun
  have htx : txn = e.rng w.drawn ∧ w1.store txn = some (Credential.deferredState txn creq (w.now + ask.wait)) := by
    rcases hcase with ⟨_, _, hr, hw'⟩ | ⟨_, c, _, _, _, hr, _⟩
    · cases hr; subst hw'
      exact ⟨rfl, upd_same ..⟩
    · cases hr
  obtain ⟨htx, hst1⟩ := htx
  have hfz := ((hw.step ask).frozen he (by rw [hw1]; exact hst1) (by rintro ⟨t, h⟩; cases h)).exec he between
  have hst2 : (exec e (step e w ask).2 between).store txn = some (Credential.deferredState txn creq (w.now + ask.wait)) := by
    cases hc : (exec e (step e w ask).2 between).store txn with
    | none => exact absurd hc q11
    | some v => rw [hfz.same v hc]
  have hne : creq.accessToken ≠ txn := by
    intro heq
    have hu := (hw.unused he (Nat.le_refl _)).1
    rw [← htx, ← heq] at hu
    have := hs.session.1
    rw [show (World.wait w ask.wait).store = w.store from rfl, hu] at this
    cases this
  have hses : Session (World.wait w ask.wait) creq.accessToken s t := hs.session
  obtain ⟨resp, c, w3, claims, r1, r2, r3, r4⟩ := (C93_credential_issued
    (P := collect.provider) (req := { creq with credentialIssuer := dreq.credentialIssuer, accessToken := dreq.accessToken }) (e := e)
    (w := { World.wait (exec e (step e w ask).2 between) collect.wait with
      store := upd (exec e (step e w ask).2 between).store txn none
      ops := (exec e (step e w ask).2 between).ops + 2 })
    (fun n hn => q13 n (Nat.le_trans (Nat.le_add_right _ 2) hn)) (s := s) (t := t) (subj := subj)
    ⟨⟨by
      show upd _ txn none dreq.accessToken = some s
      rw [q3, upd_other _ _ hne, q12]; exact hses.1, hses.2⟩, q15, q16, hs.subject⟩
    q4 q5 hnt hid hauth q6 q7 q8).2 q9 q10
  refine ⟨resp, c, claims, ?_, r2, r3, r4⟩
  rw [step_deferred q1]
  refine map_ok.2 ⟨_, ?_, rfl⟩
  have hrun2 : (deferred collect.provider dreq).run e (World.wait (exec e (step e w ask).2 between) collect.wait) = (.ok resp, w3) :=
    deferred_ok_iff.2 ⟨Credential.deferredState txn creq (w.now + ask.wait), txn, creq, q13 _ (Nat.le_refl _), q13 _ (Nat.le_succ _), by rw [q2]; exact hst2, q14, rfl,
      by rw [q2]; exact r1, c, r2⟩
  rw [hrun2]

/-- C97 applies to the demo session: the data are pending, and there ninety seconds later. -/
example : ∃ txn resp c claims,
    (step Demo.env Demo.validated (Demo.askStep 0 (Demo.rng 2) (Demo.rng 3) true)).1 =
      .ok (.credential { response := .transactionId txn }) ∧
    (step Demo.env (exec Demo.env (step Demo.env Demo.validated (Demo.askStep 0 (Demo.rng 2) (Demo.rng 3) true)).2 [Demo.other])
      (Demo.collectStep 90000000000 (Demo.rng 2) txn)).1 = .ok (.deferred resp) ∧
    resp.response = .credential c ∧ c.Says (some "did:web:holder") claims ∧ ("email", Json.str "n@example.com") ∈ claims := by
  obtain ⟨s, t, auth, hs, hn, hnt, hm, hc, hi, hcl, hx1, hx2⟩ := Demo.liveSession
  obtain ⟨txn, h1, h⟩ := C97_deferred_credential_collected Demo.env_fresh (w := Demo.validated)
    (ask := Demo.askStep 0 (Demo.rng 2) (Demo.rng 3) true) (Reachable.step (w := Demo.offered) ⟨0, [Demo.other], rfl⟩ (Demo.redeemStep 0 (Demo.tokenReq (Demo.rng 0)))) rfl
    (Demo.working _) hs (iss := Demo.issuer) rfl
    Demo.configs_nodup hnt rfl hm (cfg := Demo.employee) (by rw [hc]; exact .head _)
    (by rw [hn]; exact Demo.proofsFit true (Demo.rng 2) (Demo.rng 3)) (ds := Demo.data true) (by rw [hi]; rfl) rfl
  cases h1
  obtain ⟨resp, c, claims, q1, q2, q3, q4⟩ := h [Demo.other] (Demo.collectStep 90000000000 (Demo.rng 2) _) _ Demo.issuer Demo.employee
    "did:web:holder" (Demo.data false) rfl rfl rfl rfl Demo.configs_nodup (by rw [hc]; exact .head _)
    (by rw [hn]; exact Demo.proofsFit false (Demo.rng 2) (Demo.rng 3)) (by rw [hi]; rfl) rfl (Demo.canIssue _)
    ⟨by decide, rfl, Demo.working _, by decide, by
      refine Int.lt_trans (b := 200 * sec) (by decide) (Int.lt_trans hx1 (by simp only [sec]; omega)), by
      refine Int.lt_trans (b := 200 * sec) (by decide) (Int.lt_trans hx2 (by simp only [sec]; omega))⟩
  exact ⟨_, resp, c, claims, rfl, q1, q2, q3, (q4 _ _).2 ⟨.head _, by rw [hcl]; nofun⟩⟩

end Verif.Issuer
