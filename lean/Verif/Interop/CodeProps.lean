import Verif.Interop.CodeLink
/-!
# The wallet asking the issuer for authorization: C105, C106
-/
namespace Verif.Interop
open Verif

/-! ### Specification -/

/-- The issuer `url` describes itself as `md` and its authorization server as `sv`, and lets `client` ask for authorization directly, with answers
going to `redirect`. The wallet uses the first response type and the first challenge method of the server, so there has to be one. -/
structure Authorizes (P : Issuer.Provider) (url : String) (md : Verif.Issuer) (sv : Server) (client redirect : String) : Prop where
  metadata : P.issuer url = some md
  itself : md.credentialIssuer = url
  server : P.server url = some sv
  direct : sv.requirePar ≠ some true
  method : ∃ m ms, sv.codeChallengeMethodsSupported = some (m :: ms)
  grants : ∃ l, sv.grantTypesSupported = some l ∧ GrantType.authorizationCode ∈ l
  client : ∃ c, P.client client = some c ∧ (∃ l, c.grantTypes = some l ∧ GrantType.authorizationCode ∈ l) ∧ Issuer.ScopesSupported c sv ∧
    (∃ us, c.redirectUris = some us ∧ redirect ∈ us) ∧
    ∃ rt rts l, sv.responseTypesSupported = rt :: rts ∧ c.responseTypes = some l ∧ rt ∈ l

/-- The wallet and the issuer compute the same PKCE challenge for a verifier, which has the length of one. -/
structure SamePkce (n : Net) (W : Holder.Provider) : Prop where
  same : ∀ j v, (n.provider j).codeChallenge v = W.codeChallenge v
  size : ∀ v, 43 ≤ (W.codeChallenge v).utf8ByteSize ∧ (W.codeChallenge v).utf8ByteSize ≤ 128

/-- Some of the details asks for configuration `cid`. -/
def Wanted (ds : List AuthorizationDetail) (cid : String) : Prop := ∃ d ∈ ds, ∃ cl, d.credential = .configurationId cid cl

/-- What `d` asks for can be granted to `subj`: it names a configuration, with claims that include the mandatory ones, and the Subject provider
authorizes the credentials `ids` of that configuration. -/
def GrantedAs (n : Net) (md : Verif.Issuer) (subj : String) (ids : String → List String) (d : AuthorizationDetail) : Prop :=
  ∃ cid cl cfg, d.credential = .configurationId cid cl ∧ (cid, cfg) ∈ md.configs ∧ Issuer.ClaimsFit cfg (cl.bind ProfileClaims.claims) ∧
    ∀ j, (n.provider j).authorize subj cid = some (ids cid)

/-- The credentials of these configurations have identifiers of their own. -/
structure Distinct (cids : String → Prop) (ids : String → List String) : Prop where
  once : ∀ cid, cids cid → (ids cid).Nodup
  apart : ∀ cid cid' id, cids cid → cids cid' → id ∈ ids cid → id ∈ ids cid' → cid = cid'

/-- What the issuer gave the wallet in answers: authorization codes and access tokens. -/
inductive Received (log : List Holder.Entry) : String → Prop
  | code (en : Holder.Entry) (q : Issuer.RequestObject) (a : Issuer.AuthorizationResponse) : en ∈ log →
      (⟨.authorization q, some a⟩ : Holder.Event) ∈ en.events → Received log a.code
  | token (en : Holder.Entry) (q : Issuer.TokenRequest) (t : Issuer.TokenResponse) : en ∈ log →
      (⟨.token q, some t⟩ : Holder.Event) ∈ en.events → Received log t.accessToken

/-- The claims of a configuration form a map: a claim listed under a name is the one found under it, at every depth. -/
def IsMap (m : Dict Claim) : Prop := ∀ p c, HasAt m p c → FindAt m p c

/-- The calls that take a wallet from a credential offer to stored credentials by way of the authorization endpoint: taking in the offer, accepting
it, entering the transaction code if there is one, asking for authorization (and a token), collecting the credentials one at a time, saving them. -/
def authorizeCalls (k : String) (offer : Holder.OfferRequest) (txCode : Option String) (redirect : String) (want : List String) : List Holder.Req :=
  [.offer offer, .accept ⟨k, none⟩] ++ (match txCode with | some p => [.pin ⟨k, p⟩] | none => []) ++
    [.authorize ⟨.issuer k, some redirect, none⟩] ++ want.map (fun id => .credentials ⟨k, some [id], none⟩) ++ [.save k]

/-- What the issuer gave the wallet in an offer to prove that it answers that offer. -/
def StateOf (offer : Issuer.CredentialOffer) (key : String) : Prop :=
  ∃ g a, offer.grants = some g ∧ g.authorizationCode = some a ∧ a.issuerState = some key

/-! ### Helpers -/

theorem FindAt.unique {m : Dict Claim} {p : List String} {c c' : Claim} (h : FindAt m p c) (h' : FindAt m p c') : c = c' := by
  induction h with
  | here m k c hk =>
    generalize hp : [k] = p at h'
    cases h' with
    | here _ k' _ hk' => cases hp; rw [hk] at hk'; exact Option.some.inj hk'
    | nested _ m' k' p' _ _ h2 => cases hp; exact absurd rfl h2.ne_nil
  | nested m m' k p c hk hp ih =>
    generalize hq : k :: p = q at h'
    cases h' with
    | here _ k' _ hk' => cases hq; exact absurd rfl hp.ne_nil
    | nested _ m'' k' p' _ hk' h2 =>
      cases hq
      rw [hk] at hk'; cases hk'
      exact ih h2

theorem IsMap.meets {m : Dict Claim} (h : IsMap m) : MeetsMandatory m m where
  mandatory p d hd _ := ⟨_, h p _ hd⟩
  nested p m' hm c hc := ⟨m', FindAt.unique hc (h p _ hm)⟩

/-- The details for a whole offer are the offered configurations, with all their claims. -/
theorem offerDetails_ok {configs : Dict CredentialConfiguration} {ids : List String} (h : ∀ id ∈ ids, ∃ c, configs.get? id = some c) :
    ∃ ds, Holder.offerDetails configs ids = .ok ds ∧ ds.length = ids.length ∧
      (∀ d ∈ ds, ∃ id ∈ ids, ∃ c, configs.get? id = some c ∧ d.credential = .configurationId id (Holder.formatClaims c.format)) ∧
      ∀ id ∈ ids, ∃ d ∈ ds, ∃ cl, d.credential = .configurationId id cl := by
  induction ids with
  | nil => exact ⟨[], rfl, rfl, by simp, by simp⟩
  | cons id ids ih =>
    obtain ⟨c, hc⟩ := h id (.head _)
    obtain ⟨ds, h1, h0, h2, h3⟩ := ih fun x hx => h x (.tail _ hx)
    refine ⟨⟨.configurationId id (Holder.formatClaims c.format)⟩ :: ds, ?_, by simp [h0], ?_, ?_⟩
    · simp [Holder.offerDetails, hc, Holder.need, Holder.ok_bind, h1, Holder.ok_pure]
    · intro d hd
      rcases List.mem_cons.1 hd with rfl | hd
      · exact ⟨id, .head _, c, hc, rfl⟩
      · obtain ⟨x, hx, h4⟩ := h2 d hd
        exact ⟨x, .tail _ hx, h4⟩
    · intro x hx
      rcases List.mem_cons.1 hx with rfl | hx
      · exact ⟨_, .head _, _, rfl⟩
      · obtain ⟨d, hd, h4⟩ := h3 x hx
        exact ⟨d, .tail _ hd, h4⟩

theorem formatClaims_claims (f : Format) : (Holder.formatClaims f).bind ProfileClaims.claims = f.claims := by
  cases f with
  | jwtVcJson d | ldpVc d | jwtVcJsonLd d => obtain ⟨_, c⟩ := d; cases c <;> rfl
  | isoMdl _ c | vcSdJwt _ c => cases c <;> rfl

theorem Received.mono {a b : List Holder.Entry} (h : ∀ en ∈ a, en ∈ b) {k : String} (hk : Received a k) : Received b k := by
  cases hk with
  | code en q r h1 h2 => exact .code en q r (h en h1) h2
  | token en q r h1 h2 => exact .token en q r (h en h1) h2

/-- The detail of an item. -/
def detailOf (it : Issuer.AuthorizedItem) : Option Issuer.AuthorizedDetail :=
  match it.item with
  | .detail d => some { detail := d, identifiers := it.identifiers }
  | .scope _ => none

theorem authorizedDetails_all {items : List Issuer.AuthorizedItem} (hne : items ≠ []) (h : ∀ it ∈ items, ∃ d, it.item = .detail d) :
    ∃ l, Issuer.Token.authorizedDetails items = some l ∧ l.map (·.identifiers) = items.map (·.identifiers) ∧
      (∀ d ∈ l, ∃ it ∈ items, it.item = .detail d.detail ∧ it.identifiers = d.identifiers) ∧
      ∀ it ∈ items, ∃ d ∈ l, it.item = .detail d.detail ∧ it.identifiers = d.identifiers := by
  have key : ∀ items : List Issuer.AuthorizedItem, (∀ it ∈ items, ∃ d, it.item = .detail d) →
      ∃ l : List Issuer.AuthorizedDetail, items.filterMap detailOf = l ∧ l.map (·.identifiers) = items.map (·.identifiers) ∧
      (∀ d ∈ l, ∃ it ∈ items, it.item = .detail d.detail ∧ it.identifiers = d.identifiers) ∧
      ∀ it ∈ items, ∃ d ∈ l, it.item = .detail d.detail ∧ it.identifiers = d.identifiers := by
    intro items h
    induction items with
    | nil => exact ⟨[], rfl, rfl, by simp, by simp⟩
    | cons it items ih =>
      obtain ⟨d, hd⟩ := h it (.head _)
      obtain ⟨l, h1, h2, h3, h4⟩ := ih fun x hx => h x (.tail _ hx)
      refine ⟨⟨d, it.identifiers⟩ :: l, by simp [detailOf, hd, ← h1], by simp [h2], ?_, ?_⟩
      · intro d' hd'
        rcases List.mem_cons.1 hd' with rfl | hd'
        · exact ⟨it, .head _, hd, rfl⟩
        · obtain ⟨x, hx, h5⟩ := h3 d' hd'
          exact ⟨x, .tail _ hx, h5⟩
      · intro it' hit'
        rcases List.mem_cons.1 hit' with rfl | hit'
        · exact ⟨_, .head _, hd, rfl⟩
        · obtain ⟨x, hx, h5⟩ := h4 it' hit'
          exact ⟨x, .tail _ hx, h5⟩
  obtain ⟨l, h1, h2, h3, h4⟩ := key items h
  refine ⟨l, ?_, h2, h3, h4⟩
  have hd : Issuer.Token.authorizedDetails items = (if (items.filterMap detailOf).isEmpty then none else some (items.filterMap detailOf)) := rfl
  rw [hd, h1]
  cases l with
  | nil =>
    rw [List.map_nil, eq_comm, List.map_eq_nil_iff] at h2
    exact absurd h2 hne
  | cons d l => rfl

theorem items_nodup {items : List Issuer.AuthorizedItem} {cids : String → Prop} {ids : String → List String} (hd : Distinct cids ids)
    (hn : (items.map (·.configId)).Nodup) (hc : ∀ it ∈ items, cids it.configId) (hi : ∀ it ∈ items, it.identifiers = ids it.configId) :
    ((items.map (·.identifiers)).flatten).Nodup := by
  induction items with
  | nil => simp
  | cons it items ih =>
    simp only [List.map_cons, List.nodup_cons, List.mem_map, not_exists, not_and] at hn
    simp only [List.map_cons, List.flatten_cons, List.nodup_append]
    refine ⟨?_, ih hn.2 (fun x hx => hc x (.tail _ hx)) fun x hx => hi x (.tail _ hx), ?_⟩
    · rw [hi it (.head _)]; exact hd.once _ (hc it (.head _))
    · rintro a ha b hb rfl
      obtain ⟨l, hl, hal⟩ := List.mem_flatten.1 hb
      obtain ⟨x, hx, rfl⟩ := List.mem_map.1 hl
      rw [hi it (.head _)] at ha
      rw [hi x (.tail _ hx)] at hal
      exact hn.1 x hx (hd.apart _ _ a (hc x (.tail _ hx)) (hc it (.head _)) hal ha)

/-- The wallet's authorization succeeds and leaves it with a flow that belongs to the issuer's session. -/
theorem authorize_links {n : Net} (hfresh : Issuer.Env.Fresh n.env) {w1 : World Issuer.State} (hreach : Issuer.Reachable n.env w1) {skip : Nat}
    {e : Holder.HEnv} (ho : e.oracle = n.oracle w1 skip) (hf : ∀ m, e.fault m = .ok) (hfi : ∀ m, n.env.fault m = .ok) {W : Holder.Provider}
    (hp : SamePkce n W) {url : String} {md : Verif.Issuer} {sv : Server} {client redirect : String}
    (hauth : ∀ j, Authorizes (n.provider j) url md sv client redirect) (hnd : Dict.Nodup md.configs) {subj : String} (hsubj : subj ≠ "")
    {ds : List AuthorizationDetail} (hne : ds ≠ []) {ids : String → List String} (hgr : ∀ d ∈ ds, GrantedAs n md subj ids d)
    (hdist : Distinct (Wanted ds) ids) {hw : Holder.HWorld} (hskip : skip ≤ hw.log.length) {st : Holder.HStep} {req : Holder.AuthorizeRequest}
    (hst : st.provider = W) (hreq : st.req = .authorize req) (hredir : req.redirectUri = some redirect) (hscope : req.initiator.scope = none)
    {i : Holder.Issuance} {wS : Holder.HWorld} (hstart : (Holder.startFlow req).run e (Holder.before hw st) = (.ok i, wS))
    (hnosave : ∀ ev ∈ wS.recent, ∀ c, ev.call ≠ .save c) (i1 : i.clientId = client) (i2 : i.subjectId = subj) (i3 : i.issuer = md)
    (i4 : i.server = sv) (i5 : i.scope = none) (i6 : i.deferred = []) (i7 : i.notificationId = none)
    (hdet : Holder.requestDetails { i with accepted := req.authorizationDetails } req = .ok (some ds)) {keys : String → Prop}
    (hstate : ∀ x, Holder.offeredState i req.initiator = some x → keys x ∧
      ∃ s, (n.after w1 (Net.made skip hw.log wS.recent)).2.store x = some s ∧ w1.now + 5 * 60 * Issuer.sec ≤ s.expiresAt ∧ s.subjectId = some subj)
    (hkeys : ∀ key, Received ((Holder.step e hw st).2.log.drop hw.log.length) key → keys key)
    (hquiet : ∀ pre, pre <+: Net.made skip (Holder.step e hw st).2.log [] → Undisturbed n w1 pre keys) :
    ∃ l creds i' s t tok en, (∃ r, en.result = .ok r) ∧ (Holder.step e hw st).2.log = hw.log ++ [en] ∧ (∀ ev ∈ en.events, ∀ c, ev.call ≠ .save c) ∧
      keys tok ∧ Linked md subj i.id tok l creds (w1.now + 5 * 60 * Issuer.sec) (Holder.step e hw st).2
        (n.after w1 (Net.made skip (Holder.step e hw st).2.log [])).2 i' s t ∧ i'.credentials = i.credentials ∧ Dict.Nodup creds ∧
      (∀ d ∈ l, Holder.Known md d) ∧ (l.flatMap (·.identifiers)).Nodup ∧
      ∀ cid, Wanted ds cid → ∀ id ∈ ids cid, ∃ d ∈ l, ∃ cl, d.detail.credential = .configurationId cid cl ∧ id ∈ d.identifiers ∧
        (id, ({ identifier := id, configId := cid, claimIds := none } : Issuer.Authorized)) ∈ creds := by
  obtain ⟨m, ms, hmeth⟩ := (hauth 0).method
  obtain ⟨gl, hgl, hgm⟩ := (hauth 0).grants
  have hrts : ∃ rt rts, sv.responseTypesSupported = rt :: rts := by
    obtain ⟨_, _, _, _, _, rt, rts, _, h, _⟩ := (hauth 0).client
    exact ⟨rt, rts, h⟩
  obtain ⟨rt, rts, hrt⟩ := hrts
  have hlogS : wS.log = hw.log := by
    have := Holder.run_log e (Holder.startFlow req) (Holder.before hw st)
    rw [hstart] at this; exact this
  generalize hv : e.rng wS.drawn = v
  -- the request for authorization
  obtain ⟨r, hr, r1, r2, r3, r4, r5, r6, r7, r8, r9, r10⟩ : ∃ r, Holder.authorizationRequest (Holder.authorizing W v i req) req = .ok r ∧
      r.credentialIssuer = url ∧ r.responseType = rt ∧ r.clientId = client ∧ r.redirectUri = some redirect ∧ r.codeChallenge = W.codeChallenge v ∧
      r.codeChallengeMethod = m ∧ r.authorizationDetails = some ds ∧ r.scope = none ∧ r.subjectId = subj ∧
      r.issuerState = Holder.offeredState i req.initiator := by
    have hdet' : Holder.requestDetails (Holder.authorizing W v i req) req = .ok (some ds) := by
      rw [← hdet]
      unfold Holder.requestDetails Holder.authorizationDetails
      rfl
    refine ⟨_, by
      simp only [Holder.authorizationRequest, hdet', Holder.ok_bind]
      simp only [Holder.authorizing, Holder.need, i4, hmeth, hrt, Holder.first, Holder.ok_bind, Holder.ok_pure]
      rfl, ?_⟩
    refine ⟨by rw [i3]; exact (hauth 0).itself, rfl, i1, hredir, rfl, rfl, rfl, hscope, i2, rfl⟩
  have hserveq : st.provider = W := hst
  obtain ⟨⟨evs0, hask0⟩, hask1⟩ := Holder.authorize_asks (e := e) (w := Holder.before hw st) (P := W) hstart (by rw [hv]; exact hr)
  have hsteplog := Holder.step_log e hw st
  rw [hreq, hst] at hsteplog
  change (Holder.step e hw st).2.log = hw.log ++ [⟨W, hw.now + st.wait, .authorize req, ((Holder.authorize W req).run e (Holder.before hw st)).1,
    ((Holder.authorize W req).run e (Holder.before hw st)).2.recent⟩] at hsteplog
  have hmadestep : Net.made skip (Holder.step e hw st).2.log [] =
      Net.made skip hw.log [] ++ (((Holder.authorize W req).run e (Holder.before hw st)).2.recent).map Holder.Event.call := by
    rw [hsteplog, Net.made_snoc hskip]
  generalize hA : Net.made skip hw.log wS.recent = A at *
  have hAx : A = Net.made skip hw.log [] ++ wS.recent.map Holder.Event.call := by rw [← hA, Net.made_recent]
  have hpre0 : A <+: Net.made skip (Holder.step e hw st).2.log [] := by
    rw [hmadestep, hask0, hAx]
    simp
  have q0 := hquiet A hpre0
  have q0i := q0.intact
  have q0t := q0.intime
  -- the issuer authorizes
  obtain ⟨la, hla⟩ := n.arrival_exec w1 A
  have hnow0 := n.arrival_now w1 A
  generalize hix : (n.after w1 A).1 = ix at *
  generalize hax : (n.after w1 A).2 = ax at *
  have hreachA : Issuer.Reachable n.env (n.arrival ix ax) := by rw [hla]; exact hreach.exec la
  have hgr' : Issuer.Grantable (n.provider ix) md r := by
    refine ⟨?_, ?_, .inl ⟨ds, r7, hne⟩⟩
    · intro ds' d h1 h2
      rw [r7] at h1; cases h1
      obtain ⟨cid, cl, cfg, g1, g2, g3, g4⟩ := hgr d h2
      simp only [Issuer.DetailGrantable, g1, r9]
      exact ⟨⟨_, g4 ix⟩, cfg, g2, g3⟩
    · intro s item rest h1; rw [r8] at h1; cases h1
  obtain ⟨cl, a1, a2, a3, a4, rt', rts', a5, a6, a7, a8⟩ := (hauth ix).client
  rw [hrt] at a6; cases a6
  have hacc : Issuer.Acceptable (n.provider ix) (n.arrival ix ax) r := by
    refine ⟨md, cl, sv, by rw [r1]; exact (hauth ix).metadata, hnd, by rw [r3]; exact a1, by rw [r1]; exact (hauth ix).server,
      ⟨?_, ⟨⟨gl, hgl, hgm⟩, a2⟩, a3, ?_, ⟨_, hmeth, by rw [r6]; exact .head _⟩, by rw [r5]; exact hp.size v, by rw [r9]; exact hsubj, .inl (by rw [r7]; nofun)⟩,
      hgr', ?_⟩
    · exact ⟨by rw [r2, hrt]; exact .head _, a5, a7, by rw [r2]; exact a8⟩
    · obtain ⟨us, h1, h2⟩ := a4
      exact ⟨redirect, us, r4, h1, h2⟩
    · intro x hx
      rw [r10] at hx
      obtain ⟨k1, s, k2, k3, k4⟩ := hstate x hx
      refine ⟨s, by rw [q0i x k1]; exact k2, ?_, by rw [r9]; exact k4⟩
      unfold Issuer.Live
      omega
  obtain ⟨resp, wa, hrunA, _, _⟩ := Issuer.C91_acceptable_request_gets_code (P := n.provider ix) (request := .object r) (e := n.env)
    (w := n.arrival ix ax) (fun _ _ => hfi _) (r := r) rfl hacc (by
      intro sv' h1 h2
      rw [r1, (hauth ix).server] at h1; cases h1
      exact absurd h2 (hauth ix).direct)
  obtain ⟨items, c1, c2, c3, c4, c5, c6⟩ := Issuer.code_items hfresh hreachA hrunA r7 r8 (fun d hd => by
    obtain ⟨cid, cl, _, g1, _⟩ := hgr d hd
    exact ⟨cid, cl, g1⟩)
  have hserveA : n.serve ix ax (.authorize (.object r)) = (.ok (.authorize resp), wa) := by
    have := Issuer.step_authorize (e := n.env) (w := n.arrival ix ax) (s := { provider := n.provider ix, req := .authorize (.object r) }) rfl
    simp only [show Issuer.World.wait (n.arrival ix ax) 0 = n.arrival ix ax from by simp [Issuer.World.wait]] at this
    rw [hrunA] at this
    exact this
  have horA : e.oracle wS.log wS.recent (.authorization r) = some resp := by
    rw [ho, hlogS]
    show n.answer w1 (Net.made skip hw.log wS.recent) _ _ = _
    rw [hA]
    unfold Net.answer
    rw [hix, hax, hserveA]
    rfl
  obtain ⟨evs1, hask1⟩ := hask1 resp horA
  rw [hv] at hask1
  generalize htr : Holder.codeTokenRequest (Holder.authorizing W v i req) req resp = treq at *
  have eB : n.after w1 (A ++ [.authorization r]) = (ix + 1, wa) := by
    rw [n.after_snoc w1 (r := .authorize (.object r)) rfl, hix, hax, hserveA]
  have hpre1 : A ++ [.authorization r] <+: Net.made skip (Holder.step e hw st).2.log [] := by
    rw [hmadestep, hask1, hAx]
    simp
  have q1 := hquiet _ hpre1
  have hin : (⟨W, hw.now + st.wait, .authorize req, ((Holder.authorize W req).run e (Holder.before hw st)).1,
      ((Holder.authorize W req).run e (Holder.before hw st)).2.recent⟩ : Holder.Entry) ∈ (Holder.step e hw st).2.log.drop hw.log.length := by
    rw [hsteplog]; simp
  have hcodek : keys resp.code := hkeys _ (.code _ r resp hin (by simp only [hask1]; simp))
  have i1' := q1.intact _ hcodek
  have t1' := q1.intime
  rw [eB] at i1' t1'
  -- the token
  have hnow1 : wa.now ≤ (n.arrival (ix + 1) wa).now := Issuer.exec_now_le ..
  obtain ⟨cl', b1, _, b3, _⟩ := (hauth (ix + 1)).client
  have hrunT := Issuer.code_token (P := n.provider (ix + 1)) (e := n.env) (w := n.arrival (ix + 1) wa) (fun _ _ => hfi _) (req := treq)
    (code := resp.code) (v := v) (uri := some redirect) (by rw [← htr, ← hredir]; rfl) (r := r) (items := items) (t0 := (n.arrival ix ax).now)
    (by rw [i1']; exact c1) (by simp only [Issuer.authorizedDur, Issuer.sec] at *; omega) (server := sv) (supported := gl)
    (by rw [← htr]; show (n.provider (ix + 1)).server i.issuer.credentialIssuer = _; rw [i3, (hauth 0).itself]; exact (hauth _).server)
    hgl hgm (by rw [← htr, r3, ← i1]; rfl) (client := cl') (by rw [r3]; exact b1) b3 r4.symm (by rw [hp.same, r5])
  generalize htresp : Issuer.Token.response (n.env.rng (n.arrival (ix + 1) wa).drawn) (n.env.rng ((n.arrival (ix + 1) wa).drawn + 1)) items = tresp at *
  have hserveT := Issuer.step_token (e := n.env) (w := n.arrival (ix + 1) wa) (s := { provider := n.provider (ix + 1), req := .token treq }) rfl
  simp only [show Issuer.World.wait (n.arrival (ix + 1) wa) 0 = n.arrival (ix + 1) wa from by simp [Issuer.World.wait]] at hserveT
  rw [hrunT] at hserveT
  change n.serve (ix + 1) wa (.token treq) = (.ok (.token tresp), _) at hserveT
  have horT : e.oracle wS.log (wS.recent ++ [⟨.authorization r, some resp⟩]) (.token treq) = some tresp := by
    rw [ho, hlogS]
    show n.answer w1 (Net.made skip hw.log (wS.recent ++ [⟨.authorization r, some resp⟩])) _ _ = _
    rw [show Net.made skip hw.log (wS.recent ++ [⟨.authorization r, some resp⟩]) = A ++ [.authorization r] from by
      rw [Net.made_recent, hAx]; simp]
    unfold Net.answer
    rw [eB, hserveT]
    rfl
  obtain ⟨l, l1, l2, l3, l4⟩ := authorizedDetails_all c3 (fun it hit => by
    obtain ⟨_, d, _, h, _⟩ := c5 it hit
    exact ⟨d, h⟩)
  have hld : tresp.authorizationDetails = some l := by rw [← htresp]; exact l1
  have hlcred : ∀ d ∈ l, ∃ cid cl, Wanted ds cid ∧ d.detail.credential = .configurationId cid cl := by
    intro d hd
    obtain ⟨it, h1, h2, _⟩ := l3 d hd
    obtain ⟨_, d', cl, h3, h4, h5⟩ := c5 it h1
    rw [h2] at h3; cases h3
    exact ⟨_, cl, ⟨_, h4, cl, h5⟩, h5⟩
  obtain ⟨mm, hmm⟩ : ∃ mm, Holder.authorizedOfNonempty i.issuer tresp.authorizationDetails = .ok mm := by
    obtain ⟨mm, hmm⟩ := Holder.authorizedCredentials_ok i.issuer (l := l) (fun d hd => by
      obtain ⟨cid, cl, _, h⟩ := hlcred d hd
      exact ⟨cid, cl, h⟩) []
    rw [hld]
    cases l with
    | nil => exact ⟨none, rfl⟩
    | cons d l => exact ⟨some mm, by simp only [Holder.authorizedOfNonempty, Holder.authorizedOf, hmm, Holder.ok_bind, Holder.ok_pure]⟩
  have hrun := Holder.authorize_runs (e := e) (w := Holder.before hw st) hf (P := W) hstart (by rw [hv]; exact hr) horA (t := tresp)
    (by rw [hv, htr]; exact horT) hmm
  rw [hv, htr] at hrun
  have hstep := step_of_run (e := e) (hw := hw) (st := st) (by rw [hst, hreq]; exact hrun)
  have hlog : (Holder.step e hw st).2.log = hw.log ++ [⟨st.provider, hw.now + st.wait, st.req, .ok (.authorized i.id mm),
      wS.recent ++ [⟨.authorization r, some resp⟩, ⟨.token treq, some tresp⟩]⟩] := by rw [hstep, ← hlogS]
  have hstore : (Holder.step e hw st).2.store i.id = some (.issuance { Holder.authorizing W v i req with
      token := tresp
      status := .tokenReceived }) := by rw [hstep]; exact upd_same ..
  have hafter : n.after w1 (Net.made skip (Holder.step e hw st).2.log []) = (ix + 2, (n.serve (ix + 1) wa (.token treq)).2) := by
    rw [hlog, Net.made_snoc hskip]
    simp only [List.map_append, List.map_cons, List.map_nil, ← List.append_assoc]
    rw [← hAx, show A ++ [.authorization r, .token treq] = (A ++ [.authorization r]) ++ [.token treq] from by simp]
    rw [n.after_snoc w1 (r := .token treq) rfl, eB]
  have hidn : (l.flatMap (·.identifiers)).Nodup := by
    rw [List.flatMap_def, l2]
    refine items_nodup hdist c4 ?_ ?_
    · intro it hit
      obtain ⟨_, d, cl, _, h4, h5⟩ := c5 it hit
      exact ⟨d, h4, cl, h5⟩
    · intro it hit
      obtain ⟨h0, d, cl, _, h4, h5⟩ := c5 it hit
      obtain ⟨cid, cl', cfg, g1, _, _, g4⟩ := hgr d h4
      rw [h5] at g1; cases g1
      rw [r9, g4 ix] at h0
      exact (Option.some.inj h0).symm
  refine ⟨l, Issuer.Token.authorizedCredentials items, { Holder.authorizing W v i req with
      token := tresp
      status := .tokenReceived },
    Issuer.Token.stored (Issuer.Authorize.stored r items (n.arrival ix ax).now) (n.env.rng (n.arrival (ix + 1) wa).drawn)
      (n.env.rng ((n.arrival (ix + 1) wa).drawn + 1)) (n.arrival (ix + 1) wa).now items, _, n.env.rng (n.arrival (ix + 1) wa).drawn, _, ⟨_, rfl⟩, hlog,
      ?_, ?_, ⟨hstore, rfl, rfl, i5, i3, i6, i7, ?_, hld, ?_, ⟨?_, rfl⟩, rfl, ?_, rfl, ?_, ?_⟩, rfl, Issuer.authorizedCredentials_nodup _, ?_, hidn, ?_⟩
  · intro ev hev c
    rcases List.mem_append.1 hev with hev | hev
    · exact hnosave ev hev c
    · simp only [List.mem_cons, List.not_mem_nil, or_false] at hev
      rcases hev with rfl | rfl <;> simp
  · have := hkeys tresp.accessToken (.token _ treq tresp hin (by simp only [hrun]; simp))
    rw [← htresp] at this
    exact this
  · rw [← htresp]; rfl
  · rw [← htresp]; rfl
  · rw [hafter, hserveT]
    simp
  · show some r.subjectId = _
    rw [r9]
  · show _ ≤ (n.arrival ix ax).now + Issuer.authorizedDur
    simp only [Issuer.authorizedDur, Issuer.sec] at *
    omega
  · show _ ≤ (n.arrival (ix + 1) wa).now + Issuer.nonceDur
    simp only [Issuer.nonceDur, Issuer.sec] at *
    omega
  · intro d hd
    obtain ⟨cid, cl, ⟨d0, hd0, cl0, h0⟩, h⟩ := hlcred d hd
    obtain ⟨cid', cl', cfg, g1, g2, _, _⟩ := hgr d0 hd0
    rw [h0] at g1; cases g1
    exact ⟨cid, cl, cfg, h, Dict.get?_of_mem hnd g2⟩
  · rintro cid ⟨d0, hd0, cl0, h0⟩ id hid
    obtain ⟨it, u1, u2⟩ := c6 d0 hd0 cid cl0 h0
    obtain ⟨d, u3, u4, u5⟩ := l4 it u1
    obtain ⟨v0, d', cl', v1, v2, v3⟩ := c5 it u1
    rw [v1] at u4; cases u4
    obtain ⟨cid', cl'', cfg, g1, _, _, g4⟩ := hgr d0 hd0
    rw [h0] at g1; cases g1
    rw [r9, u2, g4 ix] at v0
    have hids : it.identifiers = ids cid := (Option.some.inj v0).symm
    refine ⟨d, u3, cl', by rw [v3, u2], by rw [← u5, hids]; exact hid, ?_⟩
    refine Issuer.granted_only (st := Issuer.Authorize.stored r items (n.arrival ix ax).now) ⟨it, u1, u2, by rw [hids]; exact hid⟩ ?_
    rintro cid' ⟨it', x1, rfl, x3⟩
    obtain ⟨y0, d'', cl''', y1, y2, y3⟩ := c5 it' x1
    obtain ⟨_, _, _, g1', _, _, g4'⟩ := hgr d'' y2
    rw [y3] at g1'; cases g1'
    rw [r9, g4' ix] at y0
    have : it'.identifiers = ids it'.configId := (Option.some.inj y0).symm
    exact hdist.apart _ _ id ⟨d'', y2, _, y3⟩ ⟨d0, hd0, cl0, h0⟩ (this ▸ x3) hid

/-- Collecting from a flow that has its token, after some calls. -/
theorem collect_rest {n : Net} {w1 : World Issuer.State} {skip : Nat} {e : Holder.HEnv} (ho : e.oracle = n.oracle w1 skip)
    (hsave : ∀ log recent c, n.rest log recent (.save c) = some ()) (hf : ∀ m, e.fault m = .ok) (hfi : ∀ m, n.env.fault m = .ok)
    {W : Holder.Provider} {md : Verif.Issuer} (hu : Understands n W w1.now (w1.now + 5 * 60 * Issuer.sec + Issuer.sec)) {subj k tok : String}
    {l : List Issuer.AuthorizedDetail} {creds : Dict Issuer.Authorized} (hnt : Dict.Nodup creds)
    (hmd : ∀ j, (n.provider j).issuer md.credentialIssuer = some md) (hnd : Dict.Nodup md.configs) (hkn : ∀ d' ∈ l, Holder.Known md d')
    (hids : (l.flatMap (·.identifiers)).Nodup) {claims : String → Dict Json} {keys : String → Prop} (htok : keys tok) {want : List String}
    {asked : String → Prop} {ids : String → List String}
    (hgot : ∀ cid, asked cid → ∀ id ∈ ids cid, ∃ d ∈ l, ∃ cl, d.detail.credential = .configurationId cid cl ∧ id ∈ d.identifiers ∧
        (id, ({ identifier := id, configId := cid, claimIds := none } : Issuer.Authorized)) ∈ creds)
    (hwant : ∀ id ∈ want, ∃ cid, asked cid ∧ id ∈ ids cid ∧ ∀ j, Issues (n.provider j) md subj cid id (claims id))
    {hist : List Holder.HStep} (hprov : ∀ st ∈ hist, st.provider = W)
    (hhist : hist.map (·.req) = want.map (fun id => .credentials ⟨k, some [id], none⟩) ++ [.save k])
    {hw hw0 : Holder.HWorld} {new0 : List Holder.Entry} (hlog : hw.log = hw0.log ++ new0) (hskip : skip = hw0.log.length)
    (hok0 : ∀ en ∈ new0, ∃ r, en.result = .ok r) (hns0 : ∀ en ∈ new0, ∀ ev ∈ en.events, ∀ c, ev.call ≠ .save c)
    (hquiet : ∀ pre, pre <+: Net.made skip (Holder.exec e hw hist).log [] → Undisturbed n w1 pre keys)
    {i : Holder.Issuance} {s : Issuer.State} {t : Issuer.Token} (hcr : i.credentials = [])
    (L : Linked md subj k tok l creds (w1.now + 5 * 60 * Issuer.sec) hw (n.after w1 (Net.made skip hw.log [])).2 i s t) :
    ∃ new, (Holder.exec e hw hist).log = hw0.log ++ new ∧ (∀ en ∈ new, ∃ r, en.result = .ok r) ∧
      (savedIn new).map (fun c => (c.issuer, c.vc.subject)) =
        want.map (fun id => (md.credentialIssuer, .one { id := some (beforeHash W.kid), claims := claims id })) ∧
      (Holder.exec e hw hist).store k = none := by
  obtain ⟨new, got, g1, g2, g3, g4, g5, g6⟩ := collect_all ho hsave hf hfi hu hnt hmd hnd hkn hids (claims := claims) htok (want := want) (config := fun _ _ => True)
    (fun id hid => by
      obtain ⟨cid, h1, h2, h3⟩ := hwant id hid
      obtain ⟨d, h4, cl, h5, h6, h7⟩ := hgot cid h1 id h2
      exact ⟨d, h4, cid, cl, h5, h6, h7, h3, trivial⟩)
    hprov hhist (by rw [hlog, hskip]; simp) hquiet L
  refine ⟨new0 ++ new, by rw [g1, hlog, List.append_assoc], ?_, ?_, g6⟩
  · intro en hen
    rcases List.mem_append.1 hen with hen | hen
    · exact hok0 en hen
    · exact g2 en hen
  · have hsv : ∀ a b, savedIn (a ++ b) = savedIn a ++ savedIn b := by intro a b; simp [savedIn]
    rw [hsv, savedIn_of_calls hns0, g3, hcr]
    exact map_of_zip g4 fun p hp => (g5 p hp).elim fun _ hc => by rw [hc.2.issuer, hc.2.subject]

/-! ### Properties -/

/-- **C105**. The wallet and the issuer of this repository complete an authorization-code flow that the wallet starts. Take an issuer in any state it
can be in, and a wallet with any past of its own, that asks for authorization for some credential configurations (`ds`), with or without
choosing claims, and a token; collects any of the authorized credentials (`want`) one after another; and saves them, at any times within five minutes.
Whatever else the issuer serves in between, as long as nobody else uses the codes and tokens the wallet is given: every one of those calls succeeds,
and the credentials saved are the wanted ones, in order: made by that issuer, about the holder of the wallet's key, with the claims the
issuer's Subject provider has for each. The flow is gone from the wallet afterwards.

Assumed of the surroundings: no storage faults; both sides can read what the other signs (`Understands`) and compute the same PKCE challenges
(`SamePkce`); the issuer lets this client ask directly (`Authorizes`) and has the data and keys for the wanted credentials (`Issues`). -/
theorem C105_wallet_initiated {n : Net} (hfresh : Issuer.Env.Fresh n.env) {w : World Issuer.State} (hreach : Issuer.Reachable n.env w)
    (hfi : ∀ m, n.env.fault m = .ok) {url : String} {md : Verif.Issuer} {sv : Server} {client redirect : String}
    (hauth : ∀ j, Authorizes (n.provider j) url md sv client redirect) (hnd : Dict.Nodup md.configs) {subj : String} (hsubj : subj ≠ "")
    {ds : List AuthorizationDetail} (hne : ds ≠ []) {ids : String → List String} (hgr : ∀ d ∈ ds, GrantedAs n md subj ids d)
    (hdist : Distinct (Wanted ds) ids) {claims : String → Dict Json} {want : List String}
    (hwant : ∀ id ∈ want, ∃ cid, Wanted ds cid ∧ id ∈ ids cid ∧ ∀ j, Issues (n.provider j) md subj cid id (claims id))
    {e : Holder.HEnv} {hw : Holder.HWorld} (ho : e.oracle = n.oracle w hw.log.length)
    (hsave : ∀ log recent c, n.rest log recent (.save c) = some ()) (hf : ∀ m, e.fault m = .ok) {W : Holder.Provider}
    (hu : Understands n W w.now (w.now + 5 * 60 * Issuer.sec + Issuer.sec)) (hp : SamePkce n W) {hist : List Holder.HStep}
    (hprov : ∀ st ∈ hist, st.provider = W)
    (hhist : hist.map (·.req) = .authorize ⟨.wallet client url none subj, some redirect, some ds⟩ ::
      (want.map (fun id => .credentials ⟨e.rng hw.drawn, some [id], none⟩) ++ [.save (e.rng hw.drawn)]))
    (hquiet : ∀ pre, pre <+: Net.made hw.log.length (Holder.exec e hw hist).log [] →
      Undisturbed n w pre (Received ((Holder.exec e hw hist).log.drop hw.log.length))) :
    ∃ new, (Holder.exec e hw hist).log = hw.log ++ new ∧ (∀ en ∈ new, ∃ r, en.result = .ok r) ∧
      (savedIn new).map (fun c => (c.issuer, c.vc.subject)) =
        want.map (fun id => (url, .one { id := some (beforeHash W.kid), claims := claims id })) ∧
      (Holder.exec e hw hist).store (e.rng hw.drawn) = none := by
  obtain ⟨st, hist', rfl, hr, hhist'⟩ := List.map_eq_cons_iff.1 hhist
  have hnil : Net.made hw.log.length hw.log [] = [] := by simp [Net.made]
  have h1 : e.oracle hw.log [] (.metadata url) = some md := by
    rw [ho]
    show n.answer w (Net.made hw.log.length hw.log []) _ _ = _
    rw [hnil]
    simp only [Net.answer, Net.after, List.foldl_nil, serve_metadata n (hauth 0).metadata, reply]
    rfl
  have h2 : e.oracle hw.log ([] ++ [⟨.metadata url, some md⟩]) (.oauthServer url) = some sv := by
    rw [ho]
    show n.answer w (Net.made hw.log.length hw.log _) _ _ = _
    rw [Net.made_recent, hnil]
    simp only [Net.answer, Net.after, List.nil_append, List.map_cons, List.map_nil, List.foldl_cons, List.foldl_nil, Net.next, request, Nat.zero_add,
      serve_oauth n (hauth 1).server, reply]
    rfl
  have hstart := Holder.startFlow_wallet (e := e) (w := Holder.before hw st) (req := ⟨.wallet client url none subj, some redirect, some ds⟩) rfl h1 h2
  obtain ⟨tl, htl⟩ := Holder.exec_log e (Holder.step e hw st).2 hist'
  have hlen : hw.log.length ≤ (Holder.step e hw st).2.log.length := by rw [Holder.step_log]; simp
  obtain ⟨l, creds, i', s, t, tok, en, ⟨r, k1⟩, k2, k3, k4, L, k5, k6, k7, k8, k9⟩ := authorize_links hfresh hreach ho hf hfi hp hauth hnd hsubj hne hgr
    hdist (Nat.le_refl _) (st := st) (hprov st (.head _)) hr rfl rfl hstart
    (by
      intro ev hev
      simp only [Holder.before, List.nil_append, List.mem_cons, List.not_mem_nil, or_false] at hev
      rcases hev with rfl | rfl <;> simp)
    rfl rfl rfl rfl rfl rfl rfl rfl (keys := Received ((Holder.exec e hw (st :: hist')).log.drop hw.log.length))
    (by intro x hx; cases hx)
    (fun key hk => hk.mono fun en hen => by
      show en ∈ (Holder.exec e (Holder.step e hw st).2 hist').log.drop _
      rw [htl, List.drop_append_of_le_length hlen]
      exact List.mem_append_left _ hen)
    (fun pre hpre => hquiet pre (hpre.trans (by
      show _ <+: Net.made _ (Holder.exec e (Holder.step e hw st).2 hist').log []
      rw [htl]
      exact Net.made_prefix hlen)))
  have := collect_rest ho hsave hf hfi hu k6 (fun j => by rw [(hauth j).itself]; exact (hauth j).metadata) hnd k7 k8 (claims := claims) k4 (want := want)
    k9 hwant (fun x hx => hprov x (.tail _ hx)) hhist' k2 rfl (by intro en' h; rw [List.mem_singleton] at h; subst h; exact ⟨r, k1⟩)
    (by intro en' h; rw [List.mem_singleton] at h; subst h; exact k3) hquiet k5 L
  rw [(hauth 0).itself] at this
  exact this

/-- **C106**. The wallet and the issuer of this repository complete an authorization-code flow that starts with an offer. Take any offer with an
authorization-code grant that the issuer made, in any state it can be in, for the wallet's subject; and a wallet, with any past of its own, that
takes in the offer, accepts it, enters the transaction code if there is one, asks for authorization for the whole offer and a token, collects any of
the authorized credentials (`want`) one after another and saves them, at any times within five minutes of the offer. Whatever else the issuer
serves in between, as long as nobody else uses the `issuer_state`, codes and tokens the wallet is given: every one of those calls succeeds,
and the credentials saved are the wanted ones, in order: made by that issuer, about the holder of the wallet's key, with the claims the
issuer's Subject provider has for each. The flow is gone from the wallet afterwards.

Assumed of the surroundings: as for C105; and the claims of the offered configurations have distinct names (`IsMap`). -/
theorem C106_offer_authorized {n : Net} (hfresh : Issuer.Env.Fresh n.env) {w : World Issuer.State} (hreach : Issuer.Reachable n.env w)
    {s : Issuer.Step} {req : Issuer.CreateOfferRequest} (hreq : s.req = .createOffer req) {oresp : Issuer.CreateOfferResponse}
    (h : (Issuer.step n.env w s).1 = .ok (.createOffer oresp)) (hcode : req.requests .authorizationCode) {subj : String}
    (hsub : req.subjectId = some subj) (hsubj : subj ≠ "") {offer : Issuer.CredentialOffer}
    (hdel : Issuer.Delivers req.credentialIssuer (Issuer.step n.env w s).2.store oresp.offerType offer)
    (hfi : ∀ m, n.env.fault m = .ok) {md : Verif.Issuer} {sv : Server} {client redirect : String}
    (hauth : ∀ j, Authorizes (n.provider j) req.credentialIssuer md sv client redirect) (hnd : Dict.Nodup md.configs)
    (hmaps : ∀ cid cfg m, (cid, cfg) ∈ md.configs → cfg.format.claims = some m → IsMap m) {ids : String → List String}
    (hgr : ∀ cid ∈ offer.configIds, (∃ cfg, (cid, cfg) ∈ md.configs) ∧ ∀ j, (n.provider j).authorize subj cid = some (ids cid))
    (hdist : Distinct (· ∈ offer.configIds) ids) {claims : String → Dict Json} {want : List String}
    (hwant : ∀ id ∈ want, ∃ cid ∈ offer.configIds, id ∈ ids cid ∧ ∀ j, Issues (n.provider j) md subj cid id (claims id))
    {e : Holder.HEnv} {hw : Holder.HWorld} (ho : e.oracle = n.oracle (Issuer.step n.env w s).2 hw.log.length)
    (hsave : ∀ log recent c, n.rest log recent (.save c) = some ()) (hf : ∀ m, e.fault m = .ok) {W : Holder.Provider}
    (hu : Understands n W (Issuer.step n.env w s).2.now ((Issuer.step n.env w s).2.now + 5 * 60 * Issuer.sec + Issuer.sec)) (hp : SamePkce n W)
    {oreq : Holder.OfferRequest} (hoffer : oreq.offer = offer) (hoc : oreq.clientId = client) (hos : oreq.subjectId = subj)
    {hist : List Holder.HStep} (hprov : ∀ st ∈ hist, st.provider = W)
    (hhist : hist.map (·.req) = authorizeCalls (e.rng hw.drawn) oreq oresp.txCode redirect want)
    (hquiet : ∀ pre, pre <+: Net.made hw.log.length (Holder.exec e hw hist).log [] → Undisturbed n (Issuer.step n.env w s).2 pre
      fun key => StateOf offer key ∨ Received ((Holder.exec e hw hist).log.drop hw.log.length) key) :
    ∃ new, (Holder.exec e hw hist).log = hw.log ++ new ∧ (∀ en ∈ new, ∃ r, en.result = .ok r) ∧
      (savedIn new).map (fun c => (c.issuer, c.vc.subject)) =
        want.map (fun id => (req.credentialIssuer, .one { id := some (beforeHash W.kid), claims := claims id })) ∧
      (Holder.exec e hw hist).store (e.rng hw.drawn) = none := by
  have hstepq := Issuer.step_createOffer (e := n.env) (w := w) hreq
  have hrunq := h
  rw [hstepq] at hrunq
  obtain ⟨oresp', hrunq, hor⟩ := Issuer.map_ok.1 hrunq
  cases hor
  obtain ⟨_, _, o17, _, _, d17, a1, a2, a3, _, a4, a5, _, _, a6, a7⟩ := Issuer.C17_offers_supported (Issuer.pair_of_fst hrunq)
  have : o17 = offer := delivers_unique d17 (by rw [hstepq] at hdel; exact hdel)
  subst this
  obtain ⟨g, ag, hg, hag⟩ := a4.2 hcode
  have hstored := fun key => Issuer.issuerState_stored hfresh hreq h hdel hg hag (key := key)
  have hpin : Holder.needsPin o17 = oresp.txCode.isSome := by
    simp only [Holder.needsPin, hg]
    cases hpa : g.preAuthorizedCode with
    | some p => rw [Bool.eq_iff_iff]; exact (a7 g p hg hpa).trans Option.isSome_iff_exists.symm
    | none =>
      cases htx : oresp.txCode with
      | none => rfl
      | some c =>
        obtain ⟨_, hx⟩ := a6.1 ⟨c, htx⟩
        obtain ⟨g', p', hg', hp'⟩ := a5.2 hx
        rw [hg] at hg'; cases hg'
        rw [hpa] at hp'; cases hp'
  have hw1now : (Issuer.step n.env w s).2.now = w.now + s.wait := Issuer.step_now ..
  have hreach1 := hreach.step s
  generalize hw1 : (Issuer.step n.env w s).2 = w1 at *
  have hkn : ∀ cid ∈ o17.configIds, ∃ c, md.configs.get? cid = some c := fun cid hc => by
    obtain ⟨⟨cfg, hcfg⟩, _⟩ := hgr cid hc
    exact ⟨cfg, Dict.get?_of_mem hnd hcfg⟩
  generalize hurl : req.credentialIssuer = url at *
  -- taking in the offer
  obtain ⟨hist', hwA, i, new0, b1, b2, b3, b4, b5, b6, b7, b8, b9, b10, b11, b12, b13, b14, b15, b16, b17, b18, b19, b20, b21⟩ := begin_runs (n := n)
    (w1 := w1) (e := e) (hw := hw) ho hf (oreq := oreq) (md := md) (sv := sv) (by rw [hoffer]; exact a3) (by rw [hoffer, a1]; exact (hauth 0).metadata)
    (by rw [hoffer, a1]; exact (hauth 1).server) (by rw [hoffer]; exact hkn) (txCode := oresp.txCode) (by rw [hoffer]; exact hpin)
    (rest := .authorize ⟨.issuer (e.rng hw.drawn), some redirect, none⟩ ::
      (want.map (fun id => .credentials ⟨e.rng hw.drawn, some [id], none⟩) ++ [.save (e.rng hw.drawn)])) (hist := hist)
    (by rw [hhist]; cases oresp.txCode <;> simp [authorizeCalls])
  obtain ⟨tl, htl⟩ := Holder.exec_log e hwA hist'
  have hskipA : hw.log.length ≤ hwA.log.length := by rw [b4]; simp
  rw [hoffer, a1] at b7
  have hpfx : [.metadata url, .oauthServer url] <+: Net.made hw.log.length (Holder.exec e hw hist).log [] := by
    rw [b3, htl, ← b7]; exact Net.made_prefix hskipA
  have q0 := hquiet [] (List.nil_prefix)
  have q1 := hquiet [.metadata url] (List.IsPrefix.trans ⟨[.oauthServer url], rfl⟩ hpfx)
  have e0 : n.after w1 [] = (0, w1) := rfl
  have e1 : n.after w1 [.metadata url] = (1, n.arrival 0 w1) := by
    have := n.after_snoc w1 (c := .metadata url) (r := .metadata url) rfl []
    rw [List.nil_append, e0, serve_metadata n (hauth 0).metadata] at this
    exact this
  have e2 : n.after w1 [.metadata url, .oauthServer url] = (2, n.arrival 1 (n.arrival 0 w1)) := by
    have := n.after_snoc w1 (c := .oauthServer url) (r := .oauthServer url) rfl [.metadata url]
    rw [List.cons_append, List.nil_append, e1, serve_oauth n (hauth 1).server] at this
    exact this
  -- asking for authorization
  obtain ⟨st2, hist2, rfl, hr2, hhist2⟩ := List.map_eq_cons_iff.1 b2
  obtain ⟨ds, d1, d2, d3, d4⟩ := offerDetails_ok hkn
  have hwanted : ∀ cid, Wanted ds cid ↔ cid ∈ o17.configIds := by
    intro cid
    constructor
    · rintro ⟨d, hd, cl, hc⟩
      obtain ⟨id, h1, c, _, h3⟩ := d3 d hd
      rw [hc] at h3; cases h3
      exact h1
    · intro hc
      exact d4 cid hc
  have hstart := Holder.startFlow_issuer (e := e) (w := Holder.before hwA st2) hf (req := ⟨.issuer (e.rng hw.drawn), some redirect, none⟩) rfl b8
    (by rw [b11, hoffer]; exact hg) (by rw [hag]; rfl) b10
  obtain ⟨tl2, htl2⟩ := Holder.exec_log e (Holder.step e hwA st2).2 hist2
  have hlen : hwA.log.length ≤ (Holder.step e hwA st2).2.log.length := by rw [Holder.step_log]; simp
  have hexB : Holder.exec e hw hist = Holder.exec e (Holder.step e hwA st2).2 hist2 := b3
  obtain ⟨l, creds, i', s', t, tok, en, ⟨r, k1⟩, k2, k3, k4, L, k5, k6, k7, k8, k9⟩ := authorize_links hfresh hreach1 ho hf hfi hp hauth hnd hsubj
    (ds := ds) (by intro hds; rw [hds] at d2; exact a3 (List.length_eq_zero_iff.1 d2.symm)) (ids := ids)
    (by
      intro d hd
      obtain ⟨cid, h1, c, h2, h3⟩ := d3 d hd
      obtain ⟨_, h4⟩ := hgr cid h1
      refine ⟨cid, _, c, h3, Dict.mem_of_get? h2, ?_, h4⟩
      intro cm sup hcm hsup
      rw [formatClaims_claims] at hcm
      have := Option.some.inj (hcm.symm.trans hsup)
      subst this
      exact (hmaps cid c cm (Dict.mem_of_get? h2) hsup).meets)
    ⟨fun cid hc => hdist.once cid ((hwanted cid).1 hc), fun cid cid' id hc hc' => hdist.apart cid cid' id ((hwanted cid).1 hc) ((hwanted cid').1 hc')⟩
    hskipA (st := st2) (hprov st2 (b1 st2 (.head _))) hr2 rfl rfl hstart (by intro ev hev; cases hev)
    (b13.trans hoc) (b21.trans hos) b12 b20 b16 b17 b18
    (by
      simp only [Holder.requestDetails, Holder.Initiator.scope, Holder.authorizationDetails, Holder.Initiator.isWallet, b12, b11, hoffer,
        Bool.false_eq_true, if_false, d1, Holder.ok_bind, Holder.ok_pure])
    (keys := fun key => StateOf o17 key ∨ Received ((Holder.exec e hw hist).log.drop hw.log.length) key)
    (by
      intro x hx
      simp only [Holder.offeredState, b11, hoffer, hg, Option.bind_some, hag] at hx
      obtain ⟨st, s1, s2, s3⟩ := hstored x hx
      have hstate : StateOf o17 x := ⟨g, ag, hg, hag, hx⟩
      refine ⟨.inl hstate, st, ?_, by rw [s3, hw1now]; exact Int.le_refl _, s2.trans hsub⟩
      show (n.after w1 (Net.made hw.log.length hwA.log [])).2.store x = _
      rw [b7, e2]
      have i0 := q0.intact x (.inl hstate)
      have i1 := q1.intact x (.inl hstate)
      rw [e0] at i0
      rw [e1] at i1
      exact i1.trans (i0.trans s1))
    (fun key hk => .inr (hk.mono fun en hen => by
      rw [hexB, htl2, List.drop_append_of_le_length (Nat.le_trans hskipA hlen)]
      refine List.mem_append_left _ ?_
      rw [show hwA.log.length = hw.log.length + (hwA.log.length - hw.log.length) from by omega, ← List.drop_drop] at hen
      exact List.mem_of_mem_drop hen))
    (fun pre hpre => hquiet pre (hpre.trans (by
      rw [hexB, htl2]
      exact Net.made_prefix (Nat.le_trans hskipA hlen))))
  rw [show i.id = e.rng hw.drawn from b9] at L
  have := collect_rest ho hsave hf hfi hu k6 (fun j => by rw [(hauth j).itself]; exact (hauth j).metadata) hnd k7 k8 (claims := claims) k4 (want := want)
    k9 (fun id hid => by
      obtain ⟨cid, h1, h2⟩ := hwant id hid
      exact ⟨cid, (hwanted cid).2 h1, h2⟩)
    (fun x hx => hprov x (b1 x (.tail _ hx))) hhist2 (hw0 := hw) (new0 := new0 ++ [en]) (by rw [k2, b4, List.append_assoc]) rfl
    (by
      intro en' h
      rcases List.mem_append.1 h with h | h
      · exact b5 en' h
      · rw [List.mem_singleton] at h; subst h; exact ⟨r, k1⟩)
    (by
      intro en' h
      rcases List.mem_append.1 h with h | h
      · exact b6 en' h
      · rw [List.mem_singleton] at h; subst h; exact k3)
    (by rw [← hexB]; exact hquiet) (k5.trans b19) L
  rw [(hauth 0).itself] at this
  rw [hexB]
  exact this

end Verif.Interop
