import Verif.Issuer.AuthorizeProps
import Verif.Issuer.OfferProps
import Verif.Issuer.CredentialProps
import Verif.Openid.ClaimsProps
/-!
# What the endpoints accept: C91 – C94

The other issuer properties say what a success implies. These say that requests which satisfy the conditions are served: the endpoints
refuse nothing else, as long as the state store works.
-/
namespace Verif.Issuer
open Prog

/-- The state store works from now on. -/
def Working (e : Env) (w : World State) : Prop := ∀ n, w.ops ≤ n → e.fault n = .ok

/-! ### Specification: which credentials can be granted -/

/-- The claims requested of a configuration include its mandatory claims. -/
def ClaimsFit (cfg : CredentialConfiguration) (claims : Option (Dict Claim)) : Prop :=
  ∀ c sup, claims = some c → cfg.format.claims = some sup → MeetsMandatory c sup

/-- The credential an authorization detail asks for can be granted to `subject`: its configuration exists, the requested claims fit
it, and the Subject provider authorizes the subject. If configurations of the requested format are many, all have to qualify, as
the issuer may pick any of them. -/
def DetailGrantable (P : Provider) (iss : Issuer) (subject : String) (d : AuthorizationDetail) : Prop :=
  match d.credential with
  | .configurationId id profile =>
    (∃ ids, P.authorize subject id = some ids) ∧ ∃ cfg, (id, cfg) ∈ iss.configs ∧ ClaimsFit cfg (profile.bind ProfileClaims.claims)
  | .format f =>
    (∃ id cfg, (id, cfg) ∈ iss.configs ∧ SameCredential (.format cfg.format) (.format f)) ∧
    ∀ id cfg, (id, cfg) ∈ iss.configs → SameCredential (.format cfg.format) (.format f) →
      ClaimsFit cfg f.claims ∧ ∃ ids, P.authorize subject id = some ids

/-- What a request asks for can be granted. -/
structure Grantable (P : Provider) (iss : Issuer) (r : RequestObject) : Prop where
  /-- the credentials of its authorization details -/
  details : ∀ ds d, r.authorizationDetails = some ds → d ∈ ds → DetailGrantable P iss r.subjectId d
  /-- the credentials of the first value of its scope, one of which is not asked for by a detail already -/
  scope : ∀ s item rest, r.scope = some s → splitWs s = item :: rest →
    (∃ id cfg, (id, cfg) ∈ iss.configs ∧ cfg.scope = some item ∧
      ∀ ds d, r.authorizationDetails = some ds → d ∈ ds → ¬ Asks iss d id) ∧
    ∀ id cfg, (id, cfg) ∈ iss.configs → cfg.scope = some item → ∃ ids, P.authorize r.subjectId id = some ids
  /-- and it asks for something -/
  something : (∃ ds, r.authorizationDetails = some ds ∧ ds ≠ []) ∨ ∃ s, r.scope = some s ∧ splitWs s ≠ []

/-- The issuer, client and server of a request are known, the request is valid for them, what it asks for can be granted, and its
`issuer_state`, if any, names a live offer for the same subject. Configuration ids of the issuer are distinct (they are map keys). -/
def Acceptable (P : Provider) (w : World State) (r : RequestObject) : Prop :=
  ∃ iss client server, P.issuer r.credentialIssuer = some iss ∧ Dict.Nodup iss.configs ∧ P.client r.clientId = some client ∧
    P.server r.credentialIssuer = some server ∧ ValidAuthorization client server r ∧ Grantable P iss r ∧
    ∀ k, r.issuerState = some k → ∃ s, w.store k = some s ∧ Live s w.now ∧ s.subjectId = some r.subjectId

/-! ### Helpers -/

theorem detailTarget_of {P : Provider} {iss : Issuer} (hn : Dict.Nodup iss.configs) {subj : String} {d : AuthorizationDetail}
    (h : DetailGrantable P iss subj d) :
    ∃ id c, Authorize.detailTarget iss d = .ok (id, c) ∧ Authorize.checkClaims iss id c = .ok () ∧
      ∃ ids, P.authorize subj id = some ids := by
  unfold DetailGrantable at h
  unfold Authorize.detailTarget
  split at h
  · rename_i id profile hd
    obtain ⟨ha, cfg, hc, hf⟩ := h
    rw [hd]
    refine ⟨id, _, rfl, ?_, ha⟩
    unfold Authorize.checkClaims
    split
    · rfl
    · rename_i req hreq
      simp only [Except.bind_ok, orErr_ok, require_ok]
      refine ⟨cfg, Dict.get?_of_mem hn hc, ?_⟩
      exact (C35_mandatory_claims cfg req).2 fun sup hsup => hf req sup hreq hsup
  · rename_i f hd
    obtain ⟨⟨id0, cfg0, hm0, hs0⟩, hall⟩ := h
    rw [hd]
    simp only [Except.bind_ok, orErr_ok, Issuer.configurationId, Option.map_eq_some_iff, pure, Except.pure, Except.ok.injEq,
      Prod.mk.injEq]
    cases hfi : iss.configs.find? fun e => e.2.format.eqv f with
    | none =>
      have := List.find?_eq_none.1 hfi _ hm0
      exact absurd ((sameCredential_iff (.format cfg0.format) (.format f)).2 hs0) this
    | some x =>
      obtain ⟨id, cfg⟩ := x
      have hm := List.mem_of_find?_eq_some hfi
      have hs := (sameCredential_iff (.format cfg.format) (.format f)).1 (by have := List.find?_some hfi; exact this)
      obtain ⟨hf, ha⟩ := hall id cfg hm hs
      refine ⟨id, f.claims, ⟨id, ⟨⟨id, cfg⟩, rfl, rfl⟩, rfl, rfl⟩, ?_, ha⟩
      unfold Authorize.checkClaims
      split
      · rfl
      · rename_i req hreq
        simp only [Except.bind_ok, orErr_ok, require_ok]
        refine ⟨cfg, Dict.get?_of_mem hn hm, ?_⟩
        exact (C35_mandatory_claims cfg req).2 fun sup hsup => hf req sup hreq hsup

theorem verifyDetails_of {P : Provider} {iss : Issuer} (hn : Dict.Nodup iss.configs) {subj : String} :
    ∀ (l : List AuthorizationDetail) (acc : Dict AuthorizationDetail), (∀ d ∈ l, DetailGrantable P iss subj d) →
      (∀ id ∈ Dict.keys acc, ∃ ids, P.authorize subj id = some ids) →
      ∃ m, Authorize.verifyDetails iss l acc = .ok m ∧ ∀ id ∈ Dict.keys m, ∃ ids, P.authorize subj id = some ids
  | [], acc, _, ha => ⟨acc, rfl, ha⟩
  | d :: l, acc, h, ha => by
    obtain ⟨id, c, h1, h2, h3⟩ := detailTarget_of hn (h d (by simp))
    obtain ⟨m, hm, hk⟩ := verifyDetails_of hn l (acc.insert id d) (fun x hx => h x (by simp [hx])) (by
      intro k hk
      rcases Dict.keys_insert.1 hk with rfl | hk
      · exact h3
      · exact ha k hk)
    refine ⟨m, ?_, hk⟩
    simp only [Authorize.verifyDetails, Except.bind_ok]
    exact ⟨_, h1, (), h2, hm⟩

theorem authorizeDetails_of {P : Provider} {subj : String} : ∀ (l : List (String × AuthorizationDetail)),
    (∀ x ∈ l, ∃ ids, P.authorize subj x.1 = some ids) →
    ∃ a, Authorize.authorizeDetails P subj l = .ok a ∧ a.length = l.length
  | [], _ => ⟨[], rfl, rfl⟩
  | (id, d) :: l, h => by
    obtain ⟨ids, h1⟩ := h (id, d) (by simp)
    obtain ⟨a, h2, h3⟩ := authorizeDetails_of l fun x hx => h x (by simp [hx])
    refine ⟨{ item := .detail d, configId := id, identifiers := ids } :: a, ?_, by simp [h3]⟩
    simp only [Authorize.authorizeDetails, Except.bind_ok, orErr_ok, pure, Except.pure]
    exact ⟨ids, h1, a, h2, rfl⟩

theorem authorizeScopes_of {P : Provider} {subj : String} : ∀ (l : List (String × String)),
    (∀ x ∈ l, ∃ ids, P.authorize subj x.1 = some ids) →
    ∃ a, Authorize.authorizeScopes P subj l = .ok a ∧ a.length = l.length
  | [], _ => ⟨[], rfl, rfl⟩
  | (id, d) :: l, h => by
    obtain ⟨ids, h1⟩ := h (id, d) (by simp)
    obtain ⟨a, h2, h3⟩ := authorizeScopes_of l fun x hx => h x (by simp [hx])
    refine ⟨{ item := .scope d, configId := id, identifiers := ids } :: a, ?_, by simp [h3]⟩
    simp only [Authorize.authorizeScopes, Except.bind_ok, orErr_ok, pure, Except.pure]
    exact ⟨ids, h1, a, h2, rfl⟩

theorem authorizeItems_of {P : Provider} {subj : String} {ds : Dict AuthorizationDetail} {ss : Dict String}
    (hd : ∀ x ∈ ds, ∃ ids, P.authorize subj x.1 = some ids) (hs : ∀ x ∈ ss, ∃ ids, P.authorize subj x.1 = some ids)
    (hne : ds ≠ [] ∨ ss ≠ []) : ∃ l, Authorize.authorizeItems P subj ds ss = .ok l := by
  obtain ⟨a, ha, la⟩ := authorizeDetails_of (P := P) (subj := subj) (P.iter ds) fun x hx => hd x ((P.iter_perm ds).mem_iff.1 hx)
  obtain ⟨b, hb, lb⟩ := authorizeScopes_of (P := P) (subj := subj) (P.iter ss) fun x hx => hs x ((P.iter_perm ss).mem_iff.1 hx)
  refine ⟨a ++ b, ?_⟩
  simp only [Authorize.authorizeItems, Except.bind_ok, require_ok, pure, Except.pure]
  refine ⟨a, ha, b, hb, (), ?_, rfl⟩
  rw [(P.iter_perm ds).length_eq] at la
  rw [(P.iter_perm ss).length_eq] at lb
  cases a with
  | cons => simp
  | nil =>
    cases b with
    | cons => simp
    | nil =>
      rcases hne with h | h
      · exact absurd (List.eq_nil_of_length_eq_zero la.symm) h
      · exact absurd (List.eq_nil_of_length_eq_zero lb.symm) h

/-- Verification and authorization of a grantable request succeed. -/
theorem grantable_items {P : Provider} {iss : Issuer} (hn : Dict.Nodup iss.configs) {r : RequestObject} (hg : Grantable P iss r) :
    ∃ ds ss items, Authorize.verifyDetailsOpt iss r.authorizationDetails = .ok ds ∧
      Authorize.verifyScopeOpt iss ds r.scope = .ok ss ∧ Authorize.authorizeItems P r.subjectId ds ss = .ok items := by
  have hdet : ∃ ds, Authorize.verifyDetailsOpt iss r.authorizationDetails = .ok ds ∧
      (∀ id ∈ Dict.keys ds, ∃ ids, P.authorize r.subjectId id = some ids) ∧
      (∀ id ∈ Dict.keys ds, ∃ l d, r.authorizationDetails = some l ∧ d ∈ l ∧ Asks iss d id) ∧
      (∀ l, r.authorizationDetails = some l → l ≠ [] → ds ≠ []) := by
    cases had : r.authorizationDetails with
    | none => exact ⟨[], rfl, by simp [Dict.keys], by simp [Dict.keys], by simp⟩
    | some l =>
      obtain ⟨m, hm, hk⟩ := verifyDetails_of hn l [] (fun d hd => hg.details l d had hd) (by simp [Dict.keys])
      obtain ⟨k1, k2, k3⟩ := Authorize.verifyDetails_keys hm
      refine ⟨m, hm, hk, ?_, ?_⟩
      · intro id hid
        rcases (k1 id).1 hid with h | ⟨d, hd, c, h⟩
        · simp [Dict.keys] at h
        · exact ⟨l, d, rfl, hd, asks_of_target h⟩
      · intro l' hl' hne
        cases hl'
        cases l with
        | nil => exact absurd rfl hne
        | cons d l =>
          obtain ⟨id, c, h1, _⟩ := k2 d (by simp)
          have := (k1 id).2 (.inr ⟨d, by simp, c, h1⟩)
          rintro rfl
          simp [Dict.keys] at this
  obtain ⟨ds, h1, h2, h3, h4⟩ := hdet
  have hsc : ∃ ss, Authorize.verifyScopeOpt iss ds r.scope = .ok ss ∧
      (∀ x ∈ ss, ∃ ids, P.authorize r.subjectId x.1 = some ids) ∧ (∀ s, r.scope = some s → splitWs s ≠ [] → ss ≠ []) := by
    cases hs : r.scope with
    | none => exact ⟨[], rfl, by simp, by simp⟩
    | some s =>
      simp only [Authorize.verifyScopeOpt, Authorize.verifyScope]
      cases hw : splitWs s with
      | nil => exact ⟨[], rfl, by simp, by rintro _ h; cases h; simp [hw]⟩
      | cons item rest =>
        obtain ⟨⟨id, cfg, g1, g2, g3⟩, g4⟩ := hg.scope s item rest hs hw
        have hmem : (id, cfg) ∈ iss.configs.filter fun e => !ds.has e.1 && e.2.scope == some item := by
          refine List.mem_filter.2 ⟨g1, ?_⟩
          have : Dict.has ds id = false := by
            by_cases hh : Dict.has ds id = true
            · obtain ⟨l, d, q1, q2, q3⟩ := h3 id (Dict.has_iff.1 hh)
              exact absurd q3 (g3 l d q1 q2)
            · simpa using hh
          simp [this, g2]
        refine ⟨(iss.configs.filter fun e => !ds.has e.1 && e.2.scope == some item).map fun e => (e.1, item), ?_, ?_, ?_⟩
        · simp only
          rw [if_neg]
          intro h
          rw [List.isEmpty_iff, List.map_eq_nil_iff] at h
          rw [h] at hmem; cases hmem
        · intro x hx
          obtain ⟨y, hy, rfl⟩ := List.mem_map.1 hx
          obtain ⟨hy1, hy2⟩ := List.mem_filter.1 hy
          simp only [Bool.and_eq_true, beq_iff_eq] at hy2
          exact g4 y.1 y.2 hy1 hy2.2
        · intro _ _ _ h
          rw [List.map_eq_nil_iff] at h
          rw [h] at hmem; cases hmem
  obtain ⟨ss, h5, h6, h7⟩ := hsc
  obtain ⟨items, h8⟩ := authorizeItems_of (P := P) (subj := r.subjectId) (ds := ds) (ss := ss)
    (fun x hx => h2 x.1 (List.mem_map.2 ⟨x, hx, rfl⟩)) h6 (by
      rcases hg.something with ⟨l, hl, hne⟩ | ⟨s, hs, hne⟩
      · exact .inl (h4 l hl hne)
      · exact .inr (h7 s hs hne))
  exact ⟨ds, ss, items, h1, h5, h8⟩

/-- Exactly when verification succeeds with a working store. -/
theorem Authorize.verify_of {P : Provider} {iss : Issuer} {isPar : Bool} {r : RequestObject} {e : Env} {w : World State}
    (hst : Working e w) {client : Client} {server : Server} (hc : P.client r.clientId = some client)
    (hs : P.server r.credentialIssuer = some server) (hp : server.requirePar = some true → isPar = true)
    (hv : ValidAuthorization client server r) {ds : Dict AuthorizationDetail} {ss : Dict String}
    (h1 : Authorize.verifyDetailsOpt iss r.authorizationDetails = .ok ds) (h2 : Authorize.verifyScopeOpt iss ds r.scope = .ok ss)
    (hi : ∀ k, r.issuerState = some k → ∃ s, w.store k = some s ∧ Live s w.now ∧ s.subjectId = some r.subjectId) :
    ∃ w1, (Authorize.verify P iss isPar r).run e w = (.ok (ds, ss), w1) ∧ w1.store = w.store ∧ w1.now = w.now ∧
      w1.drawn = w.drawn ∧ w.ops ≤ w1.ops := by
  have hI : ∃ w1, (Authorize.checkIssuerState r).run e w = (.ok (), w1) := by
    unfold Authorize.checkIssuerState
    cases hk : r.issuerState with
    | none => exact ⟨w, run_pure_ok.2 ⟨rfl, rfl⟩⟩
    | some k =>
      obtain ⟨s, g1, g2, g3⟩ := hi k hk
      simp only [run_bind_ok, run_lift_ok, run_getE_ok, run_nowE_ok, require_ok, Bool.not_eq_true', isExpired_false_iff,
        beq_iff_eq]
      exact ⟨_, s, _, ⟨hst _ (Nat.le_refl _), g1, rfl⟩, _, _, ⟨rfl, rfl⟩, (), _, ⟨g2, rfl⟩, g3, rfl⟩
  obtain ⟨w1, hI⟩ := hI
  have hrun : (Authorize.verify P iss isPar r).run e w = (.ok (ds, ss), w1) := by
    simp only [Authorize.verify, run_bind_ok, run_lift_ok, orErr_ok]
    exact ⟨client, _, ⟨hc, rfl⟩, server, _, ⟨hs, rfl⟩, (), _,
      ⟨Authorize.verifyPre_ok.2 ⟨hp, hv.responseType.1, hv.scope, hv.grantType.2, hv.grantType.1, hv.subject⟩, rfl⟩, (), _, hI,
      Authorize.verifyPost_ok.2 ⟨hv.asks, h1, h2, hv.redirectUri, hv.responseType.2, hv.responseType.1, hv.method, hv.challenge⟩,
      rfl⟩
  obtain ⟨q1, q2, q3, q4, _⟩ := Authorize.verify_ok hrun
  exact ⟨w1, hrun, q1, q2, q3, q4⟩

/-! ### Facts about the demo issuer -/

theorem Demo.working (w : World State) : Working Demo.env w := fun _ _ => rfl

theorem Demo.configs_nodup : Dict.Nodup Demo.issuer.configs := by simp [Dict.Nodup, Dict.keys, Demo.issuer]

/-- The demo request is acceptable in every state of the demo issuer: it has no `issuer_state`. -/
theorem Demo.acceptable (w : World State) : Acceptable Demo.provider w Demo.authReq := by
  refine ⟨Demo.issuer, Demo.client, Demo.server, rfl, Demo.configs_nodup, rfl, rfl, ?_, ⟨?_, ?_, .inl ⟨_, rfl, by simp⟩⟩, ?_⟩
  · have hok : Demo.isOk ((authorize Demo.provider (.object Demo.authReq)).run Demo.env (start 0)).1 = true := by decide
    cases h : ((authorize Demo.provider (.object Demo.authReq)).run Demo.env (start 0)).1 with
    | error x => rw [h] at hok; cases hok
    | ok resp =>
      obtain ⟨r, c, s, hd, hc, hs, hv⟩ := C09_code_needs_valid_request (pair_of_fst h)
      cases hd; cases hc; cases hs; exact hv
  · rintro ds d hds hd
    cases hds
    simp only [List.mem_singleton] at hd
    subst hd
    exact ⟨⟨_, rfl⟩, Demo.employee, .head _, fun _ _ h => by cases h⟩
  · intro s item rest h; cases h
  · intro k h; cases h

/-! ### Properties -/

/-- **C91**. The authorization endpoint issues a code for every request, given directly or pushed before and unexpired, that is
acceptable. If the server requires pushed requests, the request has to be one. -/
theorem C91_acceptable_request_gets_code {P : Provider} {request : AuthorizationRequest} {e : Env} {w : World State}
    (hst : Working e w) {r : RequestObject} (hden : request.DenotesIn w r) (ha : Acceptable P w r)
    (hp : ∀ server, P.server r.credentialIssuer = some server → server.requirePar = some true → ∃ u, request = .uri u) :
    ∃ resp w', (authorize P request).run e w = (.ok resp, w') ∧ resp.state = r.state ∧ r.redirectUri = some resp.redirectUri := by
  obtain ⟨iss, client, server, hiss, hn, hc, hs, hv, hg, hi⟩ := ha
  replace hp := hp server hs
  obtain ⟨ds, ss, items, h1, h2, h3⟩ := grantable_items hn hg
  have hres : ∃ b w1, (Authorize.resolve request).run e w = (.ok (b, r), w1) ∧ (server.requirePar = some true → b = true) := by
    cases request with
    | object r' =>
      cases hden
      exact ⟨false, w, run_pure_ok.2 ⟨rfl, rfl⟩, fun h => by obtain ⟨u, hu⟩ := hp h; cases hu⟩
    | uri u =>
      obtain ⟨s, exp, g1, g2, g3⟩ := hden
      refine ⟨true, { w with ops := w.ops + 1 }, ?_, fun _ => rfl⟩
      simp only [Authorize.resolve, run_bind_ok, run_lift_ok, run_getE_ok, run_nowE_ok, require_ok, run_pure_ok]
      exact ⟨s, _, ⟨hst _ (Nat.le_refl _), g1, rfl⟩, (r, exp), _, ⟨by simp [Authorize.pushed, g2], rfl⟩, _, _, ⟨rfl, rfl⟩, (), _,
        ⟨by simpa using g3, rfl⟩, rfl, rfl⟩
  obtain ⟨b, w1, hres, hb⟩ := hres
  obtain ⟨_, e1, e2, e3, e4, _⟩ := Authorize.resolve_ok hres
  obtain ⟨w2, hver, f1, f2, f3, f4⟩ := Authorize.verify_of (P := P) (iss := iss) (isPar := b) (r := r) (e := e) (w := w1)
    (fun n hn => hst n (by omega)) hc hs hb hv h1 h2 (by rw [e1, e2]; exact hi)
  have hpg : ∀ x : World State, w2.ops ≤ x.ops → ∃ x', (Authorize.purgeOffer r).run e x = (.ok (), x') := by
    intro x hx
    unfold Authorize.purgeOffer
    cases r.issuerState with
    | none => exact ⟨x, run_pure_ok.2 ⟨rfl, rfl⟩⟩
    | some k => exact ⟨_, run_purgeE_ok.2 ⟨hst _ (by omega), rfl⟩⟩
  obtain ⟨x', hx'⟩ := hpg { w2 with
      store := upd w2.store (e.rng w2.drawn) (some (Authorize.stored r items w2.now))
      drawn := w2.drawn + 1, ops := w2.ops + 1 } (by simp)
  refine ⟨{ code := e.rng w2.drawn, state := r.state, redirectUri := r.redirectUri.getD "" }, x', ?_, rfl, ?_⟩
  · simp only [authorize, Authorize.process, run_bind_ok, run_lift_ok, orErr_ok, run_nowE_ok, run_drawE_ok, run_putE_ok,
      run_pure_ok]
    exact ⟨_, _, hres, iss, _, ⟨hiss, rfl⟩, _, _, hver, items, _, ⟨h3, rfl⟩, _, _, ⟨rfl, rfl⟩, _, _, ⟨rfl, rfl⟩, (), _,
      ⟨hst _ (by simp; omega), rfl⟩, (), _, hx', rfl, rfl⟩
  · obtain ⟨u, us, hu, _⟩ := hv.redirectUri
    simp [hu]

/-- C91 applies to the demo issuer, in a state in which an offer was made before. -/
example : ∃ resp w', (authorize Demo.provider (.object Demo.authReq)).run Demo.env Demo.offered = (.ok resp, w') ∧
    resp.redirectUri = "http://localhost/cb" := by
  obtain ⟨resp, w', h, _, hr⟩ := C91_acceptable_request_gets_code (request := .object Demo.authReq) (Demo.working Demo.offered) rfl
    (Demo.acceptable _) (by intro s h; cases h; intro h; cases h)
  exact ⟨resp, w', h, (Option.some.inj hr).symm⟩

/-- **C94**. Unless the server requires pushed requests (see C12), every acceptable request can be pushed; and the request URI it gets
can then be used for an authorization, whatever happens in between, for 600 seconds, if the request is acceptable then too and the
URI has not been used as a key of some other kind. -/
theorem C94_acceptable_request_can_be_pushed {e : Env} (he : Env.Fresh e) {w : World State} (hw : Reachable e w) {push : Step}
    {r : RequestObject} (hpush : push.req = .par r) (hst : Working e w)
    (ha : Acceptable push.provider (World.wait w push.wait) r)
    (hp : ∀ server, push.provider.server r.credentialIssuer = some server → server.requirePar ≠ some true) :
    ∃ presp, (step e w push).1 = .ok (.par presp) ∧
      ∀ (between : List Step) (use : Step), use.req = .authorize (.uri presp.requestUri) →
        (let w2 := exec e (step e w push).2 between
         w2.store presp.requestUri ≠ none ∧ w2.now + use.wait ≤ (w.now + push.wait) + 600 * sec ∧ Working e w2 ∧
         Acceptable use.provider (World.wait w2 use.wait) r) →
        ∃ resp, (step e (exec e (step e w push).2 between) use).1 = .ok (.authorize resp) := by
  obtain ⟨iss, client, server, hiss, hn, hc, hs, hv, hg, hi⟩ := ha
  obtain ⟨ds, ss, items, h1, h2, _⟩ := grantable_items hn hg
  obtain ⟨w1, hver, f1, f2, f3, f4⟩ := Authorize.verify_of (P := push.provider) (iss := iss) (isPar := false) (r := r) (e := e)
    (w := World.wait w push.wait) hst hc hs (fun h => absurd h (hp server hs)) hv h1 h2 hi
  have hrun : ∃ presp w', (par push.provider r).run e (World.wait w push.wait) = (.ok presp, w') := by
    refine ⟨{ requestUri := urn ++ e.rng w1.drawn, expiresIn := 600 }, { w1 with
        store := upd w1.store (urn ++ e.rng w1.drawn)
          (some { subjectId := none, stage := .pushed r (w1.now + parDur), expiresAt := w1.now + parDur })
        drawn := w1.drawn + 1, ops := w1.ops + 1 }, ?_⟩
    simp only [par, run_bind_ok, run_lift_ok, orErr_ok, run_nowE_ok, run_drawE_ok, run_putE_ok, run_pure_ok]
    exact ⟨iss, _, ⟨hiss, rfl⟩, _, _, hver, _, _, ⟨rfl, rfl⟩, _, _, ⟨rfl, rfl⟩, _, _, ⟨rfl, rfl⟩, (), _, ⟨hst _ f4, rfl⟩, rfl, rfl⟩
  obtain ⟨presp, w', hrun⟩ := hrun
  have hstep := step_par (e := e) (w := w) hpush
  rw [hrun] at hstep
  refine ⟨presp, by rw [hstep]; rfl, ?_⟩
  intro between use huse ⟨q1, q2, q3, q4⟩
  obtain ⟨_, _, _, _, _, _, _, _, _, _, _, _, g1, g2, g3, g4⟩ := par_ok hrun
  have hst0 : (step e w push).2.store presp.requestUri =
      some { subjectId := none, stage := .pushed r (w.now + push.wait + parDur), expiresAt := w.now + push.wait + parDur } := by
    rw [hstep]
    show w'.store presp.requestUri = _
    rw [g2, g1]
    simp [World.wait]
  have hfro := ((hw.step push).frozen he hst0 (by rintro ⟨t, ht⟩; cases ht)).exec he between
  rw [step_authorize huse]
  obtain ⟨resp, w3, hr, _⟩ := C91_acceptable_request_gets_code (P := use.provider) (request := .uri presp.requestUri) (e := e)
    (w := World.wait (exec e (step e w push).2 between) use.wait) q3 (r := r) (by
      cases hc2 : (exec e (step e w push).2 between).store presp.requestUri with
      | none => exact absurd hc2 q1
      | some v =>
        refine ⟨v, w.now + push.wait + parDur, hc2, by rw [hfro.same v hc2], ?_⟩
        simp only [World.wait, parDur]
        exact q2) q4 (fun _ _ _ => ⟨_, rfl⟩)
  exact ⟨resp, by rw [hr]; rfl⟩

/-- C94 applies to it: the demo request is pushed, an offer is made, and ten minutes after the push it is authorized. -/
example : ∃ presp, (step Demo.env Demo.offered { provider := Demo.provider, req := .par Demo.authReq }).1 = .ok (.par presp) ∧
    ∃ resp, (step Demo.env (exec Demo.env (step Demo.env Demo.offered { provider := Demo.provider, req := .par Demo.authReq }).2
        [{ provider := Demo.provider, wait := 5, req := .createOffer Demo.offerReq }])
      { provider := Demo.provider, wait := 599999999995, req := .authorize (.uri presp.requestUri) }).1 = .ok (.authorize resp) := by
  obtain ⟨presp, h1, h2⟩ := C94_acceptable_request_can_be_pushed Demo.env_fresh (w := Demo.offered)
    (push := { provider := Demo.provider, req := .par Demo.authReq }) ⟨_, _, rfl⟩ rfl (Demo.working _) (Demo.acceptable _)
    (by intro s h; cases h; simp [Demo.server])
  refine ⟨presp, h1, h2 _ _ rfl ⟨?_, ?_, Demo.working _, Demo.acceptable _⟩⟩
  · have : presp = { requestUri := urn ++ Demo.rng 2, expiresIn := 600 } := by
      cases h1; rfl
    subst this
    decide
  · show (exec Demo.env (step Demo.env Demo.offered { provider := Demo.provider, req := .par Demo.authReq }).2
        [{ provider := Demo.provider, wait := 5, req := .createOffer Demo.offerReq }]).now + 599999999995 ≤
      Demo.offered.now + (0 : Nat) + 600 * sec
    decide

/-- **C92**. `create_offer` succeeds exactly when the issuer and server are known, at least one credential is offered and all are
supported, the grant types are supported by the server, an offer with a pre-authorized code is for a subject whom the Subject
provider authorizes for each credential, and the issuer's list of authorization servers, if given, is not empty. -/
theorem C92_offer_created_iff {P : Provider} {req : CreateOfferRequest} {e : Env} {w : World State} (hst : Working e w) :
    (∃ resp w', (createOffer P req).run e w = (.ok resp, w')) ↔
      ∃ iss srv, P.issuer req.credentialIssuer = some iss ∧ P.server req.credentialIssuer = some srv ∧
        req.credentialIssuer ≠ "" ∧ req.configIds ≠ [] ∧ (∀ id ∈ req.configIds, ∃ cfg, (id, cfg) ∈ iss.configs) ∧
        (∀ gts sup, req.grantTypes = some gts → srv.grantTypesSupported = some sup → ∀ g ∈ gts, g ∈ sup) ∧
        (req.requests .preAuthorizedCode → ∃ subj, req.subjectId = some subj ∧
          ∀ id ∈ req.configIds, ∃ ids, P.authorize subj id = some ids) ∧
        iss.authorizationServers ≠ some [] := by
  have hkeys : ∀ (m : Dict CredentialConfiguration) id, id ∈ Dict.keys m ↔ ∃ cfg, (id, cfg) ∈ m := by
    intro m id; simp [Dict.keys]
  have hreqs : req.requests .preAuthorizedCode ↔ GrantType.preAuthorizedCode ∈ CreateOffer.grants req := by
    simp [CreateOfferRequest.requests, CreateOffer.grants, mem_getD_nil]
  have hauth : ∀ (subj : String) (ids : List String), (∃ l, CreateOffer.authorize P subj ids = .ok l) ↔
      ∀ id ∈ ids, ∃ x, P.authorize subj id = some x := by
    intro subj ids
    induction ids with
    | nil => simp [CreateOffer.authorize, pure, Except.pure]
    | cons id ids ih =>
      simp only [CreateOffer.authorize, Except.bind_ok, orErr_ok, pure, Except.pure, Except.ok.injEq, List.mem_cons,
        forall_eq_or_imp]
      rw [← ih]
      constructor
      · rintro ⟨l, x, h1, y, h2, _⟩; exact ⟨⟨x, h1⟩, y, h2⟩
      · rintro ⟨⟨x, h1⟩, y, h2⟩; exact ⟨_, x, h1, y, h2, rfl⟩
  constructor
  · rintro ⟨resp, w', h⟩
    obtain ⟨iss, srv, offer, tx, w1, w2, w3, h1, h2, h3, h4, rfl, h5, h6, h7⟩ := createOffer_ok_iff.1 h
    obtain ⟨v1, v2, v3, v4⟩ := CreateOffer.verify_ok.1 h3
    refine ⟨iss, srv, h1, h2, v1, v2, fun id hid => (hkeys _ _).1 (v3 id hid), fun gts sup hg hs => (v4 gts hg).1 sup hs, ?_, ?_⟩
    · intro hpre
      obtain ⟨gts, hg, hgm⟩ : ∃ gts, req.grantTypes = some gts ∧ GrantType.preAuthorizedCode ∈ gts := by
        simpa [CreateOfferRequest.requests] using hpre
      obtain ⟨subj, hsubj⟩ := (v4 gts hg).2 hgm
      refine ⟨subj, hsubj, (hauth subj req.configIds).1 ?_⟩
      have hpre' := hreqs.1 hpre
      rcases CreateOffer.saveOffer_ok.1 h6 with ⟨hs, _⟩ | ⟨_, items, key, hi, _⟩
      · simp [CreateOffer.saves, hpre'] at hs
      · simp only [CreateOffer.offerItems, List.contains_iff_mem, hpre', if_true, hsubj, Option.getD_some] at hi
        cases ha : CreateOffer.authorize P subj req.configIds with
        | error x => rw [ha] at hi; cases hi
        | ok l => exact ⟨l, rfl⟩
    · intro hnil
      simp only [CreateOffer.credentialOffer, CreateOffer.authorizationServer, hnil, Except.bind_ok] at h4
      obtain ⟨_, h4, _⟩ := h4
      cases h4
  · rintro ⟨iss, srv, h1, h2, v1, v2, v3, v4, v5, v6⟩
    have h3 : CreateOffer.verify iss srv req = .ok () := by
      refine CreateOffer.verify_ok.2 ⟨v1, v2, fun id hid => (hkeys _ _).2 (v3 id hid), fun gts hg => ⟨fun s hs => v4 gts s hg hs, ?_⟩⟩
      intro hgm
      obtain ⟨subj, hs, _⟩ := v5 (by simpa [CreateOfferRequest.requests, hg] using hgm)
      exact ⟨subj, hs⟩
    obtain ⟨srv0, hsrv0⟩ : ∃ x, CreateOffer.authorizationServer iss = .ok x := by
      unfold CreateOffer.authorizationServer
      cases ha : iss.authorizationServers with
      | none => exact ⟨_, rfl⟩
      | some l =>
        cases l with
        | nil => exact absurd ha v6
        | cons x l => exact ⟨_, rfl⟩
    obtain ⟨offer, h4⟩ : ∃ o, CreateOffer.credentialOffer iss req (e.rng w.drawn) = .ok o := by
      simp only [CreateOffer.credentialOffer, hsrv0, pure, Except.pure]
      exact ⟨_, rfl⟩
    obtain ⟨o1, o2, o3, o4, o5⟩ := CreateOffer.credentialOffer_ok h4
    -- the world after the transaction code
    obtain ⟨tx, w2, h5⟩ : ∃ tx w2, (CreateOffer.txCode P req).run e { w with drawn := w.drawn + 1 } = (.ok tx, w2) :=
      ⟨_, _, CreateOffer.txCode_ok.2 ⟨rfl, rfl⟩⟩
    have hops2 : w2.ops = w.ops := by
      have := (CreateOffer.txCode_ok.1 h5).2
      rw [this]; split <;> rfl
    obtain ⟨w3, h6, hops3⟩ : ∃ w3, (CreateOffer.saveOffer P req offer tx).run e w2 = (.ok (), w3) ∧ w.ops ≤ w3.ops := by
      by_cases hsv : CreateOffer.saves req = true
      · have hitems : ∃ items, CreateOffer.offerItems P req = .ok items := by
          unfold CreateOffer.offerItems
          split
          · rename_i hpre
            obtain ⟨subj, hs, ha⟩ := v5 (hreqs.2 (by simpa using hpre))
            obtain ⟨l, hl⟩ := (hauth subj req.configIds).2 ha
            exact ⟨some l, by simp [hs, hl, Except.map]⟩
          · exact ⟨_, rfl⟩
        obtain ⟨items, hitems⟩ := hitems
        have hkey : ∃ key, CreateOffer.stateKey offer.grants = .ok key := by
          simp only [CreateOffer.saves, Bool.or_eq_true, List.contains_iff_mem] at hsv
          unfold CreateOffer.stateKey
          rcases hsv with hpre | hau
          · obtain ⟨g, p, hg, hp⟩ := o5 hpre
            simp [hg, hp]
          · obtain ⟨g, a, hg, ha⟩ := o4 hau
            have := ((o3 g hg).1 a ha).2
            cases hp : g.preAuthorizedCode with
            | some p => simp [hg, hp]
            | none => simp [hg, hp, ha, this, orErr]
        obtain ⟨key, hkey⟩ := hkey
        exact ⟨_, CreateOffer.saveOffer_ok.2 (.inr ⟨hsv, items, key, hitems, hkey, hst _ (by omega), rfl⟩), by simp; omega⟩
      · exact ⟨w2, CreateOffer.saveOffer_ok.2 (.inl ⟨by simpa using hsv, rfl⟩), by omega⟩
    obtain ⟨resp, w4, h7⟩ : ∃ resp w4, (CreateOffer.respond req offer tx).run e w3 = (.ok resp, w4) := by
      cases hsd : req.sendType with
      | byVal => exact ⟨_, _, CreateOffer.respond_ok.2 (.inl ⟨hsd, rfl, rfl⟩)⟩
      | byRef => exact ⟨_, _, CreateOffer.respond_ok.2 (.inr ⟨hsd, hst _ hops3, rfl, rfl⟩)⟩
    exact ⟨resp, w4, createOffer_ok_iff.2 ⟨iss, srv, offer, tx, _, _, _, h1, h2, h3, h4, rfl, h5, h6, h7⟩⟩

/-- C92: the demo offer is created. -/
example : ∃ resp w', (createOffer Demo.provider Demo.offerReq).run Demo.env Demo.offered = (.ok resp, w') :=
  (C92_offer_created_iff (Demo.working _)).2 ⟨Demo.issuer, Demo.server, rfl, rfl, by decide, by decide,
    by intro id hid; simp [Demo.offerReq] at hid; subst hid; exact ⟨_, .head _⟩,
    by intro g s hg hs x hx; cases hg; cases hs; simp at hx; subst hx; decide,
    fun _ => ⟨_, rfl, by intro id hid; simp [Demo.offerReq] at hid; subst hid; exact ⟨_, rfl⟩⟩, by decide⟩
end Verif.Issuer
