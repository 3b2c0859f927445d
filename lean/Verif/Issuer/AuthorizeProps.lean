import Verif.Issuer.AuthorizeLemmas
import Verif.Issuer.StepLemmas
import Verif.Issuer.Demo
/-!
# Properties of the authorization endpoints: C09 – C16 (and the authorization half of C07)
-/
namespace Verif.Issuer
open Prog

/-- **C09** (and C07 for this endpoint). A code is only issued when the request (given directly or pushed before and not
expired) comes from a registered client and is valid: see `ValidAuthorization` for the conditions. -/
theorem C09_code_needs_valid_request {P : Provider} {request : AuthorizationRequest} {e : Env} {w w' : World State}
    {resp : AuthorizationResponse} (h : (authorize P request).run e w = (.ok resp, w')) :
    ∃ r client server, request.DenotesIn w r ∧ P.client r.clientId = some client ∧
      P.server r.credentialIssuer = some server ∧ ValidAuthorization client server r := by
  obtain ⟨r, iss, client, server, ds, ss, items, h1, h2, h3, h4, h5, h6, _⟩ := authorize_ok h
  exact ⟨r, client, server, h1, h3, h4, h6⟩

/-- C09 is not vacuous; and e.g. an unregistered redirect URI or a 42 byte challenge is refused. -/
example : Demo.isOk ((authorize Demo.provider (.object Demo.authReq)).run Demo.env (start 0)).1 = true ∧
    Demo.isOk ((authorize Demo.provider (.object { Demo.authReq with redirectUri := some "http://evil" })).run Demo.env
      (start 0)).1 = false ∧
    Demo.isOk ((authorize Demo.provider (.object { Demo.authReq with
      codeChallenge := "012345678901234567890123456789012345678901" })).run Demo.env (start 0)).1 = false := by decide

/-- **C10**, binding: what is stored under a new code is the client id, redirect URI, challenge and subject of the request, for
five minutes. -/
theorem C10_code_carries_binding {e : Env} (he : Env.Fresh e) {w : World State} (hw : Reachable e w) {s : Step}
    {request : AuthorizationRequest} (hreq : s.req = .authorize request) {resp : AuthorizationResponse}
    (h : (step e w s).1 = .ok (.authorize resp)) :
    ∃ r st a, request.DenotesIn (World.wait w s.wait) r ∧ (step e w s).2.store resp.code = some st ∧
      st.stage = .authorized a ∧ a.clientId = r.clientId ∧ a.redirectUri = r.redirectUri ∧
      a.codeChallenge = r.codeChallenge ∧ st.subjectId = some r.subjectId ∧
      st.expiresAt = (w.now + s.wait) + 5 * 60 * sec := by
  rw [step_authorize hreq] at h ⊢
  obtain ⟨resp', h, hr⟩ := map_ok.1 h
  cases hr
  obtain ⟨r, iss, client, server, ds, ss, items, h1, h2, h3, h4, h5, h6, h7, h8, h9, h10, h11, h12, _⟩ :=
    authorize_ok (pair_of_fst h)
  refine ⟨r, Authorize.stored r items _, _, h1, ?_, rfl, rfl, rfl, rfl, rfl, rfl⟩
  show ((authorize s.provider request).run e (World.wait w s.wait)).2.store resp.code = _
  rw [h12, h11]
  cases hk : r.issuerState with
  | none => simp [World.wait]
  | some k =>
    have hne : e.rng (World.wait w s.wait).drawn ≠ k := by
      intro heq
      obtain ⟨s', hs', _⟩ := h9 k hk
      have := (hw.unused he (Nat.le_refl _)).1
      rw [show e.rng w.drawn = k from heq, show w.store k = some s' from hs'] at this
      cases this
    simp [hne]; simp [World.wait]

/-- **C10**, redemption: while a code is stored and live, a token request with the client id, redirect URI and a verifier for
the challenge succeeds — whatever happened in between — if the provider still knows the client and server as it did. -/
theorem C10_code_redeemable {e : Env} (he : Env.Fresh e) {w : World State} (hw : Reachable e w) {s : Step}
    {request : AuthorizationRequest} (hreq : s.req = .authorize request) {resp : AuthorizationResponse}
    (h : (step e w s).1 = .ok (.authorize resp)) :
    ∃ r, request.DenotesIn (World.wait w s.wait) r ∧
      ∀ (between : List Step) (redeem : Step) (verifier : String) (treq : TokenRequest),
        redeem.req = .token treq →
        treq.credentialIssuer = r.credentialIssuer → treq.clientId = some r.clientId →
        treq.grantType = .authorizationCode resp.code r.redirectUri (some verifier) →
        redeem.provider.codeChallenge verifier = r.codeChallenge →
        redeem.provider.client r.clientId = s.provider.client r.clientId →
        redeem.provider.server r.credentialIssuer = s.provider.server r.credentialIssuer →
        (let w2 := exec e (step e w s).2 between
         w2.store resp.code ≠ none ∧ (∀ n, n < 3 → e.fault (w2.ops + n) = .ok) ∧
         w2.now + redeem.wait < (w.now + s.wait) + 5 * 60 * sec + sec) →
        ∃ tr, (step e (exec e (step e w s).2 between) redeem).1 = .ok (.token tr) := by
  obtain ⟨r0, st, a, hden0, hst, hstage, ha1, ha2, ha3, _, hexp⟩ := C10_code_carries_binding he hw hreq h
  have hw1 := hw.step s
  have hfro := hw1.frozen he hst (by rintro ⟨t, ht⟩; rw [hstage] at ht; cases ht)
  rw [step_authorize hreq] at h
  obtain ⟨resp', h, hr⟩ := map_ok.1 h
  cases hr
  obtain ⟨r, iss, client, server, ds, ss, items, h1, h2, h3, h4, h5, h6, _⟩ := authorize_ok (pair_of_fst h)
  have hrr : r = r0 := by
    cases request with
    | object r' => exact h1.trans hden0.symm
    | uri u =>
      obtain ⟨s1, e1, a1, b1, _⟩ := h1
      obtain ⟨s2, e2, a2, b2, _⟩ := hden0
      rw [a1] at a2; cases a2
      rw [b1] at b2; cases b2; rfl
  subst hrr
  refine ⟨r, h1, ?_⟩
  intro between redeem verifier treq q1 q2 q3 q4 q5 q6 q7 ⟨q8, q9, q10⟩
  have hst2 : (exec e (step e w s).2 between).store resp.code = some st := by
    cases hc : (exec e (step e w s).2 between).store resp.code with
    | none => exact absurd hc q8
    | some v => rw [(hfro.exec he between).same v hc]
  obtain ⟨l, hl, hl'⟩ := h6.grantType.1
  obtain ⟨cs, sv, hcs, hsv, hsub⟩ := h6.scope
  have hv : Token.verify redeem.provider st (World.wait (exec e (step e w s).2 between) redeem.wait).now treq = .ok () := by
    refine Token.verify_ok.2 ⟨?_, server, l, by rw [q2, q7]; exact h4, hl, ?_, ?_⟩
    · rw [hexp]; exact q10
    · refine (Token.checkGrant_auth q4).2 ⟨a, verifier, hstage, hl', by rw [q3, ha1], ha2.symm, rfl, by rw [q5, ha3]⟩
    · refine Token.checkClient_ok.2 fun cid hcid => ?_
      rw [q3] at hcid; cases hcid
      exact ⟨client, by rw [q6]; exact h3, cs, sv, hcs, hsv, hsub⟩
  rw [step_token q1]
  have hrun := (token_ok_iff (w := World.wait (exec e (step e w s).2 between) redeem.wait)).2 ⟨st, a.items, q9 0 (by decide), q9 1 (by decide), q9 2 (by decide),
    by rw [q4]; exact hst2, hv, by simp [Token.grantedItems, q4, hstage], rfl, rfl⟩
  exact ⟨_, map_ok.2 ⟨_, congrArg Prod.fst hrun, rfl⟩⟩

/-- C10 is not vacuous: the demo code is redeemed after an unrelated offer was created in between. -/
example : Demo.isOk (step Demo.env (exec Demo.env Demo.authorized
      [{ provider := Demo.provider, wait := 299000000000, req := .createOffer Demo.offerReq }])
      { provider := Demo.provider, wait := 1900000000, req := .token (Demo.codeReq (Demo.rng 0)) }).1 = true ∧
    Demo.provider.codeChallenge "verifier" = Demo.authReq.codeChallenge := by decide

/-- What an authorization detail asks for: the configuration it names, or one with the format it names. -/
def Asks (iss : Issuer) (d : AuthorizationDetail) (cfg : String) : Prop :=
  match d.credential with
  | .configurationId id _ => cfg = id
  | .format f => ∃ c, (cfg, c) ∈ iss.configs ∧ SameCredential (.format c.format) (.format f)

theorem asks_of_target {iss : Issuer} {d : AuthorizationDetail} {id : String} {c : Option (Dict Claim)}
    (h : Authorize.detailTarget iss d = .ok (id, c)) : Asks iss d id := by
  unfold Authorize.detailTarget at h
  unfold Asks
  split at h
  · rename_i hd; rw [hd]; cases h; rfl
  · rename_i f hd
    rw [hd]
    simp only [Except.bind_ok, orErr_ok, pure, Except.pure, Except.ok.injEq, Prod.mk.injEq] at h
    obtain ⟨x, h, rfl, _⟩ := h
    simp only [Issuer.configurationId, Option.map_eq_some_iff] at h
    obtain ⟨y, hy, rfl⟩ := h
    exact ⟨y.2, List.mem_of_find?_eq_some hy, (sameCredential_iff (.format y.2.format) (.format f)).1 (by have := List.find?_some hy; exact this)⟩

/-- **C11**, authorize: the credentials attached to a new code are, for each configuration asked for by a detail or by the
scope, exactly the identifiers the Subject provider returned for the request's subject. -/
theorem C11_authorized_as_subject_provider_says {P : Provider} {request : AuthorizationRequest} {e : Env}
    {w w' : World State} {resp : AuthorizationResponse} (h : (authorize P request).run e w = (.ok resp, w')) :
    ∃ r iss items, request.DenotesIn w r ∧ P.issuer r.credentialIssuer = some iss ∧ items ≠ [] ∧
      (r.issuerState ≠ some resp.code → ∃ st a, w'.store resp.code = some st ∧ st.stage = .authorized a ∧ a.items = items) ∧
      (∀ it ∈ items, P.authorize r.subjectId it.configId = some it.identifiers) ∧
      (∀ it ∈ items,
        (∃ ds d, r.authorizationDetails = some ds ∧ d ∈ ds ∧ it.item = .detail d ∧ Asks iss d it.configId) ∨
        (∃ scope cfg word, r.scope = some scope ∧ (it.configId, cfg) ∈ iss.configs ∧ cfg.scope = some word ∧
          word ∈ splitWs scope ∧ it.item = .scope word)) ∧
      (∀ ds d, r.authorizationDetails = some ds → d ∈ ds → ∃ it ∈ items, Asks iss d it.configId) := by
  obtain ⟨r, iss, client, server, ds, ss, items, h1, h2, h3, h4, h5, h6, h7, h8, h9, h10, h11, h12, _⟩ := authorize_ok h
  obtain ⟨hne, hperm, hit⟩ := Authorize.authorizeItems_spec h10
  refine ⟨r, iss, items, h1, h2, hne, ?_, fun it hi => (hit it hi).1, ?_, ?_⟩
  · intro hk
    refine ⟨Authorize.stored r items w.now, _, ?_, rfl, rfl⟩
    rw [h12, h11]
    cases hk' : r.issuerState with
    | none => simp
    | some k =>
      rw [hk', h11] at hk
      have : e.rng w.drawn ≠ k := fun h => hk (by rw [h])
      simp [this]
  · intro it hi
    rcases (hit it hi).2 with ⟨d, hd, hm⟩ | ⟨sc, hd, hm⟩
    · left
      cases hda : r.authorizationDetails with
      | none => rw [hda] at h7; simp only [Authorize.verifyDetailsOpt, Except.ok.injEq] at h7; subst h7; cases hm
      | some l =>
        rw [hda] at h7
        obtain ⟨_, _, k3⟩ := Authorize.verifyDetails_keys h7
        rcases k3 _ hm with hm | ⟨hm, c, hc⟩
        · cases hm
        · exact ⟨l, d, rfl, hm, hd, asks_of_target hc⟩
    · right
      cases hsc : r.scope with
      | none => rw [hsc] at h8; simp only [Authorize.verifyScopeOpt, Except.ok.injEq] at h8; subst h8; cases hm
      | some scope =>
        rw [hsc] at h8
        simp only [Authorize.verifyScopeOpt, Authorize.verifyScope] at h8
        split at h8
        · cases h8; cases hm
        · rename_i word rest hw
          split at h8
          · cases h8
          · cases h8
            obtain ⟨x, hx, hx'⟩ := List.mem_map.1 hm
            obtain ⟨hx1, hx2⟩ := List.mem_filter.1 hx
            obtain ⟨x1, x2⟩ := x
            simp only [Prod.mk.injEq] at hx'
            obtain ⟨rfl, rfl⟩ := hx'
            simp only [Bool.and_eq_true, beq_iff_eq] at hx2
            exact ⟨scope, x2, word, rfl, hx1, hx2.2, by rw [hw]; simp, hd⟩
  · intro l d hl hd
    rw [hl] at h7
    obtain ⟨k1, k2, _⟩ := Authorize.verifyDetails_keys h7
    obtain ⟨id, c, hc, _⟩ := k2 d hd
    have : id ∈ Dict.keys ds := (k1 id).2 (.inr ⟨d, hd, c, hc⟩)
    have : id ∈ items.map (fun it => it.configId) := hperm.mem_iff.2 (List.mem_append.2 (.inl this))
    obtain ⟨it, hi, rfl⟩ := List.mem_map.1 this
    exact ⟨it, hi, asks_of_target hc⟩

/-- **C11**, refusal: if the Subject provider refuses a configuration that a detail names, no code is issued. -/
theorem C11_refused_when_subject_provider_refuses {P : Provider} {r : RequestObject} {ds : List AuthorizationDetail}
    {d : AuthorizationDetail} {id : String} {c : Option ProfileClaims} (hds : r.authorizationDetails = some ds) (hd : d ∈ ds)
    (hid : d.credential = .configurationId id c) (hno : P.authorize r.subjectId id = none) (e : Env) (w : World State) :
    Refused ((authorize P (.object r)).run e w).1 := by
  intro resp h
  obtain ⟨r', iss, items, h1, _, _, _, h2, _, h3⟩ := C11_authorized_as_subject_provider_says (pair_of_fst h)
  cases h1
  obtain ⟨it, hi, ha⟩ := h3 ds d hds hd
  simp only [Asks, hid] at ha
  have := h2 it hi
  rw [ha, hno] at this
  cases this

/-- C11 is not vacuous: a subject the provider does not know is refused, the demo subject gets its identifier. -/
example : Demo.isOk ((authorize Demo.provider (.object { Demo.authReq with subjectId := "other" })).run Demo.env
      (start 0)).1 = false ∧
    ((Demo.authorized.store (Demo.rng 0)).map fun s => match s.stage with
      | .authorized a => a.items.map (fun it => (it.configId, it.identifiers)) | _ => []) = some [("Employee", ["emp-1"])] := by
  decide

/-- **C12**, first half: where pushed authorization is required, a direct authorization request is refused. (Missing from the
full claim: pushed requests being accepted, which is false, see `C12_required_par_locks_out`.) -/
theorem C12_direct_refused_partial {P : Provider} {r : RequestObject} {server : Server}
    (hs : P.server r.credentialIssuer = some server) (hp : server.requirePar = some true) (e : Env) (w : World State) :
    Refused ((authorize P (.object r)).run e w).1 := by
  intro resp h
  obtain ⟨r', iss, client, server', ds, ss, items, h1, h2, h3, h4, h5, _⟩ := authorize_ok (pair_of_fst h)
  cases h1
  rw [hs] at h4; cases h4
  obtain ⟨u, hu⟩ := h5 hp
  cases hu

/-- The provider requires pushed authorization, for every issuer. -/
def RequiresPar (P : Provider) : Prop := ∀ i server, P.server i = some server → server.requirePar = some true

/-- **C12**, negation: in every history of a service that requires pushed authorization, every push and every authorization, by
request URI too, is refused. -/
theorem C12_required_par_locks_out {e : Env} {t0 : Int} {history : List Step}
    (hall : ∀ s ∈ history, RequiresPar s.provider) {s : Step} (hs : RequiresPar s.provider)
    (hreq : (∃ r, s.req = .authorize r) ∨ ∃ r, s.req = .par r) : Refused (step e (exec e (start t0) history) s).1 := by
  have hpar : ∀ (P : Provider) (r : RequestObject) (w : World State), RequiresPar P →
      ∀ x, ((par P r).run e w).1 ≠ .ok x := by
    intro P r w hP x hx
    obtain ⟨iss, client, server, ds, ss, _, _, h3, h4, _⟩ := par_ok (pair_of_fst hx)
    exact h4 (hP _ _ h3)
  -- no pushed request is ever stored
  have inv : ∀ (l : List Step) (w : World State), (∀ s ∈ l, RequiresPar s.provider) →
      (∀ k v r x, w.store k = some v → v.stage ≠ .pushed r x) →
      ∀ k v r x, (exec e w l).store k = some v → v.stage ≠ .pushed r x := by
    intro l
    induction l with
    | nil => exact fun w _ h => h
    | cons s0 l ih =>
      intro w hl hw
      refine ih _ (fun s hs => hl s (by simp [hs])) ?_
      have h0 := hl s0 (by simp)
      let R : String → State → Prop := fun _ v => ∀ r x, v.stage ≠ .pushed r x
      have hg : Guar R (PutOk R) (fun _ => True) (call s0.provider s0.req) (fun _ => True) := by
        have hS : ∀ s t n x y k, R k (renewed s t n x y) := by rintro s t n x y k r z h; cases h
        have hDf : ∀ k t r, R k { subjectId := none, stage := .deferred k r, expiresAt := t } := by
          rintro k t r r' x h; cases h
        cases hr : s0.req with
        | createOffer r =>
          refine Guar.bind (createOffer_guar ?_ ?_) fun _ _ => Guar.pure trivial
          · rintro k t items tx _ _ _ _ ht; cases ht
          · rintro k t items _ _ _ ht; cases ht
        | authorize r =>
          refine Guar.bind (authorize_guar ?_ ?_) fun _ _ => Guar.pure trivial
          · rintro r k t a _ _ _ _ _ _ _ _ ht; cases ht
          · rintro r k _ _; trivial
        | credentialOffer r => exact Guar.bind (credentialOffer_guar trivial) fun _ _ => Guar.pure trivial
        | par r =>
          -- the checks of `par` fail before anything is written
          refine Guar.bind (Q := fun _ => True) ?_ fun _ _ => Guar.pure trivial
          unfold par
          refine Guar.bind (Q := fun _ => True) (Guar.lift fun _ _ => trivial) fun iss _ => ?_
          refine Guar.bind (Q := fun _ => False) ?_ fun _ h => h.elim
          unfold Authorize.verify
          refine Guar.bind (Q := fun _ => True) (Guar.lift fun _ _ => trivial) fun c _ => ?_
          refine Guar.bind (Q := fun srv => s0.provider.server r.credentialIssuer = some srv)
            (Guar.lift fun srv h => by simpa using h) fun srv hsrv => ?_
          refine Guar.bind (Q := fun _ => False) (Guar.lift fun u h => ?_) fun _ h => h.elim
          have := (Authorize.verifyPre_ok.1 h).1 (h0 _ _ hsrv)
          cases this
        | token r =>
          refine Guar.bind (token_guar trivial ?_) fun _ _ => Guar.pure trivial
          rintro s k n t t' items _ _ _ _ _ _ _ h; cases h
        | credential r =>
          exact Guar.bind (credential_guar (fun s t n x y _ _ _ => hS s t n x y t.accessToken)
            (fun s t n k x y _ _ _ _ => hS s t n x y k) (fun k t _ => hDf k t r)) fun _ _ => Guar.pure trivial
        | deferred r =>
          exact Guar.bind (deferred_guar trivial (fun s t n x y _ _ _ => hS s t n x y t.accessToken)
            (fun s t n k x y _ _ _ _ => hS s t n x y k) (fun k t r _ => hDf k t r)) fun _ _ => Guar.pure trivial
        | notification r => exact Guar.bind (notification_guar trivial) fun _ _ => Guar.pure trivial
        | register r => exact Guar.bind register_guar fun _ _ => Guar.pure trivial
        | metadata c => exact Guar.bind (Q := fun _ => True) (Guar.lift fun _ _ => trivial) fun _ _ => Guar.pure trivial
        | oauthServer c => exact Guar.bind (Q := fun _ => True) (Guar.lift fun _ _ => trivial) fun _ _ => Guar.pure trivial
      have := (Guar.run (e := e) (w := World.wait w s0.wait) hg (fun k v hw' r x => hw k v r x hw') (fun k v h => h)
        (fun _ _ _ => trivial)).1
      exact fun k v r x hv => this k v hv r x
  have hno := inv history (start t0) hall (fun k v r x h => by cases h)
  rcases hreq with ⟨r, hr⟩ | ⟨r, hr⟩
  · rw [step_authorize hr]
    intro x hx
    obtain ⟨resp, hx, _⟩ := map_ok.1 hx
    obtain ⟨r', iss, client, server, ds, ss, items, h1, h2, h3, h4, h5, _⟩ := authorize_ok (pair_of_fst hx)
    obtain ⟨u, rfl⟩ := h5 (hs _ _ h4)
    obtain ⟨s', exp, g1, g2, _⟩ := h1
    exact hno u s' r' exp g1 g2
  · rw [step_par hr]
    intro x hx
    obtain ⟨resp, hx, _⟩ := map_ok.1 hx
    exact hpar _ _ _ hs _ hx

/-- The service of C12 exists, and without the setting both its push and the authorization succeed. -/
example : RequiresPar (Demo.provider (srv := { Demo.server with requirePar := some true })) ∧
    Demo.isOk (step Demo.env (start 0) { provider := Demo.provider, req := .par Demo.authReq }).1 = true := by
  constructor
  · intro i server h
    simp only [Demo.provider] at h
    split at h <;> cases h
    rfl
  · decide

/-- **C13.** An authorization by the request URI of a push succeeds at most 600 seconds after the push, and then it is the
pushed request that is checked and authorized, whatever happened in between. -/
theorem C13_pushed_request_expires {e : Env} (he : Env.Fresh e) {w : World State} (hw : Reachable e w) {push : Step}
    {r : RequestObject} (hpush : push.req = .par r) {presp : ParResponse} (hok : (step e w push).1 = .ok (.par presp))
    (between : List Step) {use : Step} (huse : use.req = .authorize (.uri presp.requestUri)) {resp : Resp}
    (h : (step e (exec e (step e w push).2 between) use).1 = .ok resp) :
    let w2 := exec e (step e w push).2 between
    presp.expiresIn = 600 ∧ w2.now + use.wait ≤ (w.now + push.wait) + presp.expiresIn * sec ∧
    ∀ r', (AuthorizationRequest.uri presp.requestUri).DenotesIn (World.wait w2 use.wait) r' → r' = r := by
  have hw1 := hw.step push
  rw [step_par hpush] at hok
  obtain ⟨presp', hok, hr⟩ := map_ok.1 hok
  cases hr
  obtain ⟨_, _, _, _, _, _, _, _, _, _, _, _, g1, g2, g3, g4⟩ := par_ok (pair_of_fst hok)
  have hst : (step e w push).2.store presp.requestUri =
      some { subjectId := none, stage := .pushed r (w.now + push.wait + parDur), expiresAt := w.now + push.wait + parDur } := by
    rw [step_par hpush]
    show ((par push.provider r).run e (World.wait w push.wait)).2.store _ = _
    rw [g2, g1]
    simp [World.wait]
  have hfro := (hw1.frozen he hst (by rintro ⟨t, ht⟩; cases ht)).exec he between
  rw [step_authorize huse] at h
  obtain ⟨aresp, h, _⟩ := map_ok.1 h
  obtain ⟨r', iss, client, server, ds, ss, items, h1, _⟩ := authorize_ok (pair_of_fst h)
  have key : ∀ r'', (AuthorizationRequest.uri presp.requestUri).DenotesIn
      (World.wait (exec e (step e w push).2 between) use.wait) r'' →
      r'' = r ∧ (exec e (step e w push).2 between).now + use.wait ≤ w.now + push.wait + parDur := by
    rintro r'' ⟨s', exp, a1, a2, a3⟩
    have := hfro.same s' a1
    subst this
    cases a2
    exact ⟨rfl, a3⟩
  refine ⟨by rw [g1], ?_, fun r'' h => (key r'' h).1⟩
  have := (key r' h1).2
  rw [g1]; exact this

/-- C13 is not vacuous: the demo request, pushed, is authorized 599 seconds later and refused 601 seconds later. -/
example :
    let w := (step Demo.env (start 0) { provider := Demo.provider, req := .par Demo.authReq }).2
    Demo.isOk (step Demo.env w { provider := Demo.provider, wait := 599000000000, req := .authorize (.uri (urn ++ Demo.rng 0)) }).1
      = true ∧
    Demo.isOk (step Demo.env w { provider := Demo.provider, wait := 601000000000, req := .authorize (.uri (urn ++ Demo.rng 0)) }).1
      = false := by decide

/-- **C14**, negation: the same request URI is accepted twice in a row. -/
theorem C14_request_uri_reusable :
    ∃ (e : Env) (w : World State) (push use : Step) (presp : ParResponse), Env.Fresh e ∧ Reachable e w ∧
      (step e w push).1 = .ok (.par presp) ∧ use.req = .authorize (.uri presp.requestUri) ∧
      (∃ r1, (step e (step e w push).2 use).1 = .ok (.authorize r1)) ∧
      ∃ r2, (step e (step e (step e w push).2 use).2 use).1 = .ok (.authorize r2) :=
  ⟨Demo.env, start 0, { provider := Demo.provider, req := .par Demo.authReq },
    { provider := Demo.provider, req := .authorize (.uri (urn ++ Demo.rng 0)) }, _, Demo.env_fresh, ⟨0, [], rfl⟩, rfl, rfl,
    ⟨_, rfl⟩, ⟨_, rfl⟩⟩

/-- **C15.** An authorization with an `issuer_state` succeeds only if that state is stored, live and for the same subject; the
state is then removed. -/
theorem C15_issuer_state_bound_and_consumed {P : Provider} {request : AuthorizationRequest} {e : Env} {w w' : World State}
    {resp : AuthorizationResponse} (h : (authorize P request).run e w = (.ok resp, w')) {r : RequestObject}
    (hden : request.DenotesIn w r) {k : String} (hk : r.issuerState = some k) :
    (∃ s, w.store k = some s ∧ Live s w.now ∧ s.subjectId = some r.subjectId) ∧ w'.store k = none := by
  obtain ⟨r', iss, client, server, ds, ss, items, h1, h2, h3, h4, h5, h6, h7, h8, h9, h10, h11, h12, _⟩ := authorize_ok h
  have hrr : r' = r := by
    cases request with
    | object r' => exact h1.trans hden.symm
    | uri u =>
      obtain ⟨s1, e1, a1, b1, _⟩ := h1
      obtain ⟨s2, e2, a2, b2, _⟩ := hden
      rw [a1] at a2; cases a2
      rw [b1] at b2; cases b2; rfl
  subst hrr
  refine ⟨h9 k hk, ?_⟩
  rw [h12, hk]
  simp

/-- **C15**, single use: after a successful authorization, the `issuer_state` of an offer is refused in every later
authorization, in any history. -/
theorem C15_issuer_state_single_use {e : Env} (he : Env.Fresh e) {w : World State} (hw : Reachable e w) {first : Step}
    {request : AuthorizationRequest} (hreq : first.req = .authorize request) {resp : Resp}
    (h : (step e w first).1 = .ok resp) {r : RequestObject} (hden : request.DenotesIn (World.wait w first.wait) r)
    {k : String} (hk : r.issuerState = some k) {s : State} (hs : w.store k = some s) (hoffer : ∃ o, s.stage = .offered o)
    (between : List Step) {later : Step} {request' : AuthorizationRequest} (hreq' : later.req = .authorize request')
    {r' : RequestObject}
    (hden' : request'.DenotesIn (World.wait (exec e (step e w first).2 between) later.wait) r')
    (hk' : r'.issuerState = some k) : Refused (step e (exec e (step e w first).2 between) later).1 := by
  have hgone : (step e w first).2.store k = none := by
    rw [step_authorize hreq] at h ⊢
    obtain ⟨aresp, h, _⟩ := map_ok.1 h
    exact (C15_issuer_state_bound_and_consumed (pair_of_fst h) hden hk).2
  have hsp := (hw.spent he hs (by
    obtain ⟨o, ho⟩ := hoffer
    rintro ⟨t, ht⟩; rw [ho] at ht; cases ht) first hgone).exec he between
  intro x hx
  rw [step_authorize hreq'] at hx
  obtain ⟨aresp, hx, _⟩ := map_ok.1 hx
  obtain ⟨⟨s', hs', _⟩, _⟩ := C15_issuer_state_bound_and_consumed (pair_of_fst hx) hden' hk'
  have hg : (World.wait (exec e (step e w first).2 between) later.wait).store k = none := hsp.gone
  rw [hg] at hs'
  cases hs'

/-- World with an offer for the authorization code flow; its `issuer_state` is `t`. -/
def Demo.offeredAuth : World State := exec Demo.env (start 0)
  [{ provider := Demo.provider, req := .createOffer { Demo.offerReq with grantTypes := some [.authorizationCode] } }]

/-- C15 is not vacuous: with the offer's state an authorization succeeds; repeated, or for another subject, it is refused. -/
example :
    let use : Step := { provider := Demo.provider, req := .authorize (.object { Demo.authReq with issuerState := some (Demo.rng 0) }) }
    ((Demo.offeredAuth.store (Demo.rng 0)).map fun s => s.subjectId) = some (some "normal") ∧
    Demo.isOk (step Demo.env Demo.offeredAuth use).1 = true ∧
    Demo.isOk (step Demo.env (step Demo.env Demo.offeredAuth use).2 use).1 = false := by decide

/-- **C16**, negation: an access token is accepted as `issuer_state`, and destroyed by it: a credential request that would have
succeeded is refused afterwards. -/
theorem C16_access_token_as_issuer_state :
    ∃ (e : Env) (w : World State) (P : Provider) (token : String) (s : State) (t : Token) (r : RequestObject)
      (use : CredentialRequest), Env.Fresh e ∧ Reachable e w ∧ w.store token = some s ∧ s.stage = .validated t ∧
      r.issuerState = some token ∧ use.accessToken = token ∧
      (∃ resp, (step e w { provider := P, req := .authorize (.object r) }).1 = .ok resp) ∧
      (∃ resp, (step e w { provider := P, req := .credential use }).1 = .ok resp) ∧
      Refused (step e (step e w { provider := P, req := .authorize (.object r) }).2
        { provider := P, req := .credential use }).1 :=
  ⟨Demo.env, Demo.validated, Demo.provider, Demo.rng 2, _, _, { Demo.authReq with issuerState := some (Demo.rng 2) },
    Demo.credReq (Demo.rng 2) (Demo.rng 3), Demo.env_fresh,
    ⟨0, [{ provider := Demo.provider, req := .createOffer Demo.offerReq },
      { provider := Demo.provider, req := .token (Demo.tokenReq (Demo.rng 0)) }], rfl⟩, rfl, rfl, rfl, rfl, ⟨_, rfl⟩, ⟨_, rfl⟩,
    by decide⟩

end Verif.Issuer
