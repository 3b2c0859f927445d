import Verif.Issuer.AcceptProps
/-!
# Exactly which requests get an authorization code or a request URI: C179, C180

C09 says what a success implies and C91 which requests succeed. Here both directions meet: the conditions below are all that is asked, no more and no less.
-/
namespace Verif.Issuer
open Prog

/-! ### Specification -/

/-- Which configuration the issuer takes a description of a credential for: the one that it names, or the first of those published that is of the format and
type described. (The list is in the order in which the map is gone through.) -/
inductive TakenFor (iss : Issuer) : CredentialAuthorization → String → Prop
  | named (id : String) (p : Option ProfileClaims) : TakenFor iss (.configurationId id p) id
  | format {f : Format} {id : String} {cfg : CredentialConfiguration} {before after : Dict CredentialConfiguration}
      (h : iss.configs = before ++ (id, cfg) :: after) (same : SameCredential (.format cfg.format) (.format f))
      (first : ∀ x ∈ before, ¬ SameCredential (.format x.2.format) (.format f)) : TakenFor iss (.format f) id

/-- The claims a description lists, if it does. -/
inductive Lists : CredentialAuthorization → Dict Claim → Prop
  | named (id : String) (p : ProfileClaims) (c : Dict Claim) (h : p.claims = some c) : Lists (.configurationId id (some p)) c
  | format (f : Format) (c : Dict Claim) (h : f.claims = some c) : Lists (.format f) c

/-- A configuration is asked for by an authorization detail of the request. -/
def Detailed (iss : Issuer) (r : RequestObject) (id : String) : Prop :=
  ∃ ds d, r.authorizationDetails = some ds ∧ d ∈ ds ∧ TakenFor iss d.credential id

/-- A configuration is asked for by the first value of the request's scope. (The others are ignored, see C135.) -/
def Scoped (iss : Issuer) (r : RequestObject) (id : String) : Prop :=
  ∃ s word rest cfg, r.scope = some s ∧ splitWs s = word :: rest ∧ (id, cfg) ∈ iss.configs ∧ cfg.scope = some word

/-- What the request asks for makes sense to the issuer. -/
structure Makes (iss : Issuer) (r : RequestObject) : Prop where
  /-- every detail is taken for some configuration; one that lists claims is taken for a published configuration and lists the mandatory claims of it -/
  details : ∀ ds d, r.authorizationDetails = some ds → d ∈ ds → ∃ id, TakenFor iss d.credential id ∧
    ∀ c, Lists d.credential c → ∃ cfg, (id, cfg) ∈ iss.configs ∧ ∀ sup, cfg.format.claims = some sup → MeetsMandatory c sup
  /-- the first value of a scope adds something to the details -/
  scope : ∀ s, r.scope = some s → splitWs s ≠ [] → ∃ id, Scoped iss r id ∧ ¬ Detailed iss r id

/-- The `issuer_state` of the request, if any, is the key of live state of the request's subject. -/
def FitsOffer (w : World State) (r : RequestObject) : Prop :=
  ∀ k, r.issuerState = some k → ∃ s, w.store k = some s ∧ Live s w.now ∧ s.subjectId = some r.subjectId

/-! ### Helpers -/

theorem target_iff {iss : Issuer} {d : AuthorizationDetail} {id : String} :
    (∃ c, Authorize.detailTarget iss d = .ok (id, c)) ↔ TakenFor iss d.credential id := by
  unfold Authorize.detailTarget
  cases hd : d.credential with
  | configurationId i p =>
    constructor
    · rintro ⟨c, h⟩; cases h; exact .named ..
    · rintro h; cases h; exact ⟨_, rfl⟩
  | format f =>
    simp only [Except.bind_ok, orErr_ok, Issuer.configurationId, Option.map_eq_some_iff, pure, Except.pure, Except.ok.injEq,
      Prod.mk.injEq]
    constructor
    · rintro ⟨c, i, ⟨⟨j, cfg⟩, hf, rfl⟩, rfl, _⟩
      obtain ⟨hp, as, bs, hl, hb⟩ := List.find?_eq_some_iff_append.1 hf
      refine .format hl ((sameCredential_iff (.format cfg.format) (.format f)).1 hp) fun x hx hs => ?_
      have := hb x hx
      rw [show x.2.format.eqv f = true from (sameCredential_iff (.format x.2.format) (.format f)).2 hs] at this
      cases this
    · intro h
      cases h with
      | format hl same first =>
        rename_i cfg as bs
        refine ⟨f.claims, id, ⟨(id, cfg), ?_, rfl⟩, rfl, rfl⟩
        refine List.find?_eq_some_iff_append.2 ⟨(sameCredential_iff (.format cfg.format) (.format f)).2 same, as, bs, hl, fun x hx => ?_⟩
        cases hq : x.2.format.eqv f with
        | false => rfl
        | true => exact absurd ((sameCredential_iff (.format x.2.format) (.format f)).1 hq) (first x hx)

theorem target_claims {iss : Issuer} {d : AuthorizationDetail} {id : String} {o : Option (Dict Claim)}
    (h : Authorize.detailTarget iss d = .ok (id, o)) (c : Dict Claim) : o = some c ↔ Lists d.credential c := by
  unfold Authorize.detailTarget at h
  split at h
  · rename_i i p hd
    cases h
    rw [hd]
    constructor
    · intro h
      cases p with
      | none => cases h
      | some p => exact .named _ _ _ h
    · intro h; cases h; assumption
  · rename_i f hd
    simp only [Except.bind_ok, orErr_ok, pure, Except.pure, Except.ok.injEq, Prod.mk.injEq] at h
    obtain ⟨_, _, _, rfl⟩ := h
    rw [hd]
    exact ⟨fun h => .format _ _ h, fun h => by cases h; assumption⟩

theorem checkClaims_iff {iss : Issuer} (hn : Dict.Nodup iss.configs) {id : String} {o : Option (Dict Claim)} :
    Authorize.checkClaims iss id o = .ok () ↔
      ∀ c, o = some c → ∃ cfg, (id, cfg) ∈ iss.configs ∧ ∀ sup, cfg.format.claims = some sup → MeetsMandatory c sup := by
  unfold Authorize.checkClaims
  cases o with
  | none => simp
  | some c =>
    simp only [Except.bind_ok, orErr_ok, require_ok, Option.some.injEq]
    constructor
    · rintro ⟨cfg, h1, h2⟩ _ rfl
      exact ⟨cfg, Dict.mem_of_get? h1, (C35_mandatory_claims cfg c).1 h2⟩
    · intro h
      obtain ⟨cfg, h1, h2⟩ := h c rfl
      exact ⟨cfg, Dict.get?_of_mem hn h1, (C35_mandatory_claims cfg c).2 h2⟩

theorem verifyDetails_iff {iss : Issuer} : ∀ (l : List AuthorizationDetail) (acc : Dict AuthorizationDetail),
    (∃ m, Authorize.verifyDetails iss l acc = .ok m) ↔
      ∀ d ∈ l, ∃ id c, Authorize.detailTarget iss d = .ok (id, c) ∧ Authorize.checkClaims iss id c = .ok ()
  | [], acc => by simp [Authorize.verifyDetails]
  | d :: l, acc => by
    constructor
    · rintro ⟨m, h⟩; exact (Authorize.verifyDetails_keys h).2.1
    · intro h
      obtain ⟨id, c, h1, h2⟩ := h d (by simp)
      obtain ⟨m, hm⟩ := (verifyDetails_iff l (acc.insert id d)).2 fun x hx => h x (by simp [hx])
      refine ⟨m, ?_⟩
      simp only [Authorize.verifyDetails, Except.bind_ok]
      exact ⟨_, h1, (), h2, hm⟩

theorem verifyDetailsOpt_iff {iss : Issuer} (hn : Dict.Nodup iss.configs) {o : Option (List AuthorizationDetail)} :
    (∃ m, Authorize.verifyDetailsOpt iss o = .ok m) ↔
      ∀ ds d, o = some ds → d ∈ ds → ∃ id, TakenFor iss d.credential id ∧
        ∀ c, Lists d.credential c → ∃ cfg, (id, cfg) ∈ iss.configs ∧ ∀ sup, cfg.format.claims = some sup → MeetsMandatory c sup := by
  cases o with
  | none => simp [Authorize.verifyDetailsOpt]
  | some l =>
    simp only [Authorize.verifyDetailsOpt, verifyDetails_iff, Option.some.injEq]
    constructor
    · rintro h _ d rfl hd
      obtain ⟨id, c, h1, h2⟩ := h d hd
      refine ⟨id, target_iff.1 ⟨c, h1⟩, fun cl hc => (checkClaims_iff hn).1 h2 cl ((target_claims h1 cl).2 hc)⟩
    · intro h d hd
      obtain ⟨id, h1, h2⟩ := h l d rfl hd
      obtain ⟨c, h3⟩ := target_iff.2 h1
      exact ⟨id, c, h3, (checkClaims_iff hn).2 fun cl hc => h2 cl ((target_claims h3 cl).1 hc)⟩

theorem detailed_keys {iss : Issuer} {r : RequestObject} {m : Dict AuthorizationDetail}
    (h : Authorize.verifyDetailsOpt iss r.authorizationDetails = .ok m) (id : String) : id ∈ Dict.keys m ↔ Detailed iss r id := by
  unfold Detailed
  cases hl : r.authorizationDetails with
  | none =>
    rw [hl] at h
    simp only [Authorize.verifyDetailsOpt, Except.ok.injEq] at h
    subst h
    simp [Dict.keys]
  | some l =>
    rw [hl] at h
    rw [(Authorize.verifyDetails_keys h).1 id]
    constructor
    · rintro (h | ⟨d, hd, hc⟩)
      · simp [Dict.keys] at h
      · exact ⟨l, d, rfl, hd, target_iff.1 hc⟩
    · rintro ⟨_, d, hl', hd, ht⟩
      cases hl'
      exact .inr ⟨d, hd, target_iff.2 ht⟩

theorem scoped_keys {iss : Issuer} {r : RequestObject} {m : Dict AuthorizationDetail} {ss : Dict String}
    (h : Authorize.verifyScopeOpt iss m r.scope = .ok ss) (id : String) :
    id ∈ Dict.keys ss ↔ Scoped iss r id ∧ id ∉ Dict.keys m := by
  unfold Scoped
  cases hs : r.scope with
  | none =>
    rw [hs] at h
    simp only [Authorize.verifyScopeOpt, Except.ok.injEq] at h
    subst h
    simp [Dict.keys]
  | some s =>
    rw [hs] at h
    simp only [Authorize.verifyScopeOpt, Authorize.verifyScope] at h
    split at h
    · rename_i hw
      cases h
      constructor
      · intro h; simp [Dict.keys] at h
      · rintro ⟨⟨_, word, rest, cfg, hs', hw', _⟩, _⟩
        cases hs'
        rw [hw] at hw'; cases hw'
    · rename_i word rest hw
      split at h
      · cases h
      · cases h
        simp only [Dict.keys, List.map_map, List.mem_map, List.mem_filter, Bool.and_eq_true, Bool.not_eq_true', beq_iff_eq,
          Function.comp_apply]
        constructor
        · rintro ⟨⟨i, cfg⟩, ⟨h1, h2, h3⟩, rfl⟩
          refine ⟨⟨s, word, rest, cfg, rfl, hw, h1, h3⟩, fun hk => ?_⟩
          rw [show Dict.has m i = true from Dict.has_iff.2 (by simpa [Dict.keys] using hk)] at h2
          cases h2
        · rintro ⟨⟨_, word', rest', cfg, hs', hw', h1, h2⟩, h3⟩
          cases hs'
          rw [hw] at hw'; cases hw'
          refine ⟨(id, cfg), ⟨h1, ?_, h2⟩, rfl⟩
          cases hh : Dict.has m id with
          | false => rfl
          | true => exact absurd (by simpa [Dict.keys] using Dict.has_iff.1 hh) h3

theorem verifyScopeOpt_iff {iss : Issuer} {r : RequestObject} {m : Dict AuthorizationDetail} :
    (∃ ss, Authorize.verifyScopeOpt iss m r.scope = .ok ss) ↔
      ∀ s, r.scope = some s → splitWs s ≠ [] → ∃ id, Scoped iss r id ∧ id ∉ Dict.keys m := by
  constructor
  · rintro ⟨ss, h⟩ s hs hne
    have hk := scoped_keys h
    rw [hs] at h
    simp only [Authorize.verifyScopeOpt, Authorize.verifyScope] at h
    split at h
    · rename_i hw; exact absurd hw hne
    · split at h
      · cases h
      · rename_i hne'
        cases h
        cases hq : (iss.configs.filter fun e => !m.has e.1 && e.2.scope == some _).map fun e => (e.1, _) with
        | nil => rw [hq] at hne'; exact absurd rfl hne'
        | cons x l =>
          rw [hq] at hk
          exact ⟨x.1, (hk x.1).1 (by simp [Dict.keys])⟩
  · intro h
    cases hs : r.scope with
    | none => exact ⟨[], rfl⟩
    | some s =>
      simp only [Authorize.verifyScopeOpt, Authorize.verifyScope]
      cases hw : splitWs s with
      | nil => exact ⟨[], rfl⟩
      | cons word rest =>
        obtain ⟨id, ⟨_, word', rest', cfg, hs', hw', h1, h2⟩, h3⟩ := h s hs (by rw [hw]; simp)
        rw [hs] at hs'; cases hs'
        rw [hw] at hw'; cases hw'
        have hmem : (id, cfg) ∈ iss.configs.filter fun e => !m.has e.1 && e.2.scope == some word := by
          refine List.mem_filter.2 ⟨h1, ?_⟩
          have : Dict.has m id = false := by
            cases hh : Dict.has m id with
            | false => rfl
            | true => exact absurd (Dict.has_iff.1 hh) h3
          simp [this, h2]
        refine ⟨(iss.configs.filter fun e => !m.has e.1 && e.2.scope == some word).map fun e => (e.1, word), ?_⟩
        simp only
        rw [if_neg]
        intro h
        rw [List.isEmpty_iff, List.map_eq_nil_iff] at h
        rw [h] at hmem; cases hmem

/-- The checks of details and scope succeed exactly if the request makes sense to the issuer. -/
theorem makes_iff {iss : Issuer} (hn : Dict.Nodup iss.configs) {r : RequestObject} :
    (∃ ds ss, Authorize.verifyDetailsOpt iss r.authorizationDetails = .ok ds ∧ Authorize.verifyScopeOpt iss ds r.scope = .ok ss) ↔ Makes iss r := by
  constructor
  · rintro ⟨ds, ss, h1, h2⟩
    refine ⟨(verifyDetailsOpt_iff hn).1 ⟨ds, h1⟩, fun s hs hne => ?_⟩
    obtain ⟨id, g1, g2⟩ := verifyScopeOpt_iff.1 ⟨ss, h2⟩ s hs hne
    exact ⟨id, g1, fun h => g2 ((detailed_keys h1 id).2 h)⟩
  · rintro ⟨h1, h2⟩
    obtain ⟨ds, hd⟩ := (verifyDetailsOpt_iff hn).2 h1
    obtain ⟨ss, hs⟩ := (verifyScopeOpt_iff (m := ds)).2 fun s hs hne => by
      obtain ⟨id, g1, g2⟩ := h2 s hs hne
      exact ⟨id, g1, fun h => g2 ((detailed_keys hd id).1 h)⟩
    exact ⟨ds, ss, hd, hs⟩

/-- The Subject provider is asked about exactly the configurations asked for, and has to authorize all of them, one at least. -/
theorem items_iff {P : Provider} {iss : Issuer} {r : RequestObject} {ds : Dict AuthorizationDetail} {ss : Dict String}
    (h1 : Authorize.verifyDetailsOpt iss r.authorizationDetails = .ok ds) (h2 : Authorize.verifyScopeOpt iss ds r.scope = .ok ss) :
    (∃ items, Authorize.authorizeItems P r.subjectId ds ss = .ok items) ↔
      (∃ id, Detailed iss r id ∨ Scoped iss r id) ∧ ∀ id, Detailed iss r id ∨ Scoped iss r id → ∃ ids, P.authorize r.subjectId id = some ids := by
  have hd := detailed_keys h1
  have hs := scoped_keys h2
  have hkeys : ∀ id, (id ∈ Dict.keys ds ∨ id ∈ Dict.keys ss) ↔ Detailed iss r id ∨ Scoped iss r id := by
    intro id
    rw [hs, hd]
    constructor
    · rintro (h | h)
      · exact .inl h
      · exact .inr h.1
    · rintro (h | h)
      · exact .inl h
      · by_cases g : Detailed iss r id
        · exact .inl g
        · exact .inr ⟨h, g⟩
  constructor
  · rintro ⟨items, h⟩
    obtain ⟨hne, hperm, hit⟩ := Authorize.authorizeItems_spec h
    have hm : ∀ id, id ∈ items.map (fun it => it.configId) ↔ id ∈ Dict.keys ds ∨ id ∈ Dict.keys ss := by
      intro id; rw [hperm.mem_iff, List.mem_append]; rfl
    constructor
    · cases items with
      | nil => exact absurd rfl hne
      | cons it l => exact ⟨it.configId, (hkeys _).1 ((hm _).1 (by simp))⟩
    · intro id hid
      obtain ⟨it, hi, rfl⟩ := List.mem_map.1 ((hm id).2 ((hkeys id).2 hid))
      exact ⟨_, (hit it hi).1⟩
  · rintro ⟨⟨id, hid⟩, hall⟩
    refine authorizeItems_of (fun x hx => hall x.1 ((hkeys _).1 (.inl (List.mem_map.2 ⟨x, hx, rfl⟩))))
      (fun x hx => hall x.1 ((hkeys _).1 (.inr (List.mem_map.2 ⟨x, hx, rfl⟩)))) ?_
    rcases (hkeys id).2 hid with h | h
    · left; rintro rfl; simp [Dict.keys] at h
    · right; rintro rfl; simp [Dict.keys] at h

/-- `authorize` succeeds if its parts do. -/
theorem authorize_of {P : Provider} {request : AuthorizationRequest} {e : Env} {w : World State} (hst : Working e w) {r : RequestObject}
    (hden : request.DenotesIn w r) {iss : Issuer} {client : Client} {server : Server} (hiss : P.issuer r.credentialIssuer = some iss)
    (hc : P.client r.clientId = some client) (hs : P.server r.credentialIssuer = some server)
    (hp : server.requirePar = some true → ∃ u, request = .uri u) (hv : ValidAuthorization client server r) (hi : FitsOffer w r)
    {ds : Dict AuthorizationDetail} {ss : Dict String} {items : List AuthorizedItem}
    (h1 : Authorize.verifyDetailsOpt iss r.authorizationDetails = .ok ds) (h2 : Authorize.verifyScopeOpt iss ds r.scope = .ok ss)
    (h3 : Authorize.authorizeItems P r.subjectId ds ss = .ok items) : ∃ resp w', (authorize P request).run e w = (.ok resp, w') := by
  have hres : ∃ b w1, (Authorize.resolve request).run e w = (.ok (b, r), w1) ∧ (server.requirePar = some true → b = true) := by
    cases request with
    | object r' =>
      cases hden
      exact ⟨false, w, run_pure_ok.2 ⟨rfl, rfl⟩, fun h => by obtain ⟨u, hu⟩ := hp h; cases hu⟩
    | uri u =>
      obtain ⟨s, exp, g1, g2, g3⟩ := hden
      refine ⟨true, { w with ops := w.ops + 1 }, ?_, fun _ => rfl⟩
      simp only [Authorize.resolve, run_bind_ok, run_lift_ok, run_getE_ok, run_nowE_ok, require_ok, run_pure_ok]
      exact ⟨s, _, ⟨hst _ (Nat.le_refl _), g1, rfl⟩, (r, exp), _, ⟨by simp [Authorize.pushed, g2], rfl⟩, _, _, ⟨rfl, rfl⟩, (), _,
        ⟨by simpa using g3, rfl⟩, rfl, rfl⟩
  obtain ⟨b, w1, hres, hb⟩ := hres
  obtain ⟨_, e1, e2, e3, e4, _⟩ := Authorize.resolve_ok hres
  obtain ⟨w2, hver, f1, f2, f3, f4⟩ := Authorize.verify_of (P := P) (iss := iss) (isPar := b) (r := r) (e := e) (w := w1)
    (fun n hn => hst n (by omega)) hc hs hb hv h1 h2 (by rw [e1, e2]; exact hi)
  have hpg : ∀ x : World State, w2.ops ≤ x.ops → ∃ x', (Authorize.purgeOffer r).run e x = (.ok (), x') := by
    intro x hx
    unfold Authorize.purgeOffer
    cases r.issuerState with
    | none => exact ⟨x, run_pure_ok.2 ⟨rfl, rfl⟩⟩
    | some k => exact ⟨_, run_purgeE_ok.2 ⟨hst _ (by omega), rfl⟩⟩
  obtain ⟨x', hx'⟩ := hpg { w2 with
      store := upd w2.store (e.rng w2.drawn) (some (Authorize.stored r items w2.now))
      drawn := w2.drawn + 1, ops := w2.ops + 1 } (by simp)
  refine ⟨{ code := e.rng w2.drawn, state := r.state, redirectUri := r.redirectUri.getD "" }, x', ?_⟩
  simp only [authorize, Authorize.process, run_bind_ok, run_lift_ok, orErr_ok, run_nowE_ok, run_drawE_ok, run_putE_ok, run_pure_ok]
  exact ⟨_, _, hres, iss, _, ⟨hiss, rfl⟩, _, _, hver, items, _, ⟨h3, rfl⟩, _, _, ⟨rfl, rfl⟩, _, _, ⟨rfl, rfl⟩, (), _,
    ⟨hst _ (by simp; omega), rfl⟩, (), _, hx', rfl, rfl⟩

/-! ### Properties -/

theorem Demo.nodup : ∀ i iss, Demo.provider.issuer i = some iss → Dict.Nodup iss.configs := by
  intro i iss h
  simp only [Demo.provider] at h
  split at h
  · cases h; exact Demo.configs_nodup
  · cases h

theorem Demo.authReq_valid : ValidAuthorization Demo.client Demo.server Demo.authReq := by
  obtain ⟨_, _, _, h1, _, h2, h3, h4, _⟩ := Demo.acceptable (start 0)
  cases h1; cases h2; cases h3; exact h4

/-! ### C179 -/

/-- **C179**, codes. With a working state store, the authorization endpoint answers with a code exactly when: the request (given directly or by the URI of an
unexpired push, which is the only way if the server requires pushing) is for a known issuer, client and server and valid for them, its `issuer_state` is the key
of live state of the same subject, what it asks for makes sense to the issuer, it asks for something, and the Subject provider authorizes the subject for
everything it asks for. -/
theorem C179_code_given_iff {P : Provider} {request : AuthorizationRequest} {e : Env} {w : World State} (hst : Working e w)
    (hn : ∀ i iss, P.issuer i = some iss → Dict.Nodup iss.configs) :
    (∃ resp w', (authorize P request).run e w = (.ok resp, w')) ↔
      ∃ r iss client server, request.DenotesIn w r ∧ P.issuer r.credentialIssuer = some iss ∧ P.client r.clientId = some client ∧
        P.server r.credentialIssuer = some server ∧ (server.requirePar = some true → ∃ u, request = .uri u) ∧
        ValidAuthorization client server r ∧ FitsOffer w r ∧ Makes iss r ∧ (∃ id, Detailed iss r id ∨ Scoped iss r id) ∧
        ∀ id, Detailed iss r id ∨ Scoped iss r id → ∃ ids, P.authorize r.subjectId id = some ids := by
  constructor
  · rintro ⟨resp, w', h⟩
    obtain ⟨r, iss, client, server, ds, ss, items, h1, h2, h3, h4, h5, h6, h7, h8, h9, h10, _⟩ := authorize_ok h
    obtain ⟨g1, g2⟩ := (items_iff h7 h8).1 ⟨items, h10⟩
    exact ⟨r, iss, client, server, h1, h2, h3, h4, h5, h6, h9, (makes_iff (hn _ _ h2)).1 ⟨ds, ss, h7, h8⟩, g1, g2⟩
  · rintro ⟨r, iss, client, server, h1, h2, h3, h4, h5, h6, h7, h8, h9, h10⟩
    obtain ⟨ds, ss, g1, g2⟩ := (makes_iff (hn _ _ h2)).2 h8
    obtain ⟨items, g3⟩ := (items_iff (P := P) g1 g2).2 ⟨h9, h10⟩
    exact authorize_of hst h1 h2 h3 h4 h5 h6 h7 g1 g2 g3

/-- C179 (codes) is not vacuous: the demo request meets the conditions, so it gets a code; one whose first scope value says nothing new does not, so it gets none. -/
example : (∃ resp w', (authorize Demo.provider (.object Demo.authReq)).run Demo.env Demo.offered = (.ok resp, w')) ∧
    ¬ ∃ resp w', (authorize Demo.provider (.object { Demo.authReq with scope := some "EmployeeIDCredential" })).run Demo.env Demo.offered = (.ok resp, w') := by
  constructor
  · refine (C179_code_given_iff (Demo.working _) Demo.nodup).2 ⟨Demo.authReq, Demo.issuer, Demo.client, Demo.server, rfl, rfl, rfl, rfl,
      (fun h => by cases h), Demo.authReq_valid, (fun k h => by cases h), ⟨?_, (fun s h => by cases h)⟩, ⟨"Employee", .inl ⟨_, _, rfl, .head _, .named ..⟩⟩, ?_⟩
    · intro ds d h hd
      cases h; simp only [List.mem_singleton] at hd; subst hd
      exact ⟨"Employee", .named .., fun c h => by cases h⟩
    · rintro id (⟨ds, d, h, hd, ht⟩ | ⟨s, _, _, _, h, _⟩)
      · cases h; simp only [List.mem_singleton] at hd; subst hd
        cases ht
        exact ⟨["emp-1"], rfl⟩
      · cases h
  · intro h
    obtain ⟨r, iss, client, server, h1, h2, -, -, -, -, -, h3, -⟩ := (C179_code_given_iff (Demo.working _) Demo.nodup).1 h
    cases h1; cases h2
    obtain ⟨id, ⟨s, word, rest, cfg, hs, hw, hm, hc⟩, hno⟩ := h3.scope _ rfl (by decide)
    cases hs
    have hw' : word = "EmployeeIDCredential" := by
      have : splitWs "EmployeeIDCredential" = ["EmployeeIDCredential"] := by decide
      rw [this] at hw; cases hw; rfl
    subst hw'
    simp only [Demo.issuer, List.mem_cons, Prod.mk.injEq, List.not_mem_nil, or_false] at hm
    rcases hm with ⟨rfl, rfl⟩ | ⟨rfl, rfl⟩
    · exact hno ⟨_, _, rfl, .head _, .named ..⟩
    · cases hc

/-- **C179**, request URIs. With a working state store, a request can be pushed exactly when the server does not require pushing (see C12), it is valid, fits its
`issuer_state` and makes sense to the issuer. The Subject provider is not asked. -/
theorem C179_pushed_iff {P : Provider} {r : RequestObject} {e : Env} {w : World State} (hst : Working e w)
    (hn : ∀ i iss, P.issuer i = some iss → Dict.Nodup iss.configs) :
    (∃ resp w', (par P r).run e w = (.ok resp, w')) ↔
      ∃ iss client server, P.issuer r.credentialIssuer = some iss ∧ P.client r.clientId = some client ∧
        P.server r.credentialIssuer = some server ∧ server.requirePar ≠ some true ∧
        ValidAuthorization client server r ∧ FitsOffer w r ∧ Makes iss r := by
  constructor
  · rintro ⟨resp, w', h⟩
    simp only [par, run_bind_ok, run_lift_ok, orErr_ok] at h
    obtain ⟨iss, w2, ⟨h2, rfl⟩, ⟨ds, ss⟩, w3, h3, _⟩ := h
    obtain ⟨_, _, _, _, client, server, hc, hsv, hpar, hva, hdet, hsc, hist⟩ := Authorize.verify_ok h3
    exact ⟨iss, client, server, h2, hc, hsv, fun h => (nomatch hpar h), hva, hist, (makes_iff (hn _ _ h2)).1 ⟨ds, ss, hdet, hsc⟩⟩
  · rintro ⟨iss, client, server, h1, h2, h3, h4, h5, h6, h7⟩
    obtain ⟨ds, ss, g1, g2⟩ := (makes_iff (hn _ _ h1)).2 h7
    obtain ⟨w1, hver, f1, f2, f3, f4⟩ := Authorize.verify_of (P := P) (iss := iss) (isPar := false) (r := r) (e := e) (w := w)
      hst h2 h3 (fun h => absurd h h4) h5 g1 g2 h6
    refine ⟨{ requestUri := "urn:ietf:params:oauth:request_uri:" ++ e.rng w1.drawn, expiresIn := 600 }, { w1 with
        store := upd w1.store ("urn:ietf:params:oauth:request_uri:" ++ e.rng w1.drawn)
          (some { subjectId := none, stage := .pushed r (w1.now + parDur), expiresAt := w1.now + parDur })
        drawn := w1.drawn + 1, ops := w1.ops + 1 }, ?_⟩
    · simp only [par, run_bind_ok, run_lift_ok, orErr_ok, run_nowE_ok, run_drawE_ok, run_putE_ok, run_pure_ok]
      exact ⟨iss, _, ⟨h1, rfl⟩, _, _, hver, _, _, ⟨rfl, rfl⟩, _, _, ⟨rfl, rfl⟩, _, _, ⟨rfl, rfl⟩, (), _, ⟨hst _ f4, rfl⟩, rfl, rfl⟩

/-- C179 (request URIs) is not vacuous: the demo request can be pushed, also for a subject the Subject provider does not know; with an `issuer_state` that leads
nowhere it cannot. -/
example : (∃ resp w', (par Demo.provider { Demo.authReq with subjectId := "other" }).run Demo.env Demo.offered = (.ok resp, w')) ∧
    ¬ ∃ resp w', (par Demo.provider { Demo.authReq with issuerState := some "nowhere" }).run Demo.env Demo.offered = (.ok resp, w') := by
  constructor
  · refine (C179_pushed_iff (Demo.working _) Demo.nodup).2 ⟨Demo.issuer, Demo.client, Demo.server, rfl, rfl, rfl,
      (fun h => by cases h), ?_, (fun k h => by cases h), ⟨?_, (fun s h => by cases h)⟩⟩
    · obtain ⟨h1, h2, h3, h4, h5, h6, -, h8⟩ := Demo.authReq_valid
      exact ⟨h1, h2, h3, h4, h5, h6, by decide, h8⟩
    · intro ds d h hd
      cases h; simp only [List.mem_singleton] at hd; subst hd
      exact ⟨"Employee", .named .., fun c h => by cases h⟩
  · intro h
    obtain ⟨iss, client, server, -, -, -, -, -, h3, -⟩ := (C179_pushed_iff (Demo.working _) Demo.nodup).1 h
    obtain ⟨s, hs, -⟩ := h3 "nowhere" rfl
    have : Demo.offered.store "nowhere" = none := by decide
    rw [this] at hs; cases hs

/-! ### C180 -/

/-- **C180**, what holds. A code is only given if the issuer publishes the configuration that each authorization detail is taken for, as far as the detail describes
the credential by format or lists claims. The same goes for every configuration asked for by scope. (Missing from the full claim: details that name a configuration
without listing claims, see `C180_violated`.) -/
theorem C180_configuration_published_partial {P : Provider} {request : AuthorizationRequest} {e : Env} {w w' : World State}
    {resp : AuthorizationResponse} (h : (authorize P request).run e w = (.ok resp, w'))
    (hn : ∀ i iss, P.issuer i = some iss → Dict.Nodup iss.configs) :
    ∃ r iss, request.DenotesIn w r ∧ P.issuer r.credentialIssuer = some iss ∧
      (∀ ds d, r.authorizationDetails = some ds → d ∈ ds → (∃ f, d.credential = .format f) ∨ (∃ c, Lists d.credential c) →
        ∃ id cfg, TakenFor iss d.credential id ∧ (id, cfg) ∈ iss.configs) ∧
      ∀ id, Scoped iss r id → ∃ cfg, (id, cfg) ∈ iss.configs := by
  obtain ⟨r, iss, client, server, ds, ss, items, h1, h2, h3, h4, h5, h6, h7, h8, h9, h10, _⟩ := authorize_ok h
  refine ⟨r, iss, h1, h2, ?_, fun id ⟨_, _, _, cfg, _, _, hm, _⟩ => ⟨cfg, hm⟩⟩
  intro l d hl hd hk
  obtain ⟨id, ht, hc⟩ := ((makes_iff (hn _ _ h2)).1 ⟨ds, ss, h7, h8⟩).details l d hl hd
  rcases hk with ⟨f, hf⟩ | ⟨c, hlc⟩
  · have ht' := ht
    rw [hf] at ht
    cases ht with
    | format hl _ _ => exact ⟨id, _, ht', hl ▸ List.mem_append_right _ (.head _)⟩
  · obtain ⟨cfg, hm, _⟩ := hc c hlc
    exact ⟨id, cfg, ht, hm⟩

/-- C180's part is not vacuous: the demo issuer gives a code for the employee credential described by format. -/
example : ∃ r iss, (AuthorizationRequest.object { Demo.authReq with authorizationDetails := some [{ credential := .format Demo.employee.format }] }).DenotesIn Demo.offered r ∧
    Demo.provider.issuer r.credentialIssuer = some iss ∧ ∃ ds d, r.authorizationDetails = some ds ∧ d ∈ ds ∧
      ∃ id cfg, TakenFor iss d.credential id ∧ (id, cfg) ∈ iss.configs := by
  obtain ⟨r, iss, h1, h2, h3, -⟩ := C180_configuration_published_partial (w := Demo.offered) (e := Demo.env) (P := Demo.provider)
    (request := .object { Demo.authReq with authorizationDetails := some [{ credential := .format Demo.employee.format }] }) rfl Demo.nodup
  refine ⟨r, iss, h1, h2, ?_⟩
  cases h1
  exact ⟨_, _, rfl, .head _, h3 _ _ rfl (.head _) (.inl ⟨_, rfl⟩)⟩

/-- **C180** is violated: a valid request for a configuration that the issuer does not publish gets a code that stands for that configuration, if it names the
configuration and lists no claims of it, and the Subject provider authorizes the subject for it. -/
theorem C180_violated {P : Provider} {r : RequestObject} {e : Env} {w : World State} (hst : Working e w) {iss : Issuer} {client : Client} {server : Server}
    (hiss : P.issuer r.credentialIssuer = some iss) (hn : ∀ i iss, P.issuer i = some iss → Dict.Nodup iss.configs)
    (hclient : P.client r.clientId = some client) (hserver : P.server r.credentialIssuer = some server)
    (hpar : server.requirePar ≠ some true) (hva : ValidAuthorization client server r) (hno : r.issuerState = none)
    {unknown : String} (hun : ∀ cfg, (unknown, cfg) ∉ iss.configs)
    (hdet : r.authorizationDetails = some [{ credential := .configurationId unknown none }]) (hsc : r.scope = none)
    {ids : List String} (hauth : P.authorize r.subjectId unknown = some ids) :
    ∃ resp w' st a, (authorize P (.object r)).run e w = (.ok resp, w') ∧ w'.store resp.code = some st ∧ st.stage = .authorized a ∧
      ∃ it ∈ a.items, it.configId = unknown ∧ it.identifiers = ids ∧ ∀ cfg, (it.configId, cfg) ∉ iss.configs := by
  have hdd : ∀ id, Detailed iss r id → id = unknown := by
    rintro id ⟨ds, d, h, hd, ht⟩
    rw [hdet] at h; cases h
    simp only [List.mem_singleton] at hd; subst hd
    cases ht; rfl
  have hss : ∀ id, ¬ Scoped iss r id := by
    rintro id ⟨s, _, _, _, h, _⟩
    rw [hsc] at h; cases h
  have hd1 : ∀ ds d, r.authorizationDetails = some ds → d ∈ ds → ∃ id, TakenFor iss d.credential id ∧
      ∀ c, Lists d.credential c → ∃ cfg, (id, cfg) ∈ iss.configs ∧ ∀ sup, cfg.format.claims = some sup → MeetsMandatory c sup := by
    intro ds d h hd
    rw [hdet] at h; cases h
    simp only [List.mem_singleton] at hd; subst hd
    exact ⟨unknown, .named .., fun c h => by cases h⟩
  have hd2 : ∀ id, Detailed iss r id ∨ Scoped iss r id → ∃ ids, P.authorize r.subjectId id = some ids := by
    rintro id (h | h)
    · rw [hdd id h]; exact ⟨ids, hauth⟩
    · exact absurd h (hss id)
  obtain ⟨resp, w', h⟩ := (C179_code_given_iff (request := .object r) hst hn).2 ⟨r, iss, client, server, rfl, hiss, hclient, hserver,
    (fun h => absurd h hpar), hva, (fun k h => by rw [hno] at h; cases h), ⟨hd1, (fun s h => by rw [hsc] at h; cases h)⟩,
    ⟨unknown, .inl ⟨_, _, hdet, .head _, .named ..⟩⟩, hd2⟩
  obtain ⟨r', iss', items, h1, h2, h3, h4, h5, h6, h7⟩ := C11_authorized_as_subject_provider_says h
  cases h1
  obtain ⟨st, a, g1, g2, g3⟩ := h4 (by rw [hno]; simp)
  obtain ⟨it, hi, ha⟩ := h7 _ _ hdet (.head _)
  simp only [Asks] at ha
  refine ⟨resp, w', st, a, h, g1, g2, it, by rw [g3]; exact hi, ha, ?_, by rw [ha]; exact hun⟩
  have := h5 it hi
  rw [ha, hauth] at this; cases this; rfl

/-- C180's counterexample is not vacuous: the demo issuer, when it no longer publishes the developer credential, still gives codes for it. -/
example : ∃ resp w' st a, (authorize { Demo.provider with issuer := fun _ => some { Demo.issuer with configs := [("Employee", Demo.employee)] } }
      (.object { Demo.authReq with authorizationDetails := some [{ credential := .configurationId "Developer" none }] })).run Demo.env Demo.offered = (.ok resp, w') ∧
    w'.store resp.code = some st ∧ st.stage = .authorized a ∧ ∃ it ∈ a.items, it.configId = "Developer" ∧ it.identifiers = ["dev-1"] := by
  obtain ⟨resp, w', st, a, h1, h2, h3, it, h4, h5, h6, -⟩ := C180_violated
    (P := { Demo.provider with issuer := fun _ => some { Demo.issuer with configs := [("Employee", Demo.employee)] } })
    (r := { Demo.authReq with authorizationDetails := some [{ credential := .configurationId "Developer" none }] }) (unknown := "Developer")
    (Demo.working Demo.offered) rfl (by intro i iss h; cases h; simp [Dict.Nodup, Dict.keys]) rfl rfl (by decide)
    (by obtain ⟨h1, h2, h3, h4, h5, h6, h7, -⟩ := Demo.authReq_valid; exact ⟨h1, h2, h3, h4, h5, h6, h7, .inl nofun⟩)
    rfl (by simp) rfl rfl (ids := ["dev-1"]) rfl
  exact ⟨resp, w', st, a, h1, h2, h3, it, h4, h5, h6⟩

/-- **C180**, what becomes of such a code: under any token, a request for a credential whose configuration is not published by the issuer is refused and changes
nothing, however the credential is asked for. -/
theorem C180_unpublished_never_issued {P : Provider} {req : CredentialRequest} {e : Env} {w : World State}
    (hno : ∀ s t iss auth cfg, Session w req.accessToken s t → P.issuer req.credentialIssuer = some iss → t.Authorizes iss req.credential auth →
      (auth.configId, cfg) ∉ iss.configs) :
    Refused ((credential P req).run e w).1 ∧ ((credential P req).run e w).2.store = w.store := by
  have hctx : ∀ s, w.store req.accessToken = some s → ∀ ctx, Credential.context P s req ≠ .ok ctx := by
    intro s hs ctx h
    obtain ⟨h0, h3, h4, h5⟩ := Credential.context_ok.1 h
    cases hst : s.stage with
    | validated t => exact hno s t _ _ _ ⟨hs, hst⟩ h3 (Credential.authorized_ok hst h4) (Dict.mem_of_get? h5)
    | _ => unfold Credential.authorized at h4; rw [hst] at h4; cases h4
  exact ⟨fun resp hr => by
    obtain ⟨s, ctx, t, did, ds, _, h1, h2, _⟩ := (credential_ok_iff (w' := ((credential P req).run e w).2)).1 (by rw [← hr])
    exact hctx s h1 ctx h2, credential_no_context hctx⟩

/-- C180 (never issued) is not vacuous: the demo token stands for the employee credential; once the issuer no longer publishes that, it is refused. -/
example : ¬ ∃ resp w', (credential { Demo.provider with issuer := fun _ => some { Demo.issuer with configs := [("Developer", Demo.developer)] } }
      (Demo.credReq (Demo.rng 2) (Demo.rng 3))).run Demo.env Demo.validated = (.ok resp, w') := by
  rintro ⟨resp, w', h⟩
  refine (C180_unpublished_never_issued (e := Demo.env) (w := Demo.validated) (req := Demo.credReq (Demo.rng 2) (Demo.rng 3))
    (P := { Demo.provider with issuer := fun _ => some { Demo.issuer with configs := [("Developer", Demo.developer)] } }) ?_).1 resp (by rw [h])
  rintro s t iss auth cfg ⟨h1, h2⟩ h3 h4 h5
  rw [show Demo.validated.store (Demo.credReq (Demo.rng 2) (Demo.rng 3)).accessToken = _ from Demo.session] at h1
  cases h1; cases h2; cases h3
  cases h4 with
  | identifier id auth h6 =>
    simp only [Demo.tok, List.mem_singleton, Prod.mk.injEq] at h6
    obtain ⟨-, rfl⟩ := h6
    simp at h5

end Verif.Issuer
