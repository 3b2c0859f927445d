import Verif.Issuer.History
import Verif.Issuer.Spec
import Verif.Issuer.Demo
/-!
# Properties of the token endpoint: C01 – C08, C21
-/
namespace Verif.Issuer
open Prog

/-- A token call whose lookup works and whose removal is not refused by the store leaves the code removed, whatever its
outcome. -/
theorem token_gone {P : Provider} {req : TokenRequest} {e : Env} {w : World State}
    (hget : e.fault w.ops = .ok) (hpurge : e.fault (w.ops + 1) ≠ .failBefore)
    (hfresh : ∀ n, w.drawn ≤ n → e.rng n ≠ req.grantType.code) :
    ((token P req).run e w).2.store req.grantType.code = none := by
  cases hs : w.store req.grantType.code with
  | none =>
    simp only [token, Bind.bind, run_bind, getE, run, hget, getRes, hs]
  | some s =>
    have hg : ∀ now, Guar (fun _ _ => True) (fun k _ => k ≠ req.grantType.code) (fun x => x ≠ req.grantType.code)
        ((lift (Token.verify P s now req) : IProg Unit) >>= fun _ => Token.process P s req) (fun _ => True) := by
      intro now
      refine Guar.bind (Q := fun _ => True) (Guar.lift fun _ _ => trivial) fun _ _ => ?_
      unfold Token.process
      refine Guar.bind (Q := fun _ => True) (Guar.lift fun _ _ => trivial) fun _ _ => ?_
      refine Guar.bind (Guar.drawE fun _ h => h) fun k hk => ?_
      refine Guar.bind (Guar.drawE fun _ h => h) fun n hn => ?_
      refine Guar.bind (Q := fun _ => True) (Guar.nowE fun _ => trivial) fun _ _ => ?_
      exact Guar.bind (Q := fun _ => True) (Guar.putE hk trivial) fun _ _ => Guar.pure trivial
    cases hp : e.fault (w.ops + 1) with
    | failBefore => exact absurd hp hpurge
    | failAfter =>
      simp [token, Bind.bind, run_bind, getE, purgeE, run, hget, getRes, hs, hp, writeRes]
    | ok =>
      have hrun : (token P req).run e w =
          ((lift (Token.verify P s w.now req) : IProg Unit) >>= fun _ => Token.process P s req).run e
            { w with store := upd w.store req.grantType.code none, ops := w.ops + 2 } := by
        simp [token, Bind.bind, run_bind, getE, purgeE, nowE, run, hget, getRes, hs, hp, writeRes]
      rw [hrun]
      refine ((Guar.run (e := e)
        (w := { w with store := upd w.store req.grantType.code none, ops := w.ops + 2 })
        (hg w.now) (fun _ _ _ => trivial) (fun _ _ _ => trivial) (fun n hn _ => hfresh n hn)).2.1
        req.grantType.code (fun _ h => h rfl)).trans ?_
      simp

/-- Redeeming a code spends it. -/
theorem token_spent {e : Env} (he : Env.Fresh e) {w : World State} (hw : Reachable e w) {first : Step} {req : TokenRequest}
    {s : State} (hs : w.store req.grantType.code = some s) (hgr : s.isGrant)
    (hgone : (step e w first).2.store req.grantType.code = none) :
    Spent e req.grantType.code (step e w first).2 := by
  have hsep := hw.sep he
  refine ⟨hgone, ?_, (hsep.key _ _ hs).mono (step_drawn_le e w first)⟩
  intro k v t hv ht heq
  rcases token_old_or_fresh first k v hv t ht with ⟨k0, v0, t0, h0, ht0, h1⟩ | ⟨i, hi, _, h1⟩
  · exact hsep.sep _ s k0 v0 t0 hs hgr h0 ht0 (h1 ▸ heq)
  · exact (hsep.key _ _ hs).ne_fresh he hi (h1 ▸ heq)

theorem token_refused_of_gone {e : Env} {w : World State} {later : Step} {req : TokenRequest}
    (hreq : later.req = .token req) (h : w.store req.grantType.code = none) : Refused (step e w later).1 := by
  intro r hr
  have hrun : (step e w later) = (.ok r, (step e w later).2) := by rw [← hr]
  simp only [step, hreq, call] at hrun
  obtain ⟨x, w1, h1, _⟩ := run_bind_ok.1 hrun
  obtain ⟨s, _, _, _, _, hs, _⟩ := token_ok_iff.1 h1
  exact absurd (hs.symm.trans h) (by simp)

/-- **C01.** In any history, once a token call has been made with the code of a grant and the store accepted the removal,
every later token call with that code is refused — whatever the outcome of the first call, whatever calls (to any endpoint,
with any provider answers and store faults) happen in between. -/
theorem C01_grant_codes_single_use {e : Env} (he : Env.Fresh e) {w : World State} (hw : Reachable e w)
    {first later : Step} {req req' : TokenRequest} {s : State} (_hreq : first.req = .token req)
    (hs : w.store req.grantType.code = some s) (hgrant : s.isGrant)
    (hremoved : (step e w first).2.store req.grantType.code = none)
    (between : List Step) (hreq' : later.req = .token req') (hsame : req'.grantType.code = req.grantType.code) :
    Refused (step e (exec e (step e w first).2 between) later).1 :=
  token_refused_of_gone hreq' (hsame ▸ ((token_spent he hw hs hgrant hremoved).exec he between).gone)

/-- **C01**, the removal: it happens in every token call that found the code unless the store itself refuses the removal; in
particular in every successful one. -/
theorem C01_token_removes_code {e : Env} (he : Env.Fresh e) {w : World State} (hw : Reachable e w) {first : Step}
    {req : TokenRequest} {s : State} (hreq : first.req = .token req) (hs : w.store req.grantType.code = some s)
    (hstore : (e.fault w.ops = .ok ∧ e.fault (w.ops + 1) ≠ .failBefore) ∨ ∃ r, (step e w first).1 = .ok r) :
    (step e w first).2.store req.grantType.code = none := by
  have hfaults : e.fault w.ops = .ok ∧ e.fault (w.ops + 1) ≠ .failBefore := by
    rcases hstore with h | ⟨r, hr⟩
    · exact h
    · have hrun : (step e w first) = (.ok r, (step e w first).2) := by rw [← hr]
      simp only [step, hreq, call] at hrun
      obtain ⟨x, w1, h1, _⟩ := run_bind_ok.1 hrun
      obtain ⟨_, _, h1, h2, _⟩ := token_ok_iff.1 h1
      exact ⟨h1, by rw [show w.ops = (World.wait w first.wait).ops from rfl, h2]; decide⟩
  have h := token_gone (P := first.provider) (req := req) (e := e) (w := World.wait w first.wait) hfaults.1 hfaults.2
    (fun n hn => ((hw.sep he).key _ _ hs).ne_fresh he hn)
  simp only [step, hreq, call]
  show ((token first.provider req).bind _ |>.run e _).2.store _ = none
  rw [run_bind]
  cases hr : (token first.provider req).run e (World.wait w first.wait) with
  | mk r w1 =>
    rw [hr] at h
    cases r with
    | error x => exact h
    | ok x => exact h

/-- C01 is not vacuous: in the demo an offer's code is found, redeemed (here: with a wrong PIN) and removed. -/
example : Reachable Demo.env Demo.offered ∧
    (Demo.offered.store (Demo.rng 0)).isSome = true ∧
    ((step Demo.env Demo.offered { provider := Demo.provider, req := .token (Demo.tokenReq (Demo.rng 0) (some "0")) }).2.store
      (Demo.rng 0)).isNone = true :=
  ⟨⟨0, _, rfl⟩, by decide, by decide⟩

/-- **C02.** A token is only issued for a grant that the code names and that is live, with the matching transaction code
(pre-authorized) or the matching client, redirect URI and PKCE verifier (authorization code). -/
theorem C02_token_needs_matching_grant {P : Provider} {req : TokenRequest} {e : Env} {w w' : World State}
    {resp : TokenResponse} (h : (token P req).run e w = (.ok resp, w')) :
    ∃ s, w.store req.grantType.code = some s ∧ Live s w.now ∧
      match req.grantType with
      | .preAuthorizedCode _ txCode => ∃ o, s.stage = .offered o ∧ txCode = o.txCode
      | .authorizationCode _ redirectUri verifier => ∃ a v, s.stage = .authorized a ∧
          req.clientId = some a.clientId ∧ redirectUri = a.redirectUri ∧ verifier = some v ∧
          P.codeChallenge v = a.codeChallenge := by
  obtain ⟨s, items, _, _, _, hs, hv, _, _, _⟩ := token_ok_iff.1 h
  obtain ⟨hlive, server, sup, _, _, hg, _⟩ := Token.verify_ok.1 hv
  refine ⟨s, hs, hlive, ?_⟩
  split
  · rename_i c tx hgt
    obtain ⟨o, h1, _, _, h2⟩ := (Token.checkGrant_pre hgt).1 hg
    exact ⟨o, h1, h2⟩
  · rename_i c uri ver hgt
    obtain ⟨a, v, h1, _, h2, h3, h4, h5⟩ := (Token.checkGrant_auth hgt).1 hg
    exact ⟨a, v, h1, h2, h3, h4, h5⟩

/-- C02 is not vacuous for either grant type. -/
example : Demo.isOk ((token (Demo.provider) (Demo.tokenReq (Demo.rng 0))).run Demo.env Demo.offered).1 = true ∧
    Demo.isOk ((token (Demo.provider) (Demo.codeReq (Demo.rng 0))).run Demo.env Demo.authorized).1 = true := by decide

theorem grantedItems_mem {P : Provider} {s : State} {req : TokenRequest} {items : List AuthorizedItem}
    (h : Token.grantedItems P s req = .ok items) : ∀ it ∈ items, it ∈ s.grantItems := by
  unfold Token.grantedItems at h
  cases hg : req.grantType with
  | preAuthorizedCode c tx =>
    rw [hg] at h
    cases hs : s.stage <;> simp only [hs] at h <;> try (cases h; done)
    rename_i o
    simp only [Except.bind_ok, orErr_ok] at h
    obtain ⟨l, hl, h⟩ := h
    simp only [State.grantItems, hs, hl, Option.getD_some]
    unfold Token.retainDetails at h
    split at h
    · cases h; exact fun _ h => h
    · rename_i ds _
      simp only [Except.bind_ok, orErr_ok] at h
      obtain ⟨iss, _, h⟩ := h
      obtain ⟨hlen, hz⟩ := retainLoop_spec h
      intro it hit
      obtain ⟨i, hi, rfl⟩ := List.getElem_of_mem hit
      have : (ds[i]'(by omega), items[i]) ∈ ds.zip items := by
        rw [List.mem_iff_getElem]
        exact ⟨i, by simp; omega, by simp⟩
      exact (hz _ this).1
  | authorizationCode c uri ver =>
    rw [hg] at h
    cases hs : s.stage <;> simp only [hs] at h <;> try (cases h; done)
    cases h
    simp [State.grantItems, hs]

/-- **C03.** A token never widens the grant: everything listed in the response and everything the stored access token
authorizes was authorized by the grant, for the same configuration and the same subject. -/
theorem C03_token_never_widens {P : Provider} {req : TokenRequest} {e : Env} {w w' : World State}
    {resp : TokenResponse} (h : (token P req).run e w = (.ok resp, w')) :
    ∃ s, w.store req.grantType.code = some s ∧
      (∀ l, resp.authorizationDetails = some l → ∀ ad ∈ l, ∃ it ∈ s.grantItems,
        it.item = .detail ad.detail ∧ it.identifiers = ad.identifiers) ∧
      ∃ s' t, w'.store resp.accessToken = some s' ∧ s'.stage = .validated t ∧ s'.subjectId = s.subjectId ∧
        ∀ id a, (id, a) ∈ t.credentials → a.identifier = id ∧ s.grants a.configId id := by
  obtain ⟨s, items, _, _, _, hs, _, hi, rfl, rfl⟩ := token_ok_iff.1 h
  have hmem := grantedItems_mem hi
  refine ⟨s, hs, ?_, _, _, upd_same .., rfl, rfl, ?_⟩
  · intro l hl ad had
    simp only [Token.response, Token.authorizedDetails] at hl
    split at hl
    · cases hl
    · cases hl
      obtain ⟨it, hit, h1⟩ := List.mem_filterMap.1 had
      refine ⟨it, hmem it hit, ?_⟩
      split at h1
      · rename_i d hd; cases h1; exact ⟨hd, rfl⟩
      · cases h1
  · intro id a ha
    obtain ⟨it, hit, h1, h2⟩ := authorizedCredentials_mem ha
    simp only at h1 h2
    subst h2
    exact ⟨rfl, it, hmem it hit, rfl, h1⟩

/-- C03 is not vacuous: the demo token authorizes `emp-1`. -/
example : (((token (Demo.provider) (Demo.tokenReq (Demo.rng 0))).run Demo.env Demo.offered).2.store (Demo.rng 2)).map
    (fun s => match s.stage with | .validated t => Dict.keys t.credentials | _ => []) = some ["emp-1"] := by decide

/-- **C04.** Pre-authorized flow: naming authorization details grants exactly the named credentials, each of which must be
among those offered (one entry per request, in order); naming none grants everything offered. -/
theorem C04_preauthorized_narrows {P : Provider} {req : TokenRequest} {e : Env} {w w' : World State}
    {resp : TokenResponse} (h : (token P req).run e w = (.ok resp, w')) {code : String} {tx : Option String}
    (hpre : req.grantType = .preAuthorizedCode code tx) :
    ∃ s granted, w.store code = some s ∧
      (match req.authorizationDetails with
        | none => granted = s.grantItems
        | some ds => granted.length = ds.length ∧ ∀ p ∈ ds.zip granted, p.2 ∈ s.grantItems ∧
            ∃ d, p.2.item = .detail d ∧ SameCredential d.credential p.1.credential) ∧
      (resp.authorizationDetails.getD []).map (fun ad => (ad.detail, ad.identifiers)) =
        granted.filterMap (fun it => match it.item with | .detail d => some (d, it.identifiers) | .scope _ => none) ∧
      ∃ s' t, w'.store resp.accessToken = some s' ∧ s'.stage = .validated t ∧
        ∀ id, id ∈ Dict.keys t.credentials ↔ ∃ it ∈ granted, id ∈ it.identifiers := by
  obtain ⟨s, items, _, _, _, hs, _, hi, rfl, rfl⟩ := token_ok_iff.1 h
  refine ⟨s, items, by simpa [hpre, TokenGrantType.code] using hs, ?_, ?_, _, _, upd_same .., rfl,
    fun id => authorizedCredentials_keys⟩
  · simp only [Token.grantedItems, hpre] at hi
    cases hst : s.stage <;> simp only [hst] at hi <;> try (cases hi; done)
    rename_i o
    simp only [Except.bind_ok, orErr_ok] at hi
    obtain ⟨l, hl, hi⟩ := hi
    unfold Token.retainDetails at hi
    simp only [State.grantItems, hst, hl, Option.getD_some]
    split at hi
    · rename_i hn; rw [hn]; cases hi; rfl
    · rename_i ds hd
      rw [hd]
      simp only [Except.bind_ok, orErr_ok] at hi
      obtain ⟨iss, _, hi⟩ := hi
      obtain ⟨hlen, hz⟩ := retainLoop_spec hi
      exact ⟨hlen, fun p hp => ⟨(hz p hp).1, by simpa only [sameCredential_iff] using (hz p hp).2⟩⟩
  · simp only [Token.response, Token.authorizedDetails]
    split
    · rename_i hempty
      simp only [Option.getD_none, List.map_nil]
      rw [List.isEmpty_iff, List.filterMap_eq_nil_iff] at hempty
      refine (List.filterMap_eq_nil_iff.2 ?_).symm
      intro it hit
      have := hempty it hit
      split <;> simp_all
    · simp only [Option.getD_some, List.map_filterMap]
      congr 1
      funext it
      cases it.item <;> rfl

/-- A request naming one of the offered credentials. -/
def Demo.narrowReq (code : String) : TokenRequest :=
  { Demo.tokenReq code with authorizationDetails := some [{ credential := .configurationId "Employee" none }] }

/-- C04 is not vacuous, with and without authorization details; naming something not offered is refused. -/
example : Demo.isOk ((token (Demo.provider) (Demo.narrowReq (Demo.rng 0))).run Demo.env Demo.offered).1 = true ∧
    Demo.isOk ((token (Demo.provider) { Demo.tokenReq (Demo.rng 0) with
      authorizationDetails := some [{ credential := .configurationId "Developer" none }] }).run Demo.env Demo.offered).1 =
      false := by decide

/-- **C06**, negation: the demo offer is redeemed when 299 seconds old; the response promises 900 seconds but 2 seconds later
the token is refused as expired. -/
theorem C06_advertised_lifetime_not_honoured :
    ∃ (e : Env) (w : World State) (redeem use : Step) (resp : TokenResponse) (creq : CredentialRequest),
      Env.Fresh e ∧ Reachable e w ∧ (step e w redeem).1 = .ok (.token resp) ∧
      use.req = .credential creq ∧ creq.accessToken = resp.accessToken ∧
      (use.wait : Int) < resp.expiresIn * sec ∧
      (step e (step e w redeem).2 use).1 = .error (.invalidCredentialRequest "token state expired") := by
  refine ⟨Demo.env, Demo.offered,
    { provider := Demo.provider, wait := 299000000000, req := .token (Demo.tokenReq (Demo.rng 0)) },
    { provider := Demo.provider, wait := 2000000000, req := .credential (Demo.credReq (Demo.rng 2) (Demo.rng 3)) },
    _, _, Demo.env_fresh, ⟨0, _, rfl⟩, rfl, rfl, ?_, ?_, rfl⟩ <;> decide

/-- **C06**, the true bound: the advertised lifetime is always 900 seconds, while the token is live exactly as long as the grant
it was redeemed for would have been. (The full claim would need it live for 900 seconds; see the negation above.) -/
theorem C06_token_lives_as_long_as_grant_partial {P : Provider} {req : TokenRequest} {e : Env} {w w' : World State}
    {resp : TokenResponse} (h : (token P req).run e w = (.ok resp, w')) :
    resp.expiresIn = 900 ∧ ∃ s s', w.store req.grantType.code = some s ∧ w'.store resp.accessToken = some s' ∧
      ∀ now, Live s' now ↔ Live s now := by
  obtain ⟨s, items, _, _, _, hs, _, hi, rfl, rfl⟩ := token_ok_iff.1 h
  exact ⟨by simp only [Token.response]; decide, s, _, hs, upd_same .., fun now => Iff.rfl⟩

/-- **C07**, token endpoint. A token is only issued to a client that the metadata provider knows, whose registered scope is set
and contains only values the server supports. -/
theorem C07_token_client_registered {P : Provider} {req : TokenRequest} {e : Env} {w w' : World State}
    {resp : TokenResponse} (h : (token P req).run e w = (.ok resp, w')) :
    ∃ cid client server scope supported, req.clientId = some cid ∧ P.client cid = some client ∧
      P.server req.credentialIssuer = some server ∧ client.scope = some scope ∧
      server.scopesSupported = some supported ∧ ∀ s ∈ splitWs scope, s ∈ supported := by
  obtain ⟨s, items, _, _, _, hs, hv, _, _, _⟩ := token_ok_iff.1 h
  obtain ⟨_, server, sup, hsrv, _, hg, hc⟩ := Token.verify_ok.1 hv
  have hcid : ∃ cid, req.clientId = some cid := by
    cases hgt : req.grantType with
    | preAuthorizedCode c tx =>
      obtain ⟨o, _, _, ⟨cid, h, _⟩, _⟩ := (Token.checkGrant_pre hgt).1 hg
      exact ⟨cid, h⟩
    | authorizationCode c u v =>
      obtain ⟨a, _, _, _, h, _⟩ := (Token.checkGrant_auth hgt).1 hg
      exact ⟨_, h⟩
  obtain ⟨cid, hcid⟩ := hcid
  obtain ⟨c, h1, cs, ss, h2, h3, h4⟩ := Token.checkClient_ok.1 hc cid hcid
  exact ⟨cid, c, server, cs, ss, hcid, h1, hsrv, h2, h3, h4⟩

/-- C07 is not vacuous: the demo client has two scope values, and with a server supporting only one of them is refused. -/
example : splitWs "openid credential" = ["openid", "credential"] ∧
    Demo.isOk ((token Demo.provider (Demo.tokenReq (Demo.rng 0))).run Demo.env Demo.offered).1 = true ∧
    Demo.isOk ((token (Demo.provider (srv := { Demo.server with scopesSupported := some ["openid"] }))
      (Demo.tokenReq (Demo.rng 0))).run Demo.env Demo.offered).1 = false := by decide

/-- **C08**, negation of the first half: a token request without client id is never accepted, whatever the server advertises. -/
theorem C08_anonymous_access_never_accepted {P : Provider} {req : TokenRequest} (hc : req.clientId = none) (e : Env)
    (w : World State) : Refused ((token P req).run e w).1 := by
  intro resp h
  obtain ⟨_, _, _, _, _, h, _⟩ := C07_token_client_registered (w' := ((token P req).run e w).2) (by rw [← h])
  rw [hc] at h
  cases h

/-- The claim is about servers like the demo one: it advertises anonymous access, and the request is otherwise in order (it
succeeds with a client id). -/
example : Demo.server.anonymousAccess = true ∧
    Demo.isOk ((token Demo.provider (Demo.tokenReq (Demo.rng 0))).run Demo.env Demo.offered).1 = true ∧
    Demo.isOk ((token Demo.provider { Demo.tokenReq (Demo.rng 0) with clientId := none }).run Demo.env Demo.offered).1 = false
    := by decide

/-- **C08**, second half: with anonymous access not advertised, a pre-authorized token request with no or an empty client id is
refused. (Missing from the full claim: acceptance when it is advertised, which is false, see above.) -/
theorem C08_anonymous_refused_partial {P : Provider} {req : TokenRequest} {server : Server}
    (hs : P.server req.credentialIssuer = some server) (hanon : server.anonymousAccess = false)
    (hc : req.clientId = none ∨ req.clientId = some "") {code : String} {tx : Option String}
    (hg : req.grantType = .preAuthorizedCode code tx) (e : Env) (w : World State) :
    Refused ((token P req).run e w).1 := by
  intro resp h
  have hrun : (token P req).run e w = (.ok resp, ((token P req).run e w).2) := by rw [← h]
  obtain ⟨s, items, _, _, _, _, hv, _, _, _⟩ := token_ok_iff.1 hrun
  obtain ⟨_, server', sup, hsrv, _, hgr, _⟩ := Token.verify_ok.1 hv
  obtain ⟨_, _, _, ⟨cid, h1, h2⟩, _⟩ := (Token.checkGrant_pre hg).1 hgr
  rw [hs] at hsrv
  cases hsrv
  rcases hc with hc | hc
  · rw [hc] at h1; cases h1
  · rw [hc] at h1; cases h1; rw [h2 rfl] at hanon; cases hanon

/-- The hypotheses of the second half are met by the demo with the setting turned off. -/
example : ∃ server, (Demo.provider (srv := { Demo.server with anonymousAccess := false })).server
    (Demo.tokenReq (Demo.rng 0)).credentialIssuer = some server ∧ server.anonymousAccess = false := ⟨_, rfl, rfl⟩

/-- **C21.** A redemption of an offer's code with a wrong transaction code is refused and (the store being in order) consumes
the code: in any continuation every further redemption, with whatever transaction code, is refused. -/
theorem C21_one_transaction_code_guess {e : Env} (he : Env.Fresh e) {w : World State} (hw : Reachable e w)
    {first : Step} {req : TokenRequest} {code : String} {guess : Option String} {s : State} {o : Offer}
    (hreq : first.req = .token req) (hgt : req.grantType = .preAuthorizedCode code guess)
    (hs : w.store code = some s) (hst : s.stage = .offered o) (hwrong : guess ≠ o.txCode)
    (hstore : e.fault w.ops = .ok ∧ e.fault (w.ops + 1) ≠ .failBefore) :
    Refused (step e w first).1 ∧
    ∀ (between : List Step) (later : Step) (req' : TokenRequest), later.req = .token req' →
      req'.grantType.code = code → Refused (step e (exec e (step e w first).2 between) later).1 := by
  have hcode : req.grantType.code = code := by rw [hgt]; rfl
  constructor
  · intro r hr
    have hrun : (step e w first) = (.ok r, (step e w first).2) := by rw [← hr]
    simp only [step, hreq, call] at hrun
    obtain ⟨x, w1, h1, _⟩ := run_bind_ok.1 hrun
    obtain ⟨s', h2, _, h3⟩ := C02_token_needs_matching_grant h1
    rw [hcode] at h2
    have : s' = s := Option.some.inj (h2.symm.trans hs)
    subst this
    rw [hgt] at h3
    obtain ⟨o', h3, h4⟩ := h3
    rw [hst] at h3
    cases h3
    exact hwrong h4
  · intro between later req' h1 h2
    refine C01_grant_codes_single_use he hw hreq (s := s) (by rw [hcode]; exact hs) ?_
      (C01_token_removes_code he hw hreq (by rw [hcode]; exact hs) (.inl hstore)) between h1 (by rw [hcode]; exact h2)
    simp [State.isGrant, hst]

/-- C21 is not vacuous: the demo offer has transaction code `123456`; guessing `0` first makes the right code useless. -/
example : ((Demo.offered.store (Demo.rng 0)).map fun s => match s.stage with | .offered o => o.txCode | _ => none) =
      some (some "123456") ∧
    Demo.isOk (step Demo.env
      (step Demo.env Demo.offered
        { provider := Demo.provider, req := .token (Demo.tokenReq (Demo.rng 0) (some "0")) }).2
      { provider := Demo.provider, req := .token (Demo.tokenReq (Demo.rng 0)) }).1 = false := by decide

end Verif.Issuer
