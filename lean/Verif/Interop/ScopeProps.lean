import Verif.Interop.ScopeLink
import Verif.Interop.StaleProps
/-!
# The wallet asking the issuer for a scope: C200
-/
namespace Verif.Interop
open Verif

/-! ### Specification -/

/-- The issuer publishes configuration `cid` with this scope. -/
def Covers (md : Verif.Issuer) (scope cid : String) : Prop := ∃ cfg, (cid, cfg) ∈ md.configs ∧ cfg.scope = some scope

/-- The issuer publishes a configuration with the first word of the scope, and the Subject provider authorizes credentials `ids` of every configuration published with it. -/
structure ScopeGranted (n : Net) (md : Verif.Issuer) (subj scope word : String) (ids : String → List String) : Prop where
  first : ∃ rest, splitWs scope = word :: rest
  published : ∃ cid, Covers md word cid
  granted : ∀ j cid, Covers md word cid → (n.provider j).authorize subj cid = some (ids cid)

/-- The wallet's flow `i` under `k`, for a scope, and the issuer's session for `tok` belong together. -/
structure Tied (md : Verif.Issuer) (subj scope k tok : String) (creds : Dict Issuer.Authorized) (dl : Int)
    (hw : Holder.HWorld) (a : World Issuer.State) (i : Holder.Issuance) (s : Issuer.State) (t : Issuer.Token) : Prop where
  stored : hw.store k = some (.issuance i)
  id : i.id = k
  status : i.status = .tokenReceived
  scope : i.scope = some scope
  issuer : i.issuer = md
  deferred : i.deferred = []
  notification : i.notificationId = none
  token : i.token.accessToken = tok
  nonce : i.token.cNonce = some t.cNonce
  session : Issuer.Session a tok s t
  access : t.accessToken = tok
  subject : s.subjectId = some subj
  creds : t.credentials = creds
  live : dl ≤ s.expiresAt
  nonceLive : dl ≤ t.cNonceExpiresAt

/-! ### Helpers -/

/-- In a flow for a scope, every credential is asked for by its format. -/
theorem credentials_formats {e : Holder.HEnv} {w : Holder.HWorld} {P : Holder.Provider} {req : Holder.CredentialsRequest} {i : Holder.Issuance}
    (hi : w.store req.issuanceId = some (.issuance i)) (hs : i.scope ≠ none)
    (h0 : ∀ ev ∈ w.recent, ∀ q, ev.call = .credential q → ∃ f, q.credential = .format f) :
    ∀ ev ∈ ((Holder.credentials P req).run e w).2.recent, ∀ q, ev.call = .credential q → ∃ f, q.credential = .format f := by
  generalize hr : (Holder.credentials P req).run e w = x
  obtain ⟨r, w'⟩ := x
  unfold Holder.credentials at hr
  rcases Holder.getI_step hr with ⟨_, hE, _⟩ | ⟨i', w1, hi', hE, _, hr⟩
  · simp only [hE.recent, List.append_nil]; exact h0
  rw [hi] at hi'; cases hi'
  rw [← List.append_nil w.recent, ← hE.recent] at h0
  rcases Holder.check_step hr with ⟨_, rfl⟩ | ⟨_, hr⟩
  · exact h0
  have hr := Holder.now_step hr
  rcases Holder.need_step hr with ⟨_, rfl⟩ | ⟨jwt, _, hr⟩
  · exact h0
  have hfetch : ∀ {r : Holder.HRes Holder.Issuance} {w2 : Holder.HWorld}, (Holder.fetch P i req jwt).run e w1 = (r, w2) →
      ∀ ev ∈ w2.recent, ∀ q, ev.call = .credential q → ∃ f, q.credential = .format f := by
    intro r w2 h
    unfold Holder.fetch at h
    rw [if_pos (Option.isSome_iff_ne_none.2 hs)] at h
    unfold Holder.byFormat at h
    rcases Holder.check_step h with ⟨_, rfl⟩ | ⟨_, h⟩
    · exact h0
    rcases Holder.need_step h with ⟨_, rfl⟩ | ⟨fmt, _, h⟩
    · exact h0
    rcases Holder.need_step h with ⟨_, rfl⟩ | ⟨en, _, h⟩
    · exact h0
    have hcall : ∀ x : Option Holder.CredentialResponse, ∀ ev ∈ w1.recent ++ [(⟨.credential {
        credentialIssuer := i.issuer.credentialIssuer
        accessToken := i.token.accessToken
        credential := .format en.2.format
        proof := some (.single jwt) }, x⟩ : Holder.Event)], ∀ q, ev.call = .credential q → ∃ f, q.credential = .format f := by
      intro x ev hev q hq
      rcases List.mem_append.1 hev with hev | hev
      · exact h0 ev hev q hq
      · rw [List.mem_singleton] at hev; subst hev
        cases hq
        exact ⟨_, rfl⟩
    rcases Holder.call_step h with ⟨_, hE2, _⟩ | ⟨a, w3, hE2, _, h⟩
    · rw [hE2.recent]; exact hcall none
    have hproc : ∀ {r : Holder.HRes (List Holder.Credential × Option String)} {w4 : Holder.HWorld}, (Holder.process P en.2 a).run e w3 = (r, w4) →
        ∀ ev ∈ w4.recent, ∀ q, ev.call = .credential q → ∃ f, q.credential = .format f := by
      intro r w4 h
      obtain ⟨evs, hE3, hl, _⟩ := Holder.process_inv h
      rw [hE3.recent]
      intro ev hev q hq
      rcases List.mem_append.1 hev with hev | hev
      · rw [hE2.recent] at hev; exact hcall _ ev hev q hq
      · obtain ⟨u, hu⟩ := hl ev hev
        rw [hu] at hq; cases hq
    rcases Holder.bind_inv h with ⟨x, h1, _⟩ | ⟨out, w4, h1, h2⟩
    · exact hproc h1
    · obtain ⟨_, rfl⟩ := Holder.pure_inv h2
      exact hproc h1
  rcases Holder.bind_inv hr with ⟨x, h1, _⟩ | ⟨j, w2, h1, h2⟩
  · exact hfetch h1
  · obtain ⟨ws, hE3, _⟩ := Holder.put_end h2
    simp only [hE3.recent, List.append_nil]
    exact hfetch h1

theorem eqv_trans {a b c : Format} (h : a.eqv b = true) (h' : b.eqv c = true) : a.eqv c = true := by
  cases a <;> cases b <;> simp only [Format.eqv, Bool.false_eq_true] at h <;> cases c <;> simp only [Format.eqv, Bool.false_eq_true] at h' ⊢ <;>
    simp only [beq_iff_eq] at h h' ⊢ <;> exact h.trans h'

/-- The wallet's authorization for a scope succeeds and leaves it with a flow that belongs to the issuer's session. -/
theorem scope_links {n : Net} {w1 : World Issuer.State} {skip : Nat}
    {e : Holder.HEnv} (ho : e.oracle = n.oracle w1 skip) (hf : ∀ m, e.fault m = .ok) (hfi : ∀ m, n.env.fault m = .ok) {W : Holder.Provider}
    (hp : SamePkce n W) {url : String} {md : Verif.Issuer} {sv : Server} {client redirect : String}
    (hauth : ∀ j, Authorizes (n.provider j) url md sv client redirect) (hnd : Dict.Nodup md.configs) {subj : String} (hsubj : subj ≠ "")
    {scope word : String} {ids : String → List String} (hgr : ScopeGranted n md subj scope word ids)
    (hdist : Distinct (Covers md word) ids) {hw : Holder.HWorld} (hskip : skip ≤ hw.log.length) {st : Holder.HStep} {req : Holder.AuthorizeRequest}
    (hst : st.provider = W) (hreq : st.req = .authorize req) (hredir : req.redirectUri = some redirect) (hscope : req.initiator.scope = some scope)
    {i : Holder.Issuance} {wS : Holder.HWorld} (hstart : (Holder.startFlow req).run e (Holder.before hw st) = (.ok i, wS))
    (hnosave : ∀ ev ∈ wS.recent, ∀ c, ev.call ≠ .save c) (i1 : i.clientId = client) (i2 : i.subjectId = subj) (i3 : i.issuer = md)
    (i4 : i.server = sv) (i5 : i.scope = some scope) (i6 : i.deferred = []) (i7 : i.notificationId = none)
    (hstate : Holder.offeredState i req.initiator = none) {keys : String → Prop}
    (hkeys : ∀ key, Received ((Holder.step e hw st).2.log.drop hw.log.length) key → keys key)
    (hquiet : ∀ pre, pre <+: Net.made skip (Holder.step e hw st).2.log [] → Undisturbed n w1 pre keys) :
    ∃ creds i' s t tok en, (∃ r, en.result = .ok r) ∧ (Holder.step e hw st).2.log = hw.log ++ [en] ∧ (∀ ev ∈ en.events, ∀ c, ev.call ≠ .save c) ∧
      keys tok ∧ Tied md subj scope i.id tok creds (w1.now + 5 * 60 * Issuer.sec) (Holder.step e hw st).2
        (n.after w1 (Net.made skip (Holder.step e hw st).2.log [])).2 i' s t ∧ i'.credentials = i.credentials ∧
      ∀ cid, Covers md word cid → (∀ id ∈ ids cid, (id, ({ identifier := id, configId := cid, claimIds := none } : Issuer.Authorized)) ∈ creds) ∧
        ∀ id a, (id, a) ∈ creds → a.configId = cid → a.claimIds = none ∧ a.identifier ∈ ids cid := by
  obtain ⟨rest0, hword⟩ := hgr.first
  obtain ⟨m, ms, hmeth⟩ := (hauth 0).method
  obtain ⟨gl, hgl, hgm⟩ := (hauth 0).grants
  have hrts : ∃ rt rts, sv.responseTypesSupported = rt :: rts := by
    obtain ⟨_, _, _, _, _, rt, rts, _, h, _⟩ := (hauth 0).client
    exact ⟨rt, rts, h⟩
  obtain ⟨rt, rts, hrt⟩ := hrts
  have hlogS : wS.log = hw.log := by
    have := Holder.run_log e (Holder.startFlow req) (Holder.before hw st)
    rw [hstart] at this; exact this
  generalize hv : e.rng wS.drawn = v
  -- the request for authorization
  obtain ⟨r, hr, r1, r2, r3, r4, r5, r6, r7, r8, r9, r10⟩ : ∃ r, Holder.authorizationRequest (Holder.authorizing W v i req) req = .ok r ∧
      r.credentialIssuer = url ∧ r.responseType = rt ∧ r.clientId = client ∧ r.redirectUri = some redirect ∧ r.codeChallenge = W.codeChallenge v ∧
      r.codeChallengeMethod = m ∧ r.authorizationDetails = none ∧ r.scope = some scope ∧ r.subjectId = subj ∧
      r.issuerState = none := by
    have hdet' : Holder.requestDetails (Holder.authorizing W v i req) req = .ok none := by
      simp only [Holder.requestDetails, hscope]
    refine ⟨_, by
      simp only [Holder.authorizationRequest, hdet', Holder.ok_bind]
      simp only [Holder.authorizing, Holder.need, i4, hmeth, hrt, Holder.first, Holder.ok_bind, Holder.ok_pure]
      rfl, ?_⟩
    refine ⟨by rw [i3]; exact (hauth 0).itself, rfl, i1, hredir, rfl, rfl, rfl, hscope, i2, hstate⟩
  have hserveq : st.provider = W := hst
  obtain ⟨⟨evs0, hask0⟩, hask1⟩ := Holder.authorize_asks (e := e) (w := Holder.before hw st) (P := W) hstart (by rw [hv]; exact hr)
  have hsteplog := Holder.step_log e hw st
  rw [hreq, hst] at hsteplog
  change (Holder.step e hw st).2.log = hw.log ++ [⟨W, hw.now + st.wait, .authorize req, ((Holder.authorize W req).run e (Holder.before hw st)).1,
    ((Holder.authorize W req).run e (Holder.before hw st)).2.recent⟩] at hsteplog
  have hmadestep : Net.made skip (Holder.step e hw st).2.log [] =
      Net.made skip hw.log [] ++ (((Holder.authorize W req).run e (Holder.before hw st)).2.recent).map Holder.Event.call := by
    rw [hsteplog, Net.made_snoc hskip]
  generalize hA : Net.made skip hw.log wS.recent = A at *
  have hAx : A = Net.made skip hw.log [] ++ wS.recent.map Holder.Event.call := by rw [← hA, Net.made_recent]
  have hpre0 : A <+: Net.made skip (Holder.step e hw st).2.log [] := by
    rw [hmadestep, hask0, hAx]
    simp
  have q0 := hquiet A hpre0
  have q0i := q0.intact
  have q0t := q0.intime
  -- the issuer authorizes
  have hnow0 := n.arrival_now w1 A
  generalize hix : (n.after w1 A).1 = ix at *
  generalize hax : (n.after w1 A).2 = ax at *
  have hgr' : Issuer.Grantable (n.provider ix) md r := by
    refine ⟨fun ds' d h1 => by (rw [r7] at h1; cases h1), ?_, .inr ⟨scope, r8, by rw [hword]; simp⟩⟩
    intro s item rest h1 h2
    rw [r8] at h1; cases h1
    rw [hword] at h2; cases h2
    obtain ⟨cid, cfg, g1, g2⟩ := hgr.published
    refine ⟨⟨cid, cfg, g1, g2, fun ds' d h1 => by (rw [r7] at h1; cases h1)⟩, fun id cfg' g3 g4 => ⟨ids id, ?_⟩⟩
    rw [r9]
    exact hgr.granted ix id ⟨cfg', g3, g4⟩
  obtain ⟨cl, a1, a2, a3, a4, rt', rts', a5, a6, a7, a8⟩ := (hauth ix).client
  rw [hrt] at a6; cases a6
  have hacc : Issuer.Acceptable (n.provider ix) (n.arrival ix ax) r := by
    refine ⟨md, cl, sv, by rw [r1]; exact (hauth ix).metadata, hnd, by rw [r3]; exact a1, by rw [r1]; exact (hauth ix).server,
      ⟨?_, ⟨⟨gl, hgl, hgm⟩, a2⟩, a3, ?_, ⟨_, hmeth, by rw [r6]; exact .head _⟩, by rw [r5]; exact hp.size v, by rw [r9]; exact hsubj, .inr (by rw [r8]; nofun)⟩,
      hgr', ?_⟩
    · exact ⟨by rw [r2, hrt]; exact .head _, a5, a7, by rw [r2]; exact a8⟩
    · obtain ⟨us, h1, h2⟩ := a4
      exact ⟨redirect, us, r4, h1, h2⟩
    · intro x hx; rw [r10] at hx; cases hx
  obtain ⟨resp, wa, hrunA, _, _⟩ := Issuer.C91_acceptable_request_gets_code (P := n.provider ix) (request := .object r) (e := n.env)
    (w := n.arrival ix ax) (fun _ _ => hfi _) (r := r) rfl hacc (by
      intro sv' h1 h2
      rw [r1, (hauth ix).server] at h1; cases h1
      exact absurd h2 (hauth ix).direct)
  obtain ⟨items, c1, c2, c4, c5, c6⟩ := Issuer.scope_items hrunA (by rw [r1]; exact (hauth ix).metadata) hnd r7 r8 hword r10
  have hserveA : n.serve ix ax (.authorize (.object r)) = (.ok (.authorize resp), wa) := by
    have := Issuer.step_authorize (e := n.env) (w := n.arrival ix ax) (s := { provider := n.provider ix, req := .authorize (.object r) }) rfl
    simp only [show Issuer.World.wait (n.arrival ix ax) 0 = n.arrival ix ax from by simp [Issuer.World.wait]] at this
    rw [hrunA] at this
    exact this
  have horA : e.oracle wS.log wS.recent (.authorization r) = some resp := by
    rw [ho, hlogS]
    show n.answer w1 (Net.made skip hw.log wS.recent) _ _ = _
    rw [hA]
    unfold Net.answer
    rw [hix, hax, hserveA]
    rfl
  obtain ⟨evs1, hask1⟩ := hask1 resp horA
  rw [hv] at hask1
  generalize htr : Holder.codeTokenRequest (Holder.authorizing W v i req) req resp = treq at *
  have eB : n.after w1 (A ++ [.authorization r]) = (ix + 1, wa) := by
    rw [n.after_snoc w1 (r := .authorize (.object r)) rfl, hix, hax, hserveA]
  have hpre1 : A ++ [.authorization r] <+: Net.made skip (Holder.step e hw st).2.log [] := by
    rw [hmadestep, hask1, hAx]
    simp
  have q1 := hquiet _ hpre1
  have hin : (⟨W, hw.now + st.wait, .authorize req, ((Holder.authorize W req).run e (Holder.before hw st)).1,
      ((Holder.authorize W req).run e (Holder.before hw st)).2.recent⟩ : Holder.Entry) ∈ (Holder.step e hw st).2.log.drop hw.log.length := by
    rw [hsteplog]; simp
  have hcodek : keys resp.code := hkeys _ (.code _ r resp hin (by simp only [hask1]; simp))
  have i1' := q1.intact _ hcodek
  have t1' := q1.intime
  rw [eB] at i1' t1'
  -- the token
  have hnow1 : wa.now ≤ (n.arrival (ix + 1) wa).now := Issuer.exec_now_le ..
  obtain ⟨cl', b1, _, b3, _⟩ := (hauth (ix + 1)).client
  have hrunT := Issuer.code_token (P := n.provider (ix + 1)) (e := n.env) (w := n.arrival (ix + 1) wa) (fun _ _ => hfi _) (req := treq)
    (code := resp.code) (v := v) (uri := some redirect) (by rw [← htr, ← hredir]; rfl) (r := r) (items := items) (t0 := (n.arrival ix ax).now)
    (by rw [i1']; exact c1) (by simp only [Issuer.authorizedDur, Issuer.sec] at *; omega) (server := sv) (supported := gl)
    (by rw [← htr]; show (n.provider (ix + 1)).server i.issuer.credentialIssuer = _; rw [i3, (hauth 0).itself]; exact (hauth _).server)
    hgl hgm (by rw [← htr, r3, ← i1]; rfl) (client := cl') (by rw [r3]; exact b1) b3 r4.symm (by rw [hp.same, r5])
  generalize htresp : Issuer.Token.response (n.env.rng (n.arrival (ix + 1) wa).drawn) (n.env.rng ((n.arrival (ix + 1) wa).drawn + 1)) items = tresp at *
  have hserveT := Issuer.step_token (e := n.env) (w := n.arrival (ix + 1) wa) (s := { provider := n.provider (ix + 1), req := .token treq }) rfl
  simp only [show Issuer.World.wait (n.arrival (ix + 1) wa) 0 = n.arrival (ix + 1) wa from by simp [Issuer.World.wait]] at hserveT
  rw [hrunT] at hserveT
  change n.serve (ix + 1) wa (.token treq) = (.ok (.token tresp), _) at hserveT
  have horT : e.oracle wS.log (wS.recent ++ [⟨.authorization r, some resp⟩]) (.token treq) = some tresp := by
    rw [ho, hlogS]
    show n.answer w1 (Net.made skip hw.log (wS.recent ++ [⟨.authorization r, some resp⟩])) _ _ = _
    rw [show Net.made skip hw.log (wS.recent ++ [⟨.authorization r, some resp⟩]) = A ++ [.authorization r] from by
      rw [Net.made_recent, hAx]; simp]
    unfold Net.answer
    rw [eB, hserveT]
    rfl
  have hld : tresp.authorizationDetails = none := by
    rw [← htresp]
    exact Issuer.authorizedDetails_scope fun it hit => (c5 it hit).2.1
  obtain ⟨mm, hmm⟩ : ∃ mm, Holder.authorizedOfNonempty i.issuer tresp.authorizationDetails = .ok mm := by
    rw [hld]
    exact ⟨none, rfl⟩
  have hrun := Holder.authorize_runs (e := e) (w := Holder.before hw st) hf (P := W) hstart (by rw [hv]; exact hr) horA (t := tresp)
    (by rw [hv, htr]; exact horT) hmm
  rw [hv, htr] at hrun
  have hstep := step_of_run (e := e) (hw := hw) (st := st) (by rw [hst, hreq]; exact hrun)
  have hlog : (Holder.step e hw st).2.log = hw.log ++ [⟨st.provider, hw.now + st.wait, st.req, .ok (.authorized i.id mm),
      wS.recent ++ [⟨.authorization r, some resp⟩, ⟨.token treq, some tresp⟩]⟩] := by rw [hstep, ← hlogS]
  have hstore : (Holder.step e hw st).2.store i.id = some (.issuance { Holder.authorizing W v i req with
      token := tresp
      status := .tokenReceived }) := by rw [hstep]; exact upd_same ..
  have hafter : n.after w1 (Net.made skip (Holder.step e hw st).2.log []) = (ix + 2, (n.serve (ix + 1) wa (.token treq)).2) := by
    rw [hlog, Net.made_snoc hskip]
    simp only [List.map_append, List.map_cons, List.map_nil, ← List.append_assoc]
    rw [← hAx, show A ++ [.authorization r, .token treq] = (A ++ [.authorization r]) ++ [.token treq] from by simp]
    rw [n.after_snoc w1 (r := .token treq) rfl, eB]
  have hcov : ∀ it ∈ items, Covers md word it.configId ∧ it.identifiers = ids it.configId := by
    intro it hit
    obtain ⟨h0, _, cfg, h1, h2⟩ := c5 it hit
    rw [r9, hgr.granted ix _ ⟨cfg, h1, h2⟩] at h0
    exact ⟨⟨cfg, h1, h2⟩, (Option.some.inj h0).symm⟩
  refine ⟨Issuer.Token.authorizedCredentials items, { Holder.authorizing W v i req with
      token := tresp
      status := .tokenReceived },
    Issuer.Token.stored (Issuer.Authorize.stored r items (n.arrival ix ax).now) (n.env.rng (n.arrival (ix + 1) wa).drawn)
      (n.env.rng ((n.arrival (ix + 1) wa).drawn + 1)) (n.arrival (ix + 1) wa).now items, _, n.env.rng (n.arrival (ix + 1) wa).drawn, _, ⟨_, rfl⟩, hlog,
      ?_, ?_, ⟨hstore, rfl, rfl, i5, i3, i6, i7, ?_, ?_, ⟨?_, rfl⟩, rfl, ?_, rfl, ?_, ?_⟩, rfl, ?_⟩
  · intro ev hev c
    rcases List.mem_append.1 hev with hev | hev
    · exact hnosave ev hev c
    · simp only [List.mem_cons, List.not_mem_nil, or_false] at hev
      rcases hev with rfl | rfl <;> simp
  · have := hkeys tresp.accessToken (.token _ treq tresp hin (by simp only [hrun]; simp))
    rw [← htresp] at this
    exact this
  · rw [← htresp]; rfl
  · rw [← htresp]; rfl
  · rw [hafter, hserveT]
    simp
  · show some r.subjectId = _
    rw [r9]
  · show _ ≤ (n.arrival ix ax).now + Issuer.authorizedDur
    simp only [Issuer.authorizedDur, Issuer.sec] at *
    omega
  · show _ ≤ (n.arrival (ix + 1) wa).now + Issuer.nonceDur
    simp only [Issuer.nonceDur, Issuer.sec] at *
    omega
  · intro cid hc
    refine ⟨fun id hid => ?_, ?_⟩
    · obtain ⟨cfg, g1, g2⟩ := hc
      obtain ⟨it, u1, u2⟩ := c6 cid cfg g1 g2
      obtain ⟨v1, v2⟩ := hcov it u1
      refine Issuer.granted_only (st := Issuer.Authorize.stored r items (n.arrival ix ax).now) ⟨it, u1, u2, by rw [v2, u2]; exact hid⟩ ?_
      rintro cid' ⟨it', x1, rfl, x3⟩
      obtain ⟨y1, y2⟩ := hcov it' x1
      exact hdist.apart _ _ id y1 ⟨cfg, g1, g2⟩ (y2 ▸ x3) hid
    · intro id a hm ha
      obtain ⟨it, u1, u2, u3⟩ := Issuer.authorizedCredentials_mem hm
      simp only at u2 u3
      subst u3
      simp only at ha
      refine ⟨rfl, ?_⟩
      rw [← ha, ← (hcov it u1).2]
      exact u2

/-- The credential of a scope and a format is collected. -/
theorem Tied.collect {n : Net} {w1 : World Issuer.State} {skip : Nat} {e : Holder.HEnv} (ho : e.oracle = n.oracle w1 skip)
    (hf : ∀ m, e.fault m = .ok) (hfi : ∀ m, n.env.fault m = .ok) {W : Holder.Provider} {md : Verif.Issuer}
    (hu : Understands n W w1.now (w1.now + 5 * 60 * Issuer.sec + Issuer.sec)) {subj scope k tok : String}
    {creds : Dict Issuer.Authorized} {hw : Holder.HWorld} {i : Holder.Issuance} {s : Issuer.State} {t : Issuer.Token}
    (L : Tied md subj scope k tok creds (w1.now + 5 * 60 * Issuer.sec) hw (n.after w1 (Net.made skip hw.log [])).2 i s t)
    (hmd : ∀ j, (n.provider j).issuer md.credentialIssuer = some md) (hnd : Dict.Nodup md.configs) {cid : String} {cfg : CredentialConfiguration}
    (hcfg : (cid, cfg) ∈ md.configs) (hcs : cfg.scope = some scope) {format : Format} (hfor : cfg.format.eqv format = true)
    (huniq : ∀ cid' cfg', (cid', cfg') ∈ md.configs → cfg'.format.eqv format = true → cid' = cid) {ids : List String} {claims : String → Dict Json}
    (hne : ids ≠ []) (hiss : ∀ id ∈ ids, ∀ j, Issues (n.provider j) md subj cid id (claims id))
    (hin : ∀ id ∈ ids, (id, ({ identifier := id, configId := cid, claimIds := none } : Issuer.Authorized)) ∈ creds)
    (hall : ∀ id a, (id, a) ∈ creds → a.configId = cid → a.claimIds = none ∧ a.identifier ∈ ids)
    {st : Holder.HStep} (hst : st.provider = W) (hreq : st.req = .credentials ⟨k, none, some format⟩)
    (hquiet : (n.arrival (n.after w1 (Net.made skip hw.log [])).1 (n.after w1 (Net.made skip hw.log [])).2).store tok =
      (n.after w1 (Net.made skip hw.log [])).2.store tok)
    (hintime : (n.arrival (n.after w1 (Net.made skip hw.log [])).1 (n.after w1 (Net.made skip hw.log [])).2).now < w1.now + 5 * 60 * Issuer.sec + Issuer.sec) :
    ∃ c i' en id held, (∃ r, en.result = .ok r) ∧ (Holder.step e hw st).2.log = hw.log ++ [en] ∧ (∀ ev ∈ en.events, ∀ c, ev.call ≠ .save c) ∧
      (Holder.step e hw st).2.store k = some (.issuance i') ∧ i'.deferred = [] ∧ i'.notificationId = none ∧ i'.credentials = i.credentials ++ [c] ∧
      id ∈ ids ∧ (∀ x v, (x, v) ∈ held ↔ (x, v) ∈ claims id ∧ ∀ named, cfg.format.claims = some named → x ∈ Dict.keys named) ∧
      Collected n W md cid held c := by
  generalize hA : Net.made skip hw.log [] = A at *
  generalize hi : (n.after w1 A).1 = ix at *
  generalize hax : (n.after w1 A).2 = ax at *
  have hnon : (Holder.proofClaims i (hw.now + st.wait)).nonce = some t.cNonce := L.nonce
  obtain ⟨jwt, hj, hdec⟩ := hu.proofs _ _ hnon
  obtain ⟨pf, hd1, hd2, hd3, hd4⟩ := hdec ix
  obtain ⟨id0, hid0⟩ := List.exists_mem_of_ne_nil _ hne
  obtain ⟨⟨cfg', hcfg', ⟨df, hfmt⟩, hdisp, ⟨types, hty, hjwt⟩, hcan⟩, _⟩ := hiss id0 hid0 ix
  have hsame : cfg' = cfg := Option.some.inj ((Dict.get?_of_mem hnd hcfg').symm.trans (Dict.get?_of_mem hnd hcfg))
  subst hsame
  have hnow := n.arrival_now w1 A
  rw [hi, hax] at hnow
  have hself : cfg'.format.eqv cfg'.format = true := by rw [hfmt]; simp [Format.eqv]
  have huniq' : ∀ cid' c', (cid', c') ∈ md.configs → c'.format.eqv cfg'.format = true → cid' = cid := by
    intro cid' c' h1 h2
    exact huniq cid' c' h1 (eqv_trans h2 hfor)
  obtain ⟨signer, vc, id, held, hid, hheld, hvi, hvs, ⟨hend, tys, ty, hy1, hy2, hy3⟩, hrun⟩ := Issuer.issue_format_runs (P := n.provider ix)
    (req := Holder.formatRequest i jwt cfg'.format) (e := n.env)
    (w := n.arrival ix ax) (fun _ _ => hfi _) (subj := subj) (s := s) (t := t)
    ⟨⟨by rw [show (Holder.formatRequest i jwt cfg'.format).accessToken = tok from L.token, hquiet]; exact L.session.1, L.session.2⟩,
      by unfold Issuer.Live; have := L.live; simp only [Issuer.sec] at *; omega, by have := L.nonceLive; omega, L.subject⟩
    (iss := md) (by rw [show (Holder.formatRequest i jwt cfg'.format).credentialIssuer = md.credentialIssuer from by rw [← L.issuer]; rfl]; exact hmd ix) hnd
    (cid := cid) (cfg := cfg') rfl hcfg huniq' hself ⟨id0, _, by rw [L.creds]; exact hin id0 hid0, rfl⟩ (ids := ids) (by rw [L.creds]; exact hall)
    (did := beforeHash W.kid) (.inr ⟨types, hty, hjwt, .inl ⟨jwt, rfl, pf, W.kid, hd1, hd2, hd3, hd4, rfl⟩⟩) (claims := claims)
    (fun id hid => (hiss id hid ix).data)
    (by rw [show (Holder.formatRequest i jwt cfg'.format).credentialIssuer = md.credentialIssuer from by rw [← L.issuer]; rfl]; exact hcan) hfmt
  obtain ⟨vcc, hv1, hv2, hv3⟩ := hu.credentials signer vc ((n.arrival ix ax).now.fdiv Issuer.sec)
  have hserve : n.serve ix ax (.credential (Holder.formatRequest i jwt cfg'.format)) = _ :=
    Issuer.step_credential (e := n.env) (w := n.arrival ix ax)
      (s := { provider := n.provider ix, req := .credential (Holder.formatRequest i jwt cfg'.format) }) rfl
  simp only [show Issuer.World.wait (n.arrival ix ax) 0 = n.arrival ix ax from by simp [Issuer.World.wait]] at hserve
  rw [hrun] at hserve
  generalize hrr : Issuer.Credential.issuedResponse (.jwtVc signer vc ((n.arrival ix ax).now.fdiv Issuer.sec)) (n.env.rng (n.arrival ix ax).drawn)
    (n.env.rng ((n.arrival ix ax).drawn + 1)) (n.arrival ix ax).now = rr at hserve
  have hor : e.oracle (Holder.before hw st).log (Holder.before hw st).recent (.credential (Holder.formatRequest i jwt cfg'.format)) = some (deliver n.encode rr) := by
    rw [ho]
    show n.answer w1 (Net.made skip hw.log []) _ _ = _
    rw [hA]
    unfold Net.answer
    rw [hi, hax, hserve]
    rfl
  have hfind : i.issuer.configs.find? (fun e => e.2.scope == some scope && e.2.format.eqv format) = some (cid, cfg') := by
    rw [L.issuer]
    cases hfi : md.configs.find? (fun e => e.2.scope == some scope && e.2.format.eqv format) with
    | none => exact absurd (by simp [hcs, hfor]) (List.find?_eq_none.1 hfi _ hcfg)
    | some x =>
      obtain ⟨xc, xf⟩ := x
      have hx := List.mem_of_find?_eq_some hfi
      have hb := List.find?_some hfi
      simp only [Bool.and_eq_true] at hb
      have := huniq xc xf hx hb.2
      subst this
      rw [Option.some.inj ((Dict.get?_of_mem hnd hx).symm.trans (Dict.get?_of_mem hnd hcfg))]
  obtain ⟨c, resp, evs, dr, h1, h2, h3, h4, h5, h6⟩ := Holder.credentials_runs_format (e := e) (w := Holder.before hw st) hf (P := W) (k := k) (i := i) L.stored
    L.status L.id L.scope hj hfind hdisp hor (text := n.encode (.jwtVc signer vc ((n.arrival ix ax).now.fdiv Issuer.sec)))
    (by rw [← hrr]; rfl) hv1 (by rw [hv3]; exact hu.times _ hnow hintime)
  have hstep := step_of_run (e := e) (hw := hw) (st := st) (by rw [hst, hreq]; exact h1)
  have hlog : (Holder.step e hw st).2.log = hw.log ++ [⟨st.provider, hw.now + st.wait, st.req, .ok resp,
      ⟨.credential (Holder.formatRequest i jwt cfg'.format), some (deliver n.encode rr)⟩ :: evs⟩] := by rw [hstep]; rfl
  refine ⟨c, i.record cid ([c], none), _, id, held, ⟨resp, rfl⟩, hlog, ?_, ?_, L.deferred, L.notification, rfl, hid, ?_, ?_⟩
  · intro ev hev c' hc'
    simp only [List.mem_cons] at hev
    rcases hev with rfl | hev
    · cases hc'
    · obtain ⟨u, hu'⟩ := h6 ev hev
      rw [hu'] at hc'; cases hc'
  · rw [hstep]; exact upd_same ..
  · rw [hfmt]; exact hheld
  · have hvc := h2.trans hv2
    exact ⟨by rw [h5, hv2, hvi], by rw [hvc, hvs], by rw [hvc, hvi], ⟨cfg', df, tys, ty, hcfg, hfmt, hy1, hy2, by rw [hvc, hy3]⟩, by rw [hvc, hend],
      signer, _, by rw [h3, hvc]⟩

/-- In a flow for a scope with which the issuer publishes nothing, no credential is asked for. -/
theorem credentials_unpublished {e : Holder.HEnv} {w : Holder.HWorld} {P : Holder.Provider} {req : Holder.CredentialsRequest} {i : Holder.Issuance}
    (hi : w.store req.issuanceId = some (.issuance i)) {scope : String} (hs : i.scope = some scope) (hno : ∀ cid, ¬ Covers i.issuer scope cid) :
    (∃ x, ((Holder.credentials P req).run e w).1 = .error x) ∧ ((Holder.credentials P req).run e w).2.recent = w.recent ∧
      ((Holder.credentials P req).run e w).2.store = w.store := by
  generalize hr : (Holder.credentials P req).run e w = x
  obtain ⟨r, w'⟩ := x
  unfold Holder.credentials at hr
  rcases Holder.getI_step hr with ⟨⟨x, hx, _⟩, hE, _⟩ | ⟨i', w1, hi', hE, _, hr⟩
  · exact ⟨⟨x, hx⟩, by simpa using hE.recent, hE.store⟩
  rw [hi] at hi'; cases hi'
  have h1 : w1.recent = w.recent := by simpa using hE.recent
  have h2 : w1.store = w.store := hE.store
  rcases Holder.check_step hr with ⟨⟨x, hx, _⟩, rfl⟩ | ⟨_, hr⟩
  · exact ⟨⟨x, hx⟩, h1, h2⟩
  have hr := Holder.now_step hr
  rcases Holder.need_step hr with ⟨⟨x, hx, _⟩, rfl⟩ | ⟨jwt, _, hr⟩
  · exact ⟨⟨x, hx⟩, h1, h2⟩
  have hfetch : ∀ {r : Holder.HRes Holder.Issuance} {w2 : Holder.HWorld}, (Holder.fetch P i req jwt).run e w1 = (r, w2) → (∃ x, r = .error x) ∧ w2 = w1 := by
    intro r w2 h
    unfold Holder.fetch at h
    rw [if_pos (by rw [hs]; rfl)] at h
    unfold Holder.byFormat at h
    rcases Holder.check_step h with ⟨⟨x, hx, _⟩, rfl⟩ | ⟨_, h⟩
    · exact ⟨⟨x, hx⟩, rfl⟩
    rcases Holder.need_step h with ⟨⟨x, hx, _⟩, rfl⟩ | ⟨fmt, _, h⟩
    · exact ⟨⟨x, hx⟩, rfl⟩
    rcases Holder.need_step h with ⟨⟨x, hx, _⟩, rfl⟩ | ⟨en, hen, h⟩
    · exact ⟨⟨x, hx⟩, rfl⟩
    · have hb := List.find?_some hen
      simp only [Bool.and_eq_true, beq_iff_eq, hs] at hb
      exact absurd ⟨en.2, List.mem_of_find?_eq_some hen, hb.1⟩ (hno en.1)
  rcases Holder.bind_inv hr with ⟨x, h3, rfl⟩ | ⟨j, w2, h3, h4⟩
  · obtain ⟨_, rfl⟩ := hfetch h3
    exact ⟨⟨x, rfl⟩, h1, h2⟩
  · obtain ⟨⟨x, hx⟩, _⟩ := hfetch h3
    cases hx

/-- Nor is one later. -/
theorem exec_unpublished {e : Holder.HEnv} {k : String} {i : Holder.Issuance} {scope : String} (hs : i.scope = some scope)
    (hno : ∀ cid, ¬ Covers i.issuer scope cid) {l : List Holder.HStep} (hl : ∀ st ∈ l, ∃ r, st.req = .credentials r ∧ r.issuanceId = k) {w : Holder.HWorld}
    (hi : w.store k = some (.issuance i)) :
    ∃ new, (Holder.exec e w l).log = w.log ++ new ∧ new.length = l.length ∧ ∀ en ∈ new, (∃ x, en.result = .error x) ∧ en.events = [] := by
  induction l generalizing w with
  | nil => exact ⟨[], by simp [Holder.exec], rfl, by simp⟩
  | cons st l ih =>
    obtain ⟨r, hr, hk⟩ := hl st (.head _)
    obtain ⟨h1, h2, h3⟩ := credentials_unpublished (e := e) (w := Holder.before w st) (P := st.provider) (req := r) (i := i) (by rw [hk]; exact hi) hs hno
    have hst : (Holder.step e w st).2.store k = some (.issuance i) := by
      rw [(Holder.step_eq e w st).2, hr, show Holder.serve st.provider (.credentials r) = Holder.credentials st.provider r from rfl, h3]
      exact hi
    obtain ⟨new, hn, hlen, hall⟩ := ih (fun s hs => hl s (.tail _ hs)) hst
    refine ⟨Holder.entryOf e w st :: new, ?_, by simp [hlen], ?_⟩
    · show (Holder.exec e (Holder.step e w st).2 l).log = _
      rw [hn, Holder.step_entry]; simp
    · intro en hen
      rcases List.mem_cons.1 hen with rfl | hen
      · refine ⟨?_, ?_⟩
        · show ∃ x, ((Holder.serve st.provider st.req).run e (Holder.before w st)).1 = .error x
          rw [hr]; exact h1
        · show ((Holder.serve st.provider st.req).run e (Holder.before w st)).2.recent = []
          rw [hr]; exact h2
      · exact hall en hen

/-! ### Properties -/

/-- The part of **C200** that holds. The wallet and the issuer of this repository complete an authorization-code flow for a scope, for one credential. Take an issuer in any state
it can be in, and a wallet with any past of its own, that asks for authorization for a scope and a token; collects the credential of one of the formats of that scope; and saves it,
at any times within five minutes. Whatever else the issuer serves in between, as long as nobody else uses the codes and tokens the wallet is given: every one of those calls succeeds,
and one credential is saved: made by that issuer, of the configuration of that scope and format, about the holder of the wallet's key, with the claims the issuer's Subject provider has for
one of the credentials it authorizes in that configuration, as far as the issuer publishes those claims. The flow is gone from the wallet afterwards.

Assumed of the surroundings, besides what C105 assumes: the scope is one word, everything published with it can be granted (`ScopeGranted`), and the issuer publishes one
configuration with that format. Missing: a second credential; see `C200_one_credential_only`. -/
theorem C200_scope_flow_partial {n : Net} {w : World Issuer.State}
    (hfi : ∀ m, n.env.fault m = .ok) {url : String} {md : Verif.Issuer} {sv : Server} {client redirect : String}
    (hauth : ∀ j, Authorizes (n.provider j) url md sv client redirect) (hnd : Dict.Nodup md.configs) {subj : String} (hsubj : subj ≠ "")
    {scope : String} {ids : String → List String} (hgr : ScopeGranted n md subj scope scope ids) (hdist : Distinct (Covers md scope) ids)
    {cid : String} {cfg : CredentialConfiguration} (hcfg : (cid, cfg) ∈ md.configs) (hcs : cfg.scope = some scope) {format : Format}
    (hfor : Issuer.SameCredential (.format cfg.format) (.format format))
    (huniq : ∀ cid' cfg', (cid', cfg') ∈ md.configs → Issuer.SameCredential (.format cfg'.format) (.format format) → cid' = cid)
    {claims : String → Dict Json} (hne : ids cid ≠ []) (hiss : ∀ id ∈ ids cid, ∀ j, Issues (n.provider j) md subj cid id (claims id))
    {e : Holder.HEnv} {hw : Holder.HWorld} (ho : e.oracle = n.oracle w hw.log.length)
    (hsave : ∀ log recent c, n.rest log recent (.save c) = some ()) (hf : ∀ m, e.fault m = .ok) {W : Holder.Provider}
    (hu : Understands n W w.now (w.now + 5 * 60 * Issuer.sec + Issuer.sec)) (hp : SamePkce n W) {hist : List Holder.HStep}
    (hprov : ∀ st ∈ hist, st.provider = W)
    (hhist : hist.map (·.req) = [.authorize ⟨.wallet client url (some scope) subj, some redirect, none⟩,
      .credentials ⟨e.rng hw.drawn, none, some format⟩, .save (e.rng hw.drawn)])
    (hquiet : ∀ pre, pre <+: Net.made hw.log.length (Holder.exec e hw hist).log [] →
      Undisturbed n w pre (Received ((Holder.exec e hw hist).log.drop hw.log.length))) :
    ∃ new c id held, (Holder.exec e hw hist).log = hw.log ++ new ∧ (∀ en ∈ new, ∃ r, en.result = .ok r) ∧ savedIn new = [c] ∧
      c.issuer = url ∧ c.vc.subject = .one { id := some (beforeHash W.kid), claims := held } ∧ id ∈ ids cid ∧
      (∀ x v, (x, v) ∈ held ↔ (x, v) ∈ claims id ∧ ∀ named, cfg.format.claims = some named → x ∈ Dict.keys named) ∧
      (∃ d types ty, cfg.format = .jwtVcJson d ∧ d.type_ = some types ∧ types[1]? = some ty ∧ c.vc.type_ = .many ["VerifiableCredential", ty]) ∧
      (Holder.exec e hw hist).store (e.rng hw.drawn) = none := by
  obtain ⟨st, hist', rfl, hr, hhist'⟩ := List.map_eq_cons_iff.1 hhist
  obtain ⟨st2, hist'', rfl, hr2, hhist''⟩ := List.map_eq_cons_iff.1 hhist'
  obtain ⟨st3, hist3, rfl, hr3, hh3⟩ := List.map_eq_cons_iff.1 hhist''
  cases List.map_eq_nil_iff.1 hh3
  have hnil : Net.made hw.log.length hw.log [] = [] := by simp [Net.made]
  have h1 : e.oracle hw.log [] (.metadata url) = some md := by
    rw [ho]
    show n.answer w (Net.made hw.log.length hw.log []) _ _ = _
    rw [hnil]
    simp only [Net.answer, Net.after, List.foldl_nil, serve_metadata n (hauth 0).metadata, reply]
    rfl
  have h2 : e.oracle hw.log ([] ++ [⟨.metadata url, some md⟩]) (.oauthServer url) = some sv := by
    rw [ho]
    show n.answer w (Net.made hw.log.length hw.log _) _ _ = _
    rw [Net.made_recent, hnil]
    simp only [Net.answer, Net.after, List.nil_append, List.map_cons, List.map_nil, List.foldl_cons, List.foldl_nil, Net.next, request, Nat.zero_add,
      serve_oauth n (hauth 1).server, reply]
    rfl
  have hstart := Holder.startFlow_scope (e := e) (w := Holder.before hw st) (req := ⟨.wallet client url (some scope) subj, some redirect, none⟩) rfl rfl h1 h2
  obtain ⟨tl, htl⟩ := Holder.exec_log e (Holder.step e hw st).2 [st2, st3]
  have hlen : hw.log.length ≤ (Holder.step e hw st).2.log.length := by rw [Holder.step_log]; simp
  obtain ⟨creds, i', s, t, tok, en, ⟨r, k1⟩, k2, k3, k4, L, k5, k6⟩ := scope_links ho hf hfi hp hauth hnd hsubj hgr
    hdist (Nat.le_refl _) (st := st) (hprov st (.head _)) hr rfl rfl hstart
    (by
      intro ev hev
      simp only [Holder.before, List.nil_append, List.mem_cons, List.not_mem_nil, or_false] at hev
      rcases hev with rfl | rfl <;> simp)
    rfl rfl rfl rfl rfl rfl rfl rfl (keys := Received ((Holder.exec e hw (st :: [st2, st3])).log.drop hw.log.length))
    (fun key hk => hk.mono fun en hen => by
      show en ∈ (Holder.exec e (Holder.step e hw st).2 [st2, st3]).log.drop _
      rw [htl, List.drop_append_of_le_length hlen]
      exact List.mem_append_left _ hen)
    (fun pre hpre => hquiet pre (hpre.trans (by
      show _ <+: Net.made _ (Holder.exec e (Holder.step e hw st).2 [st2, st3]).log []
      rw [htl]
      exact Net.made_prefix hlen)))
  obtain ⟨k7, k8⟩ := k6 cid ⟨cfg, hcfg, hcs⟩
  have hq := hquiet (Net.made hw.log.length (Holder.step e hw st).2.log []) (by
      show _ <+: Net.made _ (Holder.exec e (Holder.step e hw st).2 [st2, st3]).log []
      rw [htl]
      exact Net.made_prefix hlen)
  obtain ⟨c, i2, en2, id, held, ⟨r2, m1⟩, m2, m3, m4, m5, m6, m7, m8, m9, m10⟩ := L.collect ho hf hfi hu
    (fun j => by rw [(hauth j).itself]; exact (hauth j).metadata) hnd hcfg hcs
    ((Issuer.sameCredential_iff (.format cfg.format) (.format format)).2 hfor) (fun cid' cfg' g1 g2 => huniq cid' cfg' g1 ((Issuer.sameCredential_iff (.format cfg'.format) (.format format)).1 g2))
    hne hiss k7 k8 (hprov st2 (.tail _ (.head _))) hr2 (hq.intact tok k4) hq.intime
  have hrun := Holder.save_runs (e := e) (w := Holder.before (Holder.step e (Holder.step e hw st).2 st2).2 st3) hf (k := e.rng hw.drawn) (i := i2) m4 m5 m6
      (by rw [ho]; exact hsave)
  have hstep := step_of_run (e := e) (hw := (Holder.step e (Holder.step e hw st).2 st2).2) (st := st3) (by rw [hr3]; exact hrun)
  refine ⟨[en, en2, ⟨st3.provider, (Holder.step e (Holder.step e hw st).2 st2).2.now + st3.wait, st3.req, .ok (.flow (e.rng hw.drawn)), i2.credentials.map fun c => ⟨.save c, some ()⟩⟩], c, id, held, ?_, ?_, ?_, ?_, m10.subject,
    m8, m9, ?_, ?_⟩
  · simp only [Holder.exec]
    rw [hstep]
    show (Holder.step e (Holder.step e hw st).2 st2).2.log ++ _ = _
    rw [m2, k2]
    simp [Holder.before]
  · intro x hx
    simp only [List.mem_cons, List.not_mem_nil, or_false] at hx
    rcases hx with rfl | rfl | rfl
    · exact ⟨r, k1⟩
    · exact ⟨r2, m1⟩
    · exact ⟨_, rfl⟩
  · have hno : ∀ x : Holder.Entry, (∀ ev ∈ x.events, ∀ c, ev.call ≠ .save c) → x.events.filterMap saved = [] := by
      intro x hx
      rw [List.filterMap_eq_nil_iff]
      intro ev hev
      have := hx ev hev
      unfold saved
      split
      · exact absurd rfl (this _)
      · rfl
    simp only [savedIn, List.flatMap_cons, List.flatMap_nil, List.append_nil, hno en k3, hno en2 m3, List.nil_append, List.filterMap_map]
    rw [show (saved ∘ fun c => (⟨.save c, some ()⟩ : Holder.Event)) = some from rfl, List.filterMap_some, m7, k5]
    rfl
  · rw [m10.issuer]; exact (hauth 0).itself
  · obtain ⟨cfg', d, types, ty, g1, g2, g3, g4, g5⟩ := m10.type_
    rw [Option.some.inj ((Dict.get?_of_mem hnd g1).symm.trans (Dict.get?_of_mem hnd hcfg))] at g2
    exact ⟨d, types, ty, g2, g3, g4, g5⟩
  · simp only [Holder.exec]; rw [hstep]; exact upd_same ..

/-- **C200 is false** of more than one credential, in general. Once the issuer has issued a credential in a flow for a scope, nothing the wallet or the issuer do later gets the
flow another one, though the scope may cover several and the token authorizes them all: every credential the wallet asks for in this flow is refused. The issuer takes only the
nonce it sent with the credential, and the wallet keeps the old one. -/
theorem C200_one_credential_only {n : Net} {w1 : World Issuer.State} {e : Holder.HEnv} (hfresh : Issuer.Env.Fresh n.env) (hp : ProofsAlways n)
    (ho : e.oracle = n.oracle w1 0) (hf : e.Fresh) (hn : e.NoLate) {hw : Holder.HWorld} (hr : Holder.Reachable e hw) {st : Holder.HStep} {en : Holder.Entry}
    (hlog : (Holder.step e hw st).2.log = hw.log ++ [en]) {k : String} {i : Holder.Issuance} (hi : hw.store k = some (.issuance i)) {scope : String}
    (hsc : i.scope = some scope) {r : Holder.CredentialsRequest} (hreq : st.req = .credentials r) (hk : r.issuanceId = k)
    {q : Issuer.CredentialRequest} {x : Holder.CredentialResponse} {c : Kind Vc} (hev : ⟨.credential q, some x⟩ ∈ en.events) (hc : x.response = .credential c)
    {later : List Holder.HStep} {st2 : Holder.HStep} (ht : ∀ s ∈ later ++ [st2], ProofsTold n s.provider)
    {r2 : Holder.CredentialsRequest} (hreq2 : st2.req = .credentials r2) (hk2 : r2.issuanceId = k) {en2 : Holder.Entry}
    (hlog2 : (Holder.exec e (Holder.step e hw st).2 (later ++ [st2])).log = (Holder.exec e (Holder.step e hw st).2 later).log ++ [en2])
    {q2 : Issuer.CredentialRequest} {x2 : Option Holder.CredentialResponse} (hev2 : ⟨.credential q2, x2⟩ ∈ en2.events) :
    x2 = none ∧ ∃ err, en2.result = .error err := by
  have hen : en = Holder.entryOf e hw st := by
    rw [Holder.step_entry] at hlog
    simpa using hlog.symm
  have hq : ∃ f, q.credential = .format f := by
    have hall := credentials_formats (e := e) (w := Holder.before hw st) (P := st.provider) (req := r) (i := i) (by rw [hk]; exact hi) (by rw [hsc]; simp)
      (by intro ev hev; simp [Holder.before] at hev)
    rw [hen, show (Holder.entryOf e hw st).events = ((Holder.serve st.provider st.req).run e (Holder.before hw st)).2.recent from rfl, hreq] at hev
    exact hall _ hev q rfl
  obtain ⟨f, hq⟩ := hq
  exact C109_flow_stuck hfresh hp ho hf hn hr hlog (.byFormat r q x c f (by rw [hen]; exact hreq) hk hev hc hq) ht hreq2 hk2 hlog2 hev2

/-- **C200 is false** of scopes of several words, too. Where the issuer publishes a configuration with the first word of the scope and none with the whole of it, it authorizes the
flow and issues a token, for that first word; but every time the wallet then asks for the credentials of the flow, in whichever format, the call fails, and the issuer is
not even asked. -/
theorem C200_violated_several_words {n : Net} {w : World Issuer.State}
    (hfi : ∀ m, n.env.fault m = .ok) {url : String} {md : Verif.Issuer} {sv : Server} {client redirect : String}
    (hauth : ∀ j, Authorizes (n.provider j) url md sv client redirect) (hnd : Dict.Nodup md.configs) {subj : String} (hsubj : subj ≠ "")
    {scope word : String} {ids : String → List String} (hgr : ScopeGranted n md subj scope word ids) (hdist : Distinct (Covers md word) ids)
    (hwhole : ∀ cid, ¬ Covers md scope cid)
    {e : Holder.HEnv} {hw : Holder.HWorld} (ho : e.oracle = n.oracle w hw.log.length) (hf : ∀ m, e.fault m = .ok) {W : Holder.Provider}
    (hp : SamePkce n W) {st : Holder.HStep} (hst : st.provider = W)
    (hreq : st.req = .authorize ⟨.wallet client url (some scope) subj, some redirect, none⟩)
    (hquiet : ∀ pre, pre <+: Net.made hw.log.length (Holder.step e hw st).2.log [] → Undisturbed n w pre (Received ((Holder.step e hw st).2.log.drop hw.log.length)))
    {later : List Holder.HStep} (hlater : ∀ s ∈ later, ∃ r, s.req = .credentials r ∧ r.issuanceId = e.rng hw.drawn) :
    ∃ en new, (Holder.exec e hw (st :: later)).log = hw.log ++ en :: new ∧ (∃ r, en.result = .ok r) ∧ new.length = later.length ∧
      ∀ en' ∈ new, (∃ x, en'.result = .error x) ∧ en'.events = [] := by
  have hnil : Net.made hw.log.length hw.log [] = [] := by simp [Net.made]
  have h1 : e.oracle hw.log [] (.metadata url) = some md := by
    rw [ho]
    show n.answer w (Net.made hw.log.length hw.log []) _ _ = _
    rw [hnil]
    simp only [Net.answer, Net.after, List.foldl_nil, serve_metadata n (hauth 0).metadata, reply]
    rfl
  have h2 : e.oracle hw.log ([] ++ [⟨.metadata url, some md⟩]) (.oauthServer url) = some sv := by
    rw [ho]
    show n.answer w (Net.made hw.log.length hw.log _) _ _ = _
    rw [Net.made_recent, hnil]
    simp only [Net.answer, Net.after, List.nil_append, List.map_cons, List.map_nil, List.foldl_cons, List.foldl_nil, Net.next, request, Nat.zero_add,
      serve_oauth n (hauth 1).server, reply]
    rfl
  have hstart := Holder.startFlow_scope (e := e) (w := Holder.before hw st) (req := ⟨.wallet client url (some scope) subj, some redirect, none⟩) rfl rfl h1 h2
  obtain ⟨creds, i', s, t, tok, en, ⟨r, k1⟩, k2, k3, k4, L, k5, k6⟩ := scope_links ho hf hfi hp hauth hnd hsubj hgr
    hdist (Nat.le_refl _) (st := st) hst hreq rfl rfl hstart
    (by
      intro ev hev
      simp only [Holder.before, List.nil_append, List.mem_cons, List.not_mem_nil, or_false] at hev
      rcases hev with rfl | rfl <;> simp)
    rfl rfl rfl rfl rfl rfl rfl rfl (keys := Received ((Holder.step e hw st).2.log.drop hw.log.length)) (fun key hk => hk) hquiet
  obtain ⟨new, hn, hlen, hall⟩ := exec_unpublished (e := e) (k := e.rng hw.drawn) (i := i') L.scope (by rw [L.issuer]; exact hwhole) hlater L.stored
  refine ⟨en, new, ?_, ⟨r, k1⟩, hlen, hall⟩
  show (Holder.exec e (Holder.step e hw st).2 later).log = _
  rw [hn, k2]; simp

end Verif.Interop
