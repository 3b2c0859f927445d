import Verif.Holder.EndProps
/-!
# Where access tokens, codes and proofs are sent (C206)
-/
namespace Verif.Holder
open Verif HProg

variable {e : HEnv} {w : HWorld}

/-! ### Specification -/

/-- The wallet started the flow itself: it asked `issuer` for its metadata, got `md`, and sent an authorization request that names the flow. -/
def IsStart (k issuer : String) (md : Verif.Issuer) (en : Entry) : Prop :=
  (∃ r c sc sub, en.req = .authorize r ∧ r.initiator = .wallet c issuer sc sub) ∧ ⟨.metadata issuer, some md⟩ ∈ en.events ∧
    ∃ q o, ⟨.authorization q, o⟩ ∈ en.events ∧ q.state = some k

/-- The metadata a flow works with, and the issuer it was asked of: the one that the offer names, or the one that the wallet was told to turn to. -/
def Published (k issuer : String) (md : Verif.Issuer) (en : Entry) : Prop :=
  (∃ off, IsOffer k off md en ∧ off.credentialIssuer = issuer) ∨ IsStart k issuer md en

/-- The call that asked for the flow's access token sent the request `tr` and was answered with `t`. -/
def Given (k : String) (tr : Issuer.TokenRequest) (t : Issuer.TokenResponse) (en : Entry) : Prop :=
  ⟨.token tr, some t⟩ ∈ en.events ∧
    (en.req = .token k ∨ ∃ r, en.req = .authorize r ∧ (r.initiator = .issuer k ∨ ∃ q o, ⟨.authorization q, o⟩ ∈ en.events ∧ q.state = some k))

/-- The flow a call is about, if its caller names one. -/
def flowOf : Req → Option String
  | .token k => some k
  | .credentials r => some r.issuanceId
  | .deferred r => some r.issuanceId
  | .authorize r => match r.initiator with | .issuer k => some k | .wallet .. => none
  | _ => none

/-- The issuer a request is addressed to, for the requests that carry codes, tokens or proofs. -/
def addressee : Call → Option String
  | .authorization q => some q.credentialIssuer
  | .token q => some q.credentialIssuer
  | .credential q => some q.credentialIssuer
  | .deferred q => some q.credentialIssuer
  | _ => none

/-- The access token a request carries. -/
def bearerOf : Call → Option String
  | .credential q => some q.accessToken
  | .deferred q => some q.accessToken
  | _ => none

/-! ### What is stored agrees with where it came from -/

/-- Every stored flow knows an issuer that was published for it, and a token that this issuer gave. -/
def Home (L : List Entry) (s : String → Option HVal) : Prop :=
  ∀ k i, s k = some (.issuance i) → (∃ en ∈ L, ∃ iss, Published k iss i.issuer en) ∧
    (i.status = .tokenReceived → ∃ en ∈ L, ∃ tr t, Given k tr t en ∧ t.accessToken = i.token.accessToken ∧ tr.credentialIssuer = i.issuer.credentialIssuer)

variable {L : List Entry} {s : String → Option HVal} {en : Entry}

theorem Home.keep (h : Home L s) : Home (L ++ [en]) s := by
  intro k i hi
  obtain ⟨⟨x, hx, h1⟩, h2⟩ := h k i hi
  refine ⟨⟨x, List.mem_append_left _ hx, h1⟩, fun hs => ?_⟩
  obtain ⟨y, hy, h3⟩ := h2 hs
  exact ⟨y, List.mem_append_left _ hy, h3⟩

theorem Home.write (h : Home L s) {k : String} {v : Option HVal}
    (hv : ∀ i, v = some (.issuance i) → (∃ x ∈ L ++ [en], ∃ iss, Published k iss i.issuer x) ∧
      (i.status = .tokenReceived →
        ∃ x ∈ L ++ [en], ∃ tr t, Given k tr t x ∧ t.accessToken = i.token.accessToken ∧ tr.credentialIssuer = i.issuer.credentialIssuer)) :
    Home (L ++ [en]) (upd s k v) := by
  intro x i hi
  by_cases hx : x = k
  · subst hx; rw [upd, if_pos rfl] at hi; exact hv i hi
  · rw [upd, if_neg hx] at hi; exact (h.keep (en := en)) x i hi

theorem Home.ends (h : Home L s) {k : String} {v : Option HVal} {b : Resp} {r : HRes Resp} {ws : List Write} (hE : Ends e (k, v) b r ws)
    (hv : ∀ i, v = some (.issuance i) → (∃ x ∈ L ++ [en], ∃ iss, Published k iss i.issuer x) ∧
      (i.status = .tokenReceived →
        ∃ x ∈ L ++ [en], ∃ tr t, Given k tr t x ∧ t.accessToken = i.token.accessToken ∧ tr.credentialIssuer = i.issuer.credentialIssuer)) :
    Home (L ++ [en]) (applyWrites s ws) := by
  cases hE with
  | done => exact h.write hv
  | lost => exact h.keep
  | late _ => exact h.write hv

theorem step_home (hI : Inv e w.log w.store w.drawn) (hH : Home w.log w.store) (st : HStep) :
    Home (step e w st).2.log (step e w st).2.store := by
  obtain ⟨⟨r, w'⟩, hrun⟩ : ∃ q, (serve st.provider st.req).run e { w with now := w.now + st.wait, recent := [] } = q := ⟨_, rfl⟩
  have hl : w'.log = w.log := by
    have := run_log e (serve st.provider st.req) { w with now := w.now + st.wait, recent := [] }
    rw [hrun] at this; exact this
  have goal : Home (w.log ++ [⟨st.provider, w.now + st.wait, st.req, r, w'.recent⟩]) w'.store → Home (step e w st).2.log (step e w st).2.store := by
    intro h
    simp only [step, hrun, hl]
    exact h
  apply goal
  generalize hw0 : ({ w with now := w.now + st.wait, recent := [] } : HWorld) = w0 at hrun
  have hstore : w0.store = w.store := by rw [← hw0]
  have hrec : w0.recent = [] := by rw [← hw0]
  generalize st.provider = P at hrun ⊢
  generalize w.now + st.wait = now
  generalize st.req = q at hrun ⊢
  -- flows that a call changes without touching issuer and token
  have same : ∀ {k : String} {i : Issuance} {x : Entry}, w.store k = some (.issuance i) → ∃ y ∈ w.log ++ [x], ∃ iss, Published k iss i.issuer y := by
    intro k i x hi
    obtain ⟨⟨y, hy, h1⟩, _⟩ := hH k i hi
    exact ⟨y, List.mem_append_left _ hy, h1⟩
  have own : ∀ {k : String} {i : Issuance}, w.store k = some (.issuance i) → i.id = k := fun hi => FlowInv.id (hI.val _ _ hi)
  have noNote : ∀ id i, w0.store id = some (.issuance i) → i.notificationId = none := by rw [hstore]; exact hI.noNote
  cases q with
  | offer req =>
    obtain ⟨evs, ws, hE, h1⟩ := offer_did hrun
    have hrc : w'.recent = evs := by rw [hE.recent, hrec]; rfl
    rw [hrc, hE.store, hstore]
    rcases h1 with ⟨_, rfl, _⟩ | ⟨md, sv, _, rfl, ⟨_, rfl⟩ | ⟨rfl, h3⟩⟩
    · exact hH.keep
    · exact hH.keep
    · refine hH.write ?_
      intro i hi
      cases hi
      refine ⟨⟨_, List.mem_append_right _ (List.mem_singleton.mpr rfl), _, .inl ⟨req.offer, ⟨⟨req, rfl, rfl⟩, List.mem_cons_self .., ?_⟩, rfl⟩⟩,
        fun hs => (by cases hs)⟩
      intro resp hr
      rcases h3 with ⟨h3, _⟩ | ⟨h3, _⟩ | ⟨o, _, h3⟩
      · have hr : r = .ok resp := hr
        rw [h3] at hr; cases hr
      · have hr : r = .ok resp := hr
        rw [hr] at h3; exact absurd rfl h3.ne_ok
      · have hr : r = .ok resp := hr
        rw [h3] at hr; cases hr; exact ⟨_, _, _, rfl⟩
  | accept req =>
    obtain ⟨ws, hE, _, h1⟩ := accept_did hrun
    rw [hE.store, hstore]
    rcases h1 with ⟨_, rfl⟩ | ⟨i, acc, hi, _, _, _, hends⟩
    · exact hH.keep
    · rw [hstore] at hi
      rw [own hi] at hends
      refine hH.ends hends ?_
      intro j hj
      cases hj
      exact ⟨same (i := i) hi, fun hs => by dsimp only at hs; split at hs <;> cases hs⟩
  | pin req =>
    obtain ⟨ws, hE, _, h1⟩ := pin_did hrun
    rw [hE.store, hstore]
    rcases h1 with ⟨_, rfl⟩ | ⟨i, hi, _, hends⟩
    · exact hH.keep
    · rw [hstore] at hi
      rw [own hi] at hends
      refine hH.ends hends ?_
      intro j hj
      cases hj
      exact ⟨same (i := i) hi, fun hs => (by cases hs)⟩
  | token id =>
    obtain ⟨evs, ws, hE, _, h1⟩ := token_did hrun
    have hrc : w'.recent = evs := by rw [hE.recent, hrec]; rfl
    rw [hrc, hE.store, hstore]
    rcases h1 with ⟨_, _, rfl⟩ | ⟨i, p, hi, _, _, q, hq, h1⟩
    · exact hH.keep
    rcases h1 with ⟨_, rfl, _⟩ | ⟨t, a, rfl, _, hends⟩
    · exact hH.keep
    · rw [hstore] at hi
      rw [own hi] at hends
      refine hH.ends hends ?_
      intro j hj
      cases hj
      refine ⟨same (i := i) hi, fun _ => ⟨_, List.mem_append_right _ (List.mem_singleton.mpr rfl), q, t, ⟨List.mem_singleton.mpr rfl, .inl rfl⟩, rfl, ?_⟩⟩
      rw [hq]
  | authorize req =>
    obtain ⟨evs, ws, hE, h1⟩ := authorize_did hrun
    have hrc : w'.recent = evs := by rw [hE.recent, hrec]; rfl
    rw [hrc, hE.store, hstore]
    rcases h1 with ⟨_, rfl, _⟩ | ⟨i, pre, n, hst, _, _, q, hq, h1⟩
    · exact hH.keep
    rcases h1 with ⟨_, rfl, _⟩ | ⟨a, ⟨o, _, rfl, _⟩ | ⟨t, m, rfl, _, hends⟩⟩
    · exact hH.keep
    · exact hH.keep
    have hstate := authorizationRequest_state hq
    have htok : (⟨.token (codeTokenRequest (authorizing P (e.rng n) i req) req a), some t⟩ : Event) ∈
        pre ++ [⟨.authorization q, some a⟩, ⟨.token (codeTokenRequest (authorizing P (e.rng n) i req) req a), some t⟩] :=
      List.mem_append_right _ (List.mem_cons_of_mem _ (List.mem_singleton.mpr rfl))
    have haut : (⟨.authorization q, some a⟩ : Event) ∈
        pre ++ [⟨.authorization q, some a⟩, ⟨.token (codeTokenRequest (authorizing P (e.rng n) i req) req a), some t⟩] :=
      List.mem_append_right _ (List.mem_cons_self ..)
    have hself : q.state = some i.id := hstate
    cases hst with
    | stored hr hs ha =>
      rename_i id
      rw [hstore] at hs
      have hid := own hs
      rw [hid] at hends
      refine hH.ends hends ?_
      intro j hj
      cases hj
      exact ⟨same (i := i) hs, fun _ => ⟨_, List.mem_append_right _ (List.mem_singleton.mpr rfl), _, t, ⟨htok, .inr ⟨req, rfl, .inl hr⟩⟩, rfl, rfl⟩⟩
    | new hr hx =>
      refine hH.ends hends ?_
      intro j hj
      cases hj
      exact ⟨⟨_, List.mem_append_right _ (List.mem_singleton.mpr rfl), _, .inr ⟨⟨req, _, _, _, rfl, hr⟩, List.mem_append_left _ (List.mem_cons_self ..),
        q, some a, haut, hself⟩⟩, fun _ => ⟨_, List.mem_append_right _ (List.mem_singleton.mpr rfl), _, t,
        ⟨htok, .inr ⟨req, rfl, .inr ⟨q, some a, haut, hself⟩⟩⟩, rfl, rfl⟩⟩
  | credentials req =>
    obtain ⟨evs, ws, hE, h1⟩ := credentials_did hrun
    rw [hE.store, hstore]
    rcases h1 with ⟨_, _, rfl⟩ | ⟨i, jwt, hi, hs, _, _, _, h1⟩
    · exact hH.keep
    rcases h1 with ⟨_, rfl⟩ | ⟨j, hg, -, hends⟩
    · exact hH.keep
    obtain ⟨creds, defs, nonce, exp, rfl, _, _, _⟩ := hg.same
    rw [hstore] at hi
    simp only [own hi] at hends
    refine hH.ends hends ?_
    intro j hj
    cases hj
    refine ⟨same (i := i) hi, fun _ => ?_⟩
    obtain ⟨y, hy, h3⟩ := (hH _ _ hi).2 hs
    exact ⟨y, List.mem_append_left _ hy, h3⟩
  | deferred req =>
    obtain ⟨evs, ws, hE, h1⟩ := deferred_did hrun
    rw [hE.store, hstore]
    rcases h1 with ⟨_, _, rfl⟩ | ⟨i, o, logos, hi, hs, _, _, h1⟩
    · exact hH.keep
    rcases h1 with ⟨_, rfl⟩ | ⟨j, hg, -, hends⟩
    · exact hH.keep
    obtain ⟨creds, defs, nonce, exp, rfl, _, _, _⟩ := hg.same
    rw [hstore] at hi
    simp only [own hi] at hends
    refine hH.ends hends ?_
    intro j hj
    unfold stashed at hj
    split at hj
    · cases hj
    cases hj
    refine ⟨same (i := i) hi, fun _ => ?_⟩
    obtain ⟨y, hy, h3⟩ := (hH _ _ hi).2 hs
    exact ⟨y, List.mem_append_left _ hy, h3⟩
  | save id =>
    obtain ⟨evs, ws, hE, _, h1⟩ := save_did (noNote id) hrun
    rw [hE.store, hstore]
    rcases h1 with ⟨_, _, rfl⟩ | ⟨i, _, ⟨_, _, _, _, rfl, _⟩ | ⟨_, ⟨_, hends⟩ | ⟨_, rfl, _⟩⟩⟩
    · exact hH.keep
    · exact hH.keep
    · exact hH.ends hends fun i hi => (by cases hi)
    · exact hH.keep
  | cancel id =>
    obtain ⟨ws, hE, _, h1⟩ := cancel_did (noNote id) hrun
    rw [hE.store, hstore]
    rcases h1 with ⟨_, rfl⟩ | ⟨i, _, hends⟩
    · exact hH.keep
    · exact hH.ends hends fun i hi => (by cases hi)
  | request u =>
    obtain ⟨evs, ws, hE, _, h1⟩ := request_did hrun
    rw [hE.store, hstore]
    rcases h1 with ⟨_, rfl⟩ | ⟨q, pre, f, creds, _, _, _, _, hends⟩
    · exact hH.keep
    · exact hH.ends hends fun i hi => (by cases hi)
  | authorizePresentation id =>
    obtain ⟨ws, hE, _, h1⟩ := authorizePresentation_did hrun
    rw [hE.store, hstore]
    rcases h1 with ⟨_, rfl⟩ | ⟨p, _, _, hends⟩
    · exact hH.keep
    · exact hH.ends hends fun i hi => (by cases hi)
  | present id =>
    obtain ⟨evs, hE, h1⟩ := present_did hrun
    rw [hE.store, hstore]
    exact hH.keep

theorem exec_home (hf : e.Fresh) (hI : Inv e w.log w.store w.drawn) (hH : Home w.log w.store) (steps : List HStep) :
    Home (exec e w steps).log (exec e w steps).store := by
  induction steps generalizing w with
  | nil => exact hH
  | cons s l ih => exact ih (step_inv hf hI s) (step_home hI hH s)

theorem reachable_home (hf : e.Fresh) (h : Reachable e w) : Home w.log w.store := by
  obtain ⟨now, steps, rfl⟩ := h
  exact exec_home hf (start_inv e now) (fun _ _ h => (by cases h)) steps

/-- A call, with the flows that were stored when it was made. -/
def Ran (e : HEnv) (pre : List Entry) (en : Entry) : Prop :=
  ∃ w0 w2, Inv e pre w0.store w0.drawn ∧ Home pre w0.store ∧ w0.recent = [] ∧ (serve en.provider en.req).run e w0 = (en.result, w2) ∧ w2.recent = en.events

theorem entry_ran (hf : e.Fresh) (hr : Reachable e w) {pre post : List Entry} (h : w.log = pre ++ en :: post) : Ran e pre en := by
  obtain ⟨w0, w2, hr0, rfl, hrun, hrec⟩ := log_split hr h
  exact ⟨{ w0 with now := en.now, recent := [] }, w2, reachable_inv hf hr0, reachable_home hf hr0, rfl, hrun, hrec⟩

theorem authorizationRequest_issuer {i : Issuance} {req : AuthorizeRequest} {q : Issuer.RequestObject} (h : authorizationRequest i req = .ok q) :
    q.credentialIssuer = i.issuer.credentialIssuer := by
  unfold authorizationRequest at h
  cases h1 : need i.codeChallenge "missing code challenge" with
  | error x => rw [h1] at h; cases h
  | ok a =>
    rw [h1] at h
    cases h2 : requestDetails i req with
    | error x => rw [h2] at h; cases h
    | ok b =>
      rw [h2] at h
      cases h3 : need i.server.codeChallengeMethodsSupported "code challenge methods missing from authorization server metadata" with
      | error x => rw [h3] at h; cases h
      | ok c =>
        rw [h3] at h
        cases h4 : first i.server.responseTypesSupported with
        | error x => rw [h4] at h; cases h
        | ok d =>
          rw [h4] at h
          cases h5 : first c with
          | error x => simp only [Bind.bind, Except.bind, h5] at h; cases h
          | ok f =>
            simp only [Bind.bind, Except.bind, h5, Pure.pure, Except.pure, Except.ok.injEq] at h
            rw [← h]

/-! ### C206 -/

theorem addressee_of_bearer {c : Call} {t : String} (h : bearerOf c = some t) : ∃ to, addressee c = some to := by
  cases c <;> first | exact ⟨_, rfl⟩ | cases h

/-- What the calls say that send an issuer something. -/
theorem Ran.sent {pre : List Entry} (h : Ran e pre en) {ev : Event} (hev : ev ∈ en.events) {to : String} (ha : addressee ev.call = some to) :
    (∃ k asked md, flowOf en.req = some k ∧ InOrder [Published k asked md] pre ∧ to = md.credentialIssuer ∧
      ∀ token, bearerOf ev.call = some token → ∃ tr t, InOrder [Given k tr t] pre ∧ t.accessToken = token ∧ tr.credentialIssuer = to) ∨
    ∃ k asked md, IsStart k asked md en ∧ to = md.credentialIssuer ∧ bearerOf ev.call = none := by
  obtain ⟨w0, w2, hI, hH, hrec, hrun, hevs⟩ := h
  rw [← hevs] at hev
  have earlier : ∀ {k : String} {i : Issuance}, w0.store k = some (.issuance i) → ∃ asked, InOrder [Published k asked i.issuer] pre := by
    intro k i hi
    obtain ⟨⟨x, hx, iss, h1⟩, _⟩ := hH k i hi
    obtain ⟨a, b, rfl⟩ := List.append_of_mem hx
    exact ⟨iss, a, x, b, rfl, h1, trivial⟩
  have tokens : ∀ {k : String} {i : Issuance}, w0.store k = some (.issuance i) → i.status = .tokenReceived →
      ∃ tr t, InOrder [Given k tr t] pre ∧ t.accessToken = i.token.accessToken ∧ tr.credentialIssuer = i.issuer.credentialIssuer := by
    intro k i hi hs
    obtain ⟨x, hx, tr, t, h1, h2, h3⟩ := (hH k i hi).2 hs
    obtain ⟨a, b, rfl⟩ := List.append_of_mem hx
    exact ⟨tr, t, ⟨a, x, b, rfl, h1, trivial⟩, h2, h3⟩
  have noNote : ∀ id i, w0.store id = some (.issuance i) → i.notificationId = none := hI.noNote
  obtain ⟨c, o⟩ := ev
  generalize hq : en.req = rq at hrun
  generalize hres : en.result = r at hrun
  cases rq with
  | offer req =>
    obtain ⟨evs, ws, hE, h1⟩ := offer_did hrun
    rw [hE.recent, hrec, List.nil_append] at hev
    rcases h1 with ⟨_, _, hev'⟩ | ⟨md, sv, _, rfl, _⟩
    · rcases hev' _ hev with h | h <;> (have h : c = _ := h; subst h; cases ha)
    · simp only [List.mem_cons, List.not_mem_nil, or_false] at hev
      rcases hev with h | h <;> (cases h; cases ha)
  | accept req =>
    obtain ⟨ws, hE, _⟩ := accept_did hrun
    rw [hE.recent, hrec, List.nil_append] at hev; simp at hev
  | pin req =>
    obtain ⟨ws, hE, _⟩ := pin_did hrun
    rw [hE.recent, hrec, List.nil_append] at hev; simp at hev
  | token id =>
    obtain ⟨evs, ws, hE, _, h1⟩ := token_did hrun
    rw [hE.recent, hrec, List.nil_append] at hev
    rcases h1 with ⟨_, rfl, _⟩ | ⟨i, p, hi, _, _, q, rfl, h1⟩
    · simp at hev
    obtain ⟨asked, h2⟩ := earlier hi
    refine .inl ⟨_, asked, _, rfl, h2, ?_⟩
    rcases h1 with ⟨_, _, o', rfl⟩ | ⟨t, a, rfl, _⟩ <;>
    · rw [List.mem_singleton] at hev; cases hev
      simp only [addressee, Option.some.injEq] at ha
      exact ⟨ha.symm, fun _ h => (by cases h)⟩
  | authorize req =>
    obtain ⟨evs, ws, hE, h1⟩ := authorize_did hrun
    rw [hE.recent, hrec, List.nil_append] at hev hevs
    have pre_no : ∀ {l : List Event}, Preamble l → ⟨c, o⟩ ∈ l → False := by
      intro l hp hm
      rcases hp _ hm with ⟨u, hu⟩ | ⟨u, hu⟩ <;> (have hu : c = _ := hu; subst hu; cases ha)
    rcases h1 with ⟨_, _, hp⟩ | ⟨i, p, n, hst, hp, _, q, haq, h1⟩
    · exact (pre_no hp hev).elim
    have hstate : q.state = some (authorizing en.provider (e.rng n) i req).id := authorizationRequest_state haq
    have hissuer : q.credentialIssuer = (authorizing en.provider (e.rng n) i req).issuer.credentialIssuer := authorizationRequest_issuer haq
    have hto : to = i.issuer.credentialIssuer ∧ bearerOf c = none := by
      rcases h1 with ⟨_, _, rfl⟩ | ⟨a, ⟨o', _, _, rfl⟩ | ⟨t, m, rfl, _⟩⟩ <;>
      · rcases List.mem_append.mp hev with hev | hev
        · exact (pre_no hp hev).elim
        · simp only [List.mem_cons, List.not_mem_nil, or_false] at hev
          first
          | (cases hev; simp only [addressee, Option.some.injEq] at ha; exact ⟨ha.symm.trans hissuer, rfl⟩)
          | (rcases hev with hev | hev <;> cases hev <;> simp only [addressee, Option.some.injEq] at ha <;>
              first | exact ⟨ha.symm.trans hissuer, rfl⟩ | exact ⟨ha.symm, rfl⟩)
    obtain ⟨hto, hno⟩ := hto
    have hsent : ∃ o', (⟨.authorization q, o'⟩ : Event) ∈ en.events := by
      rw [← hevs]
      rcases h1 with ⟨_, _, rfl⟩ | ⟨a, ⟨o', _, _, rfl⟩ | ⟨t, m, rfl, _⟩⟩ <;> exact ⟨_, List.mem_append_right _ (List.mem_cons_self ..)⟩
    have hpre : ∀ x ∈ p, x ∈ en.events := by
      rw [← hevs]
      intro x hx
      rcases h1 with ⟨_, _, rfl⟩ | ⟨a, ⟨o', _, _, rfl⟩ | ⟨t, m, rfl, _⟩⟩ <;> exact List.mem_append_left _ hx
    cases hst with
    | stored hr' hs _ =>
      obtain ⟨asked, h2⟩ := earlier hs
      refine .inl ⟨_, asked, _, by simp only [flowOf, hr'], h2, hto, fun _ h => ?_⟩
      have h : bearerOf c = _ := h
      rw [hno] at h; cases h
    | new hr' hx =>
      obtain ⟨o', ho'⟩ := hsent
      have hstart : IsStart (e.rng w0.drawn) _ _ en := ⟨⟨req, _, _, _, hq, hr'⟩, hpre _ (List.mem_cons_self ..), q, o', ho', hstate⟩
      exact .inr ⟨_, _, _, hstart, hto, hno⟩
  | credentials req =>
    obtain ⟨evs, ws, hE, h1⟩ := credentials_did hrun
    rw [hE.recent, hrec, List.nil_append] at hev
    rcases h1 with ⟨_, rfl, _⟩ | ⟨i, jwt, hi, hs, _, hreq, _⟩
    · simp at hev
    obtain ⟨asked, h2⟩ := earlier hi
    obtain ⟨tr, t, h3, h4, h5⟩ := tokens hi hs
    refine .inl ⟨_, asked, _, rfl, h2, ?_⟩
    rcases hreq _ hev with ⟨q', hq', hw⟩ | ⟨u, hu⟩
    · cases hq'
      simp only [addressee, Option.some.injEq] at ha
      refine ⟨by rw [← ha, hw.1], fun token hb => ⟨tr, t, h3, ?_, by rw [h5, ← ha, hw.1]⟩⟩
      simp only [bearerOf, Option.some.injEq] at hb
      rw [h4, ← hb, hw.2.1]
    · cases hu; cases ha
  | deferred req =>
    obtain ⟨evs, ws, hE, h1⟩ := deferred_did hrun
    rw [hE.recent, hrec, List.nil_append] at hev
    rcases h1 with ⟨_, rfl, _⟩ | ⟨i, o', logos, hi, hs, hl, rfl, _⟩
    · simp at hev
    obtain ⟨asked, h2⟩ := earlier hi
    obtain ⟨tr, t, h3, h4, h5⟩ := tokens hi hs
    refine .inl ⟨_, asked, _, rfl, h2, ?_⟩
    rcases List.mem_cons.mp hev with h' | h'
    · cases h'
      simp only [addressee, Option.some.injEq] at ha
      refine ⟨ha.symm, fun token hb => ⟨tr, t, h3, ?_, h5.trans ha⟩⟩
      simp only [bearerOf, Option.some.injEq] at hb
      rw [h4, ← hb]
    · obtain ⟨u, hu⟩ := hl _ h'
      have hu : c = _ := hu
      subst hu; cases ha
  | save id =>
    obtain ⟨evs, ws, hE, _, h1⟩ := save_did (noNote id) hrun
    rw [hE.recent, hrec, List.nil_append] at hev
    have hsv : ∀ l : List Credential, ⟨c, o⟩ ∈ savesOf l → False := by
      intro l hm
      obtain ⟨x, _, hx⟩ := List.mem_map.mp hm
      cases hx; cases ha
    rcases h1 with ⟨_, rfl, _⟩ | ⟨i, _, ⟨d, x, _, _, _, _, rfl⟩ | ⟨rfl, _⟩⟩
    · simp at hev
    · rcases List.mem_append.mp hev with h' | h'
      · exact (hsv _ h').elim
      · rw [List.mem_singleton] at h'; cases h'; cases ha
    · exact (hsv _ hev).elim
  | cancel id =>
    obtain ⟨ws, hE, _⟩ := cancel_did (noNote id) hrun
    rw [hE.recent, hrec, List.nil_append] at hev; simp at hev
  | request u =>
    obtain ⟨evs, ws, hE, ho, _⟩ := request_did hrun
    rw [hE.recent, hrec, List.nil_append] at hev
    rcases ho _ hev with ⟨u, hu⟩ | ⟨f, hu⟩ <;> (have hu : c = _ := hu; subst hu; cases ha)
  | authorizePresentation id =>
    obtain ⟨ws, hE, _⟩ := authorizePresentation_did hrun
    rw [hE.recent, hrec, List.nil_append] at hev; simp at hev
  | present id =>
    obtain ⟨evs, hE, h1⟩ := present_did hrun
    rw [hE.recent, hrec, List.nil_append] at hev
    rcases h1 with ⟨_, rfl⟩ | ⟨p, pd, vp, jwt, n, u, sub, _, _, _, _, _, _, o', rfl, _⟩
    · simp at hev
    · rw [List.mem_singleton] at hev; cases hev; cases ha

/-- **C206** An access token is sent only to the issuer that gave it: whenever a request carries one, an earlier token request of the same flow was
addressed to the same issuer and answered with this token. -/
theorem C206_token_goes_where_it_came_from (hf : e.Fresh) (hr : Reachable e w) {pre post : List Entry} (h : w.log = pre ++ en :: post) {ev : Event}
    (hev : ev ∈ en.events) {token : String} (hb : bearerOf ev.call = some token) :
    ∃ k tr t, flowOf en.req = some k ∧ InOrder [Given k tr t] pre ∧ t.accessToken = token ∧ addressee ev.call = some tr.credentialIssuer := by
  obtain ⟨to, hto⟩ := addressee_of_bearer hb
  rcases (entry_ran hf hr h).sent hev hto with ⟨k, _, _, hk, _, _, ht⟩ | ⟨_, _, _, _, _, hn⟩
  · obtain ⟨tr, t, h1, h2, h3⟩ := ht _ hb
    exact ⟨k, tr, t, hk, h1, h2, by rw [hto, h3]⟩
  · rw [hb] at hn; cases hn

/-- **C206** Whatever the wallet sends an issuer, be it a code, a PIN, an access token or a proof, goes to the issuer that is named in the metadata
published for the flow. The metadata was asked of the issuer in the offer, or of the one the wallet was told to turn to. -/
theorem C206_sent_to_named_issuer (hf : e.Fresh) (hr : Reachable e w) {pre post : List Entry} (h : w.log = pre ++ en :: post) {ev : Event}
    (hev : ev ∈ en.events) {to : String} (ha : addressee ev.call = some to) :
    (∃ k asked md, flowOf en.req = some k ∧ InOrder [Published k asked md] pre ∧ to = md.credentialIssuer) ∨
    ∃ k asked md, IsStart k asked md en ∧ to = md.credentialIssuer := by
  rcases (entry_ran hf hr h).sent hev ha with ⟨k, asked, md, h1, h2, h3, _⟩ | ⟨k, asked, md, h1, h2, _⟩
  · exact .inl ⟨k, asked, md, h1, h2, h3⟩
  · exact .inr ⟨k, asked, md, h1, h2⟩

/-- **C80**, what holds: as long as every issuer's metadata names the issuer it was asked of, everything the wallet sends an issuer goes to the issuer
that made the offer, or to the one the wallet was told to turn to. -/
theorem C80_sent_to_own_issuer_partial (hf : e.Fresh) (hr : Reachable e w)
    (hown : ∀ x ∈ w.log, ∀ i md, ⟨.metadata i, some md⟩ ∈ x.events → md.credentialIssuer = i)
    {pre post : List Entry} (h : w.log = pre ++ en :: post) {ev : Event} (hev : ev ∈ en.events) {to : String} (ha : addressee ev.call = some to) :
    (∃ k off md, flowOf en.req = some k ∧ InOrder [IsOffer k off md] pre ∧ to = off.credentialIssuer) ∨
    ∃ k md, (flowOf en.req = some k ∧ InOrder [IsStart k to md] pre) ∨ IsStart k to md en := by
  rcases C206_sent_to_named_issuer hf hr h hev ha with ⟨k, asked, md, hk, ⟨a, x, b, rfl, hp, _⟩, rfl⟩ | ⟨k, asked, md, hst, rfl⟩
  · have hmem : x ∈ w.log := by rw [h]; simp
    rcases hp with ⟨off, ho, rfl⟩ | hst
    · exact .inl ⟨k, off, md, hk, ⟨a, x, b, rfl, ho, trivial⟩, hown x hmem _ _ ho.2.1⟩
    · have hname := hown x hmem _ _ hst.2.1
      rw [hname]
      exact .inr ⟨k, md, .inl ⟨hk, a, x, b, rfl, hst, trivial⟩⟩
  · have hname := hown en (by rw [h]; simp) _ _ hst.2.1
    rw [hname]
    exact .inr ⟨k, md, .inr hst⟩

end Verif.Holder
