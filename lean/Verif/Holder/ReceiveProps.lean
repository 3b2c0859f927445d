import Verif.Holder.FlowProps
/-!
# What the wallet asks for, receives and saves: properties of every history
-/
namespace Verif.Holder
open Verif HProg

variable {e : HEnv} {w : HWorld}

/-! ### C64 Accepting part of an offer limits what is asked for -/

/-- With a pre-authorized code, the token request asks for exactly what the holder accepted. -/
theorem C64_accepted_scope_partial (hf : e.Fresh) (hr : Reachable e w) {pre post : List Entry} {en : Entry} (h : w.log = pre ++ en :: post)
    {k : String} (hq : en.req = .token k) {tr : Issuer.TokenRequest} {o : Option Issuer.TokenResponse} (ht : ⟨.token tr, o⟩ ∈ en.events) :
    InOrder [IsAccept k tr.authorizationDetails] pre ∧
    ∀ x ∈ pre, ∀ r resp, x.req = .accept r → r.issuanceId = k → x.result = .ok resp → Narrowed r.accept tr.authorizationDetails := by
  obtain ⟨w0, w2, hI, hlog, hrec, -, hrun, hevs⟩ := entry_run hf hr h
  rw [← hevs] at ht
  rw [hq] at hrun
  obtain ⟨evs, ws, hE, _, h1⟩ := token_did hrun
  rw [hE.recent, hrec, List.nil_append] at ht
  rcases h1 with ⟨_, rfl, _⟩ | ⟨i, p, hi, hs, _, q, rfl, h1⟩
  · simp at ht
  · have hv : FlowInv e pre k i := hI.val _ _ hi
    have htr : tr.authorizationDetails = i.accepted := by
      rcases h1 with ⟨_, _, o, rfl⟩ | ⟨t, a, rfl, _⟩ <;> (rw [List.mem_singleton] at ht; cases ht; rfl)
    rw [htr]
    constructor
    · have := accepted_prepared hv hs
      rcases this with ⟨_, _, pre', x, post', hx, _, h2⟩ | ⟨_, p, _, pre', x, post', hx, _, h2⟩
      · obtain ⟨a, y, b, hy, hp, _⟩ := h2
        exact ⟨pre' ++ x :: a, y, b, by rw [hx, hy]; simp, hp, trivial⟩
      · obtain ⟨a, y, b, hy, hp, _⟩ := h2
        exact ⟨pre' ++ x :: a, y, b, by rw [hx, hy]; simp, hp, trivial⟩
    · intro x hx r resp h1 h2 h3
      exact (hv.accepted (by rw [hs]; simp) x hx r resp h1 h2 h3).2

/-- The configuration an authorization detail names. -/
def NamesConfig (d : AuthorizationDetail) (id : String) : Prop := ∃ c, d.credential = .configurationId id c

theorem offerDetails_names {cs : Dict CredentialConfiguration} {ids : List String} {l : List AuthorizationDetail}
    (h : offerDetails cs ids = .ok l) : l.length = ids.length ∧ ∀ p ∈ l.zip ids, NamesConfig p.1 p.2 := by
  induction ids generalizing l with
  | nil => cases h; simp
  | cons a ids ih =>
    unfold offerDetails at h
    simp only [Bind.bind, Except.bind, need] at h
    split at h
    · cases h
    split at h
    · cases h
    cases h
    rename_i rest hrest
    obtain ⟨h1, h2⟩ := ih hrest
    refine ⟨by simp [h1], ?_⟩
    intro p hp
    simp only [List.zip_cons_cons, List.mem_cons] at hp
    rcases hp with rfl | hp
    · exact ⟨_, rfl⟩
    · exact h2 p hp

theorem authorizationRequest_details {i : Issuance} {req : AuthorizeRequest} {q : Issuer.RequestObject} (h : authorizationRequest i req = .ok q) :
    requestDetails i req = .ok q.authorizationDetails := by
  unfold authorizationRequest at h
  simp only [Bind.bind, Except.bind] at h
  split at h
  · cases h
  split at h
  · cases h
  rename_i hd
  split at h
  · cases h
  split at h
  · cases h
  split at h
  · cases h
  cases h
  exact hd

/-- With an authorization code, what the holder accepted plays no part: the authorization request asks for the details the caller gives, and when the
caller gives none it asks for everything that was offered. -/
theorem C64_authorize_ignores_acceptance (hf : e.Fresh) (hr : Reachable e w) {pre post : List Entry} {en : Entry} (h : w.log = pre ++ en :: post)
    {k : String} {r : AuthorizeRequest} (hq : en.req = .authorize r) (hi : r.initiator = .issuer k) {q : Issuer.RequestObject}
    {o : Option Issuer.AuthorizationResponse} (ht : ⟨.authorization q, o⟩ ∈ en.events) :
    (∀ l, r.authorizationDetails = some l → q.authorizationDetails = some l) ∧
    (r.authorizationDetails = none → ∃ off md l, InOrder [IsOffer k off md] pre ∧ q.authorizationDetails = some l ∧
      l.length = off.configIds.length ∧ ∀ p ∈ l.zip off.configIds, NamesConfig p.1 p.2) := by
  obtain ⟨w0, w2, hI, hlog, hrec, -, hrun, hevs⟩ := entry_run hf hr h
  rw [← hevs] at ht
  rw [hq] at hrun
  obtain ⟨evs, ws, hE, h1⟩ := authorize_did hrun
  rw [hE.recent, hrec, List.nil_append] at ht
  have noPre : ∀ {l : List Event}, Preamble l → ⟨.authorization q, o⟩ ∉ l := by
    intro l hl hm
    rcases hl _ hm with ⟨u, hu⟩ | ⟨u, hu⟩ <;> cases hu
  rcases h1 with ⟨_, _, hpre⟩ | ⟨i, p, n, hst, hpre, _, q', hq', h1⟩
  · exact absurd ht (noPre hpre)
  have hqq : q = q' := by
    rcases h1 with ⟨_, _, rfl⟩ | ⟨a, ⟨o, _, _, rfl⟩ | ⟨t, m, rfl, _⟩⟩ <;>
    · rcases List.mem_append.mp ht with ht | ht
      · exact absurd ht (noPre hpre)
      · simp only [List.mem_cons, List.not_mem_nil, or_false] at ht
        first
        | (cases ht; rfl)
        | (rcases ht with ht | ht
           · cases ht; rfl
           · cases ht)
  subst hqq
  have hd := authorizationRequest_details hq'
  cases hst with
  | new hr' _ => rw [hi] at hr'; cases hr'
  | @stored id _ hr' hs ha =>
    rw [hi] at hr'; cases hr'
    have hv : FlowInv e pre k i := hI.val _ _ hs
    unfold requestDetails at hd
    rw [hi] at hd
    simp only [Initiator.scope, Bind.bind, Except.bind, authorizationDetails, authorizing, hi, Initiator.isWallet, Bool.false_eq_true, if_false] at hd
    constructor
    · intro l hl
      rw [hl] at hd
      simp only [Pure.pure, Except.pure, Except.ok.injEq] at hd
      exact hd.symm
    · intro hl
      rw [hl] at hd
      simp only at hd
      split at hd
      · cases hd
      · rename_i l hl'
        simp only [Pure.pure, Except.pure, Except.ok.injEq] at hd
        obtain ⟨h1, h2⟩ := offerDetails_names hl'
        refine ⟨i.offer, i.issuer, l, ?_, hd.symm, h1, h2⟩
        rcases accepted_prepared hv ha with ⟨_, _, a, x, b, hx, hp, _⟩ | ⟨_, p, _, a, x, b, hx, hp, _⟩
        · exact ⟨a, x, b, hx, hp, trivial⟩
        · exact ⟨a, x, b, hx, hp, trivial⟩

/-! ### C65 Only what was offered can be accepted -/

theorem specDetails_free (cs : Dict CredentialConfiguration) {l : List AuthorizationSpec} (h : ∀ s ∈ l, s.claims = none) :
    ∃ d, specDetails cs l = .ok d := by
  induction l with
  | nil => exact ⟨_, rfl⟩
  | cons s l ih =>
    obtain ⟨d, hd⟩ := ih fun x hx => h x (List.mem_cons_of_mem _ hx)
    have hs := h s (List.mem_cons_self ..)
    refine ⟨{ credential := .configurationId s.configId none } :: d, ?_⟩
    · unfold specDetails specClaims
      simp only [hs, hd, Bind.bind, Except.bind]
      rfl

theorem accept_ok {k : String} {i : Issuance} {l : List AuthorizationSpec} (hi : w.store k = some (.issuance i)) (hs : i.status = .ready)
    (hne : l ≠ []) (hc : ∀ s ∈ l, s.claims = none) (h0 : e.fault w.ops = .ok) (h1 : e.fault (w.ops + 1) = .ok) :
    ((accept ⟨k, some l⟩).run e w).1 = .ok (.flow i.id) := by
  obtain ⟨d, hd⟩ := specDetails_free i.issuer.configs hc
  have hl : (!l.isEmpty) = true := by cases l <;> simp_all
  simp only [accept, getIssuance, Bind.bind, HProg.bind, run, h0, Prog.getRes, hi, lift, check, hs, beq_self_eq_true, if_true, hl, narrowScope, hd,
    Except.bind, Pure.pure, putE, h1, Except.pure]

/-- Whatever an offer names, the holder can accept anything else instead: configurations the issuer did not offer, or that do not exist. -/
theorem C65_accepts_what_was_not_offered (w : HWorld) (s1 s2 : HStep) {req : OfferRequest} (hreq : s1.req = .offer req)
    {k iss : String} {cs : Dict CredentialConfiguration} {g : Option Issuer.Grants} (h1 : (step e w s1).1 = .ok (.offer k iss cs g))
    (l : List AuthorizationSpec) (hne : l ≠ []) (hc : ∀ s ∈ l, s.claims = none) (h2 : s2.req = .accept ⟨k, some l⟩)
    (hok : e.fault (step e w s1).2.ops = .ok) (hok2 : e.fault ((step e w s1).2.ops + 1) = .ok) :
    (step e (step e w s1).2 s2).1 = .ok (.flow k) := by
  have hst : ∃ i, (step e w s1).2.store k = some (.issuance i) ∧ i.status = .ready ∧ i.id = k := by
    rw [(step_eq e w s1).1] at h1
    rw [(step_eq e w s1).2]
    obtain ⟨⟨r, w2⟩, hrun⟩ : ∃ q, (serve s1.provider s1.req).run e (before w s1) = q := ⟨_, rfl⟩
    rw [hrun] at h1 ⊢
    simp only at h1 ⊢
    rw [hreq] at hrun
    obtain ⟨evs, ws, hE, h3⟩ := offer_did hrun
    subst h1
    rcases h3 with ⟨hf, _⟩ | ⟨md, sv, _, _, ⟨h3, _⟩ | ⟨rfl, ⟨h3, _⟩ | ⟨hf, _⟩ | ⟨o, _, h3⟩⟩⟩
    · exact absurd rfl hf.ne_ok
    · cases h3
    · cases h3
    · exact absurd rfl hf.ne_ok
    · cases h3
      rw [hE.store]
      exact ⟨freshFlow (e.rng (before w s1).drawn) req md sv, by simp [applyWrites, upd], rfl, rfl⟩
  obtain ⟨i, hi, hs, hid⟩ := hst
  rw [(step_eq e _ s2).1, h2]
  have := accept_ok (w := before (step e w s1).2 s2) (e := e) hi hs hne hc hok hok2
  rw [hid] at this
  exact this

theorem specDetails_known {cs : Dict CredentialConfiguration} {l : List AuthorizationSpec} {d : List AuthorizationDetail}
    (h : specDetails cs l = .ok d) : ∀ s ∈ l, s.claims.isSome = true → (cs.get? s.configId).isSome = true := by
  induction l generalizing d with
  | nil => intro s hs; simp at hs
  | cons a l ih =>
    unfold specDetails at h
    simp only [Bind.bind, Except.bind] at h
    split at h
    · cases h
    rename_i c hc
    split at h
    · cases h
    rename_i rest hrest
    intro s hs hcl
    rcases List.mem_cons.mp hs with rfl | hs
    · unfold specClaims at hc
      split at hc
      · rename_i hn; rw [hn] at hcl; cases hcl
      · split at hc
        · cases hc
        · rename_i x hx; rw [hx]; rfl
    · exact ih hrest s hs hcl

/-- What is checked: a configuration accepted with a choice of claims exists in the metadata the issuer gave when the offer was taken in. -/
theorem C65_accepted_claims_known_partial (hf : e.Fresh) (hr : Reachable e w) {pre post : List Entry} {en : Entry} (h : w.log = pre ++ en :: post)
    {r : AcceptRequest} (hq : en.req = .accept r) {resp : Resp} (hok : en.result = .ok resp) {l : List AuthorizationSpec} (hl : r.accept = some l) :
    l ≠ [] ∧ ∃ off md, InOrder [IsOffer r.issuanceId off md] pre ∧ ∀ s ∈ l, s.claims.isSome = true → (md.configs.get? s.configId).isSome = true := by
  obtain ⟨w0, w2, hI, hlog, hrec, -, hrun, hevs⟩ := entry_run hf hr h
  rw [hq, hok] at hrun
  obtain ⟨ws, hE, _, h1⟩ := accept_did hrun
  rcases h1 with ⟨hf', _⟩ | ⟨i, acc, hi, hs, hne, hn, _⟩
  · exact absurd rfl hf'.ne_ok
  · have hv : FlowInv e pre r.issuanceId i := hI.val _ _ hi
    have hph := hv.phase
    simp only [Phase, hs] at hph
    rw [hl] at hne hn
    refine ⟨fun h => hne (by rw [h]), i.offer, i.issuer, hph.2.2, ?_⟩
    unfold narrowScope at hn
    simp only [Bind.bind, Except.bind] at hn
    split at hn
    · cases hn
    · rename_i d hd
      exact specDetails_known hd

/-! ### C66 Several credentials in one call -/

/-- What a log says the other parties answered is what they answered. -/
def Genuine (e : HEnv) (log : List Entry) : Prop :=
  ∀ pre en post, log = pre ++ en :: post → ∀ a ev b, en.events = a ++ ev :: b → ev.reply = e.oracle pre a ev.call

theorem run_answers {α : Type} (e : HEnv) (p : HProg α) (w : HWorld) : ∃ evs, (p.run e w).2.recent = w.recent ++ evs ∧
    ∀ a ev b, evs = a ++ ev :: b → ev.reply = e.oracle w.log (w.recent ++ a) ev.call := by
  induction p generalizing w with
  | ret r => exact ⟨[], by simp [HProg.run], by simp⟩
  | get k c ih => exact ih _ { w with ops := w.ops + 1 }
  | put k v c ih => exact ih _ { w with
      store := Prog.writeRes (e.fault w.ops) w.store k (some v)
      ops := w.ops + 1 }
  | purge k c ih => exact ih _ { w with
      store := Prog.writeRes (e.fault w.ops) w.store k none
      ops := w.ops + 1 }
  | draw c ih => exact ih _ { w with drawn := w.drawn + 1 }
  | now c ih => exact ih _ w
  | call c k ih =>
    obtain ⟨evs, h1, h2⟩ := ih (e.oracle w.log w.recent c) { w with recent := w.recent ++ [⟨c, e.oracle w.log w.recent c⟩] }
    refine ⟨⟨c, e.oracle w.log w.recent c⟩ :: evs, by rw [HProg.run, h1]; simp, ?_⟩
    intro a ev b h
    cases a with
    | nil => simp only [List.nil_append, List.cons.injEq] at h; obtain ⟨rfl, rfl⟩ := h; simp
    | cons x a =>
      simp only [List.cons_append, List.cons.injEq] at h
      obtain ⟨rfl, h⟩ := h
      have := h2 a ev b h
      simpa using this

theorem Reachable.genuine (hr : Reachable e w) : Genuine e w.log := by
  intro pre en post h a ev b hev
  obtain ⟨w0, w2, _, rfl, hrun, hrec⟩ := log_split hr h
  obtain ⟨evs, h1, h2⟩ := run_answers e (serve en.provider en.req) { w0 with
    now := en.now
    recent := [] }
  rw [hrun] at h1
  simp only [List.nil_append] at h1
  rw [← hrec, h1] at hev
  simpa using h2 a ev b hev

/-- A wallet got this access token. -/
def GotToken (log : List Entry) (tok : String) : Prop :=
  ∃ en ∈ log, ∃ q t, (⟨.token q, some t⟩ : Event) ∈ en.events ∧ t.accessToken = tok

/-- The issuer refuses a proof of possession that it has already accepted, during the same call of the wallet, with the same access token. The
issuer of this repository does so, as it replaces its nonce with every credential it issues (C102). -/
def SingleUseProofs (e : HEnv) : Prop :=
  ∀ log, Genuine e log → ∀ pre mid q x r jwt, GotToken log q.accessToken → e.oracle log pre (.credential q) = some x →
    q.proof = some (.single jwt) → r.proof = some (.single jwt) → r.accessToken = q.accessToken →
    e.oracle log (pre ++ ⟨.credential q, some x⟩ :: mid) (.credential r) = none

/-- What a successful call has asked for, and that it got everything. -/
theorem C66_all_requested_partial (hf : e.Fresh) (hr : Reachable e w) {pre post : List Entry} {en : Entry} (h : w.log = pre ++ en :: post)
    {r : CredentialsRequest} (hq : en.req = .credentials r) {resp : Resp} (hok : en.result = .ok resp) :
    ∃ sc t, InOrder [IsToken r.issuanceId sc t] pre ∧ Answered en.events ∧
      (sc = none → ∀ l, t.authorizationDetails = some l →
        (en.events.filterMap Event.credentialRequest).map (·.credential) = (wantedIds r.identifiers (allIds l)).map .identifier) ∧
      ∃ jwt, ∀ q ∈ en.events.filterMap Event.credentialRequest, q.accessToken = t.accessToken ∧ q.proof = some (.single jwt) := by
  obtain ⟨w0, w2, hI, hlog, hrec, -, hrun, hevs⟩ := entry_run hf hr h
  rw [hq, hok] at hrun
  obtain ⟨evs, ws, hE, h1⟩ := credentials_did hrun
  have hee : en.events = evs := by rw [← hevs, hE.recent, hrec, List.nil_append]
  rw [hee]
  rcases h1 with ⟨hf', _⟩ | ⟨i, jwt, hi, hs, _, hreq, hids, h2⟩
  · exact absurd rfl hf'.ne_ok
  rcases h2 with ⟨hf', _⟩ | ⟨j, _, ha, _⟩
  · exact absurd rfl hf'.ne_ok
  have hv : FlowInv e pre r.issuanceId i := hI.val _ _ hi
  have hph := hv.phase
  simp only [Phase, hs] at hph
  obtain ⟨t, h1, h2, h3⟩ := hph
  refine ⟨i.scope, t, h3, ha, ?_, jwt, ?_⟩
  · intro hsc l hl
    obtain ⟨rest, h4, h5⟩ := hids hsc l (by rw [← h2, hl])
    rcases h5 with rfl | hf'
    · rw [List.append_nil] at h4
      rw [h4, List.map_map]; rfl
    · exact absurd rfl hf'.ne_ok
  · intro q hq
    obtain ⟨ev, hev, hc⟩ := List.mem_filterMap.mp hq
    rcases hreq ev hev with ⟨q', hq', ha⟩ | ⟨u, hu⟩
    · obtain ⟨c, o⟩ := ev
      simp only at hq'
      subst hq'
      cases hc
      exact ⟨by rw [ha.2.1, h1], ha.2.2⟩
    · obtain ⟨c, o⟩ := ev
      simp only at hu
      subst hu
      cases hc

theorem requests_split {evs : List Event} {a b : Issuer.CredentialRequest} {l : List Issuer.CredentialRequest}
    (h : evs.filterMap Event.credentialRequest = a :: b :: l) :
    ∃ p q s o1 o2, evs = p ++ ⟨.credential a, o1⟩ :: q ++ ⟨.credential b, o2⟩ :: s := by
  rw [List.filterMap_eq_cons_iff] at h
  obtain ⟨p, x, t, rfl, _, hx, h⟩ := h
  rw [List.filterMap_eq_cons_iff] at h
  obtain ⟨q, y, s, rfl, _, hy, _⟩ := h
  have ofReq : ∀ {x : Event} {a : Issuer.CredentialRequest}, x.credentialRequest = some a → ∃ o, x = ⟨.credential a, o⟩ := by
    intro x a hx
    obtain ⟨c, o⟩ := x
    cases c <;> simp only [Event.credentialRequest] at hx <;> cases hx
    exact ⟨o, rfl⟩
  obtain ⟨o1, rfl⟩ := ofReq hx
  obtain ⟨o2, rfl⟩ := ofReq hy
  exact ⟨p, q, s, o1, o2, by simp⟩

/-- `C66_batch_fails`, of a wallet with a given history. -/
theorem batch_fails_at (hI : Inv e w.log w.store w.drawn)
    (hu : ∀ pre mid q x r jwt, GotToken w.log q.accessToken → e.oracle w.log pre (.credential q) = some x →
      q.proof = some (.single jwt) → r.proof = some (.single jwt) → r.accessToken = q.accessToken →
      e.oracle w.log (pre ++ ⟨.credential q, some x⟩ :: mid) (.credential r) = none)
    (s : HStep) {r : CredentialsRequest} (hq : s.req = .credentials r)
    (ht : ∀ sc t, InOrder [IsToken r.issuanceId sc t] w.log →
      sc = none ∧ ∃ l, t.authorizationDetails = some l ∧ 2 ≤ (wantedIds r.identifiers (allIds l)).length) :
    (∃ x, (step e w s).1 = .error x) ∧ (step e w s).2.store = w.store := by
  have hI : Inv e (before w s).log (before w s).store (before w s).drawn := hI
  rw [(step_eq e w s).1, (step_eq e w s).2]
  obtain ⟨⟨r', w2⟩, hrun⟩ : ∃ q, (serve s.provider s.req).run e (before w s) = q := ⟨_, rfl⟩
  rw [hrun]
  simp only
  rw [hq] at hrun
  obtain ⟨evs, ws, hE, h1⟩ := credentials_did hrun
  rw [hE.store]
  rcases h1 with ⟨⟨x, hx, _⟩, _, rfl⟩ | ⟨i, jwt, hi, hs, _, hreq, hids, h2⟩
  · exact ⟨⟨x, hx⟩, rfl⟩
  rcases h2 with ⟨⟨x, hx, _⟩, rfl⟩ | ⟨j, _, ha, hends⟩
  · exact ⟨⟨x, hx⟩, rfl⟩
  exfalso
  have hv : FlowInv e w.log r.issuanceId i := hI.val _ _ hi
  have hph := hv.phase
  simp only [Phase, hs] at hph
  obtain ⟨t, h1, h2, h3⟩ := hph
  obtain ⟨hsc, l, hl, hlen⟩ := ht _ t h3
  obtain ⟨rest, h4, h5⟩ := hids hsc l (by rw [← h2, hl])
  have hrest : rest = [] := by
    rcases h5 with h5 | ⟨x, hx, hn⟩
    · exact h5
    · subst hx
      generalize hq' : (Except.error x : HRes Resp) = q at hends
      cases hends <;> cases hq' <;> exact absurd rfl hn
  subst hrest
  rw [List.append_nil] at h4
  match hw : wantedIds r.identifiers (allIds l), hlen with
  | [], hlen => simp at hlen
  | [_], hlen => simp at hlen
  | a :: b :: m, _ =>
    rw [hw] at h4
    simp only [List.map_cons] at h4
    obtain ⟨p, q, s', o1, o2, rfl⟩ := requests_split h4
    have a1 : o1.isSome = true := ha _ o1 (by simp)
    have a2 : o2.isSome = true := ha _ o2 (by simp)
    obtain ⟨x, hx⟩ := Option.isSome_iff_exists.mp a1
    subst hx
    have b1 := hE.answers p ⟨.credential (identifierRequest i jwt a), some x⟩ (q ++ ⟨.credential (identifierRequest i jwt b), o2⟩ :: s') (by simp)
    have b2 := hE.answers (p ++ ⟨.credential (identifierRequest i jwt a), some x⟩ :: q) ⟨.credential (identifierRequest i jwt b), o2⟩ s' (by simp)
    simp only at b1 b2
    have hlog : (before w s).log = w.log := rfl
    have hrec : (before w s).recent = [] := rfl
    rw [hlog, hrec, List.nil_append] at b1 b2
    rw [hu p q (identifierRequest i jwt a) x (identifierRequest i jwt b) jwt ?_ b1.symm rfl rfl rfl] at b2
    · rw [b2] at a2; cases a2
    · obtain ⟨_, en, _, hl', ⟨⟨tr, htr⟩, _⟩, _⟩ := h3
      exact ⟨en, by rw [hl']; simp, tr, t, htr, h1⟩

/-- Two or more credentials in one call cannot be obtained from an issuer that accepts a proof once: the call fails, and nothing it received is kept. -/
theorem C66_batch_fails (hf : e.Fresh) (hu : SingleUseProofs e) (hr : Reachable e w) (s : HStep) {r : CredentialsRequest} (hq : s.req = .credentials r)
    (ht : ∀ sc t, InOrder [IsToken r.issuanceId sc t] w.log →
      sc = none ∧ ∃ l, t.authorizationDetails = some l ∧ 2 ≤ (wantedIds r.identifiers (allIds l)).length) :
    (∃ x, (step e w s).1 = .error x) ∧ (step e w s).2.store = w.store :=
  batch_fails_at (reachable_inv hf hr) (hu w.log hr.genuine) s hq ht

/-! ### C67 Notifications -/

/-- The wallet never notifies an issuer of anything. -/
theorem C67_never_notifies (hf : e.Fresh) (hr : Reachable e w) {en : Entry} (h : en ∈ w.log) {ev : Event} (hev : ev ∈ en.events)
    (n : Notification) : ev.call ≠ .notification n := (reachable_inv hf hr).quiet en h ev hev n

/-! ### C68 Saving -/

/-- A successful save hands storage exactly the credentials received for the flow, in order, each once, each as its verified JWT says. -/
theorem C68_saves_what_was_received (hf : e.Fresh) (hn : e.NoLate) (hr : Reachable e w) {pre post : List Entry} {en : Entry}
    (h : w.log = pre ++ en :: post) {k : String} (hq : en.req = .save k) {resp : Resp} (hok : en.result = .ok resp) :
    ∃ cs : List Credential, en.events = cs.map (fun c => ⟨.save c, some ()⟩) ∧ cs.map (·.issued) = received k pre ∧
      ∀ c ∈ cs, ∃ x ∈ pre, Came k c x := by
  obtain ⟨w0, w2, hI, hlog, hrec, -, hrun, hevs⟩ := entry_run hf hr h
  rw [hq, hok] at hrun
  obtain ⟨evs, ws, hE, _, h1⟩ := save_did (hI.noNote k) hrun
  have hee : en.events = evs := by rw [← hevs, hE.recent, hrec, List.nil_append]
  rcases h1 with ⟨hf', _⟩ | ⟨i, hi, ⟨done, c, rest, hf', _⟩ | ⟨rfl, _⟩⟩
  · exact absurd rfl hf'.ne_ok
  · exact absurd rfl hf'.ne_ok
  · have hv : FlowInv e pre k i := hI.val _ _ hi
    exact ⟨i.credentials, hee, hv.received hn, hv.came⟩

/-- Whatever ends up in storage, by whichever call, came from the issuer in a response for the same flow, and is what its verified JWT says. -/
theorem C68_saved_credentials_came (hf : e.Fresh) (hr : Reachable e w) {pre post : List Entry} {en : Entry} (h : w.log = pre ++ en :: post)
    {c : Credential} {o : Option Unit} (hs : ⟨.save c, o⟩ ∈ en.events) : ∃ k, en.req = .save k ∧ ∃ x ∈ pre, Came k c x := by
  have hall := entry_calls hf hr (h ▸ List.mem_append_right _ (List.mem_cons_self ..)) hs
  obtain ⟨w0, w2, hI, hlog, hrec, -, hrun, hevs⟩ := entry_run hf hr h
  rw [← hevs] at hs
  generalize en.req = q at hrun hall ⊢
  generalize en.result = r at hrun
  cases q <;> simp only [Allowed, Bool.false_eq_true] at hall
  rename_i k
  refine ⟨k, rfl, ?_⟩
  obtain ⟨evs, ws, hE, _, h1⟩ := save_did (hI.noNote k) hrun
  rw [hE.recent, hrec, List.nil_append] at hs
  have hsv : ∀ {l : List Credential}, ⟨.save c, o⟩ ∈ savesOf l → c ∈ l := by
    intro l hm
    obtain ⟨c', hc', he⟩ := List.mem_map.mp hm
    cases he; exact hc'
  rcases h1 with ⟨_, rfl, _⟩ | ⟨i, hi, h1⟩
  · simp at hs
  have hv : FlowInv e pre k i := hI.val _ _ hi
  apply hv.came
  rcases h1 with ⟨done, c', rest, _, _, hc, rfl⟩ | ⟨rfl, _⟩
  · rw [hc]
    rcases List.mem_append.mp hs with hs | hs
    · exact List.mem_append_left _ (hsv hs)
    · rw [List.mem_singleton] at hs; cases hs; simp
  · exact hsv hs

/-! ### C69 Deferred bookkeeping -/

/-- The transactions a successful call reports as outstanding are exactly those the issuer put off and the holder has not redeemed. -/
theorem C69_outstanding_reported (hf : e.Fresh) (hn : e.NoLate) (hr : Reachable e w) {pre post : List Entry} {en : Entry}
    (h : w.log = pre ++ en :: post) {k : String} {d : Option (Dict String)} (hok : en.result = .ok (.credentials k d)) :
    (∀ t, t ∈ Dict.keys (d.getD []) ↔ t ∈ outstanding k (pre ++ [en])) ∧ (d = none ↔ outstanding k (pre ++ [en]) = []) := by
  have key : ∃ j : Issuance, d = j.outstanding ∧ ∀ t, t ∈ Dict.keys j.deferred ↔ t ∈ outstanding k (pre ++ [en]) := by
    obtain ⟨w0, w2, hI, hlog, hrec, -, hrun, hevs⟩ := entry_run hf hr h
    rw [hok] at hrun
    obtain ⟨q, hq⟩ : ∃ q, en.req = q := ⟨_, rfl⟩
    rw [hq] at hrun
    cases q with
    | offer req =>
      obtain ⟨evs, ws, hE, h3⟩ := offer_did hrun
      rcases h3 with ⟨hf, _⟩ | ⟨md, sv, _, _, ⟨h3, _⟩ | ⟨rfl, ⟨h3, _⟩ | ⟨hf, _⟩ | ⟨o, _, h3⟩⟩⟩
      · exact absurd rfl hf.ne_ok
      · cases h3
      · cases h3
      · exact absurd rfl hf.ne_ok
      · cases h3
    | accept req =>
      obtain ⟨ws, hE, _, h1⟩ := accept_did hrun
      rcases h1 with ⟨hf, _⟩ | ⟨i, acc, _, _, _, _, hends⟩
      · exact absurd rfl hf.ne_ok
      · cases hends
    | pin req =>
      obtain ⟨ws, hE, _, h1⟩ := pin_did hrun
      rcases h1 with ⟨hf, _⟩ | ⟨i, _, _, hends⟩
      · exact absurd rfl hf.ne_ok
      · cases hends
    | token id =>
      obtain ⟨evs, ws, hE, _, h1⟩ := token_did hrun
      rcases h1 with ⟨hf, _⟩ | ⟨i, p, _, _, _, q, _, ⟨hf, _⟩ | ⟨t, a, _, _, hends⟩⟩
      · exact absurd rfl hf.ne_ok
      · exact absurd rfl hf.ne_ok
      · cases hends
    | authorize req =>
      obtain ⟨evs, ws, hE, h1⟩ := authorize_did hrun
      rcases h1 with ⟨hf, _⟩ | ⟨i, p, n, _, _, _, q, _, ⟨hf, _⟩ | ⟨a, ⟨o, hf, _⟩ | ⟨t, m, _, _, hends⟩⟩⟩
      · exact absurd rfl hf.ne_ok
      · exact absurd rfl hf.ne_ok
      · exact absurd rfl hf.ne_ok
      · cases hends
    | credentials req =>
      obtain ⟨evs, ws, hE, h1⟩ := credentials_did hrun
      have hee : en.events = evs := by rw [← hevs, hE.recent, hrec, List.nil_append]
      rcases h1 with ⟨hf', _⟩ | ⟨i, jwt, hi, hs, _, _, _, ⟨hf', _⟩ | ⟨j, hg, _, hends⟩⟩
      · exact absurd rfl hf'.ne_ok
      · exact absurd rfl hf'.ne_ok
      · have hv : FlowInv e pre req.issuanceId i := hI.val _ _ hi
        obtain ⟨c, df, nn, x, hj, _, _, hk⟩ := hg.same
        have hjid : j.id = req.issuanceId := by rw [hj]; exact hv.id
        have hjd : j.deferred = df := by rw [hj]
        generalize hr' : (Except.ok (Resp.credentials k d) : HRes Resp) = r' at hends
        cases hends <;> cases hr'
        refine ⟨j, rfl, fun t => ?_⟩
        rw [hjd, hk, outstanding_snoc, outstandingStep, hq, hok]
        simp only [hjid, if_true, List.mem_append, hee]
        rw [hv.outstanding hn]
    | deferred req =>
      obtain ⟨evs, ws, hE, h1⟩ := deferred_did hrun
      have hee : en.events = evs := by rw [← hevs, hE.recent, hrec, List.nil_append]
      rcases h1 with ⟨hf', _⟩ | ⟨i, o, logos, hi, hs, _, _, ⟨hf', _⟩ | ⟨j, hg, _, hends⟩⟩
      · exact absurd rfl hf'.ne_ok
      · exact absurd rfl hf'.ne_ok
      · have hv : FlowInv e pre req.issuanceId i := hI.val _ _ hi
        obtain ⟨c, df, nn, x, hj, _, _, hk⟩ := hg.same
        have hjid : j.id = req.issuanceId := by rw [hj]; exact hv.id
        have hjd : j.deferred = df := by rw [hj]
        generalize hr' : (Except.ok (Resp.credentials k d) : HRes Resp) = r' at hends
        cases hends <;> cases hr'
        refine ⟨j, rfl, fun t => ?_⟩
        rw [hjd, hk, outstanding_snoc, outstandingStep, hq, hok]
        simp only [hjid, if_true, List.mem_append, hee, keys_remove, List.mem_filter]
        rw [hv.outstanding hn]
        simp
    | save id =>
      obtain ⟨evs, ws, hE, _, h1⟩ := save_did (hI.noNote id) hrun
      rcases h1 with ⟨hf, _⟩ | ⟨i, _, ⟨done, c, rest, hf, _⟩ | ⟨_, ⟨_, hends⟩ | ⟨_, _, h1⟩⟩⟩
      · exact absurd rfl hf.ne_ok
      · exact absurd rfl hf.ne_ok
      · cases hends
      · cases h1
    | cancel id =>
      obtain ⟨ws, hE, _, h1⟩ := cancel_did (hI.noNote id) hrun
      rcases h1 with ⟨hf, _⟩ | ⟨i, _, hends⟩
      · exact absurd rfl hf.ne_ok
      · cases hends
    | request url =>
      obtain ⟨evs, ws, hE, _, h1⟩ := request_did hrun
      rcases h1 with ⟨hf, _⟩ | ⟨q, p, f, cs, _, _, _, _, hends⟩
      · exact absurd rfl hf.ne_ok
      · cases hends
    | authorizePresentation id =>
      obtain ⟨ws, hE, _, h1⟩ := authorizePresentation_did hrun
      rcases h1 with ⟨hf, _⟩ | ⟨p, _, _, hends⟩
      · exact absurd rfl hf.ne_ok
      · cases hends
    | present id =>
      obtain ⟨evs, hE, h1⟩ := present_did hrun
      rcases h1 with ⟨hf, _⟩ | ⟨p, pd, vp, jwt, n, u, sub, _, _, _, _, _, _, o, _, ⟨_, hf⟩ | ⟨a, _, h1⟩⟩
      · exact absurd rfl hf.ne_ok
      · exact absurd rfl hf.ne_ok
      · cases h1
  obtain ⟨j, rfl, hj⟩ := key
  unfold Issuance.outstanding
  cases hd : j.deferred with
  | nil =>
    have hnone : ∀ t, t ∉ outstanding k (pre ++ [en]) := by
      intro t ht
      have := (hj t).mpr ht
      rw [hd] at this
      simp [Dict.keys] at this
    refine ⟨fun t => ?_, ?_⟩
    · simpa [Dict.keys] using hnone t
    · simpa using List.eq_nil_iff_forall_not_mem.mpr hnone
  | cons a l =>
    refine ⟨fun t => ?_, ?_⟩
    · rw [← hj t, hd]; rfl
    · have : a.1 ∈ outstanding k (pre ++ [en]) := (hj a.1).mp (by rw [hd]; simp [Dict.keys])
      constructor
      · intro h; cases h
      · intro h; rw [h] at this; simp at this

end Verif.Holder
