import Verif.Holder.Trace
/-!
# Issuance flows of the wallet: properties of every history
-/
namespace Verif.Holder
open Verif HProg

variable {e : HEnv} {w : HWorld}

/-! ### What each endpoint may call -/

/-- The calls an endpoint can make. -/
def Allowed : Req → Call → Bool
  | .offer _, .metadata _ | .offer _, .oauthServer _ => true
  | .token _, .token _ => true
  | .authorize _, .metadata _ | .authorize _, .oauthServer _ | .authorize _, .authorization _ | .authorize _, .token _ => true
  | .credentials _, .credential _ | .credentials _, .logo _ => true
  | .deferred _, .deferred _ | .deferred _, .logo _ => true
  | .save _, .save _ => true
  | .request _, .requestObject _ | .request _, .find _ => true
  | .present _, .present _ _ => true
  | _, _ => false

/-- The world an entry was served in, with everything known about it. -/
theorem entry_run (hf : e.Fresh) (hr : Reachable e w) {pre post : List Entry} {en : Entry} (h : w.log = pre ++ en :: post) :
    ∃ w0 w2, Inv e pre w0.store w0.drawn ∧ w0.log = pre ∧ w0.recent = [] ∧ w0.now = en.now ∧
      (serve en.provider en.req).run e w0 = (en.result, w2) ∧ w2.recent = en.events := by
  obtain ⟨w0, w2, hr0, rfl, hrun, hrec⟩ := log_split hr h
  exact ⟨{ w0 with now := en.now, recent := [] }, w2, reachable_inv hf hr0, rfl, rfl, rfl, hrun, hrec⟩

theorem entry_calls (hf : e.Fresh) (hr : Reachable e w) {en : Entry} (hen : en ∈ w.log) {ev : Event} (hev : ev ∈ en.events) :
    Allowed en.req ev.call = true := by
  obtain ⟨pre, post, h⟩ := List.append_of_mem hen
  obtain ⟨w0, w2, hI, hlog, hrec, -, hrun, hevs⟩ := entry_run hf hr h
  rw [← hevs] at hev
  generalize en.req = q at hrun
  generalize en.result = r at hrun
  cases q with
  | offer req =>
    obtain ⟨evs, ws, hE, h1⟩ := offer_did hrun
    rw [hE.recent, hrec, List.nil_append] at hev
    rcases h1 with ⟨_, _, hev'⟩ | ⟨md, sv, _, rfl, _⟩
    · rcases hev' ev hev with h | h <;> rw [h] <;> rfl
    · simp at hev; rcases hev with rfl | rfl <;> rfl
  | accept req =>
    obtain ⟨ws, hE, _⟩ := accept_did hrun
    rw [hE.recent, hrec, List.nil_append] at hev; simp at hev
  | pin req =>
    obtain ⟨ws, hE, _⟩ := pin_did hrun
    rw [hE.recent, hrec, List.nil_append] at hev; simp at hev
  | token id =>
    obtain ⟨evs, ws, hE, _, h1⟩ := token_did hrun
    rw [hE.recent, hrec, List.nil_append] at hev
    rcases h1 with ⟨_, rfl, _⟩ | ⟨i, p, _, _, _, q, _, h1⟩
    · simp at hev
    · rcases h1 with ⟨_, _, o, rfl⟩ | ⟨t, a, rfl, _⟩ <;> (simp at hev; subst hev; rfl)
  | authorize req =>
    obtain ⟨evs, ws, hE, h1⟩ := authorize_did hrun
    rw [hE.recent, hrec, List.nil_append] at hev
    have hp : ∀ {l : List Event}, Preamble l → ev ∈ l → Allowed (.authorize req) ev.call = true := by
      intro l hl hm
      rcases hl ev hm with ⟨u, hu⟩ | ⟨u, hu⟩ <;> rw [hu] <;> rfl
    rcases h1 with ⟨_, _, hpre⟩ | ⟨i, p, n, _, hpre, _, q, _, h1⟩
    · exact hp hpre hev
    · rcases h1 with ⟨_, _, rfl⟩ | ⟨a, ⟨o, _, _, rfl⟩ | ⟨t, m, rfl, _⟩⟩
      · rcases List.mem_append.mp hev with h | h
        · exact hp hpre h
        · simp at h; subst h; rfl
      · rcases List.mem_append.mp hev with h | h
        · exact hp hpre h
        · simp at h; rcases h with rfl | rfl <;> rfl
      · rcases List.mem_append.mp hev with h | h
        · exact hp hpre h
        · simp at h; rcases h with rfl | rfl <;> rfl
  | credentials req =>
    obtain ⟨evs, ws, hE, h1⟩ := credentials_did hrun
    rw [hE.recent, hrec, List.nil_append] at hev
    rcases h1 with ⟨_, rfl, _⟩ | ⟨i, jwt, _, _, _, hreq, _⟩
    · simp at hev
    · rcases hreq ev hev with ⟨r, hr, _⟩ | ⟨u, hu⟩
      · rw [hr]; rfl
      · rw [hu]; rfl
  | deferred req =>
    obtain ⟨evs, ws, hE, h1⟩ := deferred_did hrun
    rw [hE.recent, hrec, List.nil_append] at hev
    rcases h1 with ⟨_, rfl, _⟩ | ⟨i, o, logos, _, _, hl, rfl, _⟩
    · simp at hev
    · rcases List.mem_cons.mp hev with h | h
      · subst h; rfl
      · obtain ⟨u, hu⟩ := hl ev h
        rw [hu]; rfl
  | save id =>
    obtain ⟨evs, ws, hE, _, h1⟩ := save_did (hI.noNote id) hrun
    rw [hE.recent, hrec, List.nil_append] at hev
    have hs : ∀ l, ev ∈ savesOf l → Allowed (.save id) ev.call = true := by
      intro l hm
      obtain ⟨c, _, rfl⟩ := List.mem_map.mp hm
      rfl
    rcases h1 with ⟨_, rfl, _⟩ | ⟨i, _, ⟨done, c, rest, _, _, _, rfl⟩ | ⟨rfl, _⟩⟩
    · simp at hev
    · rcases List.mem_append.mp hev with h | h
      · exact hs _ h
      · simp at h; subst h; rfl
    · exact hs _ hev
  | cancel id =>
    obtain ⟨ws, hE, _⟩ := cancel_did (hI.noNote id) hrun
    rw [hE.recent, hrec, List.nil_append] at hev; simp at hev
  | request url =>
    obtain ⟨evs, ws, hE, ho, _⟩ := request_did hrun
    rw [hE.recent, hrec, List.nil_append] at hev
    rcases ho ev hev with ⟨u, hu⟩ | ⟨u, hu⟩ <;> rw [hu] <;> rfl
  | authorizePresentation id =>
    obtain ⟨ws, hE, _⟩ := authorizePresentation_did hrun
    rw [hE.recent, hrec, List.nil_append] at hev; simp at hev
  | present id =>
    obtain ⟨evs, hE, h1⟩ := present_did hrun
    rw [hE.recent, hrec, List.nil_append] at hev
    rcases h1 with ⟨_, rfl⟩ | ⟨p, pd, vp, jwt, n, u, sub, _, _, _, _, _, _, o, rfl, _⟩
    · simp at hev
    · simp at hev; subst hev; rfl

/-! ### C62 Flow order -/

/-- The steps that lead to a token for a flow that came from an offer: the offer, its acceptance and, when it requires a transaction code, the PIN. -/
def Prepared (k : String) (off : Issuer.CredentialOffer) (md : Verif.Issuer) (ds : Option (List AuthorizationDetail)) (pin : Option String)
    (log : List Entry) : Prop :=
  (¬ RequiresTxCode off ∧ pin = none ∧ InOrder [IsOffer k off md, IsAccept k ds] log) ∨
  (RequiresTxCode off ∧ ∃ p, pin = some p ∧ InOrder [IsOffer k off md, IsAccept k ds, IsPin k p] log)

theorem accepted_prepared {L : List Entry} {k : String} {i : Issuance} (h : FlowInv e L k i) (hs : i.status = .accepted) :
    Prepared k i.offer i.issuer i.accepted i.pin L := by
  have := h.phase
  simp only [Phase, hs] at this
  exact this.2

/-- An access token is requested only after the flow's offer was accepted, and the PIN given when the offer requires one; or for a flow the wallet
starts itself. The request of a pre-authorized flow carries the code of that offer, that PIN, and what the holder accepted. -/
theorem C62_token_after_acceptance (hf : e.Fresh) (hr : Reachable e w) {pre post : List Entry} {en : Entry} (h : w.log = pre ++ en :: post)
    {tr : Issuer.TokenRequest} {o : Option Issuer.TokenResponse} (ht : ⟨.token tr, o⟩ ∈ en.events) :
    (∃ k off md ds pin,
      (en.req = .token k ∧ tr.authorizationDetails = ds ∧
        (∃ g p, off.grants = some g ∧ g.preAuthorizedCode = some p ∧ tr.grantType = .preAuthorizedCode p.preAuthorizedCode pin) ∨
       ∃ r, en.req = .authorize r ∧ r.initiator = .issuer k) ∧
      Prepared k off md ds pin pre ∧
      ∀ x ∈ pre, ∀ r a b c, x.req = .offer r → x.result = .ok (.offer k a b c) → r.offer = off) ∨
    ∃ r c iss sc sub, en.req = .authorize r ∧ r.initiator = .wallet c iss sc sub := by
  have hall := entry_calls hf hr (h ▸ List.mem_append_right _ (List.mem_cons_self ..)) ht
  obtain ⟨w0, w2, hI, hlog, hrec, -, hrun, hevs⟩ := entry_run hf hr h
  rw [← hevs] at ht
  generalize en.req = q at hrun hall ⊢
  generalize en.result = r at hrun
  cases q <;> simp only [Allowed, Bool.false_eq_true] at hall
  · rename_i id
    obtain ⟨evs, ws, hE, _, h1⟩ := token_did hrun
    rw [hE.recent, hrec, List.nil_append] at ht
    rcases h1 with ⟨_, rfl, _⟩ | ⟨i, p, hi, hs, hp, q, rfl, h1⟩
    · simp at ht
    · have hv : FlowInv e pre id i := hI.val _ _ hi
      have htr : tr = ⟨i.issuer.credentialIssuer, some i.clientId, .preAuthorizedCode p.preAuthorizedCode i.pin, i.accepted⟩ := by
        rcases h1 with ⟨_, _, o, rfl⟩ | ⟨t, a, rfl, _⟩ <;> (rw [List.mem_singleton] at ht; cases ht; rfl)
      obtain ⟨g, hg, hp⟩ : ∃ g, i.offer.grants = some g ∧ g.preAuthorizedCode = some p := by
        unfold preAuthorized at hp
        cases hg : i.offer.grants with
        | none => rw [hg] at hp; cases hp
        | some g => rw [hg] at hp; exact ⟨g, rfl, hp⟩
      subst htr
      exact .inl ⟨id, i.offer, i.issuer, i.accepted, i.pin, .inl ⟨rfl, rfl, g, p, hg, hp, rfl⟩, accepted_prepared hv hs, hv.offered⟩
  · rename_i req
    obtain ⟨evs, ws, hE, h1⟩ := authorize_did hrun
    rw [hE.recent, hrec, List.nil_append] at ht
    rcases h1 with ⟨_, _, hpre⟩ | ⟨i, p, n, hst, _⟩
    · rcases hpre _ ht with ⟨u, hu⟩ | ⟨u, hu⟩ <;> cases hu
    · cases hst with
      | @stored id _ hr hs ha =>
        have hv : FlowInv e pre id i := hI.val _ _ hs
        exact .inl ⟨id, i.offer, i.issuer, i.accepted, i.pin, .inr ⟨req, rfl, hr⟩, accepted_prepared hv ha, hv.offered⟩
      | new hr hx => exact .inr ⟨req, _, _, _, _, rfl, hr⟩

/-- Credentials are requested, at once or deferred, only with an access token received earlier for the same flow. -/
theorem C62_credentials_after_token (hf : e.Fresh) (hr : Reachable e w) {pre post : List Entry} {en : Entry} (h : w.log = pre ++ en :: post)
    {ev : Event} (hev : ev ∈ en.events) :
    (∀ q, ev.call = .credential q → ∃ r sc t, en.req = .credentials r ∧ InOrder [IsToken r.issuanceId sc t] pre ∧ q.accessToken = t.accessToken) ∧
    (∀ q, ev.call = .deferred q → ∃ r sc t, en.req = .deferred r ∧ InOrder [IsToken r.issuanceId sc t] pre ∧ q.accessToken = t.accessToken) := by
  have hall := entry_calls hf hr (h ▸ List.mem_append_right _ (List.mem_cons_self ..)) hev
  obtain ⟨w0, w2, hI, hlog, hrec, -, hrun, hevs⟩ := entry_run hf hr h
  rw [← hevs] at hev
  generalize en.req = rq at hrun hall ⊢
  generalize en.result = r at hrun
  constructor
  · intro q hq
    rw [hq] at hall
    cases rq <;> simp only [Allowed, Bool.false_eq_true] at hall
    rename_i req
    obtain ⟨evs, ws, hE, h1⟩ := credentials_did hrun
    rw [hE.recent, hrec, List.nil_append] at hev
    rcases h1 with ⟨_, rfl, _⟩ | ⟨i, jwt, hi, hs, _, hreq, _⟩
    · simp at hev
    · have hv : FlowInv e pre req.issuanceId i := hI.val _ _ hi
      have hph := hv.phase
      simp only [Phase, hs] at hph
      obtain ⟨t, h1, _, h3⟩ := hph
      rcases hreq ev hev with ⟨q', hq', ha⟩ | ⟨u, hu⟩
      · rw [hq] at hq'; cases hq'
        exact ⟨req, _, t, rfl, h3, by rw [ha.2.1, h1]⟩
      · rw [hq] at hu; cases hu
  · intro q hq
    rw [hq] at hall
    cases rq <;> simp only [Allowed, Bool.false_eq_true] at hall
    rename_i req
    obtain ⟨evs, ws, hE, h1⟩ := deferred_did hrun
    rw [hE.recent, hrec, List.nil_append] at hev
    rcases h1 with ⟨_, rfl, _⟩ | ⟨i, o, logos, hi, hs, hl, rfl, _⟩
    · simp at hev
    · have hv : FlowInv e pre req.issuanceId i := hI.val _ _ hi
      have hph := hv.phase
      simp only [Phase, hs] at hph
      obtain ⟨t, h1, _, h3⟩ := hph
      rcases List.mem_cons.mp hev with h' | h'
      · rw [h'] at hq; cases hq
        exact ⟨req, _, t, rfl, h3, h1.symm⟩
      · obtain ⟨u, hu⟩ := hl ev h'
        rw [hq] at hu; cases hu

/-! ### C63 Failures leave flows alone -/

theorem ends_error {x : Write} {b : Resp} {r : HRes Resp} {ws : List Write} {y : HErr} (hE : Ends e x b r ws) (hr : r = .error y)
    (hl : y ≠ .store ∨ e.NoLate) : ws = [] := by
  cases hE with
  | done => cases hr
  | lost => rfl
  | late h =>
    cases hr
    rcases hl with h' | h'
    · exact absurd rfl h'
    · obtain ⟨n, hn⟩ := h; exact absurd hn (h' n)

theorem step_eq (e : HEnv) (w : HWorld) (s : HStep) : (step e w s).1 = ((serve s.provider s.req).run e (before w s)).1 ∧
    (step e w s).2.store = ((serve s.provider s.req).run e (before w s)).2.store := ⟨rfl, rfl⟩

/-- A call other than `offer` that fails changes nothing, unless a write took effect while being reported as failed. -/
theorem C63_failed_call_changes_nothing (hf : e.Fresh) (hr : Reachable e w) (s : HStep) {x : HErr} (h : (step e w s).1 = .error x)
    (hl : x ≠ .store ∨ e.NoLate) (ho : ∀ r, s.req ≠ .offer r) : (step e w s).2.store = w.store := by
  have hI : Inv e (before w s).log (before w s).store (before w s).drawn := by
    have := reachable_inv hf hr
    exact this
  rw [(step_eq e w s).1] at h
  rw [(step_eq e w s).2]
  obtain ⟨⟨r, w2⟩, hrun⟩ : ∃ q, (serve s.provider s.req).run e (before w s) = q := ⟨_, rfl⟩
  rw [hrun] at h ⊢
  simp only at h ⊢
  have hst : (before w s).store = w.store := rfl
  generalize hq : s.req = q at hrun
  cases q with
  | offer req => exact absurd hq (ho req)
  | accept req =>
    obtain ⟨ws, hE, _, h1⟩ := accept_did hrun
    have : ws = [] := by
      rcases h1 with ⟨_, h1⟩ | ⟨i, acc, _, _, _, _, hends⟩
      · exact h1
      · exact ends_error hends h hl
    rw [hE.store, this]; rfl
  | pin req =>
    obtain ⟨ws, hE, _, h1⟩ := pin_did hrun
    have : ws = [] := by
      rcases h1 with ⟨_, h1⟩ | ⟨i, _, _, hends⟩
      · exact h1
      · exact ends_error hends h hl
    rw [hE.store, this]; rfl
  | token id =>
    obtain ⟨evs, ws, hE, _, h1⟩ := token_did hrun
    have : ws = [] := by
      rcases h1 with ⟨_, _, h1⟩ | ⟨i, p, _, _, _, q, _, ⟨_, h1, _⟩ | ⟨t, a, _, _, hends⟩⟩
      · exact h1
      · exact h1
      · exact ends_error hends h hl
    rw [hE.store, this]; rfl
  | authorize req =>
    obtain ⟨evs, ws, hE, h1⟩ := authorize_did hrun
    have : ws = [] := by
      rcases h1 with ⟨_, h1, _⟩ | ⟨i, p, n, _, _, _, q, _, ⟨_, h1, _⟩ | ⟨a, ⟨o, _, h1, _⟩ | ⟨t, m, _, _, hends⟩⟩⟩
      · exact h1
      · exact h1
      · exact h1
      · exact ends_error hends h hl
    rw [hE.store, this]; rfl
  | credentials req =>
    obtain ⟨evs, ws, hE, h1⟩ := credentials_did hrun
    have : ws = [] := by
      rcases h1 with ⟨_, _, h1⟩ | ⟨i, jwt, _, _, _, _, _, ⟨_, h1⟩ | ⟨j, _, _, hends⟩⟩
      · exact h1
      · exact h1
      · exact ends_error hends h hl
    rw [hE.store, this]; rfl
  | deferred req =>
    obtain ⟨evs, ws, hE, h1⟩ := deferred_did hrun
    have : ws = [] := by
      rcases h1 with ⟨_, _, h1⟩ | ⟨i, o, logos, _, _, _, _, ⟨_, h1⟩ | ⟨j, _, _, hends⟩⟩
      · exact h1
      · exact h1
      · exact ends_error hends h hl
    rw [hE.store, this]; rfl
  | save id =>
    obtain ⟨evs, ws, hE, _, h1⟩ := save_did (hI.noNote id) hrun
    have : ws = [] := by
      rcases h1 with ⟨_, _, h1⟩ | ⟨i, _, ⟨done, c, rest, _, h1, _⟩ | ⟨_, ⟨_, hends⟩ | ⟨_, h1, _⟩⟩⟩
      · exact h1
      · exact h1
      · exact ends_error hends h hl
      · exact h1
    rw [hE.store, this]; rfl
  | cancel id =>
    obtain ⟨ws, hE, _, h1⟩ := cancel_did (hI.noNote id) hrun
    have : ws = [] := by
      rcases h1 with ⟨_, h1⟩ | ⟨i, _, hends⟩
      · exact h1
      · exact ends_error hends h hl
    rw [hE.store, this]; rfl
  | request url =>
    obtain ⟨evs, ws, hE, _, h1⟩ := request_did hrun
    have : ws = [] := by
      rcases h1 with ⟨_, h1⟩ | ⟨q, p, f, cs, _, _, _, _, hends⟩
      · exact h1
      · exact ends_error hends h hl
    rw [hE.store, this]; rfl
  | authorizePresentation id =>
    obtain ⟨ws, hE, _, h1⟩ := authorizePresentation_did hrun
    have : ws = [] := by
      rcases h1 with ⟨_, h1⟩ | ⟨p, _, _, hends⟩
      · exact h1
      · exact ends_error hends h hl
    rw [hE.store, this]; rfl
  | present id =>
    obtain ⟨evs, hE, _⟩ := present_did hrun
    rw [hE.store]; rfl

/-- No flow the wallet has is changed by a call that fails, whichever endpoint it is. -/
theorem C63_failed_call_keeps_flows (hf : e.Fresh) (hr : Reachable e w) (s : HStep) {x : HErr} (h : (step e w s).1 = .error x)
    (hl : x ≠ .store ∨ e.NoLate) {k : String} {v : HVal} (hk : w.store k = some v) : (step e w s).2.store k = some v := by
  by_cases ho : ∃ r, s.req = .offer r
  · obtain ⟨req, hreq⟩ := ho
    have hI : Inv e (before w s).log (before w s).store (before w s).drawn := by
      have := reachable_inv hf hr
      exact this
    rw [(step_eq e w s).2]
    obtain ⟨⟨r, w2⟩, hrun⟩ : ∃ q, (serve s.provider s.req).run e (before w s) = q := ⟨_, rfl⟩
    rw [hrun]
    rw [hreq] at hrun
    obtain ⟨evs, ws, hE, h1⟩ := offer_did hrun
    simp only
    rw [hE.store]
    rcases h1 with ⟨_, rfl, _⟩ | ⟨md, sv, _, _, ⟨_, rfl⟩ | ⟨rfl, _⟩⟩
    · exact hk
    · exact hk
    · obtain ⟨n, hn, hkn⟩ := hI.key k v hk
      have : k ≠ e.rng (before w s).drawn := by
        intro heq
        have := hf n _ (hkn.symm.trans heq)
        omega
      simp only [applyWrites, List.foldl_cons, List.foldl_nil, upd, if_neg this]
      exact hk
  · rw [C63_failed_call_changes_nothing hf hr s h hl (fun r hr => ho ⟨r, hr⟩)]
    exact hk

theorem offeredConfigs_error {cs : Dict CredentialConfiguration} {ids : List String} {acc : Dict CredentialConfiguration} {id : String}
    (hid : id ∈ ids) (hn : cs.get? id = none) : ∃ why, offeredConfigs cs ids acc = .error (.refused why) := by
  induction ids generalizing acc with
  | nil => simp at hid
  | cons a ids ih =>
    unfold offeredConfigs
    cases hc : cs.get? a with
    | none => exact ⟨_, rfl⟩
    | some c =>
      have hm : id ∈ ids := by
        rcases List.mem_cons.mp hid with h | h
        · subst h; rw [hn] at hc; cases hc
        · exact h
      exact ih hm

/-- An offer that names a configuration missing from the issuer's metadata is refused, and yet leaves a flow behind. -/
theorem C63_refused_offer_leaves_flow (w : HWorld) (s : HStep) {req : OfferRequest} (hreq : s.req = .offer req) {md : Verif.Issuer} {sv : Server}
    (hmd : e.oracle w.log [] (.metadata req.offer.credentialIssuer) = some md)
    (hsv : e.oracle w.log [⟨.metadata req.offer.credentialIssuer, some md⟩] (.oauthServer req.offer.credentialIssuer) = some sv)
    (hok : e.fault w.ops = .ok) {id : String} (hid : id ∈ req.offer.configIds) (hn : md.configs.get? id = none) :
    (∃ why, (step e w s).1 = .error (.refused why)) ∧ ∃ i, (step e w s).2.store (e.rng w.drawn) = some (.issuance i) ∧ i.offer = req.offer := by
  have hne : (!req.offer.configIds.isEmpty) = true := by
    cases hc : req.offer.configIds with
    | nil => rw [hc] at hid; simp at hid
    | cons a l => rfl
  obtain ⟨why, hwhy⟩ := offeredConfigs_error (acc := []) hid hn
  have hrun : (serve s.provider s.req).run e (before w s) =
      (.error (.refused why), { w with
        now := w.now + s.wait
        drawn := w.drawn + 1
        ops := w.ops + 1
        store := upd w.store (e.rng w.drawn) (some (.issuance (freshFlow (e.rng w.drawn) req md sv)))
        recent := [⟨.metadata req.offer.credentialIssuer, some md⟩, ⟨.oauthServer req.offer.credentialIssuer, some sv⟩] }) := by
    rw [hreq]
    show (offer req).run e _ = _
    simp only [offer, check, hne, if_true, newIssuance, setIssuer, lift, drawE, callE, putE, Bind.bind, HProg.bind, Pure.pure, run, before,
      List.nil_append, hmd, hsv, hok, hwhy, Prog.writeRes, freshFlow, List.cons_append]
    erw [hsv]
    simp only [HProg.bind, run, hok, hwhy, Prog.writeRes, beq_self_eq_true, if_true]
    rfl
  constructor
  · exact ⟨why, by rw [(step_eq e w s).1, hrun]⟩
  · refine ⟨freshFlow (e.rng w.drawn) req md sv, ?_, rfl⟩
    rw [(step_eq e w s).2, hrun]
    simp [upd]

end Verif.Holder
