import Verif.Holder.ReceiveProps
/-!
# How flows end, and what binds an authorization to its token request
-/
namespace Verif.Holder
open Verif HProg

variable {e : HEnv} {w : HWorld}

theorem reachable_induct {P : HWorld → Prop} (h0 : ∀ now, P (start now)) (hs : ∀ w s, Reachable e w → P w → P (step e w s).2)
    (hr : Reachable e w) : P w := by
  obtain ⟨now, steps, rfl⟩ := hr
  have : ∀ (steps : List HStep) (w : HWorld), Reachable e w → P w → P (exec e w steps) := by
    intro steps
    induction steps with
    | nil => intro w _ h; exact h
    | cons s l ih => intro w hw h; exact ih _ (hw.step s) (hs w s hw h)
  exact this steps _ ⟨now, [], rfl⟩ (h0 now)

theorem run_drawn (e : HEnv) {α : Type} (p : HProg α) (w : HWorld) : w.drawn ≤ (p.run e w).2.drawn := by
  induction p generalizing w with
  | ret r => exact Nat.le_refl _
  | get k c ih => exact ih _ { w with ops := w.ops + 1 }
  | put k v c ih => exact ih _ { w with store := Prog.writeRes (e.fault w.ops) w.store k (some v), ops := w.ops + 1 }
  | purge k c ih => exact ih _ { w with store := Prog.writeRes (e.fault w.ops) w.store k none, ops := w.ops + 1 }
  | draw c ih => exact Nat.le_trans (Nat.le_succ _) (ih _ { w with drawn := w.drawn + 1 })
  | now c ih => exact ih _ w
  | call c k ih => exact ih _ { w with recent := w.recent ++ [⟨c, e.oracle w.log w.recent c⟩] }

/-! ### C68 and C77 Endings -/

/-- A successful save ends the flow when nothing is outstanding, and leaves everything as it was otherwise. -/
theorem C68_save_ends_flow (hf : e.Fresh) (hn : e.NoLate) (hr : Reachable e w) (s : HStep) {k : String} (hq : s.req = .save k) {resp : Resp}
    (hok : (step e w s).1 = .ok resp) :
    (outstanding k w.log = [] → (step e w s).2.store k = none) ∧ (outstanding k w.log ≠ [] → (step e w s).2.store = w.store) := by
  have hI : Inv e (before w s).log (before w s).store (before w s).drawn := by
    have := reachable_inv hf hr
    exact this
  rw [(step_eq e w s).1] at hok
  rw [(step_eq e w s).2]
  obtain ⟨⟨r, w2⟩, hrun⟩ : ∃ q, (serve s.provider s.req).run e (before w s) = q := ⟨_, rfl⟩
  rw [hrun] at hok ⊢
  simp only at hok ⊢
  subst hok
  rw [hq] at hrun
  obtain ⟨evs, ws, hE, _, h1⟩ := save_did (hI.noNote k) hrun
  rw [hE.store]
  rcases h1 with ⟨hf', _⟩ | ⟨i, hi, ⟨done, c, rest, hf', _⟩ | ⟨_, ⟨hd, hends⟩ | ⟨hd, rfl, _⟩⟩⟩
  · exact absurd rfl hf'.ne_ok
  · exact absurd rfl hf'.ne_ok
  · have hv : FlowInv e w.log k i := hI.val _ _ hi
    have hnil : outstanding k w.log = [] := by
      rw [List.eq_nil_iff_forall_not_mem]
      intro t ht
      have := (hv.outstanding hn t).mpr ht
      rw [List.isEmpty_iff.mp hd] at this
      simp [Dict.keys] at this
    cases hends
    exact ⟨fun _ => by simp [applyWrites, upd], fun h => absurd hnil h⟩
  · have hv : FlowInv e w.log k i := hI.val _ _ hi
    refine ⟨fun h => ?_, fun _ => rfl⟩
    exfalso
    cases hdd : i.deferred with
    | nil => rw [hdd] at hd; cases hd
    | cons a l =>
      have := (hv.outstanding hn a.1).mp (by rw [hdd]; simp [Dict.keys])
      rw [h] at this
      simp at this

/-- While a transaction is outstanding, each further save hands storage the same credentials once more. -/
theorem C68_saved_again (hf : e.Fresh) (hn : e.NoLate) (hr : Reachable e w) (s1 s2 : HStep) {k : String} (q1 : s1.req = .save k) (q2 : s2.req = .save k)
    {r1 r2 : Resp} (h1 : (step e w s1).1 = .ok r1) (h2 : (step e (step e w s1).2 s2).1 = .ok r2) :
    ∃ cs : List Credential, cs.map (·.issued) = received k w.log ∧
      (step e (step e w s1).2 s2).2.log.map (·.events) =
        w.log.map (·.events) ++ [cs.map (fun c => ⟨.save c, some ()⟩), cs.map (fun c => ⟨.save c, some ()⟩)] := by
  have one : ∀ {w : HWorld} {s : HStep} {r : Resp}, Reachable e w → s.req = .save k → (step e w s).1 = .ok r →
      ∃ i, w.store k = some (.issuance i) ∧ ((serve s.provider s.req).run e (before w s)).2.recent = savesOf i.credentials ∧
        i.credentials.map (·.issued) = received k w.log := by
    intro w s r hr hq hok
    have hI : Inv e (before w s).log (before w s).store (before w s).drawn := by
      have := reachable_inv hf hr
      exact this
    rw [(step_eq e w s).1] at hok
    obtain ⟨⟨r', w2⟩, hrun⟩ : ∃ q, (serve s.provider s.req).run e (before w s) = q := ⟨_, rfl⟩
    rw [hrun] at hok ⊢
    simp only at hok ⊢
    subst hok
    rw [hq] at hrun
    obtain ⟨evs, ws, hE, _, h1⟩ := save_did (hI.noNote k) hrun
    rcases h1 with ⟨hf', _⟩ | ⟨i, hi, ⟨done, c, rest, hf', _⟩ | ⟨rfl, _⟩⟩
    · exact absurd rfl hf'.ne_ok
    · exact absurd rfl hf'.ne_ok
    · have hv : FlowInv e w.log k i := hI.val _ _ hi
      exact ⟨i, hi, by rw [hE.recent]; rfl, hv.received hn⟩
  obtain ⟨i, hi, he, hrc⟩ := one hr q1 h1
  obtain ⟨j, hj, he', _⟩ := one (hr.step s1) q2 h2
  have hij : j = i := by
    have := (C68_save_ends_flow hf hn hr s1 q1 h1)
    by_cases ho : outstanding k w.log = []
    · rw [this.1 ho] at hj; cases hj
    · rw [this.2 ho, hi] at hj; cases hj; rfl
  subst hij
  refine ⟨j.credentials, hrc, ?_⟩
  rw [step_log, step_log]
  simp only [List.map_append, List.map_cons, List.map_nil, List.append_assoc, List.cons_append, List.nil_append, he, he']
  rfl

/-- The flow a call is about. -/
def Req.flow : Req → Option String
  | .accept r => some r.issuanceId
  | .pin r => some r.issuanceId
  | .token id => some id
  | .authorize r => match r.initiator with
    | .issuer id => some id
    | .wallet .. => none
  | .credentials r => some r.issuanceId
  | .deferred r => some r.issuanceId
  | .save id => some id
  | .cancel id => some id
  | .authorizePresentation id => some id
  | .present id => some id
  | .offer _ => none
  | .request _ => none

theorem getRes_none {α : Type} (f : Fault) : Prog.getRes f (none : Option α) = none := by cases f <;> rfl

/-- A call about a flow that is not there does nothing. -/
theorem gone_run {P : Provider} {q : Req} {k : String} (hq : q.flow = some k) (hk : w.store k = none) :
    (serve P q).run e w = (.error .load, { w with ops := w.ops + 1 }) := by
  have gi : ∀ {α : Type} (f : Issuance → HProg α), (HProg.bind (getIssuance k) f).run e w = (.error .load, { w with ops := w.ops + 1 }) := by
    intro α f
    simp only [getIssuance, HProg.bind, run, hk, getRes_none]
  have gp : ∀ {α : Type} (f : Presentation → HProg α), (HProg.bind (getPresentation k) f).run e w = (.error .load, { w with ops := w.ops + 1 }) := by
    intro α f
    simp only [getPresentation, HProg.bind, run, hk, getRes_none]
  cases q with
  | offer r => cases hq
  | request u => cases hq
  | accept r => cases hq; exact gi _
  | pin r => cases hq; exact gi _
  | token id => cases hq; exact gi _
  | credentials r => cases hq; exact gi _
  | deferred r => cases hq; exact gi _
  | save id => cases hq; exact gi _
  | cancel id => cases hq; exact gi _
  | authorizePresentation id => cases hq; exact gp _
  | present id => cases hq; exact gp _
  | authorize r =>
    simp only [Req.flow] at hq
    cases hi : r.initiator with
    | wallet a b c d => rw [hi] at hq; cases hq
    | issuer id =>
      rw [hi] at hq; cases hq
      show (authorize P r).run e w = _
      unfold authorize startFlow
      rw [hi]
      simp only [getIssuance, Bind.bind, HProg.bind, run, hk, getRes_none]

/-- Every write goes to a flow that is there, or to one with a new identifier. -/
theorem step_gone (hf : e.Fresh) (hr : Reachable e w) (s : HStep) {n : Nat} (hn : n < w.drawn) (hk : w.store (e.rng n) = none) :
    (step e w s).2.store (e.rng n) = none ∧ n < (step e w s).2.drawn := by
  have hI : Inv e (before w s).log (before w s).store (before w s).drawn := by
    have := reachable_inv hf hr
    exact this
  have hdr : (step e w s).2.drawn = ((serve s.provider s.req).run e (before w s)).2.drawn := rfl
  rw [(step_eq e w s).2, hdr]
  obtain ⟨⟨r, w2⟩, hrun⟩ : ∃ q, (serve s.provider s.req).run e (before w s) = q := ⟨_, rfl⟩
  rw [hrun]
  simp only
  have hk' : (before w s).store (e.rng n) = none := hk
  have hb : (before w s).drawn = w.drawn := rfl
  -- a write to something stored
  have old : ∀ {x : Write} {b : Resp} {r : HRes Resp} {ws : List Write} {id : String} {v : HVal}, Ends e x b r ws →
      (before w s).store id = some v → x.1 = id → applyWrites (before w s).store ws (e.rng n) = none := by
    intro x b r ws id v hE hs hx
    have hne : e.rng n ≠ x.1 := by
      rw [hx]; intro h; rw [← h, hk'] at hs; cases hs
    cases hE with
    | lost => exact hk'
    | done => simp [applyWrites, upd, hne, hk']
    | late h => simp [applyWrites, upd, hne, hk']
  -- a write to something new
  have new : ∀ {x : Write} {b : Resp} {r : HRes Resp} {ws : List Write}, Ends e x b r ws →
      x.1 = e.rng w.drawn → applyWrites (before w s).store ws (e.rng n) = none := by
    intro x b r ws hE hx
    have hne : e.rng n ≠ x.1 := by
      rw [hx]; intro h; have := hf _ _ h; omega
    cases hE with
    | lost => exact hk'
    | done => simp [applyWrites, upd, hne, hk']
    | late h => simp [applyWrites, upd, hne, hk']
  generalize s.req = q at hrun
  cases q with
  | offer req =>
    obtain ⟨evs, ws, hE, h1⟩ := offer_did hrun
    rw [hE.store]
    refine ⟨?_, Nat.lt_of_lt_of_le hn hE.drawn⟩
    rcases h1 with ⟨_, rfl, _⟩ | ⟨md, sv, _, _, ⟨_, rfl⟩ | ⟨rfl, _⟩⟩
    · exact hk'
    · exact hk'
    · have hne : e.rng n ≠ e.rng (before w s).drawn := by intro h; have := hf _ _ h; rw [hb] at this; omega
      simp [applyWrites, upd, hne, hk']
  | accept req =>
    obtain ⟨ws, hE, _, h1⟩ := accept_did hrun
    rw [hE.store]
    refine ⟨?_, Nat.lt_of_lt_of_le hn hE.drawn⟩
    rcases h1 with ⟨_, rfl⟩ | ⟨i, acc, hi, _, _, _, hends⟩
    · exact hk'
    · exact old hends hi (hI.val _ _ hi : FlowInv e _ _ i).id
  | pin req =>
    obtain ⟨ws, hE, _, h1⟩ := pin_did hrun
    rw [hE.store]
    refine ⟨?_, Nat.lt_of_lt_of_le hn hE.drawn⟩
    rcases h1 with ⟨_, rfl⟩ | ⟨i, hi, _, hends⟩
    · exact hk'
    · exact old hends hi (hI.val _ _ hi : FlowInv e _ _ i).id
  | token id =>
    obtain ⟨evs, ws, hE, _, h1⟩ := token_did hrun
    rw [hE.store]
    refine ⟨?_, Nat.lt_of_lt_of_le hn hE.drawn⟩
    rcases h1 with ⟨_, _, rfl⟩ | ⟨i, p, hi, _, _, q, _, ⟨_, rfl, _⟩ | ⟨t, a, _, _, hends⟩⟩
    · exact hk'
    · exact hk'
    · exact old hends hi (hI.val _ _ hi : FlowInv e _ _ i).id
  | authorize req =>
    obtain ⟨evs, ws, hE, h1⟩ := authorize_did hrun
    rw [hE.store]
    refine ⟨?_, Nat.lt_of_lt_of_le hn hE.drawn⟩
    rcases h1 with ⟨_, rfl, _⟩ | ⟨i, p, m, hst, _, _, q, _, ⟨_, rfl, _⟩ | ⟨a, ⟨o, _, rfl, _⟩ | ⟨t, m', _, _, hends⟩⟩⟩
    · exact hk'
    · exact hk'
    · exact hk'
    · cases hst with
      | @stored id _ hr' hs ha => exact old hends hs (hI.val _ _ hs : FlowInv e _ _ i).id
      | new hr' hx => exact new hends rfl
  | credentials req =>
    obtain ⟨evs, ws, hE, h1⟩ := credentials_did hrun
    rw [hE.store]
    refine ⟨?_, Nat.lt_of_lt_of_le hn hE.drawn⟩
    rcases h1 with ⟨_, _, rfl⟩ | ⟨i, jwt, hi, _, _, _, _, ⟨_, rfl⟩ | ⟨j, hg, _, hends⟩⟩
    · exact hk'
    · exact hk'
    · obtain ⟨c, df, nn, x, hj, _⟩ := hg.same
      exact old hends hi (by rw [hj]; exact (hI.val _ _ hi : FlowInv e _ _ i).id)
  | deferred req =>
    obtain ⟨evs, ws, hE, h1⟩ := deferred_did hrun
    rw [hE.store]
    refine ⟨?_, Nat.lt_of_lt_of_le hn hE.drawn⟩
    rcases h1 with ⟨_, _, rfl⟩ | ⟨i, o, logos, hi, _, _, _, ⟨_, rfl⟩ | ⟨j, hg, _, hends⟩⟩
    · exact hk'
    · exact hk'
    · obtain ⟨c, df, nn, x, hj, _⟩ := hg.same
      exact old hends hi (by rw [hj]; exact (hI.val _ _ hi : FlowInv e _ _ i).id)
  | save id =>
    obtain ⟨evs, ws, hE, _, h1⟩ := save_did (hI.noNote id) hrun
    rw [hE.store]
    refine ⟨?_, Nat.lt_of_lt_of_le hn hE.drawn⟩
    rcases h1 with ⟨_, _, rfl⟩ | ⟨i, hi, ⟨done, c, rest, _, rfl, _⟩ | ⟨_, ⟨_, hends⟩ | ⟨_, rfl, _⟩⟩⟩
    · exact hk'
    · exact hk'
    · exact old hends hi rfl
    · exact hk'
  | cancel id =>
    obtain ⟨ws, hE, _, h1⟩ := cancel_did (hI.noNote id) hrun
    rw [hE.store]
    refine ⟨?_, Nat.lt_of_lt_of_le hn hE.drawn⟩
    rcases h1 with ⟨_, rfl⟩ | ⟨i, hi, hends⟩
    · exact hk'
    · exact old hends hi rfl
  | request url =>
    obtain ⟨evs, ws, hE, _, h1⟩ := request_did hrun
    rw [hE.store]
    refine ⟨?_, Nat.lt_of_lt_of_le hn hE.drawn⟩
    rcases h1 with ⟨_, rfl⟩ | ⟨q, p, f, cs, _, _, _, _, hends⟩
    · exact hk'
    · exact new hends rfl
  | authorizePresentation id =>
    obtain ⟨ws, hE, _, h1⟩ := authorizePresentation_did hrun
    rw [hE.store]
    refine ⟨?_, Nat.lt_of_lt_of_le hn hE.drawn⟩
    rcases h1 with ⟨_, rfl⟩ | ⟨p, hp, _, hends⟩
    · exact hk'
    · exact old hends hp (hI.val _ _ hp : PresInv _ _ p).id
  | present id =>
    obtain ⟨evs, hE, _⟩ := present_did hrun
    rw [hE.store]
    exact ⟨hk', Nat.lt_of_lt_of_le hn hE.drawn⟩

theorem exec_gone (hf : e.Fresh) (hr : Reachable e w) {n : Nat} (hn : n < w.drawn) (hk : w.store (e.rng n) = none) (steps : List HStep) :
    ∃ post, (exec e w steps).log = w.log ++ post ∧
      ∀ en ∈ post, en.req.flow = some (e.rng n) → en.result = .error .load ∧ en.events = [] := by
  induction steps generalizing w with
  | nil => exact ⟨[], by simp [exec], by simp⟩
  | cons s l ih =>
    obtain ⟨h1, h2⟩ := step_gone hf hr s hn hk
    obtain ⟨post, hp, hall⟩ := ih (hr.step s) h2 h1
    refine ⟨⟨s.provider, w.now + s.wait, s.req, ((serve s.provider s.req).run e (before w s)).1,
      ((serve s.provider s.req).run e (before w s)).2.recent⟩ :: post, ?_, ?_⟩
    · rw [exec, hp, step_log]; simp
    · intro en hen hfl
      rcases List.mem_cons.mp hen with rfl | hen
      · simp only at hfl
        have := gone_run (e := e) (w := before w s) (P := s.provider) hfl hk
        rw [this]
        exact ⟨rfl, rfl⟩
      · exact hall en hen hfl

/-- A flow that was cancelled, or saved with nothing outstanding, is over: every later call about it fails and reaches nobody. -/
theorem C77_ended_flows_stay_ended (hf : e.Fresh) (hn : e.NoLate) (hr : Reachable e w) (s : HStep) {k : String} {resp : Resp}
    (hq : s.req = .cancel k ∨ s.req = .save k ∧ outstanding k w.log = []) (hok : (step e w s).1 = .ok resp) (steps : List HStep) :
    ∃ post, (exec e (step e w s).2 steps).log = (step e w s).2.log ++ post ∧
      ∀ en ∈ post, en.req.flow = some k → en.result = .error .load ∧ en.events = [] := by
  have hI := reachable_inv hf hr
  have hst : (∃ v, w.store k = some v) ∧ (step e w s).2.store k = none := by
    rcases hq with hq | ⟨hq, ho⟩
    · rw [(step_eq e w s).1] at hok
      rw [(step_eq e w s).2]
      obtain ⟨⟨r, w2⟩, hrun⟩ : ∃ q, (serve s.provider s.req).run e (before w s) = q := ⟨_, rfl⟩
      rw [hrun] at hok ⊢
      simp only at hok ⊢
      subst hok
      rw [hq] at hrun
      obtain ⟨ws, hE, _, h1⟩ := cancel_did (w := before w s) (Inv.noNote (show Inv e (before w s).log (before w s).store (before w s).drawn from hI) k) hrun
      rcases h1 with ⟨hf', _⟩ | ⟨i, hi, hends⟩
      · exact absurd rfl hf'.ne_ok
      · refine ⟨⟨_, hi⟩, ?_⟩
        rw [hE.store]
        cases hends
        simp [applyWrites, upd]
    · refine ⟨?_, (C68_save_ends_flow hf hn hr s hq hok).1 ho⟩
      cases hk : w.store k with
      | some v => exact ⟨v, rfl⟩
      | none =>
        have := gone_run (e := e) (w := before w s) (P := s.provider) (q := s.req) (k := k) (by rw [hq]; rfl) hk
        rw [(step_eq e w s).1, this] at hok
        cases hok
  obtain ⟨⟨v, hv⟩, hnone⟩ := hst
  obtain ⟨n, hnd, rfl⟩ := hI.key k v hv
  refine exec_gone hf (hr.step s) ?_ hnone steps
  -- the counter does not go back
  have : w.drawn ≤ (step e w s).2.drawn := by
    exact run_drawn e (serve s.provider s.req) (before w s)
  omega

/-! ### C78 The token request of an authorization code flow -/

/-- The token request of an `authorize` call redeems the code received in the same call, for the same client and redirect address, with the verifier
of the challenge sent in the same call; and that verifier was drawn in this call. -/
theorem authorize_token (hf : e.Fresh) (hr : Reachable e w) {pre post : List Entry} {en : Entry} (h : w.log = pre ++ en :: post)
    {r : AuthorizeRequest} (hq : en.req = .authorize r) {tr : Issuer.TokenRequest} {o : Option Issuer.TokenResponse} (ht : ⟨.token tr, o⟩ ∈ en.events) :
    ∃ (q : Issuer.RequestObject) (a : Issuer.AuthorizationResponse) (v : String), ⟨.authorization q, some a⟩ ∈ en.events ∧ tr.grantType = .authorizationCode a.code r.redirectUri (some v) ∧
      q.redirectUri = r.redirectUri ∧ q.codeChallenge = en.provider.codeChallenge v ∧ tr.clientId = some q.clientId ∧
      tr.credentialIssuer = q.credentialIssuer ∧
      ∃ w0, Reachable e w0 ∧ w0.log = pre ∧ ∃ n, w0.drawn ≤ n ∧ v = e.rng n := by
  obtain ⟨w0, w2, hr0, hlog, hrun, hevs⟩ := log_split hr h
  rw [← hevs] at ht ⊢
  rw [hq] at hrun
  obtain ⟨evs, ws, hE, h1⟩ := authorize_did hrun
  have hrec : w2.recent = evs := by rw [hE.recent]; rfl
  rw [hrec] at ht ⊢
  have noPre : ∀ {l : List Event}, Preamble l → ⟨.token tr, o⟩ ∉ l := by
    intro l hl hm
    rcases hl _ hm with ⟨u, hu⟩ | ⟨u, hu⟩ <;> cases hu
  rcases h1 with ⟨_, _, hpre⟩ | ⟨i, p, n, hst, hpre, hd, q, hq', h1⟩
  · exact absurd ht (noPre hpre)
  have main : ∃ a, ⟨.authorization q, some a⟩ ∈ evs ∧ tr = codeTokenRequest (authorizing en.provider (e.rng n) i r) r a := by
    rcases h1 with ⟨_, _, rfl⟩ | ⟨a, ⟨o', _, _, rfl⟩ | ⟨t, m, rfl, _⟩⟩
    · rcases List.mem_append.mp ht with ht | ht
      · exact absurd ht (noPre hpre)
      · rw [List.mem_singleton] at ht; cases ht
    all_goals
      rcases List.mem_append.mp ht with ht | ht
      · exact absurd ht (noPre hpre)
      · simp only [List.mem_cons, List.not_mem_nil, or_false] at ht
        rcases ht with ht | ht
        · cases ht
        · cases ht
          exact ⟨a, by simp, rfl⟩
  obtain ⟨a, ha, rfl⟩ := main
  have hqf : q.redirectUri = r.redirectUri ∧ q.codeChallenge = en.provider.codeChallenge (e.rng n) ∧ q.clientId = i.clientId ∧
      q.credentialIssuer = i.issuer.credentialIssuer := by
    unfold authorizationRequest at hq'
    simp only [Bind.bind, Except.bind, authorizing, need] at hq'
    split at hq'
    · cases hq'
    split at hq'
    · cases hq'
    split at hq'
    · cases hq'
    split at hq'
    · cases hq'
    cases hq'
    exact ⟨rfl, rfl, rfl, rfl⟩
  obtain ⟨h1, h2, h3, h4⟩ := hqf
  refine ⟨q, a, e.rng n, ha, rfl, h1, h2, by rw [h3]; rfl, by rw [h4]; rfl, w0, hr0, hlog, n, ?_, rfl⟩
  cases hst with
  | stored => exact Nat.le_refl _
  | new => exact Nat.le_succ _

theorem C78_code_redeemed_with_its_verifier (hf : e.Fresh) (hr : Reachable e w) {en : Entry} (hen : en ∈ w.log)
    {r : AuthorizeRequest} (hq : en.req = .authorize r) {tr : Issuer.TokenRequest} {o : Option Issuer.TokenResponse} (ht : ⟨.token tr, o⟩ ∈ en.events) :
    ∃ (q : Issuer.RequestObject) (a : Issuer.AuthorizationResponse) (v : String), ⟨.authorization q, some a⟩ ∈ en.events ∧ tr.grantType = .authorizationCode a.code r.redirectUri (some v) ∧
      q.redirectUri = r.redirectUri ∧ q.codeChallenge = en.provider.codeChallenge v ∧ tr.clientId = some q.clientId ∧
      tr.credentialIssuer = q.credentialIssuer := by
  obtain ⟨pre, post, h⟩ := List.append_of_mem hen
  obtain ⟨q, a, v, h1, h2, h3, h4, h5, h6, _⟩ := authorize_token hf hr h hq ht
  exact ⟨q, a, v, h1, h2, h3, h4, h5, h6⟩

theorem verifier_drawn (hf : e.Fresh) (hr : Reachable e w) : ∀ en ∈ w.log, ∀ r, en.req = .authorize r →
    ∀ (tr : Issuer.TokenRequest) (o : Option Issuer.TokenResponse), ⟨.token tr, o⟩ ∈ en.events →
    ∀ c u v, tr.grantType = .authorizationCode c u (some v) → ∃ n, n < w.drawn ∧ v = e.rng n := by
  refine reachable_induct (P := fun w => ∀ en ∈ w.log, ∀ r, en.req = .authorize r →
    ∀ (tr : Issuer.TokenRequest) (o : Option Issuer.TokenResponse), ⟨.token tr, o⟩ ∈ en.events →
    ∀ c u v, tr.grantType = .authorizationCode c u (some v) → ∃ n, n < w.drawn ∧ v = e.rng n) ?_ ?_ hr
  · intro now en hen; simp [start] at hen
  · intro w s hw ih en hen r hq tr o ht c u v hg
    have hle : w.drawn ≤ (step e w s).2.drawn := run_drawn e (serve s.provider s.req) (before w s)
    have hl := step_log e w s
    rw [hl] at hen
    rcases List.mem_append.mp hen with hen | hen
    · obtain ⟨n, hn, hv⟩ := ih en hen r hq tr o ht c u v hg
      exact ⟨n, by omega, hv⟩
    · rw [List.mem_singleton] at hen
      have hev : en.events = ((serve s.provider s.req).run e (before w s)).2.recent := by rw [hen]
      have hrq : en.req = s.req := by rw [hen]
      obtain ⟨evs, ws, hE, h1⟩ := authorize_did (P := s.provider) (e := e) (w := before w s) (req := r)
        (r := ((authorize s.provider r).run e (before w s)).1) (w' := ((authorize s.provider r).run e (before w s)).2) rfl
      have hserve : (serve s.provider s.req) = authorize s.provider r := by rw [← hrq, hq]; rfl
      rw [hev, hserve, hE.recent] at ht
      have ht : ⟨.token tr, o⟩ ∈ evs := ht
      have hdr : (step e w s).2.drawn = ((authorize s.provider r).run e (before w s)).2.drawn := by
        rw [← hserve]; rfl
      have noPre : ∀ {l : List Event}, Preamble l → ⟨.token tr, o⟩ ∉ l := by
        intro l hl hm
        rcases hl _ hm with ⟨u, hu⟩ | ⟨u, hu⟩ <;> cases hu
      rcases h1 with ⟨_, _, hpre⟩ | ⟨i, p, n, hst, hpre, hd, q, hq', h1⟩
      · exact absurd ht (noPre hpre)
      have main : ∃ a, tr = codeTokenRequest (authorizing s.provider (e.rng n) i r) r a := by
        rcases h1 with ⟨_, _, rfl⟩ | ⟨a, ⟨o', _, _, rfl⟩ | ⟨t, m, rfl, _⟩⟩
        · rcases List.mem_append.mp ht with ht | ht
          · exact absurd ht (noPre hpre)
          · rw [List.mem_singleton] at ht; cases ht
        all_goals
          rcases List.mem_append.mp ht with ht | ht
          · exact absurd ht (noPre hpre)
          · simp only [List.mem_cons, List.not_mem_nil, or_false] at ht
            rcases ht with ht | ht
            · cases ht
            · cases ht
              exact ⟨a, rfl⟩
      obtain ⟨a, rfl⟩ := main
      cases hg
      exact ⟨n, by rw [hdr, hd]; exact Nat.lt_succ_self _, rfl⟩

/-- No two calls use the same verifier. -/
theorem C78_verifiers_distinct (hf : e.Fresh) (hr : Reachable e w) {pre mid post : List Entry} {e1 e2 : Entry}
    (h : w.log = pre ++ e1 :: mid ++ e2 :: post) {r1 r2 : AuthorizeRequest} (q1 : e1.req = .authorize r1) (q2 : e2.req = .authorize r2)
    {t1 t2 : Issuer.TokenRequest} {o1 o2 : Option Issuer.TokenResponse} (h1 : ⟨.token t1, o1⟩ ∈ e1.events) (h2 : ⟨.token t2, o2⟩ ∈ e2.events)
    {c1 c2 v1 v2 : String} {u1 u2 : Option String} (g1 : t1.grantType = .authorizationCode c1 u1 (some v1)) (g2 : t2.grantType = .authorizationCode c2 u2 (some v2)) :
    v1 ≠ v2 := by
  obtain ⟨q, a, v, _, hg, _, _, _, _, w0, hr0, hlog, m, hm, rfl⟩ := authorize_token hf hr h q2 h2
  rw [g2] at hg
  cases hg
  obtain ⟨n, hn, rfl⟩ := verifier_drawn hf hr0 e1 (by rw [hlog]; simp) r1 q1 t1 o1 h1 c1 u1 v1 g1
  intro heq
  have := hf _ _ heq
  omega

/-- What an authorization response says besides its code is not looked at: whatever its `state`, the code is redeemed at once. -/
theorem C79_state_not_checked (hf : e.Fresh) (hr : Reachable e w) {en : Entry} (hen : en ∈ w.log) {r : AuthorizeRequest} (hq : en.req = .authorize r)
    {q : Issuer.RequestObject} {a : Issuer.AuthorizationResponse} (ha : ⟨.authorization q, some a⟩ ∈ en.events) :
    ∃ tr o v, ⟨.token tr, o⟩ ∈ en.events ∧ tr.grantType = .authorizationCode a.code r.redirectUri v := by
  obtain ⟨pre, post, h⟩ := List.append_of_mem hen
  obtain ⟨w0, w2, hI, hlog, hrec, -, hrun, hevs⟩ := entry_run hf hr h
  rw [← hevs] at ha ⊢
  rw [hq] at hrun
  obtain ⟨evs, ws, hE, h1⟩ := authorize_did hrun
  rw [hE.recent, hrec, List.nil_append] at ha ⊢
  have noPre : ∀ {l : List Event}, Preamble l → ⟨.authorization q, some a⟩ ∉ l := by
    intro l hl hm
    rcases hl _ hm with ⟨u, hu⟩ | ⟨u, hu⟩ <;> cases hu
  rcases h1 with ⟨_, _, hpre⟩ | ⟨i, p, n, hst, hpre, hd, q', hq', h1⟩
  · exact absurd ha (noPre hpre)
  rcases h1 with ⟨_, _, rfl⟩ | ⟨b, ⟨o', _, _, rfl⟩ | ⟨t, m, rfl, _⟩⟩
  · rcases List.mem_append.mp ha with ha | ha
    · exact absurd ha (noPre hpre)
    · rw [List.mem_singleton] at ha; cases ha
  all_goals
    rcases List.mem_append.mp ha with ha | ha
    · exact absurd ha (noPre hpre)
    · simp only [List.mem_cons, List.not_mem_nil, or_false] at ha
      rcases ha with ha | ha
      · cases ha
        exact ⟨_, _, _, List.mem_append_right _ (List.mem_cons_of_mem _ (List.mem_singleton.mpr rfl)), rfl⟩
      · cases ha

/-! ### C80 Whom the wallet talks to -/

/-- Token requests of a flow go to whichever issuer the metadata names, even when it is not the one that made the offer. -/
theorem C80_token_goes_where_metadata_says (hf : e.Fresh) (hr : Reachable e w) {pre post : List Entry} {en : Entry} (h : w.log = pre ++ en :: post)
    {k : String} (hq : en.req = .token k) {tr : Issuer.TokenRequest} {o : Option Issuer.TokenResponse} (ht : ⟨.token tr, o⟩ ∈ en.events) :
    ∃ off md, InOrder [IsOffer k off md] pre ∧ tr.credentialIssuer = md.credentialIssuer := by
  obtain ⟨w0, w2, hI, hlog, hrec, -, hrun, hevs⟩ := entry_run hf hr h
  rw [← hevs] at ht
  rw [hq] at hrun
  obtain ⟨evs, ws, hE, _, h1⟩ := token_did hrun
  rw [hE.recent, hrec, List.nil_append] at ht
  rcases h1 with ⟨_, rfl, _⟩ | ⟨i, p, hi, hs, _, q, rfl, h1⟩
  · simp at ht
  · have hv : FlowInv e pre k i := hI.val _ _ hi
    have htr : tr.credentialIssuer = i.issuer.credentialIssuer := by
      rcases h1 with ⟨_, _, o, rfl⟩ | ⟨t, a, rfl, _⟩ <;> (rw [List.mem_singleton] at ht; cases ht; rfl)
    refine ⟨i.offer, i.issuer, ?_, htr⟩
    rcases accepted_prepared hv hs with ⟨_, _, a, x, b, hx, hp, _⟩ | ⟨_, p, _, a, x, b, hx, hp, _⟩
    · exact ⟨a, x, b, hx, hp, trivial⟩
    · exact ⟨a, x, b, hx, hp, trivial⟩

end Verif.Holder
