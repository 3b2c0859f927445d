import Verif.Issuer.SessionProps
import Verif.Issuer.OfferProps
/-!
# Properties of deferred issuance, notification, registration and expiry: C31–C34, C05
-/
namespace Verif.Issuer
open Prog

/-! ### Helpers -/

theorem World.wait_zero (w : World State) : World.wait w 0 = w := by
  cases w; simp [World.wait]

theorem credential_spent {e : Env} (he : Env.Fresh e) {c : String} {P : Provider} {req : CredentialRequest} {w : World State}
    (h : Spent e c w) : Spent e c ((credential P req).run e w).2 := by
  have := h.step he { provider := P, req := .credential req }
  rw [step_credential rfl] at this
  rwa [World.wait_zero] at this

/-- A deferred call that gets as far as removing the transaction: it is gone for good. -/
theorem deferred_spent {e : Env} (he : Env.Fresh e) {w : World State} (hw : Reachable e w) {s : Step} {req : DeferredRequest}
    (hreq : s.req = .deferred req) {st : State} {txn : String} {saved : CredentialRequest}
    (hst : w.store req.transactionId = some st) (hstage : st.stage = .deferred txn saved)
    (hlive : Live st (World.wait w s.wait).now) (hf1 : e.fault w.ops = .ok) (hf2 : e.fault (w.ops + 1) = .ok) :
    Spent e req.transactionId (step e w s).2 := by
  have hfz := hw.frozen he hst (by rintro ⟨t, ht⟩; rw [hstage] at ht; cases ht)
  rw [step_deferred hreq]
  generalize hW : World.wait w s.wait = W at hlive
  have hs : W.store = w.store := by rw [← hW]; rfl
  have hd : W.drawn = w.drawn := by rw [← hW]; rfl
  have ho : W.ops = w.ops := by rw [← hW]; rfl
  let W1 : World State := { W with store := upd W.store req.transactionId none, ops := W.ops + 2 }
  have hsp : Spent e req.transactionId W1 := by
    refine ⟨upd_same .., ?_, ?_⟩
    · intro k v t hk ht
      by_cases hkt : k = req.transactionId
      · subst hkt; simp only [W1, upd_same] at hk; cases hk
      · simp only [W1, upd_other _ _ hkt, hs] at hk
        exact hfz.notTok k v t hk ht
    · simpa only [W1, hd] using hfz.known
  have hsp2 := credential_spent he (P := s.provider)
    (req := { saved with credentialIssuer := req.credentialIssuer, accessToken := req.accessToken }) hsp
  have hrun : ((deferred s.provider req).run e W).2 = ((credential s.provider
      { saved with credentialIssuer := req.credentialIssuer, accessToken := req.accessToken }).run e W1).2 := by
    have hx : st.isExpired W.now = false := (isExpired_false_iff _ _).2 hlive
    have hd' : deferredRequest st = .ok saved := by unfold deferredRequest; rw [hstage]
    have hW1 : ({ store := upd w.store req.transactionId none, now := W.now, drawn := W.drawn, ops := w.ops + 1 + 1 } : World State)
        = W1 := by simp only [W1, hs, ho]
    simp only [deferred, Bind.bind, run_bind, getE, purgeE, nowE, lift, run, hs, hst, ho, hf1, hf2, getRes, writeRes, hx,
      require, hd', Bool.not_false, decide_true, ↓reduceIte, hW1]
    generalize (credential s.provider
      { saved with credentialIssuer := req.credentialIssuer, accessToken := req.accessToken }).run e W1 = x
    obtain ⟨r, w2⟩ := x
    cases r with
    | error er => rfl
    | ok resp =>
      simp only
      cases resp.response <;> rfl
  rw [hrun]
  exact hsp2

theorem deferred_pending_inv {P : Provider} {req : DeferredRequest} {e : Env} {w w' : World State} {n : Int}
    (h : (deferred P req).run e w = (.error (.issuancePending n), w')) :
    ∃ st txn saved, w.store req.transactionId = some st ∧ st.stage = .deferred txn saved ∧ Live st w.now ∧
      e.fault w.ops = .ok ∧ e.fault (w.ops + 1) = .ok := by
  have hd : ∀ st r, deferredRequest st = .ok r ↔ ∃ txn, st.stage = .deferred txn r := by
    intro st r; unfold deferredRequest; split <;> simp_all
  have hd' : ∀ st, deferredRequest st ≠ .error (.issuancePending n) := by
    intro st; unfold deferredRequest; split <;> simp
  simp only [deferred, run_bind_err, run_getE_err, run_getE_ok, run_nowE_err, run_nowE_ok, run_lift_err, run_lift_ok,
    run_purgeE_err, run_purgeE_ok, require_ok, require_err, Bool.not_eq_true', isExpired_false_iff, reduceCtorEq, false_and,
    and_false, false_or, hd, hd'] at h
  obtain ⟨st, _, ⟨h1, h2, rfl⟩, _, _, ⟨rfl, rfl⟩, _, _, ⟨h3, rfl⟩, saved, _, ⟨⟨txn, h4⟩, rfl⟩, _, _, ⟨h5, rfl⟩, _⟩ := h
  exact ⟨st, txn, saved, h2, h4, h3, h1, h5⟩

theorem spent_deferred_refused {e : Env} {w : World State} {s : Step} {req : DeferredRequest} (hreq : s.req = .deferred req)
    (h : Spent e req.transactionId w) : Refused (step e w s).1 := by
  intro a ha
  rw [step_deferred hreq] at ha
  obtain ⟨r, ha, _⟩ := map_ok.1 ha
  obtain ⟨st, _, _, _, _, h1, _⟩ := deferred_ok_iff.1 (pair_of_fst ha)
  have := h.gone
  rw [show (World.wait w s.wait).store = w.store from rfl, this] at h1
  cases h1

/-! ### C31 -/

/-- **C31**, authority. Say the credential endpoint answered `req` with a transaction id. After any history, if the deferred endpoint
answers that transaction id, the answer is a credential, and it is what the credential endpoint answers, at that moment, to `req` with
the caller's own issuer id and access token (once the transaction has been removed from the store). -/
theorem C31_deferred_is_original_request {e : Env} (he : Env.Fresh e) {w : World State} (hw : Reachable e w) {s : Step}
    {req : CredentialRequest} (hreq : s.req = .credential req) {resp : CredentialResponse} {txn : String}
    (hok : (step e w s).1 = .ok (.credential resp)) (htxn : resp.response = .transactionId txn) (between : List Step)
    {later : Step} {dreq : DeferredRequest} (hreq' : later.req = .deferred dreq) (hid : dreq.transactionId = txn)
    {r : CredentialResponse} (hok' : (step e (exec e (step e w s).2 between) later).1 = .ok (.deferred r)) :
    (∃ c, r.response = .credential c) ∧
    let W := World.wait (exec e (step e w s).2 between) later.wait
    ((credential later.provider
        { req with credentialIssuer := dreq.credentialIssuer, accessToken := dreq.accessToken }).run e
      { W with store := upd W.store txn none, ops := W.ops + 2 }).1 = .ok r := by
  have hstored : ∃ st, (step e w s).2.store txn = some st ∧ st.stage = .deferred txn req := by
    rw [step_credential hreq] at hok ⊢
    obtain ⟨r0, hok, hr0⟩ := map_ok.1 hok
    cases hr0
    obtain ⟨_, _, _, _, _, _, _, _, _, _, _, _, _, hx⟩ := credential_ok_iff.1 (pair_of_fst hok)
    rcases hx with ⟨_, _, rfl, hw'⟩ | ⟨_, _, _, _, _, rfl, _⟩
    · cases htxn
      rw [hw']
      exact ⟨_, upd_same .., rfl⟩
    · cases htxn
  obtain ⟨st, h1, h2⟩ := hstored
  have hfz := ((hw.step s).frozen he h1 (by rintro ⟨t, ht⟩; rw [h2] at ht; cases ht)).exec he between
  rw [step_deferred hreq'] at hok'
  obtain ⟨r0, hok', hr0⟩ := map_ok.1 hok'
  cases hr0
  obtain ⟨st', txn', saved, _, _, h3, _, h4, h5, h6⟩ := deferred_ok_iff.1 (pair_of_fst hok')
  subst hid
  have : st' = st := hfz.same st' h3
  subst this
  rw [h2] at h4
  cases h4
  exact ⟨h6, congrArg Prod.fst h5⟩

/-- **C31**, single use: once the deferred endpoint has found a live transaction (the store answering its first two operations), that
transaction id is refused in every later history, whatever the outcome of the call. -/
theorem C31_transaction_single_use {e : Env} (he : Env.Fresh e) {w : World State} (hw : Reachable e w) {s : Step}
    {req : DeferredRequest} (hreq : s.req = .deferred req) {st : State} {txn : String} {saved : CredentialRequest}
    (hst : w.store req.transactionId = some st) (hstage : st.stage = .deferred txn saved)
    (hlive : Live st (w.now + s.wait)) (hf1 : e.fault w.ops = .ok) (hf2 : e.fault (w.ops + 1) = .ok)
    (between : List Step) {later : Step} {req' : DeferredRequest} (hreq' : later.req = .deferred req')
    (hid : req'.transactionId = req.transactionId) :
    Refused (step e (exec e (step e w s).2 between) later).1 :=
  spent_deferred_refused hreq' (hid ▸ (deferred_spent he hw hreq hst hstage hlive hf1 hf2).exec he between)

/-- **C31**, single use: after a successful deferred call, with no assumption on faults. -/
theorem C31_answered_transaction_spent {e : Env} (he : Env.Fresh e) {w : World State} (hw : Reachable e w) {s : Step}
    {req : DeferredRequest} (hreq : s.req = .deferred req) {r : Resp} (hok : (step e w s).1 = .ok r)
    (between : List Step) {later : Step} {req' : DeferredRequest} (hreq' : later.req = .deferred req')
    (hid : req'.transactionId = req.transactionId) :
    Refused (step e (exec e (step e w s).2 between) later).1 := by
  have hok' := hok
  rw [step_deferred hreq] at hok'
  obtain ⟨r0, hok', _⟩ := map_ok.1 hok'
  obtain ⟨st, txn, saved, f1, f2, h1, h2, h3, _⟩ := deferred_ok_iff.1 (pair_of_fst hok')
  exact C31_transaction_single_use he hw hreq h1 h3 h2 f1 f2 between hreq' hid

/-- World with a deferred credential, transaction id `ttttt`. -/
def Demo.deferred : World State :=
  exec Demo.env Demo.validated
    [{ provider := Demo.provider (pending := true), req := .credential (Demo.credReq (Demo.rng 2) (Demo.rng 3)) }]

/-- Polling for it. -/
def Demo.pollReq : DeferredRequest := ⟨"http://vercre.io", Demo.rng 2, Demo.rng 4⟩

/-- The first call says to come back later, the credential is then ready and collected, and the id is gone. -/
example : ∃ r c st, Demo.deferred.store (Demo.rng 4) = some st ∧
    st.stage = .deferred (Demo.rng 4) (Demo.credReq (Demo.rng 2) (Demo.rng 3)) ∧
    (step Demo.env Demo.deferred { provider := Demo.provider, req := .deferred Demo.pollReq }).1 = .ok (.deferred r) ∧
    r.response = .credential c ∧ c.Says (some "did:web:holder") (Demo.data false).claims :=
  ⟨_, _, _, rfl, rfl, rfl, rfl, .vc _ _ _ _ _ rfl⟩

/-! ### C32 -/

/-- **C32 is false**, in every case: whenever the deferred endpoint answers `issuance_pending`, every later deferred call with the
transaction id the wallet holds is refused, in every history. -/
theorem C32_pending_never_pollable {e : Env} (he : Env.Fresh e) {w : World State} (hw : Reachable e w) {s : Step}
    {req : DeferredRequest} (hreq : s.req = .deferred req) {n : Int}
    (hpend : (step e w s).1 = .error (.issuancePending n)) (between : List Step) {later : Step} {req' : DeferredRequest}
    (hreq' : later.req = .deferred req') (hid : req'.transactionId = req.transactionId) :
    Refused (step e (exec e (step e w s).2 between) later).1 := by
  have hp := hpend
  rw [step_deferred hreq] at hp
  have hp' : ((deferred s.provider req).run e (World.wait w s.wait)).1 = .error (.issuancePending n) := by
    cases h : ((deferred s.provider req).run e (World.wait w s.wait)).1 with
    | ok a => rw [h] at hp; cases hp
    | error er => rw [h] at hp; cases hp; rfl
  obtain ⟨st, txn, saved, h1, h2, h3, h4, h5⟩ := deferred_pending_inv (pair_of_fst hp')
  exact C31_transaction_single_use he hw hreq h1 h2 h3 h4 h5 between hreq' hid

/-- It happens: the first poll is answered `issuance_pending` and the second one, with the credential ready, is refused. -/
example : (step Demo.env Demo.deferred { provider := Demo.provider (pending := true), req := .deferred Demo.pollReq }).1 =
      .error (.issuancePending 5) ∧
    (step Demo.env (step Demo.env Demo.deferred { provider := Demo.provider (pending := true), req := .deferred Demo.pollReq }).2
      { provider := Demo.provider, req := .deferred Demo.pollReq }).1 =
      .error (.invalidTransactionId "deferred state not found") := ⟨rfl, rfl⟩

/-! ### C33 -/

theorem noIssued_step {e : Env} {w : World State} (h : ∀ k v vc, w.store k = some v → v.stage ≠ .issued vc) (s : Step) :
    ∀ k v vc, (step e w s).2.store k = some v → v.stage ≠ .issued vc := by
  let R : String → State → Prop := fun _ v => ∀ vc, v.stage ≠ .issued vc
  have hg : Guar R (PutOk R) (fun _ => True) (call s.provider s.req) (fun _ => True) := by
    refine call_guar ?_ ?_ ?_ ?_ ?_ ?_ ?_ ?_ ?_
    · intro k; trivial
    · rintro k t subj items tx _ _ vc h; cases h
    · rintro k t subj items _ vc h; cases h
    · rintro k t subj items _ _ vc h; cases h
    · rintro r k t _ _ vc h; cases h
    · rintro r c s k n t items _ _ _ _ vc h; cases h
    · rintro c s t n x y _ _ _ vc h; cases h
    · rintro c s t n k x y _ _ _ _ vc h; cases h
    · rintro k t r _ vc h; cases h
  exact fun k v vc hv => (Guar.run (e := e) (w := World.wait w s.wait) hg (fun k v hv vc => h k v vc hv) (fun k v h => h)
    (fun _ _ _ => trivial)).1 k v hv vc

/-- **C33 is false**, in every case: after any history, every notification is refused, including one that carries the notification id
just returned with a credential. -/
theorem C33_notifications_always_refused {e : Env} {w : World State} (hw : Reachable e w) {s : Step} {req : NotificationRequest}
    (hreq : s.req = .notification req) : Refused (step e w s).1 := by
  have hno : ∀ k v vc, w.store k = some v → v.stage ≠ .issued vc := by
    refine Reachable.induct (I := fun w => ∀ k v vc, w.store k = some v → v.stage ≠ .issued vc) ?_
      (fun w s hw => noIssued_step hw s) hw
    intro t k v vc h; cases h
  intro a ha
  rw [step_notification hreq] at ha
  obtain ⟨r, ha, _⟩ := map_ok.1 ha
  have := pair_of_fst ha
  simp only [notification, run_bind_ok, run_getE_ok, run_lift_ok] at this
  obtain ⟨st, _, ⟨_, h2, rfl⟩, _, _, ⟨h3, rfl⟩, _⟩ := this
  unfold issuedState at h3
  split at h3
  · rename_i vc hvc
    exact hno _ st vc h2 hvc
  · cases h3

/-- A credential was issued with notification id `tttttt`; the notification that it was accepted is refused. -/
example : ∃ r, (step Demo.env Demo.validated
      { provider := Demo.provider, req := .credential (Demo.credReq (Demo.rng 2) (Demo.rng 3)) }).1 = .ok (.credential r) ∧
    r.notificationId = some (Demo.rng 5) ∧
    (step Demo.env (step Demo.env Demo.validated
      { provider := Demo.provider, req := .credential (Demo.credReq (Demo.rng 2) (Demo.rng 3)) }).2
      { provider := Demo.provider, req := .notification ⟨Demo.rng 5⟩ }).1 = .error (.serverError "issued state not found") :=
  ⟨_, rfl, rfl, rfl⟩

/-! ### C34 -/

/-- **C34**. Registration succeeds exactly when the store answers, the presented access token is the key of some stored state and the
metadata provider registers the client; it returns what the provider returned and leaves the store alone. -/
theorem C34_registration_needs_state {P : Provider} {req : RegistrationRequest} {e : Env} {w w' : World State} {c : Client} :
    (register P req).run e w = (.ok c, w') ↔
      e.fault w.ops = .ok ∧ (∃ s, w.store req.accessToken = some s) ∧ P.register req.client = some c ∧
      w' = { w with ops := w.ops + 1 } := by
  simp only [register, run_bind_ok, run_getE_ok, run_lift_ok, orErr_ok]
  constructor
  · rintro ⟨s, _, ⟨h1, h2, rfl⟩, h3, rfl⟩; exact ⟨h1, ⟨s, h2⟩, h3, rfl⟩
  · rintro ⟨h1, ⟨s, h2⟩, h3, rfl⟩; exact ⟨s, _, ⟨h1, h2, rfl⟩, h3, rfl⟩

example : Demo.isOk ((register Demo.provider ⟨Demo.rng 2, Demo.client⟩).run Demo.env Demo.validated).1 = true ∧
    Demo.isOk ((register Demo.provider ⟨Demo.rng 7, Demo.client⟩).run Demo.env Demo.validated).1 = false := by decide

/-! ### C05 -/

/-- The keys whose stored state a call uses, and which must therefore be live. -/
inductive Req.Uses (w : World State) : Req → String → Prop
  | credentialOffer (r : CredentialOfferRequest) : Uses w (.credentialOffer r) r.id
  | issuerState (r : RequestObject) (k : String) : r.issuerState = some k → Uses w (.authorize (.object r)) k
  | parIssuerState (r : RequestObject) (k : String) : r.issuerState = some k → Uses w (.par r) k
  | pushedIssuerState (u : String) (s : State) (r : RequestObject) (exp : Int) (k : String) : w.store u = some s →
      s.stage = .pushed r exp → r.issuerState = some k → Uses w (.authorize (.uri u)) k
  | token (r : TokenRequest) : Uses w (.token r) r.grantType.code
  | credential (r : CredentialRequest) : Uses w (.credential r) r.accessToken
  | deferred (r : DeferredRequest) : Uses w (.deferred r) r.transactionId
  | deferredSession (r : DeferredRequest) : Uses w (.deferred r) r.accessToken

/-- **C05**, expired state is refused: a call that uses state whose expiry lies one whole second or more in the past is refused, at
every endpoint. -/
theorem C05_expired_refused {e : Env} {w : World State} {s : Step} {k : String} {st : State} (huse : s.req.Uses w k)
    (hst : w.store k = some st) (hexp : st.expiresAt + 1000000000 ≤ w.now + s.wait) : Refused (step e w s).1 := by
  have hnl : ∀ st', (World.wait w s.wait).store k = some st' → ¬ Live st' (World.wait w s.wait).now := by
    intro st' h hl
    have : st' = st := by have := h.symm.trans hst; cases this; rfl
    subst this
    simp only [Live, World.wait, sec] at hl
    omega
  intro a ha
  obtain ⟨q, hreq⟩ : ∃ q, s.req = q := ⟨_, rfl⟩
  rw [hreq] at huse
  cases huse with
  | credentialOffer r =>
    rw [step_credentialOffer hreq] at ha
    obtain ⟨r0, ha, _⟩ := map_ok.1 ha
    obtain ⟨st', _, _, h1, h2, _⟩ := credentialOffer_ok_iff.1 (pair_of_fst ha)
    exact hnl st' h1 h2
  | issuerState r k hk =>
    rw [step_authorize hreq] at ha
    obtain ⟨r0, ha, _⟩ := map_ok.1 ha
    obtain ⟨r', _, _, _, _, _, _, hden, _, _, _, _, _, _, _, his, _⟩ := authorize_ok (pair_of_fst ha)
    cases hden
    obtain ⟨st', h1, h2, _⟩ := his k hk
    exact hnl st' h1 h2
  | parIssuerState r k hk =>
    rw [step_par hreq] at ha
    obtain ⟨r0, ha, _⟩ := map_ok.1 ha
    have := pair_of_fst ha
    simp only [par, run_bind_ok, run_lift_ok] at this
    obtain ⟨iss, _, ⟨_, rfl⟩, ⟨ds, ss⟩, w3, h3, _⟩ := this
    obtain ⟨_, _, _, _, _, _, _, _, _, _, _, _, his⟩ := Authorize.verify_ok h3
    obtain ⟨st', h1, h2, _⟩ := his k hk
    exact hnl st' h1 h2
  | pushedIssuerState u s' r exp k hu hp hk =>
    rw [step_authorize hreq] at ha
    obtain ⟨r0, ha, _⟩ := map_ok.1 ha
    obtain ⟨r', _, _, _, _, _, _, hden, _, _, _, _, _, _, _, his, _⟩ := authorize_ok (pair_of_fst ha)
    obtain ⟨s2, exp2, h1, h2, _⟩ := hden
    have : s2 = s' := by have := h1.symm.trans hu; cases this; rfl
    subst this
    rw [hp] at h2; cases h2
    obtain ⟨st', h1, h2, _⟩ := his k hk
    exact hnl st' h1 h2
  | token r =>
    rw [step_token hreq] at ha
    obtain ⟨r0, ha, _⟩ := map_ok.1 ha
    obtain ⟨st', _, _, _, _, h1, h2, _⟩ := token_ok_iff.1 (pair_of_fst ha)
    exact hnl st' h1 (Token.verify_ok.1 h2).1
  | credential r =>
    rw [step_credential hreq] at ha
    obtain ⟨r0, ha, _⟩ := map_ok.1 ha
    obtain ⟨st', t, h1, h2, _⟩ := C22_live_token_and_nonce (pair_of_fst ha)
    exact hnl st' h1.1 h2
  | deferred r =>
    rw [step_deferred hreq] at ha
    obtain ⟨r0, ha, _⟩ := map_ok.1 ha
    obtain ⟨st', _, _, _, _, h1, h2, _⟩ := deferred_ok_iff.1 (pair_of_fst ha)
    exact hnl st' h1 h2
  | deferredSession r =>
    rw [step_deferred hreq] at ha
    obtain ⟨r0, ha, _⟩ := map_ok.1 ha
    obtain ⟨st', t, h1, h2, _⟩ := C22_deferred_live_token_and_nonce (pair_of_fst ha)
    exact hnl st' h1.1 h2

/-- **C05**, live state is not refused for its age: a token or offer request that succeeds at one instant succeeds, all else equal, at
every other instant less than one second past the expiry of the state it uses. -/
theorem C05_live_accepted {e : Env} {w : World State} {s s' : Step} {k : String} {st : State} {resp : Resp}
    (hreq : (∃ r, s.req = .token r ∧ r.grantType.code = k) ∨ (∃ r, s.req = .credentialOffer r ∧ r.id = k))
    (hst : w.store k = some st) (hok : (step e w s).1 = .ok resp)
    (hs' : s'.req = s.req ∧ s'.provider = s.provider) (hlive : w.now + s'.wait < st.expiresAt + 1000000000) :
    (step e w s').1 = .ok resp := by
  rcases hreq with ⟨r, hr, rfl⟩ | ⟨r, hr, rfl⟩
  · rw [step_token hr] at hok
    rw [step_token (hs'.1.trans hr)]
    obtain ⟨r0, hok1, rfl⟩ := map_ok.1 hok
    obtain ⟨st', items, h1, h2, h3, h4, h5, h6, h7, h8⟩ := token_ok_iff.1 (pair_of_fst hok1)
    have : st' = st := by have := h4.symm.trans hst; cases this; rfl
    subst this
    rw [hs'.2]
    have := (token_ok_iff (P := s.provider) (req := r) (e := e) (w := World.wait w s'.wait) (resp := r0)).2
      ⟨st', items, h1, h2, h3, h4, Token.verify_ok.2 ⟨by simpa [World.wait, sec] using hlive, (Token.verify_ok.1 h5).2⟩, h6, h7, rfl⟩
    exact map_ok.2 ⟨_, congrArg Prod.fst this, rfl⟩
  · rw [step_credentialOffer hr] at hok
    rw [step_credentialOffer (hs'.1.trans hr)]
    obtain ⟨r0, hok1, rfl⟩ := map_ok.1 hok
    obtain ⟨st', h1, h2, h3, h4, h5, h6, h7⟩ := credentialOffer_ok_iff.1 (pair_of_fst hok1)
    have : st' = st := by have := h3.symm.trans hst; cases this; rfl
    subst this
    have := (credentialOffer_ok_iff (req := r) (e := e) (w := World.wait w s'.wait) (o := r0)).2
      ⟨st', h1, h2, h3, by simpa [Live, World.wait, sec] using hlive, h5, h6, rfl⟩
    exact map_ok.2 ⟨_, congrArg Prod.fst this, rfl⟩

/-- The demo offer, stored at time 0 for 300 s, is redeemable at 300.999999999 s and refused at 301 s. -/
example : Demo.isOk (step Demo.env Demo.offered
      { provider := Demo.provider, wait := 300999999999, req := .token (Demo.tokenReq (Demo.rng 0)) }).1 = true ∧
    Demo.isOk (step Demo.env Demo.offered
      { provider := Demo.provider, wait := 301000000000, req := .token (Demo.tokenReq (Demo.rng 0)) }).1 = false ∧
    (Demo.offered.store (Demo.rng 0)).map State.expiresAt = some 300000000000 := by decide

end Verif.Issuer
