import Verif.Issuer.CredentialProps
import Verif.Issuer.TokenProps
import Verif.Issuer.AuthorizeProps
/-!
# Properties of a session over time: C24, C25, C28, C29, C30
-/
namespace Verif.Issuer
open Prog

/-! ### Helpers -/

/-- All nonces in the store have been drawn. -/
def NoncesKnown (e : Env) (w : World State) : Prop :=
  ∀ k s t, w.store k = some s → s.stage = .validated t → KnownTok e w.drawn t.cNonce

theorem NoncesKnown.step {e : Env} {w : World State} (h : NoncesKnown e w) (s : Step) :
    NoncesKnown e (Issuer.step e w s).2 := by
  have hle := step_drawn_le e w s
  let b := (Issuer.step e w s).2.drawn
  let R : String → State → Prop := fun _ v => ∀ t, v.stage = .validated t → KnownTok e b t.cNonce
  have hD : ∀ x, Drawn e w.drawn b x → KnownTok e b x := fun x ⟨i, _, h, hx⟩ => ⟨i, h, hx⟩
  have hg : Guar R (PutOk R) (Drawn e w.drawn b) (call s.provider s.req) (fun _ => True) := by
    refine call_guar ?_ ?_ ?_ ?_ ?_ ?_ ?_ ?_ ?_
    · intro k; trivial
    · rintro k t subj items tx hd _; exact fun _ h => by cases h
    · rintro k t subj items hd; exact fun _ h => by cases h
    · rintro k t subj items hd _; exact fun _ h => by cases h
    · rintro r k t _ hd; exact fun _ h => by cases h
    · rintro r c s k n t items _ hd hn _; exact fun t h => by cases h; exact hD _ hn
    · rintro c s t n x y hr hs hn; exact fun t' h => by cases h; exact hD _ hn
    · rintro c s t n k x y hr hs hn hd; exact fun t' h => by cases h; exact hD _ hn
    · rintro k t r hd; exact fun _ h => by cases h
  have := (Guar.run (e := e) (w := World.wait w s.wait) hg
    (fun k v hv t ht => (h k v t hv ht).mono hle) (fun k v h => h) (fun n h1 h2 => ⟨n, h1, h2, rfl⟩)).1
  exact fun k s t hk ht => this k s hk t ht

theorem Reachable.nonces {e : Env} {w : World State} (h : Reachable e w) : NoncesKnown e w := by
  refine Reachable.induct (I := NoncesKnown e) ?_ (fun w s hw => hw.step s) h
  intro t k s t h
  cases h

/-- Nonce `old` is not the nonce of key `K`, and never will be. -/
structure Retired (e : Env) (K old : String) (w : World State) : Prop where
  other : ∀ s t, w.store K = some s → s.stage = .validated t → t.cNonce ≠ old
  known : KnownTok e w.drawn old

theorem Retired.step {e : Env} (he : Env.Fresh e) {K old : String} {w : World State} (h : Retired e K old w) (s : Step) :
    Retired e K old (Issuer.step e w s).2 := by
  let R : String → State → Prop := fun k v => k = K → ∀ t, v.stage = .validated t → t.cNonce ≠ old
  have hg : Guar R (PutOk R) (fun x => x ≠ old) (call s.provider s.req) (fun _ => True) := by
    refine call_guar ?_ ?_ ?_ ?_ ?_ ?_ ?_ ?_ ?_
    · intro k; trivial
    · rintro k t subj items tx hd _; exact fun _ _ h => by cases h
    · rintro k t subj items hd; exact fun _ _ h => by cases h
    · rintro k t subj items hd _; exact fun _ _ h => by cases h
    · rintro r k t _ hd; exact fun _ _ h => by cases h
    · rintro r c s k n t items _ hd hn _; exact fun _ t h => by cases h; exact hn
    · rintro c s t n x y hr hs hn; exact fun _ t' h => by cases h; exact hn
    · rintro c s t n k x y hr hs hn hd; exact fun _ t' h => by cases h; exact hn
    · rintro k t r hd; exact fun _ _ h => by cases h
  have := (Guar.run (e := e) (w := World.wait w s.wait) hg
    (fun k v hv hk t ht => h.other v t (hk ▸ hv) ht) (fun k v h => h) (fun n h1 _ => h.known.ne_fresh he h1)).1
  exact ⟨fun s t hs ht => this K s hs rfl t ht, h.known.mono (step_drawn_le e w s)⟩

theorem Retired.exec {e : Env} (he : Env.Fresh e) {K old : String} {w : World State} (h : Retired e K old w)
    (l : List Step) : Retired e K old (Issuer.exec e w l) :=
  exec_inv (I := Retired e K old) (fun _ s hw => hw.step he s) h l

/-! ### C24, C25 -/

/-- The outcomes of a credential or deferred call that hand a new nonce `n` to the client: an issued credential, and an
`invalid_proof` error. -/
inductive RenewsNonce : Res Resp → String → Prop
  | issued (resp : CredentialResponse) (c : IssuedCredential) (n : String) : resp.response = .credential c →
      resp.cNonce = some n → RenewsNonce (.ok (.credential resp)) n
  | rejected (hint n : String) (expires : Int) : RenewsNonce (.error (.invalidProof hint n expires)) n

/-- **C24**. Whenever the credential endpoint issues a credential or answers `invalid_proof`, it returns a nonce; from then on that is
the nonce stored for the access token of the session, and it differs from every earlier one. Issuance always returns a nonce. -/
theorem C24_nonce_rotates {e : Env} (he : Env.Fresh e) {w : World State} (hw : Reachable e w) {s : Step}
    {req : CredentialRequest} (hreq : s.req = .credential req) :
    (∀ resp c, (step e w s).1 = .ok (.credential resp) → resp.response = .credential c → ∃ n, resp.cNonce = some n) ∧
    ∀ n, RenewsNonce (step e w s).1 n →
      ∃ st t st' t', Session w req.accessToken st t ∧ Session (step e w s).2 t.accessToken st' t' ∧ t'.cNonce = n ∧
        ∀ k st0 t0, w.store k = some st0 → st0.stage = .validated t0 → t0.cNonce ≠ n := by
  rw [step_credential hreq]
  have hfresh : ∀ k st0 t0, w.store k = some st0 → st0.stage = .validated t0 → t0.cNonce ≠ e.rng w.drawn :=
    fun k st0 t0 h0 h1 => ((hw.nonces k st0 t0 h0 h1).ne_fresh he (Nat.le_refl _)).symm
  constructor
  · intro resp c h hc
    obtain ⟨r, h, hr⟩ := map_ok.1 h
    cases hr
    obtain ⟨_, _, _, _, _, _, _, _, _, _, _, _, _, hx⟩ := credential_ok_iff.1 (pair_of_fst h)
    rcases hx with ⟨_, _, rfl, _⟩ | ⟨_, _, _, _, _, rfl, _⟩
    · cases hc
    · exact ⟨_, rfl⟩
  · intro n h
    generalize hrun : (credential s.provider req).run e (World.wait w s.wait) = x at h
    obtain ⟨r, w1⟩ := x
    have htok : ∀ k st t, w.store k = some st → st.stage = .validated t → e.rng (w.drawn + 1) ≠ t.accessToken :=
      fun k st t h1 h2 => ((hw.sep he).tok k st t h1 h2).ne_fresh he (Nat.le_succ _)
    cases r with
    | ok resp =>
      cases h with
      | issued resp c n hc hn =>
        obtain ⟨st, ctx, t, _, _, _, h1, _, h2, _, _, _, _, hx⟩ := credential_ok_iff.1 hrun
        rcases hx with ⟨_, _, rfl, _⟩ | ⟨_, _, _, _, _, rfl, rfl⟩
        · cases hc
        · simp only [Credential.issuedResponse, Option.some.injEq] at hn
          refine ⟨st, t, _, _, ⟨h1, h2⟩, ⟨(upd_other _ _ (htok _ _ _ h1 h2).symm).trans (upd_same ..), rfl⟩, hn, ?_⟩
          subst hn
          exact hfresh
    | error er =>
      have : ∃ hint exp, er = .invalidProof hint n exp := by cases h; exact ⟨_, _, rfl⟩
      obtain ⟨hint, exp, rfl⟩ := this
      obtain ⟨st, ctx, t, _, h1, _, h2, _, _, _, h3, _, h4, _⟩ := credential_invalidProof hrun
      refine ⟨st, t, _, _, ⟨h1, h2⟩, ⟨(congrFun h4 _).trans (upd_same ..), rfl⟩, h3.symm, ?_⟩
      · subst h3; exact hfresh

/-- The request asks, under a live session of `w`, only for credentials whose configuration requires proofs. -/
def NeedsProof (P : Provider) (w : World State) (req : CredentialRequest) : Prop :=
  ∀ st t iss auth cfg, Session w req.accessToken st t → P.issuer req.credentialIssuer = some iss →
    t.Authorizes iss req.credential auth → iss.configs.get? auth.configId = some cfg → cfg.proofTypes.isSome

/-- A proof JWT made for nonce `old`, as the provider decodes it. -/
def ProofOver (P : Provider) (jwt old : String) : Prop := ∃ p, P.decodeProof jwt = some p ∧ p.nonce = some old

/-- **C24**, consequence: once a call has renewed the nonce of a session, a proof made for the previous nonce is refused under that
access token in every later history, for every configuration that requires proofs. -/
theorem C24_old_proof_refused {e : Env} (he : Env.Fresh e) {w : World State} (hw : Reachable e w) {s : Step}
    {req : CredentialRequest} (hreq : s.req = .credential req) {n : String} (hn : RenewsNonce (step e w s).1 n)
    {st : State} {t : Token} (hses : Session w req.accessToken st t)
    (between : List Step) {later : Step} {req' : CredentialRequest} (hreq' : later.req = .credential req')
    (htok : req'.accessToken = t.accessToken)
    {jwt : String} (hjwt : req'.HasProof jwt) (hold : ProofOver later.provider jwt t.cNonce)
    (hcfg : NeedsProof later.provider (exec e (step e w s).2 between) req') :
    Refused (step e (exec e (step e w s).2 between) later).1 := by
  obtain ⟨st0, t0, st', t', h0, h1, h2, h3⟩ := (C24_nonce_rotates he hw hreq).2 n hn
  have hs : st0 = st := by have := h0.1.symm.trans hses.1; cases this; rfl
  subst hs
  have ht : t0 = t := by have := h0.2.symm.trans hses.2; cases this; rfl
  subst ht
  have hret : Retired e t0.accessToken t0.cNonce (step e w s).2 := by
    refine ⟨?_, (hw.nonces _ _ _ hses.1 hses.2).mono (step_drawn_le e w s)⟩
    intro s2 t2 hs2 ht2
    have := h1.1.symm.trans hs2; cases this
    have : t' = t2 := by have := h1.2.symm.trans ht2; injection this
    rw [← this, h2]
    exact (h3 _ _ _ hses.1 hses.2).symm
  have hret := hret.exec he between
  intro a ha
  rw [step_credential hreq'] at ha
  obtain ⟨resp, ha, _⟩ := map_ok.1 ha
  obtain ⟨s2, t2, iss, auth, cfg, h5, h6, h7, h8, h9⟩ := C23_proofs_bound_to_nonce_partial (pair_of_fst ha)
  have hp := hcfg s2 t2 iss auth cfg h5 h6 h7 h8
  cases hpt : cfg.proofTypes with
  | none => rw [hpt] at hp; cases hp
  | some types =>
    obtain ⟨_, _, hall, _⟩ := h9 types hpt
    obtain ⟨did, p, kid, hd, _, hpn, _⟩ := hall jwt hjwt
    obtain ⟨p', hd', hpn'⟩ := hold
    rw [hd] at hd'; cases hd'
    rw [hpn] at hpn'
    have h10 : (exec e (step e w s).2 between).store t0.accessToken = some s2 := by rw [← htok]; exact h5.1
    exact hret.other s2 t2 h10 h5.2 (Option.some.inj hpn')

/-- A request with the wrong proof, then the hypotheses of C24: the nonce is renewed, and the old proof is now refused. -/
example : ∃ n, RenewsNonce (step Demo.env Demo.validated
      { provider := Demo.provider, req := .credential (Demo.credReq (Demo.rng 2) "bad") }).1 n ∧
    RenewsNonce (step Demo.env Demo.validated
      { provider := Demo.provider, req := .credential (Demo.credReq (Demo.rng 2) (Demo.rng 3)) }).1 n ∧
    ProofOver Demo.provider (Demo.rng 3) Demo.tok.cNonce ∧
    NeedsProof Demo.provider Demo.validated (Demo.credReq (Demo.rng 2) (Demo.rng 3)) := by
  refine ⟨_, .rejected _ _ _, .issued _ _ _ rfl rfl, ⟨_, rfl, rfl⟩, ?_⟩
  rintro st t iss auth cfg ⟨h1, h2⟩ h3 h4 h5
  change Demo.validated.store (Demo.rng 2) = _ at h1
  rw [Demo.session] at h1
  cases h1; cases h2; cases h3
  cases h4 with
  | identifier _ _ h =>
    simp only [Demo.tok, List.mem_singleton, Prod.mk.injEq, true_and] at h
    subst h
    cases h5; rfl

/-- **C25 is false**: the notification id returned with a credential works as an access token whose nonce is not renewed, so one and
the same proof of possession is accepted again and again. -/
theorem C25_proof_replayed :
    ∃ (e : Env) (w : World State) (s : Step) (req : CredentialRequest) (jwt : String) (r1 r2 : CredentialResponse)
      (c1 c2 : IssuedCredential) (types : List String), Env.Fresh e ∧ Reachable e w ∧ s.req = .credential req ∧ req.HasProof jwt ∧
      (step e w s).1 = .ok (.credential r1) ∧ r1.response = .credential c1 ∧
      (step e (step e w s).2 s).1 = .ok (.credential r2) ∧ r2.response = .credential c2 ∧
      Demo.employee.proofTypes = some types := by
  refine ⟨Demo.env,
    exec Demo.env Demo.validated [{ provider := Demo.provider, req := .credential (Demo.credReq (Demo.rng 2) (Demo.rng 3)) }],
    { provider := Demo.provider, req := .credential (Demo.credReq (Demo.rng 5) (Demo.rng 4)) }, _, _, _, _, _, _, _,
    Demo.env_fresh, ?_, rfl, .single _ rfl, rfl, rfl, rfl, rfl, rfl⟩
  exact ⟨0, _, by rw [Demo.validated, Demo.offered, ← exec_append, ← exec_append]⟩

/-- **C25**, the part that holds: a proof accepted in an issuance is never accepted again *under the access token of that session*,
for configurations that require proofs and as long as the provider decodes the proof in the same way. (The full claim would say this
for every access token value.) -/
theorem C25_no_replay_same_token_partial {e : Env} (he : Env.Fresh e) {w : World State} (hw : Reachable e w) {s : Step}
    {req : CredentialRequest} (hreq : s.req = .credential req) {resp : CredentialResponse} {c : IssuedCredential}
    (hok : (step e w s).1 = .ok (.credential resp)) (hc : resp.response = .credential c)
    {st : State} {t : Token} (hses : Session w req.accessToken st t)
    {jwt : String} (hjwt : req.HasProof jwt)
    (between : List Step) {later : Step} {req' : CredentialRequest} (hreq' : later.req = .credential req')
    (htok : req'.accessToken = t.accessToken) (hjwt' : req'.HasProof jwt)
    (hdec : later.provider.decodeProof jwt = s.provider.decodeProof jwt)
    (hcfg0 : NeedsProof s.provider w req)
    (hcfg : NeedsProof later.provider (exec e (step e w s).2 between) req') :
    Refused (step e (exec e (step e w s).2 between) later).1 := by
  obtain ⟨n, hn⟩ := (C24_nonce_rotates he hw hreq).1 resp c hok hc
  refine C24_old_proof_refused he hw hreq (n := n) (hok ▸ .issued resp c n hc hn) hses between hreq' htok hjwt' ?_ hcfg
  have hok' := hok
  rw [step_credential hreq] at hok'
  obtain ⟨r, hok', hr⟩ := map_ok.1 hok'
  obtain ⟨s2, t2, iss, auth, cfg, h5, h6, h7, h8, h9⟩ := C23_proofs_bound_to_nonce_partial (pair_of_fst hok')
  have : s2 = st := by have := h5.1.symm.trans hses.1; cases this; rfl
  subst this
  have : t2 = t := by have := h5.2.symm.trans hses.2; cases this; rfl
  subst this
  have hp := hcfg0 s2 t2 iss auth cfg h5 h6 h7 h8
  cases hpt : cfg.proofTypes with
  | none => rw [hpt] at hp; cases hp
  | some types =>
    obtain ⟨_, _, hall, _⟩ := h9 types hpt
    obtain ⟨did, p, kid, hd, _, hpn, _⟩ := hall jwt hjwt
    exact ⟨p, hdec.trans hd, hpn⟩

/-! ### C28 -/

/-- The state holds credential identifier `id` of configuration `cfg`: as an offer, an authorization or an access token. -/
def State.holds (s : State) (cfg id : String) : Prop :=
  s.grants cfg id ∨ ∃ t k a, s.stage = .validated t ∧ (k, a) ∈ t.credentials ∧ a.configId = cfg ∧ a.identifier = id

/-- Everything the state holds may be had by the state's own subject. -/
def State.Within (May : String → String → String → Prop) (s : State) : Prop :=
  ∀ cfg id, s.holds cfg id → ∃ subject, s.subjectId = some subject ∧ May subject cfg id

/-- A provider authorizes subjects only within `May`. -/
def Provider.Within (May : String → String → String → Prop) (P : Provider) : Prop :=
  ∀ subject cfg ids, P.authorize subject cfg = some ids → ∀ id ∈ ids, May subject cfg id

/-- One call writes only states within `May`, if what it reads is. -/
theorem call_within {May : String → String → String → Prop} {P : Provider} (hP : P.Within May) (req : Req) :
    Guar (fun _ v => v.Within May) (PutOk fun _ v => v.Within May) (fun _ => True) (call P req) (fun _ => True) := by
  refine call_guar ?_ ?_ ?_ ?_ ?_ ?_ ?_ ?_ ?_
  · intro k; trivial
  · rintro k t subj items tx _ hi cfg id (⟨it, hit, rfl, hid⟩ | ⟨_, _, _, h, _⟩)
    · simp only [State.grantItems] at hit
      cases items with
      | none => cases hit
      | some l =>
        obtain ⟨subj', rfl, hall⟩ := hi l rfl
        exact ⟨subj', rfl, hP _ _ _ (hall it hit).1 id hid⟩
    · cases h
  · rintro k t subj items _ cfg id (⟨it, hit, _⟩ | ⟨_, _, _, h, _⟩)
    · cases hit
    · cases h
  · rintro subj k t a _ hall cfg id (⟨it, hit, rfl, hid⟩ | ⟨_, _, _, h, _⟩)
    · exact ⟨subj, rfl, hP _ _ _ (hall it hit) id hid⟩
    · cases h
  · rintro r k t _ _ cfg id (⟨it, hit, _⟩ | ⟨_, _, _, h, _⟩)
    · cases hit
    · cases h
  · rintro r c st k n t items hr _ _ hi cfg id (⟨it, hit, _⟩ | ⟨_, k', a, h, hm, rfl, rfl⟩)
    · cases hit
    · cases h
      obtain ⟨it, hit, h2, h3⟩ := authorizedCredentials_mem hm
      simp only at h2 h3
      subst h3
      exact hr it.configId k' (.inl ⟨it, grantedItems_mem hi it hit, rfl, h2⟩)
  · rintro c st t n x y hr hs _ cfg id (⟨it, hit, _⟩ | ⟨_, k', a, h, hm, rfl, rfl⟩)
    · cases hit
    · cases h
      exact hr a.configId a.identifier (.inr ⟨t, k', a, hs, hm, rfl, rfl⟩)
  · rintro c st t n k x y hr hs _ _ cfg id (⟨it, hit, _⟩ | ⟨_, k', a, h, hm, rfl, rfl⟩)
    · cases hit
    · cases h
      exact hr a.configId a.identifier (.inr ⟨t, k', a, hs, hm, rfl, rfl⟩)
  · rintro k t r _ cfg id (⟨it, hit, _⟩ | ⟨_, _, _, h, _⟩)
    · cases hit
    · cases h

theorem Within.step {May : String → String → String → Prop} {e : Env} {w : World State}
    (h : ∀ k v, w.store k = some v → v.Within May) (s : Step) (hP : s.provider.Within May) :
    ∀ k v, (Issuer.step e w s).2.store k = some v → v.Within May :=
  (Guar.run (e := e) (w := World.wait w s.wait) (call_within hP s.req) h (fun k v h => h) (fun _ _ _ => trivial)).1

/-- **C28**. Let `May subject cfg id` be any relation that covers every answer of the Subject provider's `authorize` given in a history.
After that history, every offer, authorization and access token holds only credential identifiers that its own subject may have. -/
theorem C28_subject_consistent {May : String → String → String → Prop} (e : Env) (t0 : Int) (h : List Step)
    (hP : ∀ s ∈ h, s.provider.Within May) {k : String} {v : State} (hv : (exec e (start t0) h).store k = some v) :
    v.Within May := by
  have : ∀ (h : List Step) (w : World State), (∀ s ∈ h, s.provider.Within May) →
      (∀ k v, w.store k = some v → v.Within May) → ∀ k v, (exec e w h).store k = some v → v.Within May := by
    intro h
    induction h with
    | nil => intro w _ hw; exact hw
    | cons s h ih =>
      intro w hP hw
      exact ih _ (fun s hs => hP s (.tail _ hs)) (Within.step hw s (hP s (.head _)))
  exact this h _ hP (fun k v h => by cases h) k v hv

/-- **C28**, consequence: after any history, a credential is issued only with claims of the dataset of a subject and credential
identifier that the Subject provider authorized together at some point of the history. -/
theorem C28_issued_within {May : String → String → String → Prop} (e : Env) (t0 : Int) (h : List Step)
    (hP : ∀ s ∈ h, s.provider.Within May) {s : Step} {req : CredentialRequest} (hreq : s.req = .credential req)
    {resp : CredentialResponse} (hok : (step e (exec e (start t0) h) s).1 = .ok (.credential resp)) {c : IssuedCredential}
    (hc : resp.response = .credential c) :
    ∃ subject cfg id ds, May subject cfg id ∧ s.provider.dataset subject id = some ds ∧
      ∀ did claims, c.Says did claims → ∀ x ∈ claims, x ∈ ds.claims := by
  rw [step_credential hreq] at hok
  obtain ⟨r, hok, hr⟩ := map_ok.1 hok
  cases hr
  obtain ⟨st, t, iss, auth, subject, ds, h1, h2, h3, h4, h5, _, _, h6⟩ :=
    C26_claims_from_authorized_dataset (pair_of_fst hok) hc
  have hmem : ∃ k, (k, auth) ∈ t.credentials := by generalize req.credential = x at h3; cases h3 <;> exact ⟨_, by assumption⟩
  obtain ⟨k, hk⟩ := hmem
  obtain ⟨subject', h7, h8⟩ := C28_subject_consistent e t0 h hP h1.1 auth.configId auth.identifier
    (.inr ⟨t, k, auth, h1.2, hk, rfl, rfl⟩)
  rw [h4] at h7; cases h7
  exact ⟨subject, _, _, ds, h8, h5, fun did claims hs x hx => ((h6 did claims hs x.1 x.2).1 hx).1⟩

/-- The demo provider authorizes only subject `normal`; the demo session holds a credential. -/
example : Demo.provider.Within (fun subject _ _ => subject = "normal") ∧
    State.holds ⟨some "normal", .validated Demo.tok, authorizedDur⟩ "Employee" "emp-1" := by
  refine ⟨?_, .inr ⟨_, _, _, rfl, List.mem_singleton.2 rfl, rfl, rfl⟩⟩
  intro subject cfg ids h id _
  simp only [Demo.provider] at h
  split at h
  · assumption
  · cases h

/-! ### C29 -/

theorem Credential.w3cVc_ok_iff {P : Provider} {ctx : Credential.Ctx} {did : String} {d : CredentialDefinition}
    {ds : Dataset} : (∃ vc, Credential.w3cVc P ctx did d ds = .ok vc) ↔
      ∃ types ty subj status, d.type_ = some types ∧ types[1]? = some ty ∧ ctx.state.subjectId = some subj ∧
        P.status subj "credential_identifier" = some status ∧ ctx.issuer.credentialIssuer ≠ "" := by
  simp only [Credential.w3cVc, Except.bind_ok, orErr_ok]
  constructor
  · rintro ⟨vc, types, ht, ty, hty, subj, hs, status, hst, h⟩
    refine ⟨types, ty, subj, status, ht, hty, hs, hst, ?_⟩
    intro hi
    simp [hi, Vc.build, Vc.builder, Vc.addContext, Vc.setId, Vc.addType, Vc.addName, Vc.addDescription, Vc.setIssuer,
      Vc.addSubject, Vc.setStatus, CredentialSubject.isDefault, Quota.add, Quota.len] at h
  · rintro ⟨types, ty, subj, status, ht, hty, hs, hst, hi⟩
    simp [ht, hty, hs, hst, hi, Vc.build, Vc.builder, Vc.addContext, Vc.setId, Vc.addType, Vc.addName, Vc.addDescription,
      Vc.setIssuer, Vc.addSubject, Vc.setStatus, CredentialSubject.isDefault, Quota.add, Quota.len]

theorem Credential.signed_indep {P : Provider} {ctx ctx' : Credential.Ctx} {did did' : String} {req req' : CredentialRequest}
    {ds : Dataset} {now now' : Int} {c : IssuedCredential} (hsign : ∀ k c, P.signOk k c = true)
    (h1 : ctx'.state.subjectId = ctx.state.subjectId) (h2 : ctx'.issuer = ctx.issuer) (h3 : ctx'.config = ctx.config)
    (h4 : req'.credentialIssuer = req.credentialIssuer)
    (h : Credential.signed P ctx did req ds now = .ok c) : ∃ c', Credential.signed P ctx' did' req' ds now' = .ok c' := by
  simp only [Credential.signed, Except.bind_ok, orErr_ok] at h ⊢
  obtain ⟨k, hk, h⟩ := h
  rw [h4, h3]
  split at h
  · rename_i d hf
    simp only [Except.bind_ok, require_ok, pure, Except.pure, Except.ok.injEq] at h
    obtain ⟨vc, hvc, _⟩ := h
    have := (Credential.w3cVc_ok_iff (ctx := ctx') (did := did') (ds := ds)).2 (by
      rw [h1, h2]; exact Credential.w3cVc_ok_iff.1 ⟨vc, hvc⟩)
    obtain ⟨vc', hvc'⟩ := this
    refine ⟨.jwtVc k vc' (now'.fdiv sec), k, hk, ?_⟩
    simp only [hvc', require, hsign, Bind.bind, Except.bind, pure, Except.pure, ↓reduceIte]
  · rename_i a b hf
    refine ⟨.mdoc k ds.claims, k, hk, ?_⟩
    simp only [require, hsign, Bind.bind, Except.bind, pure, Except.pure, ↓reduceIte]
  · cases h
  · cases h
  · cases h

/-- **C29**. Suppose a credential request is answered `invalid_proof` with nonce `n`, and that the same request with some other proof
`ok` would have been answered in its place. Then, any time before the returned nonce expires, the same request with a valid proof over
`n` (by any holder) is answered. Assumes what the issuer relies on: the store works, signing does not fail, and the access token is
that of the session (not a notification id, see C25). -/
theorem C29_invalid_proof_recoverable {P : Provider} {req : CredentialRequest} {e : Env} {w w1 : World State}
    {hint n : String} {exp : Int} (hsign : ∀ k c, P.signOk k c = true) (hstore : ∀ i, e.fault i = .ok)
    (hown : ∀ s t, Session w req.accessToken s t → t.accessToken = req.accessToken)
    (hrej : (credential P req).run e w = (.error (.invalidProof hint n exp), w1))
    {ok : String} {resp0 : CredentialResponse} {w0 : World State}
    (hwould : (credential P { req with proof := some (.single ok) }).run e w = (.ok resp0, w0))
    {wait : Nat} (hwait : (wait : Int) < exp * sec) {jwt did : String} (hjwt : ValidProof P n jwt did) :
    ∃ resp w2, (credential P { req with proof := some (.single jwt) }).run e (World.wait w1 wait) = (.ok resp, w2) := by
  obtain ⟨s, ctx, t, _, h1, h2, h3, h4, h5, h6, h7, h8, h9, h10, h11, h12⟩ := credential_invalidProof hrej
  obtain ⟨s', ctx', t', did', ds, _, k1, k2, k3, _, _, k4, k5, k6⟩ := credential_ok_iff.1 hwould
  have : s' = s := by have := k1.symm.trans h1; cases this; rfl
  subst this
  have : t' = t := by have := k3.symm.trans h3; cases this; rfl
  subst this
  have hacc := hown s' t' ⟨h1, h3⟩
  obtain ⟨c0, c1, c2, c3⟩ := Credential.context_ok.1 k2
  let sn := renewed s' t' (e.rng w.drawn) (w.now + accessDur) (w.now + nonceDur)
  let tn : Token := { t' with cNonce := e.rng w.drawn, cNonceExpiresAt := w.now + nonceDur }
  let ctxn : Credential.Ctx := { ctx' with state := sn }
  let reqn : CredentialRequest := { req with proof := some (.single jwt) }
  have hctx : Credential.context P sn reqn = .ok ctxn := by
    refine Credential.context_ok.2 ⟨rfl, c1, ?_, c3⟩
    have : Credential.authorized P ctx'.issuer sn reqn = Credential.authorized P ctx'.issuer s' { req with proof := some (.single ok) } := by
      unfold Credential.authorized
      rw [k3]
      rfl
    rw [this]; exact c2
  have hsn : sn.stage = .validated tn := rfl
  have hst : (World.wait w1 wait).store reqn.accessToken = some sn := by
    show w1.store req.accessToken = _
    rw [h9, ← hacc, upd_same]
  have hnow : (World.wait w1 wait).now = w.now + wait := by simp [World.wait, h10]
  have hexp : exp * sec = 600 * sec := by rw [h8]; decide
  have hlive : Live sn (World.wait w1 wait).now := by
    rw [hnow]; simp only [Live, sn, renewed, accessDur, sec] at *; omega
  have hnl : (World.wait w1 wait).now < tn.cNonceExpiresAt + sec := by
    rw [hnow]; simp only [tn, nonceDur, sec] at *; omega
  subst h7
  have hpc : ∃ d, ProofChecked P ctxn.config tn reqn d := by
    unfold ProofChecked at k4 ⊢
    show ∃ d, match ctx'.config.proofTypes with | none => _ | some types => _
    cases hpt : ctx'.config.proofTypes with
    | none => exact ⟨"", rfl⟩
    | some types =>
      rw [hpt] at k4
      refine ⟨did, k4.1, .single jwt, rfl, ?_⟩
      refine Credential.checkProofs_ok.2 ⟨?_, ?_⟩
      · intro j hj
        simp only [Credential.proofJwts, List.mem_singleton] at hj
        subst hj
        exact ⟨did, hjwt⟩
      · exact hjwt
  obtain ⟨d, hpc⟩ := hpc
  have hds : Credential.dataset P ctxn reqn = .ok ds := by
    have : Credential.dataset P ctxn reqn = Credential.dataset P ctx' { req with proof := some (.single ok) } := by
      unfold Credential.dataset
      rw [c0]
      rfl
    rw [this]; exact k5
  by_cases hp : ds.pending = true
  · exact ⟨_, _, credential_ok_iff.2 ⟨sn, ctxn, tn, d, ds, hstore _, hst, hctx, hsn, hlive, hnl, hpc, hds,
      .inl ⟨hp, hstore _, rfl, rfl⟩⟩⟩
  · rcases k6 with ⟨hp', _⟩ | ⟨_, c, hc, _⟩
    · exact absurd hp' hp
    · obtain ⟨c', hc'⟩ := Credential.signed_indep (ctx := ctx') (ctx' := ctxn) (did' := d) (req := { req with proof := some (.single ok) })
        (req' := reqn) (now' := (World.wait w1 wait).now) hsign (by rw [c0]; rfl) rfl rfl rfl hc
      exact ⟨_, _, credential_ok_iff.2 ⟨sn, ctxn, tn, d, ds, hstore _, hst, hctx, hsn, hlive, hnl, hpc, hds,
        .inr ⟨by simpa using hp, c', hc', hstore _, hstore _, rfl, rfl⟩⟩⟩

/-- The hypotheses of C29 in the demo: a bad proof is rejected with nonce `ttttt`, the proof over the old nonce would have been
accepted, and a proof over the returned nonce is a valid one. -/
example : (∃ hint exp, ((credential Demo.provider (Demo.credReq (Demo.rng 2) "bad")).run Demo.env Demo.validated).1 =
      .error (.invalidProof hint (Demo.rng 4) exp)) ∧
    Demo.isOk ((credential Demo.provider (Demo.credReq (Demo.rng 2) (Demo.rng 3))).run Demo.env Demo.validated).1 = true ∧
    (∀ s t, Session Demo.validated (Demo.rng 2) s t → t.accessToken = Demo.rng 2) ∧
    ValidProof Demo.provider (Demo.rng 4) (Demo.rng 4) "did:web:holder" := by
  refine ⟨⟨_, _, rfl⟩, by decide, ?_, ⟨_, _, rfl, rfl, rfl, rfl, by decide⟩⟩
  rintro s t ⟨h1, h2⟩
  rw [Demo.session] at h1
  cases h1; cases h2; rfl

/-! ### C30 -/

/-- The keys a request names, given the store: a code, an offer id, a transaction id, a notification id, the `issuer_state` of the
authorization request it stands for, and the access token of the session that the presented token belongs to. -/
inductive Req.Names (w : World State) : Req → String → Prop
  | credentialOffer (r : CredentialOfferRequest) : Names w (.credentialOffer r) r.id
  | authorize (r : AuthorizationRequest) (obj : RequestObject) (k : String) : r.Denotes (fun k v => w.store k = some v) obj →
      obj.issuerState = some k →
      Names w (.authorize r) k
  | token (r : TokenRequest) : Names w (.token r) r.grantType.code
  | credential (r : CredentialRequest) (s : State) (t : Token) : Session w r.accessToken s t →
      Names w (.credential r) t.accessToken
  | deferred (r : DeferredRequest) : Names w (.deferred r) r.transactionId
  | deferredSession (r : DeferredRequest) (s : State) (t : Token) : Session w r.accessToken s t →
      Names w (.deferred r) t.accessToken
  | notification (r : NotificationRequest) : Names w (.notification r) r.notificationId

/-- A key generated by a call that made the number of drawn tokens grow from `a` to `b`. -/
def FreshKey (e : Env) (a b : Nat) (k : String) : Prop := ∃ i, a ≤ i ∧ i < b ∧ (k = e.rng i ∨ k = urn ++ e.rng i)

/-- **C30**. Whatever the endpoint, request, store, faults and outcome: every key whose entry is different after the call is named by
the request or freshly generated by the call. -/
theorem C30_only_own_session (e : Env) (w : World State) (s : Step) (k : String)
    (hk : (step e w s).2.store k ≠ w.store k) : s.req.Names w k ∨ FreshKey e w.drawn (step e w s).2.drawn k := by
  let Own : String → Prop := fun k => s.req.Names w k ∨ FreshKey e w.drawn (step e w s).2.drawn k
  suffices hg : ∃ R : String → State → Prop, ∃ G : String → Option State → Prop,
      (∀ k v, w.store k = some v → R k v) ∧ (∀ k v, G k (some v) → R k v) ∧ (∀ k v, G k v → Own k) ∧
      Guar R G (Drawn e w.drawn (step e w s).2.drawn) (call s.provider s.req) (fun _ => True) by
    obtain ⟨R, G, h1, h2, h3, h4⟩ := hg
    have := (Guar.run (e := e) (w := World.wait w s.wait) h4 h1 h2 (fun n h1 h2 => ⟨n, h1, h2, rfl⟩)).2.1 k
    by_cases hown : Own k
    · exact hown
    · exact absurd (this fun v hv => hown (h3 k v hv)) hk
  have fresh : ∀ k, Drawn e w.drawn (step e w s).2.drawn k → Own k :=
    fun k ⟨i, h1, h2, h3⟩ => .inr ⟨i, h1, h2, .inl h3⟩
  have freshUrn : ∀ k, Drawn e w.drawn (step e w s).2.drawn k → Own (urn ++ k) :=
    fun k ⟨i, h1, h2, h3⟩ => .inr ⟨i, h1, h2, .inr (by rw [h3])⟩
  have plain : ∀ G : String → Option State → Prop, (∀ k v, G k v → Own k) →
      Guar (fun _ _ => True) G (Drawn e w.drawn (step e w s).2.drawn) (call s.provider s.req) (fun _ => True) →
      ∃ R : String → State → Prop, ∃ G : String → Option State → Prop,
      (∀ k v, w.store k = some v → R k v) ∧ (∀ k v, G k (some v) → R k v) ∧ (∀ k v, G k v → Own k) ∧
      Guar R G (Drawn e w.drawn (step e w s).2.drawn) (call s.provider s.req) (fun _ => True) :=
    fun G h1 h2 => ⟨_, G, fun _ _ _ => trivial, fun _ _ _ => trivial, h1, h2⟩
  have session : ∀ tok : String, (∀ st t, Session w tok st t → Own t.accessToken) →
      (∀ R : String → State → Prop, R = (fun k v => k = tok → ∀ t, v.stage = .validated t → Own t.accessToken) →
        Guar R (fun k v => Own k ∧ ∀ x, v = some x → R k x) (Drawn e w.drawn (step e w s).2.drawn) (call s.provider s.req)
          (fun _ => True)) →
      ∃ R : String → State → Prop, ∃ G : String → Option State → Prop,
      (∀ k v, w.store k = some v → R k v) ∧ (∀ k v, G k (some v) → R k v) ∧ (∀ k v, G k v → Own k) ∧
      Guar R G (Drawn e w.drawn (step e w s).2.drawn) (call s.provider s.req) (fun _ => True) := by
    intro tok h1 h2
    refine ⟨_, _, ?_, fun k v h => h.2 v rfl, fun k v h => h.1, h2 _ rfl⟩
    intro k v hv hk t ht
    subst hk
    exact h1 v t ⟨hv, ht⟩
  obtain ⟨q, hreq⟩ : ∃ q, s.req = q := ⟨_, rfl⟩
  cases q with
  | createOffer r =>
    refine plain (fun k _ => Own k) (fun _ _ h => h) ?_
    rw [hreq]
    exact Guar.bind (createOffer_guar (fun k _ _ _ hk _ => fresh k hk) (fun k _ _ hk => fresh k hk)) fun _ _ => Guar.pure trivial
  | credentialOffer r =>
    refine plain (fun k _ => Own k) (fun _ _ h => h) ?_
    rw [hreq]
    exact Guar.bind (credentialOffer_guar (.inl (hreq ▸ .credentialOffer r))) fun _ _ => Guar.pure trivial
  | par r =>
    refine plain (fun k _ => Own k) (fun _ _ h => h) ?_
    rw [hreq]
    exact Guar.bind (par_guar fun k t _ hk => freshUrn k hk) fun _ _ => Guar.pure trivial
  | authorize r =>
    refine ⟨fun k v => (∃ r exp, v.stage = .pushed r exp) → w.store k = some v,
      fun k v => Own k ∧ ∀ x, v = some x → ¬ ∃ r exp, x.stage = .pushed r exp, fun k v h _ => h,
      fun k v h h' => absurd h' (h.2 v rfl), fun k v h => h.1, ?_⟩
    rw [hreq]
    refine Guar.bind (authorize_guar ?_ ?_) fun _ _ => Guar.pure trivial
    · intro r' k t a _ hk _ _ _ _
      refine ⟨fresh k hk, ?_⟩
      rintro x hx ⟨_, _, hp⟩
      cases hx; cases hp
    · intro r' k hd hi
      refine ⟨.inl ?_, fun x hx => by cases hx⟩
      rw [hreq]
      refine .authorize r r' k ?_ hi
      cases r with
      | object o => exact hd
      | uri u =>
        obtain ⟨st, exp, h1, h2⟩ := hd
        exact ⟨st, exp, h1 ⟨_, _, h2⟩, h2⟩
  | token r =>
    refine plain (fun k _ => Own k) (fun _ _ h => h) ?_
    rw [hreq]
    exact Guar.bind (token_guar (.inl (hreq ▸ .token r)) (fun s k n _ t' items hs hk hn _ hi => fresh k hk))
      fun _ _ => Guar.pure trivial
  | credential r =>
    refine session r.accessToken (fun st t h => .inl (hreq ▸ .credential r st t h)) ?_
    rintro R rfl
    rw [hreq]
    refine Guar.bind (credential_guar ?_ ?_ ?_) fun _ _ => Guar.pure trivial
    · intro st t n x y hr ht hn
      exact ⟨hr rfl t ht, fun v hv hk t' ht' => by cases hv; cases ht'; exact hr rfl t ht⟩
    · intro st t n k x y hr ht hn hk
      exact ⟨fresh k hk, fun v hv hk t' ht' => by cases hv; cases ht'; exact hr rfl t ht⟩
    · intro k t hk
      exact ⟨fresh k hk, fun v hv hk t' ht' => by cases hv; cases ht'⟩
  | deferred r =>
    refine session r.accessToken (fun st t h => .inl (hreq ▸ .deferredSession r st t h)) ?_
    rintro R rfl
    rw [hreq]
    refine Guar.bind (deferred_guar ?_ ?_ ?_ ?_) fun _ _ => Guar.pure trivial
    · exact ⟨.inl (hreq ▸ .deferred r), fun v hv => by cases hv⟩
    · intro st t n x y hr ht hn
      exact ⟨hr rfl t ht, fun v hv hk t' ht' => by cases hv; cases ht'; exact hr rfl t ht⟩
    · intro st t n k x y hr ht hn hk
      exact ⟨fresh k hk, fun v hv hk t' ht' => by cases hv; cases ht'; exact hr rfl t ht⟩
    · intro k t r hk
      exact ⟨fresh k hk, fun v hv hk t' ht' => by cases hv; cases ht'⟩
  | notification r =>
    refine plain (fun k _ => Own k) (fun _ _ h => h) ?_
    rw [hreq]
    exact Guar.bind (notification_guar (.inl (hreq ▸ .notification r))) fun _ _ => Guar.pure trivial
  | register r =>
    refine plain (fun k _ => Own k) (fun _ _ h => h) ?_
    rw [hreq]
    exact Guar.bind register_guar fun _ _ => Guar.pure trivial
  | metadata c =>
    refine plain (fun k _ => Own k) (fun _ _ h => h) ?_
    rw [hreq]
    exact Guar.bind (Q := fun _ => True) (Guar.lift fun _ _ => trivial) fun _ _ => Guar.pure trivial
  | oauthServer c =>
    refine plain (fun k _ => Own k) (fun _ _ h => h) ?_
    rw [hreq]
    exact Guar.bind (Q := fun _ => True) (Guar.lift fun _ _ => trivial) fun _ _ => Guar.pure trivial

/-- An issuance changes the entry of the session's access token and creates one new entry. -/
example : let s : Step := { provider := Demo.provider, req := .credential (Demo.credReq (Demo.rng 2) (Demo.rng 3)) }
    ((step Demo.env Demo.validated s).2.store (Demo.rng 2)).map State.expiresAt ≠
      (Demo.validated.store (Demo.rng 2)).map State.expiresAt ∧
    ((step Demo.env Demo.validated s).2.store (Demo.rng 5)).isSome ∧ (Demo.validated.store (Demo.rng 5)).isSome = false := by
  decide

end Verif.Issuer
