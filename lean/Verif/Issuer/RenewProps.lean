import Verif.Issuer.DeferredProps
/-!
# Deferred credentials and renewed nonces: C107
-/
namespace Verif.Issuer
open Prog

/-! ### Specification -/

/-- A credential or deferred request under access token `tok`. -/
inductive Req.Under (tok : String) : Req → Prop
  | credential (r : CredentialRequest) : r.accessToken = tok → Req.Under tok (.credential r)
  | deferred (r : DeferredRequest) : r.accessToken = tok → Req.Under tok (.deferred r)

/-- An answer that comes with a new nonce: an issued credential, or `invalid_proof`. -/
inductive Renewing : Res Resp → Prop
  | credential (r : CredentialResponse) (c : IssuedCredential) : r.response = .credential c → Renewing (.ok (.credential r))
  | deferred (r : CredentialResponse) : Renewing (.ok (.deferred r))
  | rejected (hint n : String) (exp : Int) : Renewing (.error (.invalidProof hint n exp))

/-- All credentials of the issuer need key proofs. -/
def ProofsRequired (P : Provider) : Prop :=
  ∀ url iss cid cfg, P.issuer url = some iss → iss.configs.get? cid = some cfg → cfg.proofTypes.isSome

/-! ### Helpers -/

/-- The session found under `tok`, if any, is that of access token `tok`, and stays so. -/
structure Canonical (e : Env) (tok : String) (w : World State) : Prop where
  own : ∀ s t, Session w tok s t → t.accessToken = tok
  known : KnownTok e w.drawn tok

theorem Canonical.step {e : Env} (he : Env.Fresh e) {tok : String} {w : World State} (h : Canonical e tok w) (s : Step) :
    Canonical e tok (Issuer.step e w s).2 := by
  let R : String → State → Prop := fun k v => k = tok → ∀ t, v.stage = .validated t → t.accessToken = tok
  have hg : Guar R (PutOk R) (fun x => x ≠ tok) (call s.provider s.req) (fun _ => True) := by
    refine call_guar ?_ ?_ ?_ ?_ ?_ ?_ ?_ ?_ ?_
    · intro k; trivial
    · rintro k t subj items tx hd _; exact fun _ _ h => by cases h
    · rintro k t subj items hd; exact fun _ _ h => by cases h
    · rintro k t subj items hd _; exact fun _ _ h => by cases h
    · rintro r k t _ hd; exact fun _ _ h => by cases h
    · rintro r c s k n t items _ hd hn _; exact fun hk => absurd hk hd
    · rintro c s t n x y hr hs hn; exact fun hk t' h => by cases h; exact hk
    · rintro c s t n k x y hr hs hn hd; exact fun hk => absurd hk hd
    · rintro k t r hd; exact fun _ _ h => by cases h
  have := (Guar.run (e := e) (w := World.wait w s.wait) hg
    (fun k v hv hk t ht => h.own v t ⟨hk ▸ hv, ht⟩) (fun k v h => h) (fun n h1 _ => h.known.ne_fresh he h1)).1
  exact ⟨fun s t hs => this tok s hs.1 rfl t hs.2, h.known.mono (step_drawn_le e w s)⟩

theorem Canonical.exec {e : Env} (he : Env.Fresh e) {tok : String} {w : World State} (h : Canonical e tok w) (l : List Step) :
    Canonical e tok (Issuer.exec e w l) := exec_inv (I := Canonical e tok) (fun _ s hw => hw.step he s) h l

/-- The token endpoint starts a session of its own. -/
theorem canonical_token {e : Env} {w : World State} {s : Step} {req : TokenRequest} (hreq : s.req = .token req) {resp : TokenResponse}
    (h : (step e w s).1 = .ok (.token resp)) : Canonical e resp.accessToken (step e w s).2 := by
  rw [step_token hreq] at h ⊢
  obtain ⟨r, h, hr⟩ := map_ok.1 h
  cases hr
  obtain ⟨state, items, _, _, _, h4, h5, h6, rfl, hw'⟩ := token_ok_iff.1 (pair_of_fst h)
  rw [hw']
  refine ⟨fun s t hs => ?_, w.drawn, by simp only [World.wait]; omega, rfl⟩
  have h1 := hs.1
  simp only [Token.response, upd_same, Option.some.injEq] at h1
  have h2 := hs.2
  rw [← h1] at h2
  cases h2
  rfl

theorem deferred_invalidProof {P : Provider} {req : DeferredRequest} {e : Env} {w w' : World State} {hint n : String} {exp : Int}
    (h : (deferred P req).run e w = (.error (.invalidProof hint n exp), w')) :
    ∃ saved : CredentialRequest, (credential P { saved with
        credentialIssuer := req.credentialIssuer
        accessToken := req.accessToken }).run e
      { w with
        store := upd w.store req.transactionId none
        ops := w.ops + 2 } = (.error (.invalidProof hint n exp), w') := by
  have hd' : ∀ st, deferredRequest st ≠ .error (.invalidProof hint n exp) := by
    intro st; unfold deferredRequest; split <;> simp
  simp only [deferred, run_bind_err, run_getE_err, run_getE_ok, run_nowE_err, run_nowE_ok, run_lift_err, run_lift_ok,
    run_purgeE_err, run_purgeE_ok, require_ok, require_err, Bool.not_eq_true', isExpired_false_iff, reduceCtorEq, false_and,
    and_false, false_or, hd'] at h
  obtain ⟨st, _, ⟨h1, h2, rfl⟩, _, _, ⟨rfl, rfl⟩, _, _, ⟨h3, rfl⟩, saved, _, ⟨h4, rfl⟩, _, _, ⟨h5, rfl⟩, h⟩ := h
  rcases h with h | ⟨r, w2, _, h⟩
  · exact ⟨saved, h⟩
  · split at h
    · rw [run_lift_err] at h; cases h.1
    · cases h

/-- A credential call that issues or rejects a proof gives the session a nonce that was never seen before. -/
theorem renewal_retires {e : Env} (he : Env.Fresh e) {tok : String} {w : World State} (hown : ∀ s t, Session w tok s t → t.accessToken = tok)
    (hk : KnownTok e w.drawn tok) {P : Provider} {req : CredentialRequest} (htok : req.accessToken = tok) {r : Res CredentialResponse} {w' : World State}
    (h : (credential P req).run e w = (r, w'))
    (hr : (∃ resp c, r = .ok resp ∧ resp.response = .credential c) ∨ ∃ hint n exp, r = .error (.invalidProof hint n exp)) {x : String}
    (hx : KnownTok e w.drawn x) : ∀ s t, w'.store tok = some s → s.stage = .validated t → t.cNonce ≠ x := by
  have hne : e.rng w.drawn ≠ x := hx.ne_fresh he (Nat.le_refl _)
  intro s t hs ht
  rcases hr with ⟨resp, c, rfl, hc⟩ | ⟨hint, n, exp, rfl⟩
  · obtain ⟨s0, ctx, t0, _, _, _, h1, _, h2, _, _, _, _, hx'⟩ := credential_ok_iff.1 h
    rw [htok] at h1
    have h3 := hown s0 t0 ⟨h1, h2⟩
    rcases hx' with ⟨_, _, rfl, _⟩ | ⟨_, _, _, _, _, rfl, rfl⟩
    · cases hc
    · have : tok ≠ e.rng (w.drawn + 1) := (hk.ne_fresh he (Nat.le_succ _)).symm
      simp only [h3, upd_other _ _ this, upd_same, Option.some.injEq] at hs
      subst hs
      cases ht
      exact hne
  · obtain ⟨s0, ctx, t0, _, h1, _, h2, _, _, _, _, _, h4, _⟩ := credential_invalidProof h
    rw [htok] at h1
    have h3 := hown s0 t0 ⟨h1, h2⟩
    rw [h4, h3, upd_same, Option.some.injEq] at hs
    subst hs
    cases ht
    exact hne

/-- The same of a step. -/
theorem renewing_retires {e : Env} (he : Env.Fresh e) {tok : String} {w : World State} (hc : Canonical e tok w) {s : Step} (hu : s.req.Under tok)
    (hr : Renewing (step e w s).1) {x : String} (hx : KnownTok e w.drawn x) : Retired e tok x (step e w s).2 := by
  refine ⟨?_, hx.mono (step_drawn_le e w s)⟩
  cases hreq : s.req with
  | credential r =>
    rw [hreq] at hu
    cases hu with
    | credential _ ht =>
      rw [step_credential hreq] at hr ⊢
      generalize hrun : (credential s.provider r).run e (World.wait w s.wait) = y at hr ⊢
      obtain ⟨y, w'⟩ := y
      refine renewal_retires he (w := World.wait w s.wait) hc.own hc.known ht hrun ?_ hx
      cases y with
      | ok y => cases hr with | credential _ c h => exact .inl ⟨_, c, rfl, h⟩
      | error y => cases hr; exact .inr ⟨_, _, _, rfl⟩
  | deferred r =>
    rw [hreq] at hu
    cases hu with
    | deferred _ ht =>
      rw [step_deferred hreq] at hr ⊢
      generalize hrun : (deferred s.provider r).run e (World.wait w s.wait) = y at hr ⊢
      obtain ⟨y, w'⟩ := y
      have hown : ∀ z s' t, upd w.store z none tok = some s' → s'.stage = .validated t → t.accessToken = tok := by
        intro z s' t h1 h2
        by_cases hz : tok = z
        · rw [hz, upd_same] at h1; cases h1
        · rw [upd_other _ _ hz] at h1; exact hc.own s' t ⟨h1, h2⟩
      cases y with
      | ok y =>
        obtain ⟨st, txn, saved, _, _, _, _, _, h5, c, h6⟩ := deferred_ok_iff.1 hrun
        exact renewal_retires he (fun s' t h => hown _ s' t h.1 h.2) (by exact hc.known) ht h5 (.inl ⟨_, c, rfl, h6⟩) hx
      | error y =>
        cases hr
        obtain ⟨saved, h⟩ := deferred_invalidProof hrun
        exact renewal_retires he (fun s' t h => hown _ s' t h.1 h.2) (by exact hc.known) ht h (.inr ⟨_, _, _, rfl⟩) hx
  | _ => rw [hreq] at hu; cases hu

/-! ### Properties -/

/-- **C107 is false.** Say an access token was granted, a credential request under it, with a proof, was answered with a transaction id, and later any
credential or deferred request under that token (for another credential, say) was answered with a credential or with `invalid_proof`. Then that
transaction is lost: in every later history, whenever it is collected with the access token, the call is refused. (The proof in the
stored request is checked again when the credential is collected, and it was made for a nonce that is no longer the session's.) -/
theorem C107_deferred_lost_on_renewal {e : Env} (he : Env.Fresh e) {w : World State} (hw : Reachable e w)
    {grant : Step} {treq : TokenRequest} (hgrant : grant.req = .token treq) {tresp : TokenResponse} (htoken : (step e w grant).1 = .ok (.token tresp))
    {before : List Step} {w1 : World State} (hw1 : w1 = exec e (step e w grant).2 before)
    {ask : Step} {creq : CredentialRequest} (hask : ask.req = .credential creq) (hcreq : creq.accessToken = tresp.accessToken) {jwt : String}
    (hjwt : creq.HasProof jwt) {resp : CredentialResponse} {txn : String} (hok : (step e w1 ask).1 = .ok (.credential resp))
    (htxn : resp.response = .transactionId txn)
    {mid : List Step} {w2 : World State} (hw2 : w2 = exec e (step e w1 ask).2 mid)
    {other : Step} (hother : other.req.Under tresp.accessToken) (hren : Renewing (step e w2 other).1)
    {more : List Step} {w3 : World State} (hw3 : w3 = exec e (step e w2 other).2 more)
    {collect : Step} {dreq : DeferredRequest} (hcollect : collect.req = .deferred dreq) (hid : dreq.transactionId = txn)
    (hdreq : dreq.accessToken = tresp.accessToken) (hreq : ProofsRequired ask.provider) (hreq' : ProofsRequired collect.provider)
    (hsame : collect.provider.decodeProof jwt = ask.provider.decodeProof jwt) :
    Refused (step e w3 collect).1 := by
  have hr1 : Reachable e w1 := by rw [hw1]; exact (hw.step grant).exec before
  have hc1 : Canonical e tresp.accessToken w1 := by rw [hw1]; exact (canonical_token hgrant htoken).exec he before
  have hc2 : Canonical e tresp.accessToken w2 := by rw [hw2]; exact (hc1.step he ask).exec he mid
  -- the proof is over the nonce of the session
  have hok1 := hok
  rw [step_credential hask] at hok1
  obtain ⟨r0, hok1, hr0⟩ := map_ok.1 hok1
  cases hr0
  obtain ⟨s, t, iss, auth, cfg, h1, h2, h3, h4, h5⟩ := C23_proofs_bound_to_nonce_partial (pair_of_fst hok1)
  obtain ⟨types, hty⟩ := Option.isSome_iff_exists.1 (hreq _ _ _ _ h2 h4)
  obtain ⟨_, _, h6, _⟩ := h5 types hty
  obtain ⟨_, p, _, hp1, _, hp2, _⟩ := h6 jwt hjwt
  have hkn : KnownTok e w1.drawn t.cNonce := hr1.nonces _ _ _ h1.1 h1.2
  have hkn2 : KnownTok e w2.drawn t.cNonce := by
    rw [hw2]
    exact hkn.mono (Nat.le_trans (step_drawn_le e w1 ask) (exec_drawn_le ..))
  have hret := (renewing_retires he hc2 hother hren hkn2).exec he more
  rw [← hw3] at hret
  -- collecting
  intro a ha
  have hl : w3 = exec e (step e w1 ask).2 (mid ++ other :: more) := by
    rw [exec_append, hw3, hw2]; rfl
  rw [hl] at ha
  obtain ⟨r, hr⟩ : ∃ r, a = .deferred r := by
    rw [step_deferred hcollect] at ha
    obtain ⟨r, _, hr⟩ := map_ok.1 ha
    exact ⟨r, hr.symm⟩
  subst hr
  obtain ⟨_, hrun⟩ := C31_deferred_is_original_request he hr1 hask hok htxn _ hcollect hid ha
  rw [← hl] at hrun
  obtain ⟨s', t', iss', auth', cfg', g1, g2, g3, g4, g5⟩ := C23_proofs_bound_to_nonce_partial (pair_of_fst hrun)
  obtain ⟨types', hty'⟩ := Option.isSome_iff_exists.1 (hreq' _ _ _ _ g2 g4)
  obtain ⟨_, _, g6, _⟩ := g5 types' hty'
  obtain ⟨_, p', _, hp1', _, hp2', _⟩ := g6 jwt (by cases hjwt with | single _ h => exact .single _ h | multiple js _ h h' => exact .multiple js _ h h')
  rw [hsame, hp1] at hp1'
  cases hp1'
  rw [hp2] at hp2'
  have hst := g1.1
  simp only [hdreq] at hst
  by_cases hz : tresp.accessToken = txn
  · rw [hz, upd_same] at hst; cases hst
  · rw [upd_other _ _ hz] at hst
    exact hret.other s' t' hst g1.2 (Option.some.inj hp2').symm

/-- The demo issuer asks for a proof of every credential it issues. -/
def Demo.proving (pending : Bool) : Provider := { Demo.provider pending with
  issuer := fun i => if i = "http://vercre.io" then some { Demo.issuer with configs := [("Employee", Demo.employee)] } else none }

theorem Demo.proving_required (pending : Bool) : ProofsRequired (Demo.proving pending) := by
  intro url iss cid cfg h hc
  simp only [Demo.proving] at h
  split at h
  · cases h
    simp only [Dict.get?, List.lookup] at hc
    split at hc <;> cases hc
    rfl
  · cases h

/-- C107 applies: the credential is put off, then asked for and had at once, and now the transaction is lost. -/
example : Refused (step Demo.env (exec Demo.env Demo.validated
    [{ provider := Demo.proving true, req := .credential (Demo.credReq (Demo.rng 2) (Demo.rng 3)) },
     { provider := Demo.proving false, req := .credential (Demo.credReq (Demo.rng 2) (Demo.rng 3)) }])
    { provider := Demo.proving false, req := .deferred ⟨"http://vercre.io", Demo.rng 2, Demo.rng 4⟩ }).1 :=
  C107_deferred_lost_on_renewal Demo.env_fresh (w := Demo.offered) ⟨0, _, rfl⟩
    (grant := { provider := Demo.provider, req := .token (Demo.tokenReq (Demo.rng 0)) }) rfl (tresp := _) rfl (before := []) rfl
    (ask := { provider := Demo.proving true, req := .credential (Demo.credReq (Demo.rng 2) (Demo.rng 3)) }) rfl rfl (.single _ rfl)
    (resp := _) (txn := _) rfl rfl (mid := []) rfl
    (other := { provider := Demo.proving false, req := .credential (Demo.credReq (Demo.rng 2) (Demo.rng 3)) }) (.credential _ rfl) (.credential _ _ rfl)
    (more := []) rfl rfl rfl rfl (Demo.proving_required true) (Demo.proving_required false) rfl

end Verif.Issuer
