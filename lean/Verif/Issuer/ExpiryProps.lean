import Verif.Issuer.Timed
/-!
# Expired sessions (C99, C100)

The specification (`Usable`, `Lapsed`, `Uses`, `Idle`, `Gains`) is in `Timed.lean`.
-/
namespace Verif.Issuer
open Prog

/-- A session left alone for long enough has lapsed. -/
theorem lapsed_of_idle {e : Env} (he : Env.Fresh e) {w : World State} (hw : Reachable e w) {k : String}
    (hk : KnownTok e w.drawn k) {idle : List Step} (hi : Idle e k w idle) (hlong : w.now + 601 * sec ≤ (exec e w idle).now) :
    Lapsed k (exec e w idle) := by
  have hb := idle_bound he hk (fun c s t hs _ => hw.nonceBound c s t hs) hi
  intro c s t hs hkt hu
  have h1 := hb c s t hs hkt
  have h2 := hu.2
  simp only [nonceDur, sec] at *
  omega

/-! ### Properties -/

/-- **C99**. Once every record of the session of an access token has expired (or its nonce has), it stays so in every
continuation: no later credential or deferred request under the token is served, nor given a new nonce to try again with. -/
theorem C99_expired_stays_expired {e : Env} (he : Env.Fresh e) {w : World State} {redeem : Step}
    {treq : TokenRequest} {tr : TokenResponse} (hreq : redeem.req = .token treq) (hr : (step e w redeem).1 = .ok (.token tr))
    (between : List Step) (hl : Lapsed tr.accessToken (exec e (step e w redeem).2 between)) (later : List Step) {ask : Step}
    (hask : ask.req.bearer = some tr.accessToken) :
    ¬ Gains (step e (exec e (exec e (step e w redeem).2 between) later) ask).1 := by
  obtain ⟨hk, ho⟩ := token_own hreq hr
  intro h
  have hk1 := hk.mono (exec_drawn_le e _ between)
  obtain ⟨st, t, hs, hu⟩ := bearer_usable hask h
  have hown := ((ho.exec he hk between).exec he hk1 later) st t hs
  refine hl.exec he hk1 later _ st t hs hown ⟨?_, ?_⟩
  · have := hu.1; omega
  · have := hu.2; omega

/-- **C99**, for whoever got hold of another key of the session (the records under notification ids). -/
theorem C99_expired_stays_expired_any_key {e : Env} (he : Env.Fresh e) {w : World State} (hw : Reachable e w) {c k : String}
    {s : State} {t : Token} (hs : Session w c s t) (hk : t.accessToken = k) (hl : Lapsed k w) (later : List Step) {ask : Step}
    (hask : Uses k (exec e w later) ask) : ¬ Gains (step e (exec e w later) ask).1 := by
  have hkn : KnownTok e w.drawn k := hk ▸ (hw.sep he).tok c s t hs.1 hs.2
  intro h
  obtain ⟨c', s', t', hb, hs', hk'⟩ := hask
  obtain ⟨st, t2, hs2, hu⟩ := bearer_usable hb h
  have : st = s' := Option.some.inj (hs2.1.symm.trans hs'.1)
  subst this
  have : t2 = t' := by have := hs2.2.symm.trans hs'.2; cases this; rfl
  subst this
  refine hl.exec he hkn later c' st t2 hs' hk' ⟨?_, ?_⟩
  · have := hu.1; omega
  · have := hu.2; omega

/-- **C100** is false: an expired nonce is never replaced. If an access token has not been used for ten minutes and a second, whatever
else the issuer did meanwhile, then no request under it is served or given a nonce ever again, although the token itself lives longer
and the nonce it was issued with may be all that expired. -/
theorem C100_expired_nonce_never_replaced {e : Env} (he : Env.Fresh e) {w : World State} (hw : Reachable e w) {redeem : Step}
    {treq : TokenRequest} {tr : TokenResponse} (hreq : redeem.req = .token treq) (hr : (step e w redeem).1 = .ok (.token tr))
    (between idle : List Step)
    (hi : Idle e tr.accessToken (exec e (step e w redeem).2 between) idle)
    (hlong : (exec e (step e w redeem).2 between).now + 601 * sec ≤ (exec e (exec e (step e w redeem).2 between) idle).now)
    (later : List Step) {ask : Step} (hask : ask.req.bearer = some tr.accessToken) :
    ¬ Gains (step e (exec e (exec e (exec e (step e w redeem).2 between) idle) later) ask).1 := by
  obtain ⟨hk, ho⟩ := token_own hreq hr
  have := C99_expired_stays_expired he hreq hr (between ++ idle) (by
    rw [exec_append]
    exact lapsed_of_idle he ((hw.step redeem).exec between) (hk.mono (exec_drawn_le e _ between)) hi hlong) later hask
  rwa [exec_append] at this

/-- **C100**, the part that holds: while session and nonce are live, a request for an authorized credential without the proof it needs,
or with one that does not verify, gets a new nonce, and that is then the nonce of the session. -/
theorem C100_nonce_replaced_partial {P : Provider} {req : CredentialRequest} {e : Env} {w : World State} (hst : Working e w)
    {subj : String} {s : State} {t : Token} (hs : LiveSession w req.accessToken subj s t) {iss : Issuer}
    (hiss : P.issuer req.credentialIssuer = some iss) (hn : Dict.Nodup iss.configs) (hnt : Dict.Nodup t.credentials)
    {id : String} (hid : req.credential = .identifier id)
    {auth : Authorized} (hauth : (id, auth) ∈ t.credentials) {cfg : CredentialConfiguration}
    (hcfg : (auth.configId, cfg) ∈ iss.configs) {types : List String} (htypes : cfg.proofTypes = some types)
    (hp : req.proof = none ∨ ("jwt" ∈ types ∧ ∃ jwt, req.HasProof jwt ∧ ∀ did, ¬ ValidProof P t.cNonce jwt did)) :
    ∃ hint n w' s' t', (credential P req).run e w = (.error (.invalidProof hint n 600), w') ∧
      Session w' t.accessToken s' t' ∧ t'.cNonce = n ∧ Usable s' t' w'.now := by
  have hctx : Credential.context P s req = .ok { state := s, issuer := iss, authorized := auth, config := cfg } :=
    Credential.context_ok.2 ⟨rfl, hiss, by
      simp [Credential.authorized, hs.session.2, hid, Dict.get?_of_mem hnt hauth, orErr], Dict.get?_of_mem hn hcfg⟩
  have f0 := hst w.ops (Nat.le_refl _)
  have f1 := hst (w.ops + 1) (by omega)
  have hl : s.isExpired w.now = false := (isExpired_false_iff _ _).2 hs.live
  have hln : t.cNonceExpired w.now = false := (usable_iff.1 ⟨hs.live, hs.nonce⟩).2
  have hinv : ∀ hint, (Credential.invalidProof (α := String) s hint).run e { w with ops := w.ops + 1 } =
      (.error (.invalidProof hint (e.rng w.drawn) 600), { w with
        store := upd w.store t.accessToken (some (renewed s t (e.rng w.drawn) (w.now + accessDur) (w.now + nonceDur)))
        drawn := w.drawn + 1
        ops := w.ops + 2 }) := by
    intro hint
    simp only [Credential.invalidProof, hs.session.2]
    simp [run, drawE, nowE, putE, Prog.lift, Bind.bind, Prog.bind, f1, writeRes, renewed]
    decide
  have hver : ∃ hint, (Credential.verify P { state := s, issuer := iss, authorized := auth, config := cfg } req).run e
      { w with ops := w.ops + 1 } = (.error (.invalidProof hint (e.rng w.drawn) 600), { w with
        store := upd w.store t.accessToken (some (renewed s t (e.rng w.drawn) (w.now + accessDur) (w.now + nonceDur)))
        drawn := w.drawn + 1
        ops := w.ops + 2 }) := by
    simp only [Credential.verify, hs.session.2, htypes]
    rcases hp with hp | ⟨h1, jwt, h2, h3⟩
    · simp only [hp]
      exact ⟨_, by simpa [run, nowE, Prog.lift, Bind.bind, Prog.bind, require, hl, hln] using hinv _⟩
    · obtain ⟨proof, hpr⟩ : ∃ proof, req.proof = some proof := by cases h2 <;> exact ⟨_, by assumption⟩
      have h2 := (CredentialRequest.hasProof_iff hpr jwt).1 h2
      simp only [hpr]
      cases hc : Credential.checkProofs P t.cNonce (Credential.proofJwts proof) "" with
      | ok did =>
        obtain ⟨did', hv⟩ := (Credential.checkProofs_ok.1 hc).1 jwt h2
        exact absurd hv (h3 did')
      | error hint =>
        have h1' : types.contains "jwt" = true := by simpa using h1
        exact ⟨hint, by simpa [run, nowE, Prog.lift, Bind.bind, Prog.bind, require, hl, hln, h1] using hinv _⟩
  obtain ⟨hint, hver⟩ := hver
  have hrun : (credential P req).run e w = (.error (.invalidProof hint (e.rng w.drawn) 600), { w with
      store := upd w.store t.accessToken (some (renewed s t (e.rng w.drawn) (w.now + accessDur) (w.now + nonceDur)))
      drawn := w.drawn + 1
      ops := w.ops + 2 }) := by
    simp only [credential, run_bind_err, run_getE_ok, run_lift_ok]
    exact .inr ⟨s, { w with ops := w.ops + 1 }, ⟨f0, hs.session.1, rfl⟩, .inr ⟨_, _, ⟨hctx, rfl⟩, .inl hver⟩⟩
  refine ⟨hint, _, _, _, _, hrun, ⟨upd_same .., rfl⟩, rfl, ?_, ?_⟩
  · show w.now < w.now + accessDur + sec
    have : (0 : Int) < accessDur + sec := by decide
    omega
  · show w.now < w.now + nonceDur + sec
    have : (0 : Int) < nonceDur + sec := by decide
    omega

/-! ### The demo issuer -/

/-- Something unrelated, `ns` later. -/
def Demo.otherLater (ns : Nat) : Step := { Demo.other with wait := ns }

/-- The token response of the demo. -/
def Demo.tokenResponse : TokenResponse :=
  match (step Demo.env Demo.offered (Demo.redeemStep 0 (Demo.tokenReq (Demo.rng 0)))).1 with
  | .ok (.token tr) => tr
  | _ => { accessToken := "", expiresIn := 0, cNonce := none, cNonceExpiresIn := none, authorizationDetails := none }

/-- C100 applies: the demo token is left alone for 601 seconds, during which an unrelated offer is made. Its session would have lasted
until then. -/
example (later : List Step) (nonce : String) :
    ¬ Gains (step Demo.env (exec Demo.env (exec Demo.env (exec Demo.env
      (step Demo.env Demo.offered (Demo.redeemStep 0 (Demo.tokenReq (Demo.rng 0)))).2 []) [Demo.otherLater 601000000000]) later)
      (Demo.askStep 0 (Demo.rng 2) nonce)).1 :=
  C100_expired_nonce_never_replaced Demo.env_fresh (w := Demo.offered) ⟨0, [Demo.other], rfl⟩
    (redeem := Demo.redeemStep 0 (Demo.tokenReq (Demo.rng 0))) rfl (tr := Demo.tokenResponse) rfl [] [Demo.otherLater 601000000000]
    ⟨(by rintro ⟨_, _, _, h, _⟩; cases h), trivial⟩ (by decide) later rfl

/-- C99 applies: after those 601 seconds the session has lapsed (after 200 it has not). -/
example : Lapsed (Demo.rng 2) (exec Demo.env Demo.validated [Demo.otherLater 601000000000]) ∧
    ¬ Lapsed (Demo.rng 2) (exec Demo.env Demo.validated [Demo.otherLater 200000000000]) := by
  refine ⟨lapsed_of_idle Demo.env_fresh (Reachable.step (w := Demo.offered) ⟨0, [Demo.other], rfl⟩
    (Demo.redeemStep 0 (Demo.tokenReq (Demo.rng 0)))) ⟨2, by decide, rfl⟩ ⟨(by rintro ⟨_, _, _, h, _⟩; cases h), trivial⟩ (by decide), ?_⟩
  intro h
  exact h (Demo.rng 2) _ _ ⟨rfl, rfl⟩ rfl ⟨by decide, by decide⟩

/-- C100, the part that holds, applies to the demo session. -/
example : ∃ hint n w' s' t', (credential Demo.provider { Demo.credReq (Demo.rng 2) "" with proof := none }).run Demo.env
      Demo.validated = (.error (.invalidProof hint n 600), w') ∧
      Session w' (Demo.rng 2) s' t' ∧ t'.cNonce = n ∧ Usable s' t' w'.now := by
  obtain ⟨s, t, auth, hs, hn, hnt, hm, hc, hi, hcl, _⟩ := Demo.liveSession
  have ht : t.accessToken = Demo.rng 2 := by
    have h1 := hs.session.1; have h2 := hs.session.2
    have : some s = _ := h1.symm.trans rfl
    cases this
    cases h2
    rfl
  have := C100_nonce_replaced_partial (P := Demo.provider) (req := { Demo.credReq (Demo.rng 2) "" with proof := none })
    (Demo.working _) hs (iss := Demo.issuer) rfl Demo.configs_nodup hnt rfl hm (cfg := Demo.employee) (by rw [hc]; exact .head _)
    rfl (.inl rfl)
  rwa [ht] at this

end Verif.Issuer
