import Verif.Issuer.BindProps
import Verif.Issuer.IssueProps
import Verif.Issuer.ExpiryProps
/-!
# C136, C137: where an access token works, and for how long
-/
namespace Verif.Issuer
open Prog

/-! ### Specification -/

/-- Every step of a history, from `w` on, is refused. -/
def AllRefused (e : Env) : World State → List Step → Prop
  | _, [] => True
  | w, s :: l => (∃ err, (step e w s).1 = .error err) ∧ AllRefused e (step e w s).2 l

/-! ### Lemmas -/

theorem issued_issuer {P : Provider} {req : CredentialRequest} {e : Env} {w w' : World State} {resp : CredentialResponse}
    (h : (credential P req).run e w = (.ok resp, w')) {k : String} {vc : Vc} {at_ : Int} (hc : resp.response = .credential (.jwtVc k vc at_)) :
    ∃ md, P.issuer req.credentialIssuer = some md ∧ vc.issuer = .string md.credentialIssuer ∧ P.signer req.credentialIssuer = some k := by
  obtain ⟨s, ctx, t, did, ds, _, hs, hctx, _, _, _, _, _, hr⟩ := credential_ok_iff.1 h
  rcases hr with ⟨_, _, rfl, _⟩ | ⟨_, c', hc', _, _, rfl, _⟩
  · cases hc
  cases hc
  obtain ⟨d, hv⟩ := jwt_signed hc'
  obtain ⟨types, ty, subj, status, _, _, h3, h4, _, h6, h7, h8, _, h10, _⟩ := Credential.w3cVc_ok hv
  refine ⟨ctx.issuer, (Credential.context_ok.1 hctx).2.1, h8, ?_⟩
  simp only [Credential.signed, Except.bind_ok, orErr_ok] at hc'
  obtain ⟨k', hk', h⟩ := hc'
  split at h
  · simp only [Except.bind_ok, require_ok, pure, Except.pure, Except.ok.injEq, IssuedCredential.jwtVc.injEq] at h
    obtain ⟨_, _, _, _, rfl, _⟩ := h
    exact hk'
  · simp [Except.bind_ok, require_ok, pure, Except.pure] at h
  · cases h
  · cases h
  · cases h

/-- What a request without proof does to a session it belongs to. -/
theorem ask_without_proof {e : Env} {w : World State} (hst : Working e w) {P : Provider} {req : CredentialRequest} {subj : String} {s : State}
    {t : Token} (hs : LiveSession w req.accessToken subj s t) (hown : t.accessToken = req.accessToken) {iss : Issuer}
    (hiss : P.issuer req.credentialIssuer = some iss) (hn : Dict.Nodup iss.configs) (hnt : Dict.Nodup t.credentials)
    {id : String} (hid : req.credential = .identifier id) {auth : Authorized} (hauth : (id, auth) ∈ t.credentials)
    {cfg : CredentialConfiguration} (hcfg : (auth.configId, cfg) ∈ iss.configs) {types : List String} (htypes : cfg.proofTypes = some types)
    (hp : req.proof = none) :
    ∃ err w' s' t', (credential P req).run e w = (.error err, w') ∧ Session w' req.accessToken s' t' ∧ s'.expiresAt = w'.now + accessDur ∧
      t'.cNonceExpiresAt = w'.now + nonceDur ∧ s'.subjectId = some subj ∧ t'.accessToken = req.accessToken ∧ t'.credentials = t.credentials ∧
      w'.now = w.now ∧ w.ops ≤ w'.ops := by
  obtain ⟨hint, n, w', _, _, hrun, _⟩ := C100_nonce_replaced_partial hst hs hiss hn hnt hid hauth hcfg htypes (.inl hp)
  obtain ⟨s1, ctx, t1, _, h1, _, h2, _, _, _, _, _, h3, h4, _, h5⟩ := credential_invalidProof hrun
  rw [hs.session.1] at h1
  cases h1
  rw [hs.session.2] at h2
  cases h2
  refine ⟨_, w', renewed s t (e.rng w.drawn) (w.now + accessDur) (w.now + nonceDur), _, hrun, ⟨?_, rfl⟩, ?_, ?_, hs.subject, hown, rfl, h4, by omega⟩
  · rw [h3, hown, upd_same]
  · rw [h4]; rfl
  · rw [h4]

/-- A session that was renewed just now lasts for nine minutes. -/
theorem live_after {w : World State} {tok subj : String} {s : State} {t : Token} (h : Session w tok s t) (h1 : s.expiresAt = w.now + accessDur)
    (h2 : t.cNonceExpiresAt = w.now + nonceDur) (h3 : s.subjectId = some subj) : LiveSession (World.wait w 540000000000) tok subj s t where
  session := h
  live := by
    show w.now + ((540000000000 : Nat) : Int) < s.expiresAt + sec
    rw [h1]
    simp only [accessDur, sec]
    omega
  nonce := by
    show w.now + ((540000000000 : Nat) : Int) < t.cNonceExpiresAt + sec
    rw [h2]
    simp only [nonceDur, sec]
    omega
  subject := h3

theorem kept_alive {e : Env} {P : Provider} {req : CredentialRequest} {subj : String} {iss : Issuer}
    (hiss : P.issuer req.credentialIssuer = some iss) (hn : Dict.Nodup iss.configs) {creds : Dict Authorized} (hnt : Dict.Nodup creds)
    {id : String} (hid : req.credential = .identifier id) {auth : Authorized} (hauth : (id, auth) ∈ creds)
    {cfg : CredentialConfiguration} (hcfg : (auth.configId, cfg) ∈ iss.configs) {types : List String} (htypes : cfg.proofTypes = some types)
    (hp : req.proof = none) (n : Nat) : ∀ (w : World State) (s : State) (t : Token), Working e w → Session w req.accessToken s t →
      s.expiresAt = w.now + accessDur → t.cNonceExpiresAt = w.now + nonceDur → s.subjectId = some subj → t.accessToken = req.accessToken →
      t.credentials = creds →
      ∃ steps, (∀ x ∈ steps, x.provider = P ∧ x.req = .credential req) ∧ AllRefused e w steps ∧ (exec e w steps).now = w.now + n * 540000000000 ∧
        Working e (exec e w steps) ∧
        ∃ s' t', LiveSession (exec e w steps) req.accessToken subj s' t' ∧ t'.accessToken = req.accessToken ∧ t'.credentials = creds := by
  induction n with
  | zero =>
    intro w s t hst h h1 h2 h3 h4 h5
    refine ⟨[], fun _ h => (nomatch h), trivial, by show w.now = _; omega, hst, s, t, ⟨h, ?_, ?_, h3⟩, h4, h5⟩
    · show w.now < s.expiresAt + sec
      rw [h1]; simp only [accessDur, sec]; omega
    · show w.now < t.cNonceExpiresAt + sec
      rw [h2]; simp only [nonceDur, sec]; omega
  | succ n ih =>
    intro w s t hst h h1 h2 h3 h4 h5
    obtain ⟨err, w', s', t', hrun, k1, k2, k3, k4, k5, k6, k7, k8⟩ := ask_without_proof (P := P) (req := req) (w := World.wait w 540000000000)
      (fun n hn => hst n hn) (live_after h h1 h2 h3) h4 hiss hn (h5 ▸ hnt) hid (h5 ▸ hauth) hcfg htypes hp
    have hstep : step e w { provider := P, wait := 540000000000, req := .credential req } = (.error err, w') := by
      rw [step_credential (r := req) rfl]
      rw [show (credential P req).run e (World.wait w 540000000000) = _ from hrun]
      rfl
    obtain ⟨steps, p1, p2, p3, p4, p5⟩ := ih w' s' t' (fun n hn => hst n (Nat.le_trans k8 hn)) k1 k2 k3 k4 k5 (k6.trans h5)
    refine ⟨{ provider := P, wait := 540000000000, req := .credential req } :: steps, ?_, ?_, ?_, ?_, ?_⟩
    · intro x hx
      rcases List.mem_cons.1 hx with rfl | hx
      · exact ⟨rfl, rfl⟩
      · exact p1 x hx
    · exact ⟨⟨err, by rw [hstep]⟩, by rw [hstep]; exact p2⟩
    · show (exec e (step e w _).2 steps).now = _
      rw [hstep]
      show (exec e w' steps).now = _
      rw [p3, k7]
      show w.now + ((540000000000 : Nat) : Int) + _ = _
      omega
    · show Working e (exec e (step e w _).2 steps)
      rw [hstep]; exact p4
    · show ∃ s' t', LiveSession (exec e (step e w _).2 steps) _ _ s' t' ∧ _
      rw [hstep]; exact p5

/-! ### C136 -/

/-- **C136 is false**: a code is redeemed at any issuer of the service with the same server settings as at the one that gave it out, with the same
outcome in every state. -/
theorem C136_code_redeemed_elsewhere {s : Step} {req : TokenRequest} (hreq : s.req = .token req) (hd : req.authorizationDetails = none) {other : String}
    (hsrv : s.provider.server other = s.provider.server req.credentialIssuer) (e : Env) (w : World State) :
    step e w { s with req := .token { req with credentialIssuer := other } } = step e w s := by
  obtain ⟨P, wait, r⟩ := s
  cases hreq
  have hv : ∀ st now, Token.verify P st now { req with credentialIssuer := other } = Token.verify P st now req := by
    intro st now
    simp only [Token.verify] at hsrv ⊢
    rw [hsrv]
    rfl
  have hg : ∀ st, Token.grantedItems P st { req with credentialIssuer := other } = Token.grantedItems P st req := by
    intro st
    simp only [Token.grantedItems, Token.retainDetails, hd]
  simp only [step, call, token, Token.process, hv, hg]

/-- **C136 is false**: after a code was redeemed at issuer `a`, another issuer `b` of the service that has a configuration of the same name gives out a
credential for the token, in its own name and signed with its own key. -/
theorem C136_credential_issued_elsewhere {e : Env} {w : World State} {redeem ask : Step} {treq : TokenRequest} {creq : CredentialRequest} {a b : String}
    (_hreq : redeem.req = .token treq) (_ha : treq.credentialIssuer = a) {tr : TokenResponse} (_hr : (step e w redeem).1 = .ok (.token tr))
    (between : List Step) (hask : ask.req = .credential creq) (hb : creq.credentialIssuer = b) (_hab : a ≠ b) (htok : creq.accessToken = tr.accessToken)
    (hst : Working e (World.wait (exec e (step e w redeem).2 between) ask.wait)) {subj : String} {s : State} {t : Token}
    (hs : LiveSession (World.wait (exec e (step e w redeem).2 between) ask.wait) tr.accessToken subj s t)
    {iss : Issuer} (hiss : ask.provider.issuer b = some iss) (hn : Dict.Nodup iss.configs) (hnt : Dict.Nodup t.credentials)
    {id : String} (hid : creq.credential = .identifier id) {auth : Authorized} (hauth : (id, auth) ∈ t.credentials)
    {cfg : CredentialConfiguration} (hcfg : (auth.configId, cfg) ∈ iss.configs) {d : CredentialDefinition} (hf : cfg.format = .jwtVcJson d)
    {did : String} (hp : ProofsFit ask.provider cfg t.cNonce creq did) {ds : Dataset} (hd : ask.provider.dataset subj auth.identifier = some ds)
    (hpend : ds.pending = false) (hcan : CanIssue ask.provider iss b cfg subj) :
    ∃ resp k vc at_, (step e (exec e (step e w redeem).2 between) ask).1 = .ok (.credential resp) ∧ resp.response = .credential (.jwtVc k vc at_) ∧
      vc.issuer = .string iss.credentialIssuer ∧ ask.provider.signer b = some k := by
  subst hb
  obtain ⟨resp, c, w', claims, h1, h2, h3, _⟩ := (C93_credential_issued hst (htok ▸ hs) hiss hn hnt hid hauth hcfg hp hd).2 hpend hcan
  simp only [IsCredential, hf] at h3
  cases h3 with
  | vc k vc at_ _ _ _ =>
    obtain ⟨md, q1, q2, q3⟩ := issued_issuer h1 h2
    rw [hiss] at q1
    cases q1
    refine ⟨resp, k, vc, at_, ?_, h2, q2, q3⟩
    rw [step_credential hask]
    exact map_ok.2 ⟨_, by rw [h1], rfl⟩

/-- **C136**, the part that holds: an issuer without a configuration of the name that was authorized gives out nothing. -/
theorem C136_configuration_needed_partial {P : Provider} {req : CredentialRequest} {e : Env} {w w' : World State} {resp : CredentialResponse}
    (h : (credential P req).run e w = (.ok resp, w')) :
    ∃ iss cfg s t id auth, P.issuer req.credentialIssuer = some iss ∧ Session w req.accessToken s t ∧ (id, auth) ∈ t.credentials ∧
      (auth.configId, cfg) ∈ iss.configs := by
  obtain ⟨s, ctx, t, did, ds, _, hs, hctx, ht, _⟩ := credential_ok_iff.1 h
  obtain ⟨h1, h2, h3, h4⟩ := Credential.context_ok.1 hctx
  simp only [Credential.authorized, ht] at h3
  split at h3
  · rename_i id hid
    simp only [orErr_ok] at h3
    exact ⟨_, _, s, t, id, _, h2, ⟨hs, ht⟩, Dict.mem_of_get? h3, Dict.mem_of_get? h4⟩
  · simp only [Except.bind_ok, orErr_ok] at h3
    obtain ⟨cid, _, h3⟩ := h3
    have hm := List.mem_of_find?_eq_some h3
    simp only [Dict.values, List.mem_map] at hm
    obtain ⟨⟨id, a⟩, hm, ha⟩ := hm
    cases ha
    exact ⟨_, _, s, t, id, _, h2, ⟨hs, ht⟩, (P.iter_perm t.credentials).mem_iff.1 hm, Dict.mem_of_get? h4⟩

/-! ### C137 -/

/-- **C137 is false**: an access token can be kept alive for as long as one likes, by requests that are all refused. Whatever time `D` was to be its last,
there is a history of requests without the proof they need after which more than `D` has passed and the session is live, with all its credentials. -/
theorem C137_token_outlives_any_lifetime {e : Env} {w : World State} (hst : Working e w) {P : Provider} {req : CredentialRequest} {subj : String}
    {s : State} {t : Token} (hs : LiveSession w req.accessToken subj s t) (hown : t.accessToken = req.accessToken) {iss : Issuer}
    (hiss : P.issuer req.credentialIssuer = some iss) (hn : Dict.Nodup iss.configs) (hnt : Dict.Nodup t.credentials)
    {id : String} (hid : req.credential = .identifier id) {auth : Authorized} (hauth : (id, auth) ∈ t.credentials)
    {cfg : CredentialConfiguration} (hcfg : (auth.configId, cfg) ∈ iss.configs) {types : List String} (htypes : cfg.proofTypes = some types)
    (hp : req.proof = none) (D : Nat) :
    ∃ steps, (∀ x ∈ steps, x.provider = P ∧ x.req = .credential req) ∧ AllRefused e w steps ∧ w.now + D < (exec e w steps).now ∧
      Working e (exec e w steps) ∧
      ∃ s' t', LiveSession (exec e w steps) req.accessToken subj s' t' ∧ t'.accessToken = req.accessToken ∧ t'.credentials = t.credentials := by
  obtain ⟨err, w', s', t', hrun, k1, k2, k3, k4, k5, k6, k7, k8⟩ := ask_without_proof (P := P) (req := req) (w := World.wait w 0)
    (fun n hn => hst n hn) (⟨hs.session, by
      have := hs.live
      simp only [Live, World.wait] at this ⊢
      omega, by
      have := hs.nonce
      simp only [World.wait]
      omega, hs.subject⟩ : LiveSession (World.wait w 0) req.accessToken subj s t) hown hiss hn hnt hid hauth hcfg htypes hp
  have hstep : step e w { provider := P, wait := 0, req := .credential req } = (.error err, w') := by
    rw [step_credential (r := req) rfl]
    rw [show (credential P req).run e (World.wait w 0) = _ from hrun]
    rfl
  obtain ⟨steps, p1, p2, p3, p4, p5⟩ := kept_alive hiss hn hnt hid hauth hcfg htypes hp (D + 1) w' s' t' (fun n hn => hst n (Nat.le_trans k8 hn)) k1 k2 k3 k4
    k5 k6
  refine ⟨{ provider := P, wait := 0, req := .credential req } :: steps, ?_, ?_, ?_, ?_, ?_⟩
  · intro x hx
    rcases List.mem_cons.1 hx with rfl | hx
    · exact ⟨rfl, rfl⟩
    · exact p1 x hx
  · exact ⟨⟨err, by rw [hstep]⟩, by rw [hstep]; exact p2⟩
  · show _ < (exec e (step e w _).2 steps).now
    rw [hstep]
    show _ < (exec e w' steps).now
    have : w'.now = w.now + ((0 : Nat) : Int) := k7
    rw [p3, this]
    omega
  · show Working e (exec e (step e w _).2 steps)
    rw [hstep]; exact p4
  · show ∃ s' t', LiveSession (exec e (step e w _).2 steps) _ _ s' t' ∧ _
    rw [hstep]; exact p5

/-- **C137 is false**: and after that time the token still gets a credential. `mk` makes a request with a proof over a nonce. -/
theorem C137_credential_after_any_time {e : Env} {w : World State} (hst : Working e w) {P : Provider} {req : CredentialRequest} {subj : String}
    {s : State} {t : Token} (hs : LiveSession w req.accessToken subj s t) (hown : t.accessToken = req.accessToken) {iss : Issuer}
    (hiss : P.issuer req.credentialIssuer = some iss) (hn : Dict.Nodup iss.configs) (hnt : Dict.Nodup t.credentials)
    {id : String} (hid : req.credential = .identifier id) {auth : Authorized} (hauth : (id, auth) ∈ t.credentials)
    {cfg : CredentialConfiguration} (hcfg : (auth.configId, cfg) ∈ iss.configs) {types : List String} (htypes : cfg.proofTypes = some types)
    (hp : req.proof = none) {proof : String → Option Proof} {did : String} (hproof : ∀ n, ProofsFit P cfg n { req with proof := proof n } did)
    {ds : Dataset} (hd : P.dataset subj auth.identifier = some ds) (hpend : ds.pending = false) (hcan : CanIssue P iss req.credentialIssuer cfg subj)
    (D : Nat) :
    ∃ steps nonce resp c, AllRefused e w steps ∧ w.now + D < (exec e w steps).now ∧
      (step e (exec e w steps) { provider := P, req := .credential { req with proof := proof nonce } }).1 = .ok (.credential resp) ∧
      resp.response = .credential c := by
  obtain ⟨steps, _, p2, p3, p4, s', t', p5, p6, p7⟩ := C137_token_outlives_any_lifetime hst hs hown hiss hn hnt hid hauth hcfg htypes hp D
  obtain ⟨resp, c, w', _, h1, h2, _⟩ := (C93_credential_issued (P := P) (req := { req with proof := proof t'.cNonce }) p4 p5 hiss hn (p7 ▸ hnt) hid
    (p7 ▸ hauth) hcfg (hproof t'.cNonce) hd).2 hpend hcan
  refine ⟨steps, t'.cNonce, resp, c, p2, p3, ?_, h2⟩
  rw [step_credential (r := { req with proof := proof t'.cNonce }) rfl]
  refine map_ok.2 ⟨resp, ?_, rfl⟩
  have : World.wait (exec e w steps) 0 = exec e w steps := by simp [World.wait]
  show ((credential P { req with proof := proof t'.cNonce }).run e (World.wait (exec e w steps) 0)).1 = _
  rw [this, h1]

/-! ### Examples -/

namespace LifetimeDemo

/-- A service with two issuers whose configurations have the same names, and a key for each. -/
def provider : Provider := { Demo.provider with
  issuer := fun i =>
    if i = "http://vercre.io" then some Demo.issuer
    else if i = "http://other.example" then some { Demo.issuer with credentialIssuer := "http://other.example" } else none
  server := fun i => if i = "http://vercre.io" ∨ i = "http://other.example" then some Demo.server else none
  signer := fun i => some (i ++ "#key") }

/-- An offer of the first issuer is redeemed there. -/
def redeemed : World State :=
  exec Demo.env (start 0) [{ provider, req := .createOffer Demo.offerReq }, { provider, req := .token (Demo.tokenReq (Demo.rng 0)) }]

/-- Who signs what an answer holds, and in whose name. -/
def named : Res Resp → Option (String × Kind IssuerObj)
  | .ok (.credential { response := .credential (.jwtVc k vc _), .. }) => some (k, vc.issuer)
  | _ => none

/-- C136 on a run: the token works at the other issuer, and so does the code of the offer. -/
example : named (step Demo.env redeemed { provider, req := .credential { Demo.credReq (Demo.rng 2) (Demo.rng 3) with
      credentialIssuer := "http://other.example" } }).1 = some ("http://other.example#key", .string "http://other.example") ∧
    Demo.isOk (step Demo.env (step Demo.env (start 0) { provider, req := .createOffer Demo.offerReq }).2
      { provider, req := .token { Demo.tokenReq (Demo.rng 0) with credentialIssuer := "http://other.example" } }).1 = true :=
  ⟨rfl, rfl⟩

/-- The session of the token. -/
theorem session : ∃ s t auth, LiveSession redeemed (Demo.rng 2) "normal" s t ∧ t.cNonce = Demo.rng 3 ∧ Dict.Nodup t.credentials ∧
    ("emp-1", auth) ∈ t.credentials ∧ auth.configId = "Employee" ∧ auth.identifier = "emp-1" :=
  ⟨_, _, _, ⟨⟨rfl, rfl⟩, by unfold Live; decide, by decide, rfl⟩, rfl, authorizedCredentials_nodup _, .head _, rfl, rfl⟩

/-- C136 applies to it. -/
example : ∃ resp k vc at_, (step Demo.env (exec Demo.env (step Demo.env (step Demo.env (start 0) { provider, req := .createOffer Demo.offerReq }).2
      { provider, req := .token (Demo.tokenReq (Demo.rng 0)) }).2 [])
      { provider, req := .credential { Demo.credReq (Demo.rng 2) (Demo.rng 3) with credentialIssuer := "http://other.example" } }).1 =
      .ok (.credential resp) ∧ resp.response = .credential (.jwtVc k vc at_) ∧ vc.issuer = .string "http://other.example" ∧
      provider.signer "http://other.example" = some k := by
  obtain ⟨s, t, auth, hs, hn, hnt, hm, hc, hi⟩ := session
  exact C136_credential_issued_elsewhere (e := Demo.env) (w := (step Demo.env (start 0) { provider, req := .createOffer Demo.offerReq }).2)
    (redeem := { provider, req := .token (Demo.tokenReq (Demo.rng 0)) }) (tr := Demo.tokenResponse) (a := "http://vercre.io") (b := "http://other.example")
    (ask := { provider, req := .credential { Demo.credReq (Demo.rng 2) (Demo.rng 3) with credentialIssuer := "http://other.example" } })
    (iss := { Demo.issuer with credentialIssuer := "http://other.example" })
    rfl rfl rfl [] rfl rfl (by decide) rfl (fun _ _ => rfl) (subj := "normal") (s := s) (t := t) (did := "did:web:holder")
    hs rfl Demo.configs_nodup hnt rfl hm (cfg := Demo.employee) (by rw [hc]; exact .head _) rfl
    (.inr ⟨_, rfl, .head _, .inl ⟨_, rfl, _, _, rfl, rfl, by rw [hn], rfl, by decide⟩⟩) (ds := Demo.data false) (by rw [hi]; rfl) rfl
    ⟨⟨_, rfl, fun _ => rfl⟩, by decide, ⟨_, _, _, rfl⟩, fun _ => ⟨_, rfl⟩⟩

/-- C137 applies to the sample session: ten years on, it still gets a credential. -/
example : ∃ steps nonce resp c, AllRefused Demo.env Demo.validated steps ∧
    Demo.validated.now + (315360000000000000 : Nat) < (exec Demo.env Demo.validated steps).now ∧
    (step Demo.env (exec Demo.env Demo.validated steps) { provider := Demo.provider, req := .credential (Demo.credReq (Demo.rng 2) nonce) }).1 =
      .ok (.credential resp) ∧ resp.response = .credential c := by
  obtain ⟨s, t, auth, hs, hn, hnt, hm, hc, hi, hcl, _⟩ := Demo.liveSession
  have ht : t.accessToken = Demo.rng 2 := by
    have h1 := hs.session.1; have h2 := hs.session.2
    have : some s = _ := h1.symm.trans rfl
    cases this
    cases h2
    rfl
  exact C137_credential_after_any_time (req := { Demo.credReq (Demo.rng 2) "" with proof := none }) (proof := fun n => some (.single n))
    (Demo.working _) hs ht (iss := Demo.issuer) rfl Demo.configs_nodup hnt rfl hm (cfg := Demo.employee) (by rw [hc]; exact .head _)
    rfl rfl (fun n => Demo.proofsFit _ _ _) (ds := Demo.data false) (by rw [hi]; rfl) rfl (Demo.canIssue _) 315360000000000000

end LifetimeDemo

end Verif.Issuer
