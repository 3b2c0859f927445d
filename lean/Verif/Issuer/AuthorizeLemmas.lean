import Verif.Issuer.Frozen
import Verif.Issuer.Spec
/-!
# Inversion lemmas for `authorize` and `par`
-/
namespace Verif.Issuer
open Prog

/-- What the client, server and request have to satisfy for an authorization, apart from credentials and `issuer_state`. -/
structure ValidAuthorization (client : Client) (server : Server) (r : RequestObject) : Prop where
  /-- the response type is supported by server and client -/
  responseType : r.responseType ∈ server.responseTypesSupported ∧ ∃ l, client.responseTypes = some l ∧ r.responseType ∈ l
  /-- the authorization code grant is supported by server and client -/
  grantType : (∃ l, server.grantTypesSupported = some l ∧ GrantType.authorizationCode ∈ l) ∧
    ∃ l, client.grantTypes = some l ∧ GrantType.authorizationCode ∈ l
  /-- every scope value registered for the client is supported by the server -/
  scope : ∃ cs ss, client.scope = some cs ∧ server.scopesSupported = some ss ∧ ∀ s ∈ splitWs cs, s ∈ ss
  /-- the redirect URI is registered for the client -/
  redirectUri : ∃ u us, r.redirectUri = some u ∧ client.redirectUris = some us ∧ u ∈ us
  /-- the challenge method is supported -/
  method : ∃ l, server.codeChallengeMethodsSupported = some l ∧ r.codeChallengeMethod ∈ l
  /-- the challenge has 43 to 128 bytes -/
  challenge : 43 ≤ r.codeChallenge.utf8ByteSize ∧ r.codeChallenge.utf8ByteSize ≤ 128
  /-- a subject is named -/
  subject : r.subjectId ≠ ""
  /-- credentials are asked for -/
  asks : r.authorizationDetails ≠ none ∨ r.scope ≠ none

theorem mem_getD_nil {α : Type} {o : Option (List α)} {a : α} :
    a ∈ o.getD [] ↔ ∃ l, o = some l ∧ a ∈ l := by
  cases o <;> simp

theorem Authorize.verifyPre_ok {client : Client} {server : Server} {isPar : Bool} {r : RequestObject} :
    Authorize.verifyPre client server isPar r = .ok () ↔
      (server.requirePar = some true → isPar = true) ∧ r.responseType ∈ server.responseTypesSupported ∧
      (∃ cs ss, client.scope = some cs ∧ server.scopesSupported = some ss ∧ ∀ s ∈ splitWs cs, s ∈ ss) ∧
      (∃ l, client.grantTypes = some l ∧ GrantType.authorizationCode ∈ l) ∧
      (∃ l, server.grantTypesSupported = some l ∧ GrantType.authorizationCode ∈ l) ∧ r.subjectId ≠ "" := by
  simp only [Authorize.verifyPre, Except.bind_ok, require_ok, Authorize.checkScopes_ok, mem_getD_nil,
    List.contains_iff_mem]
  constructor
  · rintro ⟨_, h1, _, h2, _, h3, _, h4, _, h5, h6⟩
    refine ⟨fun h => ?_, h2, h3, h4, h5, by simpa using h6⟩
    rw [h] at h1; simpa using h1
  · rintro ⟨h1, h2, h3, h4, h5, h6⟩
    refine ⟨(), ?_, (), h2, (), h3, (), h4, (), h5, by simpa using h6⟩
    by_cases h : server.requirePar = some true
    · simp [h1 h]
    · simp [h]

theorem Authorize.verifyPost_ok {iss : Issuer} {client : Client} {server : Server} {r : RequestObject}
    {ds : Dict AuthorizationDetail} {ss : Dict String} :
    Authorize.verifyPost iss client server r = .ok (ds, ss) ↔
      (r.authorizationDetails ≠ none ∨ r.scope ≠ none) ∧
      Authorize.verifyDetailsOpt iss r.authorizationDetails = .ok ds ∧
      Authorize.verifyScopeOpt iss ds r.scope = .ok ss ∧
      (∃ u us, r.redirectUri = some u ∧ client.redirectUris = some us ∧ u ∈ us) ∧
      (∃ l, client.responseTypes = some l ∧ r.responseType ∈ l) ∧
      r.responseType ∈ server.responseTypesSupported ∧
      (∃ l, server.codeChallengeMethodsSupported = some l ∧ r.codeChallengeMethod ∈ l) ∧
      43 ≤ r.codeChallenge.utf8ByteSize ∧ r.codeChallenge.utf8ByteSize ≤ 128 := by
  simp only [Authorize.verifyPost, Except.bind_ok, require_ok, orErr_ok, mem_getD_nil, List.contains_iff_mem, pure,
    Except.pure, Except.ok.injEq, Prod.mk.injEq]
  constructor
  · rintro ⟨_, h1, ds', h2, ss', h3, u, h4, us, h5, _, h6, _, h7, _, h8, _, h9, _, h10, rfl, rfl⟩
    refine ⟨?_, h2, h3, ⟨u, us, h4, h5, h6⟩, h7, h8, h9, ?_⟩
    · cases ha : r.authorizationDetails <;> cases hs : r.scope <;> simp_all
    · simp at h10; omega
  · rintro ⟨h1, h2, h3, ⟨u, us, h4, h5, h6⟩, h7, h8, h9, h10⟩
    refine ⟨(), ?_, ds, h2, ss, h3, u, h4, us, h5, (), h6, (), h7, (), h8, (), h9, (), ?_, rfl, rfl⟩
    · cases ha : r.authorizationDetails <;> cases hs : r.scope <;> simp_all
    · simp; omega

/-- The request object that an authorization request stands for: itself, or the unexpired pushed request stored under its
URI. -/
def AuthorizationRequest.DenotesIn (request : AuthorizationRequest) (w : World State) (r : RequestObject) : Prop :=
  match request with
  | .object r' => r = r'
  | .uri u => ∃ s exp, w.store u = some s ∧ s.stage = .pushed r exp ∧ w.now ≤ exp

theorem Authorize.resolve_ok {request : AuthorizationRequest} {e : Env} {w w1 : World State} {b : Bool} {r : RequestObject}
    (h : (Authorize.resolve request).run e w = (.ok (b, r), w1)) :
    request.DenotesIn w r ∧ w1.store = w.store ∧ w1.now = w.now ∧ w1.drawn = w.drawn ∧ w.ops ≤ w1.ops ∧
      (b = true ↔ ∃ u, request = .uri u) := by
  cases request with
  | object r' =>
    simp only [Authorize.resolve, run_pure_ok, Prod.mk.injEq] at h
    obtain ⟨⟨rfl, rfl⟩, rfl⟩ := h
    exact ⟨rfl, rfl, rfl, rfl, Nat.le_refl _, by simp⟩
  | uri u =>
    simp only [Authorize.resolve] at h
    obtain ⟨s, w2, h1, h⟩ := run_bind_ok.1 h
    obtain ⟨p, w3, h2, h⟩ := run_bind_ok.1 h
    obtain ⟨t, w4, h3, h⟩ := run_bind_ok.1 h
    obtain ⟨_, w5, h4, h⟩ := run_bind_ok.1 h
    obtain ⟨_, g1, rfl⟩ := run_getE_ok.1 h1
    obtain ⟨g2, rfl⟩ := run_lift_ok.1 h2
    obtain ⟨rfl, rfl⟩ := run_nowE_ok.1 h3
    obtain ⟨g4, rfl⟩ := run_lift_ok.1 h4
    obtain ⟨g, rfl⟩ := run_pure_ok.1 h
    cases g
    simp only [require_ok] at g4
    simp only [Authorize.pushed] at g2
    split at g2
    · rename_i r exp hs
      cases g2
      exact ⟨⟨s, exp, g1, hs, by simpa using g4⟩, rfl, rfl, rfl, by simp, by simp⟩
    · cases g2

/-- What a successful `verify` of an authorization or pushed request establishes. -/
theorem Authorize.verify_ok {P : Provider} {iss : Issuer} {isPar : Bool} {r : RequestObject} {e : Env} {w w1 : World State}
    {ds : Dict AuthorizationDetail} {ss : Dict String}
    (h : (Authorize.verify P iss isPar r).run e w = (.ok (ds, ss), w1)) :
    w1.store = w.store ∧ w1.now = w.now ∧ w1.drawn = w.drawn ∧ w.ops ≤ w1.ops ∧
    ∃ client server, P.client r.clientId = some client ∧ P.server r.credentialIssuer = some server ∧
      (server.requirePar = some true → isPar = true) ∧ ValidAuthorization client server r ∧
      Authorize.verifyDetailsOpt iss r.authorizationDetails = .ok ds ∧ Authorize.verifyScopeOpt iss ds r.scope = .ok ss ∧
      ∀ k, r.issuerState = some k → ∃ s, w.store k = some s ∧ Live s w.now ∧ s.subjectId = some r.subjectId := by
  simp only [Authorize.verify, run_bind_ok, run_lift_ok, orErr_ok] at h
  obtain ⟨client, w2, ⟨h1, rfl⟩, server, w3, ⟨h2, rfl⟩, _, w4, ⟨h3, rfl⟩, _, w5, h4, h, rfl⟩ := h
  obtain ⟨p1, p2, p3, p4, p5, p6⟩ := Authorize.verifyPre_ok.1 h3
  obtain ⟨q1, q2, q3, q4, q5, q6, q7, q8⟩ := Authorize.verifyPost_ok.1 h
  have hI : w1.store = w4.store ∧ w1.now = w4.now ∧ w1.drawn = w4.drawn ∧ w4.ops ≤ w1.ops ∧
      ∀ k, r.issuerState = some k → ∃ s, w4.store k = some s ∧ Live s w4.now ∧ s.subjectId = some r.subjectId := by
    unfold Authorize.checkIssuerState at h4
    split at h4
    · rename_i hn
      obtain ⟨_, rfl⟩ := run_pure_ok.1 h4
      exact ⟨rfl, rfl, rfl, Nat.le_refl _, fun k hk => by rw [hn] at hk; cases hk⟩
    · rename_i k hk
      simp only [run_bind_ok, run_lift_ok, run_getE_ok, run_nowE_ok] at h4
      obtain ⟨s, w6, ⟨_, g1, rfl⟩, t, w7, ⟨rfl, rfl⟩, _, w8, ⟨g3, rfl⟩, h4, rfl⟩ := h4
      refine ⟨rfl, rfl, rfl, by simp, fun k' hk' => ?_⟩
      rw [hk] at hk'; cases hk'
      simp only [require_ok, Bool.not_eq_true', isExpired_false_iff, beq_iff_eq] at g3 h4
      exact ⟨s, g1, g3, h4⟩
  refine ⟨hI.1, hI.2.1, hI.2.2.1, hI.2.2.2.1, client, server, h1, h2, p1, ?_, q2, q3,
    hI.2.2.2.2⟩
  exact ⟨⟨p2, q5⟩, ⟨p5, p4⟩, p3, q4, q7, q8, p6, q1⟩

/-- What is stored for an issued authorization code. -/
def Authorize.stored (r : RequestObject) (items : List AuthorizedItem) (now : Int) : State where
  expiresAt := now + authorizedDur
  subjectId := some r.subjectId
  stage := .authorized {
    codeChallenge := r.codeChallenge
    codeChallengeMethod := r.codeChallengeMethod
    items
    clientId := r.clientId
    redirectUri := r.redirectUri }

/-- Everything a successful authorization establishes. -/
theorem authorize_ok {P : Provider} {request : AuthorizationRequest} {e : Env} {w w' : World State}
    {resp : AuthorizationResponse} (h : (authorize P request).run e w = (.ok resp, w')) :
    ∃ r iss client server ds ss items, request.DenotesIn w r ∧ P.issuer r.credentialIssuer = some iss ∧
      P.client r.clientId = some client ∧ P.server r.credentialIssuer = some server ∧
      (server.requirePar = some true → ∃ u, request = .uri u) ∧ ValidAuthorization client server r ∧
      Authorize.verifyDetailsOpt iss r.authorizationDetails = .ok ds ∧ Authorize.verifyScopeOpt iss ds r.scope = .ok ss ∧
      (∀ k, r.issuerState = some k → ∃ s, w.store k = some s ∧ Live s w.now ∧ s.subjectId = some r.subjectId) ∧
      Authorize.authorizeItems P r.subjectId ds ss = .ok items ∧ resp.code = e.rng w.drawn ∧
      w'.store = (match r.issuerState with
        | none => upd w.store (e.rng w.drawn) (some (Authorize.stored r items w.now))
        | some k => upd (upd w.store (e.rng w.drawn) (some (Authorize.stored r items w.now))) k none) ∧
      w'.now = w.now ∧ w'.drawn = w.drawn + 1 ∧ w.ops ≤ w'.ops ∧ resp.state = r.state := by
  simp only [authorize, Authorize.process, run_bind_ok, run_lift_ok, orErr_ok, run_nowE_ok, run_drawE_ok, run_putE_ok,
    run_pure_ok] at h
  obtain ⟨⟨b, r⟩, w1, h1, iss, w2, ⟨h2, rfl⟩, ⟨ds, ss⟩, w3, h3, items, w4, ⟨h4, rfl⟩, t, w5, ⟨rfl, rfl⟩, code, w6, ⟨rfl, rfl⟩,
    _, w7, ⟨_, rfl⟩, _, w8, h8, rfl, rfl⟩ := h
  obtain ⟨hden, hs1, hn1, hd1, ho1, hb⟩ := Authorize.resolve_ok h1
  obtain ⟨hs3, hn3, hd3, ho3, client, server, hc, hsv, hpar, hva, hdet, hsc, hist⟩ := Authorize.verify_ok h3
  have hstore : w'.store = (match r.issuerState with
        | none => upd w.store (e.rng w.drawn) (some (Authorize.stored r items w.now))
        | some k => upd (upd w.store (e.rng w.drawn) (some (Authorize.stored r items w.now))) k none) ∧
      w'.now = w.now ∧ w'.drawn = w.drawn + 1 ∧ w.ops ≤ w'.ops := by
    unfold Authorize.purgeOffer at h8
    split at h8
    · rename_i hn
      obtain ⟨_, rfl⟩ := run_pure_ok.1 h8
      rw [hn]
      simp only [hs3, hs1, hn3, hn1, hd3, hd1, Authorize.stored]
      refine ⟨trivial, trivial, trivial, by omega⟩
    · rename_i k hk
      obtain ⟨_, rfl⟩ := run_purgeE_ok.1 h8
      rw [hk]
      simp only [hs3, hs1, hn3, hn1, hd3, hd1, Authorize.stored]
      refine ⟨trivial, trivial, trivial, by omega⟩
  refine ⟨r, iss, client, server, ds, ss, items, hden, h2, hc, hsv, fun hp => hb.1 (hpar hp), hva, hdet, hsc,
    ?_, h4, by simp [hd3, hd1], hstore.1, hstore.2.1, hstore.2.2.1, hstore.2.2.2, rfl⟩
  intro k hk
  obtain ⟨s, g1, g2, g3⟩ := hist k hk
  exact ⟨s, by rw [← hs1]; exact g1, by rw [← hn1]; exact g2, g3⟩

/-- Everything a successful push establishes. -/
theorem par_ok {P : Provider} {r : RequestObject} {e : Env} {w w' : World State} {resp : ParResponse}
    (h : (par P r).run e w = (.ok resp, w')) :
    ∃ iss client server ds ss, P.issuer r.credentialIssuer = some iss ∧
      P.client r.clientId = some client ∧ P.server r.credentialIssuer = some server ∧
      server.requirePar ≠ some true ∧ ValidAuthorization client server r ∧
      Authorize.verifyDetailsOpt iss r.authorizationDetails = .ok ds ∧ Authorize.verifyScopeOpt iss ds r.scope = .ok ss ∧
      resp = { requestUri := urn ++ e.rng w.drawn, expiresIn := 600 } ∧
      w'.store = upd w.store (urn ++ e.rng w.drawn)
        (some { subjectId := none, stage := .pushed r (w.now + parDur), expiresAt := w.now + parDur }) ∧
      w'.now = w.now ∧ w'.drawn = w.drawn + 1 := by
  simp only [par, run_bind_ok, run_lift_ok, orErr_ok, run_nowE_ok, run_drawE_ok, run_putE_ok, run_pure_ok] at h
  obtain ⟨iss, w2, ⟨h2, rfl⟩, ⟨ds, ss⟩, w3, h3, code, w6, ⟨rfl, rfl⟩, t, w5, ⟨rfl, rfl⟩, _, _, ⟨rfl, rfl⟩, _, w7, ⟨_, rfl⟩, rfl, rfl⟩ := h
  obtain ⟨hs3, hn3, hd3, ho3, client, server, hc, hsv, hpar, hva, hdet, hsc, hist⟩ := Authorize.verify_ok h3
  refine ⟨iss, client, server, ds, ss, h2, hc, hsv, ?_, hva, hdet, hsc, ?_, ?_, hn3, by simp [hd3]⟩
  · intro hp; have := hpar hp; simp at this
  · simp [urn, hd3]
  · simp [urn, hd3, hs3, hn3]

theorem Authorize.verifyDetails_keys {iss : Issuer} {l : List AuthorizationDetail} {acc m : Dict AuthorizationDetail}
    (h : Authorize.verifyDetails iss l acc = .ok m) :
    (∀ id, id ∈ Dict.keys m ↔ id ∈ Dict.keys acc ∨ ∃ d ∈ l, ∃ c, Authorize.detailTarget iss d = .ok (id, c)) ∧
    (∀ d ∈ l, ∃ id c, Authorize.detailTarget iss d = .ok (id, c) ∧ Authorize.checkClaims iss id c = .ok ()) ∧
    (∀ x ∈ m, x ∈ acc ∨ x.2 ∈ l ∧ ∃ c, Authorize.detailTarget iss x.2 = .ok (x.1, c)) := by
  induction l generalizing acc with
  | nil => simp only [Authorize.verifyDetails, Except.ok.injEq] at h; subst h; simp
  | cons d l ih =>
    simp only [Authorize.verifyDetails, Except.bind_ok] at h
    obtain ⟨⟨id0, c0⟩, h1, _, h2, h3⟩ := h
    obtain ⟨ih1, ih2, ih3⟩ := ih h3
    refine ⟨?_, ?_, ?_⟩
    · intro id
      rw [ih1, Dict.keys_insert]
      constructor
      · rintro ((rfl | h) | ⟨d', hd', h⟩)
        · exact .inr ⟨d, by simp, c0, h1⟩
        · exact .inl h
        · exact .inr ⟨d', by simp [hd'], h⟩
      · rintro (h | ⟨d', hd', c, h⟩)
        · exact .inl (.inr h)
        · rcases List.mem_cons.1 hd' with rfl | hd'
          · rw [h1] at h; cases h; exact .inl (.inl rfl)
          · exact .inr ⟨d', hd', c, h⟩
    · intro d' hd'
      rcases List.mem_cons.1 hd' with rfl | hd'
      · exact ⟨id0, c0, h1, h2⟩
      · exact ih2 d' hd'
    · intro x hx
      rcases ih3 x hx with h | ⟨h, c, h'⟩
      · rcases Dict.mem_insert h with rfl | h
        · exact .inr ⟨by simp, c0, h1⟩
        · exact .inl h
      · exact .inr ⟨by simp [h], c, h'⟩

end Verif.Issuer
