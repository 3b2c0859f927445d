import Verif.Issuer.System
/-!
# Helper lemmas about `token`
-/
namespace Verif.Issuer
open Prog

/-- The state an access token is stored as. -/
def Token.stored (state : State) (accessToken cNonce : String) (now : Int) (items : List AuthorizedItem) : State :=
  { state with
    stage := .validated {
      accessToken, credentials := Token.authorizedCredentials items, cNonce, cNonceExpiresAt := now + nonceDur } }

/-- The response to a successful token request. -/
def Token.response (accessToken cNonce : String) (items : List AuthorizedItem) : TokenResponse where
  accessToken
  expiresIn := numSeconds accessDur
  cNonce := some cNonce
  cNonceExpiresIn := some (numSeconds nonceDur)
  authorizationDetails := Token.authorizedDetails items

theorem token_ok_iff {P : Provider} {req : TokenRequest} {e : Env} {w w' : World State} {resp : TokenResponse} :
    (token P req).run e w = (.ok resp, w') ↔
      ∃ state items,
        e.fault w.ops = .ok ∧ e.fault (w.ops + 1) = .ok ∧ e.fault (w.ops + 2) = .ok ∧
        w.store req.grantType.code = some state ∧
        Token.verify P state w.now req = .ok () ∧
        Token.grantedItems P state req = .ok items ∧
        resp = Token.response (e.rng w.drawn) (e.rng (w.drawn + 1)) items ∧
        w' = {
          store := upd (upd w.store req.grantType.code none) (e.rng w.drawn)
            (some (Token.stored state (e.rng w.drawn) (e.rng (w.drawn + 1)) w.now items))
          now := w.now, drawn := w.drawn + 2, ops := w.ops + 3 } := by
  simp only [token, Token.process, run_bind_ok, run_getE_ok, run_purgeE_ok, run_putE_ok, run_drawE_ok, run_nowE_ok,
    run_lift_ok, run_pure_ok]
  constructor
  · rintro ⟨s, _, ⟨h1, h2, rfl⟩, _, _, ⟨h3, rfl⟩, _, _, ⟨rfl, rfl⟩, _, _, ⟨h4, rfl⟩, items, _, ⟨h5, rfl⟩, _, _, ⟨rfl, rfl⟩,
      _, _, ⟨rfl, rfl⟩, _, _, ⟨rfl, rfl⟩, _, _, ⟨h6, rfl⟩, rfl, rfl⟩
    exact ⟨s, items, h1, h3, h6, h2, h4, h5, rfl, rfl⟩
  · rintro ⟨s, items, h1, h3, h6, h2, h4, h5, rfl, rfl⟩
    exact ⟨s, _, ⟨h1, h2, rfl⟩, (), _, ⟨h3, rfl⟩, _, _, ⟨rfl, rfl⟩, (), _, ⟨h4, rfl⟩, items, _, ⟨h5, rfl⟩, _, _, ⟨rfl, rfl⟩,
      _, _, ⟨rfl, rfl⟩, _, _, ⟨rfl, rfl⟩, (), _, ⟨h6, rfl⟩, rfl, rfl⟩

theorem numSeconds_neg (d : Int) : numSeconds d < 0 ↔ d ≤ -sec := by
  unfold numSeconds sec
  rw [Int.tdiv_eq_ediv]
  by_cases h : 0 ≤ d
  · simp [h]; omega
  · by_cases h' : (1000000000 : Int) ∣ d
    · simp [h']; omega
    · have : Int.sign 1000000000 = 1 := by decide
      simp only [h, h', or_self, if_false, this]; omega

theorem isExpired_iff (s : State) (now : Int) : s.isExpired now = true ↔ s.expiresAt + sec ≤ now := by
  simp only [State.isExpired, decide_eq_true_eq, numSeconds_neg]
  omega

theorem isExpired_false_iff (s : State) (now : Int) : s.isExpired now = false ↔ now < s.expiresAt + sec := by
  have := isExpired_iff s now
  cases h : s.isExpired now <;> simp_all <;> omega

theorem cNonceExpired_iff (t : Token) (now : Int) : t.cNonceExpired now = true ↔ t.cNonceExpiresAt + sec ≤ now := by
  simp only [Token.cNonceExpired, Token.cNonceExpiresIn, decide_eq_true_eq, numSeconds_neg]
  omega

theorem Token.verify_ok {P : Provider} {s : State} {now : Int} {req : TokenRequest} :
    Token.verify P s now req = .ok () ↔
      now < s.expiresAt + sec ∧ ∃ server supported, P.server req.credentialIssuer = some server ∧
        server.grantTypesSupported = some supported ∧ Token.checkGrant P server supported s req = .ok () ∧
        Token.checkClient P server req = .ok () := by
  simp only [Token.verify, Except.bind_ok, require_ok, orErr_ok, Bool.not_eq_true', isExpired_false_iff]
  constructor
  · rintro ⟨_, h, a, h1, b, h2, _, h3, h4⟩; exact ⟨h, a, b, h1, h2, h3, h4⟩
  · rintro ⟨h, a, b, h1, h2, h3, h4⟩; exact ⟨(), h, a, h1, b, h2, (), h3, h4⟩

theorem Token.checkGrant_pre {P : Provider} {server : Server} {sup : List GrantType} {s : State} {req : TokenRequest}
    {c : String} {tx : Option String} (hg : req.grantType = .preAuthorizedCode c tx) :
    Token.checkGrant P server sup s req = .ok () ↔
      ∃ o, s.stage = .offered o ∧ GrantType.preAuthorizedCode ∈ sup ∧
        (∃ cid, req.clientId = some cid ∧ (cid = "" → server.anonymousAccess = true)) ∧ tx = o.txCode := by
  simp only [Token.checkGrant, hg]
  cases hs : s.stage <;> simp only [Except.bind_ok, require_ok] <;> try (simp; done)
  rename_i o
  cases hc : req.clientId with
  | none => simp
  | some cid => by_cases h : cid = "" <;> simp [h]

theorem Token.checkGrant_auth {P : Provider} {server : Server} {sup : List GrantType} {s : State} {req : TokenRequest}
    {c : String} {uri ver : Option String} (hg : req.grantType = .authorizationCode c uri ver) :
    Token.checkGrant P server sup s req = .ok () ↔
      ∃ a v, s.stage = .authorized a ∧ GrantType.authorizationCode ∈ sup ∧ req.clientId = some a.clientId ∧
        uri = a.redirectUri ∧ ver = some v ∧ P.codeChallenge v = a.codeChallenge := by
  simp only [Token.checkGrant, hg]
  cases hs : s.stage <;> simp only [Except.bind_ok, require_ok, orErr_ok] <;> try (simp; done)
  rename_i a
  constructor
  · rintro ⟨_, h1, _, h2, _, h3, _, h4, v, h5, h6⟩
    exact ⟨a, v, rfl, by simpa [List.contains_iff_mem] using h1, by simpa using h3, by simpa using h4, h5, by simpa using h6⟩
  · rintro ⟨a', v, h0, h1, h3, h4, h5, h6⟩
    cases h0
    exact ⟨(), by simpa [List.contains_iff_mem] using h1, (), by simp [h3], (), by simp [h3], (), by simp [h4], v, h5,
      by simp [h6]⟩

theorem Authorize.checkScopes_ok {c : Client} {srv : Server} {u : Unit} :
    Authorize.checkScopes c srv = .ok u ↔
      ∃ cs ss, c.scope = some cs ∧ srv.scopesSupported = some ss ∧ ∀ s ∈ splitWs cs, s ∈ ss := by
  simp only [Authorize.checkScopes, Except.bind_ok, require_ok, orErr_ok, List.all_eq_true, List.contains_iff_mem]
  constructor
  · rintro ⟨a, h1, b, h2, h3⟩; exact ⟨a, b, h1, h2, h3⟩
  · rintro ⟨a, b, h1, h2, h3⟩; exact ⟨a, h1, b, h2, h3⟩

theorem Token.checkClient_ok {P : Provider} {srv : Server} {req : TokenRequest} :
    Token.checkClient P srv req = .ok () ↔
      ∀ cid, req.clientId = some cid → ∃ c, P.client cid = some c ∧
        ∃ cs ss, c.scope = some cs ∧ srv.scopesSupported = some ss ∧ ∀ s ∈ splitWs cs, s ∈ ss := by
  simp only [Token.checkClient]
  cases req.clientId with
  | none => simp
  | some cid =>
    simp only [Except.bind_ok, orErr_ok, Authorize.checkScopes_ok]
    simp

theorem insertIdentifiers_mem {cid : String} {ids : List String} {acc : Dict Authorized} {x : String × Authorized}
    (h : x ∈ Token.insertIdentifiers cid ids acc) :
    x ∈ acc ∨ x.1 ∈ ids ∧ x.2 = { identifier := x.1, configId := cid, claimIds := none } := by
  induction ids generalizing acc with
  | nil => exact .inl h
  | cons i is ih =>
    rcases ih h with h | ⟨h, h'⟩
    · rcases Dict.mem_insert h with rfl | h
      · exact .inr ⟨by simp, rfl⟩
      · exact .inl h
    · exact .inr ⟨by simp [h], h'⟩

theorem authorizedCredentials_aux {items : List AuthorizedItem} {acc : Dict Authorized} {x : String × Authorized}
    (h : x ∈ items.foldl (fun acc it => Token.insertIdentifiers it.configId it.identifiers acc) acc) :
    x ∈ acc ∨ ∃ it ∈ items, x.1 ∈ it.identifiers ∧ x.2 = { identifier := x.1, configId := it.configId, claimIds := none } := by
  induction items generalizing acc with
  | nil => exact .inl h
  | cons it items ih =>
    rcases ih h with h | ⟨it', h1, h2⟩
    · rcases insertIdentifiers_mem h with h | h
      · exact .inl h
      · exact .inr ⟨it, by simp, h⟩
    · exact .inr ⟨it', by simp [h1], h2⟩

theorem authorizedCredentials_mem {items : List AuthorizedItem} {x : String × Authorized}
    (h : x ∈ Token.authorizedCredentials items) :
    ∃ it ∈ items, x.1 ∈ it.identifiers ∧ x.2 = { identifier := x.1, configId := it.configId, claimIds := none } := by
  rcases authorizedCredentials_aux h with h | h
  · simp at h
  · exact h

theorem insertIdentifiers_has {cid : String} {ids : List String} {acc : Dict Authorized} {i : String} :
    i ∈ Dict.keys (Token.insertIdentifiers cid ids acc) ↔ i ∈ ids ∨ i ∈ Dict.keys acc := by
  induction ids generalizing acc with
  | nil => simp [Token.insertIdentifiers]
  | cons j is ih =>
    simp only [Token.insertIdentifiers, ih, Dict.keys_insert, List.mem_cons]
    grind

theorem authorizedCredentials_keys {items : List AuthorizedItem} {i : String} :
    i ∈ Dict.keys (Token.authorizedCredentials items) ↔ ∃ it ∈ items, i ∈ it.identifiers := by
  suffices ∀ acc, i ∈ Dict.keys (items.foldl (fun acc it => Token.insertIdentifiers it.configId it.identifiers acc) acc) ↔
      i ∈ Dict.keys acc ∨ ∃ it ∈ items, i ∈ it.identifiers by
    have h := this []
    rw [show Dict.keys ([] : Dict Authorized) = [] from rfl] at h
    simp only [List.not_mem_nil, false_or] at h
    exact h
  induction items with
  | nil => simp
  | cons it items ih =>
    intro acc
    simp only [List.foldl_cons, ih, insertIdentifiers_has, List.mem_cons, exists_eq_or_imp]
    grind

theorem insertIdentifiers_nodup {cid : String} {ids : List String} {acc : Dict Authorized} (h : Dict.Nodup acc) :
    Dict.Nodup (Token.insertIdentifiers cid ids acc) := by
  induction ids generalizing acc with
  | nil => exact h
  | cons j is ih => exact ih (Dict.nodup_insert h _ _)

theorem authorizedCredentials_nodup (items : List AuthorizedItem) : Dict.Nodup (Token.authorizedCredentials items) := by
  suffices ∀ acc, Dict.Nodup acc →
      Dict.Nodup (items.foldl (fun acc it => Token.insertIdentifiers it.configId it.identifiers acc) acc) from
    this [] (by simp [Dict.Nodup, Dict.keys])
  induction items with
  | nil => exact fun _ h => h
  | cons it items ih => exact fun acc h => ih _ (insertIdentifiers_nodup h)

theorem retainLoop_spec {iss : Issuer} {items : List AuthorizedItem} {ds : List AuthorizationDetail}
    {out : List AuthorizedItem} (h : Token.retainLoop iss items ds = .ok out) :
    out.length = ds.length ∧ ∀ p ∈ ds.zip out, p.2 ∈ items ∧
      ∃ ad, p.2.item = .detail ad ∧ ad.credential.eqv p.1.credential = true := by
  induction ds generalizing out with
  | nil => simp only [Token.retainLoop, Except.ok.injEq] at h; subst h; simp
  | cons d ds ih =>
    simp only [Token.retainLoop, Except.bind_ok, orErr_ok] at h
    obtain ⟨it, h1, _, _, rest, h2, h3⟩ := h
    have h3 : it :: rest = out := by simpa [pure, Except.pure] using h3
    subst h3
    obtain ⟨hl, hz⟩ := ih h2
    refine ⟨by simp [hl], ?_⟩
    intro p hp
    rw [List.zip_cons_cons, List.mem_cons] at hp
    rcases hp with rfl | hp
    · refine ⟨List.mem_of_find?_eq_some h1, ?_⟩
      have hf := List.find?_some h1
      cases hi : it.item with
      | detail ad => exact ⟨ad, rfl, by simpa [hi] using hf⟩
      | scope s => simp [hi] at hf
    · exact hz p hp

end Verif.Issuer
