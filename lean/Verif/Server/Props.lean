import Verif.Server.Model
import Verif.Issuer.AcceptProps
import Verif.Issuer.StepLemmas
import Verif.Issuer.Panic
/-!
# C138 – C142: logging in at the example issuer
-/
namespace Verif.Server
open Issuer (RequestObject AuthorizationRequest Req Resp Provider Step step_authorize map_ok pair_of_fst)
open Prog

/-! ### Specification -/

/-- Somebody logged in as `normal_user`, with the password, during these visits. -/
def LoggedIn (a : Around) (s : Site) (l : List Visit) : Prop :=
  ∃ pre v post host t h r, l = pre ++ v :: post ∧ v.http = .login host "normal_user" "password" t ∧
    (serve a v.provider v.wait (after a s pre) v.http).1 = .toAuth h r

/-- A login form with token `t` was shown during these visits. -/
def Shown (a : Around) (s : Site) (l : List Visit) (t : String) : Prop :=
  ∃ pre v post, l = pre ++ v :: post ∧ (serve a v.provider v.wait (after a s pre) v.http).1 = .form t

/-- The tokens of login forms never repeat, and none is a user's name. (`CsrfToken::new_random` of the oauth2 crate: 16 random bytes.) -/
structure Around.Fresh (a : Around) : Prop where
  inj : ∀ i j, a.csrf i = a.csrf j → i = j
  user : ∀ i, a.csrf i ≠ "normal_user"

/-- Two requests to an endpoint that differ at most in the issuer and the access token they name. -/
inductive SameButAddress : Req → Req → Prop
  | createOffer (r i) : SameButAddress (.createOffer r) (.createOffer { r with credentialIssuer := i })
  | credentialOffer (r i) : SameButAddress (.credentialOffer r) (.credentialOffer { r with credentialIssuer := i })
  | token (r i) : SameButAddress (.token r) (.token { r with credentialIssuer := i })
  | credential (r i t) : SameButAddress (.credential r) (.credential { r with credentialIssuer := i, accessToken := t })
  | deferred (r i t) : SameButAddress (.deferred r) (.deferred { r with credentialIssuer := i, accessToken := t })
  | metadata (i j) : SameButAddress (.metadata i) (.metadata j)
  | oauthServer (i j) : SameButAddress (.oauthServer i) (.oauthServer j)

/-! ### Lemmas -/

theorem keys_filter {α : Type} {m : Dict α} {k t : String} : k ∈ Dict.keys (m.filter fun x => x.1 != t) ↔ k ∈ Dict.keys m ∧ k ≠ t := by
  simp only [Dict.keys, List.mem_map, List.mem_filter, bne_iff_ne, ne_eq]
  constructor
  · rintro ⟨x, ⟨h1, h2⟩, rfl⟩; exact ⟨⟨x, h1, rfl⟩, h2⟩
  · rintro ⟨⟨x, h1, rfl⟩, h2⟩; exact ⟨x, ⟨h1, h2⟩, rfl⟩

theorem LoggedIn.more {a : Around} {s : Site} {l : List Visit} (h : LoggedIn a s l) (m : List Visit) : LoggedIn a s (l ++ m) := by
  obtain ⟨pre, v, post, host, t, h', r, rfl, h1⟩ := h
  exact ⟨pre, v, post ++ m, host, t, h', r, by simp, h1⟩

theorem Shown.more {a : Around} {s : Site} {l : List Visit} {t : String} (h : Shown a s l t) (m : List Visit) : Shown a s (l ++ m) t := by
  obtain ⟨pre, v, post, rfl, h1⟩ := h
  exact ⟨pre, v, post ++ m, by simp, h1⟩

/-- What one visit does to the two maps. -/
theorem serve_keys (a : Around) (P : Provider) (wait : Nat) (s : Site) (h : Http) :
    (∀ k ∈ Dict.keys (serve a P wait s h).2.logins, k ∈ Dict.keys s.logins ∨ (serve a P wait s h).1 = .form k ∨
      (k = "normal_user" ∧ ∃ host t h' r, h = .login host "normal_user" "password" t ∧ (serve a P wait s h).1 = .toAuth h' r)) ∧
    (∀ k ∈ Dict.keys (serve a P wait s h).2.pushes, k ∈ Dict.keys s.pushes ∨ (serve a P wait s h).1 = .form k) := by
  cases h with
  | auth host req =>
    cases req with
    | uri u => exact ⟨fun k hk => .inl hk, fun k hk => .inl hk⟩
    | object r =>
      simp only [serve, auth]
      split
      · exact ⟨fun k hk => .inl hk, fun k hk => .inl hk⟩
      split
      · refine ⟨fun k hk => ?_, fun k hk => .inl hk⟩
        rcases Dict.keys_insert.1 hk with rfl | hk
        · exact .inr (.inl rfl)
        · exact .inl hk
      split
      · exact ⟨fun k hk => .inl hk, fun k hk => .inl hk⟩
      · exact ⟨fun k hk => .inl hk, fun k hk => .inl hk⟩
  | par host r =>
    simp only [serve, par]
    split
    · exact ⟨fun k hk => .inl hk, fun k hk => .inl hk⟩
    split
    · refine ⟨fun k hk => .inl hk, fun k hk => ?_⟩
      rcases Dict.keys_insert.1 hk with rfl | hk
      · exact .inr rfl
      · exact .inl hk
    · exact ⟨fun k hk => .inl hk, fun k hk => .inl hk⟩
  | login host u p t =>
    simp only [serve, login]
    split
    · exact ⟨fun k hk => .inl hk, fun k hk => .inl hk⟩
    rename_i hu
    split
    · exact ⟨fun k hk => .inl hk, fun k hk => .inl hk⟩
    rename_i hp
    simp only [ne_eq, Classical.not_not] at hu hp
    subst hu hp
    split
    · exact ⟨fun k hk => .inl hk, fun k hk => .inl hk⟩
    · rename_i r hr
      refine ⟨fun k hk => ?_, fun k hk => .inl hk⟩
      rcases Dict.keys_insert.1 hk with rfl | hk
      · exact .inr (.inr ⟨rfl, host, t, host, r, rfl, rfl⟩)
      · exact .inl (keys_filter.1 hk).1
  | api host b req =>
    simp only [serve]
    split <;> exact ⟨fun k hk => .inl hk, fun k hk => .inl hk⟩

/-- Whatever is in the maps is the token of a form that was shown, or the name of a user who logged in. -/
theorem known (a : Around) (s0 : Site) (l : List Visit) : ∀ done,
    ((∀ k ∈ Dict.keys (after a s0 done).logins, (k = "normal_user" ∧ LoggedIn a s0 done) ∨ Shown a s0 done k) ∧
      ∀ k ∈ Dict.keys (after a s0 done).pushes, Shown a s0 done k) →
    (∀ k ∈ Dict.keys (after a s0 (done ++ l)).logins, (k = "normal_user" ∧ LoggedIn a s0 (done ++ l)) ∨ Shown a s0 (done ++ l) k) ∧
      ∀ k ∈ Dict.keys (after a s0 (done ++ l)).pushes, Shown a s0 (done ++ l) k := by
  induction l with
  | nil => intro done h; simpa using h
  | cons v l ih =>
    intro done h
    have := ih (done ++ [v]) ?_
    · simpa using this
    rw [after_append]
    show (∀ k ∈ Dict.keys (serve a v.provider v.wait (after a s0 done) v.http).2.logins, _) ∧
      ∀ k ∈ Dict.keys (serve a v.provider v.wait (after a s0 done) v.http).2.pushes, _
    obtain ⟨h1, h2⟩ := serve_keys a v.provider v.wait (after a s0 done) v.http
    refine ⟨fun k hk => ?_, fun k hk => ?_⟩
    · rcases h1 k hk with hk | hk | ⟨rfl, host, t, h', r, q1, q2⟩
      · rcases h.1 k hk with ⟨hk, hl⟩ | hs
        · exact .inl ⟨hk, hl.more _⟩
        · exact .inr (hs.more _)
      · exact .inr ⟨done, v, [], rfl, hk⟩
      · exact .inl ⟨rfl, done, v, [], host, t, h', r, rfl, q1, q2⟩
    · rcases h2 k hk with hk | hk
      · exact (h.2 k hk).more _
      · exact ⟨done, v, [], rfl, hk⟩

theorem known_opened (a : Around) (t0 : Int) (l : List Visit) :
    (∀ k ∈ Dict.keys (after a (opened t0) l).logins, (k = "normal_user" ∧ LoggedIn a (opened t0) l) ∨ Shown a (opened t0) l k) ∧
      ∀ k ∈ Dict.keys (after a (opened t0) l).pushes, Shown a (opened t0) l k := by
  have := known a (opened t0) l [] ⟨fun k hk => (nomatch hk), fun k hk => nomatch hk⟩
  simpa using this

/-- A user stays logged in. -/
theorem stays (a : Around) (P : Provider) (wait : Nat) (s : Site) (h : Http) (hk : "normal_user" ∈ Dict.keys s.logins) :
    "normal_user" ∈ Dict.keys (serve a P wait s h).2.logins := by
  cases h with
  | auth host req =>
    cases req with
    | uri u => exact hk
    | object r =>
      simp only [serve, auth]
      split
      · exact hk
      split
      · exact Dict.keys_insert.2 (.inr hk)
      split <;> exact hk
  | par host r =>
    simp only [serve, par]
    split
    · exact hk
    split <;> exact hk
  | login host u p t =>
    simp only [serve, login]
    split
    · exact hk
    rename_i hu
    split
    · exact hk
    simp only [ne_eq, Classical.not_not] at hu
    subst hu
    split
    · exact hk
    · exact Dict.keys_insert.2 (.inl rfl)
  | api host b req =>
    simp only [serve]
    split <;> exact hk

theorem stays_after (a : Around) (s : Site) (l : List Visit) (hk : "normal_user" ∈ Dict.keys s.logins) :
    "normal_user" ∈ Dict.keys (after a s l).logins := by
  induction l generalizing s with
  | nil => exact hk
  | cons v l ih => exact ih _ (stays a v.provider v.wait s v.http hk)

theorem LoggedIn.key {a : Around} {s : Site} {l : List Visit} (h : LoggedIn a s l) : "normal_user" ∈ Dict.keys (after a s l).logins := by
  obtain ⟨pre, v, post, host, t, h', r, rfl, h1, h2⟩ := h
  rw [after_append]
  refine stays_after a (serve a v.provider v.wait (after a s pre) v.http).2 post ?_
  rw [h1] at h2 ⊢
  simp only [serve, login] at h2 ⊢
  rw [if_neg (by simp), if_neg (by simp)] at h2 ⊢
  split at h2
  · cases h2
  · exact Dict.keys_insert.2 (.inl rfl)

/-- A request whose subject is in the map is passed on to the issuer. -/
theorem passed_on {a : Around} {P : Provider} {wait : Nat} {s : Site} {host uri : String} {r : RequestObject} (hne : r.subjectId ≠ "")
    (hk : r.subjectId ∈ Dict.keys s.logins) (hu : r.redirectUri = some uri) :
    serve a P wait s (.auth host (.object r)) =
      (authReply uri (Issuer.step a.env s.issuer { provider := P, wait, req := .authorize (.object r) }).1,
        { s with issuer := (Issuer.step a.env s.issuer { provider := P, wait, req := .authorize (.object r) }).2 }) := by
  simp only [serve, auth]
  rw [if_neg hne, if_neg (by simp [Dict.has_iff.2 hk])]
  simp only [hu]

/-- A code is given only after the subject was found in the map, and the issuer gave it. -/
theorem code_given {a : Around} {P : Provider} {wait : Nat} {s : Site} {host uri c : String} {req : AuthorizationRequest}
    (h : (serve a P wait s (.auth host req)).1 = .code uri c) :
    ∃ r resp, req = .object r ∧ r.subjectId ∈ Dict.keys s.logins ∧ r.redirectUri = some uri ∧ resp.code = c ∧
      ((Issuer.authorize P (.object r)).run a.env (Issuer.World.wait s.issuer wait)).1 = .ok resp := by
  cases req with
  | uri u => cases h
  | object r =>
    simp only [serve, auth] at h
    split at h
    · cases h
    split at h
    · cases h
    rename_i hk
    split at h
    · cases h
    · rename_i uri' hu
      simp only [Bool.not_eq_false] at hk
      rw [step_authorize (r := .object r) rfl] at h
      generalize hx : ((Issuer.authorize P (.object r)).run a.env (Issuer.World.wait s.issuer wait)).1 = x at h
      cases x with
      | ok resp =>
        simp only [Except.map, authReply, Reply.code.injEq] at h
        exact ⟨r, resp, rfl, Dict.has_iff.1 hk, by rw [← h.1]; exact hu, h.2, hx⟩
      | error e => cases e <;> cases h

theorem code_only_auth {a : Around} {P : Provider} {wait : Nat} {s : Site} {h : Http} {uri c : String} (hc : (serve a P wait s h).1 = .code uri c) :
    ∃ host req, h = .auth host req := by
  have hr : ∀ x : Res Resp, reply x ≠ .code uri c := by
    intro x
    unfold reply
    split <;> simp
  cases h with
  | auth host req => exact ⟨host, req, rfl⟩
  | par host r =>
    simp only [serve, par] at hc
    split at hc
    · cases hc
    split at hc
    · cases hc
    · exact absurd hc (hr _)
  | login host u p t =>
    simp only [serve, login] at hc
    split at hc
    · cases hc
    split at hc
    · cases hc
    split at hc <;> cases hc
  | api host b req =>
    simp only [serve] at hc
    split at hc
    · cases hc
    · exact absurd hc (hr _)

/-! ### C138 -/

/-- **C138**, the part that holds: no code is given for a subject, in any history, unless the user `normal_user` is that subject and has logged in at some
time before; or else the subject is the token of a login form that was shown. -/
theorem C138_code_needs_login_partial {a : Around} {t0 : Int} {l : List Visit} {v : Visit} {uri c : String}
    (h : (serve a v.provider v.wait (after a (opened t0) l) v.http).1 = .code uri c) :
    ∃ host r, v.http = .auth host (.object r) ∧
      ((r.subjectId = "normal_user" ∧ LoggedIn a (opened t0) l) ∨ Shown a (opened t0) l r.subjectId) := by
  obtain ⟨host, req, hv⟩ := code_only_auth h
  rw [hv] at h
  obtain ⟨r, _, rfl, hk, _⟩ := code_given h
  exact ⟨host, r, hv, (known_opened a t0 l).1 _ hk⟩

/-- **C138 is false**: once `normal_user` has logged in, every acceptable request for that subject gets a code, at any later time, from whatever browser and
for whatever client it comes. Nobody logs in again. -/
theorem C138_one_login_serves_all {a : Around} {s0 : Site} {l later : List Visit} (h : LoggedIn a s0 l) {v : Visit} {host uri : String} {r : RequestObject}
    (hv : v.http = .auth host (.object r)) (hs : r.subjectId = "normal_user") (hu : r.redirectUri = some uri)
    (hst : Issuer.Working a.env (Issuer.World.wait (after a s0 (l ++ later)).issuer v.wait))
    (ha : Issuer.Acceptable v.provider (Issuer.World.wait (after a s0 (l ++ later)).issuer v.wait) r)
    (hp : ∀ server, v.provider.server r.credentialIssuer = some server → server.requirePar ≠ some true) :
    ∃ c, (serve a v.provider v.wait (after a s0 (l ++ later)) v.http).1 = .code uri c := by
  have hk : r.subjectId ∈ Dict.keys (after a s0 (l ++ later)).logins := by
    rw [hs, after_append]
    exact stays_after a _ later h.key
  rw [hv, passed_on (by rw [hs]; decide) hk hu]
  obtain ⟨resp, w', hrun, _⟩ := Issuer.C91_acceptable_request_gets_code (request := .object r) hst rfl ha
    (fun server h1 h2 => absurd h2 (hp server h1))
  refine ⟨resp.code, ?_⟩
  rw [step_authorize (r := .object r) rfl]
  show authReply uri (((Issuer.authorize v.provider (.object r)).run a.env _).1.map _) = _
  rw [hrun]
  rfl

/-- **C138 is false**: the token of a login form is itself taken for the name of a user who has logged in. A request for that subject gets a code, without
any login, if the issuer's own checks have nothing against it. -/
theorem C138_form_token_passes_for_user {a : Around} {s : Site} {first v : Visit} {host uri t : String} {req : AuthorizationRequest} {r : RequestObject}
    (hf : first.http = .auth host req) (h1 : (serve a first.provider first.wait s first.http).1 = .form t)
    (hv : v.http = .auth host (.object r)) (hs : r.subjectId = t) (ht : t ≠ "") (hu : r.redirectUri = some uri)
    (hst : Issuer.Working a.env (Issuer.World.wait (after a s [first]).issuer v.wait))
    (ha : Issuer.Acceptable v.provider (Issuer.World.wait (after a s [first]).issuer v.wait) r)
    (hp : ∀ server, v.provider.server r.credentialIssuer = some server → server.requirePar ≠ some true) :
    ∃ c, (serve a v.provider v.wait (after a s [first]) v.http).1 = .code uri c := by
  have hk : r.subjectId ∈ Dict.keys (after a s [first]).logins := by
    show r.subjectId ∈ Dict.keys (serve a first.provider first.wait s first.http).2.logins
    rw [hf] at h1 ⊢
    cases req with
    | uri u => cases h1
    | object q =>
      simp only [serve, auth] at h1 ⊢
      by_cases q1 : q.subjectId = ""
      · rw [if_pos q1] at h1; cases h1
      rw [if_neg q1] at h1 ⊢
      by_cases q2 : s.logins.has q.subjectId = false
      · rw [if_pos q2] at h1 ⊢
        cases h1
        exact Dict.keys_insert.2 (.inl hs)
      · rw [if_neg q2] at h1
        split at h1
        · cases h1
        · simp only [authReply] at h1
          split at h1 <;> cases h1
  rw [hv, passed_on (by rw [hs]; exact ht) hk hu]
  obtain ⟨resp, w', hrun, _⟩ := Issuer.C91_acceptable_request_gets_code (request := .object r) hst rfl ha
    (fun server h1 h2 => absurd h2 (hp server h1))
  refine ⟨resp.code, ?_⟩
  rw [step_authorize (r := .object r) rfl]
  show authReply uri (((Issuer.authorize v.provider (.object r)).run a.env _).1.map _) = _
  rw [hrun]
  rfl

/-! ### C139 -/

theorem map_end {α β : Type} {e : Env} {k : β → β} (p : Prog Issuer.State α) {f g : α → Prog Issuer.State β}
    (h : ∀ x w, (g x).run e w = (((f x).run e w).1.map k, ((f x).run e w).2)) (w : World Issuer.State) :
    (p.bind g).run e w = (((p.bind f).run e w).1.map k, ((p.bind f).run e w).2) := by
  rw [run_bind, run_bind]
  cases hx : p.run e w with
  | mk x w1 =>
    cases x with
    | ok x => exact h x w1
    | error y => rfl

/-- What the issuer makes of a request depends on its state in one place only, the state of the response. -/
theorem authorize_state (P : Provider) (r : RequestObject) (st : Option String) (e : Env) (w : World Issuer.State) :
    (Issuer.authorize P (.object { r with state := st })).run e w =
      (((Issuer.authorize P (.object r)).run e w).1.map fun x => { x with state := st }, ((Issuer.authorize P (.object r)).run e w).2) := by
  refine map_end (lift (orErr (P.issuer r.credentialIssuer) (.invalidRequest "invalid `credential_issuer`"))) (fun iss w => ?_) w
  refine map_end (Issuer.Authorize.verify P iss false r) (fun v w => ?_) w
  refine map_end (lift (Issuer.Authorize.authorizeItems P r.subjectId v.1 v.2)) (fun items w => ?_) w
  refine map_end nowE (fun now w => ?_) w
  refine map_end drawE (fun code w => ?_) w
  refine map_end (putE code _ _) (fun _ w => ?_) w
  exact map_end (Issuer.Authorize.purgeOffer r) (fun _ w => rfl) w

/-- **C139 is false**: the state of an authorization request never comes back. Whatever it is, the reply is the same. -/
theorem C139_state_never_returned (a : Around) (P : Provider) (wait : Nat) (s : Site) (host : String) (r : RequestObject) (st : Option String) :
    (serve a P wait s (.auth host (.object { r with state := st }))).1 = (serve a P wait s (.auth host (.object r))).1 := by
  simp only [serve, auth]
  split
  · rfl
  split
  · rfl
  split
  · rfl
  · rw [step_authorize (s := { provider := P, wait, req := .authorize (.object r) }) rfl,
      step_authorize (s := { provider := P, wait, req := .authorize (.object { r with state := st }) }) rfl]
    simp only [authorize_state]
    generalize ((Issuer.authorize P (.object r)).run a.env (Issuer.World.wait s.issuer wait)).1 = x
    cases x with
    | ok x => rfl
    | error y => cases y <;> rfl

/-! ### C140 -/

/-- **C140 is false**: a request that names a URI which is not registered for its client, or a client that is not registered at all, is answered with a
redirect to that very URI. -/
theorem C140_error_sent_to_any_uri {a : Around} {s : Site} {v : Visit} {host uri : String} {r : RequestObject} (hv : v.http = .auth host (.object r))
    (hne : r.subjectId ≠ "") (hk : r.subjectId ∈ Dict.keys s.logins) (hu : r.redirectUri = some uri)
    (hno : ∀ client us, v.provider.client r.clientId = some client → client.redirectUris = some us → uri ∉ us) :
    ∃ err, (serve a v.provider v.wait s v.http).1 = .denied uri err := by
  rw [hv, passed_on hne hk hu, step_authorize (r := .object r) rfl]
  cases hx : (Issuer.authorize v.provider (.object r)).run a.env (Issuer.World.wait s.issuer v.wait) with
  | mk x w' =>
    cases x with
    | ok resp =>
      obtain ⟨r', client, server, hd, hc, _, hva⟩ := Issuer.C09_code_needs_valid_request hx
      cases hd
      obtain ⟨u, us, h1, h2, h3⟩ := hva.redirectUri
      rw [hu] at h1
      cases h1
      exact absurd h3 (hno client us hc h2)
    | error y =>
      have := ((Issuer.calm_authorize v.provider (.object r)).run a.env (Issuer.World.wait s.issuer v.wait)).no y (by rw [hx])
      cases y with
      | panic _ => cases this
      | _ => exact ⟨_, rfl⟩

/-- **C140**, the part that holds: codes are sent to registered URIs of registered clients only. -/
theorem C140_code_to_registered_uri_partial {a : Around} {s : Site} {v : Visit} {uri c : String}
    (h : (serve a v.provider v.wait s v.http).1 = .code uri c) :
    ∃ host r client us, v.http = .auth host (.object r) ∧ r.redirectUri = some uri ∧ v.provider.client r.clientId = some client ∧
      client.redirectUris = some us ∧ uri ∈ us := by
  obtain ⟨host, req, hv⟩ := code_only_auth h
  rw [hv] at h
  obtain ⟨r, resp, rfl, hk, hu, _, hrun⟩ := code_given h
  obtain ⟨r', client, server, hd, hc, _, hva⟩ := Issuer.C09_code_needs_valid_request (pair_of_fst hrun)
  cases hd
  obtain ⟨u, us, h1, h2, h3⟩ := hva.redirectUri
  rw [hu] at h1
  cases h1
  exact ⟨host, _, client, us, hv, hu, hc, h2, h3⟩

/-! ### C141 -/

/-- **C141 is false**: a pushed request is never accepted, in any history, whoever has logged in: it is answered with a login form (unless its subject is
missing, or the token of a form). -/
theorem C141_push_gets_a_form {a : Around} {t0 : Int} {l : List Visit} {v : Visit} {host : String} {r : RequestObject} (hv : v.http = .par host r)
    (hne : r.subjectId ≠ "") (hs : ¬ Shown a (opened t0) l r.subjectId) :
    ∃ t, (serve a v.provider v.wait (after a (opened t0) l) v.http).1 = .form t := by
  rw [hv]
  simp only [serve, par]
  rw [if_neg hne, if_pos]
  · exact ⟨_, rfl⟩
  · cases hh : (after a (opened t0) l).pushes.has r.subjectId with
    | false => rfl
    | true => exact absurd ((known_opened a t0 l).2 _ (Dict.has_iff.1 hh)) hs

/-- Every token in a map was drawn before now; the two maps have none in common. -/
structure Apart (a : Around) (s : Site) : Prop where
  logins : ∀ k ∈ Dict.keys s.logins, k = "normal_user" ∨ ∃ n, n < s.forms ∧ a.csrf n = k
  pushes : ∀ k ∈ Dict.keys s.pushes, (∃ n, n < s.forms ∧ a.csrf n = k) ∧ k ∉ Dict.keys s.logins

theorem Apart.serve {a : Around} (ha : a.Fresh) {s : Site} (h : Apart a s) (P : Provider) (wait : Nat) (q : Http) :
    Apart a (serve a P wait s q).2 := by
  have later : ∀ {k}, (∃ n, n < s.forms ∧ a.csrf n = k) → ∃ n, n < s.forms + 1 ∧ a.csrf n = k :=
    fun ⟨n, h1, h2⟩ => ⟨n, by omega, h2⟩
  cases q with
  | auth host req =>
    cases req with
    | uri u => exact h
    | object r =>
      simp only [Server.serve, auth]
      split
      · exact h
      split
      · refine ⟨fun k hk => ?_, fun k hk => ⟨later (h.pushes k hk).1, fun hk' => ?_⟩⟩
        · rcases Dict.keys_insert.1 hk with rfl | hk
          · exact .inr ⟨s.forms, by show s.forms < s.forms + 1; omega, rfl⟩
          · rcases h.logins k hk with hk | hk
            · exact .inl hk
            · exact .inr (later hk)
        · rcases Dict.keys_insert.1 hk' with rfl | hk'
          · obtain ⟨n, h1, h2⟩ := (h.pushes _ hk).1
            have := ha.inj _ _ h2
            omega
          · exact (h.pushes k hk).2 hk'
      split
      · exact h
      · exact ⟨h.logins, h.pushes⟩
  | par host r =>
    simp only [Server.serve, par]
    split
    · exact h
    split
    · refine ⟨fun k hk => ?_, fun k hk => ?_⟩
      · rcases h.logins k hk with hk | hk
        · exact .inl hk
        · exact .inr (later hk)
      · rcases Dict.keys_insert.1 hk with rfl | hk
        · refine ⟨⟨s.forms, by show s.forms < s.forms + 1; omega, rfl⟩, fun hk' => ?_⟩
          rcases h.logins _ hk' with hk' | ⟨n, h1, h2⟩
          · exact ha.user _ hk'
          · have := ha.inj _ _ h2
            omega
        · exact ⟨later (h.pushes k hk).1, (h.pushes k hk).2⟩
    · exact ⟨h.logins, h.pushes⟩
  | login host u p t =>
    simp only [Server.serve, login]
    split
    · exact h
    rename_i hu
    split
    · exact h
    simp only [ne_eq, Classical.not_not] at hu
    subst hu
    split
    · exact h
    · refine ⟨fun k hk => ?_, fun k hk => ⟨(h.pushes k hk).1, fun hk' => ?_⟩⟩
      · rcases Dict.keys_insert.1 hk with hk | hk
        · exact .inl hk
        · exact h.logins k (keys_filter.1 hk).1
      · rcases Dict.keys_insert.1 hk' with rfl | hk'
        · obtain ⟨n, _, h2⟩ := (h.pushes _ hk).1
          exact ha.user _ h2
        · exact (h.pushes k hk).2 (keys_filter.1 hk').1
  | api host b req =>
    simp only [Server.serve]
    split
    · exact h
    · exact ⟨h.logins, h.pushes⟩

theorem Apart.after {a : Around} (ha : a.Fresh) {s : Site} (h : Apart a s) (l : List Visit) : Apart a (after a s l) := by
  induction l generalizing s with
  | nil => exact h
  | cons v l ih => exact ih (h.serve ha ..)

/-- Pushed requests are never forgotten. -/
theorem pushes_stay (a : Around) (s : Site) (l : List Visit) {k : String} (hk : k ∈ Dict.keys s.pushes) : k ∈ Dict.keys (after a s l).pushes := by
  induction l generalizing s with
  | nil => exact hk
  | cons v l ih =>
    refine ih _ ?_
    cases v.http with
    | auth host req =>
      cases req with
      | uri u => exact hk
      | object r =>
        simp only [serve, auth]
        split
        · exact hk
        split
        · exact hk
        split <;> exact hk
    | par host r =>
      simp only [serve, par]
      split
      · exact hk
      split
      · exact Dict.keys_insert.2 (.inr hk)
      · exact hk
    | login host u p t =>
      simp only [serve, login]
      split
      · exact hk
      split
      · exact hk
      split <;> exact hk
    | api host b req =>
      simp only [serve]
      split <;> exact hk

/-- **C141 is false**: the login form that answers a pushed request leads nowhere. Sent in with the right name and password, at any later time, it is
refused for its token. -/
theorem C141_form_of_push_refused {a : Around} (ha : a.Fresh) {t0 : Int} {l later : List Visit} {push send : Visit} {host host' t : String}
    {r : RequestObject} (hp : push.http = .par host r) (h1 : (serve a push.provider push.wait (after a (opened t0) l) push.http).1 = .form t)
    (hs : send.http = .login host' "normal_user" "password" t) :
    (serve a send.provider send.wait (after a (opened t0) (l ++ push :: later)) send.http).1 = .unauthorized "invalid csrf_token" := by
  have hap : Apart a (after a (opened t0) (l ++ push :: later)) :=
    Apart.after ha (s := opened t0) ⟨fun _ h => (nomatch h), fun _ h => nomatch h⟩ _
  have hk : t ∈ Dict.keys (after a (opened t0) (l ++ push :: later)).pushes := by
    rw [after_append]
    refine pushes_stay a (serve a push.provider push.wait (after a (opened t0) l) push.http).2 later ?_
    rw [hp] at h1 ⊢
    simp only [serve, par] at h1 ⊢
    by_cases q1 : r.subjectId = ""
    · rw [if_pos q1] at h1; cases h1
    rw [if_neg q1] at h1 ⊢
    by_cases q2 : (after a (opened t0) l).pushes.has r.subjectId = false
    · rw [if_pos q2] at h1 ⊢
      cases h1
      exact Dict.keys_insert.2 (.inl rfl)
    · rw [if_neg q2] at h1
      simp only [reply] at h1
      split at h1 <;> cases h1
  rw [hs]
  simp only [serve, login]
  rw [if_neg (by simp), if_neg (by simp)]
  cases hg : (after a (opened t0) (l ++ push :: later)).logins.get? t with
  | none => rfl
  | some x => exact absurd (List.mem_map.2 ⟨_, Dict.mem_of_get? hg, rfl⟩) (hap.pushes t hk).2

/-- **C141 is false**: at a server that requires requests to be pushed, no code is ever given. -/
theorem C141_no_codes_if_push_required {a : Around} {s : Site} {v : Visit}
    (hP : ∀ i server, v.provider.server i = some server → server.requirePar = some true) (uri c : String) :
    (serve a v.provider v.wait s v.http).1 ≠ .code uri c := by
  intro h
  obtain ⟨host, req, hv⟩ := code_only_auth h
  rw [hv] at h
  obtain ⟨r, resp, rfl, hk, hu, _, hrun⟩ := code_given h
  obtain ⟨_, _, server, hd, _, hs, _⟩ := Issuer.C09_code_needs_valid_request (pair_of_fst hrun)
  cases hd
  exact Issuer.C12_direct_refused_partial hs (hP _ _ hs) _ _ _ hrun

/-- **C141**, the part that holds: a request that is not pushed goes through. It is answered with a login form; the form, sent in with the right name and
password, leads back to the request; and that gets its code. (For the server's only user, who has not logged in yet.) -/
theorem C141_direct_request_goes_through_partial {a : Around} {s : Site} {P : Provider} {r : RequestObject} {host uri : String}
    (hs : r.subjectId = "normal_user") (hu : r.redirectUri = some uri) (hno : "normal_user" ∉ Dict.keys s.logins)
    (hst : Issuer.Working a.env s.issuer) (ha : Issuer.Acceptable P s.issuer r)
    (hp : ∀ server, P.server r.credentialIssuer = some server → server.requirePar ≠ some true) :
    ∃ t c, (serve a P 0 s (.auth host (.object r))).1 = .form t ∧
      (serve a P 0 (after a s [⟨P, 0, .auth host (.object r)⟩]) (.login host "normal_user" "password" t)).1 = .toAuth host r ∧
      (serve a P 0 (after a s [⟨P, 0, .auth host (.object r)⟩, ⟨P, 0, .login host "normal_user" "password" t⟩]) (.auth host (.object r))).1 =
        .code uri c := by
  have hh : s.logins.has r.subjectId = false := by
    cases h : s.logins.has r.subjectId with
    | false => rfl
    | true => exact absurd (hs ▸ Dict.has_iff.1 h) hno
  have h1 : serve a P 0 s (.auth host (.object r)) =
      (.form (a.csrf s.forms), { s with logins := s.logins.insert (a.csrf s.forms) r, forms := s.forms + 1 }) := by
    simp only [serve, auth]
    rw [if_neg (by rw [hs]; decide), if_pos hh]
  have h2 : serve a P 0 { s with logins := s.logins.insert (a.csrf s.forms) r, forms := s.forms + 1 }
      (.login host "normal_user" "password" (a.csrf s.forms)) =
      (.toAuth host r, { s with
        logins := Dict.insert ((s.logins.insert (a.csrf s.forms) r).filter fun x => x.1 != a.csrf s.forms) "normal_user" r
        forms := s.forms + 1 }) := by
    simp only [serve, login]
    rw [if_neg (by simp), if_neg (by simp), Dict.get?_insert, if_pos rfl]
  obtain ⟨resp, w', hrun, _⟩ := Issuer.C91_acceptable_request_gets_code (request := .object r) hst rfl ha
    (fun server h1 h2 => absurd h2 (hp server h1))
  refine ⟨a.csrf s.forms, resp.code, by rw [h1], ?_, ?_⟩
  · show (serve a P 0 (serve a P 0 s (.auth host (.object r))).2 _).1 = _
    rw [h1, h2]
  · show (serve a P 0 (serve a P 0 (serve a P 0 s (.auth host (.object r))).2 (.login host "normal_user" "password" (a.csrf s.forms))).2 _).1 = _
    rw [h1, h2, passed_on (by rw [hs]; decide) (Dict.keys_insert.2 (.inl hs)) hu, step_authorize (r := .object r) rfl]
    have hw : Issuer.World.wait s.issuer 0 = s.issuer := by simp [Issuer.World.wait]
    show authReply uri (((Issuer.authorize P (.object r)).run a.env (Issuer.World.wait s.issuer 0)).1.map _) = _
    rw [hw, hrun]
    rfl

/-! ### C142 -/

/-- **C142 is false**: which host an authorization request is sent to makes no difference. The issuer is the one the request itself names. -/
theorem C142_host_ignored (a : Around) (P : Provider) (wait : Nat) (s : Site) (host host' : String) (req : AuthorizationRequest) :
    serve a P wait s (.auth host req) = serve a P wait s (.auth host' req) := by
  cases req <;> rfl

/-- **C142 is false**: so a request that names no issuer, as the server's other endpoints accept, never gets a code, in any state of the server. -/
theorem C142_no_code_without_issuer {a : Around} {s : Site} {v : Visit} {host : String} {r : RequestObject} (hv : v.http = .auth host (.object r))
    (hi : r.credentialIssuer = "") (hno : v.provider.issuer "" = none) (uri c : String) : (serve a v.provider v.wait s v.http).1 ≠ .code uri c := by
  intro h
  rw [hv] at h
  obtain ⟨r', resp, hr, _, _, _, hrun⟩ := code_given h
  cases hr
  obtain ⟨r', iss, _, _, _, _, _, hd, hiss, _⟩ := Issuer.authorize_ok (pair_of_fst hrun)
  cases hd
  rw [hi, hno] at hiss
  cases hiss

/-- **C142**, the part that holds: at the other endpoints the host and the `Authorization` header decide; what a request itself says of issuer and access
token makes no difference. -/
theorem C142_api_requests_addressed_partial (a : Around) (P : Provider) (wait : Nat) (s : Site) (host bearer : String) {q q' : Req}
    (h : SameButAddress q q') : serve a P wait s (.api host bearer q) = serve a P wait s (.api host bearer q') := by
  cases h <;> rfl

/-- **C142**, likewise: the issuer is asked in the name of the host. -/
theorem C142_token_request_addressed_partial (a : Around) (P : Provider) (wait : Nat) (s : Site) (host bearer : String) (r : Issuer.TokenRequest) :
    (serve a P wait s (.api host bearer (.token r))).2.issuer =
      (Issuer.step a.env s.issuer { provider := P, wait, req := .token { r with credentialIssuer := "http://" ++ host } }).2 := rfl

end Verif.Server
