import Verif.Server.Props
/-!
# C145: the tokens of login forms
-/
namespace Verif.Server
open Issuer (RequestObject AuthorizationRequest Req Resp Provider Step)

/-- When a login is let through. -/
theorem login_through {a : Around} {P : Provider} {wait : Nat} {s : Site} {host u p t h : String} {r : RequestObject}
    (h1 : (serve a P wait s (.login host u p t)).1 = .toAuth h r) :
    u = "normal_user" ∧ p = "password" ∧ h = host ∧ s.logins.get? t = some r ∧
      (serve a P wait s (.login host u p t)).2 = { s with logins := Dict.insert (s.logins.filter fun x => x.1 != t) "normal_user" r } := by
  simp only [serve, login] at h1 ⊢
  by_cases hu : u ≠ "normal_user"
  · rw [if_pos hu] at h1; cases h1
  rw [if_neg hu] at h1 ⊢
  by_cases hp : p ≠ "password"
  · rw [if_pos hp] at h1; cases h1
  rw [if_neg hp] at h1 ⊢
  simp only [ne_eq, Classical.not_not] at hu hp
  cases hg : s.logins.get? t with
  | none => rw [hg] at h1; cases h1
  | some x =>
    rw [hg] at h1
    cases h1
    exact ⟨hu, hp, rfl, rfl, by rw [hu]⟩

/-- A token that is in no map and will not be drawn again. -/
structure Spent (a : Around) (s : Site) (t : String) : Prop where
  user : t ≠ "normal_user"
  gone : t ∉ Dict.keys s.logins
  never : ∀ n, s.forms ≤ n → a.csrf n ≠ t

/-- What one visit does to the map of logins, and to the count of forms. -/
theorem serve_logins (a : Around) (P : Provider) (wait : Nat) (s : Site) (q : Http) :
    ((serve a P wait s q).2.logins = s.logins ∧ s.forms ≤ (serve a P wait s q).2.forms) ∨
    (∃ host r, q = .auth host (.object r) ∧ (serve a P wait s q).1 = .form (a.csrf s.forms) ∧
      (serve a P wait s q).2.logins = s.logins.insert (a.csrf s.forms) r ∧ (serve a P wait s q).2.forms = s.forms + 1) ∨
    (∃ host t h r, q = .login host "normal_user" "password" t ∧ (serve a P wait s q).1 = .toAuth h r ∧
      (serve a P wait s q).2 = { s with logins := Dict.insert (s.logins.filter fun x => x.1 != t) "normal_user" r }) := by
  cases q with
  | auth host req =>
    cases req with
    | uri u => exact .inl ⟨rfl, Nat.le_refl _⟩
    | object r =>
      simp only [serve, auth]
      split
      · exact .inl ⟨rfl, Nat.le_refl _⟩
      split
      · exact .inr (.inl ⟨host, r, rfl, rfl, rfl, rfl⟩)
      split
      · exact .inl ⟨rfl, Nat.le_refl _⟩
      · exact .inl ⟨rfl, Nat.le_refl _⟩
  | par host r =>
    simp only [serve, par]
    split
    · exact .inl ⟨rfl, Nat.le_refl _⟩
    split
    · exact .inl ⟨rfl, Nat.le_succ _⟩
    · exact .inl ⟨rfl, Nat.le_refl _⟩
  | login host u p t =>
    by_cases h : ∃ h r, (serve a P wait s (.login host u p t)).1 = .toAuth h r
    · obtain ⟨h, r, h1⟩ := h
      obtain ⟨rfl, rfl, rfl, _, h2⟩ := login_through h1
      exact .inr (.inr ⟨_, t, _, r, rfl, h1, h2⟩)
    · refine .inl ?_
      simp only [serve, login] at h ⊢
      split
      · exact ⟨rfl, Nat.le_refl _⟩
      rename_i hu
      rw [if_neg hu] at h
      split
      · exact ⟨rfl, Nat.le_refl _⟩
      rename_i hp
      rw [if_neg hp] at h
      split
      · exact ⟨rfl, Nat.le_refl _⟩
      · rename_i r hr
        exact absurd ⟨host, r, by rw [hr]⟩ h
  | api host b req =>
    simp only [serve]
    split <;> exact .inl ⟨rfl, Nat.le_refl _⟩

theorem Spent.serve {a : Around} {s : Site} {t : String} (h : Spent a s t) (P : Provider) (wait : Nat) (q : Http) :
    Spent a (serve a P wait s q).2 t := by
  rcases serve_logins a P wait s q with ⟨h1, h2⟩ | ⟨host, r, _, _, h1, h2⟩ | ⟨host, t', h', r, _, _, h2⟩
  · exact ⟨h.user, by rw [h1]; exact h.gone, fun n hn => h.never n (Nat.le_trans h2 hn)⟩
  · refine ⟨h.user, ?_, fun n hn => h.never n (by omega)⟩
    rw [h1]
    intro hk
    rcases Dict.keys_insert.1 hk with hk | hk
    · exact h.never _ (Nat.le_refl _) hk.symm
    · exact h.gone hk
  · rw [h2]
    refine ⟨h.user, fun hk => ?_, h.never⟩
    rcases Dict.keys_insert.1 hk with hk | hk
    · exact h.user hk
    · exact h.gone (keys_filter.1 hk).1

theorem Spent.after {a : Around} {s : Site} {t : String} (h : Spent a s t) (l : List Visit) : Spent a (after a s l) t := by
  induction l generalizing s with
  | nil => exact h
  | cons v l ih => exact ih (h.serve ..)

theorem Spent.refused {a : Around} {s : Site} {t : String} (h : Spent a s t) (P : Provider) (wait : Nat) (host u p h' : String) (r : RequestObject) :
    (Server.serve a P wait s (.login host u p t)).1 ≠ .toAuth h' r := fun hh =>
  h.gone (List.mem_map.2 ⟨_, Dict.mem_of_get? (login_through hh).2.2.2.1, rfl⟩)

theorem apart_opened {a : Around} (ha : a.Fresh) (t0 : Int) (l : List Visit) : Apart a (after a (opened t0) l) :=
  Apart.after ha (s := opened t0) ⟨fun _ h => (nomatch h), fun _ h => nomatch h⟩ _

/-- A token that got a login through is used up, unless it is the user's name. -/
theorem spent_by_login {a : Around} (ha : a.Fresh) {t0 : Int} {l : List Visit} {v : Visit} {host u p t h : String} {r : RequestObject}
    (hv : v.http = .login host u p t) (ht : t ≠ "normal_user")
    (h1 : (serve a v.provider v.wait (after a (opened t0) l) v.http).1 = .toAuth h r) :
    Spent a (serve a v.provider v.wait (after a (opened t0) l) v.http).2 t := by
  rw [hv] at h1 ⊢
  obtain ⟨_, _, _, hg, hs⟩ := login_through h1
  rw [hs]
  refine ⟨ht, fun hk => ?_, fun n hn he => ?_⟩
  · rcases Dict.keys_insert.1 hk with hk | hk
    · exact ht hk
    · exact (keys_filter.1 hk).2 rfl
  · rcases (apart_opened ha t0 l).logins t (List.mem_map.2 ⟨_, Dict.mem_of_get? hg, rfl⟩) with hk | ⟨m, hm, he'⟩
    · exact ht hk
    · have := ha.inj _ _ (he.trans he'.symm)
      have : (after a (opened t0) l).forms ≤ n := hn
      omega

/-- **C145** The token of a login form gets at most one login through, whatever is requested between the two attempts and whichever name and password they
are made with. (Partial: the user's name as a token, see `C145_user_name_passes`.) -/
theorem C145_token_used_once_partial {a : Around} (ha : a.Fresh) {t0 : Int} {l between : List Visit} {v v' : Visit} {host u p t h : String}
    {r : RequestObject} (hv : v.http = .login host u p t) (ht : t ≠ "normal_user")
    (h1 : (serve a v.provider v.wait (after a (opened t0) l) v.http).1 = .toAuth h r)
    {host' u' p' : String} (hv' : v'.http = .login host' u' p' t) :
    ∀ h' r', (serve a v'.provider v'.wait (after a (opened t0) (l ++ v :: between)) v'.http).1 ≠ .toAuth h' r' := by
  intro h' r'
  have := (spent_by_login ha hv ht h1).after between
  rw [hv', after_append]
  exact this.refused v'.provider v'.wait host' u' p' h' r'

theorem get?_filter {α : Type} {m : Dict α} {t k : String} {x : α} (h : Dict.get? (m.filter fun x => x.1 != t) k = some x) : Dict.get? m k = some x := by
  induction m with
  | nil => cases h
  | cons e m ih =>
    obtain ⟨k', v⟩ := e
    rw [Dict.get?]
    by_cases hk : k' = k
    · subst hk
      rw [if_pos rfl]
      by_cases ht : k' = t
      · subst ht
        exact absurd rfl (keys_filter.1 (List.mem_map.2 ⟨_, Dict.mem_of_get? h, rfl⟩)).2
      · rw [List.filter_cons_of_pos (by simpa using ht), Dict.get?, if_pos rfl] at h
        exact h
    · rw [if_neg hk]
      refine ih ?_
      by_cases ht : k' = t
      · rwa [List.filter_cons_of_neg (by simpa using ht)] at h
      · rwa [List.filter_cons_of_pos (by simpa using ht), Dict.get?, if_neg hk] at h

/-- A form shown for an authorization request keeps that request under its token until a login uses the token. -/
theorem form_keeps {a : Around} {t : String} {r : RequestObject} (l : List Visit) : ∀ {s : Site},
    (t ≠ "normal_user" ∧ (∀ n, s.forms ≤ n → a.csrf n ≠ t) ∧ ∀ x, s.logins.get? t = some x → x = r) →
    ∀ x, (after a s l).logins.get? t = some x → x = r := by
  induction l with
  | nil => exact fun h => h.2.2
  | cons v l ih =>
    intro s h
    refine ih (s := (serve a v.provider v.wait s v.http).2) ?_
    rcases serve_logins a v.provider v.wait s v.http with ⟨h1, h2⟩ | ⟨host, r', _, _, h1, h2⟩ | ⟨host, t', h', r', _, _, h2⟩
    · exact ⟨h.1, fun n hn => h.2.1 n (Nat.le_trans h2 hn), by rw [h1]; exact h.2.2⟩
    · refine ⟨h.1, fun n hn => h.2.1 n (by omega), ?_⟩
      rw [h1, Dict.get?_insert, if_neg (fun he => h.2.1 _ (Nat.le_refl _) he.symm)]
      exact h.2.2
    · rw [h2]
      refine ⟨h.1, h.2.1, fun x hx => ?_⟩
      rw [Dict.get?_insert, if_neg h.1] at hx
      exact h.2.2 x (get?_filter hx)

/-- **C145** A login with the token of a form that was shown for an authorization request leads back to that very request, however many others were made
before and since. -/
theorem C145_login_leads_to_its_request {a : Around} (ha : a.Fresh) {t0 : Int} {l between : List Visit} {v v' : Visit} {host t : String}
    {r : RequestObject} (hv : v.http = .auth host (.object r)) (h1 : (serve a v.provider v.wait (after a (opened t0) l) v.http).1 = .form t)
    {host' u' p' h' : String} {r' : RequestObject} (hv' : v'.http = .login host' u' p' t)
    (h2 : (serve a v'.provider v'.wait (after a (opened t0) (l ++ v :: between)) v'.http).1 = .toAuth h' r') :
    r' = r ∧ h' = host' := by
  rw [hv'] at h2
  obtain ⟨_, _, hh, hg, _⟩ := login_through h2
  refine ⟨?_, hh⟩
  rw [after_append] at hg
  refine form_keeps between (s := (serve a v.provider v.wait (after a (opened t0) l) v.http).2) ?_ r' hg
  rcases serve_logins a v.provider v.wait (after a (opened t0) l) v.http with ⟨h3, _⟩ | ⟨_, r'', h3, h4, h5, h6⟩ | ⟨_, _, _, _, h3, _⟩
  · rw [hv] at h1 h3
    simp only [serve, auth] at h1 h3
    by_cases q1 : r.subjectId = ""
    · rw [if_pos q1] at h1; cases h1
    rw [if_neg q1] at h1 h3
    by_cases q2 : (after a (opened t0) l).logins.has r.subjectId = false
    · rw [if_pos q2] at h1 h3
      exfalso
      have hk : a.csrf (after a (opened t0) l).forms ∈ Dict.keys (after a (opened t0) l).logins := by
        have : a.csrf (after a (opened t0) l).forms ∈ Dict.keys ((after a (opened t0) l).logins.insert (a.csrf (after a (opened t0) l).forms) r) :=
          Dict.keys_insert.2 (.inl rfl)
        exact h3 ▸ this
      rcases (apart_opened ha t0 l).logins _ hk with hk | ⟨m, hm, he⟩
      · exact ha.user _ hk
      · have := ha.inj _ _ he
        omega
    · rw [if_neg q2] at h1
      exfalso
      split at h1
      · cases h1
      · simp only [authReply] at h1
        split at h1 <;> cases h1
  · rw [hv] at h3
    cases h3
    rw [h4] at h1
    cases h1
    refine ⟨ha.user _, fun n hn he => ?_, fun x hx => ?_⟩
    · have := ha.inj _ _ he
      omega
    · rw [h5, Dict.get?_insert, if_pos rfl] at hx
      exact (Option.some.inj hx).symm
  · rw [hv] at h3
    cases h3

/-- The login form with token `t` was shown for an authorization request during these visits. -/
def ShownForAuth (a : Around) (s : Site) (l : List Visit) (t : String) : Prop :=
  ∃ pre v post host r, l = pre ++ v :: post ∧ v.http = .auth host (.object r) ∧ (serve a v.provider v.wait (after a s pre) v.http).1 = .form t

theorem logins_shown (a : Around) (s0 : Site) (l : List Visit) : ∀ done,
    (∀ k ∈ Dict.keys (after a s0 done).logins, (k = "normal_user" ∧ LoggedIn a s0 done) ∨ ShownForAuth a s0 done k) →
    ∀ k ∈ Dict.keys (after a s0 (done ++ l)).logins, (k = "normal_user" ∧ LoggedIn a s0 (done ++ l)) ∨ ShownForAuth a s0 (done ++ l) k := by
  induction l with
  | nil => intro done h; simpa using h
  | cons v l ih =>
    intro done h
    have := ih (done ++ [v]) ?_
    · simpa using this
    intro k hk
    rw [after_append] at hk
    have hk : k ∈ Dict.keys (serve a v.provider v.wait (after a s0 done) v.http).2.logins := hk
    have old : k ∈ Dict.keys (after a s0 done).logins →
        (k = "normal_user" ∧ LoggedIn a s0 (done ++ [v])) ∨ ShownForAuth a s0 (done ++ [v]) k := fun hk => by
      rcases h k hk with ⟨h1, h2⟩ | ⟨pre, v', post, host, r, rfl, h1, h2⟩
      · exact .inl ⟨h1, h2.more _⟩
      · exact .inr ⟨pre, v', post ++ [v], host, r, by simp, h1, h2⟩
    rcases serve_logins a v.provider v.wait (after a s0 done) v.http with ⟨h1, _⟩ | ⟨host, r, h1, h2, h3, _⟩ | ⟨host, t, h', r, h1, h2, h3⟩
    · rw [h1] at hk; exact old hk
    · rw [h3] at hk
      rcases Dict.keys_insert.1 hk with rfl | hk
      · exact .inr ⟨done, v, [], host, r, rfl, h1, h2⟩
      · exact old hk
    · rw [h3] at hk
      rcases Dict.keys_insert.1 hk with rfl | hk
      · exact .inl ⟨rfl, done, v, [], host, t, h', r, rfl, h1, h2⟩
      · exact old (keys_filter.1 hk).1

/-- **C145** A login gets through only with the user's name and password and the token of a form that was shown for an authorization request. (Partial: or,
once somebody has logged in, with the user's name for a token.) -/
theorem C145_login_needs_form_partial {a : Around} {t0 : Int} {l : List Visit} {v : Visit} {host u p t h : String} {r : RequestObject}
    (hv : v.http = .login host u p t) (h1 : (serve a v.provider v.wait (after a (opened t0) l) v.http).1 = .toAuth h r) :
    u = "normal_user" ∧ p = "password" ∧
      (ShownForAuth a (opened t0) l t ∨ (t = "normal_user" ∧ LoggedIn a (opened t0) l)) := by
  rw [hv] at h1
  obtain ⟨hu, hp, _, hg, _⟩ := login_through h1
  refine ⟨hu, hp, ?_⟩
  have := logins_shown a (opened t0) l [] (fun k hk => (nomatch hk)) t (List.mem_map.2 ⟨_, Dict.mem_of_get? hg, rfl⟩)
  exact this.symm

/-- **C145 is false**: once somebody has logged in, the user's name passes for the token of a form, any number of times. -/
theorem C145_user_name_passes {a : Around} {s0 : Site} {l later : List Visit} (h : LoggedIn a s0 l) {v : Visit} {host : String}
    (hv : v.http = .login host "normal_user" "password" "normal_user") :
    ∃ r, (serve a v.provider v.wait (after a s0 (l ++ later)) v.http).1 = .toAuth host r := by
  have hk := (h.more later).key
  rw [hv]
  simp only [serve, login]
  rw [if_neg (by simp), if_neg (by simp)]
  have hh := Dict.has_iff.2 hk
  rw [Dict.has] at hh
  cases hg : (after a s0 (l ++ later)).logins.get? "normal_user" with
  | none => rw [hg] at hh; cases hh
  | some r => exact ⟨r, rfl⟩

end Verif.Server
