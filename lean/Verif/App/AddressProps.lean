import Verif.App.Address
import Verif.App.Lemmas
/-!
# Where the example wallet's requests arrive (C207)
-/
namespace Verif.App
open Holder (HEnv Req Event Call Entry Home Ran Inv InOrder IsOffer Given Published IsStart flowOf addressee bearerOf)

variable {a : Around} {s : App}

/-! ### Specification -/

/-- The address at which metadata is to be found: the path appended to the issuer's identifier, without a `/` at its end.
/repo/vercre-issuer/src/metadata.rs 10-14. -/
def wellKnown (issuer : String) : String :=
  String.ofList (if issuer.toList.getLast? = some '/' then issuer.toList.dropLast else issuer.toList) ++ "/.well-known/openid-credential-issuer"

/-- The handler meant by a call, and the issuer it is meant for. -/
def Meant : Call → String → RouteHandler → Prop
  | .metadata i, to, h => i = to ∧ h = .metadata
  | .oauthServer i, to, h => i = to ∧ h = .oauthServer
  | .token q, to, h => q.credentialIssuer = to ∧ h = .token
  | .credential q, to, h => q.credentialIssuer = to ∧ h = .credential
  | _, _, _ => False

/-! ### The application's calls -/

/-- Each call ran on flows that know where they came from, and the application does not start flows itself. -/
structure Homed (s : App) : Prop where
  home : Home s.world.log s.world.store
  ran : ∀ pre en post, s.world.log = pre ++ en :: post → ∃ e, Ran e pre en
  used : ∀ en ∈ s.world.log, Used en.req

theorem snoc_split {α : Type} {l pre post : List α} {x y : α} (h : l ++ [x] = pre ++ y :: post) : (pre = l ∧ y = x ∧ post = []) ∨ ∃ post', l = pre ++ y :: post' := by
  rcases List.eq_nil_or_concat post with rfl | ⟨p, z, rfl⟩
  · have := List.append_inj' h rfl
    obtain ⟨h1, h2⟩ := this
    cases h2
    exact .inl ⟨h1.symm, rfl, rfl⟩
  · have h' : l ++ [x] = (pre ++ y :: p) ++ [z] := by rw [h]; simp
    exact .inr ⟨p, (List.append_inj' h' rfl).1⟩

theorem homed_lib (hs : Sound a s) (h : Homed s) (t : Nat) (r : Req) (hu : Used r) : Homed (lib a s t r).2 := by
  have hI : Inv (connected a s.files) s.world.log s.world.store s.world.drawn := inv_env (e := a.env) (e' := connected a s.files) rfl rfl hs
  have hH := Holder.step_home (e := connected a s.files) hI h.home ⟨a.provider, t, r⟩
  have hlog : (lib a s t r).2.world.log = s.world.log ++ [⟨a.provider, s.world.now + t, r,
      ((Holder.serve a.provider r).run (connected a s.files) { s.world with now := s.world.now + t, recent := [] }).1, made a s t r⟩] := Holder.step_log _ _ _
  refine ⟨hH, fun pre en post heq => ?_, fun en hen => ?_⟩
  · rw [hlog] at heq
    rcases snoc_split heq with ⟨rfl, rfl, rfl⟩ | ⟨post', h'⟩
    · exact ⟨connected a s.files, { s.world with now := s.world.now + t, recent := [] }, _, hI, h.home, rfl, rfl, rfl⟩
    · exact h.ran pre en post' h'
  · rw [hlog] at hen
    rcases List.mem_append.mp hen with h' | h'
    · exact h.used en h'
    · rw [List.mem_singleton.mp h']; exact hu

theorem homed_does (hf : a.env.Fresh) {s' : App} (hs : Sound a s) (h : Homed s) (hd : Does a s s') : Homed s' := by
  induction hd with
  | refl => exact h
  | lib hd t r hr ih => exact homed_lib (sound_does hf hs hd) ih t r hr
  | edit _ hw _ ih => exact ⟨hw ▸ ih.home, hw ▸ ih.ran, hw ▸ ih.used⟩

theorem homed_restart (h : Homed s) : Homed (restart s) := ⟨(fun _ _ h => nomatch h), h.ran, h.used⟩

theorem homed_serve (hf : a.env.Fresh) (hs : Sound a s) (h : Homed s) (t : Nat) (c : Cmd) : Homed (serve a s t c).2 := by
  induction c with
  | delete id =>
    have hw := delete_world a s id
    exact ⟨show Home (delete a s id).2.world.log _ from hw ▸ h.home, show ∀ pre en post, (delete a s id).2.world.log = _ → _ from hw ▸ h.ran,
      show ∀ en ∈ (delete a s id).2.world.log, _ from hw ▸ h.used⟩
  | restart => exact homed_restart h
  | autosave => exact ⟨h.home, h.ran, h.used⟩
  | crash n c ih => exact homed_restart (s := { (serve a s t c).2 with files := _ }) ⟨ih.home, ih.ran, ih.used⟩
  | _ => exact homed_does hf hs h (serve_does a s t trivial)

theorem homed_after (hf : a.env.Fresh) (hs : Sound a s) (h : Homed s) (l : List (Nat × Cmd)) : Homed (after a s l) := by
  induction l generalizing s with
  | nil => exact h
  | cons x l ih => exact ih (sound_serve hf hs x.1 x.2) (homed_serve hf hs h x.1 x.2)

theorem homed_opened (now : Int) (file : Dict Slot) : Homed (opened now file) := by
  refine ⟨(fun _ _ h => nomatch h), fun pre en post h => ?_, (fun _ h => nomatch h)⟩
  have h : ([] : List Entry) = pre ++ en :: post := h
  cases pre <;> cases h

/-! ### C207 -/

section
variable (hf : a.env.Fresh) {now : Int} {file : Dict Slot} {l : List (Nat × Cmd)}
include hf

/-- **C207** Where the application sends what is meant for an issuer: the offer's issuer was asked for its metadata, codes go to `/token` under the
issuer named there, and proofs to `/credential`, with an access token that was given at `/token` of the same issuer. -/
theorem C207_sent_under_named_issuer_partial {pre post : List Entry} {en : Entry} (h : (after a (opened now file) l).world.log = pre ++ en :: post)
    {ev : Holder.Event} (hev : ev ∈ en.events) {to : String} (hto : addressee ev.call = some to) {x : HttpSent} (hx : sent ev.call = some x) :
    ∃ k off md, flowOf en.req = some k ∧ InOrder [IsOffer k off md] pre ∧ x.method = .post ∧
      (x.url = md.credentialIssuer ++ "/token" ∧ x.authorization = none ∨
       x.url = md.credentialIssuer ++ "/credential" ∧ ∃ tr t, InOrder [Given k tr t] pre ∧ x.authorization = some ("Bearer " ++ t.accessToken) ∧
         sent (.token tr) = some { method := .post, url := md.credentialIssuer ++ "/token" }) := by
  have hH := homed_after hf (sound_opened a now file) (homed_opened now file) l
  obtain ⟨e, hran⟩ := hH.ran pre en post h
  have noStart : ∀ {y : Entry}, y ∈ pre ++ en :: post → ∀ k i md, ¬ IsStart k i md y := by
    rintro y hy k i md ⟨⟨r, _, _, _, hr, _⟩, _⟩
    have := hH.used y (h ▸ hy)
    rw [hr] at this
    exact this
  rcases hran.sent hev hto with ⟨k, asked, md, hk, ⟨p, y, q, rfl, hp, _⟩, rfl, hb⟩ | ⟨k, asked, md, hst, _⟩
  · rcases hp with ⟨off, ho, rfl⟩ | hst
    · refine ⟨k, off, md, hk, ⟨p, y, q, rfl, ho, trivial⟩, ?_⟩
      obtain ⟨c, o⟩ := ev
      cases c <;> simp only [addressee, reduceCtorEq, Option.some.injEq] at hto <;> simp only [sent, reduceCtorEq, Option.some.injEq] at hx
      · subst hx; rw [hto]; exact ⟨rfl, .inl ⟨rfl, rfl⟩⟩
      · obtain ⟨tr, t, h1, h2, h3⟩ := hb _ rfl
        subst hx; rw [hto]
        exact ⟨rfl, .inr ⟨rfl, tr, t, h1, by rw [h2], by simp only [sent, h3]⟩⟩
    · exact absurd hst (noStart (List.mem_append_left _ (List.mem_append_right _ (List.mem_cons_self ..))) _ _ _)
  · exact absurd hst (noStart (List.mem_append_right _ (List.mem_cons_self ..)) _ _ _)

end

/-- **C207 is false**: endpoints that an issuer publishes are ignored. If they are not the addresses the wallet makes up, then nothing that is meant for
the issuer goes to them. -/
theorem C207_published_endpoints_ignored (m : Wire.IssuerMeta) (o : Wire.OAuthServer) (ht : o.tokenEndpoint ≠ m.credentialIssuer ++ "/token")
    (hc : m.credentialEndpoint ≠ m.credentialIssuer ++ "/credential") (c : Call) (hto : addressee c = some m.credentialIssuer) {x : HttpSent}
    (hx : sent c = some x) : ((∃ q, c = .token q) → x.url ≠ o.tokenEndpoint) ∧ ((∃ q, c = .credential q) → x.url ≠ m.credentialEndpoint) := by
  constructor
  · rintro ⟨q, rfl⟩
    simp only [addressee, sent, Option.some.injEq] at hto hx
    rw [← hx, hto]; exact fun h => ht h.symm
  · rintro ⟨q, rfl⟩
    simp only [addressee, sent, Option.some.injEq] at hto hx
    rw [← hx, hto]; exact fun h => hc h.symm

/-- **C207** Metadata is asked for where it is to be found exactly if the issuer's identifier does not end with `/`. -/
theorem C207_metadata_address_iff (issuer : String) :
    sent (.metadata issuer) = some { method := .get, url := wellKnown issuer } ↔ issuer.toList.getLast? ≠ some '/' := by
  simp only [sent, wellKnown, Option.some.injEq, HttpSent.mk.injEq, true_and, and_true]
  constructor
  · intro h hl
    rw [if_pos hl] at h
    have h := congrArg (fun x => x.toList.length) h
    simp only [String.toList_append, String.toList_ofList, List.length_append, List.length_dropLast] at h
    have : issuer.toList ≠ [] := by intro h'; rw [h'] at hl; cases hl
    have := List.length_pos_iff.2 this
    omega
  · intro h
    rw [if_neg h, String.ofList_toList]

theorem hostAndPath_http {host path : List Char} (hh : host.all (!ends ·) = true) (hp : path.head?.any ends = true) (hq : path.all (fun c => c != '?' && c != '#') = true) :
    hostAndPath ("http://".toList ++ (host ++ path)) = some (host, path) := by
  have h1 : (host ++ path).takeWhile (!ends ·) = host := by
    cases path with
    | nil => simp at hp
    | cons c p =>
      have hc : ends c = true := by simpa using hp
      rw [List.takeWhile_append_of_pos (by simpa using hh), List.takeWhile_cons_of_neg (by simp [hc]), List.append_nil]
  have h2 : (host ++ path).dropWhile (!ends ·) = path := by
    cases path with
    | nil => simp at hp
    | cons c p =>
      have hc : ends c = true := by simpa using hp
      rw [List.dropWhile_append_of_pos (by simpa using hh), List.dropWhile_cons_of_neg (by simp [hc])]
  unfold hostAndPath
  have hpre : "http://".toList.isPrefixOf ("http://".toList ++ (host ++ path)) = true := by simp
  simp only [hpre, if_true, List.drop_left, h1, h2]
  have h3 : ∀ l : List Char, l.all (fun c => c != '?' && c != '#') = true → l.takeWhile (fun c => c != '?' && c != '#') = l := by
    intro l
    induction l with
    | nil => intro _; rfl
    | cons c l ih =>
      intro h
      rw [List.all_cons, Bool.and_eq_true] at h
      rw [List.takeWhile_cons, if_pos h.1, ih h.2]
  rw [h3 path hq]

theorem reaches_at {m : Method} {host path : String} {au : Option String} (hh : host.toList.all (!ends ·) = true) (hp : path.toList.head?.any ends = true)
    (hq : path.toList.all (fun c => c != '?' && c != '#') = true) :
    reaches ⟨m, "http://" ++ host ++ path, au⟩ = (route m path.toList).map (host.toList, ·) := by
  unfold reaches
  have : ("http://" ++ host ++ path).toList = "http://".toList ++ (host.toList ++ path.toList) := by simp [String.toList_append]
  simp only [this, hostAndPath_http hh hp hq]

/-- A host, with its port if any. Specification, after RFC 3986 3.2; models no code. -/
def IsHost (host : String) : Prop := ∀ c ∈ host.toList, c ≠ '/' ∧ c ≠ '?' ∧ c ≠ '#'

theorem IsHost.all {host : String} (h : IsHost host) : host.toList.all (!ends ·) = true := by
  refine List.all_eq_true.mpr fun c hc => ?_
  have := h c hc
  simp [ends, this]

/-- **C207**, what holds: at an issuer of this repository, reached under its host's name, each request arrives at the handler it is meant for. -/
theorem C207_handlers_reached_partial {host : String} (hh : IsHost host) {c : Call} {h : RouteHandler}
    (hm : Meant c ("http://" ++ host) h) : ∃ x, sent c = some x ∧ reaches x = some (host.toList, h) := by
  cases c <;> simp only [Meant] at hm <;> obtain ⟨h1, rfl⟩ := hm <;> refine ⟨_, rfl, ?_⟩ <;> rw [h1, reaches_at hh.all (by decide) (by decide)]
  · rw [show route .get "/.well-known/openid-credential-issuer".toList = some .metadata by decide +kernel]; rfl
  · rw [show route .get "/.well-known/oauth-authorization-server".toList = some .oauthServer by decide +kernel]; rfl
  · rw [show route .post "/token".toList = some .token by decide +kernel]; rfl
  · rw [show route .post "/credential".toList = some .credential by decide +kernel]; rfl

/-- **C207 is false** for identifiers that end with `/`: no request arrives at any handler. -/
theorem C207_slash_reaches_nothing {host : String} (hh : IsHost host) {c : Call} {h : RouteHandler}
    (hm : Meant c ("http://" ++ host ++ "/") h) {x : HttpSent} (hx : sent c = some x) : reaches x = none := by
  have hs : ∀ p : String, "http://" ++ host ++ "/" ++ p = "http://" ++ host ++ ("/" ++ p) := fun p => String.append_assoc ..
  cases c <;> simp only [Meant] at hm <;> obtain ⟨h1, rfl⟩ := hm <;> simp only [sent, Option.some.injEq] at hx <;> rw [← hx, h1, hs,
    reaches_at hh.all (by decide +kernel) (by decide +kernel)]
  · rw [show route .get ("/" ++ "/.well-known/openid-credential-issuer").toList = none by decide +kernel]; rfl
  · rw [show route .get ("/" ++ "/.well-known/oauth-authorization-server").toList = none by decide +kernel]; rfl
  · rw [show route .post ("/" ++ "/token").toList = none by decide +kernel]; rfl
  · rw [show route .post ("/" ++ "/credential").toList = none by decide +kernel]; rfl

/-- **C207 is false**: where the example issuer says it takes requests for deferred credentials, it takes none. -/
theorem C207_deferred_not_served {issuer : String} {m : Wire.IssuerMeta} (hm : publishedBy issuer = some m) {u : String} (hu : m.deferredEndpoint = some u)
    (how : Method) (au : Option String) : reaches ⟨how, u, au⟩ = none := by
  unfold publishedBy at hm
  split at hm
  · cases hm
    cases hu
    have := reaches_at (m := how) (au := au) (host := "vercre.io") (path := "/deferred") (by decide +kernel) (by decide +kernel) (by decide +kernel)
    refine Eq.trans ?_ (this.trans ?_)
    · rfl
    · cases how
      · rw [show route .get "/deferred".toList = none by decide +kernel]; rfl
      · rw [show route .post "/deferred".toList = none by decide +kernel]; rfl
  · cases hm

section
variable (hf : a.env.Fresh) {now : Int} {file : Dict Slot} {l : List (Nat × Cmd)}
include hf

theorem sent_reaches {pre post : List Entry} {en : Entry} (h : (after a (opened now file) l).world.log = pre ++ en :: post)
    {host : String} (hh : IsHost host) {k : String} (hk : flowOf en.req = some k)
    (hown : ∀ off md, InOrder [IsOffer k off md] pre → md.credentialIssuer = "http://" ++ host)
    {ev : Holder.Event} (hev : ev ∈ en.events) {to : String} (hto : addressee ev.call = some to) {x : HttpSent} (hx : sent ev.call = some x) :
    ∃ h, (h = .token ∨ h = .credential) ∧ Meant ev.call ("http://" ++ host) h ∧ reaches x = some (host.toList, h) := by
  obtain ⟨k', off, md, hk', ho, _, _⟩ := C207_sent_under_named_issuer_partial hf h hev hto hx
  have hk' : k' = k := by rw [hk] at hk'; cases hk'; rfl
  subst hk'
  have hH := homed_after hf (sound_opened a now file) (homed_opened now file) l
  obtain ⟨e, hran⟩ := hH.ran pre en post h
  have hme : ∃ h, (h = .token ∨ h = .credential) ∧ Meant ev.call to h := by
    obtain ⟨c, o⟩ := ev
    cases c <;> simp only [addressee, reduceCtorEq, Option.some.injEq] at hto <;> simp only [sent, reduceCtorEq] at hx
    · exact ⟨_, .inl rfl, hto, rfl⟩
    · exact ⟨_, .inr rfl, hto, rfl⟩
  have hto' : to = "http://" ++ host := by
    rcases hran.sent hev hto with ⟨k2, asked, md2, hk2, ⟨p, y, q, rfl, hp, _⟩, rfl, _⟩ | ⟨_, _, _, ⟨⟨r, _, _, _, hr, _⟩, _⟩, _⟩
    · rw [hk] at hk2
      cases hk2
      rcases hp with ⟨off2, ho2, _⟩ | ⟨⟨r, _, _, _, hr, _⟩, _⟩
      · exact hown off2 md2 ⟨p, y, q, rfl, ho2, trivial⟩
      · have := hH.used y (by rw [h]; simp)
        rw [hr] at this
        exact this.elim
    · have := hH.used en (by rw [h]; simp)
      rw [hr] at this
      exact this.elim
  subst hto'
  obtain ⟨h', hor, hm⟩ := hme
  obtain ⟨x', hx', hreach⟩ := C207_handlers_reached_partial hh hm
  rw [hx] at hx'
  cases hx'
  exact ⟨h', hor, hm, hreach⟩

/-- **C207**, what holds: if the metadata of an issuer of this repository names the host it was asked of, then what the application sends for this issuer's
offers arrives at the host that made the offer, at the handler it is meant for. -/
theorem C207_own_name_arrives_partial {pre post : List Entry} {en : Entry} (h : (after a (opened now file) l).world.log = pre ++ en :: post)
    {host : String} (hh : IsHost host) {k : String} (hk : flowOf en.req = some k)
    (hoff : ∀ off md, InOrder [IsOffer k off md] pre → off.credentialIssuer = "http://" ++ host)
    (hown : ∀ y ∈ pre, ∀ (md : Verif.Issuer), (⟨.metadata ("http://" ++ host), some md⟩ : Holder.Event) ∈ y.events → md.credentialIssuer = "http://" ++ host)
    {ev : Holder.Event} (hev : ev ∈ en.events) {to : String} (hto : addressee ev.call = some to) {x : HttpSent} (hx : sent ev.call = some x) :
    ∃ h, Meant ev.call ("http://" ++ host) h ∧ reaches x = some (host.toList, h) := by
  obtain ⟨h', _, h1, h2⟩ := sent_reaches hf h hh hk (fun off md ho => by
    have hf' := hoff off md ho
    obtain ⟨p, y, q, rfl, hy, _⟩ := ho
    exact hown y (by simp) md (hf' ▸ hy.2.1)) hev hto hx
  exact ⟨h', h1, h2⟩

/-- **C207 is false** for the example issuer itself: its metadata is the same whichever host it is reached at. So what the application sends for an offer
that the example issuer makes at `localhost:8080`, where it listens, goes to `vercre.io`. -/
theorem C207_example_issuer_missed {pre post : List Entry} {en : Entry} (h : (after a (opened now file) l).world.log = pre ++ en :: post)
    {k : String} (hk : flowOf en.req = some k) (hoff : ∀ off md, InOrder [IsOffer k off md] pre → off.credentialIssuer = "http://localhost:8080")
    (hpub : ∀ y ∈ pre, ∀ (i : String) (md : Verif.Issuer), (⟨.metadata i, some md⟩ : Holder.Event) ∈ y.events →
      ∀ m, publishedBy i = some m → md.credentialIssuer = m.credentialIssuer)
    {ev : Holder.Event} (hev : ev ∈ en.events) {to : String} (hto : addressee ev.call = some to) {x : HttpSent} (hx : sent ev.call = some x) :
    ∃ h, reaches x = some ("vercre.io".toList, h) := by
  obtain ⟨h', _, _, h2⟩ := sent_reaches hf h (host := "vercre.io") (by unfold IsHost; decide +kernel) hk (fun off md ho => by
    have hf' := hoff off md ho
    obtain ⟨p, y, q, rfl, hy, _⟩ := ho
    exact hpub y (by simp) _ md (hf' ▸ hy.2.1) _ (if_pos (.inl rfl))) hev hto hx
  exact ⟨h', h2⟩

end

end Verif.App
