import Verif.App.KeepLemmas
/-!
# The list of credentials: what it shows, and that nothing is pending behind it (C149, C155, C156)
-/
namespace Verif.App
open Holder (Credential HEnv HWorld Req Resp PStatus Event Call Entry Issuance Presentation HVal Inv HProg)

variable {a : Around} {s : App} {t : Nat}

/-! ### A view that is output is that of the new state -/

/-- What comes out shows the state it comes with. -/
def Shows (x : Out × App) : Prop := ∀ v, x.1 = .view v → view x.2 = some v

theorem shows_finish (s : App) : Shows (finish s) := by
  intro v h
  rw [finish_state]
  unfold finish at h
  split at h
  · cases h; assumption
  · cases h

theorem shows_reset (a : Around) (s : App) : Shows (reset a s) := by
  unfold reset
  split
  · intro v h; cases h
  · exact shows_finish _

theorem shows_andThen {x : Done × App} {k : Resp → App → Out × App} (hk : ∀ resp, x.1 = .ok resp → Shows (k resp x.2)) : Shows (andThen x k) := by
  unfold andThen
  split
  · exact hk _ (by assumption)
  · intro v h; cases h
  · intro v h; cases h

theorem shows_offer (a : Around) (s : App) (t : Nat) (u : String) : Shows (offer a s t u) := by
  unfold offer
  split
  · intro v h; cases h
  · refine shows_andThen fun resp _ => ?_
    split
    · exact shows_finish _
    · intro v h; cases h

theorem shows_request (a : Around) (s : App) (t : Nat) (u : String) : Shows (request a s t u) := by
  unfold request
  refine shows_andThen fun resp _ => ?_
  split
  · exact shows_finish _
  · intro v h; cases h

theorem shows_logged {x : Out × App} (h : Shows x) : Shows (logged x) := by
  unfold logged
  split
  · intro v h; cases h
  · exact h

theorem shows_serve (a : Around) (s : App) (t : Nat) (c : Cmd) : Shows (serve a s t c) := by
  cases c with
  | start => exact shows_finish s
  | reset => exact shows_reset a s
  | select id =>
    show Shows (select s id)
    unfold select
    split
    · intro v h; cases h
    · split <;> (intro v h; cases h)
  | delete id =>
    show Shows (delete a s id)
    simp only [delete]
    split
    · exact shows_finish _
    · intro v h; cases h
  | offer u => exact shows_offer a s t u
  | accept => exact shows_andThen fun _ _ => shows_finish _
  | pin p => exact shows_andThen fun _ _ => shows_finish _
  | credentials => exact shows_andThen fun _ _ => shows_andThen fun _ _ => shows_andThen fun _ _ => shows_reset a _
  | request u => exact shows_request a s t u
  | authorize =>
    refine shows_andThen fun resp _ => ?_
    split
    · exact shows_finish _
    · intro v h; cases h
  | present => exact shows_andThen fun _ _ => shows_reset a _
  | link u =>
    show Shows (link a s t u)
    unfold link
    split
    · exact shows_logged (shows_offer a s t _)
    · split
      · exact shows_logged (shows_request a s t _)
      · intro v h; cases h
  | restart => intro v h; cases h
  | autosave => intro v h; cases h
  | crash n c => intro v h; cases h

theorem lib_ok {r : Req} {resp : Resp} (h : (lib a s t r).1 = .ok resp) :
    ((Holder.serve a.provider r).run (connected a s.files) { s.world with now := s.world.now + t, recent := [] }).1 = .ok resp := by
  simp only [lib, Holder.step] at h
  split at h
  · cases h
  · split at h <;> cases h
  · rename_i r' hr
    cases h
    exact hr

theorem andThen_view {x : Done × App} {k : Resp → App → Out × App} {v : View} (h : (andThen x k).1 = .view v) :
    ∃ r, x.1 = .ok r ∧ (k r x.2).1 = .view v ∧ (andThen x k).2 = (k r x.2).2 := by
  obtain ⟨d, s⟩ := x
  cases d with
  | ok r => exact ⟨r, rfl, h, rfl⟩
  | failed => cases h
  | panicked => cases h

/-! ### Lists of views -/

theorem view_credential {l : List Display} (h : view s = some (.credential l)) : s.sub = .credential ∧ mapAll displayOf s.credential = some l := by
  unfold view at h
  split at h
  · cases h
  · obtain ⟨x, hx, he⟩ := Option.map_eq_some_iff.mp h
    cases he
    exact ⟨by assumption, hx⟩
  · obtain ⟨x, hx, he⟩ := Option.map_eq_some_iff.mp h
    cases he
  · obtain ⟨x, hx, he⟩ := Option.map_eq_some_iff.mp h
    cases he

theorem view_splash (h : view s = some .splash) : s.sub = .splash := by
  unfold view at h
  split at h
  · assumption
  all_goals
    obtain ⟨x, hx, he⟩ := Option.map_eq_some_iff.mp h
    cases he

theorem mapAll_map {α β γ : Type} {f : α → Option β} {g : α → γ} {h : β → γ} (hf : ∀ x y, f x = some y → h y = g x) {l : List α} {m : List β}
    (hm : mapAll f l = some m) : m.map h = l.map g := by
  induction l generalizing m with
  | nil => cases hm; rfl
  | cons x l ih =>
    simp only [mapAll] at hm
    cases hx : f x with
    | none => rw [hx] at hm; cases hm
    | some y =>
      rw [hx] at hm
      obtain ⟨r, hr, rfl⟩ := Option.map_eq_some_iff.mp hm
      simp [hf x y hx, ih hr]

theorem mapAll_none {α β : Type} {f : α → Option β} {l : List α} : mapAll f l = none ↔ ∃ x ∈ l, f x = none := by
  induction l with
  | nil => simp [mapAll]
  | cons x l ih =>
    simp only [mapAll, List.mem_cons, exists_eq_or_imp]
    cases f x with
    | none => simp
    | some y =>
      simp only [Option.bind_some, Option.map_eq_none_iff, reduceCtorEq, false_or]
      exact ih

theorem readAll_keys {m : Dict Slot} (hk : Keyed m) {l : List Credential} (h : readAll m = some l) : l.map (·.id) = m.map (·.1) := by
  induction m generalizing l with
  | nil => cases h; rfl
  | cons x m ih =>
    obtain ⟨k, v⟩ := x
    cases v with
    | junk => cases h
    | credential c =>
      simp only [readAll] at h
      obtain ⟨r, hr, rfl⟩ := Option.map_eq_some_iff.mp h
      have hc : c.id = k := hk (k, .credential c) (by simp) c rfl
      simp [hc, ih (fun x hx => hk x (List.mem_cons_of_mem _ hx)) hr]

theorem mem_readAll {m : Dict Slot} {l : List Credential} (h : readAll m = some l) : ∀ c, c ∈ l ↔ ∃ k, (k, Slot.credential c) ∈ m := by
  induction m generalizing l with
  | nil => cases h; simp
  | cons x m ih =>
    obtain ⟨k, v⟩ := x
    cases v with
    | junk => cases h
    | credential d =>
      simp only [readAll] at h
      obtain ⟨r, hr, rfl⟩ := Option.map_eq_some_iff.mp h
      intro c
      rw [List.mem_cons, ih hr c]
      constructor
      · rintro (rfl | ⟨j, hj⟩)
        · exact ⟨k, by simp⟩
        · exact ⟨j, List.mem_cons_of_mem _ hj⟩
      · rintro ⟨j, hj⟩
        rcases List.mem_cons.mp hj with h | h
        · cases h; exact .inl rfl
        · exact .inr ⟨j, h⟩

/-- A credential is shown as what it is: under its own id, issuer and logo, and under the name of its first display. -/
def DisplayedAs (c : Credential) (d : Display) : Prop :=
  d.id = c.id ∧ d.issuer = some c.issuer ∧ d.logo = c.logo ∧
    ∃ first others, c.display = some (first :: others) ∧ d.name = first.name ∧ d.logoUrl = first.logoUri

theorem displayOf_spec {c : Credential} {d : Display} (h : displayOf c = some d) : DisplayedAs c d := by
  obtain ⟨x, hx, rfl⟩ := Option.map_eq_some_iff.mp h
  refine ⟨rfl, rfl, rfl, x, ?_⟩
  unfold firstDisplay at hx
  cases hc : c.display with
  | none => rw [hc] at hx; cases hx
  | some l =>
    rw [hc] at hx
    cases l with
    | nil => cases hx
    | cons y l => cases hx; exact ⟨l, rfl, rfl, rfl⟩

theorem displayOf_some {c : Credential} {d : Display} (h : displayOf c = some d) : d.id = c.id ∧ d.issuer = some c.issuer :=
  ⟨(displayOf_spec h).1, (displayOf_spec h).2.1⟩

theorem mapAll_mem {α β : Type} {f : α → Option β} {l : List α} {m : List β} (hm : mapAll f l = some m) :
    (∀ y ∈ m, ∃ x ∈ l, f x = some y) ∧ ∀ x ∈ l, ∃ y ∈ m, f x = some y := by
  induction l generalizing m with
  | nil => cases hm; simp
  | cons x l ih =>
    simp only [mapAll] at hm
    cases hx : f x with
    | none => rw [hx] at hm; cases hm
    | some y =>
      rw [hx] at hm
      obtain ⟨r, hr, rfl⟩ := Option.map_eq_some_iff.mp hm
      obtain ⟨h1, h2⟩ := ih hr
      constructor
      · intro z hz
        rcases List.mem_cons.mp hz with rfl | hz
        · exact ⟨x, by simp, hx⟩
        · obtain ⟨w, hw, he⟩ := h1 z hz; exact ⟨w, List.mem_cons_of_mem _ hw, he⟩
      · intro z hz
        rcases List.mem_cons.mp hz with rfl | hz
        · exact ⟨y, by simp, hx⟩
        · obtain ⟨w, hw, he⟩ := h2 z hz; exact ⟨w, List.mem_cons_of_mem _ hw, he⟩

/-! ### The file follows the memory -/

theorem synced_write (f : Files) (hd : ∀ n, a.disk n = true) : (f.write a).disk = (f.write a).store := by
  simp [Files.write, hd]

theorem synced_after (hd : ∀ n, a.disk n = true) {f : Files} (h : f.disk = f.store) (l : List Event) : (f.after a l).disk = (f.after a l).store := by
  rw [after_saves]
  generalize savedIn l = cs
  induction cs generalizing f with
  | nil => exact h
  | cons c cs ih => exact ih (synced_write _ hd)

theorem synced_does (hd : ∀ n, a.disk n = true) {s s' : App} (h : s.files.disk = s.files.store) (hs : Does a s s') : s'.files.disk = s'.files.store := by
  induction hs with
  | refl => exact h
  | lib _ t r _ ih => exact synced_after hd ih _
  | edit _ _ hf ih => rw [hf]; exact ih

theorem synced_serve (hd : ∀ n, a.disk n = true) (h : s.files.disk = s.files.store) (c : Cmd) :
    (serve a s t c).2.files.disk = (serve a s t c).2.files.store := by
  cases c with
  | delete id =>
    show (delete a s id).2.files.disk = (delete a s id).2.files.store
    rw [delete_files]
    unfold Files.remove
    split
    · exact synced_write _ hd
    · exact h
  | restart => rfl
  | autosave => exact synced_write _ hd
  | crash n c => rfl
  | _ => exact synced_does hd h (serve_does a s t trivial)

theorem synced_history (hd : ∀ n, a.disk n = true) (h : s.files.disk = s.files.store) (l : List (Nat × Cmd)) :
    (after a s l).files.disk = (after a s l).files.store := by
  induction l generalizing s with
  | nil => exact h
  | cons x l ih => exact ih (synced_serve hd h x.2)

/-! ### C149 -/

/-- **C149** While writes of the file succeed, a list of credentials that the application shows is the list of those in its store and in the file: the same
ids in the same order, each shown as what it is. -/
theorem C149_list_is_stored_partial (hd : Draws a) (hw : ∀ n, a.disk n = true) {now : Int} {file : Dict Slot} (hk : Keyed file) (l : List (Nat × Cmd)) {t : Nat}
    {c : Cmd} {shown : List Display} {s' : App} (h : serve a (after a (opened now file) l) t c = (.view (.credential shown), s')) :
    shown.map (·.id) = s'.files.store.map (·.1) ∧ s'.files.disk = s'.files.store ∧
    (∀ d ∈ shown, ∃ x, (d.id, Slot.credential x) ∈ s'.files.store ∧ DisplayedAs x d) ∧
    ∀ id x, (id, Slot.credential x) ∈ s'.files.store → ∃ d ∈ shown, d.id = id ∧ DisplayedAs x d := by
  have hs : s' = (serve a (after a (opened now file) l) t c).2 := by rw [h]
  have hok : Ok a s' := by rw [hs]; exact ok_serve hd (ok_after hd (ok_opened a now hk) l) c
  have hv : view s' = some (.credential shown) := by
    have := shows_serve a (after a (opened now file) l) t c (.credential shown) (by rw [h])
    rwa [hs]
  obtain ⟨hsub, hm⟩ := view_credential hv
  obtain ⟨r, hr, _, heq⟩ := hok.listed hsub
  rw [← heq hw] at hm
  obtain ⟨hm1, hm2⟩ := mapAll_mem hm
  refine ⟨?_, ?_, ?_, ?_⟩
  · rw [mapAll_map (fun x y h => (displayOf_some h).1) hm, readAll_keys hok.keyed.store hr]
  · rw [hs]; exact synced_serve hw (synced_history hw rfl l) c
  · intro d hd
    obtain ⟨x, hx, he⟩ := hm1 d hd
    obtain ⟨k, hkx⟩ := (mem_readAll hr x).mp hx
    refine ⟨x, ?_, displayOf_spec he⟩
    rw [(displayOf_some he).1, hok.keyed.store _ hkx x rfl]
    exact hkx
  · intro id x hx
    obtain ⟨d, hd, he⟩ := hm2 x ((mem_readAll hr x).mpr ⟨id, hx⟩)
    exact ⟨d, hd, by rw [(displayOf_some he).1]; exact hok.keyed.store _ hx x rfl, displayOf_spec he⟩

/-- **C149** Even if writes fail, every credential in the store is on the list that is shown. -/
theorem C149_stored_are_listed (hd : Draws a) {now : Int} {file : Dict Slot} (hk : Keyed file) (l : List (Nat × Cmd)) {t : Nat}
    {c : Cmd} {shown : List Display} {s' : App} (h : serve a (after a (opened now file) l) t c = (.view (.credential shown), s')) :
    (∀ x ∈ s'.files.store, x.2 ≠ .junk) ∧ (s'.files.store.map (·.1)).Sublist (shown.map (·.id)) ∧
    ∀ id x, (id, Slot.credential x) ∈ s'.files.store → ∃ d ∈ shown, DisplayedAs x d := by
  have hs : s' = (serve a (after a (opened now file) l) t c).2 := by rw [h]
  have hok : Ok a s' := by rw [hs]; exact ok_serve hd (ok_after hd (ok_opened a now hk) l) c
  have hv : view s' = some (.credential shown) := by
    have := shows_serve a (after a (opened now file) l) t c (.credential shown) (by rw [h])
    rwa [hs]
  obtain ⟨hsub, hm⟩ := view_credential hv
  obtain ⟨r, hr, hsl, _⟩ := hok.listed hsub
  refine ⟨?_, ?_, fun id x hx => ?_⟩
  · rintro ⟨k, v⟩ hx rfl
    have : ∀ m : Dict Slot, (k, Slot.junk) ∈ m → readAll m = none := by
      intro m
      induction m with
      | nil => intro h; cases h
      | cons y m ih =>
        obtain ⟨j, w⟩ := y
        intro h
        cases w with
        | junk => rfl
        | credential c =>
          rcases List.mem_cons.mp h with h | h
          · cases h
          · simp [readAll, ih h]
    rw [this _ hx] at hr
    cases hr
  · rw [mapAll_map (fun x y h => (displayOf_some h).1) hm, ← readAll_keys hok.keyed.store hr]
    exact hsl.map _
  · obtain ⟨d, hd, he⟩ := (mapAll_mem hm).2 x (hsl.subset ((mem_readAll hr x).mpr ⟨id, hx⟩))
    exact ⟨d, hd, displayOf_spec he⟩

/-! ### C155 -/

/-- The commands that go on with a flow. -/
def GoesOn : Cmd → Prop
  | .accept => True
  | .pin _ => True
  | .credentials => True
  | .authorize => True
  | .present => True
  | _ => False

theorem idle_lib {r : Req} {k : Resp → App → Out × App} {id : String} (hk : about r = some id) (h : s.world.store id = none) :
    andThen (lib a s t r) k = (.failed, (lib a s t r).2) := by
  have := (lib_absent (a := a) (t := t) hk h).1
  unfold andThen
  rw [this]

/-- **C155** While the list of credentials or the first screen is shown, there is nothing to accept, to collect, to authorize or to present: these commands
fail, nobody is called, and nothing changes. -/
theorem C155_nothing_pending (hd : Draws a) {now : Int} {file : Dict Slot} (hk : Keyed file) (l : List (Nat × Cmd)) {s : App}
    (hs : s = after a (opened now file) l) (hv : view s = some .splash ∨ ∃ shown, view s = some (.credential shown)) {c : Cmd} (hc : GoesOn c) :
    (serve a s t c).1 = .failed ∧ view (serve a s t c).2 = view s ∧ (serve a s t c).2.files = s.files ∧ (serve a s t c).2.world.store = s.world.store ∧
    ∃ en, (serve a s t c).2.world.log = s.world.log ++ [en] ∧ en.events = [] := by
  have hok : Ok a s := by rw [hs]; exact ok_after hd (ok_opened a now hk) l
  have hrest : Resting s := by
    rcases hv with hv | ⟨x, hv⟩
    · exact .inl (view_splash hv)
    · exact .inr (view_credential hv).1
  obtain ⟨hi, hp⟩ := hok.idle hrest
  have hn := no_flow hd hok.sound
  have key : ∀ {r : Req} {k : Resp → App → Out × App}, about r = some "" → serve a s t c = andThen (lib a s t r) k →
      (serve a s t c).1 = .failed ∧ view (serve a s t c).2 = view s ∧ (serve a s t c).2.files = s.files ∧ (serve a s t c).2.world.store = s.world.store ∧
      ∃ en, (serve a s t c).2.world.log = s.world.log ++ [en] ∧ en.events = [] := by
    intro r k hr he
    rw [he, idle_lib hr hn]
    obtain ⟨_, h2, h3, h4⟩ := lib_absent (a := a) (t := t) hr hn
    obtain ⟨x, hx, _⟩ := lib_log a s t r
    refine ⟨rfl, rfl, h2, h4, _, hx, h3⟩
  cases c with
  | accept => exact key (r := .accept ⟨s.issuance.id, none⟩) (by rw [hi]; rfl) (by rw [serve]; rfl)
  | pin p => exact key (r := .pin ⟨s.issuance.id, p⟩) (by rw [hi]; rfl) (by rw [serve]; rfl)
  | credentials => exact key (r := .token s.issuance.id) (by rw [hi]; rfl) (by rw [serve]; rfl)
  | authorize => exact key (r := .authorizePresentation s.presentation.id) (by rw [hp]; rfl) (by rw [serve]; rfl)
  | present => exact key (r := .present s.presentation.id) (by rw [hp]; rfl) (by rw [serve]; rfl)
  | _ => exact hc.elim

/-- **C155** Going back to the list does not end a flow: what the wallet keeps about it – the token among it – stays. -/
theorem C155_abandoned_flows_stay (a : Around) (s : App) (t : Nat) : (serve a s t .reset).2.world = s.world := by
  show (reset a s).2.world = s.world
  unfold reset
  split
  · rfl
  · rw [finish_state]

/-! ### C156 -/

/-- What the application calls. -/
def Expected (ev : Event) : Prop :=
  match ev.call with
  | .authorization _ => False
  | .deferred _ => False
  | .notification _ => False
  | _ => True

theorem expected_of_makes {r : Req} {ev : Event} (h : Makes r ev) : Expected ev := by
  obtain ⟨c, o⟩ := ev
  unfold Expected
  cases c with
  | authorization q =>
    cases r <;> first | exact h | (rcases h with ⟨_, h⟩ | ⟨_, h⟩ <;> cases h; done) | (obtain ⟨_, h⟩ := h; cases h; done) | (obtain ⟨_, _, h⟩ := h; cases h; done)
  | deferred q =>
    cases r <;> first | exact h | (rcases h with ⟨_, h⟩ | ⟨_, h⟩ <;> cases h; done) | (obtain ⟨_, h⟩ := h; cases h; done) | (obtain ⟨_, _, h⟩ := h; cases h; done)
  | notification q =>
    cases r <;> first | exact h | (rcases h with ⟨_, h⟩ | ⟨_, h⟩ <;> cases h; done) | (obtain ⟨_, h⟩ := h; cases h; done) | (obtain ⟨_, _, h⟩ := h; cases h; done)
  | _ => trivial

/-- Every call so far was one the application implements. -/
def AllExpected (s : App) : Prop := ∀ en ∈ s.world.log, Used en.req ∧ ∀ ev ∈ en.events, Expected ev

theorem expected_does (hf : a.env.Fresh) {s s' : App} (h : Sound a s) (he : AllExpected s) (hs : Does a s s') : AllExpected s' := by
  induction hs with
  | refl => exact he
  | @lib s1 hs t r hr ih =>
    obtain ⟨x, hx, _⟩ := lib_log a s1 t r
    intro en hen
    rw [hx] at hen
    rcases List.mem_append.mp hen with hen | hen
    · exact ih en hen
    · simp at hen; subst hen
      exact ⟨hr, fun ev hev => expected_of_makes (makes (sound_does hf h hs) hr ev hev)⟩
  | edit _ hw _ ih => unfold AllExpected; rw [hw]; exact ih

theorem expected_serve (hf : a.env.Fresh) (h : Sound a s) (he : AllExpected s) (c : Cmd) : AllExpected (serve a s t c).2 := by
  induction c with
  | delete id =>
    show AllExpected (delete a s id).2
    unfold AllExpected; rw [delete_world]; exact he
  | restart => exact he
  | autosave => exact he
  | crash n c ih => exact ih
  | _ => exact expected_does hf h he (serve_does a s t trivial)

theorem expected_after (hf : a.env.Fresh) (h : Sound a s) (he : AllExpected s) (l : List (Nat × Cmd)) : AllExpected (after a s l) := by
  induction l generalizing s with
  | nil => exact he
  | cons x l ih => exact ih (sound_serve hf h x.1 x.2) (expected_serve hf h he x.2)

/-- **C156** The parts of the provider that are not implemented are never reached, whatever the commands, the issuers and the verifiers: nobody is asked for
authorization or for a deferred credential, and no issuer is notified. Credentials promised for later are never collected. -/
theorem C156_unimplemented_not_reached (hf : a.env.Fresh) (now : Int) (file : Dict Slot) (l : List (Nat × Cmd)) :
    ∀ en ∈ (after a (opened now file) l).world.log, ∀ ev ∈ en.events,
      (∀ r, ev.call ≠ .authorization r) ∧ (∀ r, ev.call ≠ .deferred r) ∧ ∀ n, ev.call ≠ .notification n := by
  intro en hen ev hev
  have h := (expected_after hf (sound_opened a now file) (fun _ h => nomatch h) l en hen).2 ev hev
  unfold Expected at h
  refine ⟨fun r hr => ?_, fun r hr => ?_, fun r hr => ?_⟩ <;> rw [hr] at h <;> exact h

/-- **C156** So an offer that does not come with a pre-authorized code ends nowhere: its credentials are never collected. -/
theorem C156_code_needed {v : View} (h : (serve a s t .credentials).1 = .view v) :
    ∃ i p, s.world.store s.issuance.id = some (.issuance i) ∧ Holder.preAuthorized i.offer = some p := by
  obtain ⟨⟨x, w⟩, hrun⟩ : ∃ y, (Holder.serve a.provider (.token s.issuance.id)).run (connected a s.files) { s.world with now := s.world.now + t, recent := [] } = y := ⟨_, rfl⟩
  obtain ⟨evs, ws, _, _, h1⟩ := Holder.token_did hrun
  rcases h1 with ⟨hfail, _⟩ | ⟨i, p, hi, _, hp, _⟩
  · exfalso
    obtain ⟨r, hr, _⟩ := andThen_view h
    have := lib_ok hr
    rw [hrun] at this
    rw [show x = _ from this] at hfail
    obtain ⟨e, h, _⟩ := hfail
    cases h
  · exact ⟨i, p, hi, hp⟩

end Verif.App
