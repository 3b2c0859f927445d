import Verif.App.KeepProps
/-!
# What is on the screen when the user decides (C150, C157)
-/
namespace Verif.App
open Holder (Credential HEnv HWorld Req Resp PStatus Event Call Entry Issuance Presentation HVal Inv HProg)

variable {a : Around} {s : App} {t : Nat}

/-! ### The screen -/

/-- The screen after a command: the last view since the application was started; nothing before the first one. -/
def screen (shown : Option View) : Cmd → Out → Option View
  | .restart, _ => none
  | .crash _ _, _ => none
  | _, .view v => some v
  | _, _ => shown

/-- The screen after some commands. -/
def watch (a : Around) (s : App) (shown : Option View) : List (Nat × Cmd) → Option View
  | [] => shown
  | (t, c) :: l => watch a (serve a s t c).2 (screen shown c (serve a s t c).1) l

/-- Either the view is on the screen, or nothing is there yet and the view is the first one. -/
def OnScreen (shown : Option View) (v : View) : Prop := shown = some v ∨ shown = none ∧ v = .splash

/-- A command shows its state, or leaves what is to be seen as it is, or what is to be seen cannot be shown. -/
def Seen (s : App) (x : Out × App) : Prop := ∀ v, view x.2 = some v → x.1 = .view v ∨ (∀ u, x.1 ≠ .view u) ∧ view s = some v

theorem seen_finish (s s' : App) : Seen s (finish s') := by
  intro v h
  rw [finish_state] at h
  refine .inl ?_
  unfold finish
  rw [h]

theorem seen_same {s : App} {x : Out × App} (ho : ∀ u, x.1 ≠ .view u) (hv : view x.2 = view s) : Seen s x := fun v h => .inr ⟨ho, by rw [← hv]; exact h⟩

theorem seen_reset {s s' : App} (hv : view s' = view s) : Seen s (reset a s') := by
  unfold reset
  split
  · exact seen_same (fun u h => nomatch h) hv
  · exact seen_finish s _

theorem seen_andThen {s s' : App} {r : Req} {k : Resp → App → Out × App} (hv : view s' = view s)
    (hk : ∀ resp, Seen s (k resp (lib a s' t r).2)) : Seen s (andThen (lib a s' t r) k) := by
  have hv : view (lib a s' t r).2 = view s := hv
  unfold andThen
  split
  · exact hk _
  · exact seen_same (fun u h => nomatch h) hv
  · exact seen_same (fun u h => nomatch h) hv

theorem seen_offer (a : Around) (s : App) (t : Nat) (u : String) : Seen s (offer a s t u) := by
  unfold offer
  split
  · exact seen_same (fun u h => nomatch h) rfl
  · refine seen_andThen rfl fun resp => ?_
    split
    · exact seen_finish s _
    · exact seen_same (fun u h => nomatch h) rfl

theorem seen_request (a : Around) (s : App) (t : Nat) (u : String) : Seen s (request a s t u) := by
  unfold request
  refine seen_andThen rfl fun resp => ?_
  split
  · exact seen_finish s _
  · exact seen_same (fun u h => nomatch h) rfl

theorem seen_logged {x : Out × App} (h : Seen s x) : Seen s (logged x) := by
  obtain ⟨o, s'⟩ := x
  cases o with
  | failed =>
    intro v hv
    rcases h v hv with h | h
    · cases h
    · exact .inr ⟨(fun u h => nomatch h), h.2⟩
  | _ => exact h

/-- The commands that do not start the application anew. -/
def Stays : Cmd → Prop
  | .restart => False
  | .crash _ _ => False
  | _ => True

theorem seen_serve (a : Around) (s : App) (t : Nat) {c : Cmd} (hc : Stays c) : Seen s (serve a s t c) := by
  cases c with
  | start => exact seen_finish s s
  | reset => exact seen_reset rfl
  | select id =>
    show Seen s (select s id)
    unfold select
    split
    · exact seen_same (fun u h => nomatch h) rfl
    · split <;> exact seen_same (fun u h => nomatch h) rfl
  | delete id =>
    show Seen s (delete a s id)
    simp only [delete]
    split
    · exact seen_finish s _
    · exact seen_same (fun u h => nomatch h) rfl
  | offer u => exact seen_offer a s t u
  | accept => exact seen_andThen rfl fun _ => seen_finish s _
  | pin p => exact seen_andThen rfl fun _ => seen_finish s _
  | credentials => exact seen_andThen rfl fun _ => seen_andThen rfl fun _ => seen_andThen rfl fun _ => seen_reset rfl
  | request u => exact seen_request a s t u
  | authorize =>
    refine seen_andThen rfl fun resp => ?_
    split
    · exact seen_finish s _
    · exact seen_same (fun u h => nomatch h) rfl
  | present => exact seen_andThen rfl fun _ => seen_reset rfl
  | link u =>
    show Seen s (link a s t u)
    unfold link
    split
    · exact seen_logged (seen_offer a s t _)
    · split
      · exact seen_logged (seen_request a s t _)
      · exact seen_same (fun u h => nomatch h) rfl
  | restart => exact hc.elim
  | autosave => exact seen_same (fun u h => nomatch h) rfl
  | crash n c => exact hc.elim

theorem screen_step {shown : Option View} (h : ∀ v, view s = some v → OnScreen shown v) (c : Cmd) :
    ∀ v, view (serve a s t c).2 = some v → OnScreen (screen shown c (serve a s t c).1) v := by
  have stays : ∀ {c}, Stays c → ∀ v, view (serve a s t c).2 = some v → OnScreen (screen shown c (serve a s t c).1) v := by
    intro c hc v hv
    have key : ∀ o, (o = .view v ∨ (∀ u, o ≠ .view u) ∧ view s = some v) → OnScreen (screen shown c o) v := by
      intro o ho
      rcases ho with rfl | ⟨ho, hv⟩
      · cases c <;> first | exact .inl rfl | exact hc.elim
      · have hsame : screen shown c o = shown := by
          cases o with
          | view u => exact absurd rfl (ho u)
          | _ => cases c <;> first | rfl | exact hc.elim
        rw [hsame]
        exact h v hv
    exact key _ (seen_serve a s t hc v hv)
  cases c with
  | restart => intro v hv; cases hv; exact .inr ⟨rfl, rfl⟩
  | crash n c => intro v hv; cases hv; exact .inr ⟨rfl, rfl⟩
  | _ => exact stays trivial

theorem watch_ok {shown : Option View} (h : ∀ v, view s = some v → OnScreen shown v) (l : List (Nat × Cmd)) :
    ∀ v, view (after a s l) = some v → OnScreen (watch a s shown l) v := by
  induction l generalizing s shown with
  | nil => exact h
  | cons x l ih => exact ih (screen_step h x.2)

/-! ### Where the flows of the application come from -/

/-- The flows the application is in are those of an offer and of a request that came, with what these showed. -/
structure Tied (s : App) : Prop where
  issuance : s.issuance.id = "" ∨ ∃ en ∈ s.world.log, ∃ r g, en.req = .offer r ∧
    en.result = .ok (.offer s.issuance.id s.issuance.issuer s.issuance.offered g) ∧ s.issuance.txCode = asksPin g
  presentation : s.presentation.id = "" ∨ ∃ en ∈ s.world.log, ∃ u st, en.req = .request u ∧
    en.result = .ok (.request s.presentation.id st s.presentation.credentials)

theorem tied_log {s s' : App} (h : Tied s) (hi : s'.issuance.id = s.issuance.id ∧ s'.issuance.issuer = s.issuance.issuer ∧
    s'.issuance.offered = s.issuance.offered ∧ s'.issuance.txCode = s.issuance.txCode)
    (hp : s'.presentation.id = s.presentation.id ∧ s'.presentation.credentials = s.presentation.credentials)
    (hl : ∀ en ∈ s.world.log, en ∈ s'.world.log) : Tied s' := by
  obtain ⟨h1, h2, h3, h4⟩ := hi
  obtain ⟨h5, h6⟩ := hp
  constructor
  · rw [h1, h2, h3, h4]
    exact h.issuance.imp_right fun ⟨en, he, x⟩ => ⟨en, hl en he, x⟩
  · rw [h5, h6]
    exact h.presentation.imp_right fun ⟨en, he, x⟩ => ⟨en, hl en he, x⟩

theorem lib_entry (a : Around) (s : App) (t : Nat) (r : Req) : ∃ en, (lib a s t r).2.world.log = s.world.log ++ [en] ∧ en.req = r ∧
    ∀ resp, (lib a s t r).1 = .ok resp → en.result = .ok resp := by
  obtain ⟨x, hx, hok⟩ := lib_log a s t r
  exact ⟨_, hx, rfl, hok⟩

theorem lib_grows (a : Around) (s : App) (t : Nat) (r : Req) : ∀ en ∈ s.world.log, en ∈ (lib a s t r).2.world.log := by
  intro en he
  obtain ⟨x, hx, _⟩ := lib_log a s t r
  rw [hx]
  exact List.mem_append_left _ he

theorem tied_lib (h : Tied s) (t : Nat) (r : Req) : Tied (lib a s t r).2 := tied_log h ⟨rfl, rfl, rfl, rfl⟩ ⟨rfl, rfl⟩ (lib_grows a s t r)

theorem tied_andThen {x : Done × App} {k : Resp → App → Out × App} (h : Tied x.2) (hk : ∀ resp, x.1 = .ok resp → Tied (k resp x.2).2) : Tied (andThen x k).2 := by
  unfold andThen
  split
  · exact hk _ (by assumption)
  · exact h
  · exact h

theorem tied_reset (h : Tied s) : Tied (reset a s).2 := by
  unfold reset
  split
  · exact tied_log h ⟨rfl, rfl, rfl, rfl⟩ ⟨rfl, rfl⟩ fun _ h => h
  · rw [finish_state]
    exact ⟨.inl rfl, .inl rfl⟩

theorem tied_offer (h : Tied s) (u : String) : Tied (offer a s t u).2 := by
  unfold offer
  split
  · exact h
  · rename_i o _
    have h' := tied_lib (a := a) h t (.offer ⟨"wallet", "normal_user", o⟩)
    refine tied_andThen h' fun resp hr => ?_
    split
    · rename_i id issuer offered g
      rw [finish_state]
      obtain ⟨en, hx, hreq, hok⟩ := lib_entry a s t (.offer ⟨"wallet", "normal_user", o⟩)
      refine ⟨.inr ⟨en, ?_, _, g, hreq, hok _ hr, rfl⟩, h'.presentation⟩
      show _ ∈ (lib a s t _).2.world.log
      rw [hx]
      simp
    · exact h'

theorem tied_request (h : Tied s) (u : String) : Tied (request a s t u).2 := by
  unfold request
  have h' := tied_lib (a := a) h t (.request u)
  refine tied_andThen h' fun resp hr => ?_
  split
  · rename_i id st credentials
    rw [finish_state]
    obtain ⟨en, hx, hreq, hok⟩ := lib_entry a s t (.request u)
    refine ⟨h'.issuance, .inr ⟨en, ?_, u, st, hreq, hok _ hr⟩⟩
    show _ ∈ (lib a s t _).2.world.log
    rw [hx]
    simp
  · exact h'

theorem tied_serve (h : Tied s) (c : Cmd) : Tied (serve a s t c).2 := by
  cases c with
  | start => show Tied (finish s).2; rw [finish_state]; exact h
  | reset => exact tied_reset h
  | select id =>
    show Tied (select s id).2
    unfold select
    split
    · exact h
    · split <;> exact h
  | delete id =>
    show Tied (delete a s id).2
    simp only [delete]
    split
    · rw [finish_state]; exact tied_log h ⟨rfl, rfl, rfl, rfl⟩ ⟨rfl, rfl⟩ fun _ h => h
    · exact tied_log h ⟨rfl, rfl, rfl, rfl⟩ ⟨rfl, rfl⟩ fun _ h => h
  | offer u => exact tied_offer h u
  | accept => exact tied_andThen (tied_lib h t _) fun _ _ => by rw [finish_state]; exact tied_lib h t _
  | pin p =>
    refine tied_andThen (tied_lib h t _) fun _ _ => ?_
    rw [finish_state]
    exact tied_log (tied_lib h t _) ⟨rfl, rfl, rfl, rfl⟩ ⟨rfl, rfl⟩ fun _ h => h
  | credentials =>
    have h1 := tied_lib (a := a) h t (.token s.issuance.id)
    exact tied_andThen h1 fun _ _ => tied_andThen (tied_lib h1 0 _) fun _ _ => tied_andThen (tied_lib (tied_lib h1 0 _) 0 _) fun _ _ => tied_reset (tied_lib (tied_lib h1 0 _) 0 _)
  | request u => exact tied_request h u
  | authorize =>
    refine tied_andThen (tied_lib h t _) fun _ _ => ?_
    split
    · rw [finish_state]; exact tied_log (tied_lib h t _) ⟨rfl, rfl, rfl, rfl⟩ ⟨rfl, rfl⟩ fun _ h => h
    · exact tied_lib h t _
  | present => exact tied_andThen (tied_lib h t _) fun _ _ => tied_reset (tied_lib h t _)
  | link u =>
    show Tied (link a s t u).2
    unfold link
    split
    · rw [logged_state]; exact tied_offer h _
    · split
      · rw [logged_state]; exact tied_request h _
      · exact h
  | restart => exact ⟨.inl rfl, .inl rfl⟩
  | autosave => exact tied_log h ⟨rfl, rfl, rfl, rfl⟩ ⟨rfl, rfl⟩ fun _ h => h
  | crash n c => exact ⟨.inl rfl, .inl rfl⟩

theorem tied_after (h : Tied s) (l : List (Nat × Cmd)) : Tied (after a s l) := by
  induction l generalizing s with
  | nil => exact h
  | cons x l ih => exact ih (tied_serve h x.2)

/-! ### C150 -/

/-- **C150** Whenever the state of the application can be shown at all, it is what is on the screen. -/
theorem C150_screen_is_current (a : Around) (now : Int) (file : Dict Slot) (l : List (Nat × Cmd)) :
    ∀ v, view (after a (opened now file) l) = some v → OnScreen (watch a (opened now file) none l) v :=
  watch_ok (fun v h => by cases h; exact .inr ⟨rfl, rfl⟩) l

/-- The names and issuers of offered credentials, as they are on the screen. -/
def Offers (issuer : String) (offered : Dict CredentialConfiguration) (l : List (String × Display)) : Prop :=
  l.map (fun x => (x.1, x.2.issuer, some x.2.name)) =
    offered.map fun x => (x.1, some issuer, (x.2.display.bind List.head?).map (·.name))

/-- The ids, issuers and names of credentials, as they are on the screen. -/
def ListsAll (cs : List Credential) (l : List (String × Display)) : Prop :=
  l.map (fun x => (x.1, x.2.id, x.2.issuer, some x.2.name)) =
    cs.map fun c => (c.id, c.id, some c.issuer, (c.display.bind List.head?).map (·.name))

/-- An offer asks for a PIN: it comes with a pre-authorized code that needs one. -/
def NeedsPin (g : Option Issuer.Grants) : Prop := ∃ gs p, g = some gs ∧ gs.preAuthorizedCode = some p ∧ p.txCode = true

theorem asksPin_iff (g : Option Issuer.Grants) : asksPin g = true ↔ NeedsPin g := by
  unfold asksPin NeedsPin
  cases g with
  | none => simp
  | some g => cases hp : g.preAuthorizedCode <;> simp [hp]

theorem view_issuance {l : List (String × Display)} {p : Option String} {b : Bool} (h : view s = some (.issuance l p b)) :
    s.sub = .issuance ∧ Offers s.issuance.issuer s.issuance.offered l ∧ p = s.issuance.pin ∧ b = s.issuance.txCode := by
  unfold view at h
  split at h
  · cases h
  · obtain ⟨x, hx, he⟩ := Option.map_eq_some_iff.mp h
    cases he
  · obtain ⟨x, hx, he⟩ := Option.map_eq_some_iff.mp h
    cases he
    refine ⟨by assumption, mapAll_map ?_ hx, rfl, rfl⟩
    rintro ⟨k, c⟩ ⟨k', d⟩ hd
    obtain ⟨d', hd', he⟩ := Option.map_eq_some_iff.mp hd
    cases he
    obtain ⟨x, hx, rfl⟩ := Option.map_eq_some_iff.mp hd'
    have hx : (c.display.getD []).head? = some x := hx
    show (k, some _, some x.name) = (k, some _, (c.display.bind List.head?).map (·.name))
    cases hc : c.display with
    | none => rw [hc] at hx; cases hx
    | some m => rw [hc] at hx; simp only [Option.bind_some]; rw [show m.head? = some x from hx]; rfl
  · obtain ⟨x, hx, he⟩ := Option.map_eq_some_iff.mp h
    cases he

theorem view_presentation {st : ShownStatus} {l : List (String × Display)} (h : view s = some (.presentation st l)) :
    s.sub = .presentation ∧ ListsAll s.presentation.credentials l ∧ st = shownStatus s.presentation.status := by
  unfold view at h
  split at h
  · cases h
  · obtain ⟨x, hx, he⟩ := Option.map_eq_some_iff.mp h
    cases he
  · obtain ⟨x, hx, he⟩ := Option.map_eq_some_iff.mp h
    cases he
  · obtain ⟨x, hx, he⟩ := Option.map_eq_some_iff.mp h
    cases he
    refine ⟨by assumption, mapAll_map ?_ hx, rfl⟩
    rintro c ⟨k', d⟩ hd
    obtain ⟨d', hd', he⟩ := Option.map_eq_some_iff.mp hd
    cases he
    obtain ⟨h1, h2, _, first, others, h3, h4, _⟩ := displayOf_spec hd'
    show (c.id, d.id, d.issuer, some d.name) = (c.id, c.id, some c.issuer, (c.display.bind List.head?).map (·.name))
    rw [h1, h2, h3, h4]; rfl

theorem finish_view {v : View} (h : (finish s).1 = .view v) : view s = some v := by
  have := shows_finish s v h
  rwa [finish_state] at this

theorem id_used (hd : Draws a) (h : Sound a s) {r : Req} {k : String} {resp : Resp} (hk : about r = some k) (hr : (lib a s t r).1 = .ok resp) : k ≠ "" := by
  rintro rfl
  have := (lib_absent (a := a) (t := t) hk (no_flow hd h)).1
  rw [hr] at this
  cases this

/-- **C150** What is accepted is what is on the screen: if accepting works while an offer is shown, the flow that is accepted is that of an offer that
came, whose issuer, whose credentials – all of them – and whose wish for a PIN are those on the screen. -/
theorem C150_accepted_is_shown_partial (hd : Draws a) (now : Int) (file : Dict Slot) (l : List (Nat × Cmd)) {s : App} (hs : s = after a (opened now file) l)
    {shown : List (String × Display)} {p : Option String} {b : Bool} (hv : watch a (opened now file) none l = some (.issuance shown p b))
    {v : View} (h : (serve a s t .accept).1 = .view v) :
    ∃ id issuer offered g,
      (∃ en ∈ s.world.log, ∃ r, en.req = .offer r ∧ en.result = .ok (.offer id issuer offered g)) ∧
      (∃ en, (serve a s t .accept).2.world.log = s.world.log ++ [en] ∧ en.req = .accept ⟨id, none⟩ ∧ ∃ x, en.result = .ok x) ∧
      Offers issuer offered shown ∧ (b = true ↔ NeedsPin g) := by
  have h0 : Sound a s := by rw [hs]; exact sound_after hd.fresh (sound_opened a now file) l
  have hT : Tied s := by rw [hs]; exact tied_after ⟨.inl rfl, .inl rfl⟩ l
  obtain ⟨r, hok, hf, he⟩ := andThen_view (x := lib a s t (.accept ⟨s.issuance.id, none⟩)) h
  have hview : view s = some v := finish_view (s := (lib a s t _).2) hf
  have hscreen := C150_screen_is_current a now file l v (by rw [← hs]; exact hview)
  rw [hv] at hscreen
  rcases hscreen with hscreen | ⟨hscreen, _⟩
  · cases hscreen
    obtain ⟨_, h1, _, h3⟩ := view_issuance hview
    rcases hT.issuance with h4 | ⟨en, hen, rq, g, h5, h6, h7⟩
    · exact absurd h4 (id_used hd h0 (r := .accept ⟨s.issuance.id, none⟩) rfl hok)
    · refine ⟨s.issuance.id, _, _, g, ⟨en, hen, rq, h5, h6⟩, ?_, h1, by rw [h3.trans h7]; exact asksPin_iff g⟩
      obtain ⟨x, hx, hxo⟩ := lib_log a s t (.accept ⟨s.issuance.id, none⟩)
      refine ⟨⟨a.provider, s.world.now + t, .accept ⟨s.issuance.id, none⟩, x, made a s t (.accept ⟨s.issuance.id, none⟩)⟩, ?_, rfl, _, hxo _ hok⟩
      show (andThen _ _).2.world.log = _
      rw [he, finish_state]
      exact hx
  · cases hscreen

/-- **C150** The PIN on the screen after one was entered is the one that was entered, and the one the wallet has taken for the offer on the screen. -/
theorem C150_pin_shown (hf : a.env.Fresh) (now : Int) (file : Dict Slot) (l : List (Nat × Cmd)) {s : App} (hs : s = after a (opened now file) l) {e : String} {shown : List (String × Display)} {p : Option String} {b : Bool}
    (h : (serve a s t (.pin e)).1 = .view (.issuance shown p b)) :
    p = some e ∧ view s = some (.issuance shown s.issuance.pin b) ∧
    (∃ en, (serve a s t (.pin e)).2.world.log = s.world.log ++ [en] ∧ en.req = .pin ⟨s.issuance.id, e⟩ ∧ ∃ x, en.result = .ok x) ∧
    ∃ i, (serve a s t (.pin e)).2.world.store s.issuance.id = some (.issuance i) ∧ i.pin = some e := by
  have h0 : Sound a s := by rw [hs]; exact sound_after hf (sound_opened a now file) l
  obtain ⟨r, hok, hf, he⟩ := andThen_view (x := lib a s t (.pin ⟨s.issuance.id, e⟩)) h
  have hview := finish_view hf
  obtain ⟨hsub, _, h2, h3⟩ := view_issuance hview
  obtain ⟨x, hx, hxo⟩ := lib_log a s t (.pin ⟨s.issuance.id, e⟩)
  have hw : (serve a s t (.pin e)).2.world = (lib a s t (.pin ⟨s.issuance.id, e⟩)).2.world := by
    show (andThen _ _).2.world = _
    rw [he, finish_state]
  refine ⟨h2, ?_, ⟨⟨a.provider, s.world.now + t, .pin ⟨s.issuance.id, e⟩, x, made a s t (.pin ⟨s.issuance.id, e⟩)⟩, by rw [hw]; exact hx, rfl, _, hxo _ hok⟩, ?_⟩
  · unfold view at hview ⊢
    have hsub : s.sub = .issuance := hsub
    simp only [lib_sub, hsub] at hview ⊢
    obtain ⟨m, hm, he1⟩ := Option.map_eq_some_iff.mp hview
    cases he1
    exact Option.map_eq_some_iff.mpr ⟨_, hm, rfl⟩
  · obtain ⟨⟨y, w⟩, hrun⟩ : ∃ y, (Holder.serve a.provider (.pin ⟨s.issuance.id, e⟩)).run (connected a s.files) { s.world with now := s.world.now + t, recent := [] } = y := ⟨_, rfl⟩
    have hy := lib_ok hok
    rw [hrun] at hy
    have hy : y = .ok r := hy
    obtain ⟨ws, hE, _, hdid⟩ := Holder.pin_did hrun
    rcases hdid with ⟨⟨_, h, _⟩, _⟩ | ⟨i, hi, _, hends⟩
    · rw [hy] at h; cases h
    · have hid : i.id = s.issuance.id := Holder.FlowInv.id (h0.val _ _ hi)
      rw [hy] at hends
      cases hends
      refine ⟨{ i with pin := some e, status := .accepted }, ?_, rfl⟩
      have hst : (lib a s t (.pin ⟨s.issuance.id, e⟩)).2.world.store = w.store := by simp only [lib, Holder.step, hrun]
      rw [hw, hst, hE.store, hid]
      exact if_pos rfl

/-- **C150** What is authorized is what is on the screen: if authorizing works while a presentation is shown, the presentation is one that was requested,
and the credentials found for it – all of them – are those on the screen. -/
theorem C150_authorized_is_shown_partial (hd : Draws a) (now : Int) (file : Dict Slot) (l : List (Nat × Cmd)) {s : App} (hs : s = after a (opened now file) l)
    {st : ShownStatus} {shown : List (String × Display)} (hv : watch a (opened now file) none l = some (.presentation st shown))
    {v : View} (h : (serve a s t .authorize).1 = .view v) :
    ∃ id credentials,
      (∃ en ∈ s.world.log, ∃ u st', en.req = .request u ∧ en.result = .ok (.request id st' credentials)) ∧
      (∃ en, (serve a s t .authorize).2.world.log = s.world.log ++ [en] ∧ en.req = .authorizePresentation id ∧ ∃ x, en.result = .ok x) ∧
      (∃ p, (serve a s t .authorize).2.world.store id = some (.presentation p) ∧ p.credentials = credentials) ∧
      ListsAll credentials shown ∧ v = .presentation .authorized shown := by
  have h0 : Sound a s := by rw [hs]; exact sound_after hd.fresh (sound_opened a now file) l
  have hT : Tied s := by rw [hs]; exact tied_after ⟨.inl rfl, .inl rfl⟩ l
  obtain ⟨r, hok, hf, he⟩ := andThen_view (x := lib a s t (.authorizePresentation s.presentation.id)) h
  obtain ⟨⟨x, w⟩, hrun⟩ : ∃ y, (Holder.serve a.provider (.authorizePresentation s.presentation.id)).run (connected a s.files) { s.world with now := s.world.now + t, recent := [] } = y := ⟨_, rfl⟩
  obtain ⟨ws, hE, _, hdid⟩ := Holder.authorizePresentation_did hrun
  have hx := lib_ok hok
  rw [hrun] at hx
  have hx : x = .ok r := hx
  have hnf : ¬ Holder.Fails x := by rintro ⟨e, h, _⟩; rw [hx] at h; cases h
  rcases hdid with ⟨hf, _⟩ | ⟨p, hp, hst, hends⟩
  · exact absurd hf hnf
  have hpi : Holder.PresInv s.world.log s.presentation.id p := h0.val _ _ hp
  have hw : (lib a s t (.authorizePresentation s.presentation.id)).2.world.store = w.store := by
    simp only [lib, Holder.step, hrun]
  have hstore : w.store s.presentation.id = some (.presentation { p with status := .authorized }) ∧ r = .status .authorized := by
    rw [hx] at hends
    cases hends
    refine ⟨?_, rfl⟩
    rw [hE.store, hpi.id]
    exact if_pos rfl
  obtain ⟨hstore, rfl⟩ := hstore
  have hview : view { (lib a s t (.authorizePresentation s.presentation.id)).2 with presentation := { s.presentation with status := .authorized } } = some v := finish_view hf
  obtain ⟨v0, hv0⟩ : ∃ v0, view s = some v0 := by
    unfold view at hview ⊢
    simp only [lib_sub, lib_credential, lib_issuance] at hview
    cases hsub : s.sub with
    | presentation =>
      simp only [hsub] at hview ⊢
      obtain ⟨l, hl, _⟩ := Option.map_eq_some_iff.mp hview
      exact ⟨_, by rw [hl]; rfl⟩
    | _ => simp only [hsub] at hview ⊢; exact ⟨_, hview⟩
  have hscreen := C150_screen_is_current a now file l v0 (by rw [← hs]; exact hv0)
  rw [hv] at hscreen
  rcases hscreen with hscreen | ⟨hscreen, _⟩
  · cases hscreen
    obtain ⟨_, h1, _⟩ := view_presentation hv0
    rcases hT.presentation with h4 | ⟨en, hen, u, st', h5, h6⟩
    · exact absurd h4 (id_used hd h0 (r := .authorizePresentation s.presentation.id) rfl hok)
    · have hfinal : (serve a s t .authorize).2.world = (lib a s t (.authorizePresentation s.presentation.id)).2.world := by
        show (andThen _ _).2.world = _
        rw [he]
        show (finish _).2.world = _
        rw [finish_state]
      refine ⟨s.presentation.id, s.presentation.credentials, ⟨en, hen, u, st', h5, h6⟩, ?_, ?_, h1, ?_⟩
      · obtain ⟨y, hy, hyo⟩ := lib_log a s t (.authorizePresentation s.presentation.id)
        exact ⟨⟨a.provider, s.world.now + t, .authorizePresentation s.presentation.id, y, made a s t (.authorizePresentation s.presentation.id)⟩,
          by rw [hfinal]; exact hy, rfl, _, hyo _ hok⟩
      · exact ⟨{ p with status := .authorized }, by rw [hfinal, hw]; exact hstore, (hpi.returned en hen _ _ h6).symm⟩
      · obtain ⟨hsub, _⟩ := view_presentation hv0
        unfold view at hview hv0
        simp only [lib_sub, hsub] at hview hv0
        obtain ⟨m, hm, he1⟩ := Option.map_eq_some_iff.mp hv0
        rw [hm] at hview
        cases he1
        exact (Option.some.inj hview).symm
  · cases hscreen

/-! ### C157 -/

/-- **C157** Of a request for a presentation the user sees the credentials found, all of them: their ids and issuers. -/
theorem C157_credentials_shown_partial {u : String} {v : View} (h : (serve a s t (.request u)).1 = .view v) :
    ∃ en id cs l, (serve a s t (.request u)).2.world.log = s.world.log ++ [en] ∧ en.result = .ok (.request id .requested cs) ∧
      v = .presentation .requested l ∧ ListsAll cs l := by
  obtain ⟨r, hok, hf, he⟩ := andThen_view (x := lib a s t (.request u)) h
  obtain ⟨⟨x, w⟩, hrun⟩ : ∃ y, (Holder.serve a.provider (.request u)).run (connected a s.files) { s.world with now := s.world.now + t, recent := [] } = y := ⟨_, rfl⟩
  obtain ⟨evs, ws, hE, _, hdid⟩ := Holder.request_did hrun
  have hx := lib_ok hok
  rw [hrun] at hx
  have hx : x = .ok r := hx
  rcases hdid with ⟨⟨e, h, _⟩, _⟩ | ⟨q, pre, f, cs, _, _, _, _, hends⟩
  · rw [hx] at h; cases h
  rw [hx] at hends
  obtain ⟨en, hy, _, hyo⟩ := lib_entry a s t (.request u)
  cases hends
  have hview : view { (lib a s t (.request u)).2 with presentation := { id := _, status := .requested, credentials := cs }, sub := .presentation } = some v := finish_view hf
  have hv : ∃ l, v = .presentation .requested l := by
    obtain ⟨l, _, rfl⟩ := Option.map_eq_some_iff.mp hview
    exact ⟨l, rfl⟩
  obtain ⟨l, rfl⟩ := hv
  refine ⟨en, _, cs, l, ?_, hyo _ hok, rfl, (view_presentation hview).2.1⟩
  show (andThen _ _).2.world.log = _
  rw [he]
  show (finish _).2.world.log = _
  rw [finish_state]
  exact hy

/-- **C157** Nothing else is seen: two requests for which the same credentials are found look the same, whoever they come from and whatever they ask for. -/
theorem C157_violated_verifier_unseen {a' : Around} {s' : App} {t' : Nat} {u u' : String} {v v' : View} {en en' : Entry} {id id' : String} {cs : List Credential}
    (h : (serve a s t (.request u)).1 = .view v) (h' : (serve a' s' t' (.request u')).1 = .view v')
    (hl : (serve a s t (.request u)).2.world.log = s.world.log ++ [en]) (hl' : (serve a' s' t' (.request u')).2.world.log = s'.world.log ++ [en'])
    (hr : en.result = .ok (.request id .requested cs)) (hr' : en'.result = .ok (.request id' .requested cs)) : v = v' := by
  have key : ∀ {a : Around} {s : App} {t : Nat} {u : String} {v : View} {en : Entry} {id : String}, (serve a s t (.request u)).1 = .view v →
      (serve a s t (.request u)).2.world.log = s.world.log ++ [en] → en.result = .ok (.request id .requested cs) →
      some v = (mapAll (fun c => (displayOf c).map (c.id, ·)) cs).map fun l => .presentation .requested l := by
    intro a s t u v en id h hl hr
    obtain ⟨r, hok, hf, he⟩ := andThen_view (x := lib a s t (.request u)) h
    have hst := shows_serve a s t (.request u) v h
    obtain ⟨y, hy, hyo⟩ := lib_log a s t (.request u)
    have hfst : (serve a s t (.request u)).2 = (andThen (lib a s t (.request u)) _).2 := rfl
    cases r with
    | request i st c =>
      have e2 : (serve a s t (.request u)).2 = { (lib a s t (.request u)).2 with presentation := { id := i, status := st, credentials := c }, sub := .presentation } := by
        rw [hfst, he]; exact finish_state _
      rw [e2] at hl hst
      have hl : (lib a s t (.request u)).2.world.log = _ := hl
      rw [hy] at hl
      have := List.append_cancel_left hl
      simp only [List.cons.injEq, and_true] at this
      have hres : y = en.result := by rw [← this]
      rw [hr, hyo _ hok] at hres
      cases hres
      exact hst.symm
    | _ => cases hf
  have h1 := key h hl hr
  have h2 := key h' hl' hr'
  rw [← h2] at h1
  exact Option.some.inj h1

end Verif.App
