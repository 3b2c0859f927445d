import Verif.App.ShellLemmas
/-!
# Offers on the example wallet's screens (C182)
-/
namespace Verif.App
open Holder (Credential HEnv HWorld Req Resp PStatus Event Call Entry Issuance Presentation HVal Inv HProg)

variable {a : Around} {s : App} {t : Nat}

/-- The endpoints of the library that are called for what the application is asked to do. -/
inductive Reached : Cmd → Req → Prop
  | offer (e : String) (q : Holder.OfferRequest) : Reached (.offer e) (.offer q)
  | accept (q : Holder.AcceptRequest) : Reached .accept (.accept q)
  | request (r u : String) : Reached (.request r) (.request u)
  | authorize (id : String) : Reached .authorize (.authorizePresentation id)
  | present (id : String) : Reached .present (.present id)
  | linkOffer (u : String) (q : Holder.OfferRequest) : Reached (.link u) (.offer q)
  | linkRequest (u r : String) : Reached (.link u) (.request r)
  | crash (n : Nat) {c : Cmd} {r : Req} (h : Reached c r) : Reached (.crash n c) r

/-- There is at most one new entry in the log: of the command's endpoint, with the calls that it makes. -/
def Adds (c : Cmd) (s s' : App) : Prop :=
  ∃ new, s'.world.log = s.world.log ++ new ∧ new.length ≤ 1 ∧ ∀ en ∈ new, Reached c en.req ∧ ∀ ev ∈ en.events, Makes en.req ev

variable {c : Cmd}

theorem adds_log {s s' : App} (h : s'.world.log = s.world.log) : Adds c s s' :=
  ⟨[], by rw [h, List.append_nil], Nat.zero_le _, fun _ hn => absurd hn List.not_mem_nil⟩
theorem adds_none {s s' : App} (h : s'.world = s.world) : Adds c s s' := adds_log (by rw [h])

theorem adds_lib (h : Sound a s) {r : Req} (hu : Used r) (hr : Reached c r) : Adds c s (lib a s t r).2 := by
  obtain ⟨x, hx, _⟩ := lib_log a s t r
  refine ⟨_, hx, Nat.le_refl _, ?_⟩
  intro en hen
  rw [List.mem_singleton.mp hen]
  exact ⟨hr, makes h hu⟩

theorem adds_world {s s' s'' : App} (h : Adds c s s') (hw : s''.world = s'.world) : Adds c s s'' := by
  obtain ⟨new, h1, h2⟩ := h
  exact ⟨new, by rw [hw]; exact h1, h2⟩

theorem adds_andThen (h : Sound a s) {r : Req} (hu : Used r) (hr : Reached c r) {k : Resp → App → Out × App}
    (hk : ∀ resp, (k resp (lib a s t r).2).2.world = (lib a s t r).2.world) : Adds c s (andThen (lib a s t r) k).2 := by
  have := adds_lib (t := t) h hu hr
  unfold andThen
  split
  · exact adds_world this (hk _)
  · exact this
  · exact this

theorem reset_world (a : Around) (s : App) : (reset a s).2.world = s.world := by
  unfold reset
  split
  · rfl
  · rw [finish_state]

theorem adds_offer (h : Sound a s) (e : String) (hc : ∀ q, Reached c (.offer q)) : Adds c s (offer a s t e).2 := by
  unfold offer
  split
  · exact adds_none rfl
  · rename_i o _
    refine adds_andThen (r := .offer ⟨"wallet", "normal_user", o⟩) h rfl (hc _) fun resp => ?_
    split
    · rw [finish_state]
    · rfl

theorem adds_request (h : Sound a s) (u : String) (hc : ∀ q, Reached c (.request q)) : Adds c s (request a s t u).2 := by
  unfold request
  refine adds_andThen (r := .request _) h trivial (hc _) fun resp => ?_
  split
  · rw [finish_state]
  · rfl

theorem adds_serve (h : Sound a s) (hc : Asked c) : Adds c s (serve a s t c).2 := by
  induction hc with
  | shell hi =>
    cases hi with
    | start => show Adds _ s (finish s).2; rw [finish_state]; exact adds_none rfl
    | reset => exact adds_none (reset_world a s)
    | select id =>
      show Adds _ s (select s id).2
      unfold select
      split
      · exact adds_none rfl
      · split <;> exact adds_none rfl
    | delete id => exact adds_none (delete_world a s id)
    | offer e => exact adds_offer h e fun q => .offer e q
    | accept => exact adds_andThen (r := .accept _) h trivial (.accept _) fun _ => by rw [finish_state]
    | request u => exact adds_request h u fun q => .request u q
    | authorize =>
      refine adds_andThen (r := .authorizePresentation _) h trivial (.authorize _) fun resp => ?_
      split
      · rw [finish_state]
      · rfl
    | present => exact adds_andThen (r := .present _) h trivial (.present _) fun _ => reset_world a _
  | link u =>
    show Adds _ s (link a s t u).2
    unfold link
    split
    · rw [logged_state]; exact adds_offer h _ fun q => .linkOffer u q
    · split
      · rw [logged_state]; exact adds_request h _ fun q => .linkRequest u q
      · exact adds_none rfl
  | restart => exact adds_log rfl
  | autosave => exact adds_none rfl
  | crash n _ ih =>
    obtain ⟨new, h1, h2, h3⟩ := ih
    exact ⟨new, h1, h2, fun en hen => ⟨.crash n (h3 en hen).1, (h3 en hen).2⟩⟩

theorem adds_after (hf : a.env.Fresh) (h : Sound a s) {l : List (Nat × Cmd)} (hl : ∀ x ∈ l, Asked x.2) :
    ∃ new, (after a s l).world.log = s.world.log ++ new ∧ ∀ en ∈ new, (∃ c, Reached c en.req) ∧ ∀ ev ∈ en.events, Makes en.req ev := by
  induction l generalizing s with
  | nil => exact ⟨[], by simp [after], fun _ hn => absurd hn List.not_mem_nil⟩
  | cons x l ih =>
    obtain ⟨n1, h1, _, h2⟩ := adds_serve (t := x.1) h (hl x (by simp))
    obtain ⟨n2, h3, h4⟩ := ih (sound_serve hf h x.1 x.2) fun y hy => hl y (List.mem_cons_of_mem _ hy)
    refine ⟨n1 ++ n2, by rw [← List.append_assoc, ← h1]; exact h3, ?_⟩
    intro en hen
    rcases List.mem_append.mp hen with hen | hen
    · exact ⟨⟨_, (h2 en hen).1⟩, (h2 en hen).2⟩
    · exact h4 en hen

theorem reached_calls {r : Req} (hr : Reached c r) {ev : Event} (h : Makes r ev) :
    (∀ q, ev.call ≠ .token q) ∧ (∀ q, ev.call ≠ .credential q) ∧ ∀ c, ev.call ≠ .save c := by
  have key : ∀ {x : Call}, (∃ u, x = .metadata u) ∨ (∃ u, x = .oauthServer u) ∨ (∃ u, x = .requestObject u) ∨ (∃ f, x = .find f) ∨ (∃ u q, x = .present u q) →
      (∀ q, x ≠ .token q) ∧ (∀ q, x ≠ .credential q) ∧ ∀ c, x ≠ .save c := by
    intro x hx
    rcases hx with ⟨u, rfl⟩ | ⟨u, rfl⟩ | ⟨u, rfl⟩ | ⟨u, rfl⟩ | ⟨u, q, rfl⟩ <;> refine ⟨?_, ?_, ?_⟩ <;> intro q hq <;> cases hq
  have offer : (∃ u, ev.call = .metadata u) ∨ (∃ u, ev.call = .oauthServer u) → _ := fun h => key (h.imp id .inl)
  have request : (∃ u, ev.call = .requestObject u) ∨ (∃ f, ev.call = .find f) → _ := fun h => key (.inr (.inr (h.imp id .inl)))
  induction hr with
  | offer e q => exact offer h
  | accept q => cases h
  | request r u => exact request h
  | authorize id => cases h
  | present id => exact key (.inr (.inr (.inr (.inr h))))
  | linkOffer u q => exact offer h
  | linkRequest u q => exact request h
  | crash n _ ih => exact ih h

/-- Everything in the log of a wallet is of these endpoints. -/
theorem wallet_log (hf : a.env.Fresh) (now : Int) (file : Dict Slot) (steps : List Step) :
    ∀ en ∈ ((installed now file).run a steps).app.world.log, (∃ c, Reached c en.req) ∧ ∀ ev ∈ en.events, Makes en.req ev := by
  have hl := history_asked (a := a) (decent_boot (opened now file)) steps
  obtain ⟨new, h1, h2⟩ := adds_after hf (sound_opened a now file) hl
  intro en hen
  rw [run_app] at hen
  have hen : en ∈ (after a (opened now file) (history a (boot (opened now file)) steps)).world.log := hen
  rw [h1] at hen
  rcases List.mem_append.mp hen with hen | hen
  · cases hen
  · exact h2 en hen

/-! ### C182 -/

/-- **C182** Whatever the user does on the wallet's screens, whatever links are opened and however often the wallet is started: no issuer is ever asked for a token
or a credential, and nothing gets into the wallet's store or its file that was not there when it was installed. -/
theorem C182_violated_never_collected (hf : a.env.Fresh) (now : Int) (file : Dict Slot) (steps : List Step) {w : Wallet}
    (hw : w = (installed now file).run a steps) :
    (∀ en ∈ w.app.world.log, ∀ ev ∈ en.events, (∀ q, ev.call ≠ .token q) ∧ ∀ q, ev.call ≠ .credential q) ∧
    ∀ id x, w.app.files.store.get? id = some x ∨ w.app.files.disk.get? id = some x → Dict.get? file id = some x := by
  subst hw
  have hlog := wallet_log hf now file steps
  refine ⟨fun en hen ev hev => ?_, fun id x hx => ?_⟩
  · obtain ⟨⟨_, hr⟩, hm⟩ := hlog en hen
    have := reached_calls hr (hm ev hev)
    exact ⟨this.1, this.2.1⟩
  · obtain ⟨new, h1, h2⟩ := after_holds (a := a) (P := fun o => o = none ∨ o = Dict.get? file id) (id := id) (s := opened now file)
      (history a (boot (opened now file)) steps) (fun _ _ _ => .inl rfl) ⟨.inr rfl, .inr rfl⟩
    have hn : NotSaved id new := by
      intro en hen ev hev c hc
      have hen' : en ∈ ((installed now file).run a steps).app.world.log := by
        rw [run_app]
        show en ∈ (after a (opened now file) (history a (boot (opened now file)) steps)).world.log
        rw [h1]
        exact List.mem_append_right _ hen
      obtain ⟨⟨_, hr⟩, hm⟩ := hlog en hen'
      exact absurd hc ((reached_calls hr (hm ev hev)).2.2 c)
    have hb := h2 hn
    rw [run_app] at hx
    have hx : (after a (opened now file) (history a (boot (opened now file)) steps)).files.store.get? id = some x ∨
        (after a (opened now file) (history a (boot (opened now file)) steps)).files.disk.get? id = some x := hx
    rcases hx with hx | hx
    · have := hb.1; rw [hx] at this
      rcases this with this | this
      · cases this
      · exact this.symm
    · have := hb.2; rw [hx] at this
      rcases this with this | this
      · cases this
      · exact this.symm

/-- **C182** A wallet that was empty when it was installed stays empty. -/
theorem C182_violated_stays_empty (hf : a.env.Fresh) (now : Int) (steps : List Step) {w : Wallet} (hw : w = (installed now []).run a steps) :
    w.app.files.store = [] ∧ w.app.files.disk = [] := by
  have h := (C182_violated_never_collected hf now [] steps hw).2
  have key : ∀ m : Dict Slot, (∀ id x, m.get? id = some x → Dict.get? ([] : Dict Slot) id = some x) → m = [] := by
    intro m hm
    cases m with
    | nil => rfl
    | cons y m => exact nomatch hm y.1 y.2 (by simp [Dict.get?])
  exact ⟨key _ fun id x hx => h id x (.inl hx), key _ fun id x hx => h id x (.inr hx)⟩

end Verif.App
