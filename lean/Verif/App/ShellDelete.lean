import Verif.App.ShellProps
/-!
# Deleting credentials on the example wallet's screens (C184)
-/
namespace Verif.App
open Holder (Credential HEnv HWorld Req Resp PStatus Event Call Entry Issuance Presentation HVal Inv HProg)

variable {a : Around} {s : App} {t : Nat}

/-! ### What the details on the screen are of -/

/-- A credential that was in the file when the wallet was installed. -/
def InFile (file : Dict Slot) (c : Credential) : Prop := ∃ k, (k, Slot.credential c) ∈ file

/-- The details of a credential that was in the file. -/
def OfFile (file : Dict Slot) (d : Detail) : Prop := ∃ c, InFile file c ∧ detailOf c = some d

/-- The list and what is stored are of the file. -/
structure Filed (file : Dict Slot) (s : App) : Prop where
  listed : ∀ c ∈ s.credential, InFile file c
  stored : ∀ c, (∃ k, (k, Slot.credential c) ∈ s.files.store) → InFile file c

theorem readAll_mem {l : List (String × Slot)} {cs : List Credential} (h : readAll l = some cs) : ∀ c ∈ cs, ∃ k, (k, Slot.credential c) ∈ l := by
  induction l generalizing cs with
  | nil => cases h; exact fun _ hn => absurd hn List.not_mem_nil
  | cons x l ih =>
    obtain ⟨k, x⟩ := x
    cases x with
    | junk => cases h
    | credential c =>
      obtain ⟨cs', h', rfl⟩ := Option.map_eq_some_iff.mp h
      intro c' hc'
      rcases List.mem_cons.mp hc' with rfl | hc'
      · exact ⟨k, List.mem_cons_self ..⟩
      · obtain ⟨k', hk'⟩ := ih h' c' hc'
        exact ⟨k', List.mem_cons_of_mem _ hk'⟩

/-- A command leaves the list as it is, or takes some of it away, or makes it what is stored. -/
def Lists (s : App) (x : Out × App) : Prop :=
  ∀ c ∈ x.2.credential, c ∈ s.credential ∨ ∃ k, (k, Slot.credential c) ∈ x.2.files.store

theorem lists_same {x : Out × App} (h : x.2.credential = s.credential) : Lists s x := fun _ hc => .inl (h ▸ hc)

theorem lists_finish {s' : App} (h : s'.credential = s.credential) : Lists s (finish s') := lists_same (by rw [finish_state]; exact h)

theorem lists_reset {s' : App} (h : s'.credential = s.credential) : Lists s (reset a s') := by
  unfold reset
  split
  · exact lists_same h
  · rename_i l hl
    intro c hc
    rw [finish_state] at hc ⊢
    exact .inr (readAll_mem hl c hc)

theorem lists_andThen {x : Done × App} {k : Resp → App → Out × App} (h : x.2.credential = s.credential) (hk : ∀ r, Lists s (k r x.2)) :
    Lists s (andThen x k) := by
  unfold andThen
  split
  · exact hk _
  · exact lists_same h
  · exact lists_same h

theorem lists_offer (e : String) : Lists s (offer a s t e) := by
  unfold offer
  split
  · exact lists_same rfl
  · refine lists_andThen rfl fun r => ?_
    split
    · exact lists_finish rfl
    · exact lists_same rfl

theorem lists_request (e : String) : Lists s (request a s t e) := by
  refine lists_andThen rfl fun r => ?_
  split
  · exact lists_finish rfl
  · exact lists_same rfl

theorem lists_logged {x : Out × App} (h : Lists s x) : Lists s (logged x) := by
  unfold logged
  split <;> exact h

theorem lists_serve {c : Cmd} (hc : Asked c) : Lists s (serve a s t c) := by
  cases hc with
  | shell h =>
    cases h with
    | start => exact lists_finish rfl
    | reset => exact lists_reset rfl
    | select id =>
      show Lists s (select s id)
      unfold select
      split
      · exact lists_same rfl
      · split <;> exact lists_same rfl
    | delete id =>
      show Lists s (delete a s id)
      unfold delete
      dsimp only
      split
      · intro c hc
        rw [finish_state] at hc
        exact .inl (List.mem_filter.mp hc).1
      · exact lists_same rfl
    | offer e => exact lists_offer e
    | accept => exact lists_andThen rfl fun _ => lists_finish rfl
    | request e => exact lists_request e
    | authorize =>
      refine lists_andThen rfl fun r => ?_
      split
      · exact lists_finish rfl
      · exact lists_same rfl
    | present => exact lists_andThen rfl fun _ => lists_reset rfl
  | link u =>
    show Lists s (link a s t u)
    unfold link
    split
    · exact lists_logged (lists_offer _)
    · split
      · exact lists_logged (lists_request _)
      · exact lists_same rfl
  | restart => exact fun _ hn => absurd hn List.not_mem_nil
  | autosave => exact lists_same rfl
  | crash n h => exact fun _ hn => absurd hn List.not_mem_nil

/-- The details that are on their way or on the screen. -/
structure Detailed (file : Dict Slot) (w : Wallet) : Prop where
  app : Filed file w.app
  msgs : ∀ n d, Msg.detail n (some d) ∈ w.msgs → OfFile file d
  screen : ∀ inst d b, w.shell.screen = .credential inst (.detail (some d) b) → OfFile file d

theorem press_details {sh : Shell} (x : Option Handler) {inst : Nat} {d : Detail} {b : Bool}
    (h : (sh.press x).1.screen = .credential inst (.detail (some d) b)) : ∃ b', sh.screen = .credential inst (.detail (some d) b') := by
  unfold Shell.press at h
  split at h
  · exact ⟨b, h⟩
  · exact ⟨b, h⟩
  · dsimp only at h
    split at h
    · exact ⟨b, h⟩
    · split at h
      · cases h
      · exact ⟨b, h⟩
    · exact ⟨b, h⟩
  · split at h
    · exact ⟨b, h⟩
    · split at h
      · cases h
      · exact ⟨b, h⟩
    · exact ⟨b, h⟩
  · split at h
    · rename_i hs
      split at h
      · cases h; exact ⟨_, hs⟩
      · exact ⟨b, h⟩
    · exact ⟨b, h⟩

theorem click_details {sh : Shell} (c : Click) {inst : Nat} {d : Detail} {b : Bool}
    (h : (sh.click c).1.screen = .credential inst (.detail (some d) b)) : ∃ b', sh.screen = .credential inst (.detail (some d) b') := by
  unfold Shell.click at h
  split at h <;> first
    | exact ⟨b, h⟩
    | exact press_details _ h
    | (cases h; done)
    | (rename_i hs; cases h; exact ⟨_, hs⟩)
    | (rename_i hs; split at h <;> first | (cases h; done) | (cases h; exact ⟨_, hs⟩))

theorem render_details {sh : Shell} (v : View) (hne : sh.screen ≠ .presentation .error) {inst : Nat} {d : Detail} {b : Bool}
    (h : (sh.render (viewJson v)).1.screen = .credential inst (.detail (some d) b)) : sh.screen = .credential inst (.detail (some d) b) := by
  cases v with
  | splash =>
    obtain ⟨n, hr⟩ := render_splash sh
    rw [hr] at h; cases h
  | credential l =>
    rcases render_credential sh l with ⟨_, _, _, hr⟩ | ⟨_, hr⟩
    · rw [hr] at h; exact h
    · rw [hr] at h; cases h
  | issuance l p b => rw [render_issuance] at h; cases h
  | presentation st l => rw [render_presentation _ _ _ hne] at h; cases h

theorem details_details {sh : Shell} (n : Nat) (e : Option Detail) {inst : Nat} {d : Detail} {b : Bool}
    (h : (sh.details n e).screen = .credential inst (.detail (some d) b)) : e = some d ∨ ∃ b', sh.screen = .credential inst (.detail (some d) b') := by
  unfold Shell.details at h
  split at h
  · split at h
    · split at h
      · cases h; exact .inl rfl
      · cases h; exact .inl rfl
      · cases h
    · exact .inr ⟨b, h⟩
  · exact .inr ⟨b, h⟩

theorem failure_details {sh : Shell} (i : Invoke) {inst : Nat} {d : Detail} {b : Bool}
    (h : (sh.failure i).screen = .credential inst (.detail (some d) b)) : sh.screen = .credential inst (.detail (some d) b) := by
  unfold Shell.failure at h
  split at h
  · split at h
    · cases h
    · exact h
  · split at h
    · cases h
    · exact h
  · exact h
  · cases h
  · exact h

/-- What is answered with details: those of a credential on the list. -/
theorem answers_detail {i : Invoke} {o : Out} {n : Nat} {d : Detail} (h : Msg.detail n (some d) ∈ answers i o) : o = .detail (some d) := by
  cases o with
  | detail e => simp only [answers, List.mem_singleton] at h; cases h; rfl
  | _ => simp [answers] at h

theorem select_detail {id : String} {d : Detail} (h : (select s id).1 = .detail (some d)) : ∃ c ∈ s.credential, c.id = id ∧ detailOf c = some d := by
  unfold select at h
  split at h
  · cases h
  · rename_i c hc
    split at h
    · rename_i d' hd
      cases h
      exact ⟨c, List.mem_of_find?_eq_some hc, by simpa using List.find?_some hc, hd⟩
    · cases h

/-- What shows, or does not, but is not details. -/
def Undetailed (o : Out) : Prop := ∀ d, o ≠ .detail d

theorem undetailed_finish (s : App) : Undetailed (finish s).1 := by
  unfold finish; split <;> exact nofun

theorem undetailed_reset (s : App) : Undetailed (reset a s).1 := by
  unfold reset; split
  · exact nofun
  · exact undetailed_finish _

theorem undetailed_andThen {x : Done × App} {k : Resp → App → Out × App} (hk : ∀ r, Undetailed (k r x.2).1) : Undetailed (andThen x k).1 := by
  unfold andThen
  split
  · exact hk _
  · exact nofun
  · exact nofun

theorem undetailed_offer (e : String) : Undetailed (offer a s t e).1 := by
  unfold offer
  split
  · exact nofun
  · refine undetailed_andThen fun r => ?_
    split
    · exact undetailed_finish _
    · exact nofun

theorem undetailed_request (e : String) : Undetailed (request a s t e).1 := by
  refine undetailed_andThen fun r => ?_
  split
  · exact undetailed_finish _
  · exact nofun

theorem undetailed_logged {x : Out × App} (h : Undetailed x.1) : Undetailed (logged x).1 := by
  unfold logged
  split
  · exact nofun
  · exact h

theorem undetailed_link (u : String) : Undetailed (link a s t u).1 := by
  unfold link
  split
  · exact undetailed_logged (undetailed_offer _)
  · split
    · exact undetailed_logged (undetailed_request _)
    · exact nofun

theorem serve_detail {c : Cmd} (hc : Invoked c) {d : Detail} (h : (serve a s t c).1 = .detail (some d)) : ∃ c' ∈ s.credential, detailOf c' = some d := by
  cases hc with
  | start => exact absurd h (undetailed_finish s _)
  | reset => exact absurd h (undetailed_reset s _)
  | select id => obtain ⟨c', h1, _, h2⟩ := select_detail (s := s) (id := id) h; exact ⟨c', h1, h2⟩
  | delete id =>
    have h : (delete a s id).1 = _ := h
    unfold delete at h
    dsimp only at h
    split at h
    · exact absurd h (undetailed_finish _ _)
    · cases h
  | offer e => exact absurd h (undetailed_offer e _)
  | accept => exact absurd h (undetailed_andThen (fun _ => undetailed_finish _) _)
  | request e => exact absurd h (undetailed_request e _)
  | authorize =>
    refine absurd h (undetailed_andThen (fun r => ?_) _)
    split
    · exact undetailed_finish _
    · exact nofun
  | present => exact absurd h (undetailed_andThen (fun _ => undetailed_reset _) _)

theorem detailed_step {file : Dict Slot} {w : Wallet} (hd : Decent w) (h : Detailed file w) (e : Step)
    (hst : ∀ c, (∃ k, (k, Slot.credential c) ∈ (w.step a e).app.files.store) → InFile file c) : Detailed file (w.step a e) := by
  have filed : ∀ {c : Cmd} {t : Nat}, Asked c → (w.step a e).app = (serve a w.app t c).2 → Filed file (w.step a e).app := by
    intro c t hc he
    refine ⟨fun x hx => ?_, hst⟩
    rw [he] at hx
    rcases lists_serve hc x hx with hx | ⟨k, hx⟩
    · exact h.app.listed x hx
    · exact hst x ⟨k, by rw [he]; exact hx⟩
  have booted : ∀ {c : Cmd} {t : Nat}, Asked c → (w.step a e) = boot (serve a w.app t c).2 → Detailed file (w.step a e) := by
    intro c t hc he
    exact ⟨filed hc (by rw [he]; rfl), by rw [he]; exact nofun, by rw [he]; exact nofun⟩
  cases e with
  | click c =>
    refine ⟨h.app, h.msgs, fun inst d b hs => ?_⟩
    obtain ⟨b', hs'⟩ := click_details c hs
    exact h.screen inst d b' hs'
  | timer =>
    refine ⟨h.app, h.msgs, fun inst d b hs => ?_⟩
    refine h.screen inst d b (Eq.trans (Eq.symm ?_) hs)
    show w.shell.timer.1.screen = _
    unfold Shell.timer
    split <;> rfl
  | serve i t =>
    cases hi : w.calls[i]? with
    | none =>
      have : w.step a (.serve i t) = w := by simp only [Wallet.step, hi]
      rw [this]; exact h
    | some inv =>
      have hinv := hd.calls inv (List.mem_of_getElem? hi)
      have he : w.step a (.serve i t) = { w with app := (serve a w.app t inv.cmd).2, calls := w.calls.eraseIdx i, msgs := w.msgs ++ answers inv (serve a w.app t inv.cmd).1 } := by
        simp only [Wallet.step, hi]
      refine ⟨filed (.shell hinv) (by rw [he]), ?_, by rw [he]; exact h.screen⟩
      rw [he]
      intro n d hm
      rcases List.mem_append.mp hm with hm | hm
      · exact h.msgs n d hm
      · obtain ⟨c, hc, hcd⟩ := serve_detail hinv (answers_detail hm)
        exact ⟨c, h.app.listed c hc, hcd⟩
  | link t u =>
    refine ⟨filed (.link u) rfl, fun n d hm => ?_, h.screen⟩
    rcases List.mem_append.mp hm with hm | hm
    · exact h.msgs n d hm
    · exact absurd (answers_detail hm) (undetailed_link u _)
  | deliver =>
    cases hm : w.msgs with
    | nil =>
      have : w.step a .deliver = w := by simp only [Wallet.step, hm]
      rw [this]; exact h
    | cons m l =>
      have he : w.step a .deliver = { w with msgs := l }.with (w.shell.receive m) := by simp only [Wallet.step, hm]
      rw [he]
      refine ⟨h.app, fun n d hx => h.msgs n d (by rw [hm]; exact List.mem_cons_of_mem _ hx), fun inst d b hs => ?_⟩
      have hs : (w.shell.receive m).1.screen = _ := hs
      cases m with
      | view j =>
        obtain ⟨v, rfl⟩ := hd.views j (by rw [hm]; exact List.mem_cons_self ..)
        exact h.screen inst d b (render_details v hd.seemly.2 hs)
      | detail n e =>
        rcases details_details n e hs with rfl | ⟨b', hs⟩
        · exact h.msgs n d (by rw [hm]; exact List.mem_cons_self ..)
        · exact h.screen inst d b' hs
      | failed i => exact h.screen inst d b (failure_details i hs)
  | autosave => exact ⟨filed (t := 0) .autosave rfl, h.msgs, h.screen⟩
  | restart => exact booted (t := 0) .restart rfl
  | crash n i t =>
    cases hi : w.calls[i]? with
    | none =>
      have : w.step a (.crash n i t) = w := by simp only [Wallet.step, hi]
      rw [this]; exact h
    | some inv =>
      exact booted (c := .crash n inv.cmd) (t := t) (.crash n (.shell (hd.calls inv (List.mem_of_getElem? hi)))) (by simp only [Wallet.step, hi])
  | crashLink n t u => exact booted (c := .crash n (.link u)) (t := t) (.crash n (.link u)) rfl

/-- What is stored, in memory and at any time in the file, is of the file. -/
structure Within (file : Dict Slot) (f : Files) : Prop where
  store : ∀ x ∈ f.store, x ∈ file
  disk : ∀ x ∈ f.disk, x ∈ file
  past : ∀ p ∈ f.past, ∀ x ∈ p, x ∈ file

theorem within_write {file : Dict Slot} {f : Files} (h : Within file f) : Within file (f.write a) := by
  refine ⟨h.store, ?_, ?_⟩
  · unfold Files.write
    dsimp only
    split
    · exact h.store
    · exact h.disk
  · intro p hp
    rcases List.mem_append.mp hp with hp | hp
    · exact h.past p hp
    · rw [List.mem_singleton.mp hp]; exact h.disk

theorem within_remove {file : Dict Slot} {f : Files} (h : Within file f) (id : String) : Within file (f.remove a id).2 := by
  unfold Files.remove
  split
  · exact within_write ⟨fun x hx => h.store x (List.mem_filter.mp hx).1, h.disk, h.past⟩
  · exact h

theorem within_backTo {file : Dict Slot} {f : Files} (h : Within file f) (k : Nat) : Within file (f.backTo k) := by
  have hd : ∀ x ∈ f.past[k]?.getD f.disk, x ∈ file := by
    cases hp : f.past[k]? with
    | none => exact h.disk
    | some p => exact h.past p (List.mem_of_getElem? hp)
  exact ⟨hd, hd, fun p hp => h.past p (List.mem_of_mem_take hp)⟩

theorem finish_files (s : App) : (finish s).2.files = s.files := by rw [finish_state]

theorem andThen_files {x : Done × App} {k : Resp → App → Out × App} (hx : x.2.files = s.files) (hk : ∀ r, (k r x.2).2.files = x.2.files) :
    (andThen x k).2.files = s.files := by
  unfold andThen
  split
  · rw [hk, hx]
  · exact hx
  · exact hx

theorem offer_files (h : Sound a s) (e : String) : (offer a s t e).2.files = s.files := by
  unfold offer
  split
  · rfl
  · rename_i o _
    refine andThen_files (lib_files (r := .offer ⟨"wallet", "normal_user", o⟩) h rfl nofun) fun r => ?_
    split
    · exact finish_files _
    · rfl

theorem request_files (h : Sound a s) (e : String) : (request a s t e).2.files = s.files := by
  refine andThen_files (lib_files (r := .request e) h trivial nofun) fun r => ?_
  split
  · exact finish_files _
  · rfl

theorem logged_files {x : Out × App} : (logged x).2.files = x.2.files := by
  unfold logged
  split <;> rfl

theorem within_serve {file : Dict Slot} (h : Sound a s) {c : Cmd} (hc : Asked c) (hw : Within file s.files) : Within file (serve a s t c).2.files := by
  induction hc with
  | shell hi =>
    cases hi with
    | start => show Within file (finish s).2.files; rw [finish_files]; exact hw
    | reset => show Within file (reset a s).2.files; rw [reset_files]; exact hw
    | select id =>
      show Within file (select s id).2.files
      unfold select
      split
      · exact hw
      · split <;> exact hw
    | delete id => show Within file (delete a s id).2.files; rw [delete_files]; exact within_remove hw id
    | offer e => show Within file (offer a s t e).2.files; rw [offer_files h]; exact hw
    | accept =>
      have : (accept a s t).2.files = s.files := andThen_files (lib_files (r := .accept _) h trivial nofun) fun _ => finish_files _
      show Within file (accept a s t).2.files; rw [this]; exact hw
    | request e => show Within file (request a s t e).2.files; rw [request_files h]; exact hw
    | authorize =>
      have : (authorize a s t).2.files = s.files := by
        refine andThen_files (lib_files (r := .authorizePresentation _) h trivial nofun) fun r => ?_
        split
        · exact finish_files _
        · rfl
      show Within file (authorize a s t).2.files; rw [this]; exact hw
    | present =>
      have : (present a s t).2.files = s.files := andThen_files (lib_files (r := .present _) h trivial nofun) fun _ => reset_files _ _
      show Within file (present a s t).2.files; rw [this]; exact hw
  | link u =>
    show Within file (link a s t u).2.files
    unfold link
    split
    · rw [logged_files, offer_files h]; exact hw
    · split
      · rw [logged_files, request_files h]; exact hw
      · exact hw
  | restart => exact ⟨hw.disk, hw.disk, hw.past⟩
  | autosave => exact within_write hw
  | crash n _ ih => exact within_backTo ih _

theorem within_after {file : Dict Slot} (hf : a.env.Fresh) (h : Sound a s) {l : List (Nat × Cmd)} (hl : ∀ x ∈ l, Asked x.2) (hw : Within file s.files) :
    Within file (after a s l).files := by
  induction l generalizing s with
  | nil => exact hw
  | cons x l ih =>
    exact ih (sound_serve hf h x.1 x.2) (fun y hy => hl y (List.mem_cons_of_mem _ hy)) (within_serve h (hl x (by simp)) hw)

theorem detailed_run (hf : a.env.Fresh) {file : Dict Slot} {w : Wallet} (hd : Decent w) (hs : Sound a w.app) (hw : Within file w.app.files) (h : Detailed file w)
    (l : List Step) : Detailed file (w.run a l) := by
  induction l generalizing w with
  | nil => exact h
  | cons e l ih =>
    have hw' : Within file (w.step a e).app.files := by
      rw [step_app]; exact within_after hf hs (commanded_asked hd e) hw
    exact ih (decent_step hd e) (by rw [step_app]; exact sound_after hf hs _) hw' (detailed_step hd h e fun c ⟨k, hk⟩ => ⟨k, hw'.store _ hk⟩)

/-! ### Where deletions come from -/

theorem click_deletes {sh : Shell} {c : Click} {i : Invoke} (hi : i ∈ (sh.click c).2) {id : String} (h : i.cmd = .delete id) :
    c = .delete ∧ ∃ inst d, sh.screen = .credential inst (.detail (some d) true) ∧ d.display.id = id := by
  have none : ∀ {P : Prop}, i ∈ ([] : List Invoke) → P := fun hn => absurd hn List.not_mem_nil
  have one : ∀ {x : Invoke} {P : Prop}, i ∈ [x] → x.cmd ≠ .delete id → P := by
    intro x P hx hne; rw [List.mem_singleton.mp hx] at h; exact absurd h hne
  have press : ∀ x, i ∈ (sh.press x).2 → ∀ {P : Prop}, P := by
    intro x hx P
    unfold Shell.press at hx
    split at hx
    · exact none hx
    · exact one hx nofun
    · exact one hx nofun
    · split at hx
      · exact none hx
      · split at hx <;> exact none hx
      · exact none hx
    · split at hx
      · split at hx <;> exact none hx
      · exact none hx
  unfold Shell.click at hi
  split at hi
  · exact none hi
  · exact press _ hi
  · exact press _ hi
  · rename_i k _
    dsimp only at hi
    cases hk : (listed sh.view)[k]? with
    | none => rw [hk] at hi; exact none hi
    | some y => rw [hk] at hi; exact one hi nofun
  · exact none hi
  · exact none hi
  · exact none hi
  · dsimp only at hi; split at hi
    · exact none hi
    · exact one hi nofun
  · dsimp only at hi; split at hi
    · exact none hi
    · exact one hi nofun
  · exact none hi
  · rename_i inst d hs
    split at hi
    · exact none hi
    · rcases List.mem_cons.mp hi with rfl | hi
      · cases h; exact ⟨rfl, inst, d, hs, rfl⟩
      · exact one hi nofun
  · exact one hi nofun
  · exact one hi nofun
  · exact none hi
  · exact one hi nofun
  · exact one hi nofun
  · exact one hi nofun
  · exact one hi nofun
  · exact none hi

theorem timer_deletes {sh : Shell} {i : Invoke} (hi : i ∈ sh.timer.2) {id : String} (h : i.cmd = .delete id) : False := by
  unfold Shell.timer at hi
  split at hi
  · exact absurd hi List.not_mem_nil
  · rw [List.mem_singleton.mp hi] at h; cases h

theorem receive_deletes {sh : Shell} {m : Msg} {i : Invoke} (hi : i ∈ (sh.receive m).2) {id : String} (h : i.cmd = .delete id) : False := by
  cases m with
  | detail n d => exact absurd hi List.not_mem_nil
  | failed x => exact absurd hi List.not_mem_nil
  | view j =>
    have key : ∀ {b : Prop} [Decidable b] {y : Invoke}, i ∈ (if b then [y] else []) → i = y := by
      intro b _ y hy
      split at hy
      · exact List.mem_singleton.mp hy
      · exact absurd hy List.not_mem_nil
    have hi : i ∈ (sh.render j).2 := hi
    simp only [Shell.render] at hi
    split at hi
    · split at hi <;> exact absurd hi List.not_mem_nil
    · split at hi
      · split at hi <;> exact absurd hi List.not_mem_nil
      · split at hi
        · split at hi
          · simp only [renderIssuance] at hi
            rw [key hi] at h; cases h
          · exact absurd hi List.not_mem_nil
        · split at hi
          · split at hi
            · simp only [renderPresentation] at hi
              rw [key hi] at h; cases h
            · exact absurd hi List.not_mem_nil
          · exact absurd hi List.not_mem_nil

/-- The user has confirmed the deletion of what is shown. -/
def Confirmed (a : Around) (w : Wallet) (l : List Step) (id : String) : Prop :=
  ∃ pre post inst d, l = pre ++ .click .delete :: post ∧ (w.run a pre).shell.screen = .credential inst (.detail (some d) true) ∧ d.display.id = id

theorem step_deletes {w : Wallet} {e : Step} {i : Invoke} (hi : i ∈ (w.step a e).calls) {id : String} (h : i.cmd = .delete id) :
    i ∈ w.calls ∨ e = .click .delete ∧ ∃ inst d, w.shell.screen = .credential inst (.detail (some d) true) ∧ d.display.id = id := by
  have boot : ∀ s : App, i ∈ (boot s).calls → False := by
    intro s hi; rw [List.mem_singleton.mp hi] at h; cases h
  cases e with
  | click c =>
    rcases List.mem_append.mp hi with hi | hi
    · exact .inl hi
    · obtain ⟨rfl, hx⟩ := click_deletes hi h
      exact .inr ⟨rfl, hx⟩
  | timer =>
    rcases List.mem_append.mp hi with hi | hi
    · exact .inl hi
    · exact (timer_deletes hi h).elim
  | serve k t =>
    simp only [Wallet.step] at hi
    split at hi
    · exact .inl hi
    · exact .inl (List.mem_of_mem_eraseIdx hi)
  | link t u => exact .inl hi
  | deliver =>
    simp only [Wallet.step] at hi
    split at hi
    · exact .inl hi
    · rcases List.mem_append.mp hi with hi | hi
      · exact .inl hi
      · exact (receive_deletes hi h).elim
  | autosave => exact .inl hi
  | restart => exact (boot _ hi).elim
  | crash n k t =>
    simp only [Wallet.step] at hi
    split at hi
    · exact .inl hi
    · exact (boot _ hi).elim
  | crashLink n t u => exact (boot _ hi).elim

theorem commanded_deletes {w : Wallet} (hd : Decent w) {e : Step} {x : Nat × Cmd} (hx : x ∈ commanded w e) {id : String} (h : Deletes id x.2) :
    ∃ i ∈ w.calls, i.cmd = .delete id := by
  have inv : ∀ i ∈ w.calls, Deletes id i.cmd → ∃ i ∈ w.calls, i.cmd = .delete id := by
    intro i hi h
    refine ⟨i, hi, ?_⟩
    cases hc : i.cmd <;> rw [hc] at h <;> first | (cases h; done) | skip
    · cases h; rfl
    · have := hd.calls i hi; rw [hc] at this; cases this
  cases e with
  | serve k t =>
    simp only [commanded] at hx
    cases hk : w.calls[k]? with
    | none => rw [hk] at hx; exact absurd hx List.not_mem_nil
    | some i =>
      rw [hk] at hx
      rw [List.mem_singleton.mp hx] at h
      exact inv i (List.mem_of_getElem? hk) h
  | crash n k t =>
    simp only [commanded] at hx
    cases hk : w.calls[k]? with
    | none => rw [hk] at hx; exact absurd hx List.not_mem_nil
    | some i =>
      rw [hk] at hx
      rw [List.mem_singleton.mp hx] at h
      exact inv i (List.mem_of_getElem? hk) h
  | link t u => rw [List.mem_singleton.mp hx] at h; exact h.elim
  | autosave => rw [List.mem_singleton.mp hx] at h; exact h.elim
  | restart => rw [List.mem_singleton.mp hx] at h; exact h.elim
  | crashLink n t u => rw [List.mem_singleton.mp hx] at h; exact h.elim
  | _ => exact absurd hx List.not_mem_nil

theorem history_deletes {w : Wallet} (hd : Decent w) {l : List Step} {x : Nat × Cmd} (hx : x ∈ history a w l) {id : String} (h : Deletes id x.2) :
    (∃ i ∈ w.calls, i.cmd = .delete id) ∨ Confirmed a w l id := by
  induction l generalizing w with
  | nil => exact absurd hx List.not_mem_nil
  | cons e l ih =>
    rcases List.mem_append.mp hx with hx | hx
    · exact .inl (commanded_deletes hd hx h)
    · rcases ih (decent_step hd e) hx with ⟨i, hi, hc⟩ | ⟨pre, post, inst, d, rfl, hs, hid⟩
      · rcases step_deletes hi hc with hi | ⟨rfl, inst, d, hs, hid⟩
        · exact .inl ⟨i, hi, hc⟩
        · exact .inr ⟨[], l, inst, d, rfl, hs, hid⟩
      · exact .inr ⟨e :: pre, post, inst, d, rfl, hs, hid⟩

/-! ### C184 -/

/-- **C184** A credential that the wallet had when it was installed stays, in memory and in the file, whatever happens – links, failures, restarts, crashes –,
unless the user presses *Delete* in the dialog about a credential with its id, while the details of such a credential are on the screen. -/
theorem C184_deleted_was_confirmed (hf : a.env.Fresh) (now : Int) (file : Dict Slot) (steps : List Step) {w : Wallet} (hw : w = (installed now file).run a steps)
    {id : String} {x : Slot} (hx : Dict.get? file id = some x) (hgone : ¬ IsStored id (some x) w.app) :
    ∃ pre post inst d c, steps = pre ++ .click .delete :: post ∧
      ((installed now file).run a pre).shell.screen = .credential inst (.detail (some d) true) ∧
      (∃ k, (k, Slot.credential c) ∈ file) ∧ c.id = id ∧ detailOf c = some d := by
  subst hw
  have hlog := wallet_log hf now file steps
  apply Classical.byContradiction
  intro hno
  apply hgone
  have hdec : Decent (installed now file) := decent_boot (opened now file)
  have hdet : ∀ pre, Detailed file ((installed now file).run a pre) := fun pre =>
    detailed_run hf hdec (sound_opened a now file) ⟨fun _ h => h, fun _ h => h, fun _ hn => absurd hn List.not_mem_nil⟩
      ⟨⟨fun _ hn => absurd hn List.not_mem_nil, fun c h => h⟩, nofun, nofun⟩ pre
  obtain ⟨new, h1, h2⟩ := C151_stored_stays (a := a) (s := opened now file) (id := id) (x := x) ⟨hx, hx⟩ (history a (installed now file) steps) (by
    intro y hy hdel
    rcases history_deletes hdec hy hdel with ⟨i, hi, hc⟩ | ⟨pre, post, inst, d, hst, hs, hid⟩
    · rw [List.mem_singleton.mp hi] at hc; cases hc
    · obtain ⟨c, hc, hcd⟩ := (hdet pre).screen inst d true hs
      refine hno ⟨pre, post, inst, d, c, hst, hs, hc, ?_, hcd⟩
      rw [← hid]
      unfold detailOf displayOf at hcd
      cases hfd : firstDisplay c.display with
      | none => rw [hfd] at hcd; cases hcd
      | some e => rw [hfd] at hcd; cases hcd; rfl)
  rw [run_app]
  refine h2 fun en hen ev hev c hc => ?_
  have hen' : en ∈ ((installed now file).run a steps).app.world.log := by
    rw [run_app]
    show en ∈ (after a (opened now file) _).world.log
    rw [h1]
    exact List.mem_append_right _ hen
  obtain ⟨⟨_, hr⟩, hm⟩ := hlog en hen'
  exact absurd hc ((reached_calls hr (hm ev hev)).2.2 c)

end Verif.App
