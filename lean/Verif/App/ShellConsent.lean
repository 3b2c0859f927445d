import Verif.App.ShellProps
import Verif.App.ShareProps
/-!
# Presentations on the example wallet's screens (C183)
-/
namespace Verif.App
open Holder (Credential HEnv HWorld Req Resp PStatus Event Call Entry Issuance Presentation HVal Inv HProg InOrder IsRequest IsAuthorized)

variable {a : Around} {s : App} {t : Nat}

/-! ### What is on the screen -/

/-- The component that is mounted is the view's. -/
def Aligned (sh : Shell) : Prop :=
  match sh.screen with
  | .blank => sh.view = none
  | .splash => sh.view = some (viewJson .splash)
  | .credential _ _ => ∃ l, sh.view = some (viewJson (.credential l))
  | .issuance _ => ∃ l p b, sh.view = some (viewJson (.issuance l p b))
  | .presentation m => ∃ st l, sh.view = some (viewJson (.presentation st l)) ∧ (m = .loading ↔ st = .authorized)

/-- The kind of screen, as far as that goes without what components keep. -/
def SameKind : Screen → Screen → Prop
  | .blank, .blank => True
  | .splash, .splash => True
  | .credential _ _, .credential _ _ => True
  | .issuance _, .issuance _ => True
  | .presentation m, .presentation n => m = n
  | _, _ => False

theorem aligned_same {sh sh' : Shell} (h : Aligned sh) (hv : sh'.view = sh.view) (hk : SameKind sh.screen sh'.screen) : Aligned sh' := by
  unfold Aligned at h ⊢
  rw [hv]
  cases hs : sh.screen <;> cases hs' : sh'.screen <;> rw [hs, hs'] at hk <;> rw [hs] at h <;> first | exact h | (cases hk; exact h) | (cases hk; done)

theorem sameKind_refl (x : Screen) : SameKind x x := by cases x <;> simp [SameKind]

/-- What clicks, timers, details and failures leave as it is. -/
def Keeps (sh sh' : Shell) : Prop := sh'.view = sh.view ∧ SameKind sh.screen sh'.screen

theorem keeps_refl (sh : Shell) : Keeps sh sh := ⟨rfl, sameKind_refl _⟩

theorem keeps_press (sh : Shell) (x : Option Handler) : Keeps sh (sh.press x).1 := by
  unfold Shell.press
  split
  · exact keeps_refl _
  · exact keeps_refl _
  · dsimp only
    split
    · exact keeps_refl _
    · rename_i hs
      split
      · exact ⟨rfl, by rw [hs]; trivial⟩
      · exact keeps_refl _
    · exact keeps_refl _
  · split
    · exact keeps_refl _
    · rename_i hs
      split
      · exact ⟨rfl, by rw [hs]; trivial⟩
      · exact keeps_refl _
    · exact keeps_refl _
  · split
    · rename_i hs
      split
      · exact ⟨rfl, by rw [hs]; trivial⟩
      · exact keeps_refl _
    · exact keeps_refl _

theorem keeps_click (sh : Shell) (c : Click) : Keeps sh (sh.click c).1 := by
  unfold Shell.click
  split <;> first
    | exact keeps_refl _
    | exact keeps_press _ _
    | (rename_i hs; exact ⟨rfl, by rw [hs]; trivial⟩)
    | (rename_i hs; split <;> exact ⟨rfl, by rw [hs]; trivial⟩)

theorem keeps_timer (sh : Shell) : Keeps sh sh.timer.1 := by
  unfold Shell.timer
  split <;> exact keeps_refl _

theorem keeps_details (sh : Shell) (n : Nat) (d : Option Detail) : Keeps sh (sh.details n d) := by
  unfold Shell.details
  split
  · rename_i hs
    split
    · split <;> exact ⟨rfl, by rw [hs]; trivial⟩
    · exact keeps_refl _
  · exact keeps_refl _

theorem keeps_failure (sh : Shell) (i : Invoke) : Keeps sh (sh.failure i) := by
  unfold Shell.failure
  split
  · rename_i hs _
    split
    · exact ⟨rfl, by rw [hs]; trivial⟩
    · exact keeps_refl _
  · rename_i hs _
    split
    · exact ⟨rfl, by rw [hs]; trivial⟩
    · exact keeps_refl _
  · exact keeps_refl _
  · rename_i hs _; exact ⟨rfl, by rw [hs]; trivial⟩
  · exact keeps_refl _

theorem changed_status (st st' : ShownStatus) : changed (some (.str (statusName st))) (some (.str (statusName st'))) = decide (st ≠ st') := by
  cases st <;> cases st' <;> decide

theorem old_status (st : ShownStatus) (l : List (String × Display)) :
    ((some (viewJson (.presentation st l))).bind fun o => (property o "presentation").bind fun o => property o "status") = some (.str (statusName st)) := rfl

/-- What comes of rendering a presentation, if the screen was in order. -/
theorem presenting_aligned {sh : Shell} (h : Aligned sh) (hne : sh.screen ≠ .presentation .error) (st : ShownStatus) :
    ((presenting sh st).1 = .loading ↔ st = .authorized) ∧
    (st = .authorized → sh.screen ≠ .presentation .loading → (presenting sh st).2 = [{ cmd := .present }]) ∧
    (st ≠ .authorized ∨ sh.screen = .presentation .loading → (presenting sh st).2 = []) := by
  unfold presenting
  unfold Aligned at h
  cases hs : sh.screen with
  | presentation m =>
    rw [hs] at h hne
    obtain ⟨st0, l, hv, hm⟩ := h
    rw [hv, old_status, changed_status]
    cases m
    case error => exact absurd rfl hne
    all_goals (cases st0 <;> simp at hm <;> cases st <;> simp)
  | _ => cases st <;> simp

theorem aligned_render {sh : Shell} (h : Aligned sh) (hs : Seemly sh) (v : View) : Aligned (sh.render (viewJson v)).1 := by
  cases v with
  | splash =>
    obtain ⟨n, hn⟩ := render_splash sh
    rw [hn]
    rfl
  | credential l =>
    rcases render_credential sh l with ⟨inst, mode, h1, hr⟩ | ⟨_, hr⟩
    · rw [hr]; unfold Aligned; rw [h1]; exact ⟨l, rfl⟩
    · rw [hr]; exact ⟨l, rfl⟩
  | issuance l p b =>
    rw [render_issuance]
    exact ⟨l, p, b, rfl⟩
  | presentation st l =>
    rw [render_presentation sh st l hs.2]
    exact ⟨st, l, rfl, (presenting_aligned h hs.2 st).1⟩

theorem aligned_receive {sh : Shell} (h : Aligned sh) (hs : Seemly sh) {m : Msg} (hm : ∀ j, m = .view j → ∃ v, j = viewJson v) : Aligned (sh.receive m).1 := by
  cases m with
  | view j =>
    obtain ⟨v, rfl⟩ := hm j rfl
    exact aligned_render h hs v
  | detail n d => exact aligned_same h (keeps_details sh n d).1 (keeps_details sh n d).2
  | failed i => exact aligned_same h (keeps_failure sh i).1 (keeps_failure sh i).2

theorem aligned_step {w : Wallet} (hd : Decent w) (h : Aligned w.shell) (e : Step) : Aligned (w.step a e).shell := by
  cases e with
  | click c => exact aligned_same h (keeps_click _ c).1 (keeps_click _ c).2
  | timer => exact aligned_same h (keeps_timer _).1 (keeps_timer _).2
  | serve i t =>
    simp only [Wallet.step]
    split <;> exact h
  | link t u => exact h
  | deliver =>
    simp only [Wallet.step]
    split
    · exact h
    · rename_i m l hm
      exact aligned_receive h hd.seemly fun j hj => hd.views j (by rw [hm, hj]; simp)
  | autosave => exact h
  | restart => rfl
  | crash n i t =>
    simp only [Wallet.step]
    split
    · exact h
    · rfl
  | crashLink n t u => rfl

theorem aligned_run {w : Wallet} (hd : Decent w) (h : Aligned w.shell) (l : List Step) : Aligned (w.run a l).shell := by
  induction l generalizing w with
  | nil => exact h
  | cons e l ih => exact ih (decent_step hd e) (aligned_step hd h e)

/-! ### The shell follows the application -/

/-- The view that the shell will have when everything has reached it. -/
def due (shown : Option Json) : List Msg → Option Json
  | [] => shown
  | .view j :: l => due (some j) l
  | _ :: l => due shown l

theorem due_append (shown : Option Json) (l m : List Msg) : due shown (l ++ m) = due (due shown l) m := by
  induction l generalizing shown with
  | nil => rfl
  | cons x l ih => cases x <;> exact ih _

theorem render_view (sh : Shell) (v : View) (hs : Seemly sh) : (sh.render (viewJson v)).1.view = some (viewJson v) := by
  cases v with
  | splash => obtain ⟨n, hn⟩ := render_splash sh; rw [hn]
  | credential l => rcases render_credential sh l with ⟨_, _, _, hr⟩ | ⟨_, hr⟩ <;> rw [hr]
  | issuance l p b => rw [render_issuance]
  | presentation st l => rw [render_presentation sh st l hs.2]

theorem due_answers (i : Invoke) (o : Out) (shown : Option Json) : due shown (answers i o) = match o with | .view v => some (viewJson v) | _ => shown := by
  cases o <;> rfl

/-- The screen after commands other than those that end the application. -/
theorem screen_shell {c : Cmd} (h : Invoked c ∨ ∃ u, c = .link u) (shown : Option View) (o : Out) :
    screen shown c o = match o with | .view v => some v | _ => shown := by
  rcases h with h | ⟨u, rfl⟩
  · cases h <;> cases o <;> rfl
  · cases o <;> rfl

theorem follows_step {w : Wallet} (hd : Decent w) {shown : Option View} (h : due w.shell.view w.msgs = shown.map viewJson) (e : Step) :
    due (w.step a e).shell.view (w.step a e).msgs = (watch a w.app shown (commanded w e)).map viewJson := by
  cases e with
  | click c =>
    show due (w.shell.click c).1.view w.msgs = _
    rw [(keeps_click _ c).1]; exact h
  | timer =>
    show due w.shell.timer.1.view w.msgs = _
    rw [(keeps_timer _).1]; exact h
  | serve i t =>
    simp only [Wallet.step, commanded]
    cases hi : w.calls[i]? with
    | none => exact h
    | some inv =>
      show due w.shell.view (w.msgs ++ _) = (screen shown inv.cmd _).map viewJson
      rw [due_append, h, due_answers, screen_shell (.inl (hd.calls inv (List.mem_of_getElem? hi)))]
      cases (serve a w.app t inv.cmd).1 <;> rfl
  | link t u =>
    show due w.shell.view (w.msgs ++ _) = (screen shown (.link u) _).map viewJson
    rw [due_append, h, due_answers, screen_shell (.inr ⟨u, rfl⟩)]
    cases (serve a w.app t (.link u)).1 <;> rfl
  | deliver =>
    simp only [Wallet.step, commanded]
    cases hm : w.msgs with
    | nil => rw [hm] at h; simp only [hm]; exact h
    | cons m l =>
      rw [hm] at h
      cases m with
      | view j =>
        obtain ⟨v, rfl⟩ := hd.views j (by rw [hm]; simp)
        show due (w.shell.render (viewJson v)).1.view l = _
        rw [render_view _ _ hd.seemly]
        exact h
      | detail n d =>
        show due (w.shell.details n d).view l = _
        rw [(keeps_details _ n d).1]; exact h
      | failed i =>
        show due (w.shell.failure i).view l = _
        rw [(keeps_failure _ i).1]; exact h
  | autosave => exact h
  | restart => rfl
  | crash n i t =>
    simp only [Wallet.step, commanded]
    cases hi : w.calls[i]? with
    | none => exact h
    | some inv => rfl
  | crashLink n t u => rfl

theorem watch_append (a : Around) (s : App) (shown : Option View) (l m : List (Nat × Cmd)) :
    watch a s shown (l ++ m) = watch a (after a s l) (watch a s shown l) m := by
  induction l generalizing s shown with
  | nil => rfl
  | cons x l ih => exact ih _ _

theorem follows_run {w : Wallet} (hd : Decent w) {shown : Option View} (h : due w.shell.view w.msgs = shown.map viewJson) (l : List Step) :
    due (w.run a l).shell.view (w.run a l).msgs = (watch a w.app shown (history a w l)).map viewJson := by
  induction l generalizing w shown with
  | nil => exact h
  | cons e l ih =>
    show due ((w.step a e).run a l).shell.view ((w.step a e).run a l).msgs = _
    rw [ih (decent_step hd e) (follows_step hd h e), history, watch_append, step_app]

/-- Once everything has reached the shell, it shows the last view of the application. -/
theorem follows (now : Int) (file : Dict Slot) (steps : List Step) {w : Wallet} (hw : w = (installed now file).run a steps) (hm : w.msgs = []) :
    w.shell.view = (watch a (opened now file) none (history a (installed now file) steps)).map viewJson := by
  have := follows_run (a := a) (decent_boot (opened now file)) (shown := none) rfl steps
  subst hw
  rw [show (boot (opened now file)).run a steps = (installed now file).run a steps from rfl, hm] at this
  exact this

/-! ### Counting -/

/-- The user presses *Authorize*: the button is there only while the shell asks whether to present. -/
def pressed (w : Wallet) : Step → Nat
  | .click .agree => match w.shell.screen with
    | .presentation .authorize => 1
    | _ => 0
  | _ => 0

/-- How often the user pressed *Authorize*. -/
def presses (a : Around) (w : Wallet) : List Step → Nat
  | [] => 0
  | e :: l => pressed w e + presses a (w.step a e) l

/-- A command to authorize. -/
def isAuthorize (i : Invoke) : Bool :=
  match i.cmd with
  | .authorize => true
  | _ => false

/-- The presentations that the library was asked to authorize. -/
def allowed (log : List Entry) : List String := log.filterMap fun en => match en.req with
  | .authorizePresentation id => some id
  | _ => none

theorem click_count (w : Wallet) (c : Click) : (w.shell.click c).2.countP isAuthorize = pressed w (.click c) := by
  have press : ∀ x, (w.shell.press x).2.countP isAuthorize = 0 := by
    intro x
    unfold Shell.press
    split
    · rfl
    · rfl
    · rfl
    · split
      · rfl
      · split <;> rfl
      · rfl
    · split
      · split <;> rfl
      · rfl
  unfold Shell.click
  split
  · rename_i hs
    simp only [pressed, hs]
    split <;> rfl
  · exact press _
  · exact press _
  · rename_i i _
    cases (listed w.shell.view)[i]? <;> rfl
  · rfl
  · rfl
  · rfl
  · split <;> rfl
  · split <;> rfl
  · rfl
  · split <;> rfl
  · rfl
  · rename_i hs; simp only [pressed, hs]; rfl
  · rfl
  · rfl
  · rename_i hs; simp only [pressed, hs]; rfl
  · rfl
  · rename_i hs; simp only [pressed, hs]; rfl
  · rename_i hn
    simp only [pressed]
    split
    · rename_i heq
      cases heq
      split
      · rename_i hs; exact (hn hs rfl).elim
      · rfl
    · rfl

theorem timer_count (sh : Shell) : sh.timer.2.countP isAuthorize = 0 := by
  unfold Shell.timer; split <;> rfl

theorem receive_count (sh : Shell) (m : Msg) : (sh.receive m).2.countP isAuthorize = 0 := by
  cases m with
  | detail n d => rfl
  | failed i => rfl
  | view j =>
    show (sh.render j).2.countP isAuthorize = 0
    simp only [Shell.render]
    split
    · split <;> rfl
    · split
      · split <;> rfl
      · split
        · split
          · simp only [renderIssuance]; split <;> rfl
          · rfl
        · split
          · split
            · simp only [renderPresentation]; split <;> rfl
            · rfl
          · rfl

theorem allowed_append (l m : List Entry) : allowed (l ++ m) = allowed l ++ allowed m := by simp [allowed]

theorem reached_authorize {c : Cmd} {r : Req} (h : Reached c r) (hc : Asked c) {id : String} (hr : r = .authorizePresentation id) :
    c = .authorize ∨ ∃ n, c = .crash n .authorize ∨ ∃ c', c = .crash n c' ∧ ∃ m c'', c' = .crash m c'' := by
  induction h with
  | authorize id => exact .inl rfl
  | crash n h ih =>
    cases hc with
    | shell h => cases h
    | crash _ hc =>
      rcases ih hc hr with rfl | ⟨m, rfl | ⟨c', rfl, _⟩⟩
      · exact .inr ⟨n, .inl rfl⟩
      · exact .inr ⟨n, .inr ⟨_, rfl, m, _, rfl⟩⟩
      · exact .inr ⟨n, .inr ⟨_, rfl, m, _, rfl⟩⟩
  | _ => cases hr

theorem allowed_serve (h : Sound a s) {c : Cmd} (hc : Asked c) : ∃ l, allowed (serve a s t c).2.world.log = allowed s.world.log ++ l ∧ l.length ≤ 1 ∧
    (l ≠ [] → ∃ id, Reached c (.authorizePresentation id)) := by
  obtain ⟨new, h1, h2, h3⟩ := adds_serve (t := t) h hc
  refine ⟨allowed new, by rw [h1, allowed_append], Nat.le_trans (List.length_filterMap_le _ _) h2, ?_⟩
  intro hne
  obtain ⟨id, hid⟩ := List.exists_mem_of_ne_nil _ hne
  obtain ⟨en, hen, hm⟩ := List.mem_filterMap.mp hid
  refine ⟨id, ?_⟩
  have := (h3 en hen).1
  revert hm
  split
  · rename_i r hr; intro hm; cases hm; rw [← hr]; exact this
  · intro hm; cases hm

theorem countP_eraseIdx {α : Type} (p : α → Bool) (l : List α) (i : Nat) (x : α) (h : l[i]? = some x) :
    (l.eraseIdx i).countP p + (if p x then 1 else 0) = l.countP p := by
  induction l generalizing i with
  | nil => cases h
  | cons y l ih =>
    cases i with
    | zero => cases h; simp [List.countP_cons]
    | succ i =>
      have := ih i h
      simp only [List.eraseIdx_cons_succ, List.countP_cons]
      omega

/-- Reached by a command of the shell: only the command to authorize does. -/
theorem invoked_authorize {c : Cmd} (hi : Invoked c) {id : String} (h : Reached c (.authorizePresentation id)) : c = .authorize := by
  cases h with
  | authorize => rfl
  | crash n h => cases hi

theorem link_authorize {u id : String} (h : Reached (.link u) (.authorizePresentation id)) : False := by cases h

theorem crash_authorize {n : Nat} {c : Cmd} {id : String} (h : Reached (.crash n c) (.authorizePresentation id)) : Reached c (.authorizePresentation id) := by
  cases h; assumption

theorem count_step {w : Wallet} (hd : Decent w) (hs : Sound a w.app) (e : Step) :
    (allowed (w.step a e).app.world.log).length + (w.step a e).calls.countP isAuthorize ≤
      (allowed w.app.world.log).length + w.calls.countP isAuthorize + pressed w e := by
  cases e with
  | click c =>
    show (allowed w.app.world.log).length + (w.calls ++ (w.shell.click c).2).countP isAuthorize ≤ _
    rw [List.countP_append, click_count]
    omega
  | timer =>
    show (allowed w.app.world.log).length + (w.calls ++ w.shell.timer.2).countP isAuthorize ≤ _
    rw [List.countP_append, timer_count]
    omega
  | serve i t =>
    simp only [Wallet.step]
    split
    · exact Nat.le_add_right _ _
    · rename_i inv hi
      have hinv := hd.calls inv (List.mem_of_getElem? hi)
      obtain ⟨l, h1, h2, h3⟩ := allowed_serve (t := t) hs (.shell hinv)
      have hc := countP_eraseIdx isAuthorize w.calls i inv hi
      show (allowed (serve a w.app t inv.cmd).2.world.log).length + (w.calls.eraseIdx i).countP isAuthorize ≤ _
      rw [h1, List.length_append]
      by_cases hl : l = []
      · subst hl
        simp only [List.length_nil]
        omega
      · obtain ⟨id, hid⟩ := h3 hl
        have : isAuthorize inv = true := by
          unfold isAuthorize
          rw [invoked_authorize hinv hid]
        rw [if_pos this] at hc
        omega
  | link t u =>
    obtain ⟨l, h1, h2, h3⟩ := allowed_serve (t := t) hs (.link u)
    show (allowed (serve a w.app t (.link u)).2.world.log).length + _ ≤ _
    have hl : l = [] := Classical.byContradiction fun hl => link_authorize (h3 hl).choose_spec
    rw [h1, hl, List.append_nil]
    exact Nat.le_add_right _ _
  | deliver =>
    simp only [Wallet.step]
    split
    · exact Nat.le_add_right _ _
    · rename_i m l _
      show (allowed w.app.world.log).length + (w.calls ++ (w.shell.receive m).2).countP isAuthorize ≤ _
      rw [List.countP_append, receive_count]
      omega
  | autosave => exact Nat.le_add_right _ _
  | restart =>
    show (allowed w.app.world.log).length + 0 ≤ _
    omega
  | crash n i t =>
    simp only [Wallet.step]
    split
    · exact Nat.le_add_right _ _
    · rename_i inv hi
      have hinv := hd.calls inv (List.mem_of_getElem? hi)
      obtain ⟨l, h1, h2, h3⟩ := allowed_serve (t := t) hs (.crash n (.shell hinv))
      have hc := countP_eraseIdx isAuthorize w.calls i inv hi
      show (allowed (serve a w.app t (.crash n inv.cmd)).2.world.log).length + 0 ≤ _
      rw [h1, List.length_append]
      by_cases hl : l = []
      · subst hl
        simp only [List.length_nil]
        omega
      · obtain ⟨id, hid⟩ := h3 hl
        have : isAuthorize inv = true := by
          unfold isAuthorize
          rw [invoked_authorize hinv (crash_authorize hid)]
        rw [if_pos this] at hc
        omega
  | crashLink n t u =>
    obtain ⟨l, h1, h2, h3⟩ := allowed_serve (t := t) hs (.crash n (.link u))
    show (allowed (serve a w.app t (.crash n (.link u))).2.world.log).length + 0 ≤ _
    have hl : l = [] := Classical.byContradiction fun hl => link_authorize (crash_authorize (h3 hl).choose_spec)
    rw [h1, hl, List.append_nil]
    omega

theorem count_run (hf : a.env.Fresh) {w : Wallet} (hd : Decent w) (hs : Sound a w.app) (l : List Step) :
    (allowed (w.run a l).app.world.log).length + (w.run a l).calls.countP isAuthorize ≤
      (allowed w.app.world.log).length + w.calls.countP isAuthorize + presses a w l := by
  induction l generalizing w with
  | nil => exact Nat.le_refl _
  | cons e l ih =>
    have h1 := count_step hd hs e
    have h2 := ih (w := w.step a e) (decent_step hd e) (by rw [step_app]; exact sound_after hf hs _)
    show (allowed ((w.step a e).run a l).app.world.log).length + ((w.step a e).run a l).calls.countP isAuthorize ≤ _ + (pressed w e + presses a (w.step a e) l)
    omega

theorem pressed_pos {w : Wallet} {e : Step} (h : pressed w e ≠ 0) : e = .click .agree ∧ w.shell.screen = .presentation .authorize := by
  unfold pressed at h
  split at h
  · split at h
    · rename_i hs; exact ⟨rfl, hs⟩
    · exact absurd rfl h
  · exact absurd rfl h

theorem presses_pos {w : Wallet} {l : List Step} (h : presses a w l ≠ 0) :
    ∃ pre post, l = pre ++ .click .agree :: post ∧ (w.run a pre).shell.screen = .presentation .authorize := by
  induction l generalizing w with
  | nil => exact absurd rfl h
  | cons e l ih =>
    by_cases h1 : pressed w e = 0
    · have h : pressed w e + presses a (w.step a e) l ≠ 0 := h
      obtain ⟨pre, post, rfl, hs⟩ := ih (w := w.step a e) (by omega)
      exact ⟨e :: pre, post, rfl, hs⟩
    · obtain ⟨rfl, hs⟩ := pressed_pos h1
      exact ⟨[], l, rfl, hs⟩

/-! ### C183 -/

/-- A presentation of these flows was sent to somebody. -/
def SentFor (k : String) (log : List Entry) : Prop := ∃ en ∈ log, en.req = .present k ∧ ∃ uri rr o, ⟨.present uri rr, o⟩ ∈ en.events

theorem sent_allowed (hf : a.env.Fresh) (now : Int) (file : Dict Slot) (l : List (Nat × Cmd)) {k : String}
    (h : SentFor k (after a (opened now file) l).world.log) : k ∈ allowed (after a (opened now file) l).world.log := by
  obtain ⟨en, hen, hr, uri, rr, o, hev⟩ := h
  obtain ⟨pre, post, hsplit⟩ := List.append_of_mem hen
  obtain ⟨k', q, creds, pd, d, ds, hk, ⟨p1, e1, q1, hp1, _, p2, e2, q2, hp2, ⟨ha, _⟩, _⟩, _⟩ := C163_sent_was_asked_partial hf now file l hsplit hev
  rw [hr] at hk
  cases hk
  refine List.mem_filterMap.mpr ⟨e2, ?_, by rw [ha]⟩
  rw [hsplit, hp1, hp2]
  simp

/-- Different elements of a list are no more than the list has. -/
theorem nodup_length {l m : List String} (hn : l.Nodup) (h : ∀ x ∈ l, x ∈ m) : l.length ≤ m.length := by
  induction l generalizing m with
  | nil => exact Nat.zero_le _
  | cons x l ih =>
    obtain ⟨hx, hn⟩ := List.nodup_cons.mp hn
    have hm := h x (by simp)
    have := ih (m := m.erase x) hn fun y hy => (List.mem_erase_of_ne (fun (e : y = x) => hx (e ▸ hy))).mpr (h y (List.mem_cons_of_mem _ hy))
    rw [List.length_erase_of_mem hm] at this
    have : 0 < m.length := List.length_pos_of_mem hm
    simp only [List.length_cons]
    omega

/-- **C183** Nothing is presented unless the user pressed *Authorize* – on a screen that asks for it –, and each time they do at most one request is answered:
whatever links are opened, whatever is served when and whichever messages are on their way. -/
theorem C183_pressed_partial (hf : a.env.Fresh) (now : Int) (file : Dict Slot) (steps : List Step) {w : Wallet} (hw : w = (installed now file).run a steps)
    {ks : List String} (hn : ks.Nodup) (hk : ∀ k ∈ ks, SentFor k w.app.world.log) :
    ks.length ≤ presses a (installed now file) steps ∧
    (ks ≠ [] → ∃ pre post, steps = pre ++ .click .agree :: post ∧ ((installed now file).run a pre).shell.screen = .presentation .authorize) := by
  subst hw
  have hcount := count_run (w := installed now file) hf (decent_boot (opened now file)) (sound_opened a now file) steps
  have hsub : ∀ k ∈ ks, k ∈ allowed ((installed now file).run a steps).app.world.log := by
    intro k hk'
    have := hk k hk'
    rw [run_app] at this ⊢
    exact sent_allowed hf now file _ this
  have hle := nodup_length hn hsub
  have h0 : (allowed (installed now file).app.world.log).length + (installed now file).calls.countP isAuthorize = 0 := rfl
  have hle : ks.length ≤ presses a (installed now file) steps := by omega
  refine ⟨hle, fun hne => presses_pos (a := a) ?_⟩
  have : ks.length ≠ 0 := fun h => hne (List.length_eq_zero_iff.mp h)
  omega

/-- A view of a presentation is one. -/
theorem presentation_json {v : View} {st : ShownStatus} {l : List (String × Display)} (h : viewJson v = viewJson (.presentation st l)) :
    ∃ st' l', v = .presentation st' l' := by
  cases v with
  | presentation st' l' => exact ⟨st', l', rfl⟩
  | _ =>
    have h : property (viewJson _) "sub_app" = property (viewJson (.presentation st l)) "sub_app" := congrArg (property · "sub_app") h
    have h : some (Json.str _) = some (Json.str "Presentation") := h
    simp [subName] at h

/-- A view of an issuance is one. -/
theorem issuance_json {v : View} {l : List (String × Display)} {p : Option String} {b : Bool} (h : viewJson v = viewJson (.issuance l p b)) :
    ∃ l' p' b', v = .issuance l' p' b' := by
  cases v with
  | issuance l' p' b' => exact ⟨l', p', b', rfl⟩
  | _ =>
    have h : property (viewJson _) "sub_app" = property (viewJson (.issuance l p b)) "sub_app" := congrArg (property · "sub_app") h
    have h : some (Json.str _) = some (Json.str "Issuance") := h
    simp [subName] at h

/-- **C183** If everything has reached the screen when the user presses *Authorize*, and nothing else happens before that is served, then the request that is
authorized is one whose credentials are those on the screen, and the wallet goes on to present them. -/
theorem C183_calm_partial (hd : Draws a) (now : Int) (file : Dict Slot) (steps : List Step) {w : Wallet} (hw : w = (installed now file).run a steps)
    (hm : w.msgs = []) (hs : w.shell.screen = .presentation .authorize) {v : View} (h : (serve a w.app t .authorize).1 = .view v) :
    ∃ st shown id credentials,
      w.shell.view = some (viewJson (.presentation st shown)) ∧ ListsAll credentials shown ∧
      (∃ en ∈ w.app.world.log, ∃ u st', en.req = .request u ∧ en.result = .ok (.request id st' credentials)) ∧
      (∃ en, (w.run a [.click .agree, .serve w.calls.length t]).app.world.log = w.app.world.log ++ [en] ∧ en.req = .authorizePresentation id ∧ ∃ x, en.result = .ok x) ∧
      (w.run a [.click .agree, .serve w.calls.length t, .deliver]).shell.screen = .presentation .loading ∧
      (w.run a [.click .agree, .serve w.calls.length t, .deliver]).calls = w.calls ++ [{ cmd := .present }] := by
  have hal : Aligned w.shell := by
    rw [hw]; exact aligned_run (decent_boot (opened now file)) rfl steps
  have hdec : Decent w := by rw [hw]; exact decent_run (decent_boot (opened now file)) steps
  have hfol := follows now file steps hw hm
  unfold Aligned at hal
  rw [hs] at hal
  obtain ⟨st0, l0, hv0, hl0⟩ := hal
  rw [hv0] at hfol
  obtain ⟨v', hwatch, hj⟩ := Option.map_eq_some_iff.mp hfol.symm
  obtain ⟨st, shown, rfl⟩ := presentation_json hj
  have happ : w.app = after a (opened now file) (history a (installed now file) steps) := by rw [hw, run_app]; rfl
  obtain ⟨id, creds, hreq, hlog, _, hall, hv⟩ := C150_authorized_is_shown_partial hd now file _ happ hwatch h
  have hclick : w.shell.click .agree = (w.shell, [{ cmd := .authorize }]) := by
    unfold Shell.click; rw [hs]
  have hget : (w.calls ++ [({ cmd := .authorize } : Invoke)])[w.calls.length]? = some { cmd := .authorize } := by simp
  have hone : w.step a (.click .agree) = { w with calls := w.calls ++ [{ cmd := .authorize }] } := by
    show w.with (w.shell.click .agree) = _
    rw [hclick]; rfl
  have htwo : w.run a [.click .agree, .serve w.calls.length t] =
      { w with app := (serve a w.app t .authorize).2, msgs := [.view (viewJson v)] } := by
    show (w.step a (.click .agree)).step a (.serve w.calls.length t) = _
    rw [hone]
    simp only [Wallet.step, hget, hm, h]
    simp [answers, List.eraseIdx_append_of_length_le]
  have hthree : w.run a [.click .agree, .serve w.calls.length t, .deliver] =
      ({ w with app := (serve a w.app t .authorize).2, msgs := [] } : Wallet).with (w.shell.render (viewJson v)) := by
    show (w.run a [.click .agree, .serve w.calls.length t]).step a .deliver = _
    rw [htwo]
    rfl
  have hal : Aligned w.shell := by
    rw [hw]; exact aligned_run (decent_boot (opened now file)) rfl steps
  have hpres := presenting_aligned hal (by rw [hs]; intro e; cases e) .authorized
  refine ⟨st, shown, id, creds, by rw [hv0, hj], hall, hreq, by rw [htwo]; exact hlog, ?_, ?_⟩
  · rw [hthree, hv, render_presentation _ _ _ (by rw [hs]; intro e; cases e)]
    show Screen.presentation _ = _
    rw [hpres.1.mpr rfl]
  · rw [hthree, hv, render_presentation _ _ _ (by rw [hs]; intro e; cases e)]
    show w.calls ++ _ = _
    rw [hpres.2.1 rfl (by rw [hs]; intro e; cases e)]

/-- **C182** If everything has reached the screen when the user presses *Accept*, and nothing else happens before that is served, then the offer that is accepted
is one of the credentials on the screen, by the issuer that is named there. -/
theorem C182_accepted_is_shown_partial (hd : Draws a) (now : Int) (file : Dict Slot) (steps : List Step) {w : Wallet} (hw : w = (installed now file).run a steps)
    (hm : w.msgs = []) (hs : w.shell.screen = .issuance .accept) {v : View} (h : (serve a w.app t .accept).1 = .view v) :
    ∃ shown p b id issuer offered g,
      w.shell.view = some (viewJson (.issuance shown p b)) ∧ Offers issuer offered shown ∧ (b = true ↔ NeedsPin g) ∧
      (∃ en ∈ w.app.world.log, ∃ r, en.req = .offer r ∧ en.result = .ok (.offer id issuer offered g)) ∧
      (∃ en, (w.run a [.click .agree, .serve w.calls.length t]).app.world.log = w.app.world.log ++ [en] ∧ en.req = .accept ⟨id, none⟩ ∧ ∃ x, en.result = .ok x) := by
  have hal : Aligned w.shell := by
    rw [hw]; exact aligned_run (decent_boot (opened now file)) rfl steps
  have hfol := follows now file steps hw hm
  unfold Aligned at hal
  rw [hs] at hal
  obtain ⟨l0, p0, b0, hv0⟩ := hal
  rw [hv0] at hfol
  obtain ⟨v', hwatch, hj⟩ := Option.map_eq_some_iff.mp hfol.symm
  obtain ⟨shown, p, b, rfl⟩ := issuance_json hj
  have happ : w.app = after a (opened now file) (history a (installed now file) steps) := by rw [hw, run_app]; rfl
  obtain ⟨id, issuer, offered, g, hreq, hlog, hoff, hpin⟩ := C150_accepted_is_shown_partial hd now file _ happ hwatch h
  have hclick : w.shell.click .agree = (w.shell, [{ cmd := .accept }]) := by
    unfold Shell.click; rw [hs]
  have hget : (w.calls ++ [({ cmd := .accept } : Invoke)])[w.calls.length]? = some { cmd := .accept } := by simp
  have hone : w.step a (.click .agree) = { w with calls := w.calls ++ [{ cmd := .accept }] } := by
    show w.with (w.shell.click .agree) = _
    rw [hclick]; rfl
  have htwo : (w.run a [.click .agree, .serve w.calls.length t]).app = (serve a w.app t .accept).2 := by
    show ((w.step a (.click .agree)).step a (.serve w.calls.length t)).app = _
    rw [hone]
    simp only [Wallet.step, hget]
  exact ⟨shown, p, b, id, issuer, offered, g, by rw [hv0, hj], hoff, hpin, hreq, by rw [htwo]; exact hlog⟩

end Verif.App
