import Verif.App.Shell
import Verif.App.ScreenProps
/-!
# What the example wallet's shell makes of views, and what it never invokes
-/
namespace Verif.App
open Holder (Credential HEnv HWorld Req Resp PStatus Event Call Entry Issuance Presentation HVal Inv HProg)

variable {a : Around}

/-! ### Rendering views -/

theorem render_splash (sh : Shell) : ∃ n, sh.render (viewJson .splash) = ({ sh with view := some (viewJson .splash), screen := .splash, timers := n }, []) := by
  obtain ⟨v, sc, h, m, t⟩ := sh
  cases sc
  case splash => exact ⟨t, rfl⟩
  all_goals exact ⟨t + 1, rfl⟩

theorem render_credential (sh : Shell) (l : List Display) :
    (∃ inst mode, sh.screen = .credential inst mode ∧ sh.render (viewJson (.credential l)) = ({ sh with view := some (viewJson (.credential l)) }, [])) ∨
    (∀ inst mode, sh.screen ≠ .credential inst mode) ∧ sh.render (viewJson (.credential l)) =
      ({ sh with view := some (viewJson (.credential l)), screen := .credential sh.mounts .list, header := listHeader sh.mounts, mounts := sh.mounts + 1 }, []) := by
  obtain ⟨v, sc, h, m, t⟩ := sh
  cases sc
  case credential inst mode => exact .inl ⟨inst, mode, rfl, rfl⟩
  all_goals exact .inr ⟨fun _ _ => nofun, rfl⟩

/-- The views say nothing of how far an issuance has got. -/
theorem render_issuance (sh : Shell) (l : List (String × Display)) (p : Option String) (b : Bool) :
    sh.render (viewJson (.issuance l p b)) = ({ sh with view := some (viewJson (.issuance l p b)), screen := .issuance .accept }, []) := by
  obtain ⟨v, sc, h, m, t⟩ := sh
  simp only [Shell.render]
  rw [show property (viewJson (.issuance l p b)) "sub_app" = some (.str "Issuance") from rfl,
    if_neg (show ¬ isText (some (.str "Issuance")) "Splash" = true by decide), if_neg (show ¬ isText (some (.str "Issuance")) "Credential" = true by decide), if_pos (show isText (some (.str "Issuance")) "Issuance" = true by decide)]
  show renderIssuance _ _ (issuanceJson l p b) = _
  simp only [renderIssuance]
  rw [show property (issuanceJson l p b) "status" = none from rfl]
  simp [issuanceMode, isText]

/-- The shell after a presentation was rendered. -/
def presenting (sh : Shell) (st : ShownStatus) : PresMode × List Invoke :=
  let was := match sh.screen with
    | .presentation m => some m
    | _ => none
  let fires := was.isNone || changed (sh.view.bind fun o => (property o "presentation").bind fun o => property o "status") (some (.str (statusName st)))
  (if fires then (if st = .authorized then .loading else .authorize) else was.getD .authorize,
   if fires && st = .authorized then [{ cmd := .present }] else [])

theorem presentationMode_text (s : String) : presentationMode (some (.str s)) = if s = "Authorized" ∨ s = "Completed" then .loading else .authorize := by
  simp [presentationMode, property, isText]

theorem isAuthorized_text (st : ShownStatus) : isText (some (.str (statusName st))) "Authorized" = decide (st = .authorized) := by cases st <;> decide

theorem presentationMode_status (st : ShownStatus) :
    presentationMode (some (.str (statusName st))) = if st = .authorized then .loading else .authorize := by cases st <;> rfl

theorem render_presentation (sh : Shell) (st : ShownStatus) (l : List (String × Display)) (hne : sh.screen ≠ .presentation .error) :
    sh.render (viewJson (.presentation st l)) =
      ({ sh with view := some (viewJson (.presentation st l)), screen := .presentation (presenting sh st).1 }, (presenting sh st).2) := by
  obtain ⟨v, sc, h, m, t⟩ := sh
  simp only [Shell.render]
  rw [show property (viewJson (.presentation st l)) "sub_app" = some (.str "Presentation") from rfl,
    if_neg (show ¬ isText (some (.str "Presentation")) "Splash" = true by decide), if_neg (show ¬ isText (some (.str "Presentation")) "Credential" = true by decide),
    if_neg (show ¬ isText (some (.str "Presentation")) "Issuance" = true by decide), if_pos (show isText (some (.str "Presentation")) "Presentation" = true by decide)]
  show renderPresentation _ _ (presentationJson st l) = _
  simp only [renderPresentation]
  rw [show property (presentationJson st l) "status" = some (.str (statusName st)) from rfl, presentationMode_status, isAuthorized_text]
  simp only [presenting]
  generalize (changed _ _) = ch
  cases sc
  case presentation m =>
    cases m
    case error => exact absurd rfl hne
    all_goals (cases ch <;> cases st <;> rfl)
  all_goals (cases ch <;> cases st <;> rfl)

/-! ### What the shell invokes -/

/-- The commands that the shell invokes at some time: neither PINs nor the collection of credentials are among them. -/
inductive Invoked : Cmd → Prop
  | start : Invoked .start
  | reset : Invoked .reset
  | select (id : String) : Invoked (.select id)
  | delete (id : String) : Invoked (.delete id)
  | offer (e : String) : Invoked (.offer e)
  | accept : Invoked .accept
  | request (r : String) : Invoked (.request r)
  | authorize : Invoked .authorize
  | present : Invoked .present

/-- Screens that come up. -/
def Seemly (sh : Shell) : Prop := (∀ m, sh.screen = .issuance m → m = .accept) ∧ sh.screen ≠ .presentation .error

/-- Every view on its way to the shell is one of the application's. -/
def Genuine (l : List Msg) : Prop := ∀ j, Msg.view j ∈ l → ∃ v, j = viewJson v

theorem seemly_press {sh : Shell} (h : Seemly sh) (x : Option Handler) : Seemly (sh.press x).1 ∧ ∀ i ∈ (sh.press x).2, Invoked i.cmd := by
  have one : ∀ i ∈ [({ cmd := .reset } : Invoke)], Invoked i.cmd := by simp [Invoked.reset]
  have none : ∀ i ∈ ([] : List Invoke), Invoked i.cmd := nofun
  unfold Shell.press
  split
  · exact ⟨h, none⟩
  · exact ⟨h, one⟩
  · refine ⟨?_, one⟩
    dsimp only
    split
    · exact h
    · split
      · exact ⟨nofun, nofun⟩
      · exact h
    · exact h
  · split
    · exact ⟨h, none⟩
    · split
      · exact ⟨⟨nofun, nofun⟩, none⟩
      · exact ⟨h, none⟩
    · exact ⟨h, none⟩
  · split
    · split
      · exact ⟨⟨nofun, nofun⟩, none⟩
      · exact ⟨h, none⟩
    · exact ⟨h, none⟩

theorem seemly_click {sh : Shell} (h : Seemly sh) (c : Click) : Seemly (sh.click c).1 ∧ ∀ i ∈ (sh.click c).2, Invoked i.cmd := by
  have none : ∀ i ∈ ([] : List Invoke), Invoked i.cmd := nofun
  have one : ∀ {x : Invoke}, Invoked x.cmd → ∀ i ∈ [x], Invoked i.cmd := by
    intro x hx i hi
    rw [List.mem_singleton.mp hi]
    exact hx
  unfold Shell.click
  split
  · exact ⟨h, none⟩
  · exact seemly_press h _
  · exact seemly_press h _
  · rename_i i _
    refine ⟨h, ?_⟩
    cases (listed sh.view)[i]? with
    | none => exact none
    | some id => exact one (.select id)
  · exact ⟨⟨nofun, nofun⟩, none⟩
  · exact ⟨⟨nofun, nofun⟩, none⟩
  · exact ⟨⟨nofun, nofun⟩, none⟩
  · refine ⟨h, ?_⟩
    split
    · exact none
    · exact one (.offer _)
  · refine ⟨h, ?_⟩
    split
    · exact none
    · exact one (.request _)
  · exact ⟨⟨nofun, nofun⟩, none⟩
  · split
    · exact ⟨⟨nofun, nofun⟩, none⟩
    · refine ⟨⟨nofun, nofun⟩, ?_⟩
      intro i hi
      simp only [List.mem_cons, List.not_mem_nil, or_false] at hi
      rcases hi with rfl | rfl
      · exact .delete _
      · exact .reset
  · exact ⟨h, one .reset⟩
  · exact ⟨h, one .accept⟩
  · rename_i hs; have := h.1 _ hs; cases this
  · rename_i hs; have := h.1 _ hs; cases this
  · rename_i hs; have := h.1 _ hs; cases this
  · exact ⟨h, one .reset⟩
  · exact ⟨h, one .authorize⟩
  · exact ⟨h, none⟩

theorem seemly_timer {sh : Shell} (h : Seemly sh) : Seemly sh.timer.1 ∧ ∀ i ∈ sh.timer.2, Invoked i.cmd := by
  unfold Shell.timer
  split
  · exact ⟨h, nofun⟩
  · exact ⟨h, by simp [Invoked.reset]⟩

theorem seemly_render {sh : Shell} (h : Seemly sh) (v : View) : Seemly (sh.render (viewJson v)).1 ∧ ∀ i ∈ (sh.render (viewJson v)).2, Invoked i.cmd := by
  cases v with
  | splash =>
    obtain ⟨n, hn⟩ := render_splash sh
    rw [hn]
    exact ⟨⟨nofun, nofun⟩, nofun⟩
  | credential l =>
    rcases render_credential sh l with ⟨_, _, _, hr⟩ | ⟨_, hr⟩
    · rw [hr]; exact ⟨h, nofun⟩
    · rw [hr]; exact ⟨⟨nofun, nofun⟩, nofun⟩
  | issuance l p b =>
    rw [render_issuance]
    refine ⟨⟨?_, nofun⟩, nofun⟩
    intro m hm
    cases hm
    rfl
  | presentation st l =>
    rw [render_presentation sh st l h.2]
    refine ⟨⟨nofun, ?_⟩, ?_⟩
    · simp only [presenting]
      intro hc
      have hc : _ = PresMode.error := Screen.presentation.inj hc
      revert hc
      have h2 := h.2
      split <;> rename_i hs
      · split
        · split <;> nofun
        · intro hc
          rename_i m _
          cases m
          · cases hc
          · exact h2 hs
          · cases hc
      · split
        · split <;> nofun
        · nofun
    · intro i hi
      simp only [presenting] at hi
      generalize (_ && decide (st = .authorized)) = b at hi
      cases b
      · cases hi
      · rw [List.mem_singleton.mp hi]
        exact .present

theorem seemly_receive {sh : Shell} (h : Seemly sh) {m : Msg} (hm : ∀ j, m = .view j → ∃ v, j = viewJson v) (hf : ∀ i, m = .failed i → Invoked i.cmd) :
    Seemly (sh.receive m).1 ∧ ∀ i ∈ (sh.receive m).2, Invoked i.cmd := by
  cases m with
  | view j =>
    obtain ⟨v, rfl⟩ := hm j rfl
    exact seemly_render h v
  | detail n d =>
    refine ⟨?_, nofun⟩
    show Seemly (sh.details n d)
    unfold Shell.details
    split
    · split
      · split <;> exact ⟨nofun, nofun⟩
      · exact h
    · exact h
  | failed i =>
    refine ⟨?_, nofun⟩
    show Seemly (sh.failure i)
    have := hf i rfl
    unfold Shell.failure
    split
    · split
      · exact ⟨nofun, nofun⟩
      · exact h
    · split
      · exact ⟨nofun, nofun⟩
      · exact h
    · exact h
    · rename_i _ _ hc; rw [hc] at this; cases this
    · exact h

/-- What holds of every wallet at all times. -/
structure Decent (w : Wallet) : Prop where
  seemly : Seemly w.shell
  calls : ∀ i ∈ w.calls, Invoked i.cmd
  views : Genuine w.msgs
  failures : ∀ i, Msg.failed i ∈ w.msgs → Invoked i.cmd

theorem decent_boot (s : App) : Decent (boot s) :=
  ⟨⟨nofun, nofun⟩, by simp [boot, Invoked.start], nofun, nofun⟩

theorem decent_with {w : Wallet} (h : Decent w) {x : Shell × List Invoke} (hx : Seemly x.1 ∧ ∀ i ∈ x.2, Invoked i.cmd) : Decent (w.with x) := by
  refine ⟨hx.1, ?_, h.views, h.failures⟩
  intro i hi
  rcases List.mem_append.mp hi with hi | hi
  · exact h.calls i hi
  · exact hx.2 i hi

/-- Links never come back as failed. -/
theorem link_failed (a : Around) (s : App) (t : Nat) (u : String) : (serve a s t (.link u)).1 ≠ .failed := by
  show (link a s t u).1 ≠ .failed
  unfold link
  split
  · unfold logged; split
    · nofun
    · assumption
  · split
    · unfold logged; split
      · nofun
      · assumption
    · nofun

theorem answers_view {i : Invoke} {o : Out} {j : Json} (h : Msg.view j ∈ answers i o) : ∃ v, o = .view v ∧ j = viewJson v := by
  cases o <;> simp [answers] at h
  exact ⟨_, rfl, h⟩

theorem answers_failed {i i' : Invoke} {o : Out} (h : Msg.failed i' ∈ answers i o) : o = .failed ∧ i' = i := by
  cases o <;> simp [answers] at h
  exact ⟨rfl, h⟩

theorem decent_step {w : Wallet} (h : Decent w) (e : Step) : Decent (w.step a e) := by
  cases e with
  | click c => exact decent_with h (seemly_click h.seemly c)
  | timer => exact decent_with h (seemly_timer h.seemly)
  | serve i t =>
    simp only [Wallet.step]
    split
    · exact h
    · rename_i inv hi
      refine ⟨h.seemly, fun x hx => h.calls x (List.mem_of_mem_eraseIdx hx), ?_, ?_⟩
      · intro j hj
        rcases List.mem_append.mp hj with hj | hj
        · exact h.views j hj
        · obtain ⟨v, _, hv⟩ := answers_view hj
          exact ⟨v, hv⟩
      · intro x hx
        rcases List.mem_append.mp hx with hx | hx
        · exact h.failures x hx
        · rw [(answers_failed hx).2]
          exact h.calls inv (List.mem_of_getElem? hi)
  | link t u =>
    refine ⟨h.seemly, h.calls, ?_, ?_⟩
    · intro j hj
      rcases List.mem_append.mp hj with hj | hj
      · exact h.views j hj
      · obtain ⟨v, _, hv⟩ := answers_view hj
        exact ⟨v, hv⟩
    · intro x hx
      rcases List.mem_append.mp hx with hx | hx
      · exact h.failures x hx
      · exact absurd (answers_failed hx).1 (link_failed a _ _ _)
  | deliver =>
    simp only [Wallet.step]
    split
    · exact h
    · rename_i m l hm
      have h' : Decent { w with msgs := l } :=
        ⟨h.seemly, h.calls, fun j hj => h.views j (by rw [hm]; exact List.mem_cons_of_mem _ hj),
          fun i hi => h.failures i (by rw [hm]; exact List.mem_cons_of_mem _ hi)⟩
      refine decent_with h' (seemly_receive h.seemly ?_ ?_)
      · intro j hj; exact h.views j (by rw [hm, hj]; simp)
      · intro i hi; exact h.failures i (by rw [hm, hi]; simp)
  | autosave => exact ⟨h.seemly, h.calls, h.views, h.failures⟩
  | restart => exact decent_boot _
  | crash n i t =>
    simp only [Wallet.step]
    split
    · exact h
    · exact decent_boot _
  | crashLink n t u => exact decent_boot _

theorem decent_run {w : Wallet} (h : Decent w) (l : List Step) : Decent (w.run a l) := by
  induction l generalizing w with
  | nil => exact h
  | cons e l ih => exact ih (decent_step h e)

/-! ### What the application is asked to do -/

/-- What the application is ever asked to do, by the shell or otherwise. -/
inductive Asked : Cmd → Prop
  | shell {c : Cmd} (h : Invoked c) : Asked c
  | link (u : String) : Asked (.link u)
  | restart : Asked .restart
  | autosave : Asked .autosave
  | crash (n : Nat) {c : Cmd} (h : Asked c) : Asked (.crash n c)

/-- The command behind a step, if there is one. -/
def commanded (w : Wallet) : Step → List (Nat × Cmd)
  | .serve i t => (w.calls[i]?.map fun x => (t, x.cmd)).toList
  | .link t u => [(t, .link u)]
  | .autosave => [(0, .autosave)]
  | .restart => [(0, .restart)]
  | .crash n i t => (w.calls[i]?.map fun x => (t, .crash n x.cmd)).toList
  | .crashLink n t u => [(t, .crash n (.link u))]
  | _ => []

theorem step_app (w : Wallet) (e : Step) : (w.step a e).app = after a w.app (commanded w e) := by
  cases e with
  | serve i t =>
    simp only [Wallet.step, commanded]
    cases w.calls[i]? <;> rfl
  | deliver =>
    simp only [Wallet.step, commanded]
    cases w.msgs <;> rfl
  | crash n i t =>
    simp only [Wallet.step, commanded]
    cases w.calls[i]? <;> rfl
  | _ => rfl

theorem commanded_asked {w : Wallet} (h : Decent w) (e : Step) : ∀ x ∈ commanded w e, Asked x.2 := by
  intro x hx
  cases e with
  | serve i t =>
    simp only [commanded] at hx
    cases hc : w.calls[i]? with
    | none => rw [hc] at hx; cases hx
    | some inv =>
      rw [hc] at hx
      simp at hx
      subst hx
      exact .shell (h.calls inv (List.mem_of_getElem? hc))
  | crash n i t =>
    simp only [commanded] at hx
    cases hc : w.calls[i]? with
    | none => rw [hc] at hx; cases hx
    | some inv =>
      rw [hc] at hx
      simp at hx
      subst hx
      exact .crash n (.shell (h.calls inv (List.mem_of_getElem? hc)))
  | link t u => simp [commanded] at hx; subst hx; exact .link u
  | autosave => simp [commanded] at hx; subst hx; exact .autosave
  | restart => simp [commanded] at hx; subst hx; exact .restart
  | crashLink n t u => simp [commanded] at hx; subst hx; exact .crash n (.link u)
  | click c => cases hx
  | timer => cases hx
  | deliver => cases hx

/-- The commands behind some steps. -/
def history (a : Around) (w : Wallet) : List Step → List (Nat × Cmd)
  | [] => []
  | e :: l => commanded w e ++ history a (w.step a e) l

theorem run_app (w : Wallet) (l : List Step) : (w.run a l).app = after a w.app (history a w l) := by
  induction l generalizing w with
  | nil => rfl
  | cons e l ih =>
    show ((w.step a e).run a l).app = _
    rw [ih, step_app, history, after_append]

theorem history_asked {w : Wallet} (h : Decent w) (l : List Step) : ∀ x ∈ history a w l, Asked x.2 := by
  induction l generalizing w with
  | nil => exact nofun
  | cons e l ih =>
    intro x hx
    rcases List.mem_append.mp hx with hx | hx
    · exact commanded_asked h e x hx
    · exact ih (decent_step h e) x hx

end Verif.App
