import Verif.App.ShellConsent
/-!
# Leaving and keeping the example wallet's screens (C185, C186)
-/
namespace Verif.App
open Holder (Credential)

variable {a : Around} {s : App} {t : Nat}

/-! ### The header -/

/-- The header has the buttons of what is shown. -/
def Headed (sh : Shell) : Prop :=
  ∀ inst mode, sh.screen = .credential inst mode → match mode with
    | .list => sh.header = listHeader inst
    | .detail (some _) _ => sh.header = detailHeader inst
    | .detail none _ => sh.header = listHeader inst ∨ sh.header = detailHeader inst ∨ sh.header = formHeader inst
    | .add _ _ _ => sh.header = formHeader inst
    | .present _ _ _ => sh.header = formHeader inst

theorem headed_other {sh : Shell} (h : ∀ inst mode, sh.screen ≠ .credential inst mode) : Headed sh := fun inst mode hs => absurd hs (h inst mode)

theorem headed_press {sh : Shell} (h : Headed sh) (x : Option Handler) : Headed (sh.press x).1 := by
  unfold Shell.press
  split
  · exact h
  · exact h
  · dsimp only
    split
    · exact h
    · split
      · intro i m hs; cases hs; rfl
      · exact h
    · exact h
  · split
    · exact h
    · split
      · intro i m hs; cases hs; rfl
      · exact h
    · exact h
  · split
    · rename_i inst d b hs
      split
      · intro i m hs'; cases hs'; exact h inst _ hs
      · exact h
    · exact h

theorem headed_click {sh : Shell} (h : Headed sh) (c : Click) : Headed (sh.click c).1 := by
  unfold Shell.click
  split
  · exact h
  · exact headed_press h _
  · exact headed_press h _
  · exact h
  · intro i m hs; cases hs; rfl
  · rename_i hs; intro i m hs'; cases hs'; exact h _ _ hs
  · rename_i hs; intro i m hs'; cases hs'; exact h _ _ hs
  · exact h
  · exact h
  · rename_i hs; intro i m hs'; cases hs'; exact h _ _ hs
  · rename_i hs
    split
    · intro i m hs'; cases hs'; exact h _ _ hs
    · intro i m hs'; cases hs'; rfl
  · exact h
  · exact h
  · exact headed_other nofun
  · exact h
  · exact h
  · exact h
  · exact h
  · exact h

theorem headed_details {sh : Shell} (h : Headed sh) (n : Nat) (d : Option Detail) : Headed (sh.details n d) := by
  unfold Shell.details
  split
  · rename_i inst mode hs
    split
    · split
      · intro i m hs'; cases hs'; exact h _ _ hs
      · intro i m hs'; cases hs'; rfl
      · intro i m hs'; cases hs'
        have := h _ _ hs
        show _ ∨ _
        cases mode with
        | list => exact .inl this
        | detail d b =>
          cases d with
          | none => exact this
          | some d => exact .inr (.inl this)
        | add _ _ _ => exact .inr (.inr this)
        | present _ _ _ => exact .inr (.inr this)
    · exact h
  · exact h

theorem headed_failure {sh : Shell} (h : Headed sh) (i : Invoke) : Headed (sh.failure i) := by
  unfold Shell.failure
  split
  · rename_i hs _
    split
    · intro i m hs'; cases hs'; exact h _ _ hs
    · exact h
  · rename_i hs _
    split
    · intro i m hs'; cases hs'; exact h _ _ hs
    · exact h
  · exact h
  · exact headed_other nofun
  · exact h

theorem headed_render {sh : Shell} (h : Headed sh) (v : View) (hne : sh.screen ≠ .presentation .error) : Headed (sh.render (viewJson v)).1 := by
  cases v with
  | splash =>
    obtain ⟨n, hr⟩ := render_splash sh
    rw [hr]; exact headed_other nofun
  | credential l =>
    rcases render_credential sh l with ⟨inst, mode, hs, hr⟩ | ⟨_, hr⟩
    · rw [hr]; exact h
    · rw [hr]; intro i m hs'; cases hs'; rfl
  | issuance l p b => rw [render_issuance]; exact headed_other nofun
  | presentation st l => rw [render_presentation _ _ _ hne]; exact headed_other nofun

theorem headed_step {w : Wallet} (hd : Decent w) (h : Headed w.shell) (e : Step) : Headed (w.step a e).shell := by
  cases e with
  | click c => exact headed_click h c
  | timer =>
    show Headed w.shell.timer.1
    unfold Shell.timer
    split <;> exact h
  | serve i t =>
    simp only [Wallet.step]
    split <;> exact h
  | link t u => exact h
  | deliver =>
    simp only [Wallet.step]
    split
    · exact h
    · rename_i m l hm
      show Headed (w.shell.receive m).1
      cases m with
      | view j =>
        obtain ⟨v, rfl⟩ := hd.views j (by rw [hm]; exact List.mem_cons_self ..)
        exact headed_render h v hd.seemly.2
      | detail n d => exact headed_details h n d
      | failed i => exact headed_failure h i
  | autosave => exact h
  | restart => exact headed_other nofun
  | crash n i t =>
    simp only [Wallet.step]
    split
    · exact h
    · exact headed_other nofun
  | crashLink n t u => exact headed_other nofun

theorem headed_run {w : Wallet} (hd : Decent w) (h : Headed w.shell) (l : List Step) : Headed (w.run a l).shell := by
  induction l generalizing w with
  | nil => exact h
  | cons e l ih => exact ih (decent_step hd e) (headed_step hd h e)

/-! ### C186 -/

/-- The list is on the screen. -/
def OnList (w : Wallet) : Prop := ∃ inst, w.shell.screen = .credential inst .list

/-- The reset that was asked for is served and shown. -/
theorem reset_shown {w : Wallet} {sh : Shell} (hc : w.calls = []) (hm : w.msgs = []) {l : List Display} (h : (serve a w.app t .reset).1 = .view (.credential l))
    (hs : (∀ inst mode, sh.screen ≠ .credential inst mode) ∨ ∃ inst, sh.screen = .credential inst .list) :
    let w' := (w.with (sh, [{ cmd := .reset }])).run a [.serve 0 t, .deliver]
    OnList w' ∧ w'.shell.view = some (viewJson (.credential l)) := by
  obtain ⟨app, sh0, calls, msgs⟩ := w
  cases hc
  cases hm
  have h : (serve a app t .reset).1 = .view (.credential l) := h
  have e : ((Wallet.with ⟨app, sh0, [], []⟩ (sh, [{ cmd := .reset }])).run a [.serve 0 t, .deliver]) =
      ({ app := (serve a app t .reset).2, shell := sh0, calls := [], msgs := [] } : Wallet).with (sh.render (viewJson (.credential l))) := by
    show ((Wallet.with ⟨app, sh0, [], []⟩ (sh, [{ cmd := .reset }])).step a (.serve 0 t)).step a .deliver = _
    have e1 : (Wallet.with ⟨app, sh0, [], []⟩ (sh, [{ cmd := .reset }])).step a (.serve 0 t) =
        { app := (serve a app t .reset).2, shell := sh, calls := [], msgs := [.view (viewJson (.credential l))] } := by
      simp only [Wallet.step, Wallet.with, List.nil_append, List.getElem?_cons_zero, h]
      rfl
    rw [e1]
    rfl
  dsimp only
  rw [e]
  rcases render_credential sh l with ⟨inst, mode, hsh, hr⟩ | ⟨_, hr⟩
  · rw [hr]
    rcases hs with hs | ⟨i, hs⟩
    · exact absurd hsh (hs inst mode)
    · exact ⟨⟨i, hs⟩, rfl⟩
  · rw [hr]
    exact ⟨⟨_, rfl⟩, rfl⟩

/-- **C186** When nothing is on its way, the user is at most two clicks away from the list of credentials, as it is stored by then – unless the wallet is starting, or a
presentation has been authorized. (Where a stored credential cannot be shown, neither can the list: C152.) -/
theorem C186_back_partial (now : Int) (file : Dict Slot) (steps : List Step) {w : Wallet} (hw : w = (installed now file).run a steps)
    (hc : w.calls = []) (hm : w.msgs = []) (h1 : w.shell.screen ≠ .blank) (h2 : w.shell.screen ≠ .splash) (h3 : w.shell.screen ≠ .presentation .loading)
    {l : List Display} (h : (serve a w.app t .reset).1 = .view (.credential l)) :
    ∃ clicks : List Click, clicks.length ≤ 2 ∧
      OnList (w.run a (clicks.map .click ++ [.serve 0 t, .deliver])) ∧
      (OnList w ∨ (w.run a (clicks.map .click ++ [.serve 0 t, .deliver])).shell.view = some (viewJson (.credential l))) := by
  have hdec : Decent w := by rw [hw]; exact decent_run (decent_boot (opened now file)) steps
  have hh : Headed w.shell := by rw [hw]; exact headed_run (decent_boot (opened now file)) (headed_other nofun) steps
  have one : ∀ (c : Click) (sh : Shell), w.shell.click c = (sh, [{ cmd := .reset }]) →
      ((∀ inst mode, sh.screen ≠ .credential inst mode) ∨ ∃ inst, sh.screen = .credential inst .list) →
      ∃ clicks : List Click, clicks.length ≤ 2 ∧ OnList (w.run a (clicks.map .click ++ [.serve 0 t, .deliver])) ∧
        (OnList w ∨ (w.run a (clicks.map .click ++ [.serve 0 t, .deliver])).shell.view = some (viewJson (.credential l))) := by
    intro c sh hcl hs
    have := reset_shown (sh := sh) hc hm h hs
    refine ⟨[c], by simp, ?_⟩
    show OnList ((w.step a (.click c)).run a _) ∧ (_ ∨ ((w.step a (.click c)).run a _).shell.view = _)
    have e : w.step a (.click c) = w.with (sh, [{ cmd := .reset }]) := by
      show w.with (w.shell.click c) = _
      rw [hcl]
    rw [e]
    exact ⟨this.1, .inr this.2⟩
  cases hs : w.shell.screen with
  | blank => exact absurd hs h1
  | splash => exact absurd hs h2
  | issuance m =>
    cases hdec.seemly.1 m hs
    exact one .cancel w.shell (by unfold Shell.click; rw [hs]) (.inl (by rw [hs]; exact nofun))
  | presentation m =>
    cases m with
    | authorize => exact one .cancel w.shell (by unfold Shell.click; rw [hs]) (.inl (by rw [hs]; exact nofun))
    | loading => exact absurd hs h3
    | error => exact absurd hs hdec.seemly.2
  | credential inst mode =>
    have close : mode ≠ .list → w.shell.header.action = some (.close inst) →
        w.shell.click .action = ({ w.shell with screen := .credential inst .list, header := listHeader inst }, [{ cmd := .reset }]) := by
      intro hne ha
      unfold Shell.click
      rw [hs]
      dsimp only
      rw [ha]
      unfold Shell.press
      rw [hs]
      cases mode with
      | list => exact absurd rfl hne
      | _ => simp
    have hi := hh inst mode hs
    cases mode with
    | list =>
      refine ⟨[], by simp, ?_⟩
      have e : w.run a ([.serve 0 t, .deliver]) = w := by
        show (w.step a (.serve 0 t)).step a .deliver = w
        have : w.step a (.serve 0 t) = w := by simp only [Wallet.step, hc]; rfl
        rw [this]
        simp only [Wallet.step, hm]
      exact ⟨by rw [List.map_nil, List.nil_append, e]; exact ⟨inst, hs⟩, .inl ⟨inst, hs⟩⟩
    | add _ _ _ => exact one .action _ (close nofun (by rw [hi]; rfl)) (.inr ⟨inst, rfl⟩)
    | present _ _ _ => exact one .action _ (close nofun (by rw [hi]; rfl)) (.inr ⟨inst, rfl⟩)
    | detail d b =>
      cases d with
      | some d => exact one .action _ (close nofun (by rw [hi]; rfl)) (.inr ⟨inst, rfl⟩)
      | none =>
        rcases hi with hi | hi | hi
        · have e1 : w.shell.click .second =
              ({ w.shell with screen := .credential inst (.present w.shell.mounts [] false), header := formHeader inst, mounts := w.shell.mounts + 1 }, []) := by
            unfold Shell.click
            rw [hs]
            dsimp only
            rw [hi]
            show Shell.press _ (some (.present inst)) = _
            unfold Shell.press
            rw [hs]
            simp
          have e2 : ({ w.shell with screen := .credential inst (.present w.shell.mounts [] false), header := formHeader inst, mounts := w.shell.mounts + 1 } : Shell).click .action =
              ({ w.shell with screen := .credential inst .list, header := listHeader inst, mounts := w.shell.mounts + 1 }, [{ cmd := .reset }]) := by
            simp [Shell.click, Shell.press, formHeader]
          have := reset_shown (sh := { w.shell with screen := .credential inst .list, header := listHeader inst, mounts := w.shell.mounts + 1 }) hc hm h (.inr ⟨inst, rfl⟩)
          refine ⟨[.second, .action], by simp, ?_⟩
          show OnList (((w.step a (.click .second)).step a (.click .action)).run a _) ∧ (_ ∨ (((w.step a (.click .second)).step a (.click .action)).run a _).shell.view = _)
          have e : (w.step a (.click .second)).step a (.click .action) =
              w.with ({ w.shell with screen := .credential inst .list, header := listHeader inst, mounts := w.shell.mounts + 1 }, [{ cmd := .reset }]) := by
            show (w.with (w.shell.click .second)).with ((w.with (w.shell.click .second)).shell.click .action) = _
            rw [e1]
            show Wallet.with _ (Shell.click _ .action) = _
            rw [show (w.with ({ w.shell with screen := .credential inst (.present w.shell.mounts [] false), header := formHeader inst, mounts := w.shell.mounts + 1 }, [])).shell =
              { w.shell with screen := .credential inst (.present w.shell.mounts [] false), header := formHeader inst, mounts := w.shell.mounts + 1 } from rfl, e2]
            simp [Wallet.with]
          rw [e]
          exact ⟨this.1, .inr this.2⟩
        · exact one .action _ (close nofun (by rw [hi]; rfl)) (.inr ⟨inst, rfl⟩)
        · exact one .action _ (close nofun (by rw [hi]; rfl)) (.inr ⟨inst, rfl⟩)

/-! ### Where nothing more can be done -/

/-- What happens without links, and without ending the wallet. -/
def Inside : Step → Prop
  | .click _ | .timer | .serve _ _ | .deliver | .autosave => True
  | _ => False

/-- What happens without the user, without links, and without ending the wallet. -/
def Untouched : Step → Prop
  | .timer | .serve _ _ | .deliver | .autosave => True
  | _ => False

theorem idle_step {w : Wallet} (hc : w.calls = []) (hm : w.msgs = []) (ht : w.shell.timers = 0) {e : Step} (he : Untouched e) :
    (w.step a e).shell = w.shell ∧ (w.step a e).calls = [] ∧ (w.step a e).msgs = [] := by
  cases e with
  | timer =>
    have : w.shell.timer = (w.shell, []) := by unfold Shell.timer; rw [ht]
    have e : w.step a .timer = w.with (w.shell, []) := by
      show w.with w.shell.timer = _
      rw [this]
    rw [e]
    exact ⟨rfl, by show w.calls ++ [] = []; rw [hc]; rfl, hm⟩
  | serve i t =>
    have : w.step a (.serve i t) = w := by simp only [Wallet.step, hc]; rfl
    rw [this]; exact ⟨rfl, hc, hm⟩
  | deliver =>
    have : w.step a .deliver = w := by simp only [Wallet.step, hm]
    rw [this]; exact ⟨rfl, hc, hm⟩
  | autosave => exact ⟨rfl, hc, hm⟩
  | _ => cases he

theorem idle_run {w : Wallet} (hc : w.calls = []) (hm : w.msgs = []) (ht : w.shell.timers = 0) {l : List Step} (hl : ∀ e ∈ l, Untouched e) :
    (w.run a l).shell = w.shell := by
  induction l generalizing w with
  | nil => rfl
  | cons e l ih =>
    obtain ⟨h1, h2, h3⟩ := idle_step (a := a) hc hm ht (hl e (by simp))
    have := ih (w := w.step a e) h2 h3 (by rw [h1]; exact ht) fun e he => hl e (List.mem_cons_of_mem _ he)
    show ((w.step a e).run a l).shell = _
    rw [this, h1]

/-- **C185** When the timer of the splash screen has gone off and nothing is on its way, what is on the screen stays there until the user does something, a link is
opened or the wallet ends. -/
theorem C185_stays_partial {w : Wallet} (hc : w.calls = []) (hm : w.msgs = []) (ht : w.shell.timers = 0) {l : List Step} (hl : ∀ e ∈ l, Untouched e) :
    (w.run a l).shell.screen = w.shell.screen ∧ (w.run a l).shell.view = w.shell.view := by
  rw [idle_run hc hm ht hl]
  exact ⟨rfl, rfl⟩

theorem stuck_step {w : Wallet} {inst : Nat} (hc : w.calls = []) (hm : w.msgs = []) (ht : w.shell.timers = 0) (hs : w.shell.screen = .presentation .loading)
    (hh : w.shell.header = listHeader inst) {e : Step} (he : Inside e) :
    (w.step a e).shell = w.shell ∧ (w.step a e).calls = [] ∧ (w.step a e).msgs = [] := by
  cases e with
  | click c =>
    have : w.shell.click c = (w.shell, []) := by
      unfold Shell.click
      rw [hs]
      cases c <;> simp [hh, listHeader, Shell.press, hs]
    have e : w.step a (.click c) = w.with (w.shell, []) := by
      show w.with (w.shell.click c) = _
      rw [this]
    rw [e]
    exact ⟨rfl, by show w.calls ++ [] = []; rw [hc]; rfl, hm⟩
  | timer => exact idle_step hc hm ht (e := .timer) trivial
  | serve i t => exact idle_step hc hm ht (e := .serve i t) trivial
  | deliver => exact idle_step hc hm ht (e := .deliver) trivial
  | autosave => exact idle_step hc hm ht (e := .autosave) trivial
  | _ => cases he

/-- **C186** Once a presentation has been authorized that could not be sent, with the header that the list has left, whatever the user presses and however long
they wait, the screen stays. -/
theorem C186_violated_stuck {w : Wallet} {inst : Nat} (hc : w.calls = []) (hm : w.msgs = []) (ht : w.shell.timers = 0)
    (hs : w.shell.screen = .presentation .loading) (hh : w.shell.header = listHeader inst) {l : List Step} (hl : ∀ e ∈ l, Inside e) :
    (w.run a l).shell = w.shell := by
  induction l generalizing w with
  | nil => rfl
  | cons e l ih =>
    obtain ⟨h1, h2, h3⟩ := stuck_step (a := a) hc hm ht hs hh (hl e (by simp))
    have := ih (w := w.step a e) h2 h3 (by rw [h1]; exact ht) (by rw [h1]; exact hs) (by rw [h1]; exact hh) fun e he => hl e (List.mem_cons_of_mem _ he)
    show ((w.step a e).run a l).shell = _
    rw [this, h1]

end Verif.App
