import Verif.App.ShellBack
import Verif.App.ShellDelete
/-!
# Choosing a credential on the list (C201)
-/
namespace Verif.App
open Holder (Credential)

variable {a : Around} {t : Nat}

/-- A view of the list is one. -/
theorem credential_json {v : View} {l : List Display} (h : viewJson v = viewJson (.credential l)) : ∃ l', v = .credential l' := by
  cases v with
  | credential l' => exact ⟨l', rfl⟩
  | _ =>
    have h : property (viewJson _) "sub_app" = property (viewJson (.credential l)) "sub_app" := congrArg (property · "sub_app") h
    have h : some (Json.str _) = some (Json.str "Credential") := h
    simp [subName] at h

theorem listed_view (l : List Display) : listed (some (viewJson (.credential l))) = l.map (·.id) := by
  show List.filterMap _ (l.map displayJson) = _
  induction l with
  | nil => rfl
  | cons d l ih =>
    rw [List.map_cons, List.filterMap_cons]
    show (d.id :: _) = _
    rw [ih]; rfl

/-- A credential that is listed has details. -/
theorem detailOf_of_display {c : Credential} {d : Display} (h : displayOf c = some d) : ∃ x, detailOf c = some x ∧ x.display = d := by
  obtain ⟨f, hf, _⟩ := Option.map_eq_some_iff.mp h
  have : detailOf c = some {
      display := d
      validFrom := c.vc.validFrom
      validUntil := c.vc.validUntil
      description := f.description
      claims := (subjects c.vc).foldl (fun acc s => collect acc s.claims) [] } := by
    unfold detailOf
    rw [hf]
    dsimp only [bind, Option.bind]
    rw [h]
    rfl
  exact ⟨_, this, rfl⟩

theorem mapAll_get {α β : Type} {f : α → Option β} {l : List α} {m : List β} (hm : mapAll f l = some m) {i : Nat} {y : β} (hy : m[i]? = some y) :
    ∃ x, l[i]? = some x ∧ f x = some y := by
  induction l generalizing m i with
  | nil => cases hm; cases hy
  | cons x l ih =>
    obtain ⟨y', hx, hm⟩ := Option.bind_eq_some_iff.mp hm
    obtain ⟨m', hm', rfl⟩ := Option.map_eq_some_iff.mp hm
    cases i with
    | zero => cases hy; exact ⟨x, rfl, hx⟩
    | succ i => exact ih hm' hy

/-- The first with an id is the only one, if there is only one. -/
theorem find_id {l : List Credential} {i : Nat} {c : Credential} (h : l[i]? = some c) : ∃ c', l.find? (fun x => x.id == c.id) = some c' ∧ c' ∈ l ∧ c'.id = c.id ∧
    ((l.map (·.id)).Nodup → c' = c) := by
  cases hf : l.find? fun x => x.id == c.id with
  | none =>
    have := List.find?_eq_none.mp hf c (List.mem_of_getElem? h)
    simp at this
  | some c' =>
    have hid : c'.id = c.id := by simpa using List.find?_some hf
    refine ⟨c', rfl, List.mem_of_find?_eq_some hf, hid, fun hn => ?_⟩
    obtain ⟨j, hj⟩ := List.mem_iff_getElem?.mp (List.mem_of_find?_eq_some hf)
    have hj' : (l.map (·.id))[j]? = some c.id := by rw [List.getElem?_map, hj, Option.map_some, hid]
    have hi' : (l.map (·.id))[i]? = some c.id := by rw [List.getElem?_map, h, Option.map_some]
    have hij : j = i := (List.getElem?_inj (List.getElem?_eq_some_iff.mp hj').1 hn).mp (by rw [hj', hi'])
    rw [hij, h] at hj
    exact (Option.some.inj hj).symm

/-- What tapping a credential comes to. -/
theorem tapped (now : Int) (file : Dict Slot) (steps : List Step) {w : Wallet} (hw : w = (installed now file).run a steps)
    (hm : w.msgs = []) {inst : Nat} (hs : w.shell.screen = .credential inst .list) {v : View} (hv : view w.app = some v) :
    ∃ shown, w.shell.view = some (viewJson (.credential shown)) ∧ shown.length = w.app.credential.length ∧
      ∀ i d, shown[i]? = some d → ∃ c, w.app.credential[i]? = some c ∧ DisplayedAs c d ∧
        ∃ c' ∈ w.app.credential, c'.id = c.id ∧ ((w.app.credential.map (·.id)).Nodup → c' = c) ∧
          ∃ detail, detailOf c' = some detail ∧ w.shell.click (.choose i) = (w.shell, [{ cmd := .select c.id, by_ := inst }]) ∧
            ∀ t, serve a w.app t (.select c.id) = (.detail (some detail), w.app) := by
  have hal : Aligned w.shell := by
    rw [hw]; exact aligned_run (decent_boot (opened now file)) rfl steps
  have hfol := follows now file steps hw hm
  unfold Aligned at hal
  rw [hs] at hal
  obtain ⟨l0, hv0⟩ := hal
  rw [hv0] at hfol
  obtain ⟨v', hwatch, hj⟩ := Option.map_eq_some_iff.mp hfol.symm
  obtain ⟨shown, rfl⟩ := credential_json hj
  have happ : w.app = after a (opened now file) (history a (installed now file) steps) := by rw [hw, run_app]; rfl
  have hview : view w.app = some (.credential shown) := by
    rw [happ] at hv ⊢
    rcases watch_ok (a := a) (s := opened now file) (shown := none) (fun v h => by cases h; exact .inr ⟨rfl, rfl⟩) _ v hv with h | ⟨h, _⟩
    · rw [hwatch] at h; cases h; exact hv
    · rw [hwatch] at h; cases h
  obtain ⟨_, hmap⟩ := view_credential hview
  have hsv : w.shell.view = some (viewJson (.credential shown)) := by rw [hv0, hj]
  refine ⟨shown, hsv, ?_, fun i d hd => ?_⟩
  · have := congrArg List.length (mapAll_map (fun x y h => (displayOf_some h).1) hmap)
    simpa using this
  · obtain ⟨c, hc, hcd⟩ := mapAll_get hmap hd
    obtain ⟨c', hfind, hmem, hid, huniq⟩ := find_id hc
    obtain ⟨d', _, hd'⟩ := (mapAll_mem hmap).2 c' hmem
    obtain ⟨detail, hdet, _⟩ := detailOf_of_display hd'
    refine ⟨c, hc, displayOf_spec hcd, c', hmem, hid, huniq, detail, hdet, ?_, fun t => ?_⟩
    · unfold Shell.click
      rw [hs]
      dsimp only
      rw [hsv, listed_view, List.getElem?_map, hd, Option.map_some, Option.map_some, (displayOf_spec hcd).1]
      rfl
    · show select w.app c.id = _
      unfold select
      rw [hfind]
      dsimp only
      rw [hdet]

/-- The command that was given last is served and answered with details. -/
theorem served_last {w : Wallet} (hm : w.msgs = []) {sh : Shell} {inv : Invoke} {d : Option Detail} (h : serve a w.app t inv.cmd = (.detail d, w.app)) :
    ({ w with shell := sh, calls := w.calls ++ [inv] } : Wallet).run a [.serve w.calls.length t, .deliver] = { w with shell := sh.details inv.by_ d } := by
  have hget : (w.calls ++ [inv])[w.calls.length]? = some inv := by simp
  have htwo : ({ w with shell := sh, calls := w.calls ++ [inv] } : Wallet).step a (.serve w.calls.length t) =
      { w with shell := sh, msgs := [.detail inv.by_ d] } := by
    simp only [Wallet.step, hget, h, hm, List.nil_append, answers]
    rw [List.eraseIdx_append_of_length_le (Nat.le_refl _), Nat.sub_self]
    simp
  show (Wallet.step a _ _).step a .deliver = _
  rw [htwo]
  obtain ⟨app, sh0, calls, msgs⟩ := w
  have hm : msgs = [] := hm
  subst hm
  simp only [Wallet.step, Wallet.with, Shell.receive, List.append_nil]

/-! ### C201 -/

/-- **C201** Once everything has reached the screen and the list is there – and can be shown (C152) –, it lists the credentials in memory in their order, and whichever
the user taps, the details of a credential with the id tapped come to the screen once that is served: of the very credential, if no other one has its id. -/
theorem C201_tapped_is_opened (now : Int) (file : Dict Slot) (steps : List Step) {w : Wallet} (hw : w = (installed now file).run a steps)
    (hm : w.msgs = []) {inst : Nat} (hs : w.shell.screen = .credential inst .list) {v : View} (hv : view w.app = some v) :
    ∃ shown, w.shell.view = some (viewJson (.credential shown)) ∧ shown.length = w.app.credential.length ∧
      ∀ i d, shown[i]? = some d → ∃ c, w.app.credential[i]? = some c ∧ DisplayedAs c d ∧
        ∃ c' ∈ w.app.credential, c'.id = c.id ∧ ((w.app.credential.map (·.id)).Nodup → c' = c) ∧
          ∃ detail, detailOf c' = some detail ∧
            (w.run a [.click (.choose i), .serve w.calls.length t, .deliver]).shell.screen = .credential inst (.detail (some detail) false) ∧
            (w.run a [.click (.choose i), .serve w.calls.length t, .deliver]).app = w.app ∧
            (w.run a [.click (.choose i), .serve w.calls.length t, .deliver]).calls = w.calls := by
  obtain ⟨shown, h1, h2, h3⟩ := tapped now file steps hw hm hs hv
  refine ⟨shown, h1, h2, fun i d hd => ?_⟩
  obtain ⟨c, hc, hcd, c', hmem, hid, huniq, detail, hdet, hclick, hsel⟩ := h3 i d hd
  refine ⟨c, hc, hcd, c', hmem, hid, huniq, detail, hdet, ?_⟩
  have hrun : w.run a [.click (.choose i), .serve w.calls.length t, .deliver] = { w with shell := w.shell.details inst (some detail) } := by
    have hone : w.step a (.click (.choose i)) = { w with shell := w.shell, calls := w.calls ++ [{ cmd := .select c.id, by_ := inst }] } := by
      show w.with (w.shell.click _) = _
      rw [hclick]; rfl
    show (w.step a (.click (.choose i))).run a [.serve w.calls.length t, .deliver] = _
    rw [hone]
    exact served_last hm (hsel t)
  rw [hrun]
  refine ⟨?_, rfl, rfl⟩
  show (w.shell.details inst (some detail)).screen = _
  unfold Shell.details
  rw [hs]
  dsimp only
  rw [if_pos rfl]

/-- **C201** But the details come when they come: a user who taps a credential, then opens the form for an offer and fills it in, loses it all when the answer arrives. -/
theorem C201_violated_form_lost (now : Int) (file : Dict Slot) (steps : List Step) {w : Wallet} (hw : w = (installed now file).run a steps)
    (hm : w.msgs = []) {inst : Nat} (hs : w.shell.screen = .credential inst .list) {v : View} (hv : view w.app = some v) (hne : w.app.credential ≠ [])
    (x : List Char) :
    (∃ n text err, (w.run a [.click (.choose 0), .click .add, .click (.enter x)]).shell.screen = .credential inst (.add n text err)) ∧
    ∃ detail, (w.run a [.click (.choose 0), .click .add, .click (.enter x), .serve w.calls.length t, .deliver]).shell.screen =
      .credential inst (.detail (some detail) false) := by
  obtain ⟨shown, h1, h2, h3⟩ := tapped now file steps hw hm hs hv
  obtain ⟨d, hd⟩ : ∃ d, shown[0]? = some d := by
    cases shown with
    | nil => exact absurd (List.length_eq_zero_iff.mp h2.symm) hne
    | cons d l => exact ⟨d, rfl⟩
  obtain ⟨c, hc, hcd, c', hmem, hid, huniq, detail, hdet, hclick, hsel⟩ := h3 0 d hd
  have hrun : ∃ sh n text err, sh.screen = .credential inst (.add n text err) ∧ w.run a [.click (.choose 0), .click .add, .click (.enter x)] =
      { w with shell := sh, calls := w.calls ++ [{ cmd := .select c.id, by_ := inst }] } := by
    have hone : w.step a (.click (.choose 0)) = { w with calls := w.calls ++ [{ cmd := .select c.id, by_ := inst }] } := by
      show w.with (w.shell.click _) = _
      rw [hclick]; rfl
    have hadd : w.shell.click .add =
        ({ w.shell with screen := .credential inst (.add w.shell.mounts [] false), header := formHeader inst, mounts := w.shell.mounts + 1 }, []) := by
      unfold Shell.click
      rw [hs]
    refine ⟨{ w.shell with
      screen := .credential inst (.add w.shell.mounts (trim (fitting maxLength x)) (trim (fitting maxLength x)).isEmpty)
      header := formHeader inst
      mounts := w.shell.mounts + 1 }, _, _, _, rfl, ?_⟩
    show ((w.step a (.click (.choose 0))).step a (.click .add)).step a (.click (.enter x)) = _
    rw [hone]
    have htwo : ({ w with calls := w.calls ++ [{ cmd := .select c.id, by_ := inst }] } : Wallet).step a (.click .add) =
        { w with
          shell := { w.shell with screen := .credential inst (.add w.shell.mounts [] false), header := formHeader inst, mounts := w.shell.mounts + 1 }
          calls := w.calls ++ [{ cmd := .select c.id, by_ := inst }] } := by
      show Wallet.with _ (w.shell.click .add) = _
      rw [hadd]
      simp only [Wallet.with, List.append_nil]
    rw [htwo]
    simp only [Wallet.step, Wallet.with, Shell.click, List.append_nil]
  obtain ⟨sh, n, text, err, hsh, hrun⟩ := hrun
  refine ⟨⟨n, text, err, by rw [hrun]; exact hsh⟩, detail, ?_⟩
  have : w.run a [.click (.choose 0), .click .add, .click (.enter x), .serve w.calls.length t, .deliver] = { w with shell := sh.details inst (some detail) } := by
    rw [show ([.click (.choose 0), .click .add, .click (.enter x), .serve w.calls.length t, .deliver] : List Step) =
      [.click (.choose 0), .click .add, .click (.enter x)] ++ [.serve w.calls.length t, .deliver] from rfl, Wallet.run_append, hrun]
    exact served_last hm (hsel t)
  rw [this]
  show (sh.details inst (some detail)).screen = _
  unfold Shell.details
  rw [hsh]
  dsimp only
  rw [if_pos rfl]

end Verif.App
