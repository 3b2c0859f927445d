import Verif.App.Calls
/-!
# The list of credentials, and that nothing is pending while it is shown
-/
namespace Verif.App
open Holder (Credential HEnv HWorld Req Resp PStatus Event Call Entry Issuance Presentation HVal Inv HProg)

/-- Every credential is stored under its own id. -/
def Keyed (m : Dict Slot) : Prop := ∀ x ∈ m, ∀ c, x.2 = .credential c → c.id = x.1

/-- So is every one that the file has or had. -/
structure KeyedFiles (f : Files) : Prop where
  store : Keyed f.store
  disk : Keyed f.disk
  past : ∀ d ∈ f.past, Keyed d

theorem keyed_erase {m : Dict Slot} (h : Keyed m) (id : String) : Keyed (erase m id) := fun x hx => h x (List.mem_filter.mp hx).1

theorem keyed_insert {m : Dict Slot} (h : Keyed m) (c : Credential) : Keyed (m.insert c.id (.credential c)) := by
  intro x hx d hd
  rcases Dict.mem_insert hx with rfl | hx
  · cases hd; rfl
  · exact h x hx d hd

theorem keyed_write {a : Around} {f : Files} (h : KeyedFiles f) : KeyedFiles (f.write a) where
  store := h.store
  disk := by
    show Keyed (if _ then _ else _)
    split
    · exact h.store
    · exact h.disk
  past d hd := by
    rcases List.mem_append.mp hd with hd | hd
    · exact h.past d hd
    · simp at hd; subst hd; exact h.disk

theorem keyed_save {a : Around} {f : Files} (h : KeyedFiles f) (c : Credential) : KeyedFiles (f.save a c) :=
  keyed_write ⟨keyed_insert h.store c, h.disk, h.past⟩

theorem keyed_after {a : Around} {f : Files} (h : KeyedFiles f) (l : List Event) : KeyedFiles (f.after a l) := by
  rw [after_saves]
  generalize savedIn l = cs
  induction cs generalizing f with
  | nil => exact h
  | cons c cs ih => exact ih (keyed_save h c)

theorem keyed_remove {a : Around} {f : Files} (h : KeyedFiles f) (id : String) : KeyedFiles (f.remove a id).2 := by
  unfold Files.remove
  split
  · exact keyed_write ⟨keyed_erase h.store id, h.disk, h.past⟩
  · exact h

theorem keyed_backTo {f : Files} (h : KeyedFiles f) (k : Nat) : KeyedFiles (f.backTo k) := by
  have hd : Keyed (f.past[k]?.getD f.disk) := by
    cases hk : f.past[k]? with
    | none => exact h.disk
    | some d => exact h.past d (List.mem_of_getElem? hk)
  exact ⟨hd, hd, fun d hd => h.past d (List.mem_of_mem_take hd)⟩

theorem readAll_erase {m : Dict Slot} (h : Keyed m) {l : List Credential} (hl : readAll m = some l) (id : String) :
    readAll (erase m id) = some (l.filter fun c => c.id != id) := by
  induction m generalizing l with
  | nil => cases hl; rfl
  | cons x m ih =>
    obtain ⟨k, v⟩ := x
    have hm : Keyed m := fun x hx => h x (List.mem_cons_of_mem _ hx)
    cases v with
    | junk => cases hl
    | credential c =>
      have hc : c.id = k := h (k, .credential c) (by simp) c rfl
      simp only [readAll] at hl
      obtain ⟨r, hr, rfl⟩ := Option.map_eq_some_iff.mp hl
      have ih := ih hm hr
      subst hc
      unfold erase at ih ⊢
      rw [List.filter_cons, List.filter_cons]
      by_cases hk : (c.id != id) = true
      · rw [if_pos hk, if_pos hk]
        simp only [readAll, ih, Option.map_some]
      · rw [if_neg hk, if_neg hk]
        exact ih

/-! ### The invariant -/

/-- No flow of the application is under way. -/
def Resting (s : App) : Prop := s.sub = .splash ∨ s.sub = .credential

/-- What holds of the application at any time. -/
structure Ok (a : Around) (s : App) : Prop where
  sound : Sound a s
  keyed : KeyedFiles s.files
  idle : Resting s → s.issuance = {} ∧ s.presentation = {}
  listed : s.sub = .credential → ∃ l, readAll s.files.store = some l ∧ l.Sublist s.credential ∧ ((∀ n, a.disk n = true) → l = s.credential)

/-- Random values differ from each other and are never empty. -/
structure Draws (a : Around) : Prop where
  fresh : a.env.Fresh
  nonempty : ∀ n, a.env.rng n ≠ ""

variable {a : Around} {s : App} {t : Nat}

theorem no_flow (hd : Draws a) (h : Sound a s) : s.world.store "" = none := by
  cases hs : s.world.store "" with
  | none => rfl
  | some v =>
    obtain ⟨n, _, hn⟩ := h.key _ _ hs
    exact absurd hn.symm (hd.nonempty n)

theorem ok_lib (hd : Draws a) (h : Ok a s) {r : Req} (hr : Used r) (hs : ∀ id, r ≠ .save id) : Ok a (lib a s t r).2 := by
  have hf := lib_files (t := t) h.sound hr hs
  refine ⟨sound_lib hd.fresh h.sound t r, ?_, h.idle, ?_⟩
  · rw [hf]; exact h.keyed
  · rw [hf]; exact h.listed

theorem ok_save (hd : Draws a) (h : Ok a s) (hs : s.sub ≠ .credential) (id : String) : Ok a (lib a s t (.save id)).2 :=
  ⟨sound_lib hd.fresh h.sound t _, keyed_after h.keyed _, h.idle, fun hc => absurd hc hs⟩

theorem ok_andThen {x : Done × App} {k : Resp → App → Out × App} (h : Ok a x.2) (hk : ∀ resp, x.1 = .ok resp → Ok a (k resp x.2).2) : Ok a (andThen x k).2 := by
  unfold andThen
  split
  · exact hk _ (by assumption)
  · exact h
  · exact h

theorem ok_reset (h : Ok a s) : Ok a (reset a s).2 := by
  unfold reset
  split
  · exact ⟨h.sound, h.keyed, h.idle, h.listed⟩
  · rename_i l hl
    rw [finish_state]
    exact ⟨h.sound, h.keyed, fun _ => ⟨rfl, rfl⟩, fun _ => ⟨l, hl, List.Sublist.refl _, fun _ => rfl⟩⟩

theorem ok_issuance (h : Ok a s) (i : IssuanceState) : Ok a { s with issuance := i, sub := .issuance } :=
  ⟨h.sound, h.keyed, (fun h => by rcases h with h | h <;> cases h), (fun h => by cases h)⟩

theorem ok_presentation (h : Ok a s) (p : PresentationState) : Ok a { s with presentation := p, sub := .presentation } :=
  ⟨h.sound, h.keyed, (fun h => by rcases h with h | h <;> cases h), (fun h => by cases h)⟩

theorem ok_offer (hd : Draws a) (h : Ok a s) (u : String) : Ok a (offer a s t u).2 := by
  unfold offer
  split
  · exact h
  · refine ok_andThen (ok_lib hd h rfl (fun _ h => nomatch h)) fun resp _ => ?_
    have h' := ok_lib (t := t) hd h (r := .offer ⟨"wallet", "normal_user", ‹_›⟩) rfl (fun _ h => nomatch h)
    split
    · rw [finish_state]; exact ok_issuance h' _
    · exact h'

theorem ok_request (hd : Draws a) (h : Ok a s) (u : String) : Ok a (request a s t u).2 := by
  unfold request
  have h' := ok_lib (t := t) hd h (r := .request u) trivial (fun _ h => nomatch h)
  refine ok_andThen h' fun resp _ => ?_
  split
  · rw [finish_state]; exact ok_presentation h' _
  · exact h'

/-- An endpoint that did something about the flow of the application had one to do it to. -/
theorem busy (hd : Draws a) (h : Ok a s) {r : Req} {resp : Resp} (hk : about r = some s.issuance.id ∨ about r = some s.presentation.id)
    (hr : (lib a s t r).1 = .ok resp) : ¬ Resting s := by
  intro hrest
  obtain ⟨h1, h2⟩ := h.idle hrest
  have hk : about r = some "" := by
    rcases hk with hk | hk
    · rw [hk, h1]
    · rw [hk, h2]
  have := (lib_absent (a := a) (t := t) hk (no_flow hd h.sound)).1
  rw [hr] at this
  cases this

theorem ok_delete (h : Ok a s) (id : String) : Ok a (delete a s id).2 := by
  simp only [delete]
  have hk := keyed_remove (a := a) h.keyed id
  by_cases hx : (s.files.remove a id).1 = true
  · rw [if_pos hx, finish_state]
    refine ⟨h.sound, hk, h.idle, fun hc => ?_⟩
    obtain ⟨l, hl, hsub, heq⟩ := h.listed hc
    have hs : (s.files.remove a id).2.store = erase s.files.store id := by
      unfold Files.remove at hx ⊢
      split
      · rfl
      · rename_i hn; rw [if_neg hn] at hx; cases hx
    refine ⟨l.filter fun c => c.id != id, ?_, hsub.filter _, fun hd => by rw [heq hd]⟩
    show readAll (s.files.remove a id).2.store = _
    rw [hs]
    exact readAll_erase h.keyed.store hl id
  · rw [if_neg hx]
    refine ⟨h.sound, hk, h.idle, fun hc => ?_⟩
    obtain ⟨l, hl, hsub, heq⟩ := h.listed hc
    show ∃ l', readAll (s.files.remove a id).2.store = _ ∧ _
    unfold Files.remove at hx ⊢
    split
    · rename_i hh
      rw [if_pos hh] at hx
      refine ⟨l.filter fun c => c.id != id, readAll_erase h.keyed.store hl id, List.filter_sublist.trans hsub, fun hd => absurd (hd _) hx⟩
    · exact ⟨l, hl, hsub, heq⟩

theorem ok_restart (h : Ok a s) (f : Files) (hf : KeyedFiles f) : Ok a (restart { s with files := f }) :=
  ⟨sound_restart (s := { s with files := f }) h.sound, ⟨hf.disk, hf.disk, hf.past⟩, (fun _ => ⟨rfl, rfl⟩), (fun h => by cases h)⟩

theorem ok_serve (hd : Draws a) (h : Ok a s) (c : Cmd) : Ok a (serve a s t c).2 := by
  induction c with
  | start => show Ok a (finish s).2; rw [finish_state]; exact h
  | reset => exact ok_reset h
  | select id =>
    show Ok a (select s id).2
    unfold select
    split
    · exact h
    · split <;> exact h
  | delete id => exact ok_delete h id
  | offer u => exact ok_offer hd h u
  | accept =>
    have h' := ok_lib (t := t) hd h (r := .accept ⟨s.issuance.id, none⟩) trivial (fun _ h => nomatch h)
    exact ok_andThen h' fun _ _ => by rw [finish_state]; exact h'
  | pin p =>
    have h' := ok_lib (t := t) hd h (r := .pin ⟨s.issuance.id, p⟩) trivial (fun _ h => nomatch h)
    refine ok_andThen h' fun resp hr => ?_
    have hb := busy hd h (.inl rfl) hr
    rw [finish_state]
    exact ⟨h'.sound, h'.keyed, fun hrest => absurd hrest hb, h'.listed⟩
  | credentials =>
    have h1 := ok_lib (t := t) hd h (r := .token s.issuance.id) trivial (fun _ h => nomatch h)
    refine ok_andThen h1 fun resp hr => ?_
    have hb := busy hd h (.inl rfl) hr
    have h2 := ok_lib (t := 0) hd h1 (r := .credentials ⟨(lib a s t (.token s.issuance.id)).2.issuance.id, none, none⟩) trivial (fun _ h => nomatch h)
    refine ok_andThen h2 fun resp _ => ?_
    have h3 := ok_save (t := 0) hd h2 (fun hc => hb (.inr hc)) s.issuance.id
    exact ok_andThen h3 fun resp _ => ok_reset h3
  | request u => exact ok_request hd h u
  | authorize =>
    have h' := ok_lib (t := t) hd h (r := .authorizePresentation s.presentation.id) trivial (fun _ h => nomatch h)
    refine ok_andThen h' fun resp hr => ?_
    have hb := busy hd h (.inr rfl) hr
    split
    · rw [finish_state]
      exact ⟨h'.sound, h'.keyed, fun hrest => absurd hrest hb, h'.listed⟩
    · exact h'
  | present =>
    have h' := ok_lib (t := t) hd h (r := .present s.presentation.id) trivial (fun _ h => nomatch h)
    exact ok_andThen h' fun _ _ => ok_reset h'
  | link u =>
    show Ok a (link a s t u).2
    unfold link
    split
    · rw [logged_state]; exact ok_offer hd h _
    · split
      · rw [logged_state]; exact ok_request hd h _
      · exact h
  | restart => exact ok_restart h s.files h.keyed
  | autosave => exact ⟨h.sound, keyed_write h.keyed, h.idle, h.listed⟩
  | crash n c ih => exact ok_restart ih _ (keyed_backTo ih.keyed _)

theorem ok_opened (a : Around) (now : Int) {file : Dict Slot} (h : Keyed file) : Ok a (opened now file) :=
  ⟨sound_opened a now file, ⟨h, h, (fun _ h => nomatch h)⟩, (fun _ => ⟨rfl, rfl⟩), (fun h => by cases h)⟩

theorem ok_after (hd : Draws a) (h : Ok a s) (l : List (Nat × Cmd)) : Ok a (after a s l) := by
  induction l generalizing s with
  | nil => exact h
  | cons x l ih => exact ih (ok_serve hd h x.2)

end Verif.App
