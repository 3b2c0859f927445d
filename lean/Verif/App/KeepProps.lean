import Verif.App.ListProps
/-!
# Stored credentials outlive the application; the list needs a display for each (C151, C152)
-/
namespace Verif.App
open Holder (Credential HEnv HWorld Req Resp PStatus Event Call Entry Issuance Presentation HVal Inv HProg)

variable {a : Around} {s : App} {t : Nat}

/-- Under this id there is this, in memory and in the file. -/
def IsStored (id : String) (x : Option Slot) (s : App) : Prop := s.files.store.get? id = x ∧ s.files.disk.get? id = x

/-- **C151** A credential that is stored stays stored, through any commands, failed writes, restarts and crashes at any point of any command, until it is
deleted or another one is saved under its id. -/
theorem C151_stored_stays {id : String} {x : Slot} (h : IsStored id (some x) s) (l : List (Nat × Cmd)) (hl : ∀ c ∈ l, ¬ Deletes id c.2) :
    ∃ new, (after a s l).world.log = s.world.log ++ new ∧ (NotSaved id new → IsStored id (some x) (after a s l)) :=
  after_holds (P := (· = some x)) l (fun c hc hd => absurd hd (hl c hc)) h

/-- **C151** A credential that is gone stays gone, unless another one is saved under its id. -/
theorem C151_gone_stays_gone {id : String} (h : IsStored id none s) (l : List (Nat × Cmd)) :
    ∃ new, (after a s l).world.log = s.world.log ++ new ∧ (NotSaved id new → IsStored id none (after a s l)) :=
  after_holds (P := (· = none)) l (fun _ _ _ => rfl) h

/-- **C151** A deletion that is reported to have worked has worked: the credential was there, and is neither in memory nor in the file any more. -/
theorem C151_deleted {id : String} {v : View} (h : (serve a s t (.delete id)).1 = .view v) :
    s.files.store.has id = true ∧ IsStored id none (serve a s t (.delete id)).2 := by
  show _ ∧ (serve a s t (.delete id)).2.files.store.get? id = none ∧ _
  have hf : (serve a s t (.delete id)).2.files = (s.files.remove a id).2 := delete_files a s id
  have h : (delete a s id).1 = .view v := h
  simp only [delete] at h
  split at h
  · rename_i hr
    rw [hf]
    unfold Files.remove at hr ⊢
    split at hr
    · rename_i hh
      rw [if_pos hh]
      have hr : a.disk s.files.past.length = true := hr
      have : (erase s.files.store id).get? id = none := by rw [get?_erase, if_pos rfl]
      show _ ∧ _ ∧ Dict.get? (if a.disk s.files.past.length = true then _ else _) id = none
      rw [if_pos hr]
      exact ⟨hh, this, this⟩
    · cases hr
  · cases h

theorem savedIn_savesOf (l : List Credential) : savedIn (Holder.savesOf l) = l := by
  induction l with
  | nil => rfl
  | cons c l ih =>
    show c :: savedIn (Holder.savesOf l) = _
    rw [ih]

/-- What is stored after saving several credentials, the last one written. -/
theorem get_saves {f : Files} {l : List Credential} {c : Credential} (hc : c ∈ l) :
    ∃ d ∈ l, d.id = c.id ∧ (l.foldl (Files.save a) f).store.get? c.id = some (.credential d) := by
  have keep : ∀ (l : List Credential) (f : Files) (d : Credential), f.store.get? c.id = some (.credential d) → d.id = c.id →
      ∃ e, (e = d ∨ e ∈ l) ∧ e.id = c.id ∧ (l.foldl (Files.save a) f).store.get? c.id = some (.credential e) := by
    intro l
    induction l with
    | nil => intro f d h hd; exact ⟨d, .inl rfl, hd, h⟩
    | cons x l ih =>
      intro f d h hd
      by_cases hx : c.id = x.id
      · obtain ⟨e, he, h1, h2⟩ := ih (f.save a x) x (by show (f.store.insert _ _).get? _ = _; rw [Dict.get?_insert, if_pos hx]) hx.symm
        exact ⟨e, .inr (he.elim (fun h => by simp [h]) (List.mem_cons_of_mem _)), h1, h2⟩
      · obtain ⟨e, he, h1, h2⟩ := ih (f.save a x) d (by show (f.store.insert _ _).get? _ = _; rw [Dict.get?_insert, if_neg hx]; exact h) hd
        exact ⟨e, he.imp_right (List.mem_cons_of_mem _), h1, h2⟩
  induction l generalizing f with
  | nil => cases hc
  | cons x l ih =>
    rcases List.mem_cons.mp hc with rfl | hc
    · obtain ⟨e, he, h1, h2⟩ := keep l (f.save a c) c (by show (f.store.insert _ _).get? _ = _; rw [Dict.get?_insert, if_pos rfl]) rfl
      exact ⟨e, by rcases he with rfl | he <;> simp [*], h1, h2⟩
    · obtain ⟨e, he, h1, h2⟩ := ih (f := f.save a x) hc
      exact ⟨e, List.mem_cons_of_mem _ he, h1, h2⟩

/-- If every save was answered, the file is as the memory. -/
theorem saved_synced {f : Files} {l : List Credential} (hne : l ≠ [])
    (h : ∀ pre c post, l = pre ++ c :: post → a.disk (pre.foldl (Files.save a) f).past.length = true) :
    (l.foldl (Files.save a) f).disk = (l.foldl (Files.save a) f).store := by
  obtain ⟨init, last, rfl⟩ : ∃ init last, l = init ++ [last] := ⟨l.dropLast, l.getLast hne, (List.dropLast_concat_getLast hne).symm⟩
  have := h init last [] rfl
  rw [List.foldl_append]
  simp only [List.foldl_cons, List.foldl_nil]
  show (Files.write a _).disk = (Files.write a _).store
  simp only [Files.write]
  rw [if_pos this]

theorem reset_files (a : Around) (s : App) : (reset a s).2.files = s.files := by
  unfold reset
  split
  · rfl
  · rw [finish_state]

theorem reset_log (a : Around) (s : App) : (reset a s).2.world = s.world := by
  unfold reset
  split
  · rfl
  · rw [finish_state]

/-- **C151** When the application has collected credentials and shows its list, each of them is stored, in memory and in the file. -/
theorem C151_collected_are_stored (hd : Draws a) {now : Int} {file : Dict Slot} (l : List (Nat × Cmd)) {s : App} (hs : s = after a (opened now file) l) {v : View}
    (h : (serve a s t .credentials).1 = .view v) :
    ∃ before en, (serve a s t .credentials).2.world.log = before ++ [en] ∧ en.req = .save s.issuance.id ∧
      ∀ ev ∈ en.events, ∃ c, ev.call = .save c ∧ ∃ d, d.id = c.id ∧ (∃ ev' ∈ en.events, ev'.call = .save d) ∧
        IsStored c.id (some (.credential d)) (serve a s t .credentials).2 := by
  have h0 : Sound a s := by rw [hs]; exact sound_after hd.fresh (sound_opened a now file) l
  obtain ⟨r1, _, h, e1⟩ := andThen_view (x := lib a s t (.token s.issuance.id)) h
  obtain ⟨r2, _, h, e2⟩ := andThen_view h
  obtain ⟨r3, ok3, h, e3⟩ := andThen_view h
  have e : (serve a s t .credentials).2 = _ := e1.trans (e2.trans e3)
  have s1 := sound_lib hd.fresh h0 t (.token s.issuance.id)
  have s2 := sound_lib hd.fresh s1 0 (.credentials ⟨(lib a s t (.token s.issuance.id)).2.issuance.id, none, none⟩)
  generalize hS : (lib a (lib a s t (.token s.issuance.id)).2 0 (.credentials ⟨(lib a s t (.token s.issuance.id)).2.issuance.id, none, none⟩)).2 = S at *
  have hid : S.issuance.id = s.issuance.id := by rw [← hS]; rfl
  obtain ⟨x, hx, _⟩ := lib_log a S 0 (.save S.issuance.id)
  have hno : ∀ i, S.world.store S.issuance.id = some (.issuance i) → i.notificationId = none := fun i hi => Holder.FlowInv.note (s2.val _ _ hi)
  obtain ⟨⟨y, w⟩, hrun⟩ : ∃ y, (Holder.serve a.provider (.save S.issuance.id)).run (connected a S.files) { S.world with now := S.world.now + (0 : Nat), recent := [] } = y := ⟨_, rfl⟩
  have hy := lib_ok ok3
  have hm : made a S 0 (.save S.issuance.id) = w.recent := by unfold made; rw [hrun]
  rw [hrun] at hy
  have hy : y = .ok r3 := hy
  obtain ⟨evs, ws, hE, _, h1⟩ := Holder.save_did (w := { S.world with now := S.world.now + (0 : Nat), recent := [] }) hno hrun
  have hrec : w.recent = evs := hE.recent
  rw [hrec] at hm
  have hfail : ¬ Holder.Fails y := by rintro ⟨e, h, _⟩; rw [hy] at h; cases h
  rw [e]
  have hlog : (reset a (lib a S 0 (.save S.issuance.id)).2).2.world = (lib a S 0 (.save S.issuance.id)).2.world := reset_log a _
  have hfiles : (reset a (lib a S 0 (.save S.issuance.id)).2).2.files = S.files.after a evs := by rw [reset_files, ← hm]; rfl
  refine ⟨S.world.log, _, by rw [hlog]; exact hx, by rw [← hid], ?_⟩
  rcases h1 with ⟨hf, _⟩ | ⟨i, _, ⟨_, _, _, hf, _⟩ | ⟨hev, _⟩⟩
  · exact absurd hf hfail
  · exact absurd hf hfail
  · show ∀ ev ∈ made a S 0 (.save S.issuance.id), _
    rw [hm]
    intro ev hmem
    have hsav : S.files.after a evs = i.credentials.foldl (Files.save a) S.files := by rw [after_saves, hev, savedIn_savesOf]
    have hc : ∃ c ∈ i.credentials, ev = ⟨.save c, some ()⟩ := by
      rw [hev] at hmem
      obtain ⟨c, h1, h2⟩ := List.mem_map.mp hmem
      exact ⟨c, h1, h2.symm⟩
    obtain ⟨c, hcm, rfl⟩ := hc
    refine ⟨c, rfl, ?_⟩
    obtain ⟨d, hdm, hdid, hget⟩ := get_saves (a := a) (f := S.files) hcm
    have hsync := saved_synced (a := a) (f := S.files) (l := i.credentials) (by rintro he; rw [he] at hcm; cases hcm) (by
      intro pre c post hl
      have := hE.answers (Holder.savesOf pre) ⟨.save c, some ()⟩ (Holder.savesOf post) (by rw [hev, hl]; simp [Holder.savesOf])
      have this : some () = (connected a S.files).oracle S.world.log (Holder.savesOf pre) (.save c) := this
      simp only [connected] at this
      rw [after_saves, savedIn_savesOf] at this
      split at this
      · assumption
      · cases this)
    refine ⟨d, hdid, ⟨⟨.save d, some ()⟩, ?_, rfl⟩, ?_⟩
    · show _ ∈ evs
      rw [hev]
      exact List.mem_map.mpr ⟨d, hdm, rfl⟩
    · unfold IsStored
      rw [hfiles, hsav, hsync]
      exact ⟨hget, hget⟩

/-! ### C152 -/

/-- A credential that can be listed: one that can be read and that has a display. -/
def Listable : Slot → Prop
  | .credential c => ∃ d l, c.display = some (d :: l)
  | .junk => False

theorem displayOf_none {c : Credential} : displayOf c = none ↔ ¬ Listable (.credential c) := by
  unfold displayOf firstDisplay Listable
  cases hd : c.display with
  | none => simp [hd]
  | some l => cases l <;> simp [hd]

/-- **C152** Going back to the list shows it exactly if every credential in the store can be listed; otherwise the application panics. -/
theorem C152_list_shown_iff (a : Around) (s : App) (t : Nat) :
    ((∃ l, (serve a s t .reset).1 = .view (.credential l)) ↔ ∀ x ∈ s.files.store, Listable x.2) ∧
    ((serve a s t .reset).1 = .panicked ↔ ∃ x ∈ s.files.store, ¬ Listable x.2) := by
  have hl : ∀ m : Dict Slot, ((readAll m).bind (mapAll displayOf) = none ↔ ∃ x ∈ m, ¬ Listable x.2) := by
    intro m
    induction m with
    | nil => simp [readAll, mapAll]
    | cons x m ih =>
      obtain ⟨k, v⟩ := x
      cases v with
      | junk => simp [readAll, Listable]
      | credential c =>
        simp only [List.mem_cons, exists_eq_or_imp]
        rw [← ih, ← displayOf_none]
        simp only [readAll]
        cases readAll m with
        | none => simp
        | some r =>
          simp only [Option.map_some, Option.bind_some, mapAll]
          cases displayOf c with
          | none => simp
          | some d => simp
  have hout : (serve a s t .reset).1 = match (readAll s.files.store).bind (mapAll displayOf) with
      | some l => .view (.credential l)
      | none => .panicked := by
    show (reset a s).1 = _
    unfold reset
    show (match readAll s.files.store with | none => _ | some l => _ : Out × App).1 = _
    cases readAll s.files.store with
    | none => rfl
    | some r =>
      simp only [finish, view, Option.bind_some]
      cases mapAll displayOf r <;> rfl
  have h := hl s.files.store
  rw [hout]
  cases hb : (readAll s.files.store).bind (mapAll displayOf) with
  | none =>
    rw [hb] at h
    have h := h.mp rfl
    refine ⟨⟨(by rintro ⟨l, hl⟩; cases hl), fun hall => ?_⟩, ⟨fun _ => h, fun _ => rfl⟩⟩
    obtain ⟨x, hx, hn⟩ := h
    exact absurd (hall x hx) hn
  | some l =>
    rw [hb] at h
    have h : ¬ ∃ x ∈ s.files.store, ¬ Listable x.2 := fun hh => by have := h.mpr hh; cases this
    refine ⟨⟨fun _ x hx => ?_, fun _ => ⟨l, rfl⟩⟩, ⟨(fun h => by cases h), fun hh => absurd hh h⟩⟩
    exact Classical.byContradiction fun hn => h ⟨x, hx, hn⟩

/-- **C152** One credential that cannot be listed – one whose configuration has no display, say – and the list is never shown again, whatever is done, unless
that credential is deleted by its id or replaced. -/
theorem C152_violated_never_again {id : String} {x : Slot} (h : IsStored id (some x) s) (hx : ¬ Listable x) (l : List (Nat × Cmd))
    (hl : ∀ c ∈ l, ¬ Deletes id c.2) :
    ∃ new, (after a s l).world.log = s.world.log ++ new ∧ (NotSaved id new → (serve a (after a s l) t .reset).1 = .panicked) := by
  obtain ⟨new, h1, h2⟩ := C151_stored_stays (a := a) h l hl
  exact ⟨new, h1, fun hn => ((C152_list_shown_iff a _ t).2).mpr ⟨(id, x), Dict.mem_of_get? (h2 hn).1, hx⟩⟩

end Verif.App
