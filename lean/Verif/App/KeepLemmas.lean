import Verif.App.ListLemmas
/-!
# What stays in the credentials' store
-/
namespace Verif.App
open Holder (Credential HEnv HWorld Req Resp PStatus Event Call Entry Issuance Presentation HVal Inv HProg)

/-- In memory and in the file. -/
def Both (P : Option Slot → Prop) (id : String) (f : Files) : Prop := P (f.store.get? id) ∧ P (f.disk.get? id)

/-- And in the file at any time since it was written `n` times. -/
structure Held (P : Option Slot → Prop) (id : String) (n : Nat) (f : Files) : Prop where
  now : Both P id f
  then_ : ∀ k d, n ≤ k → f.past[k]? = some d → P (d.get? id)

variable {P : Option Slot → Prop} {id : String} {n : Nat} {f : Files} {a : Around}

theorem held_of_both (h : Both P id f) : Held P id f.past.length f :=
  ⟨h, fun k d hk hd => by rw [List.getElem?_eq_none hk] at hd; cases hd⟩

theorem held_write (h : Held P id n f) : Held P id n (f.write a) := by
  refine ⟨⟨h.now.1, ?_⟩, ?_⟩
  · show P (Dict.get? (if _ then _ else _) id)
    split
    · exact h.now.1
    · exact h.now.2
  · intro k d hk hd
    have hd : (f.past ++ [f.disk])[k]? = some d := hd
    by_cases hl : k < f.past.length
    · rw [List.getElem?_append_left hl] at hd
      exact h.then_ k d hk hd
    · rw [List.getElem?_append_right (Nat.not_lt.mp hl)] at hd
      cases hm : k - f.past.length with
      | zero => rw [hm] at hd; cases hd; exact h.now.2
      | succ m => rw [hm] at hd; cases hd

theorem held_store (h : Held P id n f) {m : Dict Slot} (hm : P (m.get? id)) : Held P id n { f with store := m } := ⟨⟨hm, h.now.2⟩, h.then_⟩

theorem held_save (h : Held P id n f) {c : Credential} (hc : c.id ≠ id) : Held P id n (f.save a c) :=
  held_write (held_store h (by rw [Dict.get?_insert, if_neg (Ne.symm hc)]; exact h.now.1))

theorem held_saves (h : Held P id n f) {l : List Credential} (hl : ∀ c ∈ l, c.id ≠ id) : Held P id n (l.foldl (Files.save a) f) := by
  induction l generalizing f with
  | nil => exact h
  | cons c l ih => exact ih (held_save h (hl c (by simp))) fun c hc => hl c (List.mem_cons_of_mem _ hc)

theorem get?_erase (m : Dict Slot) (k id : String) : (erase m k).get? id = if id = k then none else m.get? id := by
  induction m with
  | nil => simp [erase, Dict.get?]
  | cons x m ih =>
    obtain ⟨j, v⟩ := x
    unfold erase at ih ⊢
    rw [List.filter_cons]
    by_cases hj : j = k
    · subst hj
      simp only [bne_self_eq_false, Bool.false_eq_true, if_false]
      rw [ih]
      by_cases hi : id = j
      · rw [if_pos hi, if_pos hi]
      · rw [if_neg hi, if_neg hi]
        simp only [Dict.get?]
        rw [if_neg (Ne.symm hi)]
    · rw [if_pos (by simpa using hj)]
      simp only [Dict.get?]
      by_cases hi : j = id
      · subst hi
        rw [if_pos rfl, if_neg hj, if_pos rfl]
      · rw [if_neg hi, if_neg hi]
        exact ih

theorem held_remove (h : Held P id n f) {k : String} (hk : k = id → P none) : Held P id n (f.remove a k).2 := by
  unfold Files.remove
  split
  · refine held_write (held_store h ?_)
    rw [get?_erase]
    split
    · rename_i e; exact hk e.symm
    · exact h.now.1
  · exact h

theorem held_backTo (h : Held P id n f) {k : Nat} (hk : n ≤ k) : Held P id n (f.backTo k) := by
  have : P ((f.past[k]?.getD f.disk).get? id) := by
    cases hd : f.past[k]? with
    | none => exact h.now.2
    | some d => exact h.then_ k d hk hd
  refine ⟨⟨this, this⟩, fun j d hj hd => ?_⟩
  have hd : (f.past.take k)[j]? = some d := hd
  rw [List.getElem?_take] at hd
  split at hd
  · exact h.then_ j d hj hd
  · cases hd

/-- In these entries nothing was saved under this id. -/
def NotSaved (id : String) (l : List Entry) : Prop := ∀ en ∈ l, ∀ ev ∈ en.events, ∀ c, ev.call = .save c → c.id ≠ id

theorem NotSaved.left {l m : List Entry} (h : NotSaved id (l ++ m)) : NotSaved id l := fun en he => h en (List.mem_append_left _ he)
theorem NotSaved.right {l m : List Entry} (h : NotSaved id (l ++ m)) : NotSaved id m := fun en he => h en (List.mem_append_right _ he)

/-- From one state to another nothing is lost, unless something was saved in its place. -/
def Carries (P : Option Slot → Prop) (id : String) (n : Nat) (s s' : App) : Prop :=
  ∃ new, s'.world.log = s.world.log ++ new ∧ (NotSaved id new → Held P id n s.files → Held P id n s'.files)

theorem carries_refl (s : App) : Carries P id n s s := ⟨[], by simp, fun _ h => h⟩

theorem carries_lib {s s' : App} (h : Carries P id n s s') (t : Nat) (r : Req) : Carries P id n s (lib a s' t r).2 := by
  obtain ⟨new, hl, hh⟩ := h
  obtain ⟨x, hx, _⟩ := lib_log a s' t r
  refine ⟨new ++ [⟨a.provider, s'.world.now + t, r, x, made a s' t r⟩], by rw [hx, hl, List.append_assoc], fun hn hs => ?_⟩
  show Held P id n (s'.files.after a (made a s' t r))
  rw [after_saves]
  refine held_saves (hh hn.left hs) fun c hc => ?_
  obtain ⟨ev, he, hcall⟩ := mem_savedIn.mp hc
  exact hn.right _ (List.mem_singleton.mpr rfl) ev he c hcall

theorem carries_edit {s s' s'' : App} (h : Carries P id n s s') (hw : s''.world = s'.world) (hf : s''.files = s'.files) : Carries P id n s s'' := by
  obtain ⟨new, hl, hh⟩ := h
  exact ⟨new, by rw [hw]; exact hl, by rw [hf]; exact hh⟩

theorem carries_does {s s' : App} (h : Does a s s') : Carries P id n s s' := by
  induction h with
  | refl => exact carries_refl s
  | lib _ t r _ ih => exact carries_lib ih t r
  | edit _ hw hf ih => exact carries_edit ih hw hf

/-- The command deletes this credential, or starts to. -/
def Deletes (id : String) : Cmd → Prop
  | .delete k => k = id
  | .crash _ c => Deletes id c
  | _ => False

theorem delete_files (a : Around) (s : App) (k : String) : (delete a s k).2.files = (s.files.remove a k).2 := by
  simp only [delete]
  split
  · rw [finish_state]
  · rfl

theorem serve_holds {s : App} {t : Nat} (c : Cmd) (hc : Deletes id c → P none) (hb : Both P id s.files) :
    ∃ new, (serve a s t c).2.world.log = s.world.log ++ new ∧ (NotSaved id new → Held P id s.files.past.length (serve a s t c).2.files) := by
  have plain : ∀ {c}, Plain c → ∃ new, (serve a s t c).2.world.log = s.world.log ++ new ∧
      (NotSaved id new → Held P id s.files.past.length (serve a s t c).2.files) := by
    intro c h
    obtain ⟨new, h1, h2⟩ := carries_does (P := P) (id := id) (n := s.files.past.length) (serve_does a s t h)
    exact ⟨new, h1, fun hn => h2 hn (held_of_both hb)⟩
  induction c with
  | delete k =>
    refine ⟨[], by rw [List.append_nil]; exact congrArg _ (delete_world a s k), fun _ => ?_⟩
    show Held P id s.files.past.length (delete a s k).2.files
    rw [delete_files]
    exact held_remove (held_of_both hb) hc
  | restart => exact ⟨[], by rw [List.append_nil]; rfl, fun _ => ⟨⟨hb.2, hb.2⟩, (held_of_both hb).then_⟩⟩
  | autosave => exact ⟨[], by rw [List.append_nil]; rfl, fun _ => held_write (held_of_both hb)⟩
  | crash m c ih =>
    obtain ⟨new, h1, h2⟩ := ih hc
    refine ⟨new, h1, fun hn => ?_⟩
    have := held_backTo (h2 hn) (Nat.le_add_right s.files.past.length m)
    exact ⟨⟨this.now.2, this.now.2⟩, this.then_⟩
  | _ => exact plain trivial

theorem serve_log (a : Around) (s : App) (t : Nat) (c : Cmd) : ∃ new, (serve a s t c).2.world.log = s.world.log ++ new := by
  obtain ⟨new, h, _⟩ := serve_holds (P := fun _ => True) (id := "") (a := a) (s := s) (t := t) c (fun _ => trivial) ⟨trivial, trivial⟩
  exact ⟨new, h⟩

theorem after_log (a : Around) (s : App) (l : List (Nat × Cmd)) : ∃ new, (after a s l).world.log = s.world.log ++ new := by
  induction l generalizing s with
  | nil => exact ⟨[], by simp [after]⟩
  | cons x l ih =>
    obtain ⟨n1, h1⟩ := serve_log a s x.1 x.2
    obtain ⟨n2, h2⟩ := ih (serve a s x.1 x.2).2
    exact ⟨n1 ++ n2, by rw [← List.append_assoc, ← h1]; exact h2⟩

theorem after_holds {s : App} (l : List (Nat × Cmd)) (hl : ∀ x ∈ l, Deletes id x.2 → P none) (hb : Both P id s.files) :
    ∃ new, (after a s l).world.log = s.world.log ++ new ∧ (NotSaved id new → Both P id (after a s l).files) := by
  induction l generalizing s with
  | nil => exact ⟨[], by simp [after], fun _ => hb⟩
  | cons x l ih =>
    obtain ⟨new, h1, h2⟩ := serve_holds (a := a) (s := s) (t := x.1) x.2 (hl x (by simp)) hb
    by_cases hn : NotSaved id new
    · obtain ⟨new', h3, h4⟩ := ih (s := (serve a s x.1 x.2).2) (fun y hy => hl y (List.mem_cons_of_mem _ hy)) (h2 hn).now
      exact ⟨new ++ new', by rw [← List.append_assoc, ← h1]; exact h3, fun h => h4 h.right⟩
    · obtain ⟨new', h3⟩ := after_log a (serve a s x.1 x.2).2 l
      exact ⟨new ++ new', by rw [← List.append_assoc, ← h1]; exact h3, fun h => absurd h.left hn⟩

end Verif.App
