import Verif.App.Model
/-!
# What commands of the example wallet do to its flows and files
-/
namespace Verif.App
open Holder (Credential HEnv HWorld Req Resp PStatus Event Call Entry Issuance Presentation HVal Inv)

/-! ### Calling an endpoint -/

theorem lib_log (a : Around) (s : App) (t : Nat) (r : Req) : ∃ x, (lib a s t r).2.world.log = s.world.log ++ [⟨a.provider, s.world.now + t, r, x, made a s t r⟩] ∧
    ∀ resp, (lib a s t r).1 = .ok resp → x = .ok resp := by
  refine ⟨_, Holder.step_log _ _ _, ?_⟩
  intro resp h
  simp only [lib, Holder.step] at h
  show (Holder.HProg.run _ _ _).1 = _
  split at h
  · cases h
  · split at h <;> cases h
  · rename_i r' hr
    cases h
    exact hr

theorem lib_sub (a : Around) (s : App) (t : Nat) (r : Req) : (lib a s t r).2.sub = s.sub := rfl
theorem lib_credential (a : Around) (s : App) (t : Nat) (r : Req) : (lib a s t r).2.credential = s.credential := rfl
theorem lib_issuance (a : Around) (s : App) (t : Nat) (r : Req) : (lib a s t r).2.issuance = s.issuance := rfl
theorem lib_presentation (a : Around) (s : App) (t : Nat) (r : Req) : (lib a s t r).2.presentation = s.presentation := rfl

/-! ### The files -/

/-- The credentials that calls asked to save. -/
def savedIn : List Event → List Credential
  | [] => []
  | ⟨.save c, _⟩ :: l => c :: savedIn l
  | _ :: l => savedIn l

theorem after_saves (a : Around) (f : Files) (l : List Event) : f.after a l = (savedIn l).foldl (Files.save a) f := by
  induction l generalizing f with
  | nil => rfl
  | cons ev l ih =>
    obtain ⟨c, o⟩ := ev
    cases c <;> exact ih _

theorem mem_savedIn {l : List Event} {c : Credential} : c ∈ savedIn l ↔ ∃ ev ∈ l, ev.call = .save c := by
  induction l with
  | nil => simp [savedIn]
  | cons ev l ih =>
    obtain ⟨d, o⟩ := ev
    cases d <;> simp [savedIn, ih, eq_comm]

/-! ### The moves commands are made of -/

/-- The endpoints the application uses, and who it says it is. -/
def Used : Req → Prop
  | .offer q => q.clientId = "wallet"
  | .authorize _ => False
  | .deferred _ => False
  | .cancel _ => False
  | _ => True

/-- Endpoint calls and changes of what is only the application's. -/
inductive Does (a : Around) (s : App) : App → Prop
  | refl : Does a s s
  | lib {s'} (h : Does a s s') (t : Nat) (r : Req) (hr : Used r) : Does a s (lib a s' t r).2
  | edit {s' s''} (h : Does a s s') (hw : s''.world = s'.world) (hf : s''.files = s'.files) : Does a s s''

theorem finish_state (s : App) : (finish s).2 = s := by
  unfold finish; split <;> rfl

theorem reset_does {a : Around} {s s' : App} (h : Does a s s') : Does a s (reset a s').2 := by
  unfold reset
  split
  · exact .edit h rfl rfl
  · rw [finish_state]; exact .edit h rfl rfl

theorem andThen_does {a : Around} {s s' : App} {t : Nat} {r : Req} {k : Resp → App → Out × App} (h : Does a s s') (hr : Used r)
    (hk : ∀ resp s', Does a s s' → Does a s (k resp s').2) : Does a s (andThen (lib a s' t r) k).2 := by
  have h := Does.lib h t r hr
  unfold andThen
  split
  · exact hk _ _ h
  · exact h
  · exact h

theorem offer_does (a : Around) (s : App) (t : Nat) (u : String) : Does a s (offer a s t u).2 := by
  unfold offer
  split
  · exact .refl
  · refine andThen_does .refl rfl fun resp s' h => ?_
    split
    · rw [finish_state]; exact .edit h rfl rfl
    · exact h

theorem request_does (a : Around) (s : App) (t : Nat) (u : String) : Does a s (request a s t u).2 := by
  unfold request
  refine andThen_does .refl trivial fun resp s' h => ?_
  split
  · rw [finish_state]; exact .edit h rfl rfl
  · exact h

theorem logged_state (x : Out × App) : (logged x).2 = x.2 := by
  unfold logged; split <;> rfl

/-- Commands that leave the files to the endpoints. -/
def Plain : Cmd → Prop
  | .delete _ => False
  | .restart => False
  | .autosave => False
  | .crash _ _ => False
  | _ => True

theorem serve_does (a : Around) (s : App) (t : Nat) {c : Cmd} (h : Plain c) : Does a s (serve a s t c).2 := by
  cases c with
  | start => show Does a s (finish s).2; rw [finish_state]; exact .refl
  | reset => exact reset_does .refl
  | select id =>
    show Does a s (select s id).2
    unfold select
    split
    · exact .refl
    · split <;> exact .refl
  | delete id => cases h
  | offer u => exact offer_does a s t u
  | accept => exact andThen_does .refl trivial fun _ s' h => by rw [finish_state]; exact h
  | pin p => exact andThen_does .refl trivial fun _ s' h => by rw [finish_state]; exact .edit h rfl rfl
  | credentials => exact andThen_does .refl trivial fun _ s' h => andThen_does h trivial fun _ s' h => andThen_does h trivial fun _ s' h => reset_does h
  | request u => exact request_does a s t u
  | authorize =>
    refine andThen_does .refl trivial fun resp s' h => ?_
    split
    · rw [finish_state]; exact .edit h rfl rfl
    · exact h
  | present => exact andThen_does .refl trivial fun _ s' h => reset_does h
  | link u =>
    show Does a s (link a s t u).2
    unfold link
    split
    · rw [logged_state]; exact offer_does ..
    · split
      · rw [logged_state]; exact request_does ..
      · exact .refl
  | restart => cases h
  | autosave => cases h
  | crash n c => cases h

/-! ### The wallet's own invariant -/

theorem inv_env {e e' : HEnv} (hr : e'.rng = e.rng) (hf : e'.fault = e.fault) {L : List Entry} {s : String → Option HVal} {d : Nat} (h : Inv e L s d) :
    Inv e' L s d := by
  have hn : e'.NoLate → e.NoLate := by intro h n; rw [← hf]; exact h n
  refine ⟨fun k v hk => by rw [hr]; exact h.key k v hk, fun k v hk => ?_, fun en he k hk => by rw [hr]; exact h.named en he k hk, h.quiet⟩
  have := h.val k v hk
  cases v with
  | issuance i =>
    have this : Holder.FlowInv e L k i := this
    exact ⟨this.id, this.note, this.phase, this.offered, this.accepted, fun h => this.received (hn h), this.came, fun h => this.outstanding (hn h), this.client⟩
  | presentation p => exact this

/-- The wallet's invariant, in the application. -/
def Sound (a : Around) (s : App) : Prop := Inv a.env s.world.log s.world.store s.world.drawn

theorem sound_lib {a : Around} (hf : a.env.Fresh) {s : App} (h : Sound a s) (t : Nat) (r : Req) : Sound a (lib a s t r).2 := by
  have h' : Inv (connected a s.files) s.world.log s.world.store s.world.drawn := inv_env (e := a.env) (e' := connected a s.files) rfl rfl h
  exact inv_env (e := connected a s.files) (e' := a.env) rfl rfl (Holder.step_inv (e := connected a s.files) hf h' ⟨a.provider, t, r⟩)

theorem sound_does {a : Around} (hf : a.env.Fresh) {s s' : App} (h : Sound a s) (hd : Does a s s') : Sound a s' := by
  induction hd with
  | refl => exact h
  | lib _ t r _ ih => exact sound_lib hf ih t r
  | edit _ hw _ ih => unfold Sound; rw [hw]; exact ih

theorem sound_restart {a : Around} {s : App} (h : Sound a s) : Sound a (restart s) :=
  ⟨(fun _ _ h => nomatch h), (fun _ _ h => nomatch h), h.named, h.quiet⟩

theorem delete_world (a : Around) (s : App) (id : String) : (delete a s id).2.world = s.world := by
  simp only [delete]
  split
  · rw [finish_state]
  · rfl

theorem sound_serve {a : Around} (hf : a.env.Fresh) {s : App} (h : Sound a s) (t : Nat) (c : Cmd) : Sound a (serve a s t c).2 := by
  induction c with
  | delete id =>
    show Sound a (delete a s id).2
    unfold Sound; rw [delete_world]; exact h
  | restart => exact sound_restart h
  | autosave => exact h
  | crash n c ih => exact sound_restart (s := { (serve a s t c).2 with files := _ }) ih
  | _ => exact sound_does hf h (serve_does a s t trivial)

theorem sound_opened (a : Around) (now : Int) (file : Dict Slot) : Sound a (opened now file) := Holder.start_inv a.env now

theorem sound_after {a : Around} (hf : a.env.Fresh) {s : App} (h : Sound a s) (l : List (Nat × Cmd)) : Sound a (after a s l) := by
  induction l generalizing s with
  | nil => exact h
  | cons x l ih => exact ih (sound_serve hf h x.1 x.2)

end Verif.App
