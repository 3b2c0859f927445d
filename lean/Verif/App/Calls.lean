import Verif.App.Lemmas
/-!
# Which endpoints of the example wallet save, and what they do without a flow
-/
namespace Verif.App
open Holder (Credential HEnv HWorld Req Resp PStatus Event Call Entry Issuance Presentation HVal Inv HProg)

variable {a : Around} {s : App} {t : Nat}

theorem savedIn_nil {l : List Event} (h : ∀ ev ∈ l, ∀ c, ev.call ≠ .save c) : savedIn l = [] := by
  cases hs : savedIn l with
  | nil => rfl
  | cons c m =>
    obtain ⟨ev, he, hc⟩ := mem_savedIn.mp (show c ∈ savedIn l by rw [hs]; simp)
    exact absurd hc (h ev he c)

/-- The calls an endpoint of the application can make. Specification; models no code. -/
def Makes (r : Req) (ev : Event) : Prop :=
  match r with
  | .offer _ => (∃ u, ev.call = .metadata u) ∨ ∃ u, ev.call = .oauthServer u
  | .token _ => ∃ q, ev.call = .token q
  | .credentials _ => (∃ q, ev.call = .credential q) ∨ ∃ u, ev.call = .logo u
  | .save _ => ∃ c, ev.call = .save c
  | .request _ => (∃ u, ev.call = .requestObject u) ∨ ∃ f, ev.call = .find f
  | .present _ => ∃ u q, ev.call = .present u q
  | _ => False

theorem makes (h : Sound a s) {r : Req} (hr : Used r) : ∀ ev ∈ made a s t r, Makes r ev := by
  obtain ⟨⟨x, w⟩, hrun⟩ : ∃ y, (Holder.serve a.provider r).run (connected a s.files) { s.world with now := s.world.now + t, recent := [] } = y := ⟨_, rfl⟩
  have hm : made a s t r = w.recent := by unfold made; rw [hrun]
  rw [hm]
  cases r with
  | offer q =>
    obtain ⟨evs, ws, hE, h1⟩ := Holder.offer_did hrun
    have hr : w.recent = evs := hE.recent
    rw [hr]
    rcases h1 with ⟨_, _, h1⟩ | ⟨md, sv, _, rfl, _⟩
    · intro ev he
      rcases h1 ev he with h1 | h1
      · exact .inl ⟨_, h1⟩
      · exact .inr ⟨_, h1⟩
    · intro ev he
      simp only [List.mem_cons, List.not_mem_nil, or_false] at he
      rcases he with rfl | rfl
      · exact .inl ⟨_, rfl⟩
      · exact .inr ⟨_, rfl⟩
  | accept q =>
    obtain ⟨ws, hE, _⟩ := Holder.accept_did hrun
    have hr : w.recent = [] := hE.recent
    rw [hr]; simp
  | pin q =>
    obtain ⟨ws, hE, _⟩ := Holder.pin_did hrun
    have hr : w.recent = [] := hE.recent
    rw [hr]; simp
  | token id =>
    obtain ⟨evs, ws, hE, _, h1⟩ := Holder.token_did hrun
    have hr : w.recent = evs := hE.recent
    rw [hr]
    rcases h1 with ⟨_, rfl, _⟩ | ⟨i, p, _, _, _, q, _, ⟨_, _, o, rfl⟩ | ⟨t, m, rfl, _⟩⟩
    · simp
    · intro ev he; simp at he; subst he; exact ⟨_, rfl⟩
    · intro ev he; simp at he; subst he; exact ⟨_, rfl⟩
  | authorize q => cases hr
  | credentials q =>
    obtain ⟨evs, ws, hE, h1⟩ := Holder.credentials_did hrun
    have hr : w.recent = evs := hE.recent
    rw [hr]
    rcases h1 with ⟨_, rfl, _⟩ | ⟨i, jwt, _, _, _, ho, _⟩
    · simp
    · intro ev he
      rcases ho ev he with ⟨q, h, _⟩ | h
      · exact .inl ⟨q, h⟩
      · exact .inr h
  | deferred q => cases hr
  | save id =>
    have hno : ∀ i, s.world.store id = some (.issuance i) → i.notificationId = none := fun i hi => Holder.FlowInv.note (h.val _ _ hi)
    obtain ⟨evs, ws, hE, _, h1⟩ := Holder.save_did (w := { s.world with now := s.world.now + t, recent := [] }) hno hrun
    have hr : w.recent = evs := hE.recent
    rw [hr]
    rcases h1 with ⟨_, rfl, _⟩ | ⟨i, _, ⟨done, c, rest, _, _, _, rfl⟩ | ⟨rfl, _⟩⟩
    · simp
    · intro ev he
      rcases List.mem_append.mp he with he | he
      · obtain ⟨c, _, rfl⟩ := List.mem_map.mp he
        exact ⟨c, rfl⟩
      · simp at he; subst he; exact ⟨c, rfl⟩
    · intro ev he
      obtain ⟨c, _, rfl⟩ := List.mem_map.mp he
      exact ⟨c, rfl⟩
  | cancel id => cases hr
  | request u =>
    obtain ⟨evs, ws, hE, ho, _⟩ := Holder.request_did hrun
    have hr : w.recent = evs := hE.recent
    rw [hr]
    exact ho
  | authorizePresentation id =>
    obtain ⟨ws, hE, _⟩ := Holder.authorizePresentation_did hrun
    have hr : w.recent = [] := hE.recent
    rw [hr]; simp
  | present id =>
    obtain ⟨evs, hE, h1⟩ := Holder.present_did hrun
    have hr : w.recent = evs := hE.recent
    rw [hr]
    rcases h1 with ⟨_, rfl⟩ | ⟨p, pd, vp, jwt, n, u, sub, _, _, _, _, _, _, o, rfl, _⟩
    · simp
    · intro ev he; simp at he; subst he; exact ⟨_, _, rfl⟩

/-- Only saving changes the files. -/
theorem lib_files (h : Sound a s) {r : Req} (hr : Used r) (hs : ∀ id, r ≠ .save id) : (lib a s t r).2.files = s.files := by
  show s.files.after a (made a s t r) = s.files
  rw [after_saves, savedIn_nil]
  · rfl
  · intro ev he c hc
    have := makes h hr ev he
    cases r with
    | save id => exact hs id rfl
    | offer q => rcases this with ⟨u, hu⟩ | ⟨u, hu⟩ <;> rw [hc] at hu <;> cases hu
    | token q => obtain ⟨u, hu⟩ := this; rw [hc] at hu; cases hu
    | credentials q => rcases this with ⟨u, hu⟩ | ⟨u, hu⟩ <;> rw [hc] at hu <;> cases hu
    | request q => rcases this with ⟨u, hu⟩ | ⟨u, hu⟩ <;> rw [hc] at hu <;> cases hu
    | present q => obtain ⟨u, q, hu⟩ := this; rw [hc] at hu; cases hu
    | _ => exact this

/-! ### Without a flow -/

theorem getI_absent {β : Type} {e : HEnv} {w : HWorld} {k : String} {f : Issuance → HProg β} (h : w.store k = none) :
    (HProg.getIssuance k >>= f).run e w = (.error .load, { w with ops := w.ops + 1 }) := by
  show (HProg.bind _ _).run e w = _
  simp only [HProg.getIssuance, HProg.bind, HProg.run, h]
  cases e.fault w.ops <;> rfl

theorem getP_absent {β : Type} {e : HEnv} {w : HWorld} {k : String} {f : Presentation → HProg β} (h : w.store k = none) :
    (HProg.getPresentation k >>= f).run e w = (.error .load, { w with ops := w.ops + 1 }) := by
  show (HProg.bind _ _).run e w = _
  simp only [HProg.getPresentation, HProg.bind, HProg.run, h]
  cases e.fault w.ops <;> rfl

/-- The flow a request is about. Specification; models no code. -/
def about : Req → Option String
  | .accept r => some r.issuanceId
  | .pin r => some r.issuanceId
  | .token id => some id
  | .credentials r => some r.issuanceId
  | .save id => some id
  | .authorizePresentation id => some id
  | .present id => some id
  | _ => none

theorem absent {e : HEnv} {w : HWorld} {P : Holder.Provider} {r : Req} {k : String} (hk : about r = some k) (h : w.store k = none) :
    (Holder.serve P r).run e w = (.error .load, { w with ops := w.ops + 1 }) := by
  cases r <;> first | (cases hk; done) | (cases hk; first | exact getI_absent h | exact getP_absent h)

/-- A request about a flow that is not there fails and changes nothing. -/
theorem lib_absent {r : Req} {k : String} (hk : about r = some k) (h : s.world.store k = none) :
    (lib a s t r).1 = .failed ∧ (lib a s t r).2.files = s.files ∧ made a s t r = [] ∧ (lib a s t r).2.world.store = s.world.store := by
  have hrun : (Holder.serve a.provider r).run (connected a s.files) { s.world with now := s.world.now + t, recent := [] } = _ := absent hk h
  have hm : made a s t r = [] := by unfold made; rw [hrun]
  refine ⟨?_, ?_, hm, ?_⟩
  · simp only [lib, Holder.step, hrun, hm]
    rfl
  · show s.files.after a (made a s t r) = s.files
    rw [hm]; rfl
  · simp only [lib, Holder.step, hrun]

end Verif.App
