import Verif.Interop.Props
import Verif.Interop.BatchProps
import Verif.App.KeepProps
/-!
# The example wallet connected to the issuer of this repository
-/
namespace Verif.App
open Holder (Credential HEnv HWorld Req Resp PStatus Event Call Entry Issuance Presentation HVal Inv HProg)
open Interop (Net)

variable {a : Around} {s S : App} {t : Nat}

/-! ### Two surroundings that answer the same -/

theorem run_recent {α : Type} (e : HEnv) (p : HProg α) (w : HWorld) {ev : Event} (h : ev ∈ w.recent) : ev ∈ (p.run e w).2.recent := by
  obtain ⟨evs, h1, _⟩ := Holder.run_answers e p w
  rw [h1]; exact List.mem_append_left _ h

theorem run_agree {α : Type} {e e' : HEnv} (hr : e'.rng = e.rng) (hf : e'.fault = e.fault) (p : HProg α) (w : HWorld)
    (h : ∀ ev ∈ (p.run e w).2.recent, ∀ log recent, e'.oracle log recent ev.call = e.oracle log recent ev.call) : p.run e' w = p.run e w := by
  induction p generalizing w with
  | ret r => rfl
  | get k c ih =>
    simp only [HProg.run] at h ⊢
    rw [hf]; exact ih _ _ h
  | put k v c ih =>
    simp only [HProg.run] at h ⊢
    rw [hf]; exact ih _ _ h
  | purge k c ih =>
    simp only [HProg.run] at h ⊢
    rw [hf]; exact ih _ _ h
  | draw c ih =>
    simp only [HProg.run] at h ⊢
    rw [hr]; exact ih _ _ h
  | now c ih =>
    simp only [HProg.run] at h ⊢
    exact ih _ _ h
  | call c k ih =>
    simp only [HProg.run] at h ⊢
    have := h ⟨c, e.oracle w.log w.recent c⟩ (run_recent _ _ _ (by simp)) w.log w.recent
    simp only at this
    rw [this]; exact ih _ _ h

/-- The wallet's surroundings in the application, while its files are `f`, as a net around the issuer. -/
def joined (a : Around) (f : Files) (n : Net) (w1 : World Issuer.State) (skip : Nat) : HEnv where
  rng := a.env.rng
  fault := a.env.fault
  oracle := ({ n with rest := (connected a f).oracle } : Net).oracle w1 skip

variable {n : Net} {w1 : World Issuer.State} {skip : Nat} {f : Files}

theorem joined_agrees (ho : a.env.oracle = n.oracle w1 skip) (f : Files) {r : Req} {ev : Event} (h : Makes r ev) (log : List Entry) (recent : List Event) :
    (joined a f n w1 skip).oracle log recent ev.call = (connected a f).oracle log recent ev.call := by
  obtain ⟨c, o⟩ := ev
  have key : ∀ c : Call, (∀ q, c ≠ .authorization q) → (∀ q, c ≠ .deferred q) → (∀ q, c ≠ .notification q) →
      (joined a f n w1 skip).oracle log recent c = (connected a f).oracle log recent c := by
    intro c h1 h2 h3
    cases c with
    | authorization q => exact absurd rfl (h1 q)
    | deferred q => exact absurd rfl (h2 q)
    | notification q => exact absurd rfl (h3 q)
    | metadata u => show _ = a.env.oracle log recent _; rw [ho]; rfl
    | oauthServer u => show _ = a.env.oracle log recent _; rw [ho]; rfl
    | token u => show _ = a.env.oracle log recent _; rw [ho]; rfl
    | credential u => show _ = a.env.oracle log recent _; rw [ho]; rfl
    | logo u => rfl
    | requestObject u => rfl
    | present u q => rfl
    | save c => rfl
    | find k => rfl
  have h : Makes r ⟨c, o⟩ := h
  show (joined a f n w1 skip).oracle log recent c = (connected a f).oracle log recent c
  cases r with
  | offer q => rcases h with ⟨u, rfl⟩ | ⟨u, rfl⟩ <;> exact key _ (by simp) (by simp) (by simp)
  | token q => obtain ⟨u, rfl⟩ := h; exact key _ (by simp) (by simp) (by simp)
  | credentials q => rcases h with ⟨u, rfl⟩ | ⟨u, rfl⟩ <;> exact key _ (by simp) (by simp) (by simp)
  | save q => obtain ⟨u, rfl⟩ := h; exact key _ (by simp) (by simp) (by simp)
  | request q => rcases h with ⟨u, rfl⟩ | ⟨u, rfl⟩ <;> exact key _ (by simp) (by simp) (by simp)
  | present q => obtain ⟨u, v, rfl⟩ := h; exact key _ (by simp) (by simp) (by simp)
  | _ => cases h

theorem lib_joined (ho : a.env.oracle = n.oracle w1 skip) (h : Sound a S) (hfiles : S.files = f) {r : Req} (hr : Used r) (t : Nat) :
    (lib a S t r).2.world = (Holder.step (joined a f n w1 skip) S.world ⟨a.provider, t, r⟩).2 ∧
    ∀ resp, (Holder.step (joined a f n w1 skip) S.world ⟨a.provider, t, r⟩).1 = .ok resp → (lib a S t r).1 = .ok resp := by
  have hm := makes (t := t) h hr
  have hrun : (Holder.serve a.provider r).run (joined a f n w1 skip) { S.world with now := S.world.now + t, recent := [] } =
      (Holder.serve a.provider r).run (connected a S.files) { S.world with now := S.world.now + t, recent := [] } :=
    run_agree (e := connected a S.files) (e' := joined a f n w1 skip) rfl rfl _ _ fun ev hev log recent => by
      have := hm ev hev
      rw [hfiles]; exact joined_agrees ho f this log recent
  have hstep : Holder.step (joined a f n w1 skip) S.world ⟨a.provider, t, r⟩ = Holder.step (connected a S.files) S.world ⟨a.provider, t, r⟩ := by
    simp only [Holder.step, hrun]
  rw [hstep]
  refine ⟨rfl, fun resp hok => ?_⟩
  simp only [lib, hok]

/-! ### Commands that go well -/

/-- The application with flow `k` at hand, the wallet in `w`. -/
structure At (a : Around) (f : Files) (k : String) (w : HWorld) (S : App) : Prop where
  sound : Sound a S
  files : S.files = f
  id : S.issuance.id = k
  world : S.world = w

theorem offer_at (hfr : a.env.Fresh) (ho : a.env.oracle = n.oracle w1 skip) (h : Sound a s) {enc : String} {o : Issuer.CredentialOffer}
    (hread : a.readOffer enc = some o) {resp : Resp}
    (hok : (Holder.step (joined a s.files n w1 skip) s.world ⟨a.provider, t, .offer ⟨"wallet", "normal_user", o⟩⟩).1 = .ok resp) :
    At a s.files (a.env.rng s.world.drawn) (Holder.step (joined a s.files n w1 skip) s.world ⟨a.provider, t, .offer ⟨"wallet", "normal_user", o⟩⟩).2
      (serve a s t (.offer enc)).2 := by
  obtain ⟨h1, h2⟩ := lib_joined ho h rfl (r := .offer ⟨"wallet", "normal_user", o⟩) rfl t
  have hl := h2 _ hok
  have hs := sound_lib hfr h t (.offer ⟨"wallet", "normal_user", o⟩)
  have hfi := lib_files (t := t) h (r := .offer ⟨"wallet", "normal_user", o⟩) rfl (by simp)
  have hrun := lib_ok hl
  obtain ⟨⟨y, w⟩, hy⟩ : ∃ y, (Holder.serve a.provider (.offer ⟨"wallet", "normal_user", o⟩)).run (connected a s.files)
      { s.world with now := s.world.now + t, recent := [] } = y := ⟨_, rfl⟩
  rw [hy] at hrun
  have hrun : y = .ok resp := hrun
  obtain ⟨evs, ws, hE, hd⟩ := Holder.offer_did hy
  obtain ⟨g, hresp⟩ : ∃ g, resp = .offer (a.env.rng s.world.drawn) o.credentialIssuer g o.grants := by
    subst hrun
    rcases hd with ⟨⟨_, h, _⟩, _⟩ | ⟨md, sv, _, _, ⟨h, _⟩ | ⟨_, ⟨h, _⟩ | ⟨⟨_, h, _⟩, _⟩ | ⟨g, _, h⟩⟩⟩
    · cases h
    · cases h
    · cases h
    · cases h
    · cases h; exact ⟨g, rfl⟩
  subst hresp
  have hserve : (serve a s t (.offer enc)).2 = { (lib a s t (.offer ⟨"wallet", "normal_user", o⟩)).2 with
      issuance := { id := a.env.rng s.world.drawn, issuer := o.credentialIssuer, offered := g, txCode := asksPin o.grants, pin := none }
      sub := .issuance } := by
    show (offer a s t enc).2 = _
    unfold offer
    rw [hread]
    simp only [andThen, hl, finish_state]
  rw [hserve]
  exact ⟨hs, hfi, rfl, h1⟩

theorem accept_at (hfr : a.env.Fresh) (ho : a.env.oracle = n.oracle w1 skip) {k : String} {w : HWorld} (h : At a f k w S) {resp : Resp}
    (hok : (Holder.step (joined a f n w1 skip) w ⟨a.provider, t, .accept ⟨k, none⟩⟩).1 = .ok resp) :
    At a f k (Holder.step (joined a f n w1 skip) w ⟨a.provider, t, .accept ⟨k, none⟩⟩).2 (serve a S t .accept).2 := by
  obtain ⟨h0, hf, hid, rfl⟩ := h
  obtain ⟨h1, h2⟩ := lib_joined ho h0 hf (r := .accept ⟨k, none⟩) trivial t
  have hl := h2 _ hok
  have hserve : (serve a S t .accept).2 = (lib a S t (.accept ⟨k, none⟩)).2 := by
    show (accept a S t).2 = _
    unfold accept
    rw [hid]
    simp only [andThen, hl, finish_state]
  rw [hserve]
  exact ⟨sound_lib hfr h0 t _, (lib_files (t := t) h0 (r := .accept ⟨k, none⟩) trivial (by simp)).trans hf, hid, h1⟩

theorem pin_at (hfr : a.env.Fresh) (ho : a.env.oracle = n.oracle w1 skip) {k p : String} {w : HWorld} (h : At a f k w S) {resp : Resp}
    (hok : (Holder.step (joined a f n w1 skip) w ⟨a.provider, t, .pin ⟨k, p⟩⟩).1 = .ok resp) :
    At a f k (Holder.step (joined a f n w1 skip) w ⟨a.provider, t, .pin ⟨k, p⟩⟩).2 (serve a S t (.pin p)).2 := by
  obtain ⟨h0, hf, hid, rfl⟩ := h
  obtain ⟨h1, h2⟩ := lib_joined ho h0 hf (r := .pin ⟨k, p⟩) trivial t
  have hl := h2 _ hok
  have hserve : (serve a S t (.pin p)).2 = { (lib a S t (.pin ⟨k, p⟩)).2 with
      issuance := { (lib a S t (.pin ⟨k, p⟩)).2.issuance with pin := some p } } := by
    show (pin a S t p).2 = _
    unfold pin
    rw [hid]
    simp only [andThen, hl, finish_state]
  rw [hserve]
  exact ⟨sound_lib hfr h0 t _, (lib_files (t := t) h0 (r := .pin ⟨k, p⟩) trivial (by simp)).trans hf, hid, h1⟩

/-- An endpoint called by itself. -/
theorem lib_at (hfr : a.env.Fresh) (ho : a.env.oracle = n.oracle w1 skip) {k : String} {w : HWorld} (h : At a f k w S) {r : Req} (hr : Used r)
    (hs : ∀ id, r ≠ .save id) : At a f k (Holder.step (joined a f n w1 skip) w ⟨a.provider, t, r⟩).2 (lib a S t r).2 := by
  obtain ⟨h0, hf, hid, rfl⟩ := h
  exact ⟨sound_lib hfr h0 t _, (lib_files (t := t) h0 hr hs).trans hf, hid, (lib_joined ho h0 hf hr t).1⟩

/-! ### Histories that go well -/

theorem step_ok_of_log {e : HEnv} {hw : HWorld} {st : Holder.HStep} {hist : List Holder.HStep} {new : List Entry}
    (h : (Holder.exec e hw (st :: hist)).log = hw.log ++ new) (hok : ∀ en ∈ new, ∃ r, en.result = .ok r) :
    (∃ r, (Holder.step e hw st).1 = .ok r) ∧
      ∃ new', (Holder.exec e (Holder.step e hw st).2 hist).log = (Holder.step e hw st).2.log ++ new' ∧ ∀ en ∈ new', ∃ r, en.result = .ok r := by
  obtain ⟨tl, htl⟩ := Holder.exec_log e (Holder.step e hw st).2 hist
  have h : (Holder.exec e (Holder.step e hw st).2 hist).log = hw.log ++ new := h
  rw [htl, Holder.step_log, List.append_assoc] at h
  have h := List.append_cancel_left h
  refine ⟨?_, tl, htl, fun en hen => hok en (by rw [← h]; exact List.mem_append_right _ hen)⟩
  obtain ⟨r, hr⟩ := hok _ (by rw [← h]; exact List.mem_append_left _ (.head _))
  exact ⟨r, hr⟩

end Verif.App
