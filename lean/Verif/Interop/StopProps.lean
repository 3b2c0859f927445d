import Verif.Interop.BatchProps
import Verif.Holder.BreakProps
/-!
# A wallet that stops between the answer to its token request and the saving of it: C202
-/
namespace Verif.Interop
open Verif

/-! ### What a call does to the flows a wallet keeps -/

/-- Flows are kept under their own ids, which were drawn before. -/
structure Tidy (e : Holder.HEnv) (w : Holder.HWorld) : Prop where
  key : ∀ x v, w.store x = some v → ∃ m, m < w.drawn ∧ x = e.rng m
  flow : ∀ x i, w.store x = some (.issuance i) → i.id = x ∧ i.notificationId = none
  pres : ∀ x p, w.store x = some (.presentation p) → p.id = x

/-- What a call writes: nothing, something new, or another state of what was there, with the offer as it was. -/
inductive Written (e : Holder.HEnv) (w : Holder.HWorld) (d : Nat) (x : String) : Option Holder.HVal → Prop
  | gone : Written e w d x none
  | flow (m : Nat) (i : Holder.Issuance) : w.drawn ≤ m → m < d → x = e.rng m → i.id = x → i.notificationId = none → Written e w d x (some (.issuance i))
  | kept (i j : Holder.Issuance) : w.store x = some (.issuance i) → j.offer = i.offer → j.id = x → j.notificationId = none →
      Written e w d x (some (.issuance j))
  | pres (p : Holder.Presentation) : (∃ m, m < d ∧ x = e.rng m) → (∃ m, w.drawn ≤ m ∧ x = e.rng m) ∨ (∃ q, w.store x = some (.presentation q)) → p.id = x →
      Written e w d x (some (.presentation p))

theorem ends_store {e : Holder.HEnv} {α : Type} {x : Holder.Write} {a : α} {r : Holder.HRes α} {ws : List Holder.Write} (h : Holder.Ends e x a r ws)
    (s : String → Option Holder.HVal) : Holder.applyWrites s ws = s ∨ Holder.applyWrites s ws = upd s x.1 x.2 := by
  cases h
  · exact .inr rfl
  · exact .inl rfl
  · exact .inr rfl

theorem step_writes {e : Holder.HEnv} {w : Holder.HWorld} (ht : Tidy e w) (s : Holder.HStep) :
    (Holder.step e w s).2.store = w.store ∨
    ∃ x o, (Holder.step e w s).2.store = upd w.store x o ∧ Written e w (Holder.step e w s).2.drawn x o := by
  have hno : ∀ id i, (Holder.before w s).store id = some (.issuance i) → i.notificationId = none := fun id i hi => (ht.flow id i hi).2
  have hdr : (Holder.step e w s).2.drawn = ((Holder.serve s.provider s.req).run e (Holder.before w s)).2.drawn := rfl
  rw [hdr, (Holder.step_eq e w s).2]
  obtain ⟨⟨r, w2⟩, hrun⟩ : ∃ q, (Holder.serve s.provider s.req).run e (Holder.before w s) = q := ⟨_, rfl⟩
  rw [hrun]
  simp only
  have hbs : (Holder.before w s).store = w.store := rfl
  have hbd : (Holder.before w s).drawn = w.drawn := rfl
  have key : ∀ {x o b ws}, Holder.Ends e (x, o) b r ws → w2.store = Holder.applyWrites w.store ws → Written e w w2.drawn x o →
      w2.store = w.store ∨ ∃ x o, w2.store = upd w.store x o ∧ Written e w w2.drawn x o := by
    intro x o b ws he hs hw
    rcases ends_store he w.store with h | h
    · exact .inl (hs.trans h)
    · exact .inr ⟨x, o, hs.trans h, hw⟩
  generalize s.req = q at hrun
  cases q with
  | offer req =>
    obtain ⟨evs, ws, hE, h1⟩ := Holder.offer_did hrun
    rcases h1 with ⟨_, rfl, _⟩ | ⟨md, sv, hd, _, ⟨_, rfl⟩ | ⟨rfl, _⟩⟩
    · exact .inl hE.store
    · exact .inl hE.store
    · exact .inr ⟨_, _, hE.store, .flow w.drawn _ (Nat.le_refl _) (by rw [hd, hbd]; omega) rfl rfl rfl⟩
  | accept req =>
    obtain ⟨ws, hE, hd, h1⟩ := Holder.accept_did hrun
    rcases h1 with ⟨_, rfl⟩ | ⟨i, acc, hi, _, _, _, hends⟩
    · exact .inl hE.store
    · obtain ⟨h2, h3⟩ := ht.flow _ _ hi
      exact key hends hE.store (.kept i _ (h2 ▸ hi) rfl rfl h3)
  | pin req =>
    obtain ⟨ws, hE, hd, h1⟩ := Holder.pin_did hrun
    rcases h1 with ⟨_, rfl⟩ | ⟨i, hi, _, hends⟩
    · exact .inl hE.store
    · obtain ⟨h2, h3⟩ := ht.flow _ _ hi
      exact key hends hE.store (.kept i _ (h2 ▸ hi) rfl rfl h3)
  | token id =>
    obtain ⟨evs, ws, hE, hd, h1⟩ := Holder.token_did hrun
    rcases h1 with ⟨_, _, rfl⟩ | ⟨i, p, hi, _, _, q, _, ⟨_, rfl, _⟩ | ⟨t, a, _, _, hends⟩⟩
    · exact .inl hE.store
    · exact .inl hE.store
    · obtain ⟨h2, h3⟩ := ht.flow _ _ hi
      exact key hends hE.store (.kept i _ (h2 ▸ hi) rfl rfl h3)
  | authorize req =>
    obtain ⟨evs, ws, hE, h1⟩ := Holder.authorize_did hrun
    rcases h1 with ⟨_, rfl, _⟩ | ⟨i, p, m, hst, _, hd, q, _, ⟨_, rfl, _⟩ | ⟨a, ⟨o, _, rfl, _⟩ | ⟨t, m', _, _, hends⟩⟩⟩
    · exact .inl hE.store
    · exact .inl hE.store
    · exact .inl hE.store
    · refine key hends hE.store ?_
      cases hst with
      | stored _ hi _ =>
        obtain ⟨h2, h3⟩ := ht.flow _ _ hi
        exact .kept i _ (h2 ▸ hi) rfl rfl h3
      | new _ _ => exact .flow w.drawn _ (Nat.le_refl _) (by rw [hd, hbd]; omega) rfl rfl rfl
  | credentials req =>
    obtain ⟨evs, ws, hE, h1⟩ := Holder.credentials_did hrun
    rcases h1 with ⟨_, _, rfl⟩ | ⟨i, jwt, hi, _, _, _, _, ⟨_, rfl⟩ | ⟨j, hg, _, hends⟩⟩
    · exact .inl hE.store
    · exact .inl hE.store
    · obtain ⟨h2, h3⟩ := ht.flow _ _ hi
      obtain ⟨c, df, nn, x, rfl, _⟩ := hg.same
      exact key hends hE.store (.kept i _ (h2 ▸ hi) rfl rfl h3)
  | deferred req =>
    obtain ⟨evs, ws, hE, h1⟩ := Holder.deferred_did hrun
    rcases h1 with ⟨_, _, rfl⟩ | ⟨i, o, logos, hi, _, _, _, ⟨_, rfl⟩ | ⟨j, hg, _, hends⟩⟩
    · exact .inl hE.store
    · exact .inl hE.store
    · obtain ⟨h2, h3⟩ := ht.flow _ _ hi
      obtain ⟨c, df, nn, x, rfl, _⟩ := hg.same
      refine key hends hE.store ?_
      unfold Holder.stashed
      split
      · exact .gone
      · exact .kept i _ (h2 ▸ hi) rfl rfl h3
  | save id =>
    obtain ⟨evs, ws, hE, _, h1⟩ := Holder.save_did (hno id) hrun
    rcases h1 with ⟨_, _, rfl⟩ | ⟨i, hi, ⟨done, c, rest, _, rfl, _⟩ | ⟨_, ⟨hd, hends⟩ | ⟨_, rfl, _⟩⟩⟩
    · exact .inl hE.store
    · exact .inl hE.store
    · exact key hends hE.store .gone
    · exact .inl hE.store
  | cancel id =>
    obtain ⟨ws, hE, _, h1⟩ := Holder.cancel_did (hno id) hrun
    rcases h1 with ⟨_, rfl⟩ | ⟨i, hi, hends⟩
    · exact .inl hE.store
    · exact key hends hE.store .gone
  | request url =>
    obtain ⟨evs, ws, hE, _, h1⟩ := Holder.request_did hrun
    rcases h1 with ⟨_, rfl⟩ | ⟨q, p, f, cs, _, _, _, hd, hends⟩
    · exact .inl hE.store
    · exact key hends hE.store (.pres _ ⟨w.drawn, by rw [hd, hbd]; omega, rfl⟩ (.inl ⟨w.drawn, Nat.le_refl _, rfl⟩) rfl)
  | authorizePresentation id =>
    obtain ⟨ws, hE, hd, h1⟩ := Holder.authorizePresentation_did hrun
    rcases h1 with ⟨_, rfl⟩ | ⟨p, hp, _, hends⟩
    · exact .inl hE.store
    · have h2 := ht.pres _ _ hp
      obtain ⟨m, hm, hk⟩ := ht.key _ _ hp
      refine key hends hE.store (.pres _ ⟨m, by rw [hd, hbd]; exact hm, h2.trans hk⟩ (.inr ⟨p, ?_⟩) rfl)
      rw [h2]; exact hp
  | present id =>
    obtain ⟨evs, hE, _⟩ := Holder.present_did hrun
    exact .inl hE.store

theorem Tidy.of_store {e : Holder.HEnv} {w w' : Holder.HWorld} (ht : Tidy e w) (hs : w'.store = w.store) (hd : w.drawn ≤ w'.drawn) : Tidy e w' :=
  ⟨fun x v h => by
      obtain ⟨m, hm, hx⟩ := ht.key x v (hs ▸ h)
      exact ⟨m, Nat.lt_of_lt_of_le hm hd, hx⟩,
    fun x i h => ht.flow x i (hs ▸ h), fun x p h => ht.pres x p (hs ▸ h)⟩

theorem Tidy.of_write {e : Holder.HEnv} {w w' : Holder.HWorld} (ht : Tidy e w) {x : String} {o : Option Holder.HVal} {d : Nat}
    (hs : w'.store = upd w.store x o) (hd : w.drawn ≤ w'.drawn) (hd' : w'.drawn = d) (hw : Written e w d x o) : Tidy e w' := by
  subst hd'
  have hold : ∀ y v, w'.store y = some v → y = x ∧ o = some v ∨ w.store y = some v := by
    intro y v h
    rw [hs] at h
    by_cases hy : y = x
    · subst hy; rw [upd_same] at h; exact .inl ⟨rfl, h⟩
    · rw [upd_other _ _ hy] at h; exact .inr h
  refine ⟨fun y v h => ?_, fun y i h => ?_, fun y p h => ?_⟩
  · rcases hold y v h with ⟨rfl, rfl⟩ | h
    · cases hw with
      | flow m i h1 h2 h3 _ _ => exact ⟨m, h2, h3⟩
      | kept i j h1 _ _ _ =>
        obtain ⟨m, hm, hx⟩ := ht.key _ _ h1
        exact ⟨m, Nat.lt_of_lt_of_le hm hd, hx⟩
      | pres p h1 _ _ => exact h1
    · obtain ⟨m, hm, hx⟩ := ht.key _ _ h
      exact ⟨m, Nat.lt_of_lt_of_le hm hd, hx⟩
  · rcases hold y _ h with ⟨rfl, rfl⟩ | h
    · cases hw with
      | flow m i _ _ _ h1 h2 => exact ⟨h1, h2⟩
      | kept i j _ _ h1 h2 => exact ⟨h1, h2⟩
    · exact ht.flow _ _ h
  · rcases hold y _ h with ⟨rfl, rfl⟩ | h
    · cases hw with
      | pres p _ _ h1 => exact h1
    · exact ht.pres _ _ h

/-- The code that a flow would be redeemed with has been spent, and no flow will get under its name. -/
structure Lost (n : Net) (w1 : World Issuer.State) (e : Holder.HEnv) (k code : String) (w : Holder.HWorld) : Prop where
  tidy : Tidy e w
  drawn : ∃ m, m < w.drawn ∧ k = e.rng m
  flow : ∀ j p, w.store k = some (.issuance j) → Holder.preAuthorized j.offer = some p → p.preAuthorizedCode = code
  spent : Issuer.Spent n.env code (n.after w1 (Net.made 0 w.log [])).2

section
variable {n : Net} {w1 : World Issuer.State} {e : Holder.HEnv} {w : Holder.HWorld} {k code : String}

theorem spent_log (hfresh : Issuer.Env.Fresh n.env) {log : List Holder.Entry} (h : Issuer.Spent n.env code (n.after w1 (Net.made 0 log [])).2)
    (en : Holder.Entry) : Issuer.Spent n.env code (n.after w1 (Net.made 0 (log ++ [en]) [])).2 := by
  have hm : Net.made 0 (log ++ [en]) [] = Net.made 0 log [] ++ en.events.map Holder.Event.call := by simp [Net.made]
  rw [hm]
  obtain ⟨l, hl⟩ := n.after_later w1 (Net.made 0 log []) (en.events.map Holder.Event.call)
  rw [hl]
  exact h.exec hfresh l

theorem Lost.moved (hfresh : Issuer.Env.Fresh n.env) (hf : e.Fresh) (h : Lost n w1 e k code w) {w' : Holder.HWorld} {d : Nat} (hd : w.drawn ≤ w'.drawn)
    {en : Holder.Entry} (hl : w'.log = w.log ++ [en])
    (hs : w'.store = w.store ∨ w'.drawn = d ∧ ∃ x o, w'.store = upd w.store x o ∧ Written e w d x o) : Lost n w1 e k code w' := by
  obtain ⟨m, hm, hk⟩ := h.drawn
  refine ⟨?_, ⟨m, Nat.lt_of_lt_of_le hm hd, hk⟩, fun j p hj hp => ?_, by rw [hl]; exact spent_log hfresh h.spent en⟩
  · rcases hs with hs | ⟨hd', x, o, hs, hw⟩
    · exact h.tidy.of_store hs hd
    · exact h.tidy.of_write hs hd hd' hw
  · rcases hs with hs | ⟨_, x, o, hs, hw⟩
    · exact h.flow j p (hs ▸ hj) hp
    · rw [hs] at hj
      by_cases hx : k = x
      · subst hx
        rw [upd_same] at hj
        subst hj
        cases hw with
        | flow m' i h1 _ h3 _ _ =>
          have := hf _ _ (hk.symm.trans h3)
          omega
        | kept i j h1 h2 _ _ => exact h.flow i p h1 (h2 ▸ hp)
      · rw [upd_other _ _ hx] at hj
        exact h.flow j p hj hp

theorem Lost.step (hfresh : Issuer.Env.Fresh n.env) (hf : e.Fresh) (h : Lost n w1 e k code w) (s : Holder.HStep) :
    Lost n w1 e k code (Holder.step e w s).2 := by
  refine h.moved hfresh hf (d := (Holder.step e w s).2.drawn) (Holder.run_drawn e (Holder.serve s.provider s.req) (Holder.before w s)) (Holder.step_log e w s) ?_
  rcases step_writes h.tidy s with h | h
  · exact .inl h
  · exact .inr ⟨rfl, h⟩

theorem Lost.stopped (hfresh : Issuer.Env.Fresh n.env) (hf : e.Fresh) (h : Lost n w1 e k code w) (m : Nat) (s : Holder.HStep) :
    Lost n w1 e k code (Holder.stopped e m w s) := by
  obtain ⟨h1, ⟨en, h2⟩, h3⟩ := Holder.stopped_store (e := e) (w := w) m s
  refine h.moved hfresh hf (d := (Holder.step e w s).2.drawn) h1 h2 ?_
  rcases h3 with h3 | ⟨h3, h4, _⟩
  · exact .inl h3
  · rcases step_writes h.tidy s with h | ⟨x, o, h5, h6⟩
    · exact .inl (h3.trans h)
    · exact .inr ⟨h4, x, o, h3.trans h5, h6⟩

theorem Lost.live (hfresh : Issuer.Env.Fresh n.env) (hf : e.Fresh) (h : Lost n w1 e k code w) (l : List (Holder.HStep × Option Nat)) :
    Lost n w1 e k code (Holder.live e w l) := by
  induction l generalizing w with
  | nil => exact h
  | cons x l ih =>
    obtain ⟨s, o⟩ := x
    cases o with
    | none => exact ih (h.step hfresh hf s)
    | some m => exact ih (h.stopped hfresh hf m s)

/-- A token call for a flow whose code is spent fails. -/
theorem Lost.refused (hfresh : Issuer.Env.Fresh n.env) (ho : e.oracle = n.oracle w1 0) (h : Lost n w1 e k code w) {s : Holder.HStep} (hq : s.req = .token k) :
    ∃ err, (Holder.step e w s).1 = .error err := by
  rw [(Holder.step_eq e w s).1]
  obtain ⟨⟨r, w2⟩, hrun⟩ : ∃ q, (Holder.serve s.provider s.req).run e (Holder.before w s) = q := ⟨_, rfl⟩
  rw [hrun]
  rw [hq] at hrun
  obtain ⟨evs, ws, hE, _, h1⟩ := Holder.token_did hrun
  rcases h1 with ⟨hfl, _⟩ | ⟨i, p, hi, _, hp, q, rfl, ⟨hfl, _⟩ | ⟨t, a, rfl, _, hends⟩⟩
  · obtain ⟨x, hx, _⟩ := hfl; exact ⟨x, hx⟩
  · obtain ⟨x, hx, _⟩ := hfl; exact ⟨x, hx⟩
  · exfalso
    have hans := hE.answers [] _ [] rfl
    rw [ho] at hans
    have hcode := h.flow i p hi hp
    have hans : n.answer w1 (Net.made 0 w.log []) (.token ⟨i.issuer.credentialIssuer, some i.clientId, .preAuthorizedCode p.preAuthorizedCode i.pin, i.accepted⟩)
        (.token ⟨i.issuer.credentialIssuer, some i.clientId, .preAuthorizedCode p.preAuthorizedCode i.pin, i.accepted⟩) = some t := hans.symm
    have hok := reply_token hans
    unfold Net.serve Net.arrival at hok
    refine Issuer.token_refused_of_gone (req := ⟨i.issuer.credentialIssuer, some i.clientId, .preAuthorizedCode p.preAuthorizedCode i.pin, i.accepted⟩) rfl ?_ _ hok
    show _ = none
    have := (h.spent.exec hfresh (n.others (n.after w1 (Net.made 0 w.log [])).1)).gone
    rw [← hcode] at this
    exact this

/-- A token call that succeeds, stopped after the answer and before the flow is written. -/
theorem token_stopped {k : String} {s : Holder.HStep} (hq : s.req = .token k) {resp : Holder.Resp} (hok : (Holder.step e w s).1 = .ok resp) :
    ∃ i p t, w.store k = some (.issuance i) ∧ Holder.preAuthorized i.offer = some p ∧
      e.oracle w.log [] (.token ⟨i.issuer.credentialIssuer, some i.clientId, .preAuthorizedCode p.preAuthorizedCode i.pin, i.accepted⟩) = some t ∧
      Holder.stopped e 2 w s = { w with now := w.now + s.wait, ops := w.ops + 1, recent := [], log := w.log ++ [⟨s.provider, w.now + s.wait, s.req,
        .error .store, [⟨.token ⟨i.issuer.credentialIssuer, some i.clientId, .preAuthorizedCode p.preAuthorizedCode i.pin, i.accepted⟩, some t⟩]⟩] } := by
  rw [(Holder.step_eq e w s).1] at hok
  obtain ⟨⟨r, w2⟩, hrun⟩ : ∃ q, (Holder.serve s.provider s.req).run e (Holder.before w s) = q := ⟨_, rfl⟩
  rw [hrun] at hok
  simp only at hok
  subst hok
  have hrun' := hrun
  rw [hq] at hrun
  obtain ⟨evs, ws, hE, _, h1⟩ := Holder.token_did hrun
  rcases h1 with ⟨hfl, _⟩ | ⟨i, p, hi, hst, hp, q, rfl, ⟨hfl, _⟩ | ⟨t, a, rfl, _, hends⟩⟩
  · exact absurd rfl hfl.ne_ok
  · exact absurd rfl hfl.ne_ok
  · have hans := hE.answers [] _ [] rfl
    have hans : e.oracle w.log [] (.token ⟨i.issuer.credentialIssuer, some i.clientId, .preAuthorizedCode p.preAuthorizedCode i.pin, i.accepted⟩) = some t :=
      hans.symm
    have hi : w.store k = some (.issuance i) := hi
    refine ⟨i, p, t, hi, hp, hans, ?_⟩
    have hfault : e.fault w.ops = .ok := by
      cases hfl : e.fault w.ops with
      | ok => rfl
      | _ =>
        exfalso
        simp only [Holder.serve, Holder.token, Bind.bind, Holder.HProg.getIssuance, Holder.HProg.bind, Holder.HProg.run, Holder.before, hfl, Prog.getRes] at hrun
        cases hrun
    have hg : ∃ g, i.offer.grants = some g ∧ g.preAuthorizedCode = some p := by
      unfold Holder.preAuthorized at hp
      cases hgr : i.offer.grants with
      | none => rw [hgr] at hp; cases hp
      | some g => rw [hgr] at hp; exact ⟨g, rfl, hp⟩
    obtain ⟨g, hg1, hg2⟩ := hg
    have hreq : Holder.tokenRequest i = .ok ⟨i.issuer.credentialIssuer, some i.clientId, .preAuthorizedCode p.preAuthorizedCode i.pin, i.accepted⟩ := by
      obtain ⟨ac, pc⟩ := g
      cases hg2
      simp only [Holder.tokenRequest, hg1, Holder.need]; rfl
    unfold Holder.stopped
    rw [hq]
    have hcut : (Holder.serve s.provider (.token k)).cut e 2 { w with now := w.now + s.wait, recent := [] } =
        { w with now := w.now + s.wait, ops := w.ops + 1, recent := [⟨.token ⟨i.issuer.credentialIssuer, some i.clientId,
          .preAuthorizedCode p.preAuthorizedCode i.pin, i.accepted⟩, some t⟩] } := by
      simp only [Holder.serve, Holder.token, Bind.bind, Holder.HProg.getIssuance, Holder.HProg.bind, Holder.HProg.cut, hfault, hi, Prog.getRes, Holder.HProg.lift,
        Holder.check, hp, hst, Option.isSome_some, beq_self_eq_true, Bool.and_self, if_true, hreq, Holder.HProg.callE, hans, List.nil_append]
    rw [hcut]

/-! ### Property -/

/-- **C202 is false** of the token call: if the wallet stops when the issuer has answered and the answer is not yet saved, it is left with the flow as it
was before the call, and the code in it is spent. However the wallet goes on from there, with whatever calls and further stops, no token call for
that flow succeeds: the user has to be given a new offer. -/
theorem C202_token_lost (hfresh : Issuer.Env.Fresh n.env) (hw1 : Issuer.Reachable n.env w1) (ho : e.oracle = n.oracle w1 0) (hf : e.Fresh)
    (hr : Holder.Reachable e w) {k : String} {s : Holder.HStep} (hq : s.req = .token k) {resp : Holder.Resp} (hok : (Holder.step e w s).1 = .ok resp) :
    ∃ m, (Holder.stopped e m w s).store = w.store ∧
      ∀ (between : List (Holder.HStep × Option Nat)) (again : Holder.HStep), again.req = .token k →
        ∃ err, (Holder.step e (Holder.live e (Holder.stopped e m w s) between) again).1 = .error err := by
  obtain ⟨i, p, t, hi, hp, hans, hst⟩ := token_stopped hq hok
  have hI := Holder.reachable_inv hf hr
  refine ⟨2, by rw [hst], fun between again ha => ?_⟩
  refine Lost.refused hfresh ho (Lost.live hfresh hf (code := p.preAuthorizedCode) ?_ between) ha
  rw [hst]
  refine ⟨⟨hI.key, fun x j hj => ?_, fun x q hq => ?_⟩, hI.key _ _ hi, fun j p' hj hp' => ?_, ?_⟩
  · have hv : Holder.FlowInv e w.log x j := hI.val _ _ hj
    exact ⟨hv.id, hv.note⟩
  · exact (hI.val _ _ hq : Holder.PresInv w.log x q).id
  · have hj : w.store k = some (.issuance j) := hj
    rw [hi] at hj; cases hj
    rw [hp] at hp'; cases hp'
    rfl
  · rw [ho] at hans
    have hans : n.answer w1 (Net.made 0 w.log []) (.token ⟨i.issuer.credentialIssuer, some i.clientId, .preAuthorizedCode p.preAuthorizedCode i.pin, i.accepted⟩)
        (.token ⟨i.issuer.credentialIssuer, some i.clientId, .preAuthorizedCode p.preAuthorizedCode i.pin, i.accepted⟩) = some t := hans
    have hok := reply_token hans
    generalize hQ : (⟨i.issuer.credentialIssuer, some i.clientId, .preAuthorizedCode p.preAuthorizedCode i.pin, i.accepted⟩ : Issuer.TokenRequest) = Q at hok ⊢
    have hcode : Q.grantType.code = p.preAuthorizedCode := by subst hQ; rfl
    have hm : Net.made 0 (w.log ++ [⟨s.provider, w.now + s.wait, s.req, .error .store, [⟨.token Q, some t⟩]⟩]) [] = Net.made 0 w.log [] ++ [.token Q] := by
      simp [Net.made]
    show Issuer.Spent n.env _ (n.after w1 (Net.made 0 (w.log ++ [_]) [])).2
    rw [hm, n.after_snoc w1 (r := .token Q) rfl]
    have hra : Issuer.Reachable n.env (n.arrival (n.after w1 (Net.made 0 w.log [])).1 (n.after w1 (Net.made 0 w.log [])).2) := by
      obtain ⟨l, hl⟩ := n.arrival_exec w1 (Net.made 0 w.log [])
      obtain ⟨t0, l0, rfl⟩ := hw1
      exact ⟨t0, l0 ++ l, by rw [hl, Issuer.exec_append]⟩
    unfold Net.serve at hok ⊢
    have hok' := hok
    rw [Issuer.step_token rfl] at hok'
    obtain ⟨r', hr', hrt⟩ := Issuer.map_ok.1 hok'
    cases hrt
    obtain ⟨st, hs, _, hstage⟩ := Issuer.C02_token_needs_matching_grant (Issuer.pair_of_fst hr')
    have hgr : st.isGrant := by
      subst hQ
      obtain ⟨o, ho, _⟩ := hstage
      exact .inl ⟨o, ho⟩
    rw [← hcode]
    exact Issuer.token_spent hfresh hra hs hgr (Issuer.C01_token_removes_code hfresh hra rfl hs (.inr ⟨_, hok⟩))

end

end Verif.Interop
