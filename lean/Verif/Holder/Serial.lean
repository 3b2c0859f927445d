import Verif.Holder.OverlapProps
import Verif.Holder.ReceiveProps
/-!
# Calls about a flow that do not overlap each other take effect one after the other (C113)

Whatever else a wallet is doing: if the calls about some flows do not overlap each other, there is a wallet that serves one call at a time and does the same
for these flows. So everything that is proved of such a wallet (`exec`) holds of them.
-/
namespace Verif.Holder
open Verif HProg

/-! ### Specification -/

/-- The call that a turn is of. Specification; models no code. -/
def Turn.call : Turn → Option Nat
  | .tick _ => none
  | .run i _ _ => some i

/-- Among themselves, the calls of `A` have their turns one after the other, in this order. Specification; models no code. -/
def OneByOne (A : Nat → Bool) (s : List Turn) (order : List Nat) : Prop :=
  order.Nodup ∧ (∀ i ∈ order, A i = true) ∧ ∃ m : Nat → Nat, (s.filterMap Turn.call).filter A = order.flatMap fun i => List.replicate (m i) i

/-! ### The clock is read at most once -/

namespace HProg
variable {α β : Type}

/-- Programs that do not look at the clock. -/
def Timeless : HProg α → Prop
  | ret _ => True
  | get _ c => ∀ o, Timeless (c o)
  | put _ _ c => ∀ b, Timeless (c b)
  | purge _ c => ∀ b, Timeless (c b)
  | draw c => ∀ t, Timeless (c t)
  | now _ => False
  | call _ k => ∀ o, Timeless (k o)

/-- Programs that look at the clock at most once. -/
def Once : HProg α → Prop
  | ret _ => True
  | get _ c => ∀ o, Once (c o)
  | put _ _ c => ∀ b, Once (c b)
  | purge _ c => ∀ b, Once (c b)
  | draw c => ∀ t, Once (c t)
  | now c => ∀ t, Timeless (c t)
  | call _ k => ∀ o, Once (k o)

theorem Timeless.bind {p : HProg α} {f : α → HProg β} (h : Timeless p) (hf : ∀ a, Timeless (f a)) : Timeless (p >>= f) := by
  show Timeless (p.bind f)
  induction p with
  | ret r =>
    cases r with
    | ok a => exact hf a
    | error x => trivial
  | get k c ih => exact fun o => ih o (h o)
  | put k v c ih => exact fun o => ih o (h o)
  | purge k c ih => exact fun o => ih o (h o)
  | draw c ih => exact fun o => ih o (h o)
  | now c => exact h.elim
  | call c k ih => exact fun o => ih o (h o)

theorem Timeless.then_once {p : HProg α} {f : α → HProg β} (h : Timeless p) (hf : ∀ a, Once (f a)) : Once (p >>= f) := by
  show Once (p.bind f)
  induction p with
  | ret r =>
    cases r with
    | ok a => exact hf a
    | error x => trivial
  | get k c ih => exact fun o => ih o (h o)
  | put k v c ih => exact fun o => ih o (h o)
  | purge k c ih => exact fun o => ih o (h o)
  | draw c ih => exact fun o => ih o (h o)
  | now c => exact h.elim
  | call c k ih => exact fun o => ih o (h o)

theorem Timeless.once {p : HProg α} (h : Timeless p) : Once p := by
  induction p with
  | ret r => trivial
  | get k c ih => exact fun o => ih o (h o)
  | put k v c ih => exact fun o => ih o (h o)
  | purge k c ih => exact fun o => ih o (h o)
  | draw c ih => exact fun o => ih o (h o)
  | now c => exact h.elim
  | call c k ih => exact fun o => ih o (h o)

theorem once_now {f : Int → HProg β} (hf : ∀ t, Timeless (f t)) : Once (nowE >>= f) := fun t => hf t

theorem timeless_pure {a : α} : Timeless (Pure.pure a : HProg α) := True.intro
theorem timeless_lift {r : HRes α} : Timeless (lift r) := True.intro
theorem timeless_refuse {s : String} : Timeless (refuse s : HProg α) := True.intro
theorem timeless_getIssuance {k : String} : Timeless (getIssuance k) := fun o => by
  dsimp only
  split <;> trivial
theorem timeless_getPresentation {k : String} : Timeless (getPresentation k) := fun o => by
  dsimp only
  split <;> trivial
theorem timeless_putE {k : String} {v : HVal} : Timeless (putE k v) := fun _ => True.intro
theorem timeless_purgeE {k : String} : Timeless (purgeE k) := fun _ => True.intro
theorem timeless_drawE : Timeless drawE := fun _ => True.intro
theorem timeless_callE {c : Call} : Timeless (callE c) := fun _ => True.intro
theorem timeless_callO {c : Call} : Timeless (callO c) := fun _ => True.intro

end HProg

macro "timeless" : tactic => `(tactic| first
  | exact timeless_pure | exact timeless_lift | exact timeless_refuse | exact timeless_getIssuance | exact timeless_getPresentation
  | exact timeless_putE | exact timeless_purgeE | exact timeless_drawE | exact timeless_callE | exact timeless_callO)

theorem timeless_storable {P : Provider} {config : CredentialConfiguration} {kind : Kind Vc} : Timeless (storable P config kind) := by
  unfold storable
  refine timeless_lift.bind fun p => ?_
  split
  · timeless
  · refine timeless_lift.bind fun _ => ?_
    split
    · timeless
    · refine Timeless.bind ?_ fun id => timeless_lift.bind fun uri => Timeless.bind ?_ fun _ => timeless_pure
      · unfold storableId
        split
        · timeless
        · exact timeless_drawE.bind fun _ => timeless_pure
      · unfold fetchLogo
        split <;> timeless

theorem timeless_storables {P : Provider} {config : CredentialConfiguration} (l : List (Kind Vc)) : Timeless (storables P config l) := by
  induction l with
  | nil => timeless
  | cons k l ih => exact timeless_storable.bind fun _ => ih.bind fun _ => timeless_pure

theorem timeless_process {P : Provider} {config : CredentialConfiguration} {r : CredentialResponse} : Timeless (process P config r) := by
  unfold process
  split
  · exact timeless_storable.bind fun _ => timeless_pure
  · exact (timeless_storables _).bind fun _ => timeless_pure
  · timeless

theorem timeless_byIdentifiers {P : Provider} {jwt cfg : String} {config : CredentialConfiguration} {wanted : Option (List String)} (l : List String)
    (i : Issuance) : Timeless (byIdentifiers P jwt cfg config wanted l i) := by
  induction l generalizing i with
  | nil => timeless
  | cons id l ih =>
    unfold byIdentifiers
    split
    · exact timeless_callE.bind fun _ => timeless_process.bind fun _ => ih _
    · exact ih _

theorem timeless_byDetails {P : Provider} {jwt : String} {wanted : Option (List String)} (l : List Issuer.AuthorizedDetail) (i : Issuance) :
    Timeless (byDetails P jwt wanted l i) := by
  induction l generalizing i with
  | nil => timeless
  | cons d l ih => exact timeless_lift.bind fun _ => timeless_lift.bind fun _ => (timeless_byIdentifiers _ _).bind fun _ => ih _

theorem timeless_fetch {P : Provider} {i : Issuance} {req : CredentialsRequest} {jwt : String} : Timeless (fetch P i req jwt) := by
  unfold fetch
  split
  · exact timeless_lift.bind fun _ => timeless_lift.bind fun _ => timeless_lift.bind fun _ => timeless_callE.bind fun _ => timeless_process.bind fun _ => timeless_pure
  · exact timeless_lift.bind fun _ => timeless_byDetails _ _

theorem timeless_saveAll {i : Issuance} (l : List Credential) : Timeless (saveAll i l) := by
  induction l with
  | nil => timeless
  | cons c l ih =>
    refine timeless_callO.bind fun o => ?_
    split
    · exact ih
    · refine Timeless.bind ?_ fun _ => timeless_lift
      unfold notifyFailure
      split
      · timeless
      · exact timeless_callO.bind fun _ => timeless_pure

theorem timeless_notifyOutcome {i : Issuance} {ev : NotificationEvent} : Timeless (notifyOutcome i ev) := by
  unfold notifyOutcome
  split
  · timeless
  · exact timeless_callE.bind fun _ => timeless_pure

theorem timeless_newIssuance {c : String} : Timeless (newIssuance c) := timeless_drawE.bind fun _ => timeless_pure

theorem timeless_setIssuer {i : Issuance} {u : String} : Timeless (setIssuer i u) := timeless_callE.bind fun _ => timeless_callE.bind fun _ => timeless_pure

theorem once_serve (P : Provider) (r : Req) : Once (serve P r) := by
  cases r with
  | offer r => exact (timeless_lift.bind fun _ => timeless_newIssuance.bind fun _ => timeless_setIssuer.bind fun _ => timeless_putE.bind fun _ => timeless_lift.bind fun _ =>
      timeless_pure).once
  | accept r => exact (timeless_getIssuance.bind fun _ => timeless_lift.bind fun _ => timeless_lift.bind fun _ => timeless_lift.bind fun _ => timeless_putE.bind fun _ =>
      timeless_pure).once
  | pin r => exact (timeless_getIssuance.bind fun _ => timeless_lift.bind fun _ => timeless_putE.bind fun _ => timeless_pure).once
  | token id => exact (timeless_getIssuance.bind fun _ => timeless_lift.bind fun _ => timeless_lift.bind fun _ => timeless_callE.bind fun _ => timeless_lift.bind fun _ =>
      timeless_putE.bind fun _ => timeless_pure).once
  | authorize r =>
    refine (Timeless.bind ?_ fun _ => timeless_drawE.bind fun _ => timeless_lift.bind fun _ => timeless_callE.bind fun _ => timeless_callE.bind fun _ =>
      timeless_lift.bind fun _ => timeless_putE.bind fun _ => timeless_pure).once
    unfold startFlow
    split
    · exact timeless_getIssuance.bind fun _ => timeless_lift.bind fun _ => timeless_pure
    · exact timeless_lift.bind fun _ => timeless_newIssuance.bind fun _ => timeless_setIssuer.bind fun _ => timeless_pure
  | credentials r => exact timeless_getIssuance.then_once fun _ => timeless_lift.then_once fun _ => once_now fun _ => timeless_lift.bind fun _ =>
      timeless_fetch.bind fun _ => timeless_putE.bind fun _ => timeless_pure
  | deferred r =>
    refine (timeless_getIssuance.bind fun _ => timeless_lift.bind fun _ => timeless_callE.bind fun _ => timeless_lift.bind fun _ => timeless_process.bind fun _ =>
      Timeless.bind ?_ fun _ => timeless_pure).once
    unfold stash
    split <;> timeless
  | save id =>
    refine (timeless_getIssuance.bind fun _ => (timeless_saveAll _).bind fun _ => timeless_notifyOutcome.bind fun _ => Timeless.bind ?_ fun _ => timeless_pure).once
    unfold endFlow
    split <;> timeless
  | cancel id => exact (timeless_getIssuance.bind fun _ => timeless_notifyOutcome.bind fun _ => timeless_purgeE.bind fun _ => timeless_pure).once
  | request u =>
    refine (timeless_lift.bind fun _ => timeless_drawE.bind fun _ => Timeless.bind ?_ fun _ => timeless_lift.bind fun _ => timeless_callE.bind fun _ =>
      timeless_putE.bind fun _ => timeless_pure).once
    unfold obtainRequest
    split
    · timeless
    · exact timeless_callE.bind fun _ => timeless_lift
  | authorizePresentation id => exact (timeless_getPresentation.bind fun _ => timeless_lift.bind fun _ => timeless_putE.bind fun _ => timeless_pure).once
  | present id =>
    refine timeless_getPresentation.then_once fun _ => timeless_lift.then_once fun _ => Timeless.then_once ?_ fun _ => Timeless.then_once ?_ fun _ =>
      once_now fun _ => timeless_lift.bind fun _ => timeless_callE.bind fun _ => timeless_pure
    · unfold createSubmission
      split
      · timeless
      · exact timeless_drawE.bind fun _ => timeless_pure
    · refine timeless_drawE.bind fun _ => ?_
      dsimp only
      split <;> timeless


/-! ### What a run looks at -/

/-- From this world on, the two surroundings are the same. -/
structure Agrees (e e' : HEnv) (w : HWorld) : Prop where
  rng : ∀ n, w.drawn ≤ n → e.rng n = e'.rng n
  fault : ∀ n, w.ops ≤ n → e.fault n = e'.fault n
  oracle : ∀ log recent c, w.log.length < log.length ∨ w.log.length = log.length ∧ w.recent.length ≤ recent.length → e.oracle log recent c = e'.oracle log recent c

theorem run_agrees {α : Type} {e e' : HEnv} (q : HProg α) (w : HWorld) (h : Agrees e e' w) : q.run e w = q.run e' w ∧ Agrees e e' (q.run e w).2 := by
  induction q generalizing w with
  | ret r => exact ⟨rfl, h⟩
  | get k c ih =>
    simp only [HProg.run]
    rw [← h.fault _ (Nat.le_refl _)]
    exact ih _ _ ⟨h.rng, fun n hn => h.fault n (Nat.le_of_succ_le hn), h.oracle⟩
  | put k v c ih =>
    simp only [HProg.run]
    rw [← h.fault _ (Nat.le_refl _)]
    exact ih _ _ ⟨h.rng, fun n hn => h.fault n (Nat.le_of_succ_le hn), h.oracle⟩
  | purge k c ih =>
    simp only [HProg.run]
    rw [← h.fault _ (Nat.le_refl _)]
    exact ih _ _ ⟨h.rng, fun n hn => h.fault n (Nat.le_of_succ_le hn), h.oracle⟩
  | draw c ih =>
    simp only [HProg.run]
    rw [← h.rng _ (Nat.le_refl _)]
    exact ih _ _ ⟨fun n hn => h.rng n (Nat.le_of_succ_le hn), h.fault, h.oracle⟩
  | now c ih => exact ih _ _ h
  | call c k ih =>
    simp only [HProg.run]
    rw [← h.oracle _ _ _ (.inr ⟨rfl, Nat.le_refl _⟩)]
    refine ih _ _ ⟨h.rng, h.fault, fun log recent c hl => h.oracle log recent c ?_⟩
    rcases hl with hl | ⟨hl, hr⟩
    · exact .inl hl
    · exact .inr ⟨hl, by simp at hr; omega⟩

/-- The call under way goes on alone to its end, and then these calls are served. -/
def resume (e : HEnv) (c : Provider × Req) (q : HProg Resp) (w : HWorld) (steps : List HStep) : HWorld :=
  exec e { (q.run e w).2 with log := (q.run e w).2.log ++ [⟨c.1, w.now, c.2, (q.run e w).1, (q.run e w).2.recent⟩], recent := [] } steps

theorem exec_resume (e : HEnv) (w : HWorld) (st : HStep) (l : List HStep) :
    exec e w (st :: l) = resume e (st.provider, st.req) (serve st.provider st.req) { w with now := w.now + st.wait, recent := [] } l := rfl

theorem exec_agrees {e e' : HEnv} (steps : List HStep) (w : HWorld) (h : Agrees e e' w) (hw : w.recent = []) : exec e w steps = exec e' w steps := by
  induction steps generalizing w with
  | nil => rfl
  | cons st l ih =>
    have h' : Agrees e e' { w with now := w.now + st.wait, recent := [] } := ⟨h.rng, h.fault, fun log recent c hl => h.oracle log recent c (by rw [hw]; exact hl)⟩
    obtain ⟨h1, h2⟩ := run_agrees (serve st.provider st.req) _ h'
    rw [exec_resume, exec_resume, resume, resume, ← h1]
    refine ih _ ⟨h2.rng, h2.fault, fun log recent c hl => h2.oracle log recent c (.inl ?_)⟩ rfl
    simp only [List.length_append, List.length_singleton] at hl
    omega

theorem resume_agrees {e e' : HEnv} {c : Provider × Req} (q : HProg Resp) (w : HWorld) (steps : List HStep) (h : Agrees e e' w) :
    resume e c q w steps = resume e' c q w steps := by
  obtain ⟨h1, h2⟩ := run_agrees q _ h
  rw [resume, resume, ← h1]
  refine exec_agrees _ _ ⟨h2.rng, h2.fault, fun log recent c hl => h2.oracle log recent c (.inl ?_)⟩ rfl
  simp only [List.length_append, List.length_singleton] at hl
  omega

/-! ### Calls that are not scheduled -/

theorem heard_append (H : Trace) (x : Nat × Act) (i : Nat) : HPool.heard (H ++ [x]) i = HPool.heard H i ++ HPool.heard [x] i := by
  simp only [HPool.heard, List.filterMap_append]

theorem turn_absent {rng : Nat → Nat → String} {p : HPool} {i : Nat} {t : Turn} (h : t.call ≠ some i) :
    (HPool.turn rng p t).prog i = p.prog i ∧ HPool.heard (HPool.turn rng p t).trace i = HPool.heard p.trace i := by
  cases t with
  | tick ns => exact ⟨rfl, rfl⟩
  | run j f a =>
    have hne : i ≠ j := fun e => h (by rw [e]; rfl)
    refine ⟨HPool.turn_other hne, ?_⟩
    simp only [HPool.turn]
    split <;> simp only [heard_append] <;> simp [HPool.heard, Ne.symm hne]

theorem turns_absent {rng : Nat → Nat → String} {i : Nat} (s : List Turn) {p : HPool} (h : i ∉ s.filterMap Turn.call) :
    (HPool.turns rng p s).prog i = p.prog i ∧ HPool.heard (HPool.turns rng p s).trace i = HPool.heard p.trace i := by
  induction s generalizing p with
  | nil => exact ⟨rfl, rfl⟩
  | cons t s ih =>
    have h1 : t.call ≠ some i := fun e => h (List.mem_filterMap.mpr ⟨t, by simp, e⟩)
    have h2 : i ∉ s.filterMap Turn.call := fun e => h (by
      obtain ⟨t', ht, e⟩ := List.mem_filterMap.mp e
      exact List.mem_filterMap.mpr ⟨t', by simp [ht], e⟩)
    have h3 := ih (p := HPool.turn rng p t) h2
    have h4 := turn_absent (rng := rng) (p := p) h1
    exact ⟨h3.1.trans h4.1, h3.2.trans h4.2⟩

theorem turns_idle {rng : Nat → Nat → String} (s : List Turn) {p : HPool} (h : s.filterMap Turn.call = []) : (HPool.turns rng p s).store = p.store := by
  induction s generalizing p with
  | nil => rfl
  | cons t s ih =>
    cases t with
    | tick ns => exact ih h
    | run j f a => cases h

/-! ### The simulation -/

/-- The calls that a wallet would be making after this, one by one, do what the rest of the schedule does. -/
structure Sim (rng : Nat → Nat → String) (calls : Nat → Provider × Req) (i0 : Nat) (s : List Turn) (p : HPool) (i : Nat) (rest : List Nat) (w : HWorld)
    (red : Bool) (t : Int) (e : HEnv) (steps : List HStep) (φ : Nat → Nat × Nat) : Prop where
  past : red = true → t = w.now
  ahead : red = false → p.now ≤ t
  same : steps.map (fun st => (st.provider, st.req)) = rest.map calls
  draws : ∀ d, w.drawn ≤ d → e.rng d = rng (φ d).1 (φ d).2
  inj : ∀ d d', w.drawn ≤ d → w.drawn ≤ d' → φ d = φ d' → d = d'
  range : ∀ d, w.drawn ≤ d → ((φ d).1 = i ∧ p.drawn i ≤ (φ d).2) ∨ (φ d).1 ∈ rest ∨ (φ d).1 = i0
  fault : ∀ n, e.fault n = .ok ∨ ∃ j a, Turn.run j (e.fault n) a ∈ s
  oracle : ∀ log recent, (∀ c, e.oracle log recent c = none) ∨ ∃ j f, Turn.run j f (e.oracle log recent) ∈ s
  log : ∃ new, (resume e (calls i) (p.prog i) { w with now := t } steps).log = w.log ++ new ∧
    new.map (fun en => (en.provider, en.req)) = (i :: rest).map calls ∧
    ∀ x ∈ (i :: rest).zip new, (HPool.turns rng p s).Ended x.1 x.2.result ∧ x.2.events = HPool.heard (HPool.turns rng p s).trace x.1
  store : (HPool.turns rng p s).store = (resume e (calls i) (p.prog i) { w with now := t } steps).store

/-- What is known of the pool and the world when one call is under way and the others have not begun. -/
structure Ready (calls : Nat → Provider × Req) (p : HPool) (i : Nat) (rest : List Nat) (w : HWorld) (red : Bool) : Prop where
  store : p.store = w.store
  heard : HPool.heard p.trace i = w.recent
  now : w.now ≤ p.now
  timeless : red = true → HProg.Timeless (p.prog i)
  once : red = false → HProg.Once (p.prog i)
  fresh : ∀ j ∈ rest, p.prog j = serve (calls j).1 (calls j).2 ∧ HPool.heard p.trace j = []

section
variable {rng : Nat → Nat → String} {calls : Nat → Provider × Req} {i0 : Nat}

/-- One turn of the call under way. -/
theorem Sim.cons {s : List Turn} {p : HPool} {i : Nat} {rest : List Nat} {w w' : HWorld} {red red' : Bool} {f : Fault} {a : (c : Call) → Option c.Reply}
    {t : Int} {e e' : HEnv} {steps : List HStep} {φ φ' : Nat → Nat × Nat}
    (h : Sim rng calls i0 s (HPool.turn rng p (.run i f a)) i rest w' red' t e' steps φ')
    (hpast : red = true → t = w.now) (hahead : red = false → p.now ≤ t)
    (hrng : ∀ d, w.drawn ≤ d → e.rng d = rng (φ d).1 (φ d).2) (hinj : ∀ d d', w.drawn ≤ d → w.drawn ≤ d' → φ d = φ d' → d = d')
    (hrange : ∀ d, w.drawn ≤ d → ((φ d).1 = i ∧ p.drawn i ≤ (φ d).2) ∨ (φ d).1 ∈ rest ∨ (φ d).1 = i0)
    (hfault : ∀ n, e.fault n = e'.fault n ∨ e.fault n = f)
    (horacle : ∀ log recent, e.oracle log recent = e'.oracle log recent ∨ e.oracle log recent = a)
    (hlog : w'.log = w.log)
    (hres : resume e (calls i) (p.prog i) { w with now := t } steps =
      resume e' (calls i) ((HPool.turn rng p (.run i f a)).prog i) { w' with now := t } steps) :
    Sim rng calls i0 (.run i f a :: s) p i rest w red t e steps φ where
  past := hpast
  ahead := hahead
  same := h.same
  draws := hrng
  inj := hinj
  range := hrange
  fault n := by
    rcases hfault n with hn | hn <;> rw [hn]
    · rcases h.fault n with hm | ⟨j, b, hm⟩
      · exact .inl hm
      · exact .inr ⟨j, b, List.mem_cons_of_mem _ hm⟩
    · exact .inr ⟨i, a, List.mem_cons_self⟩
  oracle log recent := by
    rcases horacle log recent with hn | hn <;> rw [hn]
    · rcases h.oracle log recent with hm | ⟨j, b, hm⟩
      · exact .inl hm
      · exact .inr ⟨j, b, List.mem_cons_of_mem _ hm⟩
    · exact .inr ⟨i, f, List.mem_cons_self⟩
  log := by
    obtain ⟨new, h1, h2⟩ := h.log
    exact ⟨new, by rw [hres, h1, hlog], h2⟩
  store := by rw [hres]; exact h.store

theorem heard_silent {H : Trace} {i j : Nat} : HPool.heard (H ++ [(j, .silent)]) i = HPool.heard H i := by simp [HPool.heard]
theorem heard_wrote {H : Trace} {i j : Nat} : HPool.heard (H ++ [(j, .wrote)]) i = HPool.heard H i := by simp [HPool.heard]
theorem heard_made {H : Trace} {i : Nat} {ev : Event} : HPool.heard (H ++ [(i, .made ev)]) i = HPool.heard H i ++ [ev] := by simp [HPool.heard]

theorem simulate_run (rest : List Nat) (m : Nat → Nat)
    (hdone : ∀ (s : List Turn) (p : HPool) (i : Nat) (w : HWorld) (red : Bool),
      s.filterMap Turn.call = rest.flatMap (fun j => List.replicate (m j) j) → (i :: rest).Nodup → i0 ∉ i :: rest →
      Ready calls p i rest w red → (∀ j ∈ i :: rest, ∃ r, (HPool.turns rng p s).Ended j r) → ∃ t e steps φ, Sim rng calls i0 s p i rest w red t e steps φ)
    (s : List Turn) : ∀ (n : Nat) (p : HPool) (i : Nat) (w : HWorld) (red : Bool),
      s.filterMap Turn.call = List.replicate n i ++ rest.flatMap (fun j => List.replicate (m j) j) → (i :: rest).Nodup → i0 ∉ i :: rest →
      Ready calls p i rest w red → (∀ j ∈ i :: rest, ∃ r, (HPool.turns rng p s).Ended j r) →
      ∃ t e steps φ, Sim rng calls i0 s p i rest w red t e steps φ := by
  induction s with
  | nil =>
    intro n p i w red hs
    cases n with
    | zero => exact hdone [] p i w red (by simpa using hs)
    | succ n => simp [List.replicate_succ] at hs
  | cons t s ih =>
    intro n p i w red hs hnd hi0 hr hend
    cases n with
    | zero => exact hdone _ p i w red (by simpa using hs) hnd hi0 hr hend
    | succ n =>
      cases t with
      | tick ns =>
        obtain ⟨t, e, steps, φ, h⟩ := ih (n + 1) (HPool.turn rng p (.tick ns)) i w red hs hnd hi0
          ⟨hr.store, hr.heard, by simp only [HPool.turn]; have := hr.now; omega, hr.timeless, hr.once, hr.fresh⟩ hend
        exact ⟨t, e, steps, φ, { h with
          ahead := fun hb => by have := h.ahead hb; simp only [HPool.turn] at this; omega
          fault := fun n => (h.fault n).imp id fun ⟨j, a, hm⟩ => ⟨j, a, List.mem_cons_of_mem _ hm⟩
          oracle := fun l r => (h.oracle l r).imp id fun ⟨j, a, hm⟩ => ⟨j, a, List.mem_cons_of_mem _ hm⟩ }⟩
      | run j f a =>
        simp only [List.filterMap_cons, Turn.call, List.replicate_succ, List.cons_append, List.cons.injEq] at hs
        obtain ⟨rfl, hs⟩ := hs
        have hfresh : ∀ k ∈ rest, (HPool.turn rng p (.run j f a)).prog k = serve (calls k).1 (calls k).2 ∧
            HPool.heard (HPool.turn rng p (.run j f a)).trace k = [] := by
          intro k hk
          have hne : (Turn.run j f a).call ≠ some k := by
            intro e
            injection e with e
            rw [← e] at hk
            exact (List.nodup_cons.mp hnd).1 hk
          have h1 := turn_absent (rng := rng) (p := p) hne
          have h2 := hr.fresh k hk
          exact ⟨h1.1.trans h2.1, h1.2.trans h2.2⟩
        have hd0 : ∀ (d : Nat) (φ : Nat → Nat × Nat), (φ d).1 ∈ rest ∨ (φ d).1 = i0 → (φ d).1 ≠ j := by
          rintro d φ (hm | hm) e
          · rw [e] at hm; exact (List.nodup_cons.mp hnd).1 hm
          · rw [e] at hm; exact hi0 (by rw [hm]; exact List.mem_cons_self)
        have htime := hr.timeless
        have honce := hr.once
        cases hq : p.prog j with
        | ret r =>
          have ht : HPool.turn rng p (.run j f a) = p := by simp only [HPool.turn, hq]
          obtain ⟨t, e, steps, φ, h⟩ := ih n (HPool.turn rng p (.run j f a)) j w red hs hnd hi0 (by rw [ht]; exact hr) hend
          refine ⟨t, e, steps, φ, h.cons h.past (by have := h.ahead; rw [ht] at this; exact this) h.draws h.inj (by have := h.range; rw [ht] at this; exact this)
            (fun _ => .inl rfl) (fun _ _ => .inl rfl) rfl (by rw [ht])⟩
        | get k c =>
          rw [hq] at htime honce
          have hp : (HPool.turn rng p (.run j f a)).prog j = c (Prog.getRes f (p.store k)) := by simp only [HPool.turn, hq, setAt_same]
          obtain ⟨t, e, steps, φ, h⟩ := ih n (HPool.turn rng p (.run j f a)) j { w with ops := w.ops + 1 } red hs hnd hi0
            ⟨by simp only [HPool.turn, hq]; exact hr.store, by simp only [HPool.turn, hq, heard_silent]; exact hr.heard, by simp only [HPool.turn, hq]; exact hr.now,
              fun hb => by rw [hp]; exact htime hb _, fun hb => by rw [hp]; exact honce hb _, hfresh⟩ hend
          refine ⟨t, { e with fault := fun x => if x = w.ops then f else e.fault x }, steps, φ, h.cons h.past
            (by have := h.ahead; simp only [HPool.turn, hq] at this; exact this) h.draws h.inj (by have := h.range; simp only [HPool.turn, hq] at this; exact this)
            (fun n => by dsimp only; split <;> simp) (fun _ _ => .inl rfl) rfl ?_⟩
          rw [hp, hq, hr.store]
          refine Eq.trans ?_ (resume_agrees (e := { e with fault := fun x => if x = w.ops then f else e.fault x }) _ _ _
            ⟨fun _ _ => rfl, fun x hx => if_neg ?_, fun _ _ _ _ => rfl⟩)
          · simp only [resume, HProg.run, ↓reduceIte]
          · dsimp only at hx; omega
        | put k v c =>
          rw [hq] at htime honce
          have hp : (HPool.turn rng p (.run j f a)).prog j = c (decide (f = .ok)) := by simp only [HPool.turn, hq, setAt_same]
          obtain ⟨t, e, steps, φ, h⟩ := ih n (HPool.turn rng p (.run j f a)) j
            { w with ops := w.ops + 1, store := Prog.writeRes f w.store k (some v) } red hs hnd hi0
            ⟨by simp only [HPool.turn, hq, hr.store], by simp only [HPool.turn, hq, heard_wrote]; exact hr.heard, by simp only [HPool.turn, hq]; exact hr.now,
              fun hb => by rw [hp]; exact htime hb _, fun hb => by rw [hp]; exact honce hb _, hfresh⟩ hend
          refine ⟨t, { e with fault := fun x => if x = w.ops then f else e.fault x }, steps, φ, h.cons h.past
            (by have := h.ahead; simp only [HPool.turn, hq] at this; exact this) h.draws h.inj (by have := h.range; simp only [HPool.turn, hq] at this; exact this)
            (fun n => by dsimp only; split <;> simp) (fun _ _ => .inl rfl) rfl ?_⟩
          rw [hp, hq]
          refine Eq.trans ?_ (resume_agrees (e := { e with fault := fun x => if x = w.ops then f else e.fault x }) _ _ _
            ⟨fun _ _ => rfl, fun x hx => if_neg ?_, fun _ _ _ _ => rfl⟩)
          · simp only [resume, HProg.run, ↓reduceIte]; rfl
          · dsimp only at hx; omega
        | purge k c =>
          rw [hq] at htime honce
          have hp : (HPool.turn rng p (.run j f a)).prog j = c (decide (f = .ok)) := by simp only [HPool.turn, hq, setAt_same]
          obtain ⟨t, e, steps, φ, h⟩ := ih n (HPool.turn rng p (.run j f a)) j
            { w with ops := w.ops + 1, store := Prog.writeRes f w.store k none } red hs hnd hi0
            ⟨by simp only [HPool.turn, hq, hr.store], by simp only [HPool.turn, hq, heard_wrote]; exact hr.heard, by simp only [HPool.turn, hq]; exact hr.now,
              fun hb => by rw [hp]; exact htime hb _, fun hb => by rw [hp]; exact honce hb _, hfresh⟩ hend
          refine ⟨t, { e with fault := fun x => if x = w.ops then f else e.fault x }, steps, φ, h.cons h.past
            (by have := h.ahead; simp only [HPool.turn, hq] at this; exact this) h.draws h.inj (by have := h.range; simp only [HPool.turn, hq] at this; exact this)
            (fun n => by dsimp only; split <;> simp) (fun _ _ => .inl rfl) rfl ?_⟩
          rw [hp, hq]
          refine Eq.trans ?_ (resume_agrees (e := { e with fault := fun x => if x = w.ops then f else e.fault x }) _ _ _
            ⟨fun _ _ => rfl, fun x hx => if_neg ?_, fun _ _ _ _ => rfl⟩)
          · simp only [resume, HProg.run, ↓reduceIte]; rfl
          · dsimp only at hx; omega
        | draw c =>
          rw [hq] at htime honce
          have hp : (HPool.turn rng p (.run j f a)).prog j = c (rng j (p.drawn j)) := by simp only [HPool.turn, hq, setAt_same]
          have hdr : (HPool.turn rng p (.run j f a)).drawn j = p.drawn j + 1 := by simp only [HPool.turn, hq, setAt_same]
          obtain ⟨t, e, steps, φ, h⟩ := ih n (HPool.turn rng p (.run j f a)) j { w with drawn := w.drawn + 1 } red hs hnd hi0
            ⟨by simp only [HPool.turn, hq]; exact hr.store, by simp only [HPool.turn, hq, heard_silent]; exact hr.heard, by simp only [HPool.turn, hq]; exact hr.now,
              fun hb => by rw [hp]; exact htime hb _, fun hb => by rw [hp]; exact honce hb _, hfresh⟩ hend
          have hrange := h.range
          rw [hdr] at hrange
          have hne : ∀ d, w.drawn + 1 ≤ d → φ d ≠ (j, p.drawn j) := by
            intro d hd e
            rcases hrange d hd with ⟨-, hm⟩ | hm
            · rw [e] at hm; dsimp only at hm; omega
            · exact hd0 d φ hm (by rw [e])
          refine ⟨t, { e with rng := fun x => if x = w.drawn then rng j (p.drawn j) else e.rng x }, steps,
            fun x => if x = w.drawn then (j, p.drawn j) else φ x, h.cons h.past
            (by have := h.ahead; simp only [HPool.turn, hq] at this; exact this) ?_ ?_ ?_
            (fun _ => .inl rfl) (fun _ _ => .inl rfl) rfl ?_⟩
          · intro d hd
            dsimp only
            split
            · rfl
            · exact h.draws d (by dsimp only; omega)
          · intro d d' hd hd' he
            split at he <;> split at he
            · omega
            · exact absurd he.symm (hne d' (by omega))
            · exact absurd he (hne d (by omega))
            · exact h.inj d d' (by dsimp only; omega) (by dsimp only; omega) he
          · intro d hd
            split
            · exact .inl ⟨rfl, Nat.le_refl _⟩
            · rcases hrange d (by dsimp only; omega) with ⟨h1, h2⟩ | hm
              · exact .inl ⟨h1, by omega⟩
              · exact .inr hm
          rw [hp, hq]
          refine Eq.trans ?_ (resume_agrees (e := { e with rng := fun x => if x = w.drawn then rng j (p.drawn j) else e.rng x }) _ _ _
            ⟨fun x hx => if_neg ?_, fun x hx => rfl, fun _ _ _ _ => rfl⟩)
          · simp only [resume, HProg.run, ↓reduceIte]
          · dsimp only at hx; omega
        | now c =>
          rw [hq] at htime honce
          have hp : (HPool.turn rng p (.run j f a)).prog j = c p.now := by simp only [HPool.turn, hq, setAt_same]
          cases red with
          | true => exact (htime rfl).elim
          | false =>
            obtain ⟨t, e, steps, φ, h⟩ := ih n (HPool.turn rng p (.run j f a)) j { w with now := p.now } true hs hnd hi0
              ⟨by simp only [HPool.turn, hq]; exact hr.store, by simp only [HPool.turn, hq, heard_silent]; exact hr.heard,
                by simp only [HPool.turn, hq]; exact Int.le_refl _,
                fun hb => by rw [hp]; exact honce rfl _, fun hb => (by cases hb), hfresh⟩ hend
            obtain rfl : t = p.now := h.past rfl
            refine ⟨p.now, e, steps, φ, h.cons (fun hb => by cases hb) (fun _ => Int.le_refl _) h.draws h.inj
              (by have := h.range; simp only [HPool.turn, hq] at this; exact this) (fun _ => .inl rfl) (fun _ _ => .inl rfl) rfl ?_⟩
            rw [hp, hq]
            simp only [resume, HProg.run]
        | call c k =>
          rw [hq] at htime honce
          have hp : (HPool.turn rng p (.run j f a)).prog j = k (a c) := by simp only [HPool.turn, hq, setAt_same]
          obtain ⟨t, e, steps, φ, h⟩ := ih n (HPool.turn rng p (.run j f a)) j { w with recent := w.recent ++ [⟨c, a c⟩] } red hs hnd hi0
            ⟨by simp only [HPool.turn, hq]; exact hr.store, by simp only [HPool.turn, hq, heard_made, hr.heard], by simp only [HPool.turn, hq]; exact hr.now,
              fun hb => by rw [hp]; exact htime hb _, fun hb => by rw [hp]; exact honce hb _, hfresh⟩ hend
          refine ⟨t, { e with oracle := fun l r => if l.length = w.log.length ∧ r.length = w.recent.length then a else e.oracle l r }, steps, φ, h.cons h.past
            (by have := h.ahead; simp only [HPool.turn, hq] at this; exact this) h.draws h.inj (by have := h.range; simp only [HPool.turn, hq] at this; exact this)
            (fun _ => .inl rfl) (fun _ _ => by dsimp only; split <;> simp) rfl ?_⟩
          rw [hp, hq]
          refine Eq.trans ?_ (resume_agrees
            (e := { e with oracle := fun l r => if l.length = w.log.length ∧ r.length = w.recent.length then a else e.oracle l r }) _ _ _
            ⟨fun _ _ => rfl, fun x hx => rfl, fun l r c' hl => ?_⟩)
          · simp only [resume, HProg.run, and_self, ↓reduceIte]
          · dsimp only at hl ⊢
            rw [if_neg]
            rintro ⟨h1, h2⟩
            simp only [List.length_append, List.length_singleton] at hl
            omega

theorem absent_of {s : List Turn} {i : Nat} {rest : List Nat} {m : Nat → Nat} (hs : s.filterMap Turn.call = rest.flatMap (fun j => List.replicate (m j) j))
    (hn : (i :: rest).Nodup) : i ∉ s.filterMap Turn.call := by
  intro hm
  rw [hs] at hm
  obtain ⟨j, hj, hm⟩ := List.mem_flatMap.mp hm
  obtain rfl := (List.mem_replicate.mp hm).2
  exact (List.nodup_cons.mp hn).1 hj

theorem simulate (m : Nat → Nat) (rest : List Nat) : ∀ (s : List Turn) (n : Nat) (p : HPool) (i : Nat) (w : HWorld) (red : Bool),
    s.filterMap Turn.call = List.replicate n i ++ rest.flatMap (fun j => List.replicate (m j) j) → (i :: rest).Nodup → i0 ∉ i :: rest →
    Ready calls p i rest w red → (∀ j ∈ i :: rest, ∃ r, (HPool.turns rng p s).Ended j r) →
    ∃ t e steps φ, Sim rng calls i0 s p i rest w red t e steps φ := by
  induction rest with
  | nil =>
    refine fun s => simulate_run [] m ?_ s
    intro s p i w red hs hn hi0 hr hend
    obtain ⟨r, hend⟩ := hend i (by simp)
    have habs := turns_absent (rng := rng) (p := p) s (absent_of hs hn)
    have hq : p.prog i = .ret r := habs.1 ▸ hend
    refine ⟨if red then w.now else p.now, ⟨fun d => rng i0 d, fun _ => .ok, fun _ _ _ => none⟩, [], fun d => (i0, d), ?_⟩
    refine ⟨fun hb => by simp [hb], fun hb => by simp [hb], rfl, fun _ _ => rfl, fun d d' _ _ h => congrArg Prod.snd h, fun _ _ => .inr (.inr rfl), fun _ => .inl rfl,
      fun _ _ => .inl fun _ => rfl, ⟨[⟨(calls i).1, if red then w.now else p.now, (calls i).2, r, w.recent⟩], ?_, rfl, ?_⟩, ?_⟩
    · rw [hq]; rfl
    · intro x hx
      simp only [List.zip_cons_cons, List.zip_nil_right, List.mem_singleton] at hx
      subst hx
      exact ⟨hend, (habs.2.trans hr.heard).symm⟩
    · rw [turns_idle s hs, hq, hr.store]; rfl
  | cons j rest ih =>
    refine fun s => simulate_run (j :: rest) m ?_ s
    intro s p i w red hs hn hi0 hr hend
    obtain ⟨r, hri⟩ := hend i (by simp)
    have habs := turns_absent (rng := rng) (p := p) s (absent_of hs hn)
    have hq : p.prog i = .ret r := habs.1 ▸ hri
    have htn : (if red then w.now else p.now) ≤ p.now := by
      have := hr.now
      split <;> omega
    obtain ⟨hj1, hj2⟩ := hr.fresh j (by simp)
    obtain ⟨t, e, steps, φ, h⟩ := ih s (m j) p j
      { w with now := if red then w.now else p.now, log := w.log ++ [⟨(calls i).1, if red then w.now else p.now, (calls i).2, r, w.recent⟩], recent := [] } false
      hs (List.nodup_cons.mp hn).2 (fun hm => hi0 (List.mem_cons_of_mem _ hm))
      ⟨hr.store, hj2, htn, fun hb => (by cases hb), fun _ => hj1 ▸ once_serve _ _, fun k hk => hr.fresh k (List.mem_cons_of_mem _ hk)⟩
      (fun k hk => hend k (List.mem_cons_of_mem _ hk))
    have hta := h.ahead rfl
    have hwait : (if red then w.now else p.now) + ((t - if red then w.now else p.now).toNat : Int) = t := by omega
    have hres : resume e (calls i) (p.prog i) { w with now := if red then w.now else p.now }
        (⟨(calls j).1, (t - if red then w.now else p.now).toNat, (calls j).2⟩ :: steps) =
        resume e (calls j) (p.prog j) { w with now := t, log := w.log ++ [⟨(calls i).1, if red then w.now else p.now, (calls i).2, r, w.recent⟩], recent := [] } steps := by
      rw [hq, hj1, resume, exec_resume]
      simp only [HProg.run, hwait]
    refine ⟨if red then w.now else p.now, e, ⟨(calls j).1, (t - if red then w.now else p.now).toNat, (calls j).2⟩ :: steps, φ, ?_⟩
    refine ⟨fun hb => by simp [hb], fun hb => by simp [hb], by simp [h.same], h.draws, h.inj, fun d hd => ?_, h.fault, h.oracle, ?_, ?_⟩
    · rcases h.range d hd with ⟨h1, _⟩ | h1 | h1
      · exact .inr (.inl (by simp [h1]))
      · exact .inr (.inl (by simp [h1]))
      · exact .inr (.inr h1)
    · obtain ⟨new, h1, h2, h3⟩ := h.log
      refine ⟨⟨(calls i).1, if red then w.now else p.now, (calls i).2, r, w.recent⟩ :: new, ?_, ?_, ?_⟩
      · rw [hres, h1]; simp
      · rw [List.map_cons, h2]; rfl
      · intro x hx
        rw [List.zip_cons_cons, List.mem_cons] at hx
        rcases hx with rfl | hx
        · exact ⟨hri, (habs.2.trans hr.heard).symm⟩
        · exact h3 x hx
    · rw [hres]; exact h.store

end

/-! ### The theorem -/

theorem fresh_number (l : List Nat) : ∃ n, n ∉ l := by
  have : ∀ l : List Nat, ∃ b, ∀ x ∈ l, x < b := by
    intro l
    induction l with
    | nil => exact ⟨0, by simp⟩
    | cons a l ih =>
      obtain ⟨b, hb⟩ := ih
      refine ⟨max b (a + 1), fun x hx => ?_⟩
      rcases List.mem_cons.mp hx with rfl | hx
      · omega
      · have := hb x hx; omega
  obtain ⟨b, hb⟩ := this l
  exact ⟨b, fun h => Nat.lt_irrefl _ (hb b h)⟩

theorem filterMap_among (A : Nat → Bool) (s : List Turn) : (s.filter (among A)).filterMap Turn.call = (s.filterMap Turn.call).filter A := by
  induction s with
  | nil => rfl
  | cons t s ih =>
    cases t with
    | tick ns => rw [List.filter_cons_of_pos (by rfl)]; exact ih
    | run j f a =>
      cases h : A j with
      | true => rw [List.filter_cons_of_pos (by exact h)]; simp [Turn.call, h, ih]
      | false => rw [List.filter_cons_of_neg (by simp [among, h])]; simp [Turn.call, h, ih]

theorem heard_filter (A : Nat → Bool) (H : Trace) {i : Nat} (h : A i = true) : HPool.heard (H.filter fun x => A x.1) i = HPool.heard H i := by
  induction H with
  | nil => rfl
  | cons x H ih =>
    obtain ⟨j, a⟩ := x
    cases hj : A j with
    | true =>
      rw [List.filter_cons_of_pos (by exact hj)]
      simp only [HPool.heard, List.filterMap_cons] at ih ⊢
      rw [ih]
    | false =>
      have hne : j ≠ i := fun e => by rw [e, h] at hj; cases hj
      rw [List.filter_cons_of_neg (by simp [hj]), ih]
      cases a <;> simp [HPool.heard, hne]

/-- Whatever else the wallet is doing, and however these overlap with it: if calls that share no flow with the others do not overlap each other, and each comes
to its end, then there is a wallet that serves one call at a time, and that serves these calls, in this order, with the same results, the same things said to and
heard from others, and the same flows stored in the end. Its random texts are as good as those of the wallet with overlapping calls, and its store and its
partners do nothing that they did not do for these calls.

Missing (and false, see `C113_received_credential_lost`): the same when these calls do overlap each other. -/
theorem C113_one_after_another_partial {rng : Nat → Nat → String} {t0 : Int} {calls : Nat → Provider × Req} {s : List Turn} {A : Nat → Bool}
    (hd : ∀ i j k, A i = true → A j = false → Own rng calls i k → ¬ Own rng calls j k) {order : List Nat} (ho : OneByOne A s order)
    (hend : ∀ i ∈ order, ∃ r, (overlapped rng t0 calls s).Ended i r) :
    ∃ (e : HEnv) (steps : List HStep),
      steps.map (fun st => (st.provider, st.req)) = order.map calls ∧
      (exec e (start t0) steps).log.map (fun en => (en.provider, en.req)) = order.map calls ∧
      (∀ x ∈ order.zip (exec e (start t0) steps).log,
        (overlapped rng t0 calls s).Ended x.1 x.2.result ∧ x.2.events = HPool.heard (overlapped rng t0 calls s).trace x.1) ∧
      (∀ i k, A i = true → Own rng calls i k → (overlapped rng t0 calls s).store k = (exec e (start t0) steps).store k) ∧
      ((∀ i n j m, rng i n = rng j m → i = j ∧ n = m) → e.Fresh) ∧
      (∀ n, e.fault n = .ok ∨ ∃ j a, A j = true ∧ Turn.run j (e.fault n) a ∈ s) ∧
      (∀ log recent, (∀ c, e.oracle log recent c = none) ∨ ∃ j f, A j = true ∧ Turn.run j f (e.oracle log recent) ∈ s) := by
  obtain ⟨hnd, hA, m, hs⟩ := ho
  rw [← filterMap_among] at hs
  obtain ⟨h1, h2, h3⟩ := C111_flows_independent (rng := rng) (t0 := t0) (calls := calls) (s := s) A hd
  obtain ⟨i0, hi0⟩ := fresh_number order
  cases order with
  | nil =>
    refine ⟨⟨fun d => rng 0 d, fun _ => .ok, fun _ _ _ => none⟩, [], rfl, rfl, fun x hx => (by cases hx), fun i k hi hk => ?_,
      fun hinj a b h => (hinj _ _ _ _ h).2, fun _ => .inl rfl, fun _ _ => .inl fun _ => rfl⟩
    rw [h3 i k hi hk, overlapped, turns_idle _ hs]; rfl
  | cons i rest =>
    obtain ⟨t, e, steps, φ, h⟩ := simulate (rng := rng) (calls := calls) (i0 := i0) m rest (s.filter (among A)) (m i) (HPool.start t0 calls) i (start t0) false hs hnd hi0
      ⟨rfl, rfl, Int.le_refl _, fun hb => (by cases hb), fun _ => once_serve _ _, fun _ _ => ⟨rfl, rfl⟩⟩
      (fun j hj => by
        obtain ⟨r, hr⟩ := hend j hj
        exact ⟨r, (h1 j r (hA j hj)).1 hr⟩)
    have hta : t0 ≤ t := h.ahead rfl
    have hwait : t0 + ((t - t0).toNat : Int) = t := by omega
    have hres : exec e (start t0) (⟨(calls i).1, (t - t0).toNat, (calls i).2⟩ :: steps) =
        resume e (calls i) ((HPool.start t0 calls).prog i) { start t0 with now := t } steps := by
      rw [exec_resume]
      simp only [start, hwait]
      rfl
    have hin : ∀ {j f a}, Turn.run j f a ∈ s.filter (among A) → A j = true ∧ Turn.run j f a ∈ s := fun hm => ⟨(List.mem_filter.mp hm).2, (List.mem_filter.mp hm).1⟩
    refine ⟨e, ⟨(calls i).1, (t - t0).toNat, (calls i).2⟩ :: steps, ?_⟩
    rw [hres]
    obtain ⟨new, hl, hc, hx⟩ := h.log
    have hl : (resume e (calls i) ((HPool.start t0 calls).prog i) { start t0 with now := t } steps).log = new := hl
    rw [hl]
    refine ⟨by simp [h.same], hc, fun x hm => ?_, fun j k hj hk => ?_, fun hinj a b hab => ?_, fun n => ?_, fun l r => ?_⟩
    · have hAx : A x.1 = true := hA _ (List.of_mem_zip hm).1
      obtain ⟨e1, e2⟩ := hx x hm
      refine ⟨(h1 _ _ hAx).2 e1, e2.trans ?_⟩
      rw [← heard_filter A (overlapped rng t0 calls s).trace hAx, h2]; rfl
    · rw [h3 j k hj hk]; exact congrFun h.store k
    · rw [h.draws a (Nat.zero_le _), h.draws b (Nat.zero_le _)] at hab
      obtain ⟨e1, e2⟩ := hinj _ _ _ _ hab
      exact h.inj a b (Nat.zero_le _) (Nat.zero_le _) (Prod.ext e1 e2)
    · exact (h.fault n).imp id fun ⟨j, a, hm⟩ => ⟨j, a, hin hm⟩
    · exact (h.oracle l r).imp id fun ⟨j, a, hm⟩ => ⟨j, a, hin hm⟩

theorem received_same {calls : Nat → Provider × Req} {p : HPool} {r : Nat → HRes Resp} {k : String} {t0 : Int} (order : List Nat) (log : List Entry)
    (hc : log.map (fun en => (en.provider, en.req)) = order.map calls)
    (hx : ∀ x ∈ order.zip log, p.Ended x.1 x.2.result ∧ x.2.events = HPool.heard p.trace x.1) (hr : ∀ j ∈ order, p.Ended j (r j)) :
    received k log = order.flatMap fun j => receivedBy k ⟨(calls j).1, t0, (calls j).2, r j, HPool.heard p.trace j⟩ := by
  induction order generalizing log with
  | nil =>
    cases log with
    | nil => rfl
    | cons en log => cases hc
  | cons j order ih =>
    cases log with
    | nil => cases hc
    | cons en log =>
      simp only [List.map_cons, List.cons.injEq] at hc
      obtain ⟨h1, h2⟩ := hx (j, en) (by simp)
      have h2 : en.events = HPool.heard p.trace j := h2
      have h3 := ih log hc.2 (fun x hm => hx x (by simp [hm])) (fun i hi => hr i (by simp [hi]))
      have h4 : en.result = r j := by
        have h5 := hr j (by simp)
        simp only [HPool.Ended] at h1 h5
        rw [h1] at h5
        injection h5
      have h6 : en.req = (calls j).2 := by rw [← hc.1]
      unfold received at h3 ⊢
      rw [List.flatMap_cons, List.flatMap_cons, h3]
      congr 1
      simp only [receivedBy, h4, h6, h2]

/-- Credentials received by calls that do not overlap are all kept in the flow, and saved once each: a save that ends well hands storage exactly the credentials that
came in calls about this flow that ended well before it, in order, each once, whatever calls about other flows did meanwhile.

Missing (and false, see `C113_received_credential_lost` and `C113_saved_twice`): the same when calls about this flow overlap each other. -/
theorem C113_saved_once_partial {rng : Nat → Nat → String} {t0 : Int} {calls : Nat → Provider × Req} {s : List Turn} {A : Nat → Bool}
    (hinj : ∀ i n j m, rng i n = rng j m → i = j ∧ n = m) (hlate : ∀ i a, Turn.run i .failAfter a ∉ s)
    (hd : ∀ i j k, A i = true → A j = false → Own rng calls i k → ¬ Own rng calls j k) {before after : List Nat} {i : Nat}
    (ho : OneByOne A s (before ++ i :: after)) (r : Nat → HRes Resp) (hend : ∀ j ∈ before ++ i :: after, (overlapped rng t0 calls s).Ended j (r j))
    {k : String} (hq : (calls i).2 = .save k) {resp : Resp} (hok : r i = .ok resp) :
    ∃ cs : List Credential, HPool.heard (overlapped rng t0 calls s).trace i = cs.map (fun c => ⟨.save c, some ()⟩) ∧
      cs.map (·.issued) = before.flatMap fun j =>
        receivedBy k ⟨(calls j).1, t0, (calls j).2, r j, HPool.heard (overlapped rng t0 calls s).trace j⟩ := by
  obtain ⟨e, steps, -, hc, hx, -, hf, hfault, -⟩ := C113_one_after_another_partial (t0 := t0) hd ho fun j hj => ⟨_, hend j hj⟩
  have hn : e.NoLate := by
    intro n hn
    rcases hfault n with h | ⟨j, a, -, hm⟩
    · rw [hn] at h; cases h
    · rw [hn] at hm; exact hlate j a hm
  have hw : Reachable e (exec e (start t0) steps) := ⟨t0, steps, rfl⟩
  generalize exec e (start t0) steps = w at hc hx hw
  rw [List.map_append, List.map_cons] at hc
  obtain ⟨pre, l, hl, hpre, hc'⟩ := List.map_eq_append_iff.mp hc
  obtain ⟨en, post, rfl, hen, hpost⟩ := List.map_eq_cons_iff.mp hc'
  have hlen : before.length = pre.length := by
    have := congrArg List.length hpre
    simp at this
    omega
  rw [hl, List.zip_append hlen, List.zip_cons_cons] at hx
  obtain ⟨he, hev⟩ := hx (i, en) (by simp)
  have hres : en.result = .ok resp := by
    have h5 := hend i (by simp)
    simp only [HPool.Ended] at he h5
    rw [he, hok] at h5
    injection h5
  have hreq : en.req = .save k := by rw [← hq, ← hen]
  obtain ⟨cs, h1, h2, -⟩ := C68_saves_what_was_received (hf hinj) hn hw hl hreq hres
  refine ⟨cs, hev.symm.trans h1, h2.trans ?_⟩
  exact received_same before pre hpre (fun x hm => hx x (by simp [hm])) fun j hj => hend j (by simp [hj])

end Verif.Holder
