import Verif.Sched
import Verif.Holder.Spec
import Verif.Holder.Presentation
/-!
# Overlapping calls of a wallet

The holder's endpoints (/repo/vercre-holder/src) are `async` functions, so a wallet may have several of them under way at once: between two effects of
one, any other may act. This file gives that semantics to the same programs that `HProg.run` runs one at a time, and a logic for all schedules.

As in `Verif/Sched.lean`: one operation of the state store is atomic, and a call that is never scheduled again is one whose process crashed.
-/
namespace Verif.Holder
open Verif HProg

/-- What a call did when it was scheduled: something nobody else sees, a write (or removal) of flow state, or a call to somebody, with the answer.
Machinery of the model of overlapping calls: /repo/vercre-holder/src/provider.rs 28-122 are the services a call waits for. -/
inductive Act where
  | silent
  | wrote
  | made (ev : Event)

/-- What the calls of a wallet did, in order.
Machinery of the model of overlapping calls: /repo/vercre-holder/src/provider.rs 28-122 are the services a call waits for. -/
abbrev Trace := List (Nat × Act)

/-- A pool of wallet calls, numbered, over one state store. `prog i` is what call `i` still has to do, `drawn i` how many random texts it has drawn,
`trace` what has been done so far.
Machinery of the model of overlapping calls: /repo/vercre-holder/src/provider.rs 28-122 are the services a call waits for. -/
structure HPool where
  store : String → Option HVal
  now : Int
  prog : Nat → HProg Resp
  drawn : Nat → Nat
  trace : Trace

/-- What the scheduler may do: let time pass, or let call `i` do its next step, with some outcome if it is a store operation and some answer if it is a
call to somebody. Machinery of the model of overlapping calls: /repo/vercre-holder/src/provider.rs 28-122 are the services a call waits for. -/
inductive Turn where
  | tick (ns : Nat)
  | run (i : Nat) (f : Fault) (answer : (c : Call) → Option c.Reply)

namespace HPool

/-- One turn. `rng i n` is the n-th text drawn by call `i`.
Machinery of the model of overlapping calls: /repo/vercre-holder/src/provider.rs 28-122 are the services a call waits for. -/
def turn (rng : Nat → Nat → String) (p : HPool) : Turn → HPool
  | .tick ns => { p with now := p.now + ns }
  | .run i f answer =>
    match p.prog i with
    | .ret _ => p
    | .get k c => { p with prog := setAt p.prog i (c (Prog.getRes f (p.store k))), trace := p.trace ++ [(i, .silent)] }
    | .put k v c => { p with
        store := Prog.writeRes f p.store k (some v)
        prog := setAt p.prog i (c (decide (f = .ok)))
        trace := p.trace ++ [(i, .wrote)] }
    | .purge k c => { p with
        store := Prog.writeRes f p.store k none
        prog := setAt p.prog i (c (decide (f = .ok)))
        trace := p.trace ++ [(i, .wrote)] }
    | .draw c => { p with
        prog := setAt p.prog i (c (rng i (p.drawn i)))
        drawn := setAt p.drawn i (p.drawn i + 1)
        trace := p.trace ++ [(i, .silent)] }
    | .now c => { p with prog := setAt p.prog i (c p.now), trace := p.trace ++ [(i, .silent)] }
    | .call c k => { p with prog := setAt p.prog i (k (answer c)), trace := p.trace ++ [(i, .made ⟨c, answer c⟩)] }

/-- A schedule. Machinery of the model of overlapping calls: /repo/vercre-holder/src/provider.rs 28-122 are the services a call waits for. -/
def turns (rng : Nat → Nat → String) (p : HPool) : List Turn → HPool
  | [] => p
  | t :: rest => turns rng (turn rng p t) rest

/-- A new wallet with these calls to serve, none of which has started.
Machinery of the model of overlapping calls: /repo/vercre-holder/src/provider.rs 28-122 are the services a call waits for. -/
def start (now : Int) (calls : Nat → Provider × Req) : HPool where
  store _ := none
  now := now
  prog i := serve (calls i).1 (calls i).2
  drawn _ := 0
  trace := []

/-- Call `i` has ended with `r`. Machinery of the model of overlapping calls: /repo/vercre-holder/src/provider.rs 28-122 are the services a call waits for. -/
def Ended (p : HPool) (i : Nat) (r : HRes Resp) : Prop := p.prog i = .ret r

theorem turns_append (rng : Nat → Nat → String) (p : HPool) (a b : List Turn) : turns rng p (a ++ b) = turns rng (turns rng p a) b := by
  induction a generalizing p with
  | nil => rfl
  | cons t a ih => exact ih _

/-- An invariant of every schedule. -/
theorem turns_inv {rng : Nat → Nat → String} {I : HPool → Prop} (hs : ∀ p t, I p → I (turn rng p t)) {p : HPool} (h : I p) (s : List Turn) :
    I (turns rng p s) := by
  induction s generalizing p with
  | nil => exact h
  | cons t s ih => exact ih (hs p t h)

theorem turn_trace (rng : Nat → Nat → String) (p : HPool) (t : Turn) : p.trace <+: (turn rng p t).trace := by
  cases t with
  | tick ns => exact List.prefix_rfl
  | run i f answer =>
    simp only [turn]
    split <;> simp

theorem turn_other {rng : Nat → Nat → String} {p : HPool} {i j : Nat} {f : Fault} {answer : (c : Call) → Option c.Reply} (h : j ≠ i) :
    (turn rng p (.run i f answer)).prog j = p.prog j := by
  simp only [turn]
  split <;> simp [setAt, h]

/-- A call that has ended stays so. -/
theorem ended_turns {rng : Nat → Nat → String} {p : HPool} {i : Nat} {r : HRes Resp} (h : p.Ended i r) (s : List Turn) : (turns rng p s).Ended i r := by
  refine turns_inv (I := fun p => p.Ended i r) (fun p t h => ?_) h s
  cases t with
  | tick ns => exact h
  | run j f answer =>
    by_cases e : i = j
    · subst e
      simp only [Ended] at h
      simp only [Ended, turn, h]
    · exact (turn_other e).trans h

/-- What a call of this wallet has said and heard.
Machinery of the model of overlapping calls: /repo/vercre-holder/src/provider.rs 28-122 are the services a call waits for. -/
def heard (H : Trace) (i : Nat) : List Event := H.filterMap fun x => match x with
  | (j, .made ev) => if j = i then some ev else none
  | _ => none

/-- A call that runs alone does what the sequential semantics says: from the same store and clock, with the same random texts, faults and answers, it
gives the same answer, says and hears the same, and leaves the same store. -/
theorem solo (e : HEnv) (rng : Nat → Nat → String) (i : Nat) (q : HProg Resp) (p : HPool) (w : HWorld) (hq : p.prog i = q)
    (hs : p.store = w.store) (hn : p.now = w.now) (hr : ∀ n, rng i (p.drawn i + n) = e.rng (w.drawn + n)) (ht : heard p.trace i = w.recent) :
    ∃ s, (∀ t ∈ s, ∃ f a, t = Turn.run i f a) ∧ (turns rng p s).Ended i (q.run e w).1 ∧ (turns rng p s).store = (q.run e w).2.store ∧
      (turns rng p s).now = (q.run e w).2.now ∧ heard (turns rng p s).trace i = (q.run e w).2.recent := by
  induction q generalizing p w with
  | ret r => exact ⟨[], by simp, hq, hs, hn, ht⟩
  | get k c ih =>
    obtain ⟨s, h1, h2⟩ := ih (Prog.getRes (e.fault w.ops) (w.store k)) (turn rng p (.run i (e.fault w.ops) fun _ => none))
      { w with ops := w.ops + 1 } (by simp [turn, hq, hs]) (by simp [turn, hq, hs]) (by simp [turn, hq, hn])
      (by simpa [turn, hq] using hr) (by simp only [turn, hq]; simpa [heard] using ht)
    exact ⟨.run i (e.fault w.ops) (fun _ => none) :: s, by simpa using h1, h2⟩
  | put k v c ih =>
    obtain ⟨s, h1, h2⟩ := ih (e.fault w.ops == .ok) (turn rng p (.run i (e.fault w.ops) fun _ => none))
      { w with store := Prog.writeRes (e.fault w.ops) w.store k (some v), ops := w.ops + 1 } (by simp [turn, hq]; rfl) (by simp [turn, hq, hs])
      (by simp [turn, hq, hn]) (by simpa [turn, hq] using hr) (by simp only [turn, hq]; simpa [heard] using ht)
    exact ⟨.run i (e.fault w.ops) (fun _ => none) :: s, by simpa using h1, h2⟩
  | purge k c ih =>
    obtain ⟨s, h1, h2⟩ := ih (e.fault w.ops == .ok) (turn rng p (.run i (e.fault w.ops) fun _ => none))
      { w with store := Prog.writeRes (e.fault w.ops) w.store k none, ops := w.ops + 1 } (by simp [turn, hq]; rfl) (by simp [turn, hq, hs])
      (by simp [turn, hq, hn]) (by simpa [turn, hq] using hr) (by simp only [turn, hq]; simpa [heard] using ht)
    exact ⟨.run i (e.fault w.ops) (fun _ => none) :: s, by simpa using h1, h2⟩
  | draw c ih =>
    obtain ⟨s, h1, h2⟩ := ih (e.rng w.drawn) (turn rng p (.run i .ok fun _ => none)) { w with drawn := w.drawn + 1 }
      (by have := hr 0; simp only [Nat.add_zero] at this; simp [turn, hq, this]) (by simp [turn, hq, hs]) (by simp [turn, hq, hn])
      (fun n => by
        have := hr (n + 1)
        simp only [turn, hq, setAt_same]
        rw [show p.drawn i + 1 + n = p.drawn i + (n + 1) by omega, show w.drawn + 1 + n = w.drawn + (n + 1) by omega]; exact this)
      (by simp only [turn, hq]; simpa [heard] using ht)
    exact ⟨.run i .ok (fun _ => none) :: s, by simpa using h1, h2⟩
  | now c ih =>
    obtain ⟨s, h1, h2⟩ := ih w.now (turn rng p (.run i .ok fun _ => none)) w
      (by simp [turn, hq, hn]) (by simp [turn, hq, hs]) (by simp [turn, hq, hn]) (by simpa [turn, hq] using hr)
      (by simp only [turn, hq]; simpa [heard] using ht)
    exact ⟨.run i .ok (fun _ => none) :: s, by simpa using h1, h2⟩
  | call c k ih =>
    obtain ⟨s, h1, h2⟩ := ih (e.oracle w.log w.recent c) (turn rng p (.run i .ok (e.oracle w.log w.recent)))
      { w with recent := w.recent ++ [⟨c, e.oracle w.log w.recent c⟩] }
      (by simp [turn, hq]) (by simp [turn, hq, hs]) (by simp [turn, hq, hn]) (by simpa [turn, hq] using hr)
      (by simp only [turn, hq]; simpa [heard] using ht)
    exact ⟨.run i .ok (e.oracle w.log w.recent) :: s, by simpa using h1, h2⟩

end HPool

/-! ### A logic for all schedules -/

namespace HProg
variable {α β : Type}

/-- Facts a wallet's calls rely on and guarantee: `R` of stored values, `C` of calls made by call `i`, `G` of the keys call `i` reads and writes, `D` of the texts
it draws. All may refer to the trace so far.
Machinery of the model of overlapping calls: /repo/vercre-holder/src/provider.rs 28-122 are the services a call waits for. -/
structure Pact where
  R : Trace → String → HVal → Prop
  C : Nat → Trace → Call → Prop
  G : Nat → String → Prop
  D : Nat → String → Prop
  mono : ∀ {H H' : Trace} {k : String} {v : HVal}, H <+: H' → R H k v → R H' k v

/-- Whatever others do between its steps, program `p` of call `i` keeps the pact, and ends, if well, with a result satisfying `Q`.
Machinery of the model of overlapping calls: /repo/vercre-holder/src/provider.rs 28-122 are the services a call waits for. -/
def Keeps (T : Pact) (i : Nat) : HProg α → Trace → (Trace → α → Prop) → Prop
  | ret (.ok a), H, Q => ∀ H', H <+: H' → Q H' a
  | ret (.error _), _, _ => True
  | get k c, H, Q => T.G i k ∧ ∀ H', H <+: H' → ∀ o, (∀ v, o = some v → T.R H' k v) → Keeps T i (c o) (H' ++ [(i, .silent)]) Q
  | put k v c, H, Q => T.G i k ∧ ∀ H', H <+: H' → T.R (H' ++ [(i, .wrote)]) k v ∧ ∀ b, Keeps T i (c b) (H' ++ [(i, .wrote)]) Q
  | purge k c, H, Q => T.G i k ∧ ∀ H', H <+: H' → ∀ b, Keeps T i (c b) (H' ++ [(i, .wrote)]) Q
  | draw c, H, Q => ∀ H', H <+: H' → ∀ s, T.D i s → Keeps T i (c s) (H' ++ [(i, .silent)]) Q
  | now c, H, Q => ∀ H', H <+: H' → ∀ t, Keeps T i (c t) (H' ++ [(i, .silent)]) Q
  | call c k, H, Q => ∀ H', H <+: H' → T.C i H' c ∧ ∀ o, Keeps T i (k o) (H' ++ [(i, .made ⟨c, o⟩)]) Q

variable {T : Pact} {i : Nat}

theorem Keeps.later {p : HProg α} {H H' : Trace} {Q : Trace → α → Prop} (hp : H <+: H') (h : Keeps T i p H Q) : Keeps T i p H' Q := by
  cases p with
  | ret r =>
    cases r with
    | ok a => exact fun H'' h'' => h H'' (hp.trans h'')
    | error x => trivial
  | get k c => exact ⟨h.1, fun H'' h'' => h.2 H'' (hp.trans h'')⟩
  | put k v c => exact ⟨h.1, fun H'' h'' => h.2 H'' (hp.trans h'')⟩
  | purge k c => exact ⟨h.1, fun H'' h'' => h.2 H'' (hp.trans h'')⟩
  | draw c => exact fun H'' h'' => h H'' (hp.trans h'')
  | now c => exact fun H'' h'' => h H'' (hp.trans h'')
  | call c k => exact fun H'' h'' => h H'' (hp.trans h'')

theorem Keeps.bind {p : HProg α} {f : α → HProg β} {H : Trace} {Q : Trace → α → Prop} {Q' : Trace → β → Prop} (h : Keeps T i p H Q)
    (hf : ∀ a H', H <+: H' → Q H' a → Keeps T i (f a) H' Q') : Keeps T i (p >>= f) H Q' := by
  show Keeps T i (p.bind f) H Q'
  have hsnoc : ∀ {H H' : Trace} (x : Nat × Act), H <+: H' → H <+: H' ++ [x] := fun x h => h.trans (List.prefix_append _ _)
  induction p generalizing H with
  | ret r =>
    cases r with
    | ok a => exact hf a H List.prefix_rfl (h H List.prefix_rfl)
    | error x => trivial
  | get k c ih => exact ⟨h.1, fun H' h' o ho => ih o (h.2 H' h' o ho) fun a H'' h'' => hf a H'' ((hsnoc _ h').trans h'')⟩
  | put k v c ih => exact ⟨h.1, fun H' h' => ⟨(h.2 H' h').1, fun b => ih b ((h.2 H' h').2 b) fun a H'' h'' => hf a H'' ((hsnoc _ h').trans h'')⟩⟩
  | purge k c ih => exact ⟨h.1, fun H' h' b => ih b (h.2 H' h' b) fun a H'' h'' => hf a H'' ((hsnoc _ h').trans h'')⟩
  | draw c ih => exact fun H' h' s hs => ih s (h H' h' s hs) fun a H'' h'' => hf a H'' ((hsnoc _ h').trans h'')
  | now c ih => exact fun H' h' t => ih t (h H' h' t) fun a H'' h'' => hf a H'' ((hsnoc _ h').trans h'')
  | call c k ih =>
    exact fun H' h' => ⟨(h H' h').1, fun o => ih o ((h H' h').2 o) fun a H'' h'' => hf a H'' ((hsnoc _ h').trans h'')⟩

theorem Keeps.imp {p : HProg α} {H : Trace} {Q Q' : Trace → α → Prop} (h : Keeps T i p H Q) (hq : ∀ a H', H <+: H' → Q H' a → Q' H' a) :
    Keeps T i p H Q' := by
  have hsnoc : ∀ {H H' : Trace} (x : Nat × Act), H <+: H' → H <+: H' ++ [x] := fun x h => h.trans (List.prefix_append _ _)
  induction p generalizing H with
  | ret r =>
    cases r with
    | ok a => exact fun H' h' => hq a H' h' (h H' h')
    | error x => trivial
  | get k c ih => exact ⟨h.1, fun H' h' o ho => ih o (h.2 H' h' o ho) fun a H'' h'' => hq a H'' ((hsnoc _ h').trans h'')⟩
  | put k v c ih => exact ⟨h.1, fun H' h' => ⟨(h.2 H' h').1, fun b => ih b ((h.2 H' h').2 b) fun a H'' h'' => hq a H'' ((hsnoc _ h').trans h'')⟩⟩
  | purge k c ih => exact ⟨h.1, fun H' h' b => ih b (h.2 H' h' b) fun a H'' h'' => hq a H'' ((hsnoc _ h').trans h'')⟩
  | draw c ih => exact fun H' h' s hs => ih s (h H' h' s hs) fun a H'' h'' => hq a H'' ((hsnoc _ h').trans h'')
  | now c ih => exact fun H' h' t => ih t (h H' h' t) fun a H'' h'' => hq a H'' ((hsnoc _ h').trans h'')
  | call c k ih =>
    exact fun H' h' => ⟨(h H' h').1, fun o => ih o ((h H' h').2 o) fun a H'' h'' => hq a H'' ((hsnoc _ h').trans h'')⟩

/-! ### The primitives -/

theorem Keeps.pure {a : α} {H : Trace} {Q : Trace → α → Prop} (h : ∀ H', H <+: H' → Q H' a) : Keeps T i (Pure.pure a : HProg α) H Q := h

theorem Keeps.lift {r : HRes α} {H : Trace} : Keeps T i (lift r) H fun _ a => r = .ok a := by
  cases r with
  | ok a => exact fun _ _ => rfl
  | error x => trivial

theorem Keeps.refuse {why : String} {H : Trace} {Q : Trace → α → Prop} : Keeps T i (refuse why : HProg α) H Q := True.intro

theorem Keeps.getIssuance {k : String} {H : Trace} (hg : T.G i k) : Keeps T i (getIssuance k) H fun H' f => T.R H' k (.issuance f) := by
  refine ⟨hg, fun H' h' o ho => ?_⟩
  match o with
  | none => trivial
  | some (.presentation p) => trivial
  | some (.issuance f) => exact fun H'' h'' => T.mono ((List.prefix_append _ _).trans h'') (ho _ rfl)

theorem Keeps.getPresentation {k : String} {H : Trace} (hg : T.G i k) : Keeps T i (getPresentation k) H fun H' p => T.R H' k (.presentation p) := by
  refine ⟨hg, fun H' h' o ho => ?_⟩
  match o with
  | none => trivial
  | some (.issuance p) => trivial
  | some (.presentation f) => exact fun H'' h'' => T.mono ((List.prefix_append _ _).trans h'') (ho _ rfl)

theorem Keeps.putE {k : String} {v : HVal} {H : Trace} (hg : T.G i k) (hr : ∀ H', H <+: H' → (i, .wrote) ∈ H' → T.R H' k v) :
    Keeps T i (putE k v) H fun _ _ => True := by
  refine ⟨hg, fun H' h' => ⟨hr _ (h'.trans (List.prefix_append _ _)) (by simp), fun b => ?_⟩⟩
  cases b
  · trivial
  · exact fun _ _ => trivial

theorem Keeps.purgeE {k : String} {H : Trace} (hg : T.G i k) : Keeps T i (purgeE k) H fun _ _ => True := by
  refine ⟨hg, fun H' h' b => ?_⟩
  cases b
  · trivial
  · exact fun _ _ => trivial

theorem Keeps.drawE {H : Trace} : Keeps T i drawE H fun _ s => T.D i s := fun _ _ _ hs _ _ => hs

theorem Keeps.nowE {H : Trace} : Keeps T i nowE H fun _ _ => True := fun _ _ _ _ _ => trivial

theorem Keeps.callE {c : Call} {H : Trace} (hc : ∀ H', H <+: H' → T.C i H' c) :
    Keeps T i (callE c) H fun H' a => (i, .made ⟨c, some a⟩) ∈ H' := by
  refine fun H' h' => ⟨hc H' h', fun o => ?_⟩
  match o with
  | none => trivial
  | some a => exact fun H'' h'' => h''.subset (by simp)

theorem Keeps.callO {c : Call} {H : Trace} (hc : ∀ H', H <+: H' → T.C i H' c) :
    Keeps T i (callO c) H fun H' o => (i, .made ⟨c, o⟩) ∈ H' :=
  fun H' h' => ⟨hc H' h', fun _ _ h'' => h''.subset (by simp)⟩

end HProg

namespace HPool
open HProg

/-- The state of a schedule in which all calls keep the pact.
Machinery of the model of overlapping calls: /repo/vercre-holder/src/provider.rs 28-122 are the services a call waits for. -/
structure Safe (T : Pact) (p : HPool) : Prop where
  store : ∀ k v, p.store k = some v → T.R p.trace k v
  prog : ∀ i, Keeps T i (p.prog i) p.trace fun _ _ => True
  made : ∀ pre i ev post, p.trace = pre ++ (i, .made ev) :: post → T.C i pre ev.call

theorem snoc_made {l pre post : Trace} {x : Nat × Act} {i : Nat} {ev : Event} (h : l ++ [x] = pre ++ (i, .made ev) :: post) :
    (∃ post', l = pre ++ (i, .made ev) :: post') ∨ l = pre ∧ x = (i, .made ev) := by
  rcases List.eq_nil_or_concat post with rfl | ⟨post', y, rfl⟩
  · obtain ⟨h1, h2⟩ := List.append_inj' h rfl
    simp only [List.cons.injEq, and_true] at h2
    exact .inr ⟨h1, h2⟩
  · have h : l ++ [x] = (pre ++ (i, .made ev) :: post') ++ [y] := by simpa using h
    obtain ⟨h1, _⟩ := List.append_inj' h rfl
    exact .inl ⟨post', h1⟩

theorem Safe.turn {T : Pact} {rng : Nat → Nat → String} (hD : ∀ i n, T.D i (rng i n)) {p : HPool} (h : Safe T p) (t : Turn) :
    Safe T (turn rng p t) := by
  cases t with
  | tick ns => exact ⟨h.store, h.prog, h.made⟩
  | run i f answer =>
    have hi := h.prog i
    have keep : ∀ (q : HProg Resp) (x : Nat × Act), Keeps T i q (p.trace ++ [x]) (fun _ _ => True) →
        ∀ j, Keeps T j (setAt p.prog i q j) (p.trace ++ [x]) fun _ _ => True := by
      intro q x hq j
      by_cases e : j = i
      · subst e; rw [setAt_same]; exact hq
      · rw [setAt_other _ _ e]; exact (h.prog j).later (List.prefix_append _ _)
    have st : ∀ (x : Nat × Act) k v, p.store k = some v → T.R (p.trace ++ [x]) k v := fun x k v hv => T.mono (List.prefix_append _ _) (h.store k v hv)
    have wr : ∀ (x : Nat × Act) k v, (∀ y, v = some y → T.R (p.trace ++ [x]) k y) → ∀ k' y, Prog.writeRes f p.store k v k' = some y →
        T.R (p.trace ++ [x]) k' y := by
      intro x k v hv k' y hy
      rcases Prog.writeRes_eq (f := f) (s := p.store) (k := k) (k' := k') (v := v) with e | ⟨rfl, e⟩
      · exact st _ _ _ (e.symm.trans hy)
      · exact hv y (e.symm.trans hy)
    have mk : ∀ (x : Nat × Act), (∀ ev, x.2 = .made ev → T.C x.1 p.trace ev.call) →
        ∀ pre j ev post, p.trace ++ [x] = pre ++ (j, .made ev) :: post → T.C j pre ev.call := by
      intro x hx pre j ev post he
      rcases snoc_made he with ⟨post', he⟩ | ⟨rfl, rfl⟩
      · exact h.made _ _ _ _ he
      · exact hx ev rfl
    have silent : ∀ ev, ((i, .silent) : Nat × Act).2 = .made ev → T.C i p.trace ev.call := fun ev hev => by cases hev
    have wrote : ∀ ev, ((i, .wrote) : Nat × Act).2 = .made ev → T.C i p.trace ev.call := fun ev hev => by cases hev
    simp only [HPool.turn]
    split <;> rename_i heq
    · exact h
    all_goals rw [heq] at hi
    · exact ⟨st _, keep _ (i, .silent) (hi.2 _ List.prefix_rfl _ fun v hv => h.store _ _ (Prog.getRes_some hv)), mk (i, .silent) silent⟩
    · exact ⟨wr (i, .wrote) _ _ fun y hy => by cases hy; exact (hi.2 _ List.prefix_rfl).1, keep _ (i, .wrote) ((hi.2 _ List.prefix_rfl).2 _),
        mk (i, .wrote) wrote⟩
    · exact ⟨wr (i, .wrote) _ none (fun y hy => nomatch hy), keep _ (i, .wrote) (hi.2 _ List.prefix_rfl _), mk (i, .wrote) wrote⟩
    · exact ⟨st _, keep _ (i, .silent) (hi _ List.prefix_rfl _ (hD _ _)), mk (i, .silent) silent⟩
    · exact ⟨st _, keep _ (i, .silent) (hi _ List.prefix_rfl _), mk (i, .silent) silent⟩
    · rename_i c k
      exact ⟨st _, keep _ (i, .made ⟨c, answer c⟩) ((hi _ List.prefix_rfl).2 _),
        mk (i, .made ⟨c, answer c⟩) fun ev hev => by cases hev; exact (hi _ List.prefix_rfl).1⟩

theorem Safe.turns {T : Pact} {rng : Nat → Nat → String} (hD : ∀ i n, T.D i (rng i n)) {p : HPool} (h : Safe T p) (s : List Turn) :
    Safe T (turns rng p s) := turns_inv (fun _ t h => h.turn hD t) h s

theorem Safe.start {T : Pact} {now : Int} {calls : Nat → Provider × Req}
    (h : ∀ i, Keeps T i (serve (calls i).1 (calls i).2) [] fun _ _ => True) : Safe T (start now calls) :=
  { store := fun k v hv => by cases hv
    prog := h
    made := fun pre i ev post he => by simp [HPool.start] at he }

end HPool

end Verif.Holder
