import Verif.Base
/-!
# Overlapping calls

vercre's endpoints are `async` functions over a shared `StateStore` (/repo/crates/openid/src/provider.rs 13-25): a server runs
any number of them at once, and between two effects of one call any other call may act. This file gives that semantics to the
same programs that `Prog.run` (`Verif/Base.lean`) runs one at a time, and a small logic to reason about all schedules.

Assumption recorded in the trusted base: one `get`, `put` or `purge` of the store is atomic. A call that is never scheduled
again is a call whose process crashed at that point.
-/
namespace Verif
open Prog

/-- A pool of calls, numbered by natural numbers, over one store. `prog i` is what call `i` still has to do, `drawn i` how many
random tokens it has drawn; `wrote i` records what it has written with `put` (history only, never read by the semantics).
Machinery of the model of overlapping calls: a call waits at each use of /repo/crates/openid/src/provider.rs 13-25. -/
structure Pool (V ρ : Type) where
  store : String → Option V
  now : Int
  prog : Nat → Prog V ρ
  drawn : Nat → Nat := fun _ => 0
  wrote : Nat → List (String × V) := fun _ => []

/-- What the scheduler may do: let time pass, or let call `i` perform its next effect, with some outcome if it is a store
operation. Machinery of the model of overlapping calls: a call waits at each use of /repo/crates/openid/src/provider.rs 13-25. -/
inductive Event where
  | tick (ns : Nat)
  | run (i : Nat) (f : Fault)
  deriving DecidableEq, Repr

/-- Update at one call. Machinery of the model of overlapping calls: a call waits at each use of /repo/crates/openid/src/provider.rs 13-25. -/
def setAt {α : Type} (f : Nat → α) (i : Nat) (a : α) : Nat → α := fun j => if j = i then a else f j

@[simp] theorem setAt_same {α : Type} (f : Nat → α) (i : Nat) (a : α) : setAt f i a i = a := by simp [setAt]

theorem setAt_other {α : Type} (f : Nat → α) {i j : Nat} (a : α) (h : j ≠ i) : setAt f i a j = f j := by simp [setAt, h]

namespace Pool
variable {V ρ : Type}

/-- One event. `rng i n` is the n-th token drawn by call `i`.
Machinery of the model of overlapping calls: a call waits at each use of /repo/crates/openid/src/provider.rs 13-25. -/
def step (rng : Nat → Nat → String) (p : Pool V ρ) : Event → Pool V ρ
  | .tick ns => { p with now := p.now + ns }
  | .run i f =>
    match p.prog i with
    | .ret _ => p
    | .get k c => { p with prog := setAt p.prog i (c (getRes f (p.store k))) }
    | .put k v c => { p with
        store := writeRes f p.store k (some v)
        prog := setAt p.prog i (c (decide (f = .ok)))
        wrote := setAt p.wrote i ((k, v) :: p.wrote i) }
    | .purge k c => { p with
        store := writeRes f p.store k none
        prog := setAt p.prog i (c (decide (f = .ok))) }
    | .draw c => { p with
        prog := setAt p.prog i (c (rng i (p.drawn i)))
        drawn := setAt p.drawn i (p.drawn i + 1) }
    | .now c => { p with prog := setAt p.prog i (c p.now) }

/-- A schedule. Machinery of the model of overlapping calls: a call waits at each use of /repo/crates/openid/src/provider.rs 13-25. -/
def exec (rng : Nat → Nat → String) (p : Pool V ρ) : List Event → Pool V ρ
  | [] => p
  | ev :: rest => exec rng (step rng p ev) rest

theorem exec_append (rng : Nat → Nat → String) (p : Pool V ρ) (a b : List Event) :
    exec rng p (a ++ b) = exec rng (exec rng p a) b := by
  induction a generalizing p with
  | nil => rfl
  | cons ev a ih => exact ih _

/-- The pool of calls `prog`, none of which has started, over an empty store.
Machinery of the model of overlapping calls: a call waits at each use of /repo/crates/openid/src/provider.rs 13-25. -/
def start (now : Int) (prog : Nat → Prog V ρ) : Pool V ρ := { store := fun _ => none, now, prog }

/-- Call `i` has been answered with `r`.
Machinery of the model of overlapping calls: a call waits at each use of /repo/crates/openid/src/provider.rs 13-25. -/
def Answered (p : Pool V ρ) (i : Nat) (r : Res ρ) : Prop := p.prog i = .ret r

/-- The schedule never runs call `i`. Machinery of the model of overlapping calls: a call waits at each use of /repo/crates/openid/src/provider.rs 13-25. -/
def Idle (i : Nat) (s : List Event) : Prop := ∀ f, Event.run i f ∉ s

/-- An invariant of every schedule. -/
theorem exec_inv {rng : Nat → Nat → String} {I : Pool V ρ → Prop} (hs : ∀ p ev, I p → I (step rng p ev)) {p : Pool V ρ}
    (h : I p) (s : List Event) : I (exec rng p s) := by
  induction s generalizing p with
  | nil => exact h
  | cons ev s ih => exact ih (hs p ev h)

theorem step_other {rng : Nat → Nat → String} {p : Pool V ρ} {i j : Nat} {f : Fault} (h : j ≠ i) :
    (step rng p (.run i f)).prog j = p.prog j := by
  simp only [step]
  split <;> simp [setAt, h]

theorem idle_prog {rng : Nat → Nat → String} {p : Pool V ρ} {j : Nat} {s : List Event} (h : Idle j s) :
    (exec rng p s).prog j = p.prog j := by
  induction s generalizing p with
  | nil => rfl
  | cons ev s ih =>
    show (exec rng (step rng p ev) s).prog j = p.prog j
    rw [ih fun f hf => h f (.tail _ hf)]
    cases ev with
    | tick ns => rfl
    | run i f => exact step_other fun e => h f (by subst e; exact .head _)

/-- An answered call stays answered. -/
theorem answered_exec {rng : Nat → Nat → String} {p : Pool V ρ} {i : Nat} {r : Res ρ} (h : p.Answered i r) (s : List Event) :
    (exec rng p s).Answered i r := by
  refine exec_inv (I := fun p => p.Answered i r) (fun p ev h => ?_) h s
  cases ev with
  | tick ns => exact h
  | run j f =>
    by_cases e : i = j
    · subst e
      simp only [Answered] at h
      simp only [Answered, step, h]
    · exact (step_other e).trans h

/-! ### Rely/guarantee for all schedules -/

variable {R : String → V → Prop} {G : Nat → String → Option V → Prop} {D : Nat → String → Prop} {Q : Nat → ρ → Prop}

/-- Every stored value satisfies `R`, and every call guarantees that for what it still has to do.
Machinery of the model of overlapping calls: a call waits at each use of /repo/crates/openid/src/provider.rs 13-25. -/
structure Safe (R : String → V → Prop) (G : Nat → String → Option V → Prop) (D : Nat → String → Prop) (Q : Nat → ρ → Prop)
    (p : Pool V ρ) : Prop where
  store : ∀ k v, p.store k = some v → R k v
  prog : ∀ i, Guar R (G i) (D i) (p.prog i) (Q i)

theorem Safe.step {rng : Nat → Nat → String} (hG : ∀ i k v, G i k (some v) → R k v) (hD : ∀ i n, D i (rng i n))
    {p : Pool V ρ} (h : Safe R G D Q p) (ev : Event) : Safe R G D Q (step rng p ev) := by
  cases ev with
  | tick ns => exact ⟨h.store, h.prog⟩
  | run i f =>
    have hi := h.prog i
    have keep : ∀ q, Guar R (G i) (D i) q (Q i) → ∀ j, Guar R (G j) (D j) (setAt p.prog i q j) (Q j) := by
      intro q hq j
      by_cases e : j = i
      · subst e; rw [setAt_same]; exact hq
      · rw [setAt_other _ _ e]; exact h.prog j
    have wr : ∀ k v, (∀ x, v = some x → R k x) → ∀ k' x, writeRes f p.store k v k' = some x → R k' x := by
      intro k v hv k' x hx
      rcases writeRes_eq (f := f) (s := p.store) (k := k) (k' := k') (v := v) with e | ⟨rfl, e⟩
      · exact h.store _ _ (e.symm.trans hx)
      · exact hv x (e.symm.trans hx)
    simp only [Pool.step]
    split <;> rename_i heq
    · exact h
    all_goals rw [heq] at hi
    · exact ⟨h.store, keep _ (hi _ fun v hv => h.store _ _ (getRes_some hv))⟩
    · exact ⟨wr _ _ fun x hx => by cases hx; exact hG _ _ _ hi.1, keep _ (hi.2 _)⟩
    · exact ⟨wr _ none (fun x hx => nomatch hx), keep _ (hi.2 _)⟩
    · exact ⟨h.store, keep _ (hi _ (hD _ _))⟩
    · exact ⟨h.store, keep _ (hi _)⟩

theorem Safe.exec {rng : Nat → Nat → String} (hG : ∀ i k v, G i k (some v) → R k v) (hD : ∀ i n, D i (rng i n))
    {p : Pool V ρ} (h : Safe R G D Q p) (s : List Event) : Safe R G D Q (exec rng p s) :=
  exec_inv (fun _ ev h => h.step hG hD ev) h s

theorem Safe.answered {p : Pool V ρ} (h : Safe R G D Q p) {i : Nat} {a : ρ} (ha : p.Answered i (.ok a)) : Q i a := by
  have := h.prog i
  rw [ha] at this
  exact this

end Pool

/-! ### What a call has written before -/

namespace Prog
variable {V α β : Type}

/-- Along every path (with reads satisfying `R`), every write is allowed by `F`, given what the call wrote before; `rng` are
the tokens the call draws, `n` how many it has drawn, `u` what it has written.
Machinery of the model of overlapping calls: a call waits at each use of /repo/crates/openid/src/provider.rs 13-25. -/
def Once (R : String → V → Prop) (F : String → V → List (String × V) → Prop) (rng : Nat → String) :
    Prog V α → Nat → List (String × V) → (α → Nat → List (String × V) → Prop) → Prop
  | ret (.ok a), n, u, Q => Q a n u
  | ret (.error _), _, _, _ => True
  | get k c, n, u, Q => ∀ o, (∀ v, o = some v → R k v) → Once R F rng (c o) n u Q
  | put k v c, n, u, Q => F k v u ∧ ∀ b, Once R F rng (c b) n ((k, v) :: u) Q
  | purge _ c, n, u, Q => ∀ b, Once R F rng (c b) n u Q
  | draw c, n, u, Q => Once R F rng (c (rng n)) (n + 1) u Q
  | now c, n, u, Q => ∀ t, Once R F rng (c t) n u Q

variable {R : String → V → Prop} {F : String → V → List (String × V) → Prop} {rng : Nat → String}

theorem Once.bind {p : Prog V α} {f : α → Prog V β} {n : Nat} {u : List (String × V)} {Q : α → Nat → List (String × V) → Prop}
    {Q' : β → Nat → List (String × V) → Prop} (h : Once R F rng p n u Q) (hf : ∀ a n u, Q a n u → Once R F rng (f a) n u Q') :
    Once R F rng (p >>= f) n u Q' := by
  show Once R F rng (p.bind f) n u Q'
  induction p generalizing n u with
  | ret r =>
    cases r with
    | ok a => exact hf a n u h
    | error x => exact True.intro
  | get k c ih => exact fun o ho => ih o (h o ho)
  | put k v c ih => exact ⟨h.1, fun b => ih b (h.2 b)⟩
  | purge k c ih => exact fun b => ih b (h b)
  | draw c ih => exact ih _ h
  | now c ih => exact fun t => ih t (h t)

/-- Two judgements about one program, the second about its result only. -/
theorem Guar.and {G G' : String → Option V → Prop} {D : String → Prop} {p : Prog V α} {Q Q' : α → Prop} (h : Guar R G D p Q)
    (h' : Guar R G' D p Q') : Guar R G D p fun a => Q a ∧ Q' a := by
  induction p with
  | ret r =>
    cases r with
    | ok a => exact ⟨h, h'⟩
    | error x => exact True.intro
  | get k c ih => exact fun o ho => ih o (h o ho) (h' o ho)
  | put k v c ih => exact ⟨h.1, fun b => ih b (h.2 b) (h'.2 b)⟩
  | purge k c ih => exact ⟨h.1, fun b => ih b (h.2 b) (h'.2 b)⟩
  | draw c ih => exact fun s hs => ih s (h s hs) (h' s hs)
  | now c ih => exact fun t => ih t (h t) (h' t)

theorem Guar.top {D : String → Prop} {p : Prog V α} : Guar R (fun _ _ => True) D p (fun _ => True) := by
  induction p with
  | ret r => cases r <;> exact True.intro
  | get k c ih => exact fun o _ => ih o
  | put k v c ih => exact ⟨trivial, ih⟩
  | purge k c ih => exact ⟨trivial, ih⟩
  | draw c ih => exact fun s _ => ih s
  | now c ih => exact ih

theorem Once.weaken {F' : String → V → List (String × V) → Prop} (hF : ∀ k v u, F k v u → F' k v u) {p : Prog V α} {n : Nat}
    {u : List (String × V)} {Q : α → Nat → List (String × V) → Prop} (h : Once R F rng p n u Q) : Once R F' rng p n u Q := by
  induction p generalizing n u with
  | ret r =>
    cases r with
    | ok a => exact h
    | error x => exact True.intro
  | get k c ih => exact fun o ho => ih o (h o ho)
  | put k v c ih => exact ⟨hF _ _ _ h.1, fun b => ih b (h.2 b)⟩
  | purge k c ih => exact fun b => ih b (h b)
  | draw c ih => exact ih _ h
  | now c ih => exact fun t => ih t (h t)

theorem Once.lift {r : Res α} {n : Nat} {u : List (String × V)} {Q : α → Nat → List (String × V) → Prop} (h : ∀ a, r = .ok a → Q a n u) :
    Once R F rng (Prog.lift r) n u Q := by
  cases r with
  | ok a => exact h a rfl
  | error x => exact True.intro

theorem Once.pure {a : α} {n : Nat} {u : List (String × V)} {Q : α → Nat → List (String × V) → Prop} (h : Q a n u) :
    Once R F rng (Pure.pure a : Prog V α) n u Q := h

theorem Once.getE {k : String} {e : Err} {n : Nat} {u : List (String × V)} {Q : V → Nat → List (String × V) → Prop}
    (h : ∀ v, R k v → Q v n u) : Once R F rng (Prog.getE k e) n u Q := by
  intro o ho
  cases o with
  | none => exact True.intro
  | some v => exact h v (ho v rfl)

theorem Once.putE {k : String} {v : V} {e : Err} {n : Nat} {u : List (String × V)} {Q : Unit → Nat → List (String × V) → Prop}
    (h : F k v u) (hq : Q () n ((k, v) :: u)) : Once R F rng (Prog.putE k v e) n u Q :=
  ⟨h, fun b => by cases b <;> first | exact hq | exact True.intro⟩

theorem Once.purgeE {k : String} {e : Err} {n : Nat} {u : List (String × V)} {Q : Unit → Nat → List (String × V) → Prop}
    (hq : Q () n u) : Once R F rng (Prog.purgeE k e : Prog V Unit) n u Q :=
  fun b => by cases b <;> first | exact hq | exact True.intro

theorem Once.drawE {n : Nat} {u : List (String × V)} {Q : String → Nat → List (String × V) → Prop} (h : Q (rng n) (n + 1) u) :
    Once R F rng (Prog.drawE : Prog V String) n u Q := h

theorem Once.nowE {n : Nat} {u : List (String × V)} {Q : Int → Nat → List (String × V) → Prop} (h : ∀ t, Q t n u) :
    Once R F rng (Prog.nowE : Prog V Int) n u Q := fun t => h t

theorem bind_assoc {γ : Type} (p : Prog V α) (f : α → Prog V β) (g : β → Prog V γ) :
    (p >>= f) >>= g = p >>= fun a => f a >>= g := by
  show (p.bind f).bind g = p.bind fun a => (f a).bind g
  induction p with
  | ret r => cases r <;> rfl
  | get k c ih => simp only [Prog.bind, ih]
  | put k v c ih => simp only [Prog.bind, ih]
  | purge k c ih => simp only [Prog.bind, ih]
  | draw c ih => simp only [Prog.bind, ih]
  | now c ih => simp only [Prog.bind, ih]

/-- Success requires reading something at key `c`.
Machinery of the model of overlapping calls: a call waits at each use of /repo/crates/openid/src/provider.rs 13-25. -/
def Reads (c : String) : Prog V α → Prop
  | ret (.ok _) => False
  | ret (.error _) => True
  | get k cont => (k = c → Reads c (cont none)) ∧ (k ≠ c → ∀ o, Reads c (cont o))
  | put _ _ cont => ∀ b, Reads c (cont b)
  | purge _ cont => ∀ b, Reads c (cont b)
  | draw cont => ∀ s, Reads c (cont s)
  | now cont => ∀ t, Reads c (cont t)

/-- Success requires a successful removal of key `c`.
Machinery of the model of overlapping calls: a call waits at each use of /repo/crates/openid/src/provider.rs 13-25. -/
def Eats (c : String) : Prog V α → Prop
  | ret (.ok _) => False
  | ret (.error _) => True
  | get _ cont => ∀ o, Eats c (cont o)
  | put _ _ cont => ∀ b, Eats c (cont b)
  | purge k cont => (k = c → Eats c (cont false)) ∧ (k ≠ c → ∀ b, Eats c (cont b))
  | draw cont => ∀ s, Eats c (cont s)
  | now cont => ∀ t, Eats c (cont t)

/-- Success with a result in `X` requires a successful write at key `c`.
Machinery of the model of overlapping calls: a call waits at each use of /repo/crates/openid/src/provider.rs 13-25. -/
def Puts (c : String) (X : α → Prop) : Prog V α → Prop
  | ret (.ok a) => ¬ X a
  | ret (.error _) => True
  | get _ cont => ∀ o, Puts c X (cont o)
  | put k _ cont => (k = c → Puts c X (cont false)) ∧ (k ≠ c → ∀ b, Puts c X (cont b))
  | purge _ cont => ∀ b, Puts c X (cont b)
  | draw cont => ∀ s, Puts c X (cont s)
  | now cont => ∀ t, Puts c X (cont t)

theorem Puts.bind {c : String} {X : β → Prop} {p : Prog V α} {f : α → Prog V β} {Q : α → Prop}
    (hp : Guar (fun _ _ => True) (fun _ _ => True) (fun _ => True) p Q) (h : ∀ a, Q a → Puts c X (f a)) : Puts c X (p >>= f) := by
  show Puts c X (p.bind f)
  induction p with
  | ret r => cases r with
    | ok a => exact h a hp
    | error x => exact True.intro
  | get k cont ih => exact fun o => ih o (hp o fun _ _ => trivial)
  | put k v cont ih => exact ⟨fun _ => ih _ (hp.2 _), fun _ b => ih b (hp.2 b)⟩
  | purge k cont ih => exact fun b => ih b (hp.2 b)
  | draw cont ih => exact fun s => ih s (hp s trivial)
  | now cont ih => exact fun t => ih t (hp t)

theorem Puts.putE {c : String} {X : α → Prop} {v : V} {e : Err} {f : Unit → Prog V α} : Puts c X (Prog.putE c v e >>= f) :=
  ⟨fun _ => True.intro, fun h => absurd rfl h⟩

theorem Puts.lift {c : String} {X : β → Prop} {r : Res α} {f : α → Prog V β} (h : ∀ a, r = .ok a → Puts c X (f a)) :
    Puts c X (Prog.lift r >>= f) := by
  cases r with
  | ok a => exact h a rfl
  | error x => exact True.intro

/-- A result outside `X` needs no write. -/
theorem Puts.never {c : String} {X : α → Prop} {p : Prog V α}
    (hp : Guar (fun _ _ => True) (fun _ _ => True) (fun _ => True) p (fun a => ¬ X a)) : Puts c X p := by
  induction p with
  | ret r => cases r with
    | ok a => exact hp
    | error x => exact True.intro
  | get k cont ih => exact fun o => ih o (hp o fun _ _ => trivial)
  | put k v cont ih => exact ⟨fun _ => ih _ (hp.2 _), fun _ b => ih b (hp.2 b)⟩
  | purge k cont ih => exact fun b => ih b (hp.2 b)
  | draw cont ih => exact fun s => ih s (hp s trivial)
  | now cont ih => exact fun t => ih t (hp t)

/-- Success requires reading something at key `c` and, later, a successful removal of `c`.
Machinery of the model of overlapping calls: a call waits at each use of /repo/crates/openid/src/provider.rs 13-25. -/
def Takes (c : String) : Prog V α → Prop
  | ret (.ok _) => False
  | ret (.error _) => True
  | get k cont => (k = c → Takes c (cont none) ∧ ∀ v, Eats c (cont (some v))) ∧ (k ≠ c → ∀ o, Takes c (cont o))
  | put _ _ cont => ∀ b, Takes c (cont b)
  | purge _ cont => ∀ b, Takes c (cont b)
  | draw cont => ∀ s, Takes c (cont s)
  | now cont => ∀ t, Takes c (cont t)

variable {c : String}

theorem Takes.reads {p : Prog V α} (h : Takes c p) : Reads c p := by
  induction p with
  | ret r => cases r <;> exact h
  | get k cont ih => exact ⟨fun e => ih _ (h.1 e).1, fun e o => ih o (h.2 e o)⟩
  | put k v cont ih => exact fun b => ih b (h b)
  | purge k cont ih => exact fun b => ih b (h b)
  | draw cont ih => exact fun s => ih s (h s)
  | now cont ih => exact fun t => ih t (h t)

theorem Reads.bind {p : Prog V α} {f : α → Prog V β} (h : Reads c p) : Reads c (p >>= f) := by
  show Reads c (p.bind f)
  induction p with
  | ret r => cases r with
    | ok a => cases h
    | error x => exact True.intro
  | get k cont ih => exact ⟨fun e => ih _ (h.1 e), fun e o => ih o (h.2 e o)⟩
  | put k v cont ih => exact fun b => ih b (h b)
  | purge k cont ih => exact fun b => ih b (h b)
  | draw cont ih => exact fun s => ih s (h s)
  | now cont ih => exact fun t => ih t (h t)

theorem Eats.bind {p : Prog V α} {f : α → Prog V β} (h : Eats c p) : Eats c (p >>= f) := by
  show Eats c (p.bind f)
  induction p with
  | ret r => cases r with
    | ok a => cases h
    | error x => exact True.intro
  | get k cont ih => exact fun o => ih o (h o)
  | put k v cont ih => exact fun b => ih b (h b)
  | purge k cont ih => exact ⟨fun e => ih _ (h.1 e), fun e o => ih o (h.2 e o)⟩
  | draw cont ih => exact fun s => ih s (h s)
  | now cont ih => exact fun t => ih t (h t)

theorem Takes.bind {p : Prog V α} {f : α → Prog V β} (h : Takes c p) : Takes c (p >>= f) := by
  show Takes c (p.bind f)
  induction p with
  | ret r => cases r with
    | ok a => cases h
    | error x => exact True.intro
  | get k cont ih => exact ⟨fun e => ⟨ih _ (h.1 e).1, fun v => ((h.1 e).2 v).bind⟩, fun e o => ih o (h.2 e o)⟩
  | put k v cont ih => exact fun b => ih b (h b)
  | purge k cont ih => exact fun b => ih b (h b)
  | draw cont ih => exact fun s => ih s (h s)
  | now cont ih => exact fun t => ih t (h t)

/-- Anything may come before. -/
theorem Eats.after {p : Prog V α} {f : α → Prog V β} (h : ∀ a, Eats c (f a)) : Eats c (p >>= f) := by
  show Eats c (p.bind f)
  induction p with
  | ret r => cases r with
    | ok a => exact h a
    | error x => exact True.intro
  | get k cont ih => exact fun o => ih o
  | put k v cont ih => exact fun b => ih b
  | purge k cont ih => exact ⟨fun e => ih _, fun e o => ih o⟩
  | draw cont ih => exact fun s => ih s
  | now cont ih => exact fun t => ih t

theorem Eats.purgeE {e : Err} : Eats c (Prog.purgeE c e : Prog V Unit) :=
  ⟨fun _ => True.intro, fun h => absurd rfl h⟩

/-- Reading, then removing. -/
theorem Takes.getE {e : Err} {f : V → Prog V β} (h : ∀ v, Eats c (f v)) : Takes c (Prog.getE c e >>= f) :=
  ⟨fun _ => ⟨True.intro, fun v => h v⟩, fun h => absurd rfl h⟩

theorem Takes.lift {r : Res α} {f : α → Prog V β} (h : ∀ a, Takes c (f a)) : Takes c (Prog.lift r >>= f) := by
  cases r with
  | ok a => exact h a
  | error x => exact True.intro

end Prog

namespace Pool
variable {V ρ : Type} {R : String → V → Prop} {G : Nat → String → Option V → Prop} {D : Nat → String → Prop}
  {Q : Nat → ρ → Prop} {T : String → Prop} {Own : Nat → String → Prop} {rng : Nat → Nat → String}

/-- A key is exempt (`T`) or has not been written before.
Machinery of the model of overlapping calls: a call waits at each use of /repo/crates/openid/src/provider.rs 13-25. -/
def NewKey (T : String → Prop) (k : String) (_ : V) (u : List (String × V)) : Prop := T k ∨ ∀ x ∈ u, x.1 ≠ k

theorem NewKey.nil {k : String} {v : V} : NewKey T k v [] := .inr fun _ h => nomatch h

/-- Keys outside `T` are written at most once, by the call that owns them.
Machinery of the model of overlapping calls: a call waits at each use of /repo/crates/openid/src/provider.rs 13-25. -/
structure Keys (R : String → V → Prop) (G : Nat → String → Option V → Prop) (D : Nat → String → Prop) (Q : Nat → ρ → Prop)
    (T : String → Prop) (Own : Nat → String → Prop) (rng : Nat → Nat → String) (p : Pool V ρ) : Prop where
  safe : Safe R G D Q p
  once : ∀ i, Once R (NewKey T) (rng i) (p.prog i) (p.drawn i) (p.wrote i) (fun _ _ _ => True)
  key : ∀ k v, p.store k = some v → T k ∨ ∃ i, Own i k ∧ ∃ v, (k, v) ∈ p.wrote i

theorem Keys.step (hG : ∀ i k v, G i k (some v) → R k v) (hO : ∀ i k v, G i k (some v) → T k ∨ Own i k)
    (hD : ∀ i n, D i (rng i n)) {p : Pool V ρ} (h : Keys R G D Q T Own rng p) (ev : Event) :
    Keys R G D Q T Own rng (step rng p ev) := by
  refine ⟨h.safe.step hG hD ev, ?_, ?_⟩
  · cases ev with
    | tick ns => exact h.once
    | run i f =>
      intro j
      by_cases e : j = i
      · subst e
        have hj := h.once j
        simp only [Pool.step]
        split <;> rename_i heq <;> rw [heq] at hj
        · rw [heq]; exact hj
        all_goals simp only [setAt_same]
        · exact hj _ fun v hv => h.safe.store _ _ (getRes_some hv)
        · exact hj.2 _
        · exact hj _
        · exact hj
        · exact hj _
      · have : (Pool.step rng p (.run i f)).drawn j = p.drawn j ∧ (Pool.step rng p (.run i f)).wrote j = p.wrote j := by
          simp only [Pool.step]
          split <;> simp [setAt, e]
        rw [step_other e, this.1, this.2]
        exact h.once j
  · cases ev with
    | tick ns => exact h.key
    | run i f =>
      have hp := h.safe.prog i
      simp only [Pool.step]
      split <;> rename_i heq
      · exact h.key
      · exact h.key
      · rename_i k v c
        rw [heq] at hp
        intro k' x hx
        have mono : (∃ j, Own j k' ∧ ∃ v, (k', v) ∈ p.wrote j) → ∃ j, Own j k' ∧ ∃ v', (k', v') ∈ setAt p.wrote i ((k, v) :: p.wrote i) j := by
          rintro ⟨j, h1, v', h2⟩
          refine ⟨j, h1, v', ?_⟩
          by_cases e : j = i
          · subst e; rw [setAt_same]; exact .tail _ h2
          · rw [setAt_other _ _ e]; exact h2
        rcases writeRes_eq (f := f) (s := p.store) (k := k) (k' := k') (v := some v) with e | ⟨rfl, e⟩
        · exact (h.key _ _ (e.symm.trans hx)).imp id mono
        · refine (hO _ _ _ hp.1).imp id fun ho => ⟨i, ho, v, ?_⟩
          show (k', v) ∈ setAt _ _ _ _
          rw [setAt_same]; exact .head _
      · rename_i k c
        intro k' x hx
        rcases writeRes_eq (f := f) (s := p.store) (k := k) (k' := k') (v := none) with e | ⟨rfl, e⟩
        · exact h.key _ _ (e.symm.trans hx)
        · cases e.symm.trans hx
      · exact h.key
      · exact h.key

theorem Keys.exec (hG : ∀ i k v, G i k (some v) → R k v) (hO : ∀ i k v, G i k (some v) → T k ∨ Own i k)
    (hD : ∀ i n, D i (rng i n)) {p : Pool V ρ} (h : Keys R G D Q T Own rng p) (s : List Event) :
    Keys R G D Q T Own rng (exec rng p s) :=
  exec_inv (fun _ ev h => h.step hG hO hD ev) h s

/-- Key `c` has been written by its owner.
Machinery of the model of overlapping calls: a call waits at each use of /repo/crates/openid/src/provider.rs 13-25. -/
def Written (Own : Nat → String → Prop) (c : String) (p : Pool V ρ) : Prop := ∃ g, Own g c ∧ ∃ v, (c, v) ∈ p.wrote g

theorem wrote_mono {p : Pool V ρ} {g : Nat} {c : String × V} (h : c ∈ p.wrote g) (ev : Event) :
    c ∈ (step rng p ev).wrote g := by
  cases ev with
  | tick ns => exact h
  | run i f =>
    simp only [step]
    split <;> try exact h
    show c ∈ setAt _ _ _ _
    by_cases e : g = i
    · subst e; rw [setAt_same]; exact .tail _ h
    · rw [setAt_other _ _ e]; exact h

theorem Written.step {p : Pool V ρ} {c : String} (h : Written Own c p) (ev : Event) : Written Own c (step rng p ev) := by
  obtain ⟨g, h1, v, h2⟩ := h
  exact ⟨g, h1, v, wrote_mono h2 ev⟩

/-- A written key that is absent stays absent. -/
theorem gone_step (hO : ∀ i k v, G i k (some v) → T k ∨ Own i k) (hI : ∀ i j k, Own i k → Own j k → i = j)
    {c : String} (hT : ¬ T c) {p : Pool V ρ} (h : Keys R G D Q T Own rng p) (hw : Written Own c p) (hc : p.store c = none)
    (ev : Event) : (step rng p ev).store c = none := by
  cases ev with
  | tick ns => exact hc
  | run i f =>
    have h1 := h.once i
    have h2 := h.safe.prog i
    simp only [step]
    split <;> rename_i heq <;> try exact hc
    · rename_i k v _
      rw [heq] at h1 h2
      have hne : c ≠ k := by
        rintro rfl
        have ho := (hO _ _ _ h2.1).resolve_left hT
        obtain ⟨g, hg, v, hgw⟩ := hw
        have := hI _ _ _ ho hg
        subst this
        exact (h1.1.resolve_left hT) _ hgw rfl
      exact (writeRes_other hne).trans hc
    · rename_i k _
      by_cases e : c = k
      · subst e; cases f <;> simp [writeRes, hc]
      · exact (writeRes_other e).trans hc

/-- A call that must take `c` to succeed: it has not read `c` yet, has read it, or has removed it.
Machinery of the model of overlapping calls: a call waits at each use of /repo/crates/openid/src/provider.rs 13-25. -/
def Taking (Own : Nat → String → Prop) (c : String) (i : Nat) (p : Pool V ρ) : Prop :=
  Takes c (p.prog i) ∨ (Eats c (p.prog i) ∧ Written Own c p) ∨ (Written Own c p ∧ p.store c = none)

theorem Taking.step (hO : ∀ i k v, G i k (some v) → T k ∨ Own i k) (hI : ∀ i j k, Own i k → Own j k → i = j)
    {c : String} (hT : ¬ T c) {p : Pool V ρ} (h : Keys R G D Q T Own rng p) {i : Nat} (ht : Taking Own c i p) (ev : Event) :
    Taking Own c i (step rng p ev) := by
  rcases ht with ht | ⟨ht, hw⟩ | ⟨hw, hc⟩
  · cases ev with
    | tick ns => exact .inl ht
    | run j f =>
      by_cases e : i = j
      · subst e
        simp only [Pool.step, Taking]
        split <;> rename_i heq <;> rw [heq] at ht
        · rw [heq]; exact .inl ht
        · rename_i k _
          simp only [setAt_same]
          by_cases e : k = c
          · subst e
            cases hr : getRes f (p.store k) with
            | none => exact .inl (ht.1 rfl).1
            | some v =>
              exact .inr (.inl ⟨(ht.1 rfl).2 v, (h.key _ _ (getRes_some hr)).resolve_left hT⟩)
          · exact .inl (ht.2 e _)
        all_goals simp only [setAt_same]
        all_goals exact .inl (ht _)
      · left
        rw [step_other e]; exact ht
  · have hw' := hw.step (rng := rng) ev
    cases ev with
    | tick ns => exact .inr (.inl ⟨ht, hw⟩)
    | run j f =>
      by_cases e : i = j
      · subst e
        simp only [Taking]
        right
        simp only [Pool.step] at hw' ⊢
        split at hw' <;> rename_i heq <;> rw [heq] at ht <;> simp only [heq, setAt_same]
        · exact .inl ⟨ht, hw'⟩
        · exact .inl ⟨ht _, hw'⟩
        · exact .inl ⟨ht _, hw'⟩
        · rename_i k _
          by_cases e : k = c
          · subst e
            by_cases hf : f = .ok
            · subst hf; exact .inr ⟨hw', by simp [writeRes]⟩
            · simp only [hf, decide_false]
              exact .inl ⟨ht.1 rfl, hw'⟩
          · exact .inl ⟨ht.2 e _, hw'⟩
        · exact .inl ⟨ht _, hw'⟩
        · exact .inl ⟨ht _, hw'⟩
      · exact .inr (.inl ⟨by rw [step_other e]; exact ht, hw'⟩)
  · exact .inr (.inr ⟨hw.step ev, gone_step hO hI hT h hw hc ev⟩)

/-- While `c` is absent, a call that must read `c` to succeed does not succeed. -/
theorem reads_step {c : String} {p : Pool V ρ} (hc : p.store c = none) {j : Nat} (h : Reads c (p.prog j)) (ev : Event) :
    Reads c ((step rng p ev).prog j) := by
  cases ev with
  | tick ns => exact h
  | run i f =>
    by_cases e : j = i
    · subst e
      simp only [step]
      split <;> rename_i heq <;> rw [heq] at h
      · rw [heq]; exact h
      · rename_i k _
        simp only [setAt_same]
        by_cases e : k = c
        · subst e
          have : getRes f (p.store k) = none := by rw [hc]; cases f <;> rfl
          rw [this]; exact h.1 rfl
        · exact h.2 e _
      all_goals simp only [setAt_same]; exact h _
    · rw [step_other e]; exact h

/-- **Single use under every schedule**: if a call that must take `c` has been answered with success, a call that must read `c` and
has not started yet will never be. -/
theorem taken_once (hG : ∀ i k v, G i k (some v) → R k v) (hO : ∀ i k v, G i k (some v) → T k ∨ Own i k)
    (hD : ∀ i n, D i (rng i n)) (hI : ∀ i j k, Own i k → Own j k → i = j) {c : String} (hT : ¬ T c) {p : Pool V ρ}
    (h : Keys R G D Q T Own rng p) {i j : Nat} (hi : Takes c (p.prog i)) (hj : Reads c (p.prog j)) {s s' : List Event} {a b : ρ}
    (hdone : (exec rng p s).Answered i (.ok a)) (hidle : Idle j s) : ¬ (exec rng p (s ++ s')).Answered j (.ok b) := by
  have h1 : Keys R G D Q T Own rng (exec rng p s) ∧ Taking Own c i (exec rng p s) :=
    exec_inv (I := fun p => Keys R G D Q T Own rng p ∧ Taking Own c i p)
      (fun p ev h => ⟨h.1.step hG hO hD ev, h.2.step hO hI hT h.1 ev⟩) ⟨h, .inl hi⟩ s
  obtain ⟨hk, ht⟩ := h1
  simp only [Taking, show (exec rng p s).prog i = .ret (.ok a) from hdone, Takes, Eats, false_or, false_and] at ht
  have hj' : Reads c ((exec rng p s).prog j) := by rw [idle_prog hidle]; exact hj
  rw [exec_append]
  have h2 := exec_inv (rng := rng) (I := fun p => Keys R G D Q T Own rng p ∧ (Written Own c p ∧ p.store c = none) ∧ Reads c (p.prog j))
    (fun p ev h => ⟨h.1.step hG hO hD ev, ⟨h.2.1.1.step ev, gone_step hO hI hT h.1 h.2.1.1 h.2.1.2 ev⟩,
      reads_step h.2.1.2 h.2.2 ev⟩) ⟨hk, ht, hj'⟩ s'
  intro hb
  have := h2.2.2
  rw [show (exec rng (exec rng p s) s').prog j = .ret (.ok b) from hb] at this
  exact this

/-- One call's own judgement, while everything in the store satisfies `R`. -/
theorem guar_step {p : Pool V ρ} (hR : ∀ k v, p.store k = some v → R k v) {j : Nat} {Q : ρ → Prop}
    (h : Guar R (fun _ _ => True) (fun _ => True) (p.prog j) Q) (ev : Event) :
    Guar R (fun _ _ => True) (fun _ => True) ((step rng p ev).prog j) Q := by
  cases ev with
  | tick ns => exact h
  | run i f =>
    by_cases e : j = i
    · subst e
      simp only [step]
      split <;> rename_i heq <;> rw [heq] at h
      · rw [heq]; exact h
      all_goals simp only [setAt_same]
      · exact h _ fun v hv => hR _ _ (getRes_some hv)
      · exact h.2 _
      · exact h.2 _
      · exact h _ trivial
      · exact h _
    · rw [step_other e]; exact h

/-! ### Agreement with the sequential semantics -/

/-- A call that runs alone does what the sequential semantics says: from the same store and clock, with the same tokens and the same
faults, it gives the same answer and leaves the same store. -/
theorem solo (e : Env) (rng : Nat → Nat → String) (i : Nat) (q : Prog V ρ) (p : Pool V ρ) (w : World V) (hq : p.prog i = q)
    (hs : p.store = w.store) (hn : p.now = w.now) (hr : ∀ n, rng i (p.drawn i + n) = e.rng (w.drawn + n)) :
    ∃ s, (∀ ev ∈ s, ∃ f, ev = Event.run i f) ∧ (exec rng p s).Answered i (q.run e w).1 ∧
      (exec rng p s).store = (q.run e w).2.store ∧ (exec rng p s).now = (q.run e w).2.now := by
  induction q generalizing p w with
  | ret r => exact ⟨[], by simp, hq, hs, hn⟩
  | get k c ih =>
    obtain ⟨s, h1, h2, h3, h4⟩ := ih (getRes (e.fault w.ops) (w.store k)) (step rng p (.run i (e.fault w.ops)))
      { w with ops := w.ops + 1 } (by simp [step, hq, hs]) (by simp [step, hq, hs]) (by simp [step, hq, hn])
      (by simpa [step, hq] using hr)
    exact ⟨.run i (e.fault w.ops) :: s, by simpa using h1, h2, h3, h4⟩
  | put k v c ih =>
    obtain ⟨s, h1, h2, h3, h4⟩ := ih (decide (e.fault w.ops = .ok)) (step rng p (.run i (e.fault w.ops)))
      { w with store := writeRes (e.fault w.ops) w.store k (some v), ops := w.ops + 1 } (by simp [step, hq])
      (by simp [step, hq, hs]) (by simp [step, hq, hn]) (by simpa [step, hq] using hr)
    exact ⟨.run i (e.fault w.ops) :: s, by simpa using h1, h2, h3, h4⟩
  | purge k c ih =>
    obtain ⟨s, h1, h2, h3, h4⟩ := ih (decide (e.fault w.ops = .ok)) (step rng p (.run i (e.fault w.ops)))
      { w with store := writeRes (e.fault w.ops) w.store k none, ops := w.ops + 1 } (by simp [step, hq])
      (by simp [step, hq, hs]) (by simp [step, hq, hn]) (by simpa [step, hq] using hr)
    exact ⟨.run i (e.fault w.ops) :: s, by simpa using h1, h2, h3, h4⟩
  | draw c ih =>
    obtain ⟨s, h1, h2, h3, h4⟩ := ih (e.rng w.drawn) (step rng p (.run i .ok))
      { w with drawn := w.drawn + 1 } (by simp [step, hq]; exact congrArg c (hr 0))
      (by simp [step, hq, hs]) (by simp [step, hq, hn])
      (by
        intro n
        simp only [step, hq, setAt_same]
        have := hr (n + 1)
        rwa [show p.drawn i + (n + 1) = p.drawn i + 1 + n by omega, show w.drawn + (n + 1) = w.drawn + 1 + n by omega] at this)
    exact ⟨.run i .ok :: s, by simpa using h1, h2, h3, h4⟩
  | now c ih =>
    obtain ⟨s, h1, h2, h3, h4⟩ := ih w.now (step rng p (.run i .ok)) w (by simp [step, hq, hn])
      (by simp [step, hq, hs]) (by simp [step, hq, hn]) (by simpa [step, hq] using hr)
    exact ⟨.run i .ok :: s, by simpa using h1, h2, h3, h4⟩

end Pool
end Verif
