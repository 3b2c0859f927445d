import Verif.Sched
/-!
# What a call ends with, given when it reads the clock
-/
namespace Verif
namespace Prog
variable {V α β : Type}

/-- Whatever the program reads that satisfies `R`, and as long as the clock shows times in `C`, what it ends with satisfies `Q`. Machinery of the proofs; models no
code. -/
def Timed (R : String → V → Prop) (C : Int → Prop) : Prog V α → (Res α → Prop) → Prop
  | ret r, Q => Q r
  | get k c, Q => ∀ o, (∀ v, o = some v → R k v) → Timed R C (c o) Q
  | put _ _ c, Q => ∀ b, Timed R C (c b) Q
  | purge _ c, Q => ∀ b, Timed R C (c b) Q
  | draw c, Q => ∀ s, Timed R C (c s) Q
  | now c, Q => ∀ t, C t → Timed R C (c t) Q

variable {R : String → V → Prop} {C : Int → Prop}

theorem Timed.bind {p : Prog V α} {f : α → Prog V β} {Q : Res α → Prop} {Q' : Res β → Prop} (h : Timed R C p Q)
    (hok : ∀ a, Q (.ok a) → Timed R C (f a) Q') (herr : ∀ x, Q (.error x) → Q' (.error x)) : Timed R C (p >>= f) Q' := by
  show Timed R C (p.bind f) Q'
  induction p with
  | ret r =>
    cases r with
    | ok a => exact hok a h
    | error x => exact herr x h
  | get k c ih => exact fun o ho => ih o (h o ho)
  | put k v c ih => exact fun b => ih b (h b)
  | purge k c ih => exact fun b => ih b (h b)
  | draw c ih => exact fun s => ih s (h s)
  | now c ih => exact fun t ht => ih t (h t ht)

theorem Timed.mono {p : Prog V α} {Q Q' : Res α → Prop} (h : Timed R C p Q) (hq : ∀ r, Q r → Q' r) : Timed R C p Q' := by
  induction p with
  | ret r => exact hq r h
  | get k c ih => exact fun o ho => ih o (h o ho)
  | put k v c ih => exact fun b => ih b (h b)
  | purge k c ih => exact fun b => ih b (h b)
  | draw c ih => exact fun s => ih s (h s)
  | now c ih => exact fun t ht => ih t (h t ht)

theorem Timed.lift {r : Res α} {Q : Res α → Prop} (h : Q r) : Timed R C (Prog.lift r) Q := h

end Prog

namespace Pool
open Prog
variable {V ρ : Type} {rng : Nat → Nat → String}

theorem now_le_exec (p : Pool V ρ) (s : List Event) : p.now ≤ (p.exec rng s).now := by
  induction s generalizing p with
  | nil => exact Int.le_refl _
  | cons ev s ih =>
    refine Int.le_trans ?_ (ih (p.step rng ev))
    cases ev with
    | tick n => exact Int.le_add_of_nonneg_right (Int.natCast_nonneg n)
    | run i f => simp only [Pool.step]; split <;> exact Int.le_refl _

/-- One step of call `j` or another. -/
theorem timed_step {R : String → V → Prop} {C : Int → Prop} {Q : Res ρ → Prop} {j : Nat} {p : Pool V ρ} (hR : ∀ k v, p.store k = some v → R k v) (hC : C p.now)
    (h : Timed R C (p.prog j) Q) (ev : Event) : Timed R C ((p.step rng ev).prog j) Q := by
  cases ev with
  | tick n => exact h
  | run i f =>
    by_cases e : j = i
    · subst e
      simp only [Pool.step]
      cases hp : p.prog j with
      | ret r => simp only; rw [hp]; rw [hp] at h; exact h
      | get k c =>
        rw [hp] at h
        simp only [setAt_same]
        refine h _ fun v hv => ?_
        cases f <;> simp only [getRes] at hv
        · exact hR k v hv
        all_goals cases hv
      | put k v c => rw [hp] at h; simp only [setAt_same]; exact h _
      | purge k c => rw [hp] at h; simp only [setAt_same]; exact h _
      | draw c => rw [hp] at h; simp only [setAt_same]; exact h _
      | now c => rw [hp] at h; simp only [setAt_same]; exact h _ hC
    · rw [step_other e]; exact h

/-- All steps, between two times. -/
theorem timed_exec {R : String → V → Prop} {Q : Res ρ → Prop} {j : Nat} {T : Int} {p : Pool V ρ} (s : List Event)
    (hR : ∀ s', s' <+: s → ∀ k v, (p.exec rng s').store k = some v → R k v)
    (h : Timed R (fun t => p.now ≤ t ∧ t ≤ T) (p.prog j) Q) (hT : (p.exec rng s).now ≤ T) :
    Timed R (fun t => p.now ≤ t ∧ t ≤ T) ((p.exec rng s).prog j) Q := by
  suffices H : ∀ (s : List Event) (q : Pool V ρ), p.now ≤ q.now → (∀ s', s' <+: s → ∀ k v, (q.exec rng s').store k = some v → R k v) →
      Timed R (fun t => p.now ≤ t ∧ t ≤ T) (q.prog j) Q → (q.exec rng s).now ≤ T → Timed R (fun t => p.now ≤ t ∧ t ≤ T) ((q.exec rng s).prog j) Q from
    H s p (Int.le_refl _) hR h hT
  intro s
  induction s with
  | nil => exact fun q _ _ h _ => h
  | cons ev s ih =>
    intro q hq hR h hT
    refine ih (q.step rng ev) (Int.le_trans hq (now_le_exec q [ev])) (fun s' hs' => hR (ev :: s') ?_) ?_ hT
    · obtain ⟨l, rfl⟩ := hs'
      exact ⟨l, rfl⟩
    · exact timed_step (hR [] (List.nil_prefix)) ⟨hq, Int.le_trans (now_le_exec q (ev :: s)) hT⟩ h ev

end Pool

end Verif
