import Verif.Sched
/-!
# Calls that have nothing in common

A logic of programs for where a call looks, and what follows for all schedules: calls that look at different entries of the store do not notice each other.
-/
namespace Verif
namespace Prog
variable {V α β : Type}

/-- The program uses only entries in `K`, provided that the values stored there satisfy `I` and that what is drawn satisfies `D`; it writes only values that
satisfy `I`, and what it returns satisfies `Q`. Machinery of the proofs; models no code. -/
def Stays (K : String → Prop) (I : V → Prop) (D : String → Prop) : Prog V α → (α → Prop) → Prop
  | ret (.ok a), Q => Q a
  | ret (.error _), _ => True
  | get k c, Q => K k ∧ ∀ o, (∀ v, o = some v → I v) → Stays K I D (c o) Q
  | put k v c, Q => K k ∧ I v ∧ ∀ b, Stays K I D (c b) Q
  | purge k c, Q => K k ∧ ∀ b, Stays K I D (c b) Q
  | draw c, Q => ∀ s, D s → Stays K I D (c s) Q
  | now c, Q => ∀ t, Stays K I D (c t) Q

variable {K : String → Prop} {I : V → Prop} {D : String → Prop}

theorem Stays.bind {p : Prog V α} {f : α → Prog V β} {Q : α → Prop} {Q' : β → Prop} (h : Stays K I D p Q) (hf : ∀ a, Q a → Stays K I D (f a) Q') :
    Stays K I D (p >>= f) Q' := by
  show Stays K I D (p.bind f) Q'
  induction p with
  | ret r =>
    cases r with
    | ok a => exact hf a h
    | error x => exact True.intro
  | get k c ih => exact ⟨h.1, fun o ho => ih o (h.2 o ho)⟩
  | put k v c ih => exact ⟨h.1, h.2.1, fun b => ih b (h.2.2 b)⟩
  | purge k c ih => exact ⟨h.1, fun b => ih b (h.2 b)⟩
  | draw c ih => exact fun s hs => ih s (h s hs)
  | now c ih => exact fun t => ih t (h t)

theorem Stays.lift {r : Res α} {Q : α → Prop} (h : ∀ a, r = .ok a → Q a) : Stays K I D (Prog.lift r) Q := by
  cases r with
  | ok a => exact h a rfl
  | error x => exact True.intro

theorem Stays.pure {a : α} {Q : α → Prop} (h : Q a) : Stays K I D (Pure.pure a : Prog V α) Q := h

theorem Stays.getE {k : String} {e : Err} {Q : V → Prop} (hk : K k) (h : ∀ v, I v → Q v) : Stays K I D (Prog.getE k e) Q := by
  refine ⟨hk, fun o ho => ?_⟩
  cases o with
  | none => exact True.intro
  | some v => exact h v (ho v rfl)

theorem Stays.putE {k : String} {v : V} {e : Err} {Q : Unit → Prop} (hk : K k) (hv : I v) (hq : Q ()) : Stays K I D (Prog.putE k v e) Q :=
  ⟨hk, hv, fun b => by cases b <;> first | exact hq | exact True.intro⟩

theorem Stays.purgeE {k : String} {e : Err} {Q : Unit → Prop} (hk : K k) (hq : Q ()) : Stays K I D (Prog.purgeE k e : Prog V Unit) Q :=
  ⟨hk, fun b => by cases b <;> first | exact hq | exact True.intro⟩

theorem Stays.drawE {Q : String → Prop} (h : ∀ s, D s → Q s) : Stays K I D (Prog.drawE : Prog V String) Q := fun s hs => h s hs

theorem Stays.nowE {Q : Int → Prop} (h : ∀ t, Q t) : Stays K I D (Prog.nowE : Prog V Int) Q := h

end Prog

namespace Pool
open Prog
variable {V ρ : Type}

/-- Two runs that agree on the calls in `A` and on the entries in `K`, where all calls stay on their side. Machinery of the proofs; models no code. -/
structure Alike (A : Nat → Bool) (K : String → Prop) (I J : V → Prop) (D : Nat → String → Prop) (p q : Pool V ρ) : Prop where
  now : p.now = q.now
  prog : ∀ i, A i = true → p.prog i = q.prog i
  drawn : ∀ i, A i = true → p.drawn i = q.drawn i
  store : ∀ k, K k → p.store k = q.store k
  inside : ∀ k v, K k → p.store k = some v → I v
  outside : ∀ k v, ¬ K k → p.store k = some v → J v
  mine : ∀ i, A i = true → Stays K I (D i) (p.prog i) (fun _ => True)
  others : ∀ i, A i = false → Stays (fun k => ¬ K k) J (D i) (p.prog i) (fun _ => True)

/-- The events that concern the calls in `A`, and the passing of time. Specification; models no code. -/
def concerns (A : Nat → Bool) : Event → Bool
  | .tick _ => true
  | .run i _ => A i

variable {A : Nat → Bool} {K : String → Prop} {I J : V → Prop} {D : Nat → String → Prop} {rng : Nat → Nat → String}

theorem writeRes_ne {f : Fault} {s : String → Option V} {k k' : String} {v : Option V} (h : k' ≠ k) : writeRes f s k v k' = s k' := by
  rcases writeRes_eq (f := f) (s := s) (k := k) (k' := k') (v := v) with e | ⟨e, _⟩
  · exact e
  · exact absurd e h

theorem writeRes_cong {f : Fault} {s s' : String → Option V} {k k' : String} {v : Option V} (h : s k' = s' k') : writeRes f s k v k' = writeRes f s' k v k' := by
  cases f <;> simp [writeRes, upd, h]

theorem Alike.step {p q : Pool V ρ} (hD : ∀ i n, D i (rng i n)) (h : Alike A K I J D p q) (ev : Event) :
    Alike A K I J D (p.step rng ev) (if concerns A ev then q.step rng ev else q) := by
  cases ev with
  | tick ns => exact ⟨congrArg (· + (ns : Int)) h.now, h.prog, h.drawn, h.store, h.inside, h.outside, h.mine, h.others⟩
  | run i f =>
    cases hA : A i with
    | true =>
      simp only [concerns, hA, if_true]
      have hp := h.prog i hA
      have hm := h.mine i hA
      have hd := h.drawn i hA
      have prog : ∀ (x : Prog V ρ) j, A j = true → setAt p.prog i x j = setAt q.prog i x j := by
        intro x j hj
        by_cases e : j = i
        · subst e; simp
        · simp [setAt_other _ _ e, h.prog j hj]
      have mine : ∀ x : Prog V ρ, Stays K I (D i) x (fun _ => True) → ∀ j, A j = true → Stays K I (D j) (setAt p.prog i x j) (fun _ => True) := by
        intro x hx j hj
        by_cases e : j = i
        · subst e; simpa using hx
        · rw [setAt_other _ _ e]; exact h.mine j hj
      have others : ∀ (x : Prog V ρ) j, A j = false → Stays (fun k => ¬ K k) J (D j) (setAt p.prog i x j) (fun _ => True) := by
        intro x j hj
        have e : j ≠ i := fun e => by rw [e, hA] at hj; cases hj
        rw [setAt_other _ _ e]; exact h.others j hj
      cases hx : p.prog i with
      | ret r => simp only [Pool.step, ← hp, hx]; exact h
      | get k c =>
        rw [hx] at hm
        simp only [Pool.step, ← hp, hx, ← h.store k hm.1]
        refine ⟨h.now, prog _, h.drawn, h.store, h.inside, h.outside, mine _ (hm.2 _ ?_), others _⟩
        intro v hv
        cases f <;> simp only [getRes] at hv
        · exact h.inside k v hm.1 hv
        all_goals cases hv
      | put k v c =>
        rw [hx] at hm
        simp only [Pool.step, ← hp, hx]
        refine ⟨h.now, prog _, h.drawn, fun k' hk' => writeRes_cong (h.store k' hk'), fun k' v' hk' hv' => ?_, fun k' v' hk' hv' => ?_, mine _ (hm.2.2 _), others _⟩
        · rcases writeRes_eq (f := f) (s := p.store) (k := k) (k' := k') (v := some v) with e | ⟨rfl, e⟩
          · exact h.inside k' v' hk' (e.symm.trans hv')
          · cases e.symm.trans hv'; exact hm.2.1
        · exact h.outside k' v' hk' ((writeRes_ne fun e => hk' (by rw [e]; exact hm.1)).symm.trans hv')
      | purge k c =>
        rw [hx] at hm
        simp only [Pool.step, ← hp, hx]
        refine ⟨h.now, prog _, h.drawn, fun k' hk' => writeRes_cong (h.store k' hk'), fun k' v' hk' hv' => ?_, fun k' v' hk' hv' => ?_, mine _ (hm.2 _), others _⟩
        · rcases writeRes_eq (f := f) (s := p.store) (k := k) (k' := k') (v := none) with e | ⟨rfl, e⟩
          · exact h.inside k' v' hk' (e.symm.trans hv')
          · cases e.symm.trans hv'
        · exact h.outside k' v' hk' ((writeRes_ne fun e => hk' (by rw [e]; exact hm.1)).symm.trans hv')
      | draw c =>
        rw [hx] at hm
        simp only [Pool.step, ← hp, hx, ← hd]
        refine ⟨h.now, prog _, fun j hj => ?_, h.store, h.inside, h.outside, mine _ (hm _ (hD i _)), others _⟩
        by_cases e : j = i
        · subst e; simp
        · simp [setAt_other _ _ e, h.drawn j hj]
      | now c =>
        rw [hx] at hm
        simp only [Pool.step, ← hp, hx, ← h.now]
        exact ⟨rfl, prog _, h.drawn, h.store, h.inside, h.outside, mine _ (hm _), others _⟩
    | false =>
      simp only [concerns, hA]
      have hm := h.others i hA
      have prog : ∀ (x : Prog V ρ) j, A j = true → setAt p.prog i x j = q.prog j := by
        intro x j hj
        have e : j ≠ i := fun e => by rw [e, hA] at hj; cases hj
        rw [setAt_other _ _ e]; exact h.prog j hj
      have mine : ∀ (x : Prog V ρ) j, A j = true → Stays K I (D j) (setAt p.prog i x j) (fun _ => True) := by
        intro x j hj
        have e : j ≠ i := fun e => by rw [e, hA] at hj; cases hj
        rw [setAt_other _ _ e]; exact h.mine j hj
      have others : ∀ x : Prog V ρ, Stays (fun k => ¬ K k) J (D i) x (fun _ => True) → ∀ j, A j = false → Stays (fun k => ¬ K k) J (D j) (setAt p.prog i x j) (fun _ => True) := by
        intro x hx j hj
        by_cases e : j = i
        · subst e; simpa using hx
        · rw [setAt_other _ _ e]; exact h.others j hj
      cases hx : p.prog i with
      | ret r => simp only [Pool.step, hx]; exact h
      | get k c =>
        rw [hx] at hm
        simp only [Pool.step, hx]
        refine ⟨h.now, prog _, h.drawn, h.store, h.inside, h.outside, mine _, others _ (hm.2 _ ?_)⟩
        intro v hv
        cases f <;> simp only [getRes] at hv
        · exact h.outside k v hm.1 hv
        all_goals cases hv
      | put k v c =>
        rw [hx] at hm
        simp only [Pool.step, hx]
        have ne : ∀ k', K k' → k' ≠ k := fun k' hk' e => hm.1 (by rw [← e]; exact hk')
        refine ⟨h.now, prog _, h.drawn, fun k' hk' => (writeRes_ne (ne k' hk')).trans (h.store k' hk'), fun k' v' hk' hv' => ?_, fun k' v' hk' hv' => ?_, mine _, others _ (hm.2.2 _)⟩
        · exact h.inside k' v' hk' ((writeRes_ne (ne k' hk')).symm.trans hv')
        · rcases writeRes_eq (f := f) (s := p.store) (k := k) (k' := k') (v := some v) with e | ⟨rfl, e⟩
          · exact h.outside k' v' hk' (e.symm.trans hv')
          · cases e.symm.trans hv'; exact hm.2.1
      | purge k c =>
        rw [hx] at hm
        simp only [Pool.step, hx]
        have ne : ∀ k', K k' → k' ≠ k := fun k' hk' e => hm.1 (by rw [← e]; exact hk')
        refine ⟨h.now, prog _, h.drawn, fun k' hk' => (writeRes_ne (ne k' hk')).trans (h.store k' hk'), fun k' v' hk' hv' => ?_, fun k' v' hk' hv' => ?_, mine _, others _ (hm.2 _)⟩
        · exact h.inside k' v' hk' ((writeRes_ne (ne k' hk')).symm.trans hv')
        · rcases writeRes_eq (f := f) (s := p.store) (k := k) (k' := k') (v := none) with e | ⟨rfl, e⟩
          · exact h.outside k' v' hk' (e.symm.trans hv')
          · cases e.symm.trans hv'
      | draw c =>
        rw [hx] at hm
        simp only [Pool.step, hx]
        refine ⟨h.now, prog _, fun j hj => ?_, h.store, h.inside, h.outside, mine _, others _ (hm _ (hD i _))⟩
        have e : j ≠ i := fun e => by rw [e, hA] at hj; cases hj
        exact (setAt_other _ _ e).trans (h.drawn j hj)
      | now c =>
        rw [hx] at hm
        simp only [Pool.step, hx]
        exact ⟨h.now, prog _, h.drawn, h.store, h.inside, h.outside, mine _, others _ (hm _)⟩

theorem Alike.exec {p q : Pool V ρ} (hD : ∀ i n, D i (rng i n)) (h : Alike A K I J D p q) (s : List Event) :
    Alike A K I J D (p.exec rng s) (q.exec rng (s.filter (concerns A))) := by
  induction s generalizing p q with
  | nil => exact h
  | cons ev s ih =>
    have h1 := h.step (rng := rng) hD ev
    cases hc : concerns A ev with
    | true =>
      rw [hc, if_pos rfl] at h1
      rw [List.filter_cons_of_pos hc]
      exact ih h1
    | false =>
      rw [hc] at h1
      rw [List.filter_cons_of_neg (by simp [hc])]
      exact ih h1

end Pool
end Verif
