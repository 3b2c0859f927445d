import Verif.Holder.StepInv
/-!
# From an entry in a history to the call that made it
-/
namespace Verif.Holder
open Verif HProg

variable {e : HEnv} {w : HWorld}

theorem run_log {α : Type} (e : HEnv) (p : HProg α) (w : HWorld) : (p.run e w).2.log = w.log := by
  induction p generalizing w with
  | ret r => rfl
  | get k c ih => exact ih _ _
  | put k v c ih => exact ih _ _
  | purge k c ih => exact ih _ _
  | draw c ih => exact ih _ _
  | now c ih => exact ih _ _
  | call c k ih => exact ih _ _

/-- The world a call is served in. -/
def before (w : HWorld) (s : HStep) : HWorld := { w with now := w.now + s.wait, recent := [] }

theorem step_log (e : HEnv) (w : HWorld) (s : HStep) : (step e w s).2.log = w.log ++ [⟨s.provider, w.now + s.wait, s.req,
    ((serve s.provider s.req).run e (before w s)).1, ((serve s.provider s.req).run e (before w s)).2.recent⟩] := by
  have := run_log e (serve s.provider s.req) (before w s)
  simp only [step]
  rw [show ({ w with now := w.now + s.wait, recent := [] } : HWorld) = before w s from rfl, this]
  rfl

theorem exec_log (e : HEnv) (w : HWorld) (l : List HStep) : ∃ t, (exec e w l).log = w.log ++ t := by
  induction l generalizing w with
  | nil => exact ⟨[], by simp [exec]⟩
  | cons s l ih =>
    obtain ⟨t, ht⟩ := ih (step e w s).2
    rw [step_log, List.append_assoc] at ht
    exact ⟨_, ht⟩

theorem exec_append (e : HEnv) (w : HWorld) (a b : List HStep) : exec e w (a ++ b) = exec e (exec e w a) b := by
  induction a generalizing w with
  | nil => rfl
  | cons s a ih => exact ih _

theorem Reachable.step (h : Reachable e w) (s : HStep) : Reachable e (step e w s).2 := by
  obtain ⟨now, steps, rfl⟩ := h
  exact ⟨now, steps ++ [s], by rw [exec_append]; rfl⟩

theorem exec_split {pre post : List Entry} {en : Entry} (steps : List HStep) (h : (exec e w steps).log = pre ++ en :: post)
    (hl : w.log.length ≤ pre.length) :
    ∃ s1 s s2, steps = s1 ++ s :: s2 ∧ (exec e w s1).log = pre ∧ (step e (exec e w s1) s).2.log = pre ++ [en] := by
  induction steps generalizing w with
  | nil =>
    have : w.log = pre ++ en :: post := h
    rw [this] at hl
    simp at hl
    omega
  | cons s l ih =>
    by_cases hlt : w.log.length < pre.length
    · have hle : (step e w s).2.log.length ≤ pre.length := by rw [step_log]; simp; omega
      obtain ⟨s1, x, s2, rfl, h1, h2⟩ := ih h hle
      exact ⟨s :: s1, x, s2, rfl, h1, h2⟩
    · obtain ⟨t, ht⟩ := exec_log e (step e w s).2 l
      rw [exec, ht] at h
      have hs := step_log e w s
      generalize ((⟨s.provider, w.now + s.wait, s.req, ((serve s.provider s.req).run e (before w s)).1,
        ((serve s.provider s.req).run e (before w s)).2.recent⟩ : Entry)) = x at hs
      rw [hs, List.append_assoc] at h
      have heq := List.append_inj h (by omega)
      simp only [List.cons_append, List.nil_append, List.cons.injEq] at heq
      obtain ⟨h1, h2, _⟩ := heq
      refine ⟨[], s, l, rfl, h1, ?_⟩
      show (step e w s).2.log = _
      rw [hs, h1, h2]

/-- Every entry was made by serving its request in a world the wallet had reached. -/
theorem log_split {pre post : List Entry} {en : Entry} (hr : Reachable e w) (h : w.log = pre ++ en :: post) :
    ∃ w0 w2, Reachable e w0 ∧ w0.log = pre ∧
      (serve en.provider en.req).run e { w0 with now := en.now, recent := [] } = (en.result, w2) ∧ w2.recent = en.events := by
  obtain ⟨now, steps, rfl⟩ := hr
  obtain ⟨s1, s, s2, -, h1, h2⟩ := exec_split steps h (by simp [start])
  refine ⟨exec e (start now) s1, ((serve s.provider s.req).run e (before (exec e (start now) s1) s)).2, ⟨now, s1, rfl⟩, h1, ?_⟩
  rw [step_log, h1] at h2
  have h3 := List.append_cancel_left h2
  simp only [List.cons.injEq, and_true] at h3
  subst h3
  exact ⟨rfl, rfl⟩

end Verif.Holder
