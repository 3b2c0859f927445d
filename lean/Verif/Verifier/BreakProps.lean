import Verif.Break
import Verif.Verifier.Demo
/-!
# C198: a response that was broken off can be sent again

The verifier removes the request last (/repo/vercre-verifier/src/response.rs 202-206).
-/
namespace Verif.Verifier
open Prog

/-- **C198**, verifier. A response is broken off anywhere, with any failures of the store up to there. If the request is gone then, the response had passed all checks.
If it is there, nothing has changed, and with the store working again the response is answered as it would have been. -/
theorem C198_response_repeatable {P : Provider} {req : ResponseRequest} {k : String} (hk : req.state = some k) {e : Env} {w : World VState} {s : VState}
    (hs : w.store k = some s) (n : Nat) :
    (((response P req).cut e n w).store k = none ∧ (∀ k', k' ≠ k → ((response P req).cut e n w).store k' = w.store k') ∧
      ∀ e', (∀ i, e'.fault i = .ok) → ∃ r w', (response P req).run e' w = (.ok r, w')) ∨
    (((response P req).cut e n w).store = w.store ∧ ∀ e', (∀ i, e'.fault i = .ok) →
      ((response P req).run e' ((response P req).cut e n w)).1 = ((response P req).run e' w).1) := by
  let I : World VState → Prop := fun w' => w'.now = w.now ∧
    (w'.store = w.store ∨ (w'.store = upd w.store k none ∧ Response.check P w.now s.requestObject req = .ok ()))
  have hI : Along e I (response P req) w fun _ _ => True := by
    have i0 : I w := ⟨rfl, .inl rfl⟩
    have i1 : I { w with ops := w.ops + 1 } := ⟨rfl, .inl rfl⟩
    unfold response
    refine Along.bind (Q := fun x w' => k = x ∧ w = w') (Along.lift i0 fun a ha => ⟨by rw [orErr_ok, hk] at ha; cases ha; rfl, rfl⟩) ?_
    rintro _ _ ⟨rfl, rfl⟩
    refine Along.bind (Q := fun v w'' => s = v ∧ w'' = { w with ops := w.ops + 1 }) (Along.getE i0 i1 fun v hv => ⟨by rw [hs] at hv; cases hv; rfl, rfl⟩) ?_
    rintro _ _ ⟨rfl, rfl⟩
    refine Along.bind (Q := fun _ w'' => w'' = { w with ops := w.ops + 1 } ∧ Response.check P w.now s.requestObject req = .ok ()) ?_ ?_
    · unfold Response.verify
      refine Along.bind (Q := fun p w'' => w'' = { w with ops := w.ops + 1 } ∧ Response.prepare P s.requestObject req = .ok p)
        (Along.lift i1 fun p hp => ⟨rfl, hp⟩) ?_
      rintro p _ ⟨rfl, hp⟩
      refine Along.weaken (Q := fun _ w'' => w'' = { w with ops := w.ops + 1 } ∧ Response.checkInputs P w.now p.1 p.2.1 p.2.2 = .ok ()) ?_ ?_
      · generalize p.2.2 = is
        induction is with
        | nil => exact Along.pure i1 ⟨rfl, rfl⟩
        | cons i is ih =>
          refine Along.bind (Q := fun x w'' => x = w.now ∧ w'' = { w with ops := w.ops + 1 }) (Along.nowE i1 ⟨rfl, rfl⟩) ?_
          rintro _ _ ⟨rfl, rfl⟩
          refine Along.bind (Q := fun _ w'' => w'' = { w with ops := w.ops + 1 } ∧ Response.checkInput P w.now p.1 p.2.1 i = .ok ())
            (Along.lift i1 fun _ h => ⟨rfl, h⟩) ?_
          rintro _ _ ⟨rfl, hc⟩
          refine Along.weaken ih fun _ _ h => ⟨h.1, ?_⟩
          simp only [Response.checkInputs, hc, Bind.bind, Except.bind]
          exact h.2
      · rintro _ w'' ⟨h1, h2⟩
        refine ⟨h1, ?_⟩
        simp only [Response.check, hp, Bind.bind, Except.bind]
        exact h2
    rintro _ _ ⟨rfl, hc⟩
    refine Along.bind (Q := fun _ w'' => I w'') (Along.purgeE i1 ?_ ⟨rfl, .inr ⟨rfl, hc⟩⟩) fun _ w'' h => Along.pure h trivial
    rintro st (rfl | rfl)
    · exact ⟨rfl, .inl rfl⟩
    · exact ⟨rfl, .inr ⟨rfl, hc⟩⟩
  obtain ⟨hnow, h⟩ := hI.cut n
  generalize (response P req).cut e n w = w1 at hnow h
  rcases h with h | ⟨h, hc⟩
  · refine .inr ⟨h, fun e' he' => ?_⟩
    have hrun : ∀ w0 : World VState, w0.now = w.now → w0.store = w.store → ((response P req).run e' w0).1 =
        match Response.check P w.now s.requestObject req with
        | .ok () => .ok { redirectUri := some "http://localhost:3000/cb", responseCode := none }
        | .error x => .error x := by
      intro w0 h1 h2
      simp only [response, Bind.bind, run_bind, lift, run, hk, orErr, getE, he', getRes, h2, hs, verify_run, h1]
      cases Response.check P w.now s.requestObject req with
      | error x => rfl
      | ok u => simp only [purgeE, run, he', decide_true, if_true]; rfl
    rw [hrun _ hnow h, hrun w rfl rfl]
  · refine .inl ⟨by rw [h]; exact upd_same .., fun k' hk' => by rw [h]; exact upd_other _ _ hk', fun e' he' => ?_⟩
    exact ⟨_, _, response_ok.2 ⟨he' _, he' _, k, s, hk, hs, hc, rfl, rfl⟩⟩

namespace Demo

-- Broken off after reading the request and the clock: the second try is accepted. Broken off at the end: the request is gone
example : (∃ s, w1.store "tt" = some s) ∧ ((response provider (resp (.string "vp.jwt"))).cut env 2 w1).store "tt" = w1.store "tt" ∧
    ((response provider (resp (.string "vp.jwt"))).run env ((response provider (resp (.string "vp.jwt"))).cut env 2 w1)).1 = .ok accepted ∧
    ((response provider (resp (.string "vp.jwt"))).cut env 9 w1).store "tt" = none :=
  ⟨⟨_, rfl⟩, rfl, rfl, rfl⟩

end Demo
end Verif.Verifier
