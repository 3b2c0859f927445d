import Verif.Issuer.System
/-!
# A step is a run of its endpoint
-/
namespace Verif.Issuer
open Prog

theorem run_map_pure {V α β : Type} (e : Env) (p : Prog V α) (f : α → β) (w : World V) :
    (p >>= fun x => pure (f x)).run e w = ((p.run e w).1.map f, (p.run e w).2) := by
  show (p.bind _).run e w = _
  rw [run_bind]
  cases h : p.run e w with
  | mk r w1 => cases r <;> rfl

theorem map_ok {α β : Type} {r : Res α} {f : α → β} {b : β} : r.map f = .ok b ↔ ∃ a, r = .ok a ∧ f a = b := by
  cases r <;> simp [Except.map]

section
variable {e : Env} {w : World State} {s : Step}

theorem step_createOffer {r : CreateOfferRequest} (h : s.req = .createOffer r) :
    step e w s = ((((createOffer s.provider r).run e (World.wait w s.wait)).1).map .createOffer,
      ((createOffer s.provider r).run e (World.wait w s.wait)).2) := by
  simp only [step, h, call]; exact run_map_pure ..

theorem step_credentialOffer {r : CredentialOfferRequest} (h : s.req = .credentialOffer r) :
    step e w s = ((((credentialOffer r).run e (World.wait w s.wait)).1).map .credentialOffer,
      ((credentialOffer r).run e (World.wait w s.wait)).2) := by
  simp only [step, h, call]; exact run_map_pure ..

theorem step_par {r : RequestObject} (h : s.req = .par r) :
    step e w s = ((((par s.provider r).run e (World.wait w s.wait)).1).map .par,
      ((par s.provider r).run e (World.wait w s.wait)).2) := by
  simp only [step, h, call]; exact run_map_pure ..

theorem step_authorize {r : AuthorizationRequest} (h : s.req = .authorize r) :
    step e w s = ((((authorize s.provider r).run e (World.wait w s.wait)).1).map .authorize,
      ((authorize s.provider r).run e (World.wait w s.wait)).2) := by
  simp only [step, h, call]; exact run_map_pure ..

theorem step_token {r : TokenRequest} (h : s.req = .token r) :
    step e w s = ((((token s.provider r).run e (World.wait w s.wait)).1).map .token,
      ((token s.provider r).run e (World.wait w s.wait)).2) := by
  simp only [step, h, call]; exact run_map_pure ..

theorem step_credential {r : CredentialRequest} (h : s.req = .credential r) :
    step e w s = ((((credential s.provider r).run e (World.wait w s.wait)).1).map .credential,
      ((credential s.provider r).run e (World.wait w s.wait)).2) := by
  simp only [step, h, call]; exact run_map_pure ..

theorem step_deferred {r : DeferredRequest} (h : s.req = .deferred r) :
    step e w s = ((((deferred s.provider r).run e (World.wait w s.wait)).1).map .deferred,
      ((deferred s.provider r).run e (World.wait w s.wait)).2) := by
  simp only [step, h, call]; exact run_map_pure ..

theorem step_notification {r : NotificationRequest} (h : s.req = .notification r) :
    step e w s = ((((notification r).run e (World.wait w s.wait)).1).map fun _ => .notification,
      ((notification r).run e (World.wait w s.wait)).2) := by
  simp only [step, h, call]; exact run_map_pure e (notification r) (fun _ => Resp.notification) _

theorem step_register {r : RegistrationRequest} (h : s.req = .register r) :
    step e w s = ((((register s.provider r).run e (World.wait w s.wait)).1).map .register,
      ((register s.provider r).run e (World.wait w s.wait)).2) := by
  simp only [step, h, call]; exact run_map_pure ..

end

/-- A pair whose first component is known. -/
theorem pair_of_fst {α β : Type} {p : α × β} {a : α} (h : p.1 = a) : p = (a, p.2) := by cases p; cases h; rfl

end Verif.Issuer
