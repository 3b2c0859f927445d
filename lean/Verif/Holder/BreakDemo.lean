import Verif.Holder.BreakProps
import Verif.Holder.Demo
/-!
# A wallet that stops while it saves

Shows that the hypotheses of C202 can be met and that both of its cases occur.
-/
namespace Verif.Holder.Demo
open Verif

-- one credential received; the call to save it reads the flow, hands over the credential and removes the flow: stopped before the last of these, the
-- flow is there as it was, after it, it is gone
example : ((stopped env 2 (at_ [doOffer, doAccept, doPin, doToken, doCredentials]) doSave).store "t").isSome = true ∧
    ((stopped env 3 (at_ [doOffer, doAccept, doPin, doToken, doCredentials]) doSave).store "t").isSome = false := by decide +kernel

example : ∃ cs : List Credential, cs.map (·.issued) = ["vc.jwt"] ∧ ∀ n,
    ((stopped env n (at_ [doOffer, doAccept, doPin, doToken, doCredentials]) doSave).store "t" = none ∧
      (stopped env n (at_ [doOffer, doAccept, doPin, doToken, doCredentials]) doSave).log.map (·.events) =
        (at_ [doOffer, doAccept, doPin, doToken, doCredentials]).log.map (·.events) ++ [cs.map fun c => ⟨.save c, some ()⟩]) ∨
    ∀ again : HStep, again.req = .save "t" →
      (step env (stopped env n (at_ [doOffer, doAccept, doPin, doToken, doCredentials]) doSave) again).1 = .ok (.flow "t") ∧
      (step env (stopped env n (at_ [doOffer, doAccept, doPin, doToken, doCredentials]) doSave) again).2.log.map (·.events) =
        (stopped env n (at_ [doOffer, doAccept, doPin, doToken, doCredentials]) doSave).log.map (·.events) ++ [cs.map fun c => ⟨.save c, some ()⟩] := by
  obtain ⟨cs, h1, h2⟩ := C202_save_again (e := env) (k := "t") (env_fresh _) (fun n h => nomatch h)
    (at_reachable [doOffer, doAccept, doPin, doToken, doCredentials] ["emp-1"]) (by decide +kernel)
    (not_ended (by decide +kernel)) doSave rfl (fun _ _ => rfl) (fun _ _ _ => rfl)
  exact ⟨cs, h1.trans (by decide +kernel), h2⟩

end Verif.Holder.Demo
