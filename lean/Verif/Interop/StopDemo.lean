import Verif.Interop.StopProps
import Verif.Interop.Demo
/-!
# A wallet that stops while it asks for a token

Shows that the hypotheses of C202 can be met: the offer of `Interop/Demo.lean`, taken in, accepted and given its transaction code.
-/
namespace Verif.Interop.StopDemo
open Verif Verif.Interop.Demo

/-- The wallet before it asks for the token. -/
noncomputable def before : Holder.HWorld := Holder.exec env (Holder.start 0) (history.take 3)

/-- The call for the token. -/
noncomputable def ask : Holder.HStep := { provider := wallet, wait := 7, req := .token "k" }

theorem token_granted : ∃ resp, (Holder.step env before ask).1 = .ok resp := ⟨_, rfl⟩

-- the flow is lost if the wallet stops at the wrong moment, although the token is granted when it does not
example : ∃ m, (Holder.stopped env m before ask).store = before.store ∧
    ∀ (between : List (Holder.HStep × Option Nat)) (again : Holder.HStep), again.req = .token "k" →
      ∃ err, (Holder.step env (Holder.live env (Holder.stopped env m before ask) between) again).1 = .error err := by
  obtain ⟨resp, h⟩ := token_granted
  exact C202_token_lost (n := net) (w1 := issuer) Verif.Issuer.Demo.env_fresh ⟨0, [offerStep], rfl⟩ rfl (fun a b h => by
    have := congrArg (fun t : String => t.toList.length) h
    simpa [env] using this) ⟨0, _, rfl⟩ rfl h

end Verif.Interop.StopDemo
