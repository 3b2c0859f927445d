import Verif.Holder.HomeProps
import Verif.Holder.Demo
/-!
# Cases of C206 and C80
-/
namespace Verif.Holder.HomeDemo
open Verif HProg Holder.Demo

/-- To whom a call sent what it sent, and with which access token. -/
def sentBy (en : Entry) : List (Option String × Option String) := en.events.filterMap fun ev => (addressee ev.call).map fun a => (some a, bearerOf ev.call)

-- a pre-authorized flow: code and PIN, then the token with the proofs, all to the issuer the metadata names
example : sentBy (lastOf [doOffer, doAccept, doPin] doToken) = [(some "https://elsewhere.example", none)] := by decide +kernel
example : sentBy (lastOf [doOffer, doAccept, doPin, doToken] doCredentials) = [(some "https://elsewhere.example", some "at-1")] := by decide +kernel

-- a flow the wallet began
example : sentBy (lastOf [] (doWallet none (some [{ credential := .configurationId "Employee" none }]))) =
    [(some "https://elsewhere.example", none), (some "https://elsewhere.example", none)] := by decide +kernel

/-! ### Issuers that name themselves -/

def honest : HEnv where
  rng := rng
  fault := fun _ => .ok
  oracle log recent
    | .metadata i => some { metadata with credentialIssuer := i }
    | c => oracle ["emp-1"] log recent c

def names (en : Entry) : Bool := en.events.all fun ev => match ev with
  | ⟨.metadata i, some (md : Verif.Issuer)⟩ => md.credentialIssuer == i
  | _ => true

theorem names_all {l : List Entry} (h : l.all names = true) : ∀ x ∈ l, ∀ i (md : Verif.Issuer), (⟨.metadata i, some md⟩ : Event) ∈ x.events → md.credentialIssuer = i := by
  intro x hx i md hm
  have := List.all_eq_true.mp (List.all_eq_true.mp h x hx) _ hm
  exact eq_of_beq this

def history : List HStep := [doOffer, doAccept, doPin, doToken, doCredentials]

/-- The hypotheses of `C206_token_goes_where_it_came_from`, `C206_sent_to_named_issuer` and `C80_sent_to_own_issuer_partial`. -/
example : honest.Fresh ∧ Reachable honest (exec honest (start 0) history) ∧
    (∀ x ∈ (exec honest (start 0) history).log, ∀ i (md : Verif.Issuer), (⟨.metadata i, some md⟩ : Event) ∈ x.events → md.credentialIssuer = i) ∧
    (exec honest (start 0) history).log.map sentBy =
      [[], [], [], [(some "https://issuer.example", none)], [(some "https://issuer.example", some "at-1")]] :=
  ⟨rng_inj, ⟨0, history, rfl⟩, names_all (by decide +kernel), by decide +kernel⟩

end Verif.Holder.HomeDemo
