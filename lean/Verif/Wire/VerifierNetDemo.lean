import Verif.Wire.VerifierNetProps
import Verif.Interop.PresentDemo
/-!
# A wallet and a verifier at work, over text

Shows that the hypotheses of C129 can be met: the wallet and the verifier of `Interop.PresentDemo` send each other JSON text.
-/
namespace Verif.Wire
open Interop PresentDemo

/-- The verifier of `Interop.PresentDemo`, with a store of text. -/
noncomputable def demoVNet : TextVNet := { net with T := demoTime, readPlain := fun _ => none, writePlain := fun _ => .null }

/-- The request the wallet is to answer. -/
noncomputable def demoMade : List Verifier.Step := [{ provider, req := .createRequest (createReq .crossDevice ["Employee"]) }]

theorem demo_metadata (c : String) (m : Verifier.Metadata) (h : provider.verifier c = some m) :
    (∀ n, m.oauth.clientIdIssuedAt = some n → -2 ^ 63 ≤ n ∧ n < 2 ^ 63) ∧ (∀ n, m.oauth.clientSecretExpiresAt = some n → -2 ^ 63 ≤ n ∧ n < 2 ^ 63) := by
  simp only [provider] at h
  split at h
  · cases h; exact ⟨nofun, nofun⟩
  · cases h

theorem demo_created (f : Verifier.DeviceFlow) (l : List String) : RustTyped provider (.createRequest (createReq f l)) := by
  refine ⟨demo_metadata, ?_⟩
  rintro c ⟨⟩ i hi m hm
  obtain ⟨t, -, rfl⟩ := List.mem_map.1 hi
  cases hm

theorem demo_typed : demoVNet.Typed := by
  refine ⟨fun i r hr => ⟨demo_metadata, fun c hc => absurd hc (hr c)⟩, fun i s hs => ?_⟩
  simp only [demoVNet, net] at hs
  split at hs
  · rw [List.mem_singleton] at hs
    subst hs
    exact demo_created _ _
  · cases hs

theorem demo_made : ∀ s ∈ demoMade, RustTyped s.provider s.req := by
  intro s hs
  rw [demoMade, List.mem_singleton] at hs
  subst hs
  exact demo_created _ _

-- C129: whatever the wallet's user does
example (steps : List Holder.HStep) := C129_text_makes_no_difference demo_typed demo_made 0 (Holder.start 0) steps (fun n => String.ofList (List.replicate (n + 1) 'k'))
  (fun n => if n = 7 then .failAfter else .ok) rfl rfl

-- C129: the wallet is told of a request by its URI, fetches it and answers it
example := C129_accepted_over_text_iff (s1 := by_ ["Employee"] (.request (url .crossDevice))) demo_typed demo_made (t0 := 0) rfl
  (meeting .crossDevice ["Employee"] (by simp) [held "Employee"] (fun _ _ h => by cases h; exact finds_employee)
    (by intro c hc; rw [List.mem_singleton] at hc; exact ⟨_, hc, .inl rfl⟩)) rfl rfl rfl

end Verif.Wire
