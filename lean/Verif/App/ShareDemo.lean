import Verif.App.ShareProps
import Verif.App.Demo
/-!
# A concrete presentation of more than was asked for

Meets the hypotheses of C163 and C164, and shows their failures.
-/
namespace Verif.App.Demo
open Holder (Credential Entry Call InOrder IsRequest)

set_option maxRecDepth 20000

/-- What is sent has to be limited to the type. -/
def strict : Dif.PresentationDefinition :=
  { Holder.Demo.definition with inputDescriptors := Holder.Demo.definition.inputDescriptors.map fun d => { d with constraints := { d.constraints with limitDisclosure := some "required" } } }

/-- As `around`, with requests that limit disclosure. -/
def asking : Around :=
  { around with provider := { Holder.Demo.provider with decodeRequest := fun t => some { Holder.Demo.vpRequest strict with clientId := t } } }

/-- Two credentials are collected, then one is asked for. -/
def sharing : List Cmd := [.reset, .offer good, .accept, .credentials, .offer good, .accept, .credentials, .request v1, .authorize, .present]

example : outs asking begin sharing = ["list", "offer Employee by https://issuer.example", "offer Employee by https://issuer.example", "list urn:uuid:tt",
    "offer Employee by https://issuer.example", "offer Employee by https://issuer.example", "list urn:uuid:tt urn:uuid:tttt",
    "presentation urn:uuid:tt urn:uuid:tttt", "presentation, authorized, urn:uuid:tt urn:uuid:tttt", "list urn:uuid:tt urn:uuid:tttt"] := by decide +kernel

/-- Two credentials were found, for a request that limits disclosure. -/
def two (ev : Holder.Event) : Bool :=
  match ev with
  | ⟨.find k, some cs⟩ => k.limitDisclosure == some "required" && List.length (α := Credential) cs == 2
  | _ => true

theorem sharing_draws : Draws asking := ⟨(draws fun _ => true).fresh, (draws fun _ => true).nonempty⟩

/-- A presentation is sent. -/
def sends (ev : Holder.Event) : Bool :=
  match ev with
  | ⟨.present _ _, _⟩ => true
  | _ => false

theorem sharing_checked : ((after asking (opened 0 []) (timed sharing)).world.log.all (fun en => en.events.all two) &&
    (after asking (opened 0 []) (timed sharing)).world.log.any (fun en => en.events.any sends)) = true := by decide +kernel

/-- The hypotheses of C163 and C164. -/
theorem sharing_log {L : List Entry} (h : L.any (fun en => en.events.any sends) = true) :
    ∃ pre en post uri rr o, L = pre ++ en :: post ∧ ⟨.present uri rr, o⟩ ∈ en.events := by
  obtain ⟨en, hen, h⟩ := List.any_eq_true.mp h
  obtain ⟨⟨c, o⟩, hev, h⟩ := List.any_eq_true.mp h
  obtain ⟨pre, post, hL⟩ := List.append_of_mem hen
  cases c with
  | present uri rr => exact ⟨pre, en, post, uri, rr, o, hL, hev⟩
  | _ => cases h

/-- **C163**, **C164** Two credentials are sent, in full, in answer to a request for one of them that requires disclosure to be limited. -/
theorem C163_violated_two_sent : ∃ (a : Around) (l : List (Nat × Cmd)) (pre post : List Entry) (en : Entry) (uri : Option String)
    (rr : Verifier.ResponseRequest) (o : Option Verifier.ResponseResponse) (k : String) (q : Verifier.RequestObject) (creds : List Credential)
    (pd : Dif.PresentationDefinition) (d : Dif.InputDescriptor) (ds : List Dif.InputDescriptor),
    Draws a ∧ (after a (opened 0 []) l).world.log = pre ++ en :: post ∧ ⟨.present uri rr, o⟩ ∈ en.events ∧
    InOrder [IsRequest k q creds] pre ∧ q.presentationDefinition = .object pd ∧ pd.inputDescriptors = d :: ds ∧
    d.constraints.limitDisclosure = some "required" ∧ creds.length = 2 ∧ Sent a q creds rr := by
  obtain ⟨hall, hany⟩ := Bool.and_eq_true_iff.mp sharing_checked
  obtain ⟨pre, en, post, uri, rr, o, hlog, hp⟩ := sharing_log hany
  obtain ⟨k, q, creds, sub, _, h2, h3, _⟩ := C163_violated_sent_unnamed sharing_draws.fresh 0 [] (timed sharing) hlog hp
  obtain ⟨p1, x, p2, hx, hreq, _⟩ := id h2
  obtain ⟨url, ev, pd, d, ds, _, _, hpd, hds, hev, _⟩ := hreq
  refine ⟨asking, timed sharing, pre, post, en, uri, rr, o, k, q, creds, pd, d, ds, sharing_draws, hlog, hp, h2, hpd, hds, ?_⟩
  rw [hlog] at hall
  have htwo := List.all_eq_true.mp (List.all_eq_true.mp hall x (by rw [hx]; simp)) ⟨.find d.constraints, some creds⟩ (by rw [hev]; simp)
  simp only [two, Bool.and_eq_true, beq_iff_eq] at htwo
  exact ⟨htwo.1, htwo.2, h3⟩

/-- The hypothesis of `C163_found_exactly`. -/
example : ∃ v, (serve asking (at_ asking (sharing.take 7)) 1 (.request v1)).1 = .view v := shown _ _ _ _ (by decide +kernel)

end Verif.App.Demo
