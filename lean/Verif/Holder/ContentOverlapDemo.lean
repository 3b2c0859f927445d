import Verif.Holder.ContentOverlap
import Verif.Holder.OverlapDemo
/-!
# Cases of C208
-/
namespace Verif.Holder.ContentOverlapDemo
open Verif HProg Holder.Demo

set_option maxRecDepth 40000

def codeOffer : Issuer.CredentialOffer where
  credentialIssuer := "https://second.example"
  configIds := ["Developer"]
  grants := some { authorizationCode := some { issuerState := some "is-2", authorizationServer := none }, preAuthorizedCode := none }

/-- Two wallets' offers, one with a pre-authorized code and one with an authorization code, and a flow the wallet starts itself. -/
def reqs : Nat → Req
  | 20 => .offer { clientId := "other wallet", subjectId := "bob", offer := codeOffer }
  | 21 => .authorize { initiator := .issuer (texts 20 0), redirectUri := some "http://cb", authorizationDetails := none }
  | 22 => .authorize {
      initiator := .wallet "third wallet" "https://issuer.example" none "carol"
      redirectUri := none
      authorizationDetails := some [{ credential := .configurationId "Employee" none }] }
  | 23 => .credentials { issuanceId := texts 20 0, identifiers := none, format := none }
  | 24 => .accept { issuanceId := texts 20 0, accept := none }
  | 25 => .credentials { issuanceId := texts 22 0, identifiers := none, format := none }
  | n => requests n

def both (i : Nat) : Provider × Req := (reader, reqs i)

/-- Two flows are opened; then their calls, and those of a third, take turns. -/
def sched : List Turn :=
  whole 0 ++ whole 20 ++ whole 1 ++ whole 24 ++ whole 2 ++ go 3 1 ++ go 21 2 ++ go 22 4 ++ go 3 1 ++ go 21 2 ++ go 22 3 ++ go 3 4 ++ go 21 4 ++ go 22 6 ++
    go 4 3 ++ go 23 3 ++ go 25 3 ++ go 4 7 ++ go 23 7 ++ go 25 7

def run : HPool := overlapped texts 0 both sched

/-- What requests say, in short. -/
def said : Nat × Act → Option (Nat × List String)
  | (i, .made ⟨.token q, _⟩) => some (i, q.clientId.getD "-" :: match q.grantType with
    | .preAuthorizedCode c p => [c, p.getD "-"]
    | .authorizationCode c r v => [c, r.getD "-", v.getD "-"])
  | (i, .made ⟨.authorization a, _⟩) => some (i, [a.clientId, a.state.getD "-", a.codeChallenge])
  | (i, .made ⟨.credential q, _⟩) => some (i, [q.accessToken, (proofText q).getD "-"])
  | _ => none

def saidBy (i : Nat) : List (List String) := (run.trace.filterMap said).filterMap fun x => if x.1 = i then some x.2 else none

example : saidBy 3 = [["wallet", "pre-1", "1234"]] := by decide +kernel
example : saidBy 21 = [["other wallet", texts 20 0, "challenge of " ++ texts 21 0], ["other wallet", "code-1", "http://cb", texts 21 0]] := by decide +kernel
example : saidBy 22 = [["third wallet", texts 22 0, "challenge of " ++ texts 22 1], ["third wallet", "code-1", "-", texts 22 1]] := by decide +kernel
example : (saidBy 4, saidBy 25) = ([["at-1", "proof:n1:https://issuer.example"]], [["at-1", "proof:n1:"], ["at-1", "proof:n1:"]]) := by decide +kernel

/-- Which call asks for a token, or for a credential. -/
def asksToken : Nat × Act → Option Nat
  | (i, .made ⟨.token _, _⟩) => some i
  | _ => none

def asksCredential : Nat × Act → Option Nat
  | (i, .made ⟨.credential _, _⟩) => some i
  | _ => none

def asksCode : Nat × Act → Option Nat
  | (i, .made ⟨.authorization _, _⟩) => some i
  | _ => none

theorem found {H : Trace} {f : Nat × Act → Option Nat} (hw : ∀ i, f (i, .silent) = none ∧ f (i, .wrote) = none) {n : Nat}
    (h : (H.filterMap f).contains n = true) : ∃ pre i ev post, H = pre ++ (i, .made ev) :: post ∧ f (i, .made ev) = some n := by
  obtain ⟨⟨i, a⟩, ha, h⟩ := List.mem_filterMap.mp (List.contains_iff_mem.mp h)
  cases a with
  | silent => rw [(hw i).1] at h; cases h
  | wrote => rw [(hw i).2] at h; cases h
  | made ev =>
    obtain ⟨pre, post, hp⟩ := List.append_of_mem ha
    exact ⟨pre, i, ev, post, hp, h⟩

theorem token_of {n : Nat} (h : (run.trace.filterMap asksToken).contains n = true) : ∃ pre q x post, run.trace = pre ++ (n, .made ⟨.token q, x⟩) :: post := by
  obtain ⟨pre, i, ⟨c, x⟩, post, hp, hs⟩ := found (fun _ => ⟨rfl, rfl⟩) h
  cases c <;> cases hs
  exact ⟨pre, _, x, post, hp⟩

theorem credential_of {n : Nat} (h : (run.trace.filterMap asksCredential).contains n = true) :
    ∃ pre q x post, run.trace = pre ++ (n, .made ⟨.credential q, x⟩) :: post := by
  obtain ⟨pre, i, ⟨c, x⟩, post, hp, hs⟩ := found (fun _ => ⟨rfl, rfl⟩) h
  cases c <;> cases hs
  exact ⟨pre, _, x, post, hp⟩

theorem code_of {n : Nat} (h : (run.trace.filterMap asksCode).contains n = true) :
    ∃ pre q x post, run.trace = pre ++ (n, .made ⟨.authorization q, x⟩) :: post := by
  obtain ⟨pre, i, ⟨c, x⟩, post, hp, hs⟩ := found (fun _ => ⟨rfl, rfl⟩) h
  cases c <;> cases hs
  exact ⟨pre, _, x, post, hp⟩

/-- The hypotheses of `C208_pre_authorized_token_request`, `C208_code_redeemed_by_its_call`, `C208_authorization_request` and `C208_credential_request`. -/
example : ((both 3).2 = .token flow ∧ ∃ pre q x post, run.trace = pre ++ (3, .made ⟨.token q, x⟩) :: post) ∧
    ((∃ r, (both 21).2 = .authorize r) ∧ ∃ pre q x post, run.trace = pre ++ (21, .made ⟨.token q, x⟩) :: post) ∧
    (∃ pre q x post, run.trace = pre ++ (22, .made ⟨.authorization q, x⟩) :: post) ∧
    ∃ pre q x post, run.trace = pre ++ (25, .made ⟨.credential q, x⟩) :: post :=
  ⟨⟨rfl, token_of (by decide +kernel)⟩, ⟨⟨_, rfl⟩, token_of (by decide +kernel)⟩, code_of (by decide +kernel), credential_of (by decide +kernel)⟩

end Verif.Holder.ContentOverlapDemo
