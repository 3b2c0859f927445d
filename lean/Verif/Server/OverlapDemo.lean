import Verif.Server.OverlapProps
import Verif.Server.Demo
import Verif.Issuer.OverlapDemo
/-!
# Examples for C174
-/
namespace Verif.Server.Demo
open Issuer (RequestObject)

/-- Requests 0, 2 and 4 ask for an authorization; 1 and 5 log in with the form of 0, 3 with the user's name for a token; 6 makes an offer, which 7 and 8
redeem. -/
def requests : Nat → Arrival
  | 1 => ⟨provider, .login "localhost" "normal_user" "password" "c"⟩
  | 3 => ⟨provider, .login "localhost" "normal_user" "password" "normal_user"⟩
  | 5 => ⟨provider, .login "localhost" "normal_user" "password" "c"⟩
  | 6 => ⟨provider, .api "vercre.io" "" (.createOffer Issuer.Demo.offerReq)⟩
  | 7 => ⟨provider, .api "vercre.io" "" (.token (Issuer.Demo.tokenReq (Issuer.Demo.tokens 6 0)))⟩
  | 8 => ⟨provider, .api "vercre.io" "" (.token (Issuer.Demo.tokenReq (Issuer.Demo.tokens 6 0)))⟩
  | _ => ⟨provider, .auth "localhost" (.object (request "normal_user"))⟩

/-- The server after a schedule. -/
def web (s : List Event) : Web := (open_ 0 requests).exec around.csrf Issuer.Demo.tokens requests s

/-- What a request has been answered. -/
def answer (s : List Event) (i : Nat) : Option Seen :=
  match (web s).desk i with
  | .answered r => some (seen r)
  | _ => none

/-- A reply with status 200. -/
def succeeded (s : List Event) (i : Nat) : Bool :=
  match (web s).desk i with
  | .answered (.ok _) => true
  | _ => false

/-- Request `i` acts `n` times. -/
def acts (i n : Nat) : List Event := List.replicate n (.run i .ok)

theorem forms_fresh : FreshForms around.csrf := ⟨around_fresh.inj, around_fresh.user⟩

/-- A form, a login, a code. -/
example : answer (acts 0 2 ++ acts 1 2 ++ acts 2 20) 0 = some (.form "c") ∧ answer (acts 0 2 ++ acts 1 2 ++ acts 2 20) 1 = some .toAuth ∧
    answer (acts 0 2 ++ acts 1 2 ++ acts 2 20) 2 = some (.code "http://localhost/cb") := by decide +kernel

/-- Of two logins with one form that overlap, one gets through, whichever comes first. -/
example : answer (acts 0 2 ++ [.run 1 .ok, .run 5 .ok, .run 5 .ok, .run 1 .ok]) 1 = some .toAuth ∧
    answer (acts 0 2 ++ [.run 1 .ok, .run 5 .ok, .run 5 .ok, .run 1 .ok]) 5 = some (.unauthorized "invalid csrf_token") ∧
    answer (acts 0 2 ++ [.run 5 .ok, .run 1 .ok, .run 1 .ok, .run 5 .ok]) 5 = some .toAuth := by decide

/-- The theorem on it. -/
example (h : String) (r : RequestObject) (h1 : (web (acts 0 2 ++ [.run 1 .ok, .run 5 .ok, .run 5 .ok, .run 1 .ok])).Gets 1 (.toAuth h r)) (h' : String)
    (r' : RequestObject) : ¬ (web (acts 0 2 ++ [.run 1 .ok, .run 5 .ok, .run 5 .ok, .run 1 .ok])).Gets 5 (.toAuth h' r') := fun h2 =>
  absurd (C174_token_used_once_partial forms_fresh (i := 1) (j := 5) rfl rfl (by decide) h1 h2) (by decide)

/-- A login that is broken off: its form is lost. The theorem applies, and nobody gets through with the form. -/
example (s' : List Event) (hs : Pool.Idle 1 s') (h : String) (r : RequestObject) : ¬ (web (acts 0 2 ++ .run 1 .ok :: s')).Gets 5 (.toAuth h r) :=
  C174_violated_form_lost (i := 1) (j := 5) forms_fresh rfl (by decide) rfl (r := request "normal_user") rfl hs rfl h r

/-- The user is logged in (request 2 would get a code); request 3 is broken off; request 4 is shown a form. -/
example : answer (acts 0 2 ++ acts 1 2 ++ acts 3 1 ++ acts 4 2) 4 = some (.form "ccccc") :=
  by decide

/-- The theorem on it. -/
example : ((web (acts 0 2 ++ acts 1 2)).exec around.csrf Issuer.Demo.tokens requests [.run 3 .ok, .run 4 .ok, .run 4 .ok]).Gets 4 (.form "ccccc") :=
  C174_violated_user_put_out (i := 3) (j := 4) _ .ok .ok .ok rfl rfl (by decide) rfl rfl rfl

/-- Two token requests for one code, one after the other. -/
example : succeeded (acts 6 20 ++ acts 7 20 ++ acts 8 20) 7 = true ∧ succeeded (acts 6 20 ++ acts 7 20 ++ acts 8 20) 8 = false := by decide +kernel

/-- A request alone and one in turn: the hypotheses of `C174_alone_as_in_turn` hold at the start. -/
example : SameState { env := { Issuer.Demo.env with rng := Issuer.Demo.tokens 0 }, csrf := around.csrf } around.csrf Issuer.Demo.tokens 0 (open_ 0 requests) (opened 0) :=
  ⟨rfl, rfl, rfl, rfl, rfl, fun _ => rfl⟩

end Verif.Server.Demo
