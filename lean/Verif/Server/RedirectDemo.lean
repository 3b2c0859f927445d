import Verif.Server.RedirectProps
import Verif.Server.VerifierProps
import Verif.Server.Demo
import Verif.Verifier.Demo
/-!
# Examples for C165 – C168
-/
namespace Verif.Server.Demo
open Issuer (RequestObject)

/-! ### The example issuer -/

/-- A refusal of a scope, taken apart. -/
def refusal : Reply → Option (String × String)
  | .denied u (.invalidScope d) => some (u, d)
  | _ => none

theorem refused {r : Reply} {u d : String} (h : refusal r = some (u, d)) : r = .denied u (.invalidScope d) := by
  cases r with
  | denied u' e => cases e <;> first | (cases h; done) | (cases h; rfl)
  | _ => cases h

/-- A code, taken apart. -/
def coded : Reply → Option (String × String)
  | .code u c => some (u, c)
  | _ => none

theorem codes {r : Reply} {u c : String} (h : coded r = some (u, c)) : r = .code u c := by
  cases r with
  | code u' c' => cases h; rfl
  | _ => cases h

/-- Asking for an authorization by scope. -/
def asksScope (scope : String) : Visit :=
  { provider, http := .auth "localhost" (.object { request "normal_user" with authorizationDetails := none, scope := some scope }) }

/-- The server once the user has logged in. -/
def loggedIn : Site := after around (opened 0) [asks "normal_user", logsIn "c"]

theorem bare : Bare "http://localhost/cb" := by unfold Bare; decide

/-- C168: the code arrives. -/
example (lossy : List UInt8 → List Char) : ∃ url, location (serve around provider 0 loggedIn (asks "normal_user").http).1 = some url ∧ received lossy url = [("code", "t")] :=
  C168_code_arrives_partial lossy (v := asks "normal_user") (codes (u := "http://localhost/cb") (c := "t") (by decide +kernel)) bare (by unfold UrlSafe; decide)

/-- C168: an error arrives. -/
example (lossy : List UInt8 → List Char) : ∃ url, location (serve around provider 0 loggedIn (asksScope "boss").http).1 = some url ∧
    received lossy url = [("error", "invalid_scope"), ("error_description", "scope item boss is unsupported")] :=
  C168_error_arrives_partial lossy (v := asksScope "boss") (refused (u := "http://localhost/cb") (d := "scope item boss is unsupported") (by decide +kernel)) bare (.invalidScope _)
    (by unfold Clean; decide) (by decide)

/-- C168: an error that brings a code. -/
example (lossy : List UInt8 → List Char) : ∃ url, location (serve around provider 0 loggedIn (asksScope "boss&code=stolen").http).1 = some url ∧
    received lossy url = [("error", "invalid_scope"), ("error_description", "scope item boss"), ("code", "stolen is unsupported")] :=
  C168_violated_error_brings_code lossy (v := asksScope "boss&code=stolen") (x := "boss") (y := "stolen")
    (refused (u := "http://localhost/cb") (by decide +kernel)) bare (by unfold UrlSafe; decide) (by unfold UrlSafe; decide)

/-- **C168 is false**: such a scope can be asked for, and the error does not arrive. -/
theorem C168_violated_quoted_scope (lossy : List UInt8 → List Char) : ∃ url, location (serve around provider 0 loggedIn (asksScope "the\"boss").http).1 = some url ∧ received lossy url = [] :=
  C168_violated_quote_loses_error lossy (v := asksScope "the\"boss") (item := "the\"boss") (x := "the".toList) (y := "oss".toList) (c := 'b')
    (refused (u := "http://localhost/cb") (by decide +kernel)) bare (by decide) (by unfold Clean; decide) (by decide)

/-- A client that has registered an address with a query. -/
def queryProvider : Issuer.Provider := { provider with
  client := fun c => (provider.client c).map fun x => { x with redirectUris := some ["http://localhost/cb?tenant=a"] } }

/-- Asking for an authorization at that address. -/
def asksQuery : Visit :=
  { provider := queryProvider, http := .auth "localhost" (.object { request "normal_user" with redirectUri := some "http://localhost/cb?tenant=a" }) }

/-- C168: the code is hidden in the client's own parameter. -/
example (lossy : List UInt8 → List Char) : ∃ url, location (serve around queryProvider 0 loggedIn asksQuery.http).1 = some url ∧ received lossy url = [("tenant", "a?code=t")] :=
  (C168_violated_query_hides_code lossy (v := asksQuery) (base := "http://localhost/cb") (l := []) (k := "tenant") (x := "a") (c := "t")
    (codes (by decide +kernel)) bare (by unfold UrlSafe; decide) (by unfold UrlSafe; decide)).2

/-- C167: a token request with an unknown code is the caller's fault; so says OAuth, but not the status. -/
example : status (serve around provider 0 loggedIn (.api "vercre.io" "" (.token (Issuer.Demo.codeReq "unknown")))).1 = some 500 := by decide +kernel

/-! ### The example verifier -/

/-- The verifier's surroundings. -/
def vsurround : VAround := { env := Verifier.Demo.env, lossy := fun _ => [], vp := fun _ => none }

/-- A provider with the store of the example. -/
def vprovider : Verifier.Provider := { Verifier.Demo.provider with verifier := verifierStore }

/-- Making a request, reached at `host`. -/
def makes (host : String) : VVisit := { provider := vprovider, http := .create host (Verifier.Demo.createReq .crossDevice) }

/-- Fetching it. -/
def fetches (host id : String) (wait : Nat := 0) : VVisit := { provider := vprovider, wait, http := .fetch host id }

/-- What is of interest in a reply of the verifier. -/
def vseen : VReply → Option String
  | .ok (.createRequest r) => r.requestUri
  | .ok (.requestObject jwt) => some jwt
  | _ => none

/-- The reply to a visit after others. -/
def vsees (l : List VVisit) (v : VVisit) : Option String := vseen (vanswer vsurround (vafter vsurround (Verifier.start 0) l) v)

/-- C165, C166: a request is made and fetched at the same host, again and again, and years later. -/
example : vsees [] (makes "localhost:8080") = some "http://localhost:8080/request/tt" ∧ vsees [makes "localhost:8080"] (fetches "localhost:8080" "tt") = some "key:ttt" ∧
    vsees [makes "localhost:8080", fetches "localhost:8080" "tt"] (fetches "localhost:8080" "tt" 1000000000) = some "key:ttt" := by decide +kernel

/-- C165: not at another host; nor can one be made there. -/
example : vsees [makes "localhost:8080"] (fetches "other:8080" "tt") = none ∧ vsees [] (makes "other:8080") = none := by decide +kernel

/-- C167: fetching at another host is the caller's fault. -/
example : vstatus (vserve vsurround vprovider 0 (vafter vsurround (Verifier.start 0) [makes "localhost:8080"]) (.fetch "other:8080" "tt")).1 = some 500 ∧
    (match (Verifier.step vsurround.env (vafter vsurround (Verifier.start 0) [makes "localhost:8080"])
        { provider := vprovider, req := .requestObject { clientId := "http://other:8080", id := "tt" } }).1 with
      | .error (.invalidRequest _) => true
      | _ => false) = true := by decide +kernel

end Verif.Server.Demo
