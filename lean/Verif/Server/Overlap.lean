import Verif.Server.Model
import Verif.Issuer.Overlap
/-!
# The example issuer with requests that overlap

/repo/examples/issuer/src/main.rs again, without the simplification of `Verif/Server/Model.lean`: `axum` serves any number of requests at once, and a handler
gives up control at every `await`. Each lock of the two maps is taken and given back within one statement (main.rs 150, 155, 210, 215, 261, 265; the lock of
a condition of `if` and that of a `let … else` are given back before the block), so one access to a map is one action. Between two actions of a handler any
others may act. A handler that never acts again is one that was dropped, as `axum` does when the client hangs up, or whose process has ended.
-/
namespace Verif.Server
open Issuer (RequestObject AuthorizationRequest Req Resp Provider)

/-- A web request and the provider it is served with. Machinery of the model. -/
structure Arrival where
  provider : Provider
  http : Http

/-- Where the handler of a request is. /repo/examples/issuer/src/main.rs 135-270. -/
inductive Desk where
  /-- before its first statement -/
  | arrived
  /-- between the look into `AUTH_REQUESTS` and the write to it, main.rs 150-155 -/
  | saving (r : RequestObject)
  /-- between the look into `PAR_REQUESTS` and the write to it, main.rs 210-215 -/
  | savingPush (r : RequestObject)
  /-- between taking the request out of `AUTH_REQUESTS` and putting it back under the user's name, main.rs 261-265 -/
  | entering (r : RequestObject)
  /-- in an endpoint of the issuer -/
  | inside
  | answered (reply : Reply)

/-- The server while it serves. `pool` are the calls of the issuer's endpoints. main.rs 38-41. -/
structure Web where
  logins : Dict RequestObject
  pushes : Dict RequestObject
  desk : Nat → Desk
  pool : Pool Issuer.State Resp

/-- The endpoint call a handler makes, if it gets to it. main.rs 78-125, 179, 230-233 and 294-349. -/
def passedOn : Http → Option Req
  | .auth _ req => some (.authorize req)
  | .par host r => some (.par { r with credentialIssuer := "http://" ++ host })
  | .login .. => none
  | .api host bearer req => addressed host bearer req

/-- The calls of the endpoints, by number of the web request. (Requests that pass nothing on have a call here that is never run.)
main.rs 78-125, 179, 230-233 and 294-349. -/
def calls (q : Nat → Arrival) (i : Nat) : Issuer.Call := ⟨(q i).provider, (passedOn (q i).http).getD (.metadata "")⟩

/-- The first statements of a handler, up to and with its first access to a map: `authorize` main.rs 139-176, `par` 201-230, `handle_login` 250-264. -/
def arrive (logins pushes : Dict RequestObject) : Http → Desk
  | .auth _ (.uri _) => .answered .panic
  | .auth _ (.object r) =>
    if r.subjectId = "" then .answered (.unauthorized "no subject_id")
    else if logins.has r.subjectId = false then .saving r
    else if r.redirectUri = none then .answered (.unauthorized "no redirect_uri")
    else .inside
  | .par _ r =>
    if r.subjectId = "" then .answered (.unauthorized "no subject_id")
    else if pushes.has r.subjectId = false then .savingPush r
    else .inside
  | .login _ username password csrfToken =>
    if username ≠ "normal_user" then .answered (.unauthorized "invalid username")
    else if password ≠ "password" then .answered (.unauthorized "invalid password")
    else
      match logins.get? csrfToken with
      | none => .answered (.unauthorized "invalid csrf_token")
      | some r => .entering r
  | .api host bearer req =>
    match addressed host bearer req with
    | none => .answered .notFound
    | some _ => .inside

/-- What is left of `AUTH_REQUESTS` after the first statements: a login takes the request of its token out. main.rs 261. -/
def leave (logins : Dict RequestObject) (h : Http) : Desk → Dict RequestObject
  | .entering _ =>
    match h with
    | .login _ _ _ csrfToken => logins.filter fun x => x.1 != csrfToken
    | _ => logins
  | _ => logins

/-- The reply made from an endpoint's answer, main.rs 179-187 and 356-369. -/
def finish : Http → Res Resp → Reply
  | .auth _ (.object r), x => authReply (r.redirectUri.getD "") x
  | _, x => Server.reply x

/-- The reply of a login that got through, main.rs 267-269. -/
def sentBack (r : RequestObject) : Http → Reply
  | .login host _ _ _ => .toAuth host r
  | _ => .panic

/-- The name a login is entered under, main.rs 265. -/
def userOf : Http → String
  | .login _ username _ _ => username
  | _ => ""

namespace Web

/-- One action. `csrf i` is the token of the login form of request `i`, `rng i n` the n-th token that the endpoint called by request `i` draws.
/repo/examples/issuer/src/main.rs 78-349. -/
def step (csrf : Nat → String) (rng : Nat → Nat → String) (q : Nat → Arrival) (w : Web) : Event → Web
  | .tick ns => { w with pool := w.pool.step rng (.tick ns) }
  | .run i f =>
    match w.desk i with
    | .arrived =>
      let d := arrive w.logins w.pushes (q i).http
      { w with logins := leave w.logins (q i).http d, desk := setAt w.desk i d }
    | .saving r => { w with logins := w.logins.insert (csrf i) r, desk := setAt w.desk i (.answered (.form (csrf i))) }
    | .savingPush r => { w with pushes := w.pushes.insert (csrf i) r, desk := setAt w.desk i (.answered (.form (csrf i))) }
    | .entering r =>
      { w with logins := w.logins.insert (userOf (q i).http) r, desk := setAt w.desk i (.answered (sentBack r (q i).http)) }
    | .inside =>
      match w.pool.prog i with
      | .ret x => { w with desk := setAt w.desk i (.answered (finish (q i).http x)) }
      | _ => { w with pool := w.pool.step rng (.run i f) }
    | .answered _ => w

/-- Any number of actions. Machinery of the model. -/
def exec (csrf : Nat → String) (rng : Nat → Nat → String) (q : Nat → Arrival) (w : Web) : List Event → Web
  | [] => w
  | ev :: rest => exec csrf rng q (step csrf rng q w ev) rest

theorem exec_append (csrf : Nat → String) (rng : Nat → Nat → String) (q : Nat → Arrival) (w : Web) (a b : List Event) :
    exec csrf rng q w (a ++ b) = exec csrf rng q (exec csrf rng q w a) b := by
  induction a generalizing w with
  | nil => rfl
  | cons ev a ih => exact ih _

end Web

/-- The server at its start, with the requests that will come. main.rs 38-41 and 67. -/
def open_ (t0 : Int) (q : Nat → Arrival) : Web :=
  { logins := [], pushes := [], desk := fun _ => .arrived, pool := Issuer.pool t0 (calls q) }

/-- Request `i` has been answered with `r`. Specification; models no code. -/
def Web.Gets (w : Web) (i : Nat) (r : Reply) : Prop := w.desk i = .answered r

end Verif.Server
