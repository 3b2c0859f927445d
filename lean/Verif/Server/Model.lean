import Verif.Issuer.System
/-!
# The example issuer: a web server around the issuer's endpoints

/repo/examples/issuer/src/main.rs. The library leaves it to the server around it to make sure who the person in front of the browser is; this server does
so with a login form. Simplification: a request is served in one go. The handlers give up control between looking into the two maps and writing them:
`Verif/Server/Overlap.lean` models that, and shows that a request that nobody interrupts is served as here.
-/
namespace Verif.Server
open Issuer (RequestObject AuthorizationRequest Req Resp Provider Step)

/-- What the server keeps, main.rs 38-41, besides the issuer's own state. `logins` is `AUTH_REQUESTS`, `pushes` is `PAR_REQUESTS` (of a pushed request
only the request itself is kept here). `forms` counts the login forms shown, each of which draws a token. -/
structure Site where
  logins : Dict RequestObject
  pushes : Dict RequestObject
  forms : Nat
  issuer : World Issuer.State

/-- A web request. /repo/examples/issuer/src/main.rs 50-72. -/
inductive Http where
  /-- `GET /auth`, main.rs 135-188 -/
  | auth (host : String) (req : AuthorizationRequest)
  /-- `GET /par`, main.rs 197-237 -/
  | par (host : String) (req : RequestObject)
  /-- `POST /login`, main.rs 247-270 -/
  | login (host username password csrfToken : String)
  /-- the other endpoints, with the token of the `Authorization` header, main.rs 78-125 and 294-349 -/
  | api (host bearer : String) (req : Req)

/-- What comes back. /repo/examples/issuer/src/main.rs 50-72. -/
inductive Reply where
  /-- status 200 with a response, main.rs 364 -/
  | ok (r : Resp)
  /-- status 500 with an error, main.rs 365 -/
  | failed (e : Err)
  /-- status 401 with an error text -/
  | unauthorized (why : String)
  /-- status 401 with a login form that holds the token, main.rs 158-168 and 218-228 -/
  | form (csrfToken : String)
  /-- redirect to `{uri}?code={code}`, main.rs 180 -/
  | code (uri code : String)
  /-- redirect to `{uri}?{error}`, main.rs 182-186 -/
  | denied (uri : String) (e : Err)
  /-- redirect to `http://{host}/auth` with the request as query, main.rs 267-269 -/
  | toAuth (host : String) (r : RequestObject)
  /-- no such route -/
  | notFound
  /-- the handler panics -/
  | panic

/-- The request an endpoint gets: the issuer is the host the request was sent to, the access token that of the header. Nothing else of a request is
changed. main.rs 82, 92-95, 105-111, 120-124, 299-300, 322, 332-333, 344-345. -/
def addressed (host bearer : String) : Req → Option Req
  | .createOffer r => some (.createOffer { r with credentialIssuer := "http://" ++ host })
  | .credentialOffer r => some (.credentialOffer { r with credentialIssuer := "http://" ++ host })
  | .token r => some (.token { r with credentialIssuer := "http://" ++ host })
  | .credential r => some (.credential { r with credentialIssuer := "http://" ++ host, accessToken := bearer })
  | .deferred r => some (.deferred { r with credentialIssuer := "http://" ++ host, accessToken := bearer })
  | .notification r => some (.notification r)
  | .metadata _ => some (.metadata ("http://" ++ host))
  | .oauthServer _ => some (.oauthServer ("http://" ++ host))
  | .par _ | .authorize _ | .register _ => none

/-- What surrounds the server: the issuer's environment and the source of the login forms' tokens (`CsrfToken::new_random`, main.rs 152 and 212). -/
structure Around where
  env : Env
  csrf : Nat → String

/-- A response of the issuer as a reply, main.rs 356-369. -/
def reply : Res Resp → Reply
  | .ok r => .ok r
  | .error (.panic _) => .panic
  | .error e => .failed e

/-- The reply to an authorization that was passed on to the issuer, main.rs 179-187. -/
def authReply (uri : String) : Res Resp → Reply
  | .ok (.authorize v) => .code uri v.code
  | .ok r => .ok r
  | .error (.panic _) => .panic
  | .error e => .denied uri e

/-- `authorize`, main.rs 135-188. The issuer is set in a copy of the request (138, 172), and the request as it came is passed on (179). -/
def auth (a : Around) (P : Provider) (wait : Nat) (s : Site) (host : String) : AuthorizationRequest → Reply × Site
  | .uri _ => (.panic, s)
  | .object r =>
    if r.subjectId = "" then (.unauthorized "no subject_id", s)
    else if s.logins.has r.subjectId = false then
      (.form (a.csrf s.forms), { s with logins := s.logins.insert (a.csrf s.forms) r, forms := s.forms + 1 })
    else
      let object := { r with credentialIssuer := "http://" ++ host }
      match object.redirectUri with
      | none => (.unauthorized "no redirect_uri", s)
      | some uri =>
        let x := Issuer.step a.env s.issuer { provider := P, wait, req := .authorize (.object r) }
        (authReply uri x.1, { s with issuer := x.2 })

/-- `par`, main.rs 197-237. -/
def par (a : Around) (P : Provider) (wait : Nat) (s : Site) (host : String) (r : RequestObject) : Reply × Site :=
  if r.subjectId = "" then (.unauthorized "no subject_id", s)
  else if s.pushes.has r.subjectId = false then
    (.form (a.csrf s.forms), { s with pushes := s.pushes.insert (a.csrf s.forms) r, forms := s.forms + 1 })
  else
    let x := Issuer.step a.env s.issuer { provider := P, wait, req := .par { r with credentialIssuer := "http://" ++ host } }
    (reply x.1, { s with issuer := x.2 })

/-- `handle_login`, main.rs 247-270. -/
def login (s : Site) (host username password csrfToken : String) : Reply × Site :=
  if username ≠ "normal_user" then (.unauthorized "invalid username", s)
  else if password ≠ "password" then (.unauthorized "invalid password", s)
  else
    match s.logins.get? csrfToken with
    | none => (.unauthorized "invalid csrf_token", s)
    | some r => (.toAuth host r, { s with logins := Dict.insert (s.logins.filter fun x => x.1 != csrfToken) username r })

/-- Serving a web request, main.rs 50-72. -/
def serve (a : Around) (P : Provider) (wait : Nat) (s : Site) : Http → Reply × Site
  | .auth host req => auth a P wait s host req
  | .par host r => par a P wait s host r
  | .login host u p t => login s host u p t
  | .api host bearer req =>
    match addressed host bearer req with
    | none => (.notFound, s)
    | some req =>
      let x := Issuer.step a.env s.issuer { provider := P, wait, req }
      (reply x.1, { s with issuer := x.2 })

/-- A visit: some time after the one before, a web request; providers may change their answers meanwhile. Machinery of the model. -/
structure Visit where
  provider : Provider
  wait : Nat := 0
  http : Http

/-- The server after some visits. Machinery of the model. -/
def after (a : Around) (s : Site) : List Visit → Site
  | [] => s
  | v :: l => after a (serve a v.provider v.wait s v.http).2 l

/-- The server at its start. /repo/examples/issuer/src/main.rs 38-41 and 67. -/
def opened (now : Int) : Site := { logins := [], pushes := [], forms := 0, issuer := Issuer.start now }

theorem after_append (a : Around) (s : Site) (l m : List Visit) : after a s (l ++ m) = after a (after a s l) m := by
  induction l generalizing s with
  | nil => rfl
  | cons v l ih => exact ih _

end Verif.Server
