import Verif.Holder.HomeProps
import Verif.Wire.IssuerMeta
/-!
# The addresses the example wallet sends requests to, and the routes of the example issuer

/repo/examples/wallet/src-tauri/src/provider/issuer_client.rs, provider/verifier_client.rs and /repo/examples/issuer/src/main.rs. What the HTTP client and
the server do with headers other than the method, the address and the `Authorization` header is not modelled; bodies are in `Verif/Wire`.
-/
namespace Verif.App
open Holder (Call)

/-- The methods used. issuer_client.rs 19, 34, 58, 73 and 94. -/
inductive Method where
  | get
  | post
  deriving DecidableEq, Repr

/-- A request on the wire, without its body: method, address and `Authorization` header. issuer_client.rs 16-107. -/
structure HttpSent where
  method : Method
  url : String
  authorization : Option String := none
  deriving DecidableEq, Repr

/-- What the wallet's provider sends for a call, if anything. issuer_client.rs: `metadata` 16-28, `oauth_server` 31-43, `authorization` 47-51 (not
implemented), `token` 54-66, `credential` 69-82, `deferred` 85-89 (not implemented), `logo` 92-107, `notification` 111-115 (never sent);
verifier_client.rs: `request_object` 11-22, `present` 25-41. Credentials are kept in a file (provider/store.rs). -/
def sent : Call → Option HttpSent
  | .metadata i => some { method := .get, url := i ++ "/.well-known/openid-credential-issuer" }
  | .oauthServer i => some { method := .get, url := i ++ "/.well-known/oauth-authorization-server" }
  | .token q => some { method := .post, url := q.credentialIssuer ++ "/token" }
  | .credential q => some { method := .post, url := q.credentialIssuer ++ "/credential", authorization := some ("Bearer " ++ q.accessToken) }
  | .logo u => some { method := .get, url := u }
  | .requestObject u => some { method := .get, url := u }
  | .present (some u) _ => some { method := .post, url := u }
  | .present none _ | .authorization _ | .deferred _ | .notification _ | .save _ | .find _ => none

/-- The handlers of the example issuer. /repo/examples/issuer/src/main.rs 52-62. -/
inductive RouteHandler where
  | createOffer | credentialOffer (id : List Char) | metadata | oauthServer | auth | par | login | notification | token | credential | deferred
  deriving DecidableEq, Repr

/-- The example issuer's router, main.rs 51-62: the handler of a path. Paths are compared as they are; `:offer_id` stands for one segment, which is
not empty. Other methods and other paths have no handler. -/
def route (m : Method) (path : List Char) : Option RouteHandler :=
  let offers := "/credential_offer/".toList
  let id := path.drop offers.length
  match m with
  | .get =>
    if path = "/.well-known/openid-credential-issuer".toList then some .metadata
    else if path = "/.well-known/oauth-authorization-server".toList then some .oauthServer
    else if path = "/auth".toList then some .auth
    else if path = "/par".toList then some .par
    else if offers.isPrefixOf path && id != [] && !id.contains '/' then some (.credentialOffer id)
    else none
  | .post =>
    if path = "/create_offer".toList then some .createOffer
    else if path = "/login".toList then some .login
    else if path = "/notification".toList then some .notification
    else if path = "/token".toList then some .token
    else if path = "/credential".toList then some .credential
    else if path = "/deferred_credential".toList then some .deferred
    else none

/-- Where a host name ends in an address. RFC 3986 3.2. -/
def ends (c : Char) : Bool := c == '/' || c == '?' || c == '#'

/-- Host and path of an `http` address, as the client sees it: the host goes into the `Host` header and the path into the request line. Models RFC 3986 3
and reqwest, no code of the repository; user names in addresses are not modelled. -/
def hostAndPath (url : List Char) : Option (List Char × List Char) :=
  let scheme := "http://".toList
  if scheme.isPrefixOf url then
    let rest := url.drop scheme.length
    some (rest.takeWhile (!ends ·), (rest.dropWhile (!ends ·)).takeWhile fun c => c != '?' && c != '#')
  else none

/-- The handler that a request reaches if an example issuer answers at its host, with the host. main.rs 51-72. -/
def reaches (s : HttpSent) : Option (List Char × RouteHandler) :=
  match hostAndPath s.url.toList with
  | some (host, path) => (route s.method path).map (host, ·)
  | none => none

/-- The metadata that the example issuer publishes, for those who reach it as `http://localhost:8080` and as `http://vercre.io`: the same for both, and
nothing for anybody else. /repo/crates/test-utils/src/store/issuance.rs 20-37 and issuer.json 2-4. Of the metadata, only the addresses. -/
def publishedBy (issuer : String) : Option Wire.IssuerMeta :=
  if issuer = "http://localhost:8080" ∨ issuer = "http://vercre.io" then
    some { credentialIssuer := "http://vercre.io", credentialEndpoint := "http://vercre.io/credential",
           deferredEndpoint := some "http://vercre.io/deferred" }
  else none

end Verif.App
