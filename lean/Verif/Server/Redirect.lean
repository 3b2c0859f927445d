import Verif.Server.Model
import Verif.Server.Verifier
import Verif.Core.Errors
import Verif.Core.UrlEncode
/-!
# What the example servers send back: statuses and redirects

`AxResult` of /repo/examples/issuer/src/main.rs 352-375 and /repo/examples/verifier/src/main.rs 85-110, and the redirects of `authorize`, main.rs 179-187 of the issuer.
-/
namespace Verif.Server

/-- The variants of `Error`, /repo/crates/openid/src/error.rs 18-167. A panic is not an error; it has no text. -/
def oidErr : Err → OidErr
  | .invalidRequest d => .plain .invalidRequest d
  | .invalidClient d => .plain .invalidClient d
  | .invalidGrant d => .plain .invalidGrant d
  | .unauthorizedClient d => .plain .unauthorizedClient d
  | .unsupportedGrantType d => .plain .unsupportedGrantType d
  | .invalidScope d => .plain .invalidScope d
  | .invalidAuthorizationDetails d => .plain .invalidAuthorizationDetails d
  | .accessDenied d => .plain .accessDenied d
  | .unsupportedResponseType d => .plain .unsupportedResponseType d
  | .serverError d => .plain .serverError d
  | .temporarilyUnavailable d => .plain .temporarilyUnavailable d
  | .invalidCredentialRequest d => .plain .invalidCredentialRequest d
  | .unsupportedCredentialType d => .plain .unsupportedCredentialType d
  | .unsupportedFormat d => .plain .unsupportedCredentialFormat d
  | .invalidProof h n i => .invalidProof h n i
  | .invalidEncryptionParameters d => .plain .invalidEncryptionParameters d
  | .issuancePending i => .issuancePending i
  | .invalidTransactionId d => .plain .invalidTransactionId d
  | .vpFormatsNotSupported d => .plain .vpFormatsNotSupported d
  | .invalidPresentationDefinitionUri d => .plain .invalidPresentationDefinitionUri d
  | .invalidPresentationDefinitionReference d => .plain .invalidPresentationDefinitionReference d
  | .walletUnavailable d => .plain .walletUnavailable d
  | .panic _ => .plain .serverError ""

/-- The members of `OidError` that are written, error.rs 170-188 (members that are `None` are passed over; the number is written as a text, which is the same in a query). -/
def oidMembers (f : OidFields) : List (String × SVal) :=
  [("error", .str f.error), ("error_description", .str f.description)] ++ (f.state.map fun s => ("state", .str s)).toList ++
    (f.cNonce.map fun s => ("c_nonce", .str s)).toList ++ (f.expiresIn.map fun s => ("c_nonce_expires_in", .str s)).toList

/-- `Error::to_querystring`, error.rs 208-214: empty if the error cannot be written. -/
def errorQuery (e : Err) : List Char :=
  match (oidErr e).fields with
  | some f => urlEncode (.strct (oidMembers f))
  | none => []

/-- The `Location` of a redirect, main.rs 180 and 183-184. -/
def location : Reply → Option (List Char)
  | .code uri code => some (uri.toList ++ "?code=".toList ++ code.toList)
  | .denied uri e => some (uri.toList ++ ['?'] ++ errorQuery e)
  | _ => none

/-- The status of a reply of the example issuer: main.rs 142-145, 165-167, 174-177, 180-185, 254-269 and 364-365; of a missing route, `axum`'s own. A handler that panics answers
nothing. -/
def status : Reply → Option Nat
  | .ok _ => some 200
  | .failed _ => some 500
  | .unauthorized _ => some 401
  | .form _ => some 401
  | .code _ _ => some 302
  | .denied _ _ => some 302
  | .toAuth _ _ => some 302
  | .notFound => some 404
  | .panic => none

/-- The status of a reply of the example verifier, main.rs 99-100. Simplification: a query that cannot be read is answered with 400, not 422. -/
def vstatus : VReply → Option Nat
  | .ok _ => some 200
  | .failed _ => some 500
  | .unreadable => some 422
  | .panic => none

end Verif.Server
