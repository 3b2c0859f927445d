import Verif.Wire.Store
import Verif.Issuer.System
/-!
# Credential requests that ask for an encrypted response

`readCredentialRequest` passes over `credential_response_encryption`; here it is read.
-/
namespace Verif.Wire
open Verif

/-- `CredentialResponseEncryption`, /repo/crates/openid/src/issuer.rs 1257-1275. Simplification: the key is kept as it is written, `PublicKeyJwk` being of another crate. -/
structure AskedEncryption where
  jwk : Json
  alg : String
  enc : String

section
variable (key : Json → Bool)

/-- Derived reader of `CredentialResponseEncryption`, /repo/crates/openid/src/issuer.rs 1257-1275; `key` says which keys the reader of `PublicKeyJwk` takes. -/
def readHowToEncrypt (j : Json) : Option AskedEncryption := do
  match ← structFields ["jwk", "alg", "enc"] j with
  | [k, a, e] =>
    let k ← required (fun j => if key j then some j else none) k
    let a ← required readStr a
    let e ← required readStr e
    some { jwk := k, alg := a, enc := e }
  | _ => none

/-- Derived reader of `CredentialRequest`, /repo/crates/openid/src/issuer.rs 1108-1142, with all members. -/
def readAsking (j : Json) : Option (Issuer.CredentialRequest × Option AskedEncryption) := do
  match ← flatFields ["credential_issuer", "access_token", "credential_response_encryption"] j with
  | ([i, t, e], rest) =>
    let i ← defaulted "" readStr i
    let t ← defaulted "" readStr t
    let e ← optional (readHowToEncrypt key) e
    let c ← readIssuance rest
    some ({ credentialIssuer := i, accessToken := t, credential := c, proof := readProof rest }, e)
  | _ => none

/-- A credential request as it comes in, read and passed to the endpoint: /repo/examples/issuer/src/main.rs 326-335 with /repo/vercre-issuer/src/credential.rs 38-46. Simplification: issuer and token are
those of the request, where the example server puts in those of the headers. The
endpoint and all it calls leave `credential_response_encryption` alone. `none` is a request that cannot be read. -/
def answerAsking (e : Env) (P : Issuer.Provider) (w : World Issuer.State) (j : Json) : Option (Res Issuer.Resp × World Issuer.State) :=
  (readAsking key j).map fun r => (Issuer.call P (.credential r.1)).run e w

end

end Verif.Wire
