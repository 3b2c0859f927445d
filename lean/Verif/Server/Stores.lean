import Verif.Server.Model
/-!
# What the example issuer is set up with

/repo/crates/test-utils/src/store: the clients, the issuer's metadata and the authorization server's metadata that the example issuer
(/repo/examples/issuer/src/provider.rs 24-51) works with, as far as the endpoints read them (see `Openid/Types.lean` for what is left out; of claims, their
`value_type` and `display`).
-/
namespace Verif.Server.Stores
open Issuer (Provider)

/-- store/client.json. -/
def client : Client where
  clientId := "96bfb9cb-0513-7d64-5532-bed74c48f9ab"
  redirectUris := some ["http://localhost:3000/callback"]
  grantTypes := some [.authorizationCode, .preAuthorizedCode]
  responseTypes := some [.code]
  scope := some "openid credential"

/-- `ClientStore::new`, store/issuance.rs 71-87. -/
def clients : Dict Client := [(client.clientId, client), ("http://localhost:8080", { client with clientId := "http://localhost:8080" })]

/-- A claim that must be there, in store/issuer.json. -/
def mandatory : Claim := .entry { mandatory := some true }

/-- A claim that may be there, in store/issuer.json. -/
def optional : Claim := .entry {}

/-- store/issuer.json 10-122. -/
def employee : CredentialConfiguration where
  format := .jwtVcJson {
    type_ := some ["VerifiableCredential", "EmployeeIDCredential"]
    credentialSubject := some [("email", mandatory), ("family_name", mandatory), ("given_name", mandatory),
      ("address", .set [("street_address", optional), ("locality", optional), ("region", optional), ("country", optional)])] }
  scope := some "EmployeeIDCredential"
  proofTypes := some ["jwt"]
  display := some [⟨"Employee ID", some "en-NZ", some "Vercre employee ID credential", some "https://vercre.github.io/assets/employee.png"⟩]

/-- store/issuer.json 123-195. -/
def developer : CredentialConfiguration where
  format := .jwtVcJson {
    type_ := some ["VerifiableCredential", "DeveloperCredential"]
    credentialSubject := some [("proficiency", mandatory), ("family_name", optional), ("given_name", optional)] }
  scope := some "DeveloperCredential"
  proofTypes := some ["jwt"]
  display := some [⟨"Developer", some "en-NZ", some "Vercre certified developer credential", some "https://vercre.github.io/assets/developer.png"⟩]

/-- store/issuer.json 196-270. -/
def licence : CredentialConfiguration where
  format := .isoMdl "org.iso.18013.5.1.mDL" (some [
    ("org.iso.18013.5.1", .set [("email", mandatory), ("family_name", mandatory), ("given_name", mandatory)]),
    ("org.iso.18013.5.1.aamva", .set [("organ_donor", optional)])])
  scope := some "DriverLicence"
  proofTypes := some ["jwt"]
  display := some [⟨"Employee ID", some "en-NZ", some "Vercre employee ID credential", some "https://vercre.github.io/assets/employee.png"⟩]

/-- store/issuer.json. Simplification: the order of the configurations, which is arbitrary, is that of the file. -/
def issuer : Verif.Issuer where
  credentialIssuer := "http://vercre.io"
  configs := [("EmployeeID_JWT", employee), ("Developer_JWT", developer), ("org.iso.18013.5.1.mDL", licence)]

/-- `IssuerStore::new`, store/issuance.rs 21-31. -/
def issuers : Dict Verif.Issuer := [("http://localhost:8080", issuer), (issuer.credentialIssuer, issuer)]

/-- store/server.json. -/
def server : Verif.Server where
  scopesSupported := some ["openid", "credential"]
  responseTypesSupported := [.code]
  grantTypesSupported := some [.authorizationCode, .preAuthorizedCode]
  codeChallengeMethodsSupported := some [.s256]
  anonymousAccess := true

/-- `ServerStore::new`, store/issuance.rs 46-56; the second key is the `issuer` of server.json. -/
def servers : Dict Verif.Server := [("http://localhost:8080", server), ("http://vercre.io", server)]

/-- The metadata provider of the example issuer, /repo/examples/issuer/src/provider.rs 38-51. No web request registers a client (main.rs 50-62), so the clients
are always those of the start. The other providers are those of `P`. -/
def provider (P : Provider) : Provider := { P with client := clients.get?, issuer := issuers.get?, server := servers.get? }

end Verif.Server.Stores
