import Verif.W3c.Model
/-!
# OpenID types used by issuer, verifier and holder

Models /repo/crates/openid/src/issuer.rs and oauth.rs. Members that no modelled code reads are dropped; each structure
says so. Optional members keep their `Option`.
-/
namespace Verif

/-- `GrantType`, oauth.rs 289-298. -/
inductive GrantType where
  | authorizationCode
  | preAuthorizedCode
  deriving DecidableEq, Repr

/-- `ResponseType`, oauth.rs 302-315. -/
inductive ResponseType where
  | code
  | vpToken
  | idToken
  deriving DecidableEq, Repr

/-- `CodeChallengeMethod`, oauth.rs 388-392. -/
inductive CodeChallengeMethod where
  | s256
  deriving DecidableEq, Repr

/-- OAuth client metadata, oauth.rs 21-129 and issuer.rs 2010-2020: the members read by the endpoints. -/
structure Client where
  clientId : String := ""
  redirectUris : Option (List String) := none
  grantTypes : Option (List GrantType) := none
  responseTypes : Option (List ResponseType) := none
  scope : Option String := none
  deriving DecidableEq, Repr

/-- OAuth server metadata, oauth.rs 165-285 and issuer.rs 2025-2034: the members read by the endpoints. -/
structure Server where
  scopesSupported : Option (List String) := none
  responseTypesSupported : List ResponseType := []
  grantTypesSupported : Option (List GrantType) := none
  codeChallengeMethodsSupported : Option (List CodeChallengeMethod) := none
  requirePar : Option Bool := none
  anonymousAccess : Bool := false
  deriving DecidableEq, Repr

/-- `ClaimDefinition`, issuer.rs 1953-1981: only `mandatory` is read by the library. -/
structure ClaimDef where
  mandatory : Option Bool := none
  deriving DecidableEq, Repr

/-- `Claim`, issuer.rs 1890-1896: a leaf or a nested set, to any depth. -/
inductive Claim where
  | entry (d : ClaimDef)
  | set (m : List (String × Claim))

/-- `CredentialDefinition`, issuer.rs 1853-1885 (`@context` dropped). -/
structure CredentialDefinition where
  type_ : Option (List String) := none
  credentialSubject : Option (Dict Claim) := none

/-- `Format` with its profiles, issuer.rs 717-767 and 838-881. -/
inductive Format where
  | jwtVcJson (d : CredentialDefinition)
  | ldpVc (d : CredentialDefinition)
  | jwtVcJsonLd (d : CredentialDefinition)
  | isoMdl (doctype : String) (claims : Option (Dict Claim))
  | vcSdJwt (vct : String) (claims : Option (Dict Claim))

/-- `Format::claims`, issuer.rs 772-780. -/
def Format.claims : Format → Option (Dict Claim)
  | jwtVcJson d | jwtVcJsonLd d | ldpVc d => d.credentialSubject
  | isoMdl _ c => c
  | vcSdJwt _ c => c

/-- `Format` equality: derived on the variant, with the profiles' own `PartialEq` (issuer.rs 843-847, 861-865, 883-887)
that compares only type, doctype or vct. -/
def Format.eqv : Format → Format → Bool
  | jwtVcJson a, jwtVcJson b => a.type_ == b.type_
  | ldpVc a, ldpVc b => a.type_ == b.type_
  | jwtVcJsonLd a, jwtVcJsonLd b => a.type_ == b.type_
  | isoMdl a _, isoMdl b _ => a == b
  | vcSdJwt a _, vcSdJwt b _ => a == b
  | _, _ => false

/-- `ProfileClaims`, issuer.rs 805-817. -/
inductive ProfileClaims where
  | w3c (d : CredentialDefinition)
  | isoMdl (c : Dict Claim)
  | sdJwt (c : Dict Claim)

/-- `ProfileClaims::claims`, issuer.rs 828-833. -/
def ProfileClaims.claims : ProfileClaims → Option (Dict Claim)
  | w3c d => d.credentialSubject
  | isoMdl c | sdJwt c => some c

/-- `CredentialAuthorization`, issuer.rs 653-671. -/
inductive CredentialAuthorization where
  | configurationId (id : String) (claims : Option ProfileClaims)
  | format (f : Format)

/-- `CredentialAuthorization` equality, issuer.rs 684-708: claims are ignored. -/
def CredentialAuthorization.eqv : CredentialAuthorization → CredentialAuthorization → Bool
  | configurationId a _, configurationId b _ => a == b
  | format a, format b => a.eqv b
  | _, _ => false

/-- `AuthorizationDetail`, issuer.rs 623-648. `type_` has a single value and `locations` is never read; both dropped. -/
structure AuthorizationDetail where
  credential : CredentialAuthorization

/-- `CredentialDisplay`, issuer.rs 1801-1833: name, locale, description and the address of the logo (`logo.uri`). -/
structure CredentialDisplay where
  name : String
  locale : Option String := none
  description : Option String := none
  logoUri : Option String := none
  deriving DecidableEq, Repr

/-- `CredentialConfiguration`, issuer.rs 1595-1696: the members read by the endpoints. `proofTypes` holds the keys of
`proof_types_supported`. -/
structure CredentialConfiguration where
  format : Format
  scope : Option String := none
  proofTypes : Option (List String) := none
  display : Option (List CredentialDisplay) := none

/-- Issuer metadata, issuer.rs 1441-1520: the members read by the endpoints. -/
structure Issuer where
  credentialIssuer : String
  authorizationServers : Option (List String) := none
  configs : Dict CredentialConfiguration := []

/-- `Issuer::credential_configuration_id`, issuer.rs 1528-1534: first configuration (in iteration order) of that
format. -/
def Issuer.configurationId (i : Issuer) (f : Format) : Option String :=
  (i.configs.find? fun e => e.2.format.eqv f).map Prod.fst

end Verif
