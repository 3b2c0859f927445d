import Verif.Issuer.System
/-!
# A small concrete issuer, used to show that theorems are not vacuous and as a source of counterexamples
-/
namespace Verif.Issuer.Demo
open Verif

/-- A 43 character PKCE challenge. -/
def challenge : String := "0123456789012345678901234567890123456789abc"

/-- One credential configuration with claims, scope and proof requirement. -/
def employee : CredentialConfiguration where
  format := .jwtVcJson {
    type_ := some ["VerifiableCredential", "EmployeeIDCredential"]
    credentialSubject := some [("email", .entry { mandatory := some true }), ("family_name", .entry {})] }
  scope := some "EmployeeIDCredential"
  proofTypes := some ["jwt"]

/-- A second configuration without proof requirement. -/
def developer : CredentialConfiguration where
  format := .jwtVcJson { type_ := some ["VerifiableCredential", "DeveloperCredential"] }

/-- Issuer metadata. -/
def issuer : Issuer where
  credentialIssuer := "http://vercre.io"
  configs := [("Employee", employee), ("Developer", developer)]

/-- Authorization server metadata. -/
def server : Server where
  scopesSupported := some ["openid", "credential"]
  responseTypesSupported := [.code]
  grantTypesSupported := some [.authorizationCode, .preAuthorizedCode]
  codeChallengeMethodsSupported := some [.s256]
  anonymousAccess := true

/-- A registered client. -/
def client : Client where
  clientId := "wallet"
  redirectUris := some ["http://localhost/cb"]
  grantTypes := some [.authorizationCode]
  responseTypes := some [.code]
  scope := some "openid credential"

/-- The subject data set. -/
def data (pending : Bool) : Dataset where
  claims := [("email", .str "n@example.com"), ("family_name", .str "Person")]
  pending

/-- A provider. A proof JWT here is the text `nonce`, signed by `did:web:holder#k1`. -/
def provider (pending : Bool := false) (srv : Server := server) : Provider where
  client c := if c = "wallet" then some client else none
  issuer i := if i = "http://vercre.io" then some issuer else none
  server i := if i = "http://vercre.io" then some srv else none
  register c := some c
  authorize s c :=
    if s = "normal" then
      (if c = "Employee" then some ["emp-1"] else if c = "Developer" then some ["dev-1"] else none) else none
  dataset s _ := if s = "normal" then some (data pending) else none
  status _ _ := some none
  signer _ := some "issuer-key"
  signOk _ _ := true
  decodeProof j := some { typIsProof := true, nonce := some j, kid := some "did:web:holder#k1" }
  codeChallenge v := if v = "verifier" then challenge else ""
  txCode _ := "123456"
  iter m := m
  iter_perm m := .refl m

/-- Tokens `t`, `tt`, … Injective and never a request URI. -/
def rng (n : Nat) : String := String.ofList (List.replicate (n + 1) 't')

/-- An environment without faults. -/
def env : Env := { rng, fault := fun _ => .ok }

theorem urn_toList : urn.toList = 'u' :: "rn:ietf:params:oauth:request_uri:".toList := by decide

theorem env_fresh : Env.Fresh env := by
  constructor
  · intro i j h
    have h := congrArg String.toList h
    simp only [env, rng, String.toList_ofList] at h
    have h := congrArg List.length h
    simp at h; exact h
  · intro i j h
    have h := congrArg String.toList h
    simp only [env, rng, String.toList_ofList, String.toList_append, urn_toList, List.replicate_succ] at h
    simp at h

/-- A pre-authorized offer request. -/
def offerReq : CreateOfferRequest where
  credentialIssuer := "http://vercre.io"
  subjectId := some "normal"
  configIds := ["Employee"]
  grantTypes := some [.preAuthorizedCode]
  txCodeRequired := true
  sendType := .byVal

/-- Redeeming it. -/
def tokenReq (code : String) (pin : Option String := some "123456") : TokenRequest where
  credentialIssuer := "http://vercre.io"
  clientId := some "wallet"
  grantType := .preAuthorizedCode code pin
  authorizationDetails := none

/-- An authorization request. -/
def authReq : RequestObject where
  credentialIssuer := "http://vercre.io"
  clientId := "wallet"
  redirectUri := some "http://localhost/cb"
  codeChallenge := challenge
  authorizationDetails := some [{ credential := .configurationId "Employee" none }]
  scope := none
  subjectId := "normal"
  issuerState := none

/-- Redeeming an authorization code. -/
def codeReq (code : String) : TokenRequest where
  credentialIssuer := "http://vercre.io"
  clientId := some "wallet"
  grantType := .authorizationCode code (some "http://localhost/cb") (some "verifier")
  authorizationDetails := none

/-- Asking for the credential, with a proof over `nonce`. -/
def credReq (tok nonce : String) : CredentialRequest where
  credentialIssuer := "http://vercre.io"
  accessToken := tok
  credential := .identifier "emp-1"
  proof := some (.single nonce)

/-- Whether a result is a success. -/
def isOk {α : Type} : Res α → Bool
  | .ok _ => true
  | .error _ => false

/-- World after a pre-authorized offer was created (code `t`, pin drawn with `tt`). -/
def offered : World State := exec env (start 0) [{ provider := provider, req := .createOffer offerReq }]

/-- World after an authorization (code `t`). -/
def authorized : World State := exec env (start 0) [{ provider := provider, req := .authorize (.object authReq) }]

/-- World after the offer was redeemed (token `ttt`, nonce `tttt`). -/
def validated : World State := exec env offered [{ provider := provider, req := .token (tokenReq (rng 0)) }]

example : isOk (step env (start 0) { provider := provider, req := .createOffer offerReq }).1 = true := by decide
example : isOk (step env offered { provider := provider, req := .token (tokenReq (rng 0)) }).1 = true := by decide
example : isOk (step env authorized { provider := provider, req := .token (codeReq (rng 0)) }).1 = true := by decide
example : isOk (step env validated { provider := provider, req := .credential (credReq (rng 2) (rng 3)) }).1 = true := by
  decide

end Verif.Issuer.Demo
