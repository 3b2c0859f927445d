import Verif.Wire.FormProps
import Verif.Wire.QueryProps
import Verif.Holder.Demo
import Verif.Issuer.Demo
/-!
# Examples for C146 – C148
-/
namespace Verif.Wire.FormDemo
open Holder (HEnv HStep)
open Holder.Demo (env doOffer doAccept doPin doToken doRequest doAllow doPresent call outcomes)

/-- No text is anything but ASCII here. -/
def lossy (b : List UInt8) : List Char := b.map fun x => Char.ofNat x.toNat

/-- Others that answer every form. -/
def takers : Takers where
  token _ _ _ _ := some { accessToken := "at-1", expiresIn := 900, cNonce := some "n1", cNonceExpiresIn := none, authorizationDetails := none }
  present _ _ _ _ := some { redirectUri := none, responseCode := some "done" }

/-- The example wallet among them. -/
def wallet : HEnv := byForms (fun _ => .null) takers env

/-- Accepting everything that is offered. -/
def doAcceptAll : HStep := call (.accept { issuanceId := "t", accept := none })

/-- A form: a token request of two members, one with characters that have to be written otherwise. -/
example : tokenForm { credentialIssuer := "", clientId := some "a b&c", grantType := .preAuthorizedCode "é" none, authorizationDetails := none } =
    some ("client_id=a+b%26c&grant_type=urn%3Aietf%3Aparams%3Aoauth%3Agrant-type%3Apre-authorized_code&pre-authorized_code=%C3%A9".toList.map
      fun c => UInt8.ofNat c.toNat) := by decide +kernel

/-- C146: it arrives. -/
example (lossy : List UInt8 → List Char) : ∃ body,
    tokenForm { credentialIssuer := "http://vercre.io", clientId := some "a b&c", grantType := .preAuthorizedCode "é" (some "1=2"), authorizationDetails := none } = some body ∧
    tokenFormSeen lossy body =
      some { credentialIssuer := "http://vercre.io", clientId := some "a b&c", grantType := .preAuthorizedCode "é" (some "1=2"), authorizationDetails := none } :=
  let ⟨body, h1, h2, _⟩ := C146_token_request_arrives_partial lossy _ rfl
  ⟨body, h1, h2⟩

set_option maxRecDepth 20000 in
/-- C146: a wallet whose user accepts everything gets a token, one whose user selects a claim does not. -/
example : outcomes wallet [doOffer, doAcceptAll, doPin, doToken] = ["offer t", "flow t", "flow t", "authorized t"] ∧
    outcomes wallet [doOffer, doAccept, doPin, doToken] = ["offer t", "flow t", "flow t", "provider"] := by
  constructor <;> decide +kernel

set_option maxRecDepth 20000 in
/-- C146: the hypotheses of its theorem, in that history. -/
example : (match (Holder.exec wallet (Holder.start 0) [doOffer, doAccept, doPin]).store "t" with
    | some (.issuance i) => i.accepted.isSome
    | _ => false) = true := by decide +kernel

set_option maxRecDepth 20000 in
/-- C146: a form that names details is read with none of them, or not at all. -/
example : tokenFormSeen lossy ("grant_type=urn%3Aietf%3Aparams%3Aoauth%3Agrant-type%3Apre-authorized_code&pre-authorized_code=x".toList.map fun c => UInt8.ofNat c.toNat) =
      some { credentialIssuer := "", clientId := none, grantType := .preAuthorizedCode "x" none, authorizationDetails := none } ∧
    tokenFormSeen lossy
      ("grant_type=urn%3Aietf%3Aparams%3Aoauth%3Agrant-type%3Apre-authorized_code&pre-authorized_code=x&authorization_details=%5B%5D".toList.map
        fun c => UInt8.ofNat c.toNat) = none := by constructor <;> rfl

set_option maxRecDepth 20000 in
/-- C147: the wallet has a presentation ready and cannot send it. -/
example : outcomes wallet [doRequest, doAllow, doPresent] = ["request t", "status", "provider"] ∧
    outcomes env [doRequest, doAllow, doPresent] = ["request t", "status", "presented"] := by
  constructor <;> decide +kernel

/-- C147: a state arrives. -/
example : ∃ body, answerForm (fun _ => .null) ⟨none, none, some "s&t"⟩ = some body ∧ answerFormSeen lossy (fun _ => none) body = some ⟨none, none, some "s&t"⟩ :=
  C147_state_arrives_partial lossy _ _ _ rfl rfl

set_option maxRecDepth 20000 in
/-- C147: a presentation as it is printed in the specification, a JSON text in a form, cannot be read. -/
example : answerFormSeen lossy (fun _ => none) ("vp_token=eyJh&state=s".toList.map fun c => UInt8.ofNat c.toNat) = none ∧
    answerFormSeen lossy (fun _ => none) ("state=s".toList.map fun c => UInt8.ofNat c.toNat) = some ⟨none, none, some "s"⟩ := by constructor <;> rfl

/-- A request by scope. -/
def byScope : Issuer.RequestObject := { Issuer.Demo.authReq with authorizationDetails := none, scope := some "EmployeeIDCredential", issuerState := some "st=1 é" }

theorem byScope_noAmp : NoAmp byScope where
  credentialIssuer := by decide
  clientId := by decide
  redirectUri s h := by cases h; decide
  state s h := by cases h
  codeChallenge := by decide
  scope s h := by cases h; decide
  subjectId := by decide
  issuerState s h := by cases h; decide

/-- C148: it comes back. -/
example (lossy : List UInt8 → List Char) : querySeen lossy (redirectQuery byScope) = some (.object byScope) :=
  C148_redirect_leads_back_partial lossy byScope rfl byScope_noAmp

/-- C148: one that comes back as another's. -/
example (lossy : List UInt8 → List Char) : querySeen lossy (redirectQuery { byScope with issuerState := some "st=1 é&client_id=other" }) =
    some (.object { byScope with clientId := "other" }) :=
  C148_redirect_changes_client lossy byScope rfl "st=1 é" "other" byScope_noAmp (by decide)

/-- C148: one with details does not. -/
example (lossy : List UInt8 → List Char) : querySeen lossy (redirectQuery Issuer.Demo.authReq) = none :=
  C148_details_lost lossy _ _ rfl

end Verif.Wire.FormDemo
