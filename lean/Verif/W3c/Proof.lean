import Verif.W3c.Model
/-!
# Proofs of credentials and presentations

Models /repo/crates/w3c-vc/src/proof.rs and proof/jose.rs. Signing and key resolution (`vercre_infosec::jose::jws`, `verify_key!`) are
external; they are the parameter `Jose`.
-/
namespace Verif

/-- `VcClaims`, /repo/crates/w3c-vc/src/proof/jose.rs 52-85. -/
structure VcClaims where
  sub : String
  nbf : Option Int
  iss : String
  iat : Int
  jti : String
  exp : Option Int
  vc : Vc

/-- `VpClaims`, jose.rs 116-146. -/
structure VpClaims where
  iss : String
  jti : String
  aud : String
  nonce : String
  nbf : Int
  iat : Int
  exp : Int
  vp : Vp

/-- `jws::encode` / `jws::decode` with key resolution, for the two claim types. `none` is an error. /repo/crates/w3c-vc/src/proof.rs 102, 108, 149 and 159. -/
structure Jose where
  encodeVc : String → VcClaims → Option String
  decodeVc : String → Option VcClaims
  encodeVp : String → VpClaims → Option String
  decodeVp : String → Option VpClaims

/-- Assumed of the external crate and the resolver: what was encoded with one of our keys decodes to itself.
Assumption about /repo/crates/w3c-vc/src/proof.rs 102-159. -/
structure Jose.RoundTrips (J : Jose) : Prop where
  vc : ∀ k c t, J.encodeVc k c = some t → J.decodeVc t = some c
  vp : ∀ k c t, J.encodeVp k c = some t → J.decodeVp t = some c

/-- Seconds since the epoch of an instant in nanoseconds (`DateTime::timestamp`). /repo/crates/w3c-vc/src/proof/jose.rs 106 and 153-160. -/
def timestamp (t : Int) : Int := t.fdiv 1000000000

/-- The subject a token is about, jose.rs 89-92. `&subs[0]` panics on an empty list. -/
def Vc.firstSubject (vc : Vc) : Res CredentialSubject :=
  match vc.subject with
  | .one s => .ok s
  | .many [] => .error (.panic "index out of bounds")
  | .many (s :: _) => .ok s

/-- `VcClaims::from_vc`, jose.rs 88-109. -/
def VcClaims.fromVc (vc : Vc) (issuedAt : Int) : Res VcClaims := do
  let subject ← vc.firstSubject
  pure {
    sub := subject.id.getD ""
    nbf := none
    iss := match vc.issuer with | .string i => i | .object o => o.id
    iat := issuedAt
    jti := vc.id.getD ""
    exp := vc.validUntil.map timestamp
    vc }

/-- `VpClaims::from`, jose.rs 148-166. The audience and nonce are filled in by `create`. Simplification: one reading of the clock for the three times (`VpClaims.ofVp` in
`Wire/Credential.lean` has all three). -/
def VpClaims.fromVp (vp : Vp) (now : Int) : VpClaims where
  iss := vp.holder.getD ""
  jti := vp.id.getD ""
  aud := ""
  nonce := ""
  nbf := timestamp now
  iat := timestamp now
  exp := timestamp (now + 3600 * 1000000000)
  vp := vp

/-- `W3cFormat`, proof.rs 47-60. -/
inductive W3cFormat where
  | jwtVcJson
  | jwtVcJsonLd
  | dataIntegrityJsonLd
  deriving DecidableEq, Repr

/-- `Payload`, proof.rs 65-86. -/
inductive Payload where
  | vc (vc : Vc) (issuedAt : Int)
  | vp (vp : Vp) (clientId nonce : String)

/-- `create`, proof.rs 92-125. -/
def Proof.create (J : Jose) (format : W3cFormat) (payload : Payload) (signer : String) (now : Int) : Res String := do
  require (format == .jwtVcJson || format == .jwtVcJsonLd) (.serverError "Unsupported proof format")
  match payload with
  | .vc vc issuedAt => do
    let claims ← VcClaims.fromVc vc issuedAt
    orErr (J.encodeVc signer claims) (.serverError "issue encoding")
  | .vp vp clientId nonce =>
    orErr (J.encodeVp signer { VpClaims.fromVp vp now with aud := clientId, nonce }) (.serverError "issue encoding")

/-- `verify` of `Verify::Vc`, proof.rs 145-154. -/
def Proof.verifyVc (J : Jose) : Kind Vc → Res Payload
  | .object _ => .error (.serverError "VerifiableCredential is not a JWT")
  | .string token => do
    let c ← orErr (J.decodeVc token) (.serverError "issue decoding")
    pure (.vc c.vc c.iat)

/-- `verify` of `Verify::Vp`, proof.rs 155-180. A presentation given as an object is not checked cryptographically. -/
def Proof.verifyVp (J : Jose) : Kind Vp → Res Payload
  | .string token => do
    let c ← orErr (J.decodeVp token) (.serverError "issue decoding")
    pure (.vp c.vp c.aud c.nonce)
  | .object vp =>
    match vp.proof with
    | some (.one p) => .ok (.vp vp "" (p.challenge.getD ""))
    | _ => .error (.serverError "invalid VerifiablePresentation proof")

end Verif
