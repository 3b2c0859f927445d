import Verif.Openid.Types
/-!
# Claim verification

Models `CredentialConfiguration::verify_claims` and its helpers, /repo/crates/openid/src/issuer.rs 1706-1769.
-/
namespace Verif

mutual
/-- `claims_supported`, issuer.rs 1723-1742: each requested claim exists in `supported`, nested claims under nested
claims. The first argument is walked. -/
def claimsSupported : List (String × Claim) → Dict Claim → Bool
  | [], _ => true
  | (k, c) :: rest, sup =>
    (match Dict.get? sup k with
      | none => false
      | some s => claimSupported c s) && claimsSupported rest sup

/-- One requested claim against the supported claim of the same name, issuer.rs 1732-1738. -/
def claimSupported : Claim → Claim → Bool
  | .set req, .set sup => claimsSupported req sup
  | .set _, .entry _ => false
  | .entry _, _ => true
end

mutual
/-- `claims_required`, issuer.rs 1745-1769. The second argument (`supported`) is walked. -/
def claimsRequired (req : Dict Claim) : List (String × Claim) → Bool
  | [] => true
  | (k, c) :: rest => claimRequired (Dict.get? req k) c && claimsRequired req rest

/-- One supported claim against what was requested under its name, issuer.rs 1749-1765. -/
def claimRequired (o : Option Claim) : Claim → Bool
  | .set sup =>
    match o with
    | none => claimsRequired [] sup
    | some (.set r) => claimsRequired r sup
    | some (.entry _) => false
  | .entry d => !(d.mandatory.getD false) || o.isSome
end

/-- `verify_claims`, issuer.rs 1706-1720. The result of the `claims_supported` call (line 1710) is discarded by the
code, so only the mandatory check decides. -/
def CredentialConfiguration.verifyClaims (cfg : CredentialConfiguration) (req : Dict Claim) : Bool :=
  match cfg.format.claims with
  | none => true
  | some sup => claimsRequired req sup

end Verif
