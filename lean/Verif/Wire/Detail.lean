import Verif.Wire.Claim
/-!
# Authorization details on the wire

`AuthorizationDetail` and what it is made of, crates/openid/src/issuer.rs 610-881 and 1851-1885.
Left out of `serde`'s reader of flattened members: variants given by their number, and `{}` in place of `null`.
-/
namespace Verif.Wire

/-- `CredentialDefinition`, issuer.rs 1853-1885. -/
structure CredentialDefinition where
  context : Option (List String) := none
  type_ : Option (List String) := none
  credentialSubject : Option (List (String × Claim)) := none

/-- `ProfileClaims`, issuer.rs 806-818. -/
inductive ProfileClaims where
  | w3c (d : CredentialDefinition)
  | isoMdl (m : List (String × Claim))
  | sdJwt (m : List (String × Claim))

/-- `Format` with its profiles, issuer.rs 717-767 and 838-881. -/
inductive Format where
  | jwtVcJson (d : CredentialDefinition)
  | ldpVc (d : CredentialDefinition)
  | jwtVcJsonLd (d : CredentialDefinition)
  | isoMdl (doctype : String) (claims : Option (List (String × Claim)))
  | vcSdJwt (vct : String) (claims : Option (List (String × Claim)))

/-- `CredentialAuthorization`, issuer.rs 652-673. -/
inductive CredentialAuthorization where
  | configurationId (id : String) (claims : Option ProfileClaims)
  | format (f : Format)

/-- `AuthorizationDetail` (the type has a single value), issuer.rs 622-648. -/
structure AuthorizationDetail where
  credential : CredentialAuthorization
  locations : Option (List String) := none

/-- Derived reader of `CredentialDefinition`, issuer.rs 1852. -/
def readDefinition (j : Json) : Option CredentialDefinition :=
  match structFields ["@context", "type", "credentialSubject"] j with
  | some [c, t, s] =>
    match optional (readVec readStr) c, optional (readVec readStr) t, optional readDict s with
    | some c, some t, some s => some { context := c, type_ := t, credentialSubject := s }
    | _, _, _ => none
  | _ => none

/-- Derived writer of `CredentialDefinition`, issuer.rs 1852-1885. -/
def writeDefn (d : CredentialDefinition) : Json :=
  .obj (opt "@context" (writeVec .str) d.context ++ (opt "type" (writeVec .str) d.type_ ++ opt "credentialSubject" writeDict d.credentialSubject))

/-- Derived reader of `ProfileClaims` from flattened members: the first member named after a variant counts; the two variants called `claims` are not
told apart, and the first is taken (issuer.rs 806-818). -/
def readProfileClaims (m : List (String × Json)) : Option ProfileClaims :=
  match m.find? fun p => p.1 = "credential_definition" ∨ p.1 = "claims" with
  | none => none
  | some (k, j) => if k = "credential_definition" then (readDefinition j).map .w3c else (readDict j).map .isoMdl

/-- Derived writer of `ProfileClaims` into flattened members, issuer.rs 806-818. -/
def writeProfileClaims : ProfileClaims → List (String × Json)
  | .w3c d => [("credential_definition", writeDefn d)]
  | .isoMdl m => [("claims", writeDict m)]
  | .sdJwt m => [("claims", writeDict m)]

/-- Derived reader of `ProfileW3c`, issuer.rs 838-842. -/
def readW3c (m : List (String × Json)) : Option CredentialDefinition :=
  match single m "credential_definition" with
  | some d => required readDefinition d
  | none => none

/-- Derived readers of `ProfileIsoMdl` and `ProfileSdJwt`, issuer.rs 852-861 and 874-884: a name and claims. -/
def readNamed (name : String) (m : List (String × Json)) : Option (String × Option (List (String × Claim))) :=
  match single m name, single m "claims" with
  | some n, some c =>
    match required readStr n, optional readDict c with
    | some n, some c => some (n, c)
    | _, _ => none
  | _, _ => none

/-- Derived reader of the internally tagged `Format`, issuer.rs 715-767. -/
def readFormat (m : List (String × Json)) : Option Format :=
  match single m "format" with
  | some (some (.str t)) =>
    let m := m.filter fun p => p.1 ≠ "format"
    if t = "jwt_vc_json" then (readW3c m).map .jwtVcJson
    else if t = "ldp-vc" then (readW3c m).map .ldpVc
    else if t = "jwt_vc_json-ld" then (readW3c m).map .jwtVcJsonLd
    else if t = "mso_mdoc" then (readNamed "doctype" m).map fun p => .isoMdl p.1 p.2
    else if t = "vc+sd-jwt" then (readNamed "vct" m).map fun p => .vcSdJwt p.1 p.2
    else none
  | _ => none

/-- Derived writer of `Format`, issuer.rs 715-767. -/
def writeFormat : Format → List (String × Json)
  | .jwtVcJson d => [("format", .str "jwt_vc_json"), ("credential_definition", writeDefn d)]
  | .ldpVc d => [("format", .str "ldp-vc"), ("credential_definition", writeDefn d)]
  | .jwtVcJsonLd d => [("format", .str "jwt_vc_json-ld"), ("credential_definition", writeDefn d)]
  | .isoMdl t c => [("format", .str "mso_mdoc"), ("doctype", .str t)] ++ opt "claims" writeDict c
  | .vcSdJwt t c => [("format", .str "vc+sd-jwt"), ("vct", .str t)] ++ opt "claims" writeDict c

/-- Derived reader of the untagged `CredentialAuthorization`, issuer.rs 650-673: by configuration if that can be read, otherwise by format. The flattened
`Option<ProfileClaims>` takes any error for `None`. -/
def readCredential (m : List (String × Json)) : Option CredentialAuthorization :=
  match single m "credential_configuration_id" with
  | some (some (.str id)) => some (.configurationId id (readProfileClaims (m.filter fun p => p.1 ≠ "credential_configuration_id")))
  | _ => (readFormat m).map .format

/-- Derived writer of `CredentialAuthorization`, issuer.rs 650-673. -/
def writeCredential : CredentialAuthorization → List (String × Json)
  | .configurationId id none => [("credential_configuration_id", .str id)]
  | .configurationId id (some c) => ("credential_configuration_id", .str id) :: writeProfileClaims c
  | .format f => writeFormat f

/-- The only `AuthorizationDetailType`, issuer.rs 612-617. -/
def readDetailType : Json → Option Unit := readUnit fun s => if s = "openid_credential" then some () else none

/-- Derived reader of `AuthorizationDetail`, issuer.rs 621-648: an object only, since a member is flattened. -/
def readDetail : Json → Option AuthorizationDetail
  | .obj m =>
    match single m "type", single m "locations" with
    | some t, some l =>
      match required readDetailType t, optional (readVec readStr) l, readCredential (m.filter fun p => p.1 ≠ "type" ∧ p.1 ≠ "locations") with
      | some _, some l, some c => some { credential := c, locations := l }
      | _, _, _ => none
    | _, _ => none
  | _ => none

/-- Derived writer of `AuthorizationDetail`, issuer.rs 621-648. -/
def writeDetail (d : AuthorizationDetail) : Json :=
  .obj (("type", .str "openid_credential") :: writeCredential d.credential ++ opt "locations" (writeVec .str) d.locations)

end Verif.Wire
