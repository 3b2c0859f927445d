import Verif.Issuer.System
/-!
# Vocabulary of the issuer properties

Small specification-level notions used in the statements of the issuer theorems.
-/
namespace Verif.Issuer

/-- A call was refused: it returned some error. -/
def Refused {α : Type} (r : Res α) : Prop := ∀ a, r ≠ .ok a

instance {α : Type} (r : Res α) : Decidable (Refused r) :=
  match r with
  | .ok a => .isFalse fun h => h a rfl
  | .error _ => .isTrue fun _ h => by cases h

/-- State that is live: less than one second past its expiry (chrono truncates to whole seconds). -/
def Live (s : State) (now : Int) : Prop := now < s.expiresAt + sec

/-- The credentials a grant (an offer or an authorization) stands for. -/
def State.grantItems (s : State) : List AuthorizedItem :=
  match s.stage with
  | .offered o => o.items.getD []
  | .authorized a => a.items
  | _ => []

/-- A grant authorizes credential `id` under configuration `cfg`. -/
def State.grants (s : State) (cfg id : String) : Prop :=
  ∃ it ∈ s.grantItems, it.configId = cfg ∧ id ∈ it.identifiers

/-- Two credential descriptions mean the same credential: the same configuration id, or the same format with the same
credential type. Requested claims are not part of a credential's identity. -/
inductive SameCredential : CredentialAuthorization → CredentialAuthorization → Prop
  | configurationId (id : String) (c c' : Option ProfileClaims) :
      SameCredential (.configurationId id c) (.configurationId id c')
  | jwtVcJson (t : Option (List String)) (s s' : Option (Dict Claim)) :
      SameCredential (.format (.jwtVcJson ⟨t, s⟩)) (.format (.jwtVcJson ⟨t, s'⟩))
  | ldpVc (t : Option (List String)) (s s' : Option (Dict Claim)) :
      SameCredential (.format (.ldpVc ⟨t, s⟩)) (.format (.ldpVc ⟨t, s'⟩))
  | jwtVcJsonLd (t : Option (List String)) (s s' : Option (Dict Claim)) :
      SameCredential (.format (.jwtVcJsonLd ⟨t, s⟩)) (.format (.jwtVcJsonLd ⟨t, s'⟩))
  | isoMdl (d : String) (c c' : Option (Dict Claim)) :
      SameCredential (.format (.isoMdl d c)) (.format (.isoMdl d c'))
  | vcSdJwt (v : String) (c c' : Option (Dict Claim)) :
      SameCredential (.format (.vcSdJwt v c)) (.format (.vcSdJwt v c'))

/-- `Format` equality as coded is sameness of format and type. -/
theorem sameCredential_iff (a b : CredentialAuthorization) : a.eqv b = true ↔ SameCredential a b := by
  constructor
  · intro h
    cases a with
    | configurationId i c =>
      cases b with
      | configurationId j c' => simp [CredentialAuthorization.eqv] at h; subst h; exact .configurationId ..
      | format g => simp [CredentialAuthorization.eqv] at h
    | format f =>
      cases b with
      | configurationId j c' => simp [CredentialAuthorization.eqv] at h
      | format g =>
        simp only [CredentialAuthorization.eqv] at h
        cases f <;> cases g <;> simp only [Format.eqv, beq_iff_eq, Bool.false_eq_true] at h
        · rename_i x y; cases x; cases y; simp only at h; subst h; exact .jwtVcJson ..
        · rename_i x y; cases x; cases y; simp only at h; subst h; exact .ldpVc ..
        · rename_i x y; cases x; cases y; simp only at h; subst h; exact .jwtVcJsonLd ..
        · subst h; exact .isoMdl ..
        · subst h; exact .vcSdJwt ..
  · intro h
    cases h <;> simp [CredentialAuthorization.eqv, Format.eqv]

end Verif.Issuer
