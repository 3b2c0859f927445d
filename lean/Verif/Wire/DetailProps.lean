import Verif.Wire.Detail
import Verif.Wire.ClaimProps
/-!
# C117: authorization details on the wire
-/
namespace Verif.Wire

/-! ### Specification -/

/-- The claims, if any, can be put in words. -/
def SoundClaims : Option (List (String × Claim)) → Prop
  | none => True
  | some m => SoundDict m

/-- The claims of a definition can be put in words. -/
def CredentialDefinition.Sound (d : CredentialDefinition) : Prop := SoundClaims d.credentialSubject

/-- Claims to narrow a credential to that can be put in words; those for selective disclosure cannot. -/
def ProfileClaims.Sound : ProfileClaims → Prop
  | .w3c d => d.Sound
  | .isoMdl m => SoundDict m
  | .sdJwt _ => False

/-- The claims of a format can be put in words. -/
def Format.Sound : Format → Prop
  | .jwtVcJson d => d.Sound
  | .ldpVc d => d.Sound
  | .jwtVcJsonLd d => d.Sound
  | .isoMdl _ c => SoundClaims c
  | .vcSdJwt _ c => SoundClaims c

/-- The claims of a detail can be put in words. -/
def AuthorizationDetail.Sound (d : AuthorizationDetail) : Prop :=
  match d.credential with
  | .configurationId _ none => True
  | .configurationId _ (some c) => c.Sound
  | .format f => f.Sound

/-! ### Proofs -/

theorem readStrs_write (l : List String) : readVec readStr (writeVec .str l) = some l := readVec_written fun _ _ => rfl

theorem optional_strs (o : Option (List String)) : optional (readVec readStr) (o.map (writeVec .str)) = some o :=
  optional_written (fun a _ => readStrs_write a) nofun

theorem optional_dict {o : Option (List (String × Claim))} (h : SoundClaims o) : optional readDict (o.map writeDict) = some o :=
  optional_written (fun a e => by subst e; exact readDict_write h) nofun

theorem optional_dict_sound {j : Option Json} {o : Option (List (String × Claim))} (h : optional readDict j = some o) : SoundClaims o := by
  cases j with
  | none => cases h; trivial
  | some j =>
    cases j with
    | null => cases h; trivial
    | obj m =>
      simp only [optional] at h
      cases hd : readDict (.obj m) with
      | none => rw [hd] at h; cases h
      | some d => rw [hd] at h; cases h; exact readDict_sound hd
    | _ => simp [optional, readDict] at h

theorem readDefinition_write {d : CredentialDefinition} (h : d.Sound) : readDefinition (writeDefn d) = some d := by
  have hf : structFields ["@context", "type", "credentialSubject"] (writeDefn d) =
      some [d.context.map (writeVec .str), d.type_.map (writeVec .str), d.credentialSubject.map writeDict] := by
    obtain ⟨a, b, c⟩ := d
    cases a <;> cases b <;> cases c <;> rfl
  simp only [readDefinition, hf, optional_strs, optional_dict h]

theorem readDefinition_sound {j : Json} {d : CredentialDefinition} (h : readDefinition j = some d) : d.Sound := by
  unfold readDefinition at h
  split at h
  · split at h
    · cases h; exact optional_dict_sound (by assumption)
    · cases h
  · cases h

theorem readProfileClaims_write {c : ProfileClaims} (h : c.Sound) : readProfileClaims (writeProfileClaims c) = some c := by
  cases c with
  | w3c d =>
    show (readDefinition (writeDefn d)).map ProfileClaims.w3c = _
    rw [readDefinition_write h]; rfl
  | isoMdl m =>
    show (readDict (writeDict m)).map ProfileClaims.isoMdl = _
    rw [readDict_write h]; rfl
  | sdJwt m => exact h.elim

theorem readProfileClaims_sound {m : List (String × Json)} {c : ProfileClaims} (h : readProfileClaims m = some c) : c.Sound := by
  unfold readProfileClaims at h
  split at h
  · cases h
  · split at h
    · rename_i j _ _
      cases hd : readDefinition j with
      | none => rw [hd] at h; cases h
      | some d => rw [hd] at h; cases h; exact readDefinition_sound hd
    · rename_i j _ _
      cases hd : readDict j with
      | none => rw [hd] at h; cases h
      | some d => rw [hd] at h; cases h; exact readDict_sound hd

theorem readW3c_sound {m : List (String × Json)} {d : CredentialDefinition} (h : readW3c m = some d) : d.Sound := by
  unfold readW3c at h
  split at h
  · rename_i o _
    cases o with
    | none => cases h
    | some j => exact readDefinition_sound h
  · cases h

theorem readNamed_sound {n : String} {m : List (String × Json)} {p : String × Option (List (String × Claim))} (h : readNamed n m = some p) : SoundClaims p.2 := by
  unfold readNamed at h
  split at h
  · split at h
    · cases h; exact optional_dict_sound (by assumption)
    · cases h
  · cases h

theorem readFormat_sound {m : List (String × Json)} {f : Format} (h : readFormat m = some f) : f.Sound := by
  unfold readFormat at h
  split at h
  · rename_i t _
    have w : ∀ {c : CredentialDefinition → Format} {m}, (∀ d, (c d).Sound = d.Sound) → (readW3c m).map c = some f → f.Sound := by
      intro c m hc h
      cases hd : readW3c m with
      | none => rw [hd] at h; cases h
      | some d => rw [hd] at h; cases h; rw [hc]; exact readW3c_sound hd
    have n : ∀ {c : String × Option (List (String × Claim)) → Format} {n m}, (∀ p, (c p).Sound = SoundClaims p.2) → (readNamed n m).map c = some f → f.Sound := by
      intro c n m hc h
      cases hd : readNamed n m with
      | none => rw [hd] at h; cases h
      | some d => rw [hd] at h; cases h; rw [hc]; exact readNamed_sound hd
    split at h
    · exact w (fun _ => rfl) h
    split at h
    · exact w (fun _ => rfl) h
    split at h
    · exact w (fun _ => rfl) h
    split at h
    · exact n (fun _ => rfl) h
    split at h
    · exact n (fun _ => rfl) h
    · cases h
  · cases h

theorem readFormat_write {f : Format} (h : f.Sound) : readFormat (writeFormat f) = some f := by
  cases f with
  | jwtVcJson d =>
    show (readDefinition (writeDefn d)).map Format.jwtVcJson = _
    rw [readDefinition_write h]; rfl
  | ldpVc d =>
    show (readDefinition (writeDefn d)).map Format.ldpVc = _
    rw [readDefinition_write h]; rfl
  | jwtVcJsonLd d =>
    show (readDefinition (writeDefn d)).map Format.jwtVcJsonLd = _
    rw [readDefinition_write h]; rfl
  | isoMdl t c =>
    have : readNamed "doctype" ([("doctype", .str t)] ++ opt "claims" writeDict c) = some (t, c) := by
      have e : single ([("doctype", .str t)] ++ opt "claims" writeDict c) "doctype" = some (some (.str t)) := by cases c <;> rfl
      have e' : single ([("doctype", .str t)] ++ opt "claims" writeDict c) "claims" = some (c.map writeDict) := by cases c <;> rfl
      simp only [readNamed, e, e', required, readStr, optional_dict h]
    have e : readFormat (writeFormat (.isoMdl t c)) = (readNamed "doctype" ([("doctype", .str t)] ++ opt "claims" writeDict c)).map fun p => .isoMdl p.1 p.2 := by
      cases c <;> rfl
    rw [e, this]; rfl
  | vcSdJwt t c =>
    have : readNamed "vct" ([("vct", .str t)] ++ opt "claims" writeDict c) = some (t, c) := by
      have e : single ([("vct", .str t)] ++ opt "claims" writeDict c) "vct" = some (some (.str t)) := by cases c <;> rfl
      have e' : single ([("vct", .str t)] ++ opt "claims" writeDict c) "claims" = some (c.map writeDict) := by cases c <;> rfl
      simp only [readNamed, e, e', required, readStr, optional_dict h]
    have e : readFormat (writeFormat (.vcSdJwt t c)) = (readNamed "vct" ([("vct", .str t)] ++ opt "claims" writeDict c)).map fun p => .vcSdJwt p.1 p.2 := by
      cases c <;> rfl
    rw [e, this]; rfl

theorem readCredential_sound {m : List (String × Json)} {c : CredentialAuthorization} {l : Option (List String)} (h : readCredential m = some c) :
    (AuthorizationDetail.mk c l).Sound := by
  unfold readCredential at h
  split at h
  · rename_i id _
    cases h
    cases hc : readProfileClaims (m.filter fun p => p.1 ≠ "credential_configuration_id") with
    | none => trivial
    | some c => exact readProfileClaims_sound hc
  · cases hf : readFormat m with
    | none => rw [hf] at h; cases h
    | some f => rw [hf] at h; cases h; exact readFormat_sound hf

theorem readDetail_sound {j : Json} {d : AuthorizationDetail} (h : readDetail j = some d) : d.Sound := by
  cases j <;> first | (simp [readDetail] at h; done) | skip
  simp only [readDetail] at h
  split at h
  · split at h
    · cases h; exact readCredential_sound (by assumption)
    · cases h
  · cases h

/-- Names the members of a credential may have. -/
theorem writeCredential_keys (c : CredentialAuthorization) : ∀ p ∈ writeCredential c, p.1 ≠ "type" ∧ p.1 ≠ "locations" := by
  rcases c with ⟨id, _ | c⟩ | f
  · simp [writeCredential]
  · cases c <;> simp [writeCredential, writeProfileClaims]
  · rcases f with d | d | d | ⟨t, _ | c⟩ | ⟨t, _ | c⟩ <;> simp [writeCredential, writeFormat, opt]

theorem readCredential_write {c : CredentialAuthorization} (h : (AuthorizationDetail.mk c none).Sound) : readCredential (writeCredential c) = some c := by
  rcases c with ⟨id, _ | c⟩ | f
  · rfl
  · have e : readCredential (writeCredential (.configurationId id (some c))) = some (.configurationId id (readProfileClaims (writeProfileClaims c))) := by
      cases c <;> rfl
    rw [e, readProfileClaims_write h]
  · have e : readCredential (writeCredential (.format f)) = (readFormat (writeFormat f)).map .format := by
      rcases f with d | d | d | ⟨t, _ | c⟩ | ⟨t, _ | c⟩ <;> rfl
    rw [e, readFormat_write h]; rfl

theorem readDetail_parts (l : List (String × Json)) (locs : Option (List String)) (hl : ∀ p ∈ l, p.1 ≠ "type" ∧ p.1 ≠ "locations") :
    readDetail (.obj (("type", .str "openid_credential") :: l ++ opt "locations" (writeVec .str) locs)) =
      (readCredential l).map fun c => { credential := c, locations := locs } := by
  have e1 : single (("type", .str "openid_credential") :: l ++ opt "locations" (writeVec .str) locs) "type" = some (some (.str "openid_credential")) := by
    rw [List.cons_append]
    refine single_head fun p hp => ?_
    rcases List.mem_append.1 hp with hp | hp
    · exact (hl p hp).1
    · rw [opt_keys p hp]; decide
  have e2 : single (("type", .str "openid_credential") :: l ++ opt "locations" (writeVec .str) locs) "locations" = some (locs.map (writeVec .str)) := by
    rw [List.cons_append, single_skip (by decide), single_append _ _ _ fun p hp => (hl p hp).2]
    have := single_opt (k := "locations") (w := writeVec Json.str) (o := locs) (m := []) nofun
    rwa [List.append_nil] at this
  have e3 : (("type", .str "openid_credential") :: l ++ opt "locations" (writeVec .str) locs).filter (fun p => decide (p.1 ≠ "type" ∧ p.1 ≠ "locations")) = l := by
    rw [List.cons_append, List.filter_cons, if_neg (by simp), List.filter_append, List.filter_eq_self.2 (fun p hp => by simpa using hl p hp),
      List.filter_eq_nil_iff.2 (fun p hp => by rw [opt_keys p hp]; simp), List.append_nil]
  unfold readDetail
  simp only [e1, e2, e3, required, optional_strs]
  cases readCredential l <;> rfl

theorem readDetail_write {d : AuthorizationDetail} (h : d.Sound) : readDetail (writeDetail d) = some d := by
  rw [writeDetail, readDetail_parts _ _ (writeCredential_keys _), readCredential_write h]
  rfl

/-! ### Theorems -/

/-- C117: What is read of an authorization detail comes back the same when it is written and read again. -/
theorem C117_read_is_stable (j : Json) (d : AuthorizationDetail) (h : readDetail j = some d) : readDetail (writeDetail d) = some d :=
  readDetail_write (readDetail_sound h)

/-- C117: A detail made by a program comes back from the wire exactly if its claims can be put in words. -/
theorem C117_comes_back_iff (d : AuthorizationDetail) : readDetail (writeDetail d) = some d ↔ d.Sound :=
  ⟨fun h => readDetail_sound h, readDetail_write⟩

/-- C117 fails for selective disclosure: claims to narrow such a credential to are read as those of a mobile driving licence. -/
theorem C117_sd_jwt_becomes_mdoc (id : String) (m : List (String × Claim)) (l : Option (List String)) (h : SoundDict m) :
    readDetail (writeDetail { credential := .configurationId id (some (.sdJwt m)), locations := l }) =
      some { credential := .configurationId id (some (.isoMdl m)), locations := l } :=
  readDetail_write (d := { credential := .configurationId id (some (.isoMdl m)), locations := l }) h

/-- C117 fails for malformed claims: if the definition a wallet wants a credential narrowed to cannot be read, the detail is not refused, but read as one for the
whole credential. -/
theorem C117_malformed_narrowing_dropped (id : String) (j : Json) (h : readDefinition j = none) :
    readDetail (.obj [("type", .str "openid_credential"), ("credential_configuration_id", .str id), ("credential_definition", j)]) =
      some { credential := .configurationId id none } := by
  have := readDetail_parts [("credential_configuration_id", .str id), ("credential_definition", j)] none (by simp)
  simp only [opt, List.append_nil] at this
  rw [this]
  have e : readCredential [("credential_configuration_id", .str id), ("credential_definition", j)] =
      some (.configurationId id ((readDefinition j).map .w3c)) := rfl
  rw [e, h]
  rfl

/-- C117 fails for malformed claims: the same with claims of the other formats. -/
theorem C117_malformed_claims_dropped (id : String) (j : Json) (h : readDict j = none) :
    readDetail (.obj [("type", .str "openid_credential"), ("credential_configuration_id", .str id), ("claims", j)]) =
      some { credential := .configurationId id none } := by
  have := readDetail_parts [("credential_configuration_id", .str id), ("claims", j)] none (by simp)
  simp only [opt, List.append_nil] at this
  rw [this]
  have e : readCredential [("credential_configuration_id", .str id), ("claims", j)] = some (.configurationId id ((readDict j).map .isoMdl)) := rfl
  rw [e, h]
  rfl

/-- C117 fails for details that name both: a detail that carries a configuration and a format is read as one for the configuration, and its format, whatever it is,
is dropped. -/
theorem C117_format_beside_configuration_dropped (id : String) (f : Format) :
    ∃ c, readDetail (.obj (("type", .str "openid_credential") :: ("credential_configuration_id", .str id) :: writeFormat f)) =
      some { credential := .configurationId id c } := by
  have := readDetail_parts (("credential_configuration_id", .str id) :: writeFormat f) none (by
    intro p hp
    rcases List.mem_cons.1 hp with rfl | hp
    · simp
    · exact writeCredential_keys (.format f) p hp)
  simp only [opt, List.append_nil] at this
  rw [this]
  have e : single (("credential_configuration_id", .str id) :: writeFormat f) "credential_configuration_id" = some (some (.str id)) := by
    refine single_head ?_
    rcases f with d | d | d | ⟨t, _ | c⟩ | ⟨t, _ | c⟩ <;> simp [writeFormat, opt]
  simp only [readCredential, e]
  exact ⟨_, rfl⟩

/-! ### Examples -/

example : AuthorizationDetail.Sound { credential := .configurationId "EmployeeID_JWT" (some (.w3c { credentialSubject := some [("address", address)] })) } := by
  simp [AuthorizationDetail.Sound, ProfileClaims.Sound, CredentialDefinition.Sound, SoundClaims, SoundDict, address, Claim.Sound, SoundMembers, Reserved]

example : AuthorizationDetail.Sound { credential := .format (.isoMdl "org.iso.18013.5.1.mDL" (some [("address", address)])), locations := some ["https://issuer.example"] } := by
  simp [AuthorizationDetail.Sound, Format.Sound, SoundClaims, SoundDict, address, Claim.Sound, SoundMembers, Reserved]

/-- A wallet that writes `true` for a claim where an object is wanted. -/
example : readDefinition (.obj [("credentialSubject", .obj [("email", .bool true)])]) = none := rfl

example : readDict (.arr [.str "email"]) = none := rfl

end Verif.Wire
