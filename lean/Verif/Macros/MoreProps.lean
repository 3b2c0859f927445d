import Verif.Macros.Props
/-!
# What token and credential requests made with a macro say, and what the macros lose (C131)
-/
namespace Verif.Macros
open Verif

/-! ### `token_request!` -/

section
variable (env : String → Rust)

/-- The credential that a token is asked for, where no claims can be named. Specification; models no code. -/
def IsTokenDetail (v : Value) (d : Wire.AuthorizationDetail) : Prop :=
  ∃ m, v = .obj m ∧ TypeFits m ∧ d.locations = none ∧
    ((∃ w id, Field m "credential_configuration_id" w ∧ IsString env w id ∧ Lacks m "credential_definition" ∧ d.credential = .configurationId id none) ∨
      Lacks m "credential_configuration_id" ∧ Field m "format" (.str "jwt_vc_json") ∧
        ∃ n w ts s, Field m "credential_definition" (.obj n) ∧ Field n "type" w ∧ IsTexts env w ts ∧
          MaybeAt (fun v c => v = .obj [] ∧ c = []) n "credentialSubject" s ∧
          d.credential = .format (.jwtVcJson { context := none, type_ := some ts, credentialSubject := s }))

/-- The members that go with a grant. Specification; models no code. -/
inductive GrantSays (m : Fields) : Issuer.TokenGrantType → List String → Prop
  | pre {c : String} {t : Option String} : Field m "grant_type" (.str "urn:ietf:params:oauth:grant-type:pre-authorized_code") →
      TextAt env m "pre-authorized_code" c → MaybeAt (IsText env) m "tx_code" t → GrantSays m (.preAuthorizedCode c t) ["pre-authorized_code", "tx_code"]
  | code {c v : String} {u : Option String} : Field m "grant_type" (.str "authorization_code") → TextAt env m "code" c →
      MaybeAt (IsText env) m "redirect_uri" u → TextAt env m "code_verifier" v →
      GrantSays m (.authorizationCode c u (some v)) ["code", "redirect_uri", "code_verifier"]

/-- What a token request made from these members says. Specification; models no code. -/
structure TokenSays (m : Fields) (r : Wire.TokenRequest) : Prop where
  issuer : TextAt env m "credential_issuer" r.credentialIssuer
  client : MaybeAt (IsText env) m "client_id" r.clientId
  grant : ∃ ks, GrantSays env m r.grantType ks ∧ Only m (["credential_issuer", "client_id", "grant_type", "authorization_details"] ++ ks)
  details : MaybeAt (fun v as => ∃ l, v = .arr l ∧ Each (IsTokenDetail env) l as ∧ l.length ≤ 1) m "authorization_details" r.authorizationDetails
  assertion : r.clientAssertion = none

/-- The credential that is asked for, with the names of the members that say so. Specification; models no code. -/
inductive AskedSays (m : Fields) : Asked → List String → Prop
  | identifier {s : String} : TextAt env m "credential_identifier" s → AskedSays m (.identifier s) ["credential_identifier"]
  | format {n : Fields} {w : Value} {ts : List String} : Lacks m "credential_identifier" → Field m "format" (.str "jwt_vc_json") →
      Field m "credential_definition" (.obj n) → Field n "type" w → IsTexts env w ts →
      AskedSays m (.format (.jwtVcJson { context := none, type_ := some ts, credentialSubject := none })) ["credential_identifier", "format", "credential_definition"]

/-- What a credential request made from these members says. Specification; models no code. -/
structure CredentialSays (m : Fields) (r : CredentialRequest) : Prop where
  issuer : TextAt env m "credential_issuer" r.credentialIssuer
  token : TextAt env m "access_token" r.accessToken
  asked : ∃ ks, AskedSays env m r.credential ks ∧ Only m (["credential_issuer", "access_token", "proof", "credential_response_encryption"] ++ ks)
  proof : MaybeAt (fun v p => ∃ n, v = .obj n ∧ Field n "proof_type" (.str "jwt") ∧ TextAt env n "jwt" p) m "proof" r.proof
  encryption : MaybeAt (fun v x => ∃ e, v = .expr e ∧ env e = .encryption x) m "credential_response_encryption" r.encryption

end

section
variable {env : String → Rust} {m : Fields}

theorem Field.unique {k : String} {v w : Value} (h : Field m k v) (h' : Field m k w) : v = w := by
  have := get_some.2 h
  rw [get_some.2 h'] at this
  exact (Option.some.inj this).symm

theorem tokenSubject_iff {k : String} {o : Option (Dict Wire.Claim)} :
    tokenSubject (get k m) = some o ↔ MaybeAt (fun v c => v = .obj [] ∧ c = []) m k o := by
  cases hg : get k m with
  | none =>
    cases o with
    | none => exact ⟨fun _ => get_none.1 hg, fun _ => rfl⟩
    | some c =>
      simp only [tokenSubject, Option.some.injEq, reduceCtorEq, false_iff]
      rintro ⟨v, hv, _⟩
      rw [get_some.2 hv] at hg; cases hg
  | some v =>
    cases o with
    | none =>
      constructor
      · intro h; unfold tokenSubject at h; split at h <;> simp at h
        rename_i he; cases he
      · intro h; rw [get_none.2 h] at hg; cases hg
    | some c =>
      constructor
      · intro h
        unfold tokenSubject at h; split at h
        · rename_i he; cases he
        · rename_i he; cases he; cases h; exact ⟨_, get_some.1 hg, rfl, rfl⟩
        · cases h
      · rintro ⟨w, hw, rfl, rfl⟩
        rw [get_some.2 hw] at hg; cases hg; rfl

theorem tokenDefinition_iff {v : Value} {d : Wire.CredentialDefinition} : tokenDefinition env v = some d ↔
    ∃ n w ts s, v = .obj n ∧ Field n "type" w ∧ IsTexts env w ts ∧ MaybeAt (fun v c => v = .obj [] ∧ c = []) n "credentialSubject" s ∧
      d = { context := none, type_ := some ts, credentialSubject := s } := by
  constructor
  · intro h
    cases v with
    | obj n =>
      simp only [tokenDefinition, Option.bind_eq_bind, Option.bind_eq_some_iff, Option.pure_def, Option.some.injEq] at h
      obtain ⟨w, hw, t, ht, s, hs, rfl⟩ := h
      exact ⟨n, w, t, s, rfl, get_some.1 hw, strings_iff.1 ht, tokenSubject_iff.1 hs, rfl⟩
    | _ => cases h
  · rintro ⟨n, w, ts, s, rfl, hw, ht, hs, rfl⟩
    simp only [tokenDefinition, get_some.2 hw, strings_iff.2 ht, tokenSubject_iff.2 hs, Option.bind_eq_bind, Option.bind_some]
    rfl

theorem tokenDetail_iff {v : Value} {d : Wire.AuthorizationDetail} : tokenDetail env v = some d ↔ IsTokenDetail env v d := by
  constructor
  · intro h
    cases v with
    | obj n =>
      simp only [tokenDetail, Option.bind_eq_bind, Option.bind_eq_some_iff, Option.pure_def, Option.some.injEq] at h
      obtain ⟨_, ht, c, hc, rfl⟩ := h
      refine ⟨n, rfl, typed_iff.1 ht, rfl, ?_⟩
      unfold tokenConfiguration at hc
      cases hg : get "credential_configuration_id" n with
      | some w =>
        simp only [hg, Option.bind_eq_bind, Option.bind_eq_some_iff, Option.pure_def] at hc
        obtain ⟨id, hid, hc⟩ := hc
        cases hd : get "credential_definition" n with
        | none => rw [hd] at hc; cases hc; exact .inl ⟨w, id, get_some.1 hg, string_iff.1 hid, get_none.1 hd, rfl⟩
        | some x => rw [hd] at hc; cases hc
      | none =>
        simp only [hg, Option.bind_eq_bind, Option.bind_eq_some_iff, Option.pure_def, Option.some.injEq] at hc
        obtain ⟨_, hf, w, hw, x, hx, rfl⟩ := hc
        obtain ⟨n', w', ts, s, rfl, h1, h2, h3, rfl⟩ := tokenDefinition_iff.1 hx
        exact .inr ⟨get_none.1 hg, isJwtVcJson_iff.1 hf, n', w', ts, s, get_some.1 hw, h1, h2, h3, rfl⟩
    | _ => cases h
  · rintro ⟨n, rfl, ht, hl, h⟩
    obtain ⟨c, l⟩ := d
    cases hl
    have ht := (typed_iff (u := ())).2 ht
    rcases h with ⟨w, id, hw, hid, hd, rfl⟩ | ⟨hi, hf, n', w, ts, s, hn, hw, h1, h2, rfl⟩
    · simp only [tokenDetail, ht, tokenConfiguration, get_some.2 hw, string_iff.2 hid, get_none.2 hd, Option.bind_eq_bind, Option.bind_some, Option.pure_def]
    · simp only [tokenDetail, ht, tokenConfiguration, get_none.2 hi, (isJwtVcJson_iff (u := ())).2 hf, get_some.2 hn,
        tokenDefinition_iff.2 ⟨n', w, ts, s, rfl, hw, h1, h2, rfl⟩, Option.bind_eq_bind, Option.bind_some, Option.pure_def]

theorem tokenGrant_iff {g : Issuer.TokenGrantType} {ks : List String} : tokenGrant env m = some (g, ks) ↔ GrantSays env m g ks := by
  constructor
  · intro h
    unfold tokenGrant at h
    split at h
    · rename_i s hg
      by_cases h1 : s = "urn:ietf:params:oauth:grant-type:pre-authorized_code"
      · subst h1
        simp only [if_true, Option.bind_eq_bind, Option.bind_eq_some_iff, Option.pure_def, Option.some.injEq, Prod.mk.injEq, required_iff, optional_iff] at h
        obtain ⟨c, hc, t, ht, rfl, rfl⟩ := h
        exact .pre (get_some.1 hg) hc ht
      · by_cases h2 : s = "authorization_code"
        · subst h2
          rw [if_neg h1] at h
          simp only [if_true, Option.bind_eq_bind, Option.bind_eq_some_iff, Option.pure_def, Option.some.injEq, Prod.mk.injEq, required_iff, optional_iff] at h
          obtain ⟨c, hc, u, hu, v, hv, rfl, rfl⟩ := h
          exact .code (get_some.1 hg) hc hu hv
        · rw [if_neg h1, if_neg h2] at h; cases h
    · cases h
  · intro h
    cases h with
    | pre hg hc ht =>
      simp only [tokenGrant, get_some.2 hg, required_iff.2 hc, optional_iff.2 ht, if_true, Option.bind_eq_bind, Option.bind_some, Option.pure_def]
    | code hg hc hu hv =>
      have hne : ¬ "authorization_code" = "urn:ietf:params:oauth:grant-type:pre-authorized_code" := by decide
      simp only [tokenGrant, get_some.2 hg, if_neg hne, required_iff.2 hc, optional_iff.2 hu, required_iff.2 hv, if_true, Option.bind_eq_bind, Option.bind_some,
        Option.pure_def]

/-- **C131** `token_request!` compiles just if what is written can be said by a token request, and then this is the one it makes. -/
theorem C131_token_request_partial {r : Wire.TokenRequest} : tokenRequest env m = some r ↔ TokenSays env m r := by
  simp only [tokenRequest, Option.bind_eq_bind, Option.bind_eq_some_iff, Option.pure_def, Option.some.injEq, required_iff, optional_iff, Prod.exists, tokenGrant_iff,
    severalAt_iff (F := tokenDetails env) (fun v a => tokenDetail_iff) rfl (fun _ => rfl) (fun v h => by cases v <;> first | rfl | exact absurd rfl (h _)), consumed_iff]
  constructor
  · rintro ⟨_, h1, _, h2, g, ks, h3, _, h4, _, h5, rfl⟩
    exact ⟨h1, h2, ⟨ks, h3, h5⟩, h4, rfl⟩
  · obtain ⟨i, c, g, d, a⟩ := r
    rintro ⟨h1, h2, ⟨ks, h3, h5⟩, h4, h6⟩
    cases h6
    exact ⟨_, h1, _, h2, g, ks, h3, _, h4, (), h5, rfl⟩

theorem credentialIssuance_iff {a : Asked} {ks : List String} : credentialIssuance env m = some (a, ks) ↔ AskedSays env m a ks := by
  constructor
  · intro h
    unfold credentialIssuance at h
    cases hg : get "credential_identifier" m with
    | some v =>
      simp only [hg, Option.bind_eq_bind, Option.bind_eq_some_iff, Option.pure_def, Option.some.injEq, Prod.mk.injEq] at h
      obtain ⟨s, hs, rfl, rfl⟩ := h
      exact .identifier ⟨v, get_some.1 hg, intoString_iff.1 hs⟩
    | none =>
      simp only [hg, Option.bind_eq_bind, Option.bind_eq_some_iff, Option.pure_def, Option.some.injEq, Prod.mk.injEq] at h
      obtain ⟨_, hf, v, hv, d, hd, rfl, rfl⟩ := h
      cases v with
      | obj n =>
        simp only [credentialDefinition, Option.bind_eq_bind, Option.bind_eq_some_iff, Option.pure_def, Option.some.injEq] at hd
        obtain ⟨w, hw, t, ht, rfl⟩ := hd
        exact .format (get_none.1 hg) (isJwtVcJson_iff.1 hf) (get_some.1 hv) (get_some.1 hw) (strings_iff.1 ht)
      | _ => cases hd
  · intro h
    cases h with
    | identifier h =>
      obtain ⟨v, hv, hs⟩ := h
      simp only [credentialIssuance, get_some.2 hv, intoString_iff.2 hs, Option.bind_eq_bind, Option.bind_some, Option.pure_def]
    | format hi hf hn hw ht =>
      simp only [credentialIssuance, get_none.2 hi, (isJwtVcJson_iff (u := ())).2 hf, get_some.2 hn, credentialDefinition, get_some.2 hw, strings_iff.2 ht,
        Option.bind_eq_bind, Option.bind_some, Option.pure_def]

theorem proof_iff {o : Option String} : proof env (get "proof" m) = some o ↔
    MaybeAt (fun v p => ∃ n, v = .obj n ∧ Field n "proof_type" (.str "jwt") ∧ TextAt env n "jwt" p) m "proof" o := by
  constructor
  · intro h
    cases hg : get "proof" m with
    | none => rw [hg] at h; cases h; exact get_none.1 hg
    | some v =>
      rw [hg] at h
      cases v with
      | obj n =>
        simp only [proof] at h
        split at h
        · rename_i s hs
          by_cases hj : s = "jwt"
          · subst hj
            simp only [if_true, Option.map_eq_some_iff] at h
            obtain ⟨p, hp, rfl⟩ := h
            exact ⟨_, get_some.1 hg, n, rfl, get_some.1 hs, required_iff.1 hp⟩
          · rw [if_neg hj] at h; cases h
        · cases h
      | _ => cases h
  · intro h
    cases o with
    | none => rw [get_none.2 h]; rfl
    | some p =>
      obtain ⟨v, hv, n, rfl, ht, hp⟩ := h
      simp only [get_some.2 hv, proof, get_some.2 ht, if_true, required_iff.2 hp, Option.map_some]

theorem encryption_iff {o : Option String} : encryption env (get "credential_response_encryption" m) = some o ↔
    MaybeAt (fun v x => ∃ e, v = .expr e ∧ env e = .encryption x) m "credential_response_encryption" o := by
  constructor
  · intro h
    cases hg : get "credential_response_encryption" m with
    | none => rw [hg] at h; cases h; exact get_none.1 hg
    | some v =>
      rw [hg] at h
      cases v with
      | expr e =>
        simp only [encryption] at h
        split at h
        · rename_i x hx; cases h; exact ⟨_, get_some.1 hg, e, rfl, hx⟩
        · cases h
      | _ => cases h
  · intro h
    cases o with
    | none => rw [get_none.2 h]; rfl
    | some p =>
      obtain ⟨v, hv, e, rfl, he⟩ := h
      simp only [get_some.2 hv, encryption, he]

/-- **C131** `credential_request!` compiles just if what is written can be said by a credential request, and then this is the one it makes. -/
theorem C131_credential_request_partial {r : CredentialRequest} : credentialRequest env m = some r ↔ CredentialSays env m r := by
  simp only [credentialRequest, Option.bind_eq_bind, Option.bind_eq_some_iff, Option.pure_def, Option.some.injEq, required_iff, Prod.exists, credentialIssuance_iff,
    proof_iff, encryption_iff, consumed_iff]
  constructor
  · rintro ⟨_, h1, _, h2, a, ks, h3, _, h4, _, h5, _, h6, rfl⟩
    exact ⟨h1, h2, ⟨ks, h3, h6⟩, h4, h5⟩
  · rintro ⟨h1, h2, ⟨ks, h3, h6⟩, h4, h5⟩
    exact ⟨_, h1, _, h2, _, ks, h3, _, h4, _, h5, (), h6, rfl⟩

end

/-! ### What the macros cannot say, and what they lose -/

section
variable {env : String → Rust} {m : Fields}

theorem each_length {α : Type} {R : Value → α → Prop} {l : List Value} {as : List α} (h : Each R l as) : as.length = l.length := by
  induction h with
  | nil => rfl
  | cons _ _ ih => simp [ih]

/-- **C131** No request for two authorizations at once can be written. -/
theorem C131_two_details_never {l : List Value} (hf : Field m "authorization_details" (.arr l)) (hl : 2 ≤ l.length) :
    authorizationRequest env m = none ∧ tokenRequest env m = none := by
  constructor
  · cases h : authorizationRequest env m with
    | none => rfl
    | some r =>
      have h := (C131_authorization_request_partial h).details
      cases hd : r.authorizationDetails with
      | none => rw [hd] at h; exact absurd hf.mem (h _)
      | some as =>
        rw [hd] at h
        obtain ⟨v, hv, l', rfl, _, hn⟩ := h
        cases hf.unique hv
        omega
  · cases h : tokenRequest env m with
    | none => rfl
    | some r =>
      have h := (C131_token_request_partial.1 h).details
      cases hd : r.authorizationDetails with
      | none => rw [hd] at h; exact absurd hf.mem (h _)
      | some as =>
        rw [hd] at h
        obtain ⟨v, hv, l', rfl, _, hn⟩ := h
        cases hf.unique hv
        omega

/-- **C131** No offer of two kinds of grant can be written. -/
theorem C131_two_grants_never {l : List Value} (hf : Field m "grant_types" (.arr l)) (hl : 2 ≤ l.length) : createOffer env m = none := by
  cases h : createOffer env m with
  | none => rfl
  | some r =>
    have h := (C131_offer_request_partial.1 h).grants
    cases hd : r.grantTypes with
    | none => rw [hd] at h; exact absurd hf.mem (h _)
    | some as =>
      rw [hd] at h
      obtain ⟨v, hv, l', rfl, _, hn⟩ := h
      cases hf.unique hv
      omega

theorem each_locations {l : List Value} {ds : List Wire.AuthorizationDetail} (he : Each (IsDetail env) l ds) : ∀ d ∈ ds, d.locations = none := by
  induction he with
  | nil => intro d hd; cases hd
  | cons h1 _ ih =>
    intro d hd
    rcases List.mem_cons.1 hd with rfl | hd
    · obtain ⟨_, _, _, hl, _⟩ := h1; exact hl
    · exact ih d hd

/-- **C131** Where the credential is to be got is written and is lost: no request names a location. -/
theorem C131_locations_lost {r : Wire.RequestObject} (h : authorizationRequest env m = some r) {ds : List Wire.AuthorizationDetail}
    (hd : r.authorizationDetails = some ds) : ∀ d ∈ ds, d.locations = none := by
  have h := (C131_authorization_request_partial h).details
  rw [hd] at h
  obtain ⟨_, _, _, _, he, _⟩ := h
  exact each_locations he

/-- **C131** What is said about a claim is taken for claims inside it: who writes that a claim is mandatory asks for a claim named `mandatory`. -/
theorem C131_mandatory_misread {r : Wire.RequestObject} (h : authorizationRequest env m = some r) {dm n cm : Fields} {k : String} {b : Value}
    (hb : ∀ x, b ≠ .obj x) (h1 : Field m "authorization_details" (.arr [.obj dm])) (h2 : Field dm "credential_definition" (.obj n))
    (h3 : Field n "credentialSubject" (.obj cm)) (h4 : Field cm k (.obj [("mandatory", b)])) :
    ∃ (d : Wire.AuthorizationDetail) (x : Wire.CredentialDefinition) (cs s : Dict Wire.Claim), r.authorizationDetails = some [d] ∧
      ((∃ id, d.credential = .configurationId id (some (.w3c x))) ∨ d.credential = .format (.jwtVcJson x)) ∧
      x.credentialSubject = some cs ∧ cs.get? k = some (.set s) ∧ s.get? "mandatory" = some (.entry {}) := by
  have inner : ∀ {q : Bool} {x : Wire.CredentialDefinition}, IsDefinition env q (.obj n) x →
      ∃ cs s : Dict Wire.Claim, x.credentialSubject = some cs ∧ cs.get? k = some (.set s) ∧ s.get? "mandatory" = some (.entry {}) := by
    rintro q x ⟨n', hn, _, _, hs, _⟩
    cases hn
    cases hx : x.credentialSubject with
    | none => rw [hx] at hs; exact absurd h3.mem (hs _)
    | some cs =>
      rw [hx] at hs
      obtain ⟨v, hv, cm', rfl, hk, hc⟩ := hs
      cases h3.unique hv
      obtain ⟨c, hc'⟩ := (hk k).2 ⟨_, h4⟩
      cases hc k c _ hc' h4 with
      | entry he => exact absurd (he _ rfl) (by simp)
      | @set _ s _ hk2 hc2 =>
        have hf : Field [("mandatory", b)] "mandatory" b := ⟨[], [], rfl, by simp⟩
        obtain ⟨e, he⟩ := (hk2 "mandatory").2 ⟨_, hf⟩
        refine ⟨cs, s, rfl, hc', ?_⟩
        rw [he]
        cases hc2 _ _ _ he hf with
        | entry => rfl
        | set => exact absurd rfl (hb _)
  have h := (C131_authorization_request_partial h).details
  cases hd : r.authorizationDetails with
  | none => rw [hd] at h; exact absurd h1.mem (h _)
  | some ds =>
    rw [hd] at h
    obtain ⟨v, hv, l, rfl, he, _⟩ := h
    cases h1.unique hv
    cases he with
    | @cons _ d _ as hi hr =>
      cases hr
      obtain ⟨dm', hdm, _, _, hc⟩ := hi
      cases hdm
      rcases hc with ⟨w, id, cl, _, _, hcr, hcl⟩ | ⟨_, _, w, x, hw, hx, hcr⟩
      · cases cl with
        | none => exact absurd h2.mem (hcl _)
        | some c =>
          obtain ⟨w', hw', x, rfl, hx⟩ := hcl
          cases h2.unique hw'
          obtain ⟨cs, s, hs⟩ := inner hx
          exact ⟨d, x, cs, s, rfl, .inl ⟨id, hcr⟩, hs⟩
      · cases h2.unique hw
        obtain ⟨cs, s, hs⟩ := inner hx
        exact ⟨d, x, cs, s, rfl, .inr hcr, hs⟩

/-- **C131** No claims are ever asked for in a credential request by format, whatever is written. -/
theorem C131_claims_lost {r : CredentialRequest} (h : credentialRequest env m = some r) {d : Wire.CredentialDefinition}
    (hd : r.credential = .format (.jwtVcJson d)) : d.credentialSubject = none := by
  obtain ⟨ks, h, _⟩ := (C131_credential_request_partial.1 h).asked
  rw [hd] at h
  cases h; rfl

/-- **C131** A response type written as text is `code`, whatever the text. -/
theorem C131_response_type_lost {r : Wire.RequestObject} (h : authorizationRequest env m = some r) {s : String} (hf : Field m "response_type" (.str s)) :
    r.responseType = .code := by
  obtain ⟨v, hv, hr⟩ := (C131_authorization_request_partial h).response
  cases hf.unique hv
  generalize r.responseType = t at hr
  cases hr; rfl

/-- **C131** No token request for a code can be written without a verifier, though one without can be sent. -/
theorem C131_verifier_needed (hf : Field m "grant_type" (.str "authorization_code")) (hl : Lacks m "code_verifier") : tokenRequest env m = none := by
  cases h : tokenRequest env m with
  | none => rfl
  | some r =>
    obtain ⟨ks, h, _⟩ := (C131_token_request_partial.1 h).grant
    generalize r.grantType = g at h
    cases h with
    | pre hg => exact absurd (hf.unique hg) (by simp)
    | code _ _ _ hv => obtain ⟨v, hv, _⟩ := hv; exact absurd hv.mem (hl _)

end

end Verif.Macros
