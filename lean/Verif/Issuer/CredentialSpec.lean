import Verif.Issuer.CredentialLemmas
import Verif.Issuer.Frozen
/-!
# Vocabulary and helper lemmas of the credential endpoint properties
-/
namespace Verif.Issuer
open Prog

/-- `jwt` is a correctly signed `openid4vci-proof+jwt` over `nonce`, by a key of `did`. -/
def ValidProof (P : Provider) (nonce jwt did : String) : Prop :=
  ∃ p kid, P.decodeProof jwt = some p ∧ p.typIsProof = true ∧ p.nonce = some nonce ∧ p.kid = some kid ∧
    did = beforeHash kid

/-- `jwt` is one of the proofs of a request. -/
inductive CredentialRequest.HasProof (req : CredentialRequest) : String → Prop
  | single (jwt : String) : req.proof = some (.single jwt) → req.HasProof jwt
  | multiple (jwts : List String) (jwt : String) : req.proof = some (.multiple jwts) → jwt ∈ jwts → req.HasProof jwt

/-- What a credential says: the DID of its holder, if any, and the claims about the subject. -/
inductive IssuedCredential.Says : IssuedCredential → Option String → Dict Json → Prop
  | vc (signer : String) (vc : Vc) (at_ : Int) (did : Option String) (claims : Dict Json) :
      vc.subject = .one { id := did, claims } → Says (.jwtVc signer vc at_) did claims
  | mdoc (signer : String) (claims : Dict Json) : Says (.mdoc signer claims) none claims

/-- `auth` is an authorization of the token for the credential the request asks for, by identifier or by format and type. -/
inductive Token.Authorizes (t : Token) (iss : Issuer) : CredentialIssuance → Authorized → Prop
  | identifier (id : String) (auth : Authorized) : (id, auth) ∈ t.credentials → t.Authorizes iss (.identifier id) auth
  | format (f : Format) (id : String) (auth : Authorized) (cfg : CredentialConfiguration) : (id, auth) ∈ t.credentials →
      (auth.configId, cfg) ∈ iss.configs → SameCredential (.format cfg.format) (.format f) →
      t.Authorizes iss (.format f) auth

/-- A credential request with token `tok` is being served for session `t` of subject state `s`. -/
def Session (w : World State) (tok : String) (s : State) (t : Token) : Prop :=
  w.store tok = some s ∧ s.stage = .validated t

/-! ### Helpers -/

theorem Credential.checkProof_ok {P : Provider} {nonce jwt did : String} :
    Credential.checkProof P nonce jwt = .ok did ↔ ValidProof P nonce jwt did := by
  unfold Credential.checkProof ValidProof
  cases hd : P.decodeProof jwt with
  | none => simp
  | some p =>
    have hp : (∃ p_1 kid, some p = some p_1 ∧ p_1.typIsProof = true ∧ p_1.nonce = some nonce ∧ p_1.kid = some kid ∧
        did = beforeHash kid) ↔ p.typIsProof = true ∧ p.nonce = some nonce ∧ ∃ kid, p.kid = some kid ∧
        did = beforeHash kid := by
      constructor
      · rintro ⟨_, kid, h, h1, h2, h3, h4⟩; cases h; exact ⟨h1, h2, kid, h3, h4⟩
      · rintro ⟨h1, h2, kid, h3, h4⟩; exact ⟨p, kid, rfl, h1, h2, h3, h4⟩
    rw [hp]
    by_cases h1 : p.typIsProof = true
    · by_cases h2 : p.nonce = some nonce
      · cases hk : p.kid with
        | none => simp [h1, h2, hk]
        | some kid =>
          simp only [h1, h2, hk, Bool.not_true, Bool.false_eq_true, ↓reduceIte, bne_self_eq_false, Except.ok.injEq, true_and,
            Option.some.injEq]
          constructor
          · rintro rfl; exact ⟨kid, rfl, rfl⟩
          · rintro ⟨_, rfl, h⟩; exact h.symm
      · simp [h1, h2]
    · simp [h1]

theorem Credential.checkProofs_ok {P : Provider} {nonce : String} {l : List String} {d did : String} :
    Credential.checkProofs P nonce l d = .ok did ↔
      (∀ j ∈ l, ∃ x, ValidProof P nonce j x) ∧
      (match l.getLast? with | none => did = d | some j => ValidProof P nonce j did) := by
  induction l generalizing d with
  | nil => simp [Credential.checkProofs, eq_comm]
  | cons j js ih =>
    simp only [Credential.checkProofs]
    cases hj : Credential.checkProof P nonce j with
    | error h =>
      have : ¬ ∃ x, ValidProof P nonce j x := by
        rintro ⟨x, hx⟩
        rw [Credential.checkProof_ok.2 hx] at hj
        cases hj
      simp only [reduceCtorEq, List.mem_cons, false_iff, not_and]
      intro h
      exact absurd (h j (.inl rfl)) this
    | ok x =>
      have hx := Credential.checkProof_ok.1 hj
      simp only [ih]
      cases js with
      | nil =>
        simp only [List.not_mem_nil, List.getLast?_nil, List.mem_singleton, List.getLast?_singleton]
        constructor
        · rintro ⟨_, rfl⟩
          exact ⟨fun j hj => ⟨did, hj ▸ hx⟩, hx⟩
        · rintro ⟨_, h⟩
          have := Credential.checkProof_ok.2 h
          rw [hj] at this; cases this
          exact ⟨by simp, rfl⟩
      | cons j' js' =>
        rw [List.getLast?_cons_cons]
        simp only [List.mem_cons, List.getLast?_cons, forall_eq_or_imp]
        constructor
        · rintro ⟨h1, h2⟩; exact ⟨⟨⟨x, hx⟩, h1⟩, h2⟩
        · rintro ⟨⟨_, h1⟩, h2⟩; exact ⟨h1, h2⟩

theorem CredentialRequest.hasProof_iff {req : CredentialRequest} {proof : Proof} (h : req.proof = some proof) (j : String) :
    req.HasProof j ↔ j ∈ Credential.proofJwts proof := by
  constructor
  · rintro (⟨_, h1⟩ | ⟨js, _, h1, h2⟩)
    · rw [h] at h1; cases h1; simp [Credential.proofJwts]
    · rw [h] at h1; cases h1; simpa [Credential.proofJwts]
  · intro hj
    cases proof with
    | single j' => simp [Credential.proofJwts] at hj; subst hj; exact .single _ h
    | multiple js => exact .multiple js j h hj

theorem Credential.authorized_ok {P : Provider} {iss : Issuer} {s : State} {t : Token} {req : CredentialRequest}
    {auth : Authorized} (ht : s.stage = .validated t) (h : Credential.authorized P iss s req = .ok auth) :
    t.Authorizes iss req.credential auth := by
  unfold Credential.authorized at h
  rw [ht] at h
  simp only at h
  split at h
  · rename_i id hc
    rw [hc]
    exact .identifier id auth (Dict.mem_of_get? (orErr_ok.1 h))
  · rename_i f hc
    rw [hc]
    simp only [Except.bind_ok, orErr_ok, Issuer.configurationId, Option.map_eq_some_iff] at h
    obtain ⟨cid, ⟨⟨cid', cfg⟩, h1, rfl⟩, h2⟩ := h
    have h3 := List.find?_some h2
    have h4 := List.mem_of_find?_eq_some h2
    have h5 := List.find?_some h1
    have h6 := List.mem_of_find?_eq_some h1
    obtain ⟨⟨id, a⟩, h7, h8⟩ := List.mem_map.1 h4
    cases h8
    refine .format f id a cfg ((P.iter_perm t.credentials).mem_iff.1 h7) ?_ ?_
    · have : a.configId = cid' := by simpa using h3
      rw [this]; exact h6
    · exact (sameCredential_iff (.format cfg.format) (.format f)).1 h5

theorem Credential.mem_narrow {c : Dict Json} {o : Option (List String)} {k : String} {v : Json} :
    (k, v) ∈ Credential.narrow c o ↔ (k, v) ∈ c ∧ ∀ ids, o = some ids → k ∈ ids := by
  cases o <;> simp [Credential.narrow, Dict.retainKeys]

/-- What the built credential looks like. -/
theorem Credential.w3cVc_ok {P : Provider} {ctx : Credential.Ctx} {did : String} {d : CredentialDefinition} {ds : Dataset}
    {vc : Vc} (h : Credential.w3cVc P ctx did d ds = .ok vc) :
    ∃ types ty subj status, d.type_ = some types ∧ types[1]? = some ty ∧ ctx.state.subjectId = some subj ∧
      P.status subj "credential_identifier" = some status ∧
      vc.context = [baseContext, .string (ctx.issuer.credentialIssuer ++ "/credentials/v1")] ∧
      vc.id = some (ctx.issuer.credentialIssuer ++ "/credentials/" ++ ty) ∧
      vc.type_ = .many ["VerifiableCredential", ty] ∧ vc.issuer = .string ctx.issuer.credentialIssuer ∧
      vc.subject = .one { id := some did, claims := ds.claims } ∧ vc.status = status ∧ vc.proof = none ∧
      vc.validFrom = none ∧ vc.validUntil = none := by
  simp only [Credential.w3cVc, Except.bind_ok, orErr_ok] at h
  obtain ⟨types, h1, ty, h2, subj, h3, status, h4, h⟩ := h
  split at h
  · rename_i vc' hb
    cases h
    unfold Vc.build at hb
    repeat' split at hb
    all_goals first | cases hb | skip
    all_goals exact ⟨types, ty, subj, status, h1, h2, h3, h4, rfl, rfl, rfl, rfl, rfl, rfl, rfl, rfl, rfl⟩
  · cases h

theorem Credential.signed_says {P : Provider} {ctx : Credential.Ctx} {did : String} {req : CredentialRequest} {ds : Dataset}
    {now : Int} {c : IssuedCredential} (h : Credential.signed P ctx did req ds now = .ok c) {d : Option String}
    {claims : Dict Json} (hs : c.Says d claims) : claims = ds.claims ∧ (d = some did ∨ d = none) := by
  simp only [Credential.signed, Except.bind_ok, orErr_ok] at h
  obtain ⟨k, _, h⟩ := h
  split at h
  · simp only [Except.bind_ok, require_ok, pure, Except.pure, Except.ok.injEq] at h
    obtain ⟨vc, h1, _, _, rfl⟩ := h
    obtain ⟨_, _, _, _, _, _, _, _, _, _, _, _, h2, _⟩ := Credential.w3cVc_ok h1
    cases hs with
    | vc _ _ _ _ _ h3 => rw [h2] at h3; cases h3; exact ⟨rfl, .inl rfl⟩
  · simp only [Except.bind_ok, require_ok, pure, Except.pure, Except.ok.injEq] at h
    obtain ⟨_, _, rfl⟩ := h
    cases hs; exact ⟨rfl, .inr rfl⟩
  · cases h
  · cases h
  · cases h

end Verif.Issuer
