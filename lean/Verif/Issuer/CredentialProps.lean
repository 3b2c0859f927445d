import Verif.Issuer.CredentialSpec
import Verif.Issuer.Demo
/-!
# Properties of the credential endpoint: C22, C23, C26, C27
-/
namespace Verif.Issuer
open Prog

/-- **C22**. If the credential endpoint answers with a credential or a transaction id, the access token names a stored, unexpired
validated token whose nonce has not expired. -/
theorem C22_live_token_and_nonce {P : Provider} {req : CredentialRequest} {e : Env} {w w' : World State}
    {resp : CredentialResponse} (h : (credential P req).run e w = (.ok resp, w')) :
    ∃ s t, Session w req.accessToken s t ∧ Live s w.now ∧ w.now < t.cNonceExpiresAt + sec := by
  obtain ⟨s, ctx, t, did, ds, _, h1, _, h2, h3, h4, _⟩ := credential_ok_iff.1 h
  exact ⟨s, t, ⟨h1, h2⟩, h3, h4⟩

/-- **C22**, deferred endpoint: the caller's own access token must be live too. -/
theorem C22_deferred_live_token_and_nonce {P : Provider} {req : DeferredRequest} {e : Env} {w w' : World State}
    {resp : CredentialResponse} (h : (deferred P req).run e w = (.ok resp, w')) :
    ∃ s t, Session w req.accessToken s t ∧ Live s w.now ∧ w.now < t.cNonceExpiresAt + sec := by
  obtain ⟨st, txn, saved, _, _, hst, _, _, hrun, _⟩ := deferred_ok_iff.1 h
  obtain ⟨s, t, ⟨h1, h2⟩, h3, h4⟩ := C22_live_token_and_nonce hrun
  refine ⟨s, t, ⟨?_, h2⟩, h3, h4⟩
  by_cases hk : req.accessToken = req.transactionId
  · simp only [hk, upd_same] at h1; cases h1
  · simpa only [upd_other _ _ hk] using h1

example : Demo.isOk ((credential Demo.provider (Demo.credReq (Demo.rng 2) (Demo.rng 3))).run Demo.env Demo.validated).1 = true ∧
    (∃ s t, Session Demo.validated (Demo.rng 2) s t ∧ t.cNonce = Demo.rng 3) ∧
    Demo.isOk ((credential Demo.provider (Demo.credReq (Demo.rng 2) (Demo.rng 3))).run Demo.env
      { Demo.validated with now := 301000000000 }).1 = false :=
  ⟨by decide, ⟨_, _, ⟨rfl, rfl⟩, rfl⟩, by decide⟩

/-- **C23**, the part that holds. When the endpoint answers and the credential configuration requires proofs, a `proof` member was
given, every proof in it is a correctly signed `openid4vci-proof+jwt` over the token's current nonce, and, *if the list of proofs
is not empty*, any holder DID in the issued credential is that of a key of one of those proofs.
Missing: an empty proof list is accepted (see the negation below). -/
theorem C23_proofs_bound_to_nonce_partial {P : Provider} {req : CredentialRequest} {e : Env} {w w' : World State}
    {resp : CredentialResponse} (h : (credential P req).run e w = (.ok resp, w')) :
    ∃ s t iss auth cfg, Session w req.accessToken s t ∧ P.issuer req.credentialIssuer = some iss ∧
      t.Authorizes iss req.credential auth ∧ iss.configs.get? auth.configId = some cfg ∧
      ∀ types, cfg.proofTypes = some types →
        "jwt" ∈ types ∧ req.proof.isSome ∧ (∀ j, req.HasProof j → ∃ did, ValidProof P t.cNonce j did) ∧
        ∀ c did claims, resp.response = .credential c → c.Says (some did) claims →
          (∃ j, req.HasProof j) → ∃ j, req.HasProof j ∧ ValidProof P t.cNonce j did := by
  obtain ⟨s, ctx, t, did, ds, _, h1, hctx, h2, _, _, hp, _, hr⟩ := credential_ok_iff.1 h
  obtain ⟨_, h3, h4, h5⟩ := Credential.context_ok.1 hctx
  refine ⟨s, t, ctx.issuer, ctx.authorized, ctx.config, ⟨h1, h2⟩, h3, Credential.authorized_ok h2 h4, h5, ?_⟩
  intro types ht
  unfold ProofChecked at hp
  simp only [ht] at hp
  obtain ⟨hj, proof, hpr, hc⟩ := hp
  obtain ⟨hall, hlast⟩ := Credential.checkProofs_ok.1 hc
  refine ⟨by simpa using hj, by simp [hpr], fun j hj => hall j ((CredentialRequest.hasProof_iff hpr j).1 hj), ?_⟩
  intro c d claims hresp hsays ⟨j, hj⟩
  have hmem := (CredentialRequest.hasProof_iff hpr j).1 hj
  rcases hr with ⟨_, _, rfl, _⟩ | ⟨_, c', hc', _, _, rfl, _⟩
  · cases hresp
  · cases hresp
    rcases (Credential.signed_says hc' hsays).2 with hd | hd
    · cases hd
      cases hl : (Credential.proofJwts proof).getLast? with
      | none => rw [List.getLast?_eq_none_iff.1 hl] at hmem; cases hmem
      | some j' =>
        rw [hl] at hlast
        exact ⟨j', (CredentialRequest.hasProof_iff hpr j').2 (List.mem_of_getLast? hl), hlast⟩
    · cases hd

example : ∃ c claims, ((credential Demo.provider (Demo.credReq (Demo.rng 2) (Demo.rng 3))).run Demo.env Demo.validated).1 =
      .ok (Credential.issuedResponse c (Demo.rng 4) (Demo.rng 5) 0) ∧ c.Says (some "did:web:holder") claims ∧
      (Demo.credReq (Demo.rng 2) (Demo.rng 3)).HasProof (Demo.rng 3) ∧
      ValidProof Demo.provider (Demo.rng 3) (Demo.rng 3) "did:web:holder" ∧ Demo.employee.proofTypes = some ["jwt"] :=
  ⟨_, _, rfl, .vc _ _ _ _ _ rfl, .single _ rfl, ⟨_, _, rfl, rfl, rfl, rfl, by decide⟩, rfl⟩

/-- **C23 is false as stated**: for a configuration that requires proofs, a request whose proof list is empty is answered with a
credential, bound to no holder (the empty DID). -/
theorem C23_empty_proof_list_accepted :
    ∃ (P : Provider) (e : Env) (w : World State) (req : CredentialRequest) (resp : CredentialResponse) (c : IssuedCredential)
      (claims : Dict Json), Env.Fresh e ∧ Reachable e w ∧
      (∀ iss, P.issuer req.credentialIssuer = some iss → ∃ cfg types, iss.configs.get? "Employee" = some cfg ∧
        cfg.proofTypes = some types) ∧
      (∀ j, ¬ req.HasProof j) ∧ ((credential P req).run e w).1 = .ok resp ∧ resp.response = .credential c ∧
      (∃ s t a, Session w req.accessToken s t ∧ req.credential = .identifier a.identifier ∧
        (a.identifier, a) ∈ t.credentials ∧ a.configId = "Employee") ∧
      c.Says (some "") claims := by
  refine ⟨Demo.provider, Demo.env, Demo.validated, { Demo.credReq (Demo.rng 2) (Demo.rng 3) with proof := some (.multiple []) },
    _, _, _, Demo.env_fresh, ⟨0, _, (exec_append _ _ _ _).symm⟩, ?_, ?_, rfl, rfl, ?_, .vc _ _ _ _ _ rfl⟩
  · intro iss h
    cases h
    exact ⟨_, _, rfl, rfl⟩
  · rintro j (⟨_, h⟩ | ⟨_, _, h, hj⟩)
    · cases h
    · cases h; cases hj
  · exact ⟨_, _, ⟨"emp-1", "Employee", none⟩, ⟨rfl, rfl⟩, rfl, List.mem_cons_self .., rfl⟩

/-- **C26**. The claims of an issued credential are exactly the claims of the dataset the Subject provider returned for the
session's subject and a credential identifier the access token authorizes, restricted to the claim ids of that authorization (if it
has any) and to the claims the request names (if it names any). -/
theorem C26_claims_from_authorized_dataset {P : Provider} {req : CredentialRequest} {e : Env} {w w' : World State}
    {resp : CredentialResponse} (h : (credential P req).run e w = (.ok resp, w')) {c : IssuedCredential}
    (hc : resp.response = .credential c) :
    ∃ s t iss auth subject ds, Session w req.accessToken s t ∧ P.issuer req.credentialIssuer = some iss ∧
      t.Authorizes iss req.credential auth ∧ s.subjectId = some subject ∧
      P.dataset subject auth.identifier = some ds ∧ ds.pending = false ∧
      (∃ did claims, c.Says did claims) ∧
      ∀ did claims, c.Says did claims → ∀ k v, (k, v) ∈ claims ↔ (k, v) ∈ ds.claims ∧
        (∀ ids, auth.claimIds = some ids → k ∈ ids) ∧
        (∀ f named, req.credential = .format f → f.claims = some named → k ∈ Dict.keys named) := by
  obtain ⟨s, ctx, t, did, ds, _, h1, hctx, h2, _, _, _, hds, hr⟩ := credential_ok_iff.1 h
  obtain ⟨h0, h3, h4, h5⟩ := Credential.context_ok.1 hctx
  simp only [Credential.dataset, Except.bind_ok, orErr_ok, pure, Except.pure, Except.ok.injEq] at hds
  obtain ⟨subject, h6, ds0, h7, rfl⟩ := hds
  rw [h0] at h6
  rcases hr with ⟨_, _, rfl, _⟩ | ⟨hp, c', hc', _, _, rfl, _⟩
  · cases hc
  cases hc
  refine ⟨s, t, ctx.issuer, ctx.authorized, subject, ds0, ⟨h1, h2⟩, h3, Credential.authorized_ok h2 h4, h6, h7, hp, ?_, ?_⟩
  · cases c with
    | mdoc k cl => exact ⟨_, _, .mdoc k cl⟩
    | jwtVc k vc at_ =>
      simp only [Credential.signed, Except.bind_ok, orErr_ok] at hc'
      obtain ⟨_, _, hc'⟩ := hc'
      split at hc'
      · simp only [Except.bind_ok, require_ok, pure, Except.pure, Except.ok.injEq, IssuedCredential.jwtVc.injEq] at hc'
        obtain ⟨vc, h1, _, _, _, rfl, _⟩ := hc'
        obtain ⟨_, _, _, _, _, _, _, _, _, _, _, _, h2, _⟩ := Credential.w3cVc_ok h1
        exact ⟨_, _, .vc _ _ _ _ _ h2⟩
      · simp [Except.bind_ok, require_ok, pure, Except.pure] at hc'
      · cases hc'
      · cases hc'
      · cases hc'
  · intro d claims hsays k v
    rw [(Credential.signed_says hc' hsays).1, Credential.mem_narrow, Credential.mem_narrow, and_assoc]
    have : (∀ ids, Credential.narrowing req = some ids → k ∈ ids) ↔
        (∀ f named, req.credential = .format f → f.claims = some named → k ∈ Dict.keys named) := by
      have hn : Credential.narrowing req = match req.credential with
          | .identifier _ => none | .format f => f.claims.map Dict.keys := by
        unfold Credential.narrowing
        cases req.credential with
        | identifier id => rfl
        | format f => cases f <;> rfl
      rw [hn]
      cases req.credential with
      | identifier id => simp
      | format f =>
        simp only [Option.map_eq_some_iff, CredentialIssuance.format.injEq]
        constructor
        · rintro h _ named rfl hf; exact h _ ⟨named, hf, rfl⟩
        · rintro h _ ⟨named, hf, rfl⟩; exact h f named rfl hf
    rw [this]

/-- A request by format that names one of the two claims gets just that claim. -/
def Demo.formatReq : CredentialRequest where
  credentialIssuer := "http://vercre.io"
  accessToken := Demo.rng 2
  credential := .format (.jwtVcJson {
    type_ := some ["VerifiableCredential", "EmployeeIDCredential"], credentialSubject := some [("email", .entry {})] })
  proof := some (.single (Demo.rng 3))

example : ∃ resp c, ((credential Demo.provider Demo.formatReq).run Demo.env Demo.validated).1 = .ok resp ∧
    resp.response = .credential c ∧ c.Says (some "did:web:holder") [("email", .str "n@example.com")] ∧
    (Demo.data false).claims = [("email", .str "n@example.com"), ("family_name", .str "Person")] :=
  ⟨_, _, rfl, rfl, .vc _ _ _ _ _ rfl, rfl⟩

/-- A request whose context cannot be built changes nothing. -/
theorem credential_no_context {P : Provider} {req : CredentialRequest} {e : Env} {w : World State}
    (hctx : ∀ s, w.store req.accessToken = some s → ∀ ctx, Credential.context P s req ≠ .ok ctx) :
    ((credential P req).run e w).2.store = w.store := by
  unfold credential
  simp only [Bind.bind, run_bind]
  rcases hg : (getE req.accessToken (.accessDenied "invalid access token") : IProg State).run e w with ⟨r, w1⟩
  have hw1 : w1.store = w.store := by
    simp only [getE, run] at hg
    split at hg <;> cases hg <;> rfl
  cases r with
  | error er => exact hw1
  | ok s =>
    obtain ⟨_, hs, rfl⟩ := run_getE_ok.1 hg
    simp only [lift]
    cases hc : Credential.context P s req with
    | error er => rfl
    | ok ctx => exact absurd hc (hctx s hs ctx)

/-- **C27**. If the presented access token authorizes no credential like the one asked for (or names no token at all), the request is
refused and nothing in the store changes, whatever faults occur. -/
theorem C27_unauthorized_refused {P : Provider} {req : CredentialRequest} {e : Env} {w : World State}
    (hno : ∀ s t iss auth, Session w req.accessToken s t → P.issuer req.credentialIssuer = some iss →
      ¬ t.Authorizes iss req.credential auth) :
    Refused ((credential P req).run e w).1 ∧ ((credential P req).run e w).2.store = w.store := by
  have hctx : ∀ s, w.store req.accessToken = some s → ∀ ctx, Credential.context P s req ≠ .ok ctx := by
    intro s hs ctx h
    obtain ⟨h0, h3, h4, h5⟩ := Credential.context_ok.1 h
    cases hst : s.stage with
    | validated t => exact hno s t _ _ ⟨hs, hst⟩ h3 (Credential.authorized_ok hst h4)
    | _ => unfold Credential.authorized at h4; rw [hst] at h4; cases h4
  constructor
  · intro resp hr
    obtain ⟨s, ctx, t, did, ds, _, h1, h2, _⟩ :=
      (credential_ok_iff (w' := ((credential P req).run e w).2)).1 (by rw [← hr])
    exact hctx s h1 ctx h2
  · exact credential_no_context hctx

/-- The token of the demo session. -/
def Demo.tok : Token where
  accessToken := Demo.rng 2
  cNonce := Demo.rng 3
  cNonceExpiresAt := nonceDur
  credentials := [("emp-1", ⟨"emp-1", "Employee", none⟩)]

theorem Demo.session : Demo.validated.store (Demo.rng 2) = some ⟨some "normal", .validated Demo.tok, authorizedDur⟩ := rfl

/-- The demo token is not authorized for the developer credential. -/
example : (∀ s t iss auth, Session Demo.validated (Demo.rng 2) s t → Demo.provider.issuer "http://vercre.io" = some iss →
      ¬ t.Authorizes iss (.identifier "dev-1") auth) ∧
    ((credential Demo.provider { Demo.credReq (Demo.rng 2) (Demo.rng 3) with credential := .identifier "dev-1" }).run
      Demo.env Demo.validated).1 = .error (.invalidCredentialRequest "unauthorized credential requested") := by
  refine ⟨?_, rfl⟩
  rintro s t iss auth ⟨h1, h2⟩ h3 h4
  rw [Demo.session] at h1
  cases h1; cases h2
  cases h4 with
  | identifier _ _ h => simp [Demo.tok] at h

end Verif.Issuer
