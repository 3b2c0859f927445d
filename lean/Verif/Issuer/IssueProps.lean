import Verif.Issuer.AcceptProps
/-!
# What the credential endpoint issues: C93
-/
namespace Verif.Issuer
open Prog

/-! ### Specification -/

/-- The proofs of a request are as configuration `cfg` wants them, and bind the credential to `did`: no proof is wanted, or JWT proofs
are, and they are all valid for `nonce`. The holder is the signer of the last one. -/
def ProofsFit (P : Provider) (cfg : CredentialConfiguration) (nonce : String) (req : CredentialRequest) (did : String) : Prop :=
  (cfg.proofTypes = none ∧ did = "") ∨
  ∃ types, cfg.proofTypes = some types ∧ "jwt" ∈ types ∧
    ((∃ j, req.proof = some (.single j) ∧ ValidProof P nonce j did) ∨
     ∃ js j, req.proof = some (.multiple js) ∧ (∀ x ∈ js, ∃ d, ValidProof P nonce x d) ∧ js.getLast? = some j ∧
       ValidProof P nonce j did)

/-- The issuer can make credentials of configuration `cfg` for `subject`: it is of a format that is implemented, has a credential
type besides `VerifiableCredential`, and signing works. -/
def CanIssue (P : Provider) (iss : Issuer) (signAs : String) (cfg : CredentialConfiguration) (subject : String) : Prop :=
  (∃ k, P.signer signAs = some k ∧ ∀ c, P.signOk k c = true) ∧
  match cfg.format with
  | .jwtVcJson d => iss.credentialIssuer ≠ "" ∧ (∃ first ty more, d.type_ = some (first :: ty :: more)) ∧
      ∀ id, ∃ st, P.status subject id = some st
  | .isoMdl _ _ => True
  | _ => False

/-- The session a credential request belongs to is live, and so is its nonce. -/
structure LiveSession (w : World State) (tok subject : String) (s : State) (t : Token) : Prop where
  session : Session w tok s t
  live : Live s w.now
  nonce : w.now < t.cNonceExpiresAt + sec
  subject : s.subjectId = some subject

/-- `c` is a credential of format `f` with these claims, bound to `did` if the format supports that. -/
def IsCredential (c : IssuedCredential) (f : Format) (did : String) (claims : Dict Json) : Prop :=
  match f with
  | .isoMdl _ _ => c.Says none claims
  | _ => c.Says (some did) claims

/-! ### Helpers -/

theorem ProofsFit.checked {P : Provider} {cfg : CredentialConfiguration} {t : Token} {req : CredentialRequest} {did : String}
    (h : ProofsFit P cfg t.cNonce req did) : ProofChecked P cfg t req did := by
  unfold ProofChecked
  rcases h with ⟨h1, h2⟩ | ⟨types, h1, h2, h⟩
  · simp [h1, h2]
  · simp only [h1]
    refine ⟨by simpa using h2, ?_⟩
    rcases h with ⟨j, h3, h4⟩ | ⟨js, j, h3, h4, h5, h6⟩
    · refine ⟨_, h3, Credential.checkProofs_ok.2 ⟨?_, ?_⟩⟩
      · intro x hx
        simp only [Credential.proofJwts, List.mem_singleton] at hx
        exact ⟨did, hx ▸ h4⟩
      · simpa [Credential.proofJwts] using h4
    · refine ⟨_, h3, Credential.checkProofs_ok.2 ⟨h4, ?_⟩⟩
      simp only [Credential.proofJwts, h5]
      exact h6

theorem CanIssue.signed {P : Provider} {ctx : Credential.Ctx} {did subj : String} {req : CredentialRequest} {ds : Dataset} {now : Int}
    (h : CanIssue P ctx.issuer req.credentialIssuer ctx.config subj) (hs : ctx.state.subjectId = some subj) :
    ∃ c, Credential.signed P ctx did req ds now = .ok c ∧ IsCredential c ctx.config.format did ds.claims := by
  obtain ⟨⟨k, hk, hok⟩, h⟩ := h
  cases hf : ctx.config.format with
  | jwtVcJson d =>
    rw [hf] at h
    obtain ⟨hi, ⟨first, ty, more, hty⟩, hst⟩ := h
    obtain ⟨st, hst⟩ := hst "credential_identifier"
    have hvc : ∃ vc, Credential.w3cVc P ctx did d ds = .ok vc := by
      cases hw : Credential.w3cVc P ctx did d ds with
      | ok vc => exact ⟨vc, rfl⟩
      | error x =>
        exfalso
        simp [Credential.w3cVc, hty, hs, hst, orErr, Vc.build, Vc.builder, Vc.addContext, Vc.setId, Vc.addType, Vc.addName,
          Vc.addDescription, Vc.setIssuer, Vc.addSubject, Vc.setStatus, Quota.add, Quota.len, CredentialSubject.isDefault, hi,
          Except.bind_err] at hw
    obtain ⟨vc, hvc⟩ := hvc
    refine ⟨.jwtVc k vc (now.fdiv sec), ?_, ?_⟩
    · simp only [Credential.signed, Except.bind_ok, orErr_ok, hf, require_ok, pure, Except.pure]
      exact ⟨k, hk, vc, hvc, (), hok _, rfl⟩
    · obtain ⟨_, _, _, _, _, _, _, _, _, _, _, _, h2, _⟩ := Credential.w3cVc_ok hvc
      exact .vc _ _ _ _ _ h2
  | isoMdl d c =>
    refine ⟨.mdoc k ds.claims, ?_, .mdoc _ _⟩
    simp only [Credential.signed, Except.bind_ok, orErr_ok, hf, require_ok, pure, Except.pure]
    exact ⟨k, hk, (), hok _, rfl⟩
  | jwtVcJsonLd d => rw [hf] at h; cases h
  | ldpVc d => rw [hf] at h; cases h
  | vcSdJwt v c => rw [hf] at h; cases h

/-- Serving a request whose context has been found. -/
theorem credential_of {P : Provider} {req : CredentialRequest} {e : Env} {w : World State} (hst : Working e w) {subj : String}
    {s : State} {t : Token} (hs : LiveSession w req.accessToken subj s t) {ctx : Credential.Ctx}
    (hctx : Credential.context P s req = .ok ctx) {did : String} (hp : ProofChecked P ctx.config t req did) {ds : Dataset}
    (hd : P.dataset subj ctx.authorized.identifier = some ds) :
    (ds.pending = true → ∃ txn w', (credential P req).run e w = (.ok { response := .transactionId txn }, w')) ∧
    (ds.pending = false → CanIssue P ctx.issuer req.credentialIssuer ctx.config subj →
      ∃ resp c w', (credential P req).run e w = (.ok resp, w') ∧ resp.response = .credential c ∧
        IsCredential c ctx.config.format did
          (Credential.narrow (Credential.narrow ds.claims ctx.authorized.claimIds) (Credential.narrowing req))) := by
  have hcs := (Credential.context_ok.1 hctx).1
  have hds : Credential.dataset P ctx req = .ok { ds with
      claims := Credential.narrow (Credential.narrow ds.claims ctx.authorized.claimIds) (Credential.narrowing req) } := by
    simp only [Credential.dataset, Except.bind_ok, orErr_ok, pure, Except.pure]
    exact ⟨subj, by rw [hcs]; exact hs.subject, ds, hd, rfl⟩
  have f0 := hst w.ops (Nat.le_refl _)
  have f1 := hst (w.ops + 1) (by omega)
  have f2 := hst (w.ops + 2) (by omega)
  constructor
  · intro hpend
    refine ⟨e.rng w.drawn, _, credential_ok_iff.2 ⟨s, ctx, t, did, _, f0, hs.session.1, hctx, hs.session.2, hs.live, hs.nonce,
      hp, hds, .inl ⟨hpend, f1, rfl, rfl⟩⟩⟩
  · intro hpend hcan
    obtain ⟨c, hc, hsays⟩ := hcan.signed (ctx := ctx) (did := did) (now := w.now) (ds := { ds with
        claims := Credential.narrow (Credential.narrow ds.claims ctx.authorized.claimIds) (Credential.narrowing req) })
      (by rw [hcs]; exact hs.subject)
    exact ⟨_, c, _, credential_ok_iff.2 ⟨s, ctx, t, did, _, f0, hs.session.1, hctx, hs.session.2, hs.live, hs.nonce,
      hp, hds, .inr ⟨hpend, c, hc, f1, f2, rfl, rfl⟩⟩, rfl, hsays⟩

/-! ### Facts about the demo issuer -/

theorem Demo.canIssue (pending : Bool) : CanIssue (Demo.provider pending) Demo.issuer "http://vercre.io" Demo.employee "normal" :=
  ⟨⟨_, rfl, fun _ => rfl⟩, by decide, ⟨_, _, _, rfl⟩, fun _ => ⟨_, rfl⟩⟩

theorem Demo.proofsFit (pending : Bool) (tok nonce : String) :
    ProofsFit (Demo.provider pending) Demo.employee nonce (Demo.credReq tok nonce) "did:web:holder" :=
  .inr ⟨_, rfl, .head _, .inl ⟨_, rfl, _, _, rfl, rfl, rfl, rfl, by decide⟩⟩

/-- The demo session. -/
theorem Demo.liveSession : ∃ s t auth, LiveSession Demo.validated (Demo.rng 2) "normal" s t ∧ t.cNonce = Demo.rng 3 ∧
    Dict.Nodup t.credentials ∧ ("emp-1", auth) ∈ t.credentials ∧ auth.configId = "Employee" ∧ auth.identifier = "emp-1" ∧
    auth.claimIds = none ∧ 200 * sec < s.expiresAt ∧ 200 * sec < t.cNonceExpiresAt :=
  ⟨_, _, _, ⟨⟨rfl, rfl⟩, by unfold Live; decide, by decide, rfl⟩, rfl, authorizedCredentials_nodup _, .head _, rfl, rfl, rfl, by decide, by decide⟩

/-! ### Properties -/

/-- **C93**, by identifier. A request with a live access token and nonce, for a credential identifier the token authorizes, with
proofs as configured, gets the credential: with the dataset the Subject provider has for the subject and that identifier (only the
claims the authorization is limited to, if it is), bound to the holder. If the dataset is pending, it gets a transaction id. -/
theorem C93_credential_issued {P : Provider} {req : CredentialRequest} {e : Env} {w : World State} (hst : Working e w)
    {subj : String} {s : State} {t : Token} (hs : LiveSession w req.accessToken subj s t) {iss : Issuer}
    (hiss : P.issuer req.credentialIssuer = some iss) (hn : Dict.Nodup iss.configs) (hnt : Dict.Nodup t.credentials)
    {id : String} (hid : req.credential = .identifier id)
    {auth : Authorized} (hauth : (id, auth) ∈ t.credentials) {cfg : CredentialConfiguration}
    (hcfg : (auth.configId, cfg) ∈ iss.configs) {did : String} (hp : ProofsFit P cfg t.cNonce req did) {ds : Dataset}
    (hd : P.dataset subj auth.identifier = some ds) :
    (ds.pending = true → ∃ txn w', (credential P req).run e w = (.ok { response := .transactionId txn }, w')) ∧
    (ds.pending = false → CanIssue P iss req.credentialIssuer cfg subj →
      ∃ resp c w' claims, (credential P req).run e w = (.ok resp, w') ∧ resp.response = .credential c ∧
        IsCredential c cfg.format did claims ∧
        ∀ k v, (k, v) ∈ claims ↔ (k, v) ∈ ds.claims ∧ ∀ ids, auth.claimIds = some ids → k ∈ ids) := by
  have hctx : Credential.context P s req = .ok { state := s, issuer := iss, authorized := auth, config := cfg } :=
    Credential.context_ok.2 ⟨rfl, hiss, by
      simp [Credential.authorized, hs.session.2, hid, Dict.get?_of_mem hnt hauth, orErr], Dict.get?_of_mem hn hcfg⟩
  obtain ⟨h1, h2⟩ := credential_of hst hs hctx hp.checked hd
  refine ⟨h1, fun hpend hcan => ?_⟩
  obtain ⟨resp, c, w', hr, hc, hi⟩ := h2 hpend hcan
  refine ⟨resp, c, w', _, hr, hc, hi, ?_⟩
  intro k v
  simp only [Credential.narrowing, hid, Credential.mem_narrow]
  simp

/-- C93 applies to the demo session. -/
example : ∃ resp c w' claims, (credential Demo.provider (Demo.credReq (Demo.rng 2) (Demo.rng 3))).run Demo.env Demo.validated =
      (.ok resp, w') ∧ resp.response = .credential c ∧ c.Says (some "did:web:holder") claims ∧
      ("email", Json.str "n@example.com") ∈ claims := by
  obtain ⟨s, t, auth, hs, hn, hnt, hm, hc, hi, hcl, _⟩ := Demo.liveSession
  obtain ⟨resp, c, w', claims, h1, h2, h3, h4⟩ := (C93_credential_issued (P := Demo.provider)
    (req := Demo.credReq (Demo.rng 2) (Demo.rng 3)) (Demo.working _) hs (iss := Demo.issuer) rfl Demo.configs_nodup hnt rfl hm
    (cfg := Demo.employee) (by rw [hc]; exact .head _) (by rw [hn]; exact Demo.proofsFit _ _ _) (ds := Demo.data false)
    (by rw [hi]; rfl)).2 rfl (Demo.canIssue _)
  exact ⟨resp, c, w', claims, h1, h2, h3, (h4 _ _).2 ⟨.head _, by rw [hcl]; nofun⟩⟩

/-- **C93**, by format. The same for a request that names a format and type which exactly one configuration of the issuer has; the
token has to authorize some credential of that configuration, and one of those is issued, with the claims the request names (all, if
it names none). -/
theorem C93_credential_issued_by_format {P : Provider} {req : CredentialRequest} {e : Env} {w : World State} (hst : Working e w)
    {subj : String} {s : State} {t : Token} (hs : LiveSession w req.accessToken subj s t) {iss : Issuer}
    (hiss : P.issuer req.credentialIssuer = some iss) (hn : Dict.Nodup iss.configs)
    {f : Format} (hf : req.credential = .format f) {cid : String} {cfg : CredentialConfiguration}
    (hcfg : (cid, cfg) ∈ iss.configs) (hsame : SameCredential (.format cfg.format) (.format f))
    (huniq : ∀ cid' cfg', (cid', cfg') ∈ iss.configs → SameCredential (.format cfg'.format) (.format f) → cid' = cid)
    (hauth : ∃ id auth, (id, auth) ∈ t.credentials ∧ auth.configId = cid)
    {did : String} (hp : ProofsFit P cfg t.cNonce req did)
    (hd : ∀ id auth, (id, auth) ∈ t.credentials → auth.configId = cid →
      ∃ ds, P.dataset subj auth.identifier = some ds ∧ ds.pending = false)
    (hcan : CanIssue P iss req.credentialIssuer cfg subj) :
    ∃ resp c w' claims id auth ds, (credential P req).run e w = (.ok resp, w') ∧ resp.response = .credential c ∧
      (id, auth) ∈ t.credentials ∧ auth.configId = cid ∧ P.dataset subj auth.identifier = some ds ∧
      IsCredential c cfg.format did claims ∧
      ∀ k v, (k, v) ∈ claims ↔ (k, v) ∈ ds.claims ∧ (∀ ids, auth.claimIds = some ids → k ∈ ids) ∧
        ∀ req, f.claims = some req → k ∈ Dict.keys req := by
  have hcid : iss.configurationId f = some cid := by
    simp only [Issuer.configurationId, Option.map_eq_some_iff]
    cases hfi : iss.configs.find? fun e => e.2.format.eqv f with
    | none => exact absurd ((sameCredential_iff (.format cfg.format) (.format f)).2 hsame) (List.find?_eq_none.1 hfi _ hcfg)
    | some x =>
      refine ⟨x, rfl, huniq x.1 x.2 (List.mem_of_find?_eq_some hfi) ?_⟩
      exact (sameCredential_iff (.format x.2.format) (.format f)).1 (by have := List.find?_some hfi; exact this)
  obtain ⟨auth, hfind⟩ : ∃ auth, (Dict.values (P.iter t.credentials)).find? (fun a => a.configId == cid) = some auth := by
    cases hfi : (Dict.values (P.iter t.credentials)).find? (fun a => a.configId == cid) with
    | some a => exact ⟨a, rfl⟩
    | none =>
      obtain ⟨id, auth, h1, h2⟩ := hauth
      have := List.find?_eq_none.1 hfi auth (List.mem_map.2 ⟨(id, auth), (P.iter_perm _).mem_iff.2 h1, rfl⟩)
      simp [h2] at this
  have hac : auth.configId = cid := by simpa using List.find?_some hfind
  obtain ⟨⟨id, _⟩, hmem, rfl⟩ := List.mem_map.1 (List.mem_of_find?_eq_some hfind)
  rename_i auth
  simp only at hfind hac
  have hmem' := (P.iter_perm _).mem_iff.1 hmem
  obtain ⟨ds, hds, hpend⟩ := hd id auth hmem' hac
  have hctx : Credential.context P s req = .ok { state := s, issuer := iss, authorized := auth, config := cfg } := by
    refine Credential.context_ok.2 ⟨rfl, hiss, ?_, ?_⟩
    · simp only [Credential.authorized, hs.session.2, hf, Except.bind_ok, orErr_ok]
      exact ⟨cid, hcid, hfind⟩
    · rw [hac]; exact Dict.get?_of_mem hn hcfg
  obtain ⟨_, h2⟩ := credential_of hst hs hctx hp.checked hds
  obtain ⟨resp, c, w', hr, hc, hi⟩ := h2 hpend hcan
  refine ⟨resp, c, w', _, id, auth, ds, hr, hc, hmem', hac, hds, hi, ?_⟩
  intro k v
  rw [Credential.mem_narrow, Credential.mem_narrow, and_assoc]
  have : Credential.narrowing req = f.claims.map Dict.keys := by
    simp only [Credential.narrowing, hf]
    cases f <;> rfl
  rw [this]
  constructor
  · rintro ⟨h1, h2, h3⟩; exact ⟨h1, h2, fun r hr => h3 _ (by simp [hr])⟩
  · rintro ⟨h1, h2, h3⟩
    refine ⟨h1, h2, fun ids hids => ?_⟩
    obtain ⟨r, hr, rfl⟩ := Option.map_eq_some_iff.1 hids
    exact h3 r hr

/-- C93 by format applies to it. -/
example : ∃ resp c w' claims, (credential Demo.provider { Demo.credReq (Demo.rng 2) (Demo.rng 3) with
        credential := .format Demo.employee.format }).run Demo.env Demo.validated = (.ok resp, w') ∧
      resp.response = .credential c ∧ c.Says (some "did:web:holder") claims := by
  have huniq : ∀ cid' cfg', (cid', cfg') ∈ Demo.issuer.configs →
      SameCredential (.format cfg'.format) (.format Demo.employee.format) → cid' = "Employee" := by
    intro cid cfg h hsame
    rcases List.mem_cons.1 h with h | h
    · cases h; rfl
    · rcases List.mem_cons.1 h with h | h
      · cases h
        exact absurd ((sameCredential_iff _ _).2 hsame) (by decide)
      · cases h
  obtain ⟨s, t, auth, hs, hn, hnt, hm, hc, hi, hcl, _⟩ := Demo.liveSession
  obtain ⟨resp, c, w', claims, _, _, _, h1, h2, _, _, _, h3, _⟩ := C93_credential_issued_by_format (P := Demo.provider)
    (req := { Demo.credReq (Demo.rng 2) (Demo.rng 3) with credential := .format Demo.employee.format }) (Demo.working _) hs
    (iss := Demo.issuer) rfl Demo.configs_nodup (f := Demo.employee.format) rfl (cid := "Employee") (cfg := Demo.employee) (.head _)
    ((sameCredential_iff _ _).1 (by decide)) huniq ⟨_, _, hm, hc⟩ (by rw [hn]; exact Demo.proofsFit false (Demo.rng 2) (Demo.rng 3))
    (fun _ _ _ _ => ⟨Demo.data false, rfl, rfl⟩) (Demo.canIssue _)
  exact ⟨resp, c, w', claims, h1, h2, h3⟩

end Verif.Issuer
