import Verif.Issuer.ExactProps
import Verif.Issuer.IssueProps
/-!
# Exactly which requests get a credential: C181

C22 – C28 say what an issued credential implies and C93 which requests are served. Here both directions meet.
-/
namespace Verif.Issuer
open Prog

/-! ### Specification -/

/-- Which authorization of a token the issuer takes a request for: the one under the identifier, or, for a description by format and type, the first one for the
configuration that the description is taken for. (`P.iter` is the order in which the map is gone through.) -/
inductive Picks (P : Provider) (iss : Issuer) (t : Token) : CredentialIssuance → Authorized → Prop
  | identifier {id : String} {auth : Authorized} (h : (id, auth) ∈ t.credentials) : Picks P iss t (.identifier id) auth
  | format {f : Format} {key : String} {auth : Authorized} {before after : Dict Authorized} (taken : TakenFor iss (.format f) auth.configId)
      (h : P.iter t.credentials = before ++ (key, auth) :: after) (first : ∀ x ∈ before, x.2.configId ≠ auth.configId) : Picks P iss t (.format f) auth

/-- The proofs of a request are what the configuration asks for: nothing if it has no proof types; otherwise there are proofs, which it may be by an empty list,
JWTs are among the types, and every one of the proofs is valid for the nonce. -/
def ProofsDo (P : Provider) (cfg : CredentialConfiguration) (nonce : String) (req : CredentialRequest) : Prop :=
  ∀ types, cfg.proofTypes = some types → "jwt" ∈ types ∧ req.proof ≠ none ∧ ∀ j, req.HasProof j → ∃ did, ValidProof P nonce j did

/-- The request asks for something the issuer can serve in the session, from dataset `ds`. -/
structure Served (P : Provider) (w : World State) (req : CredentialRequest) (subj : String) (iss : Issuer) (cfg : CredentialConfiguration) (ds : Dataset) : Prop where
  /-- the issuer is known -/
  issuer : P.issuer req.credentialIssuer = some iss
  /-- the token is that of a live session with a live nonce, which authorizes what is asked for; the configuration is published, the proofs are as it asks for and there is
  a dataset for the subject -/
  session : ∃ s t auth, LiveSession w req.accessToken subj s t ∧ Picks P iss t req.credential auth ∧ (auth.configId, cfg) ∈ iss.configs ∧
    ProofsDo P cfg t.cNonce req ∧ P.dataset subj auth.identifier = some ds

/-- The issuer can make credentials of the configuration for the subject: there is a signer, and the format is implemented: mDL, or JWT with a second credential type, an
issuer identifier and an answer of the Subject provider about status. -/
def CanMake (P : Provider) (iss : Issuer) (signAs : String) (cfg : CredentialConfiguration) (subject : String) : Prop :=
  (∃ k, P.signer signAs = some k) ∧
  ((∃ d c, cfg.format = .isoMdl d c) ∨
   ∃ d first ty more st, cfg.format = .jwtVcJson d ∧ d.type_ = some (first :: ty :: more) ∧ iss.credentialIssuer ≠ "" ∧
     P.status subject "credential_identifier" = some st)

/-! ### Helpers -/

theorem picks_iff {P : Provider} {iss : Issuer} {s : State} {t : Token} {req : CredentialRequest} {auth : Authorized} (ht : s.stage = .validated t)
    (hn : Dict.Nodup t.credentials) : Credential.authorized P iss s req = .ok auth ↔ Picks P iss t req.credential auth := by
  unfold Credential.authorized
  rw [ht]
  cases hc : req.credential with
  | identifier id =>
    simp only [orErr_ok]
    exact ⟨fun h => .identifier (Dict.mem_of_get? h), fun h => by cases h with | identifier h => exact Dict.get?_of_mem hn h⟩
  | format f =>
    have htk : ∀ cid, iss.configurationId f = some cid ↔ TakenFor iss (.format f) cid := by
      intro cid
      rw [← target_iff (d := { credential := .format f })]
      simp only [Authorize.detailTarget, Except.bind_ok, orErr_ok, pure, Except.pure, Except.ok.injEq, Prod.mk.injEq]
      exact ⟨fun h => ⟨_, cid, h, rfl, rfl⟩, fun ⟨_, _, h, h1, _⟩ => h1 ▸ h⟩
    simp only [Except.bind_ok, orErr_ok, htk]
    constructor
    · rintro ⟨cid, h1, h2⟩
      obtain ⟨hp, as, bs, hl, hb⟩ := List.find?_eq_some_iff_append.1 h2
      have hcid : auth.configId = cid := by simpa using hp
      subst hcid
      obtain ⟨l1, l2', hl1, hm1, hm2⟩ := List.map_eq_append_iff.1 hl
      obtain ⟨⟨k, a⟩, l2, rfl, hk, hm3⟩ := List.map_eq_cons_iff.1 hm2
      cases hk
      refine .format h1 hl1 fun x hx => ?_
      have := hb x.2 (hm1 ▸ List.mem_map_of_mem hx)
      simpa using this
    · intro h
      cases h with
      | @format _ key _ as bs h1 h2 h3 =>
        refine ⟨auth.configId, h1, List.find?_eq_some_iff_append.2 ⟨by simp, as.map (·.2), bs.map (·.2), by
          simp [Dict.values, h2], fun x hx => ?_⟩⟩
        obtain ⟨y, hy, rfl⟩ := List.mem_map.1 hx
        simpa using h3 y hy

theorem proofsDo_iff {P : Provider} {cfg : CredentialConfiguration} {t : Token} {req : CredentialRequest} :
    (∃ did, ProofChecked P cfg t req did) ↔ ProofsDo P cfg t.cNonce req := by
  unfold ProofChecked ProofsDo
  cases cfg.proofTypes with
  | none => simp
  | some types =>
    simp only [Option.some.injEq, forall_eq']
    constructor
    · rintro ⟨did, h1, proof, h2, h3⟩
      refine ⟨by simpa using h1, by rw [h2]; simp, fun j hj => ?_⟩
      exact (Credential.checkProofs_ok.1 h3).1 j ((CredentialRequest.hasProof_iff h2 j).1 hj)
    · rintro ⟨h1, h2, h3⟩
      cases hp : req.proof with
      | none => exact absurd hp h2
      | some proof =>
        have h4 : ∀ j ∈ Credential.proofJwts proof, ∃ did, ValidProof P t.cNonce j did :=
          fun j hj => h3 j ((CredentialRequest.hasProof_iff hp j).2 hj)
        cases hl : (Credential.proofJwts proof).getLast? with
        | none =>
          exact ⟨"", by simpa using h1, proof, rfl, Credential.checkProofs_ok.2 ⟨h4, by rw [hl]⟩⟩
        | some j =>
          obtain ⟨did, hd⟩ := h4 j (List.mem_of_getLast? hl)
          exact ⟨did, by simpa using h1, proof, rfl, Credential.checkProofs_ok.2 ⟨h4, by rw [hl]; exact hd⟩⟩

theorem canMake_iff {P : Provider} (hsign : ∀ k c, P.signOk k c = true) {ctx : Credential.Ctx} {did subj : String} {req : CredentialRequest} {ds : Dataset} {now : Int}
    (hs : ctx.state.subjectId = some subj) :
    (∃ c, Credential.signed P ctx did req ds now = .ok c) ↔ CanMake P ctx.issuer req.credentialIssuer ctx.config subj := by
  constructor
  · rintro ⟨c, h⟩
    simp only [Credential.signed, Except.bind_ok, orErr_ok] at h
    obtain ⟨k, hk, h⟩ := h
    refine ⟨⟨k, hk⟩, ?_⟩
    cases hf : ctx.config.format with
    | jwtVcJson d =>
      right
      rw [hf] at h
      simp only [Except.bind_ok] at h
      obtain ⟨vc, hvc, -⟩ := h
      obtain ⟨types, ty, subj', status, h1, h2, h3, h4, -⟩ := Credential.w3cVc_ok hvc
      rw [hs] at h3; cases h3
      have hi : ctx.issuer.credentialIssuer ≠ "" := by
        intro hi
        simp only [Credential.w3cVc, h1, h2, hs, h4, orErr, Bind.bind, Except.bind] at hvc
        split at hvc
        · rename_i hb
          simp [Vc.build, Vc.builder, Vc.addContext, Vc.setId, Vc.addType, Vc.addName,
            Vc.addDescription, Vc.setIssuer, Vc.addSubject, Vc.setStatus, Quota.add, Quota.len, CredentialSubject.isDefault, hi] at hb
        · cases hvc
      match types, h1, h2 with
      | first :: second :: more, h1, h2 => exact ⟨d, first, second, more, status, rfl, h1, hi, h4⟩
    | isoMdl d c => exact .inl ⟨d, c, rfl⟩
    | jwtVcJsonLd d => rw [hf] at h; cases h
    | ldpVc d => rw [hf] at h; cases h
    | vcSdJwt v c => rw [hf] at h; cases h
  · rintro ⟨⟨k, hk⟩, h⟩
    rcases h with ⟨d, c, hf⟩ | ⟨d, first, ty, more, st, hf, hty, hi, hst⟩
    · refine ⟨.mdoc k ds.claims, ?_⟩
      simp only [Credential.signed, Except.bind_ok, orErr_ok, hf, require_ok, pure, Except.pure]
      exact ⟨k, hk, (), hsign _ _, rfl⟩
    · have hvc : ∃ vc, Credential.w3cVc P ctx did d ds = .ok vc := by
        cases hw : Credential.w3cVc P ctx did d ds with
        | ok vc => exact ⟨vc, rfl⟩
        | error x =>
          exfalso
          simp [Credential.w3cVc, hty, hs, hst, orErr, Vc.build, Vc.builder, Vc.addContext, Vc.setId, Vc.addType, Vc.addName,
            Vc.addDescription, Vc.setIssuer, Vc.addSubject, Vc.setStatus, Quota.add, Quota.len, CredentialSubject.isDefault, hi,
            Except.bind_err] at hw
      obtain ⟨vc, hvc⟩ := hvc
      refine ⟨.jwtVc k vc (now.fdiv sec), ?_⟩
      simp only [Credential.signed, Except.bind_ok, orErr_ok, hf, require_ok, pure, Except.pure]
      exact ⟨k, hk, vc, hvc, (), hsign _ _, rfl⟩

/-! ### Properties -/

/-- **C181**, credentials. With a working state store and working signing, the credential endpoint answers with a credential exactly when it can serve the request from
a dataset that is ready and the issuer can make credentials of the configuration. -/
theorem C181_credential_given_iff {P : Provider} {req : CredentialRequest} {e : Env} {w : World State} (hst : Working e w) (hsign : ∀ k c, P.signOk k c = true)
    (hn : ∀ i iss, P.issuer i = some iss → Dict.Nodup iss.configs) (hnt : ∀ s t, Session w req.accessToken s t → Dict.Nodup t.credentials) :
    (∃ resp c w', (credential P req).run e w = (.ok resp, w') ∧ resp.response = .credential c) ↔
      ∃ subj iss cfg ds, Served P w req subj iss cfg ds ∧ ds.pending = false ∧ CanMake P iss req.credentialIssuer cfg subj := by
  constructor
  · rintro ⟨resp, c, w', h, hc⟩
    obtain ⟨s, ctx, t, did, ds, -, h1, h2, h3, h4, h5, h6, h7, h8⟩ := credential_ok_iff.1 h
    obtain ⟨g1, g2, g3, g4⟩ := Credential.context_ok.1 h2
    simp only [Credential.dataset, Except.bind_ok, orErr_ok, pure, Except.pure, Except.ok.injEq] at h7
    obtain ⟨subj, hsub, ds0, hds0, rfl⟩ := h7
    rcases h8 with ⟨-, -, rfl, -⟩ | ⟨hp, c', hsg, -⟩
    · cases hc
    · refine ⟨subj, ctx.issuer, ctx.config, ds0, ⟨g2, s, t, ctx.authorized, ⟨⟨h1, h3⟩, h4, h5, g1 ▸ hsub⟩, (picks_iff h3 (hnt s t ⟨h1, h3⟩)).1 g3,
        Dict.mem_of_get? g4, proofsDo_iff.1 ⟨did, h6⟩, hds0⟩, hp, (canMake_iff hsign hsub).1 ⟨c', hsg⟩⟩
  · rintro ⟨subj, iss, cfg, ds, ⟨g1, s, t, auth, hs, g2, g3, g4, g5⟩, hp, hm⟩
    obtain ⟨did, hdid⟩ := proofsDo_iff.2 g4
    have hctx : Credential.context P s req = .ok { state := s, issuer := iss, authorized := auth, config := cfg } :=
      Credential.context_ok.2 ⟨rfl, g1, (picks_iff hs.session.2 (hnt s t hs.session)).2 g2, Dict.get?_of_mem (hn _ _ g1) g3⟩
    obtain ⟨c, hc⟩ := (canMake_iff hsign (ctx := { state := s, issuer := iss, authorized := auth, config := cfg }) (did := did) (now := w.now) (req := req) (ds := { ds with
      claims := Credential.narrow (Credential.narrow ds.claims auth.claimIds) (Credential.narrowing req) }) hs.subject).2 hm
    refine ⟨_, c, _, credential_ok_iff.2 ⟨s, _, t, did, { ds with
      claims := Credential.narrow (Credential.narrow ds.claims auth.claimIds) (Credential.narrowing req) }, hst _ (Nat.le_refl _), hs.session.1, hctx,
      hs.session.2, hs.live, hs.nonce, hdid, ?_, .inr ⟨hp, c, hc, hst _ (by omega), hst _ (by omega), rfl, rfl⟩⟩, rfl⟩
    simp only [Credential.dataset, Except.bind_ok, orErr_ok, pure, Except.pure]
    exact ⟨subj, hs.subject, ds, g5, rfl⟩

/-- **C181**, transaction ids. With a working state store, the credential endpoint answers with a transaction id exactly when it can serve the request from a dataset
that is pending. Whether the issuer can make such credentials does not matter. -/
theorem C181_deferred_iff {P : Provider} {req : CredentialRequest} {e : Env} {w : World State} (hst : Working e w)
    (hn : ∀ i iss, P.issuer i = some iss → Dict.Nodup iss.configs) (hnt : ∀ s t, Session w req.accessToken s t → Dict.Nodup t.credentials) :
    (∃ resp txn w', (credential P req).run e w = (.ok resp, w') ∧ resp.response = .transactionId txn) ↔
      ∃ subj iss cfg ds, Served P w req subj iss cfg ds ∧ ds.pending = true := by
  constructor
  · rintro ⟨resp, c, w', h, hc⟩
    obtain ⟨s, ctx, t, did, ds, -, h1, h2, h3, h4, h5, h6, h7, h8⟩ := credential_ok_iff.1 h
    obtain ⟨g1, g2, g3, g4⟩ := Credential.context_ok.1 h2
    simp only [Credential.dataset, Except.bind_ok, orErr_ok, pure, Except.pure, Except.ok.injEq] at h7
    obtain ⟨subj, hsub, ds0, hds0, rfl⟩ := h7
    rcases h8 with ⟨hp, -⟩ | ⟨-, c', -, -, -, rfl, -⟩
    · exact ⟨subj, ctx.issuer, ctx.config, ds0, ⟨g2, s, t, ctx.authorized, ⟨⟨h1, h3⟩, h4, h5, g1 ▸ hsub⟩, (picks_iff h3 (hnt s t ⟨h1, h3⟩)).1 g3,
        Dict.mem_of_get? g4, proofsDo_iff.1 ⟨did, h6⟩, hds0⟩, hp⟩
    · cases hc
  · rintro ⟨subj, iss, cfg, ds, ⟨g1, s, t, auth, hs, g2, g3, g4, g5⟩, hp⟩
    obtain ⟨did, hdid⟩ := proofsDo_iff.2 g4
    have hctx : Credential.context P s req = .ok { state := s, issuer := iss, authorized := auth, config := cfg } :=
      Credential.context_ok.2 ⟨rfl, g1, (picks_iff hs.session.2 (hnt s t hs.session)).2 g2, Dict.get?_of_mem (hn _ _ g1) g3⟩
    obtain ⟨txn, w', h⟩ := (credential_of hst hs hctx hdid g5).1 hp
    exact ⟨_, txn, w', h, rfl⟩

/-- **C181**, deferred credentials. With a working state store and working signing, the deferred endpoint answers with a credential exactly when the transaction id is
that of unexpired deferred state, and the credential request saved there, made with the access token and to the issuer of this request, would get a credential. -/
theorem C181_collected_iff {P : Provider} {req : DeferredRequest} {e : Env} {w : World State} (hst : Working e w) (hsign : ∀ k c, P.signOk k c = true)
    (hn : ∀ i iss, P.issuer i = some iss → Dict.Nodup iss.configs) (hnt : ∀ s t, Session w req.accessToken s t → Dict.Nodup t.credentials) :
    (∃ resp c w', (deferred P req).run e w = (.ok resp, w') ∧ resp.response = .credential c) ↔
      ∃ st txn saved subj iss cfg ds, w.store req.transactionId = some st ∧ Live st w.now ∧ st.stage = .deferred txn saved ∧
        Served P w { saved with credentialIssuer := req.credentialIssuer, accessToken := req.accessToken } subj iss cfg ds ∧ ds.pending = false ∧
        CanMake P iss req.credentialIssuer cfg subj := by
  have hsess : ∀ st txn saved s t, w.store req.transactionId = some st → st.stage = .deferred txn saved →
      (Session { w with store := upd w.store req.transactionId none, ops := w.ops + 2 } req.accessToken s t ↔ Session w req.accessToken s t) := by
    intro st txn saved s t h1 h2
    unfold Session
    by_cases hk : req.transactionId = req.accessToken
    · simp only [← hk, upd_same, h1]
      exact ⟨fun h => (nomatch h.1), fun ⟨h, h'⟩ => by cases h; rw [h2] at h'; cases h'⟩
    · simp only [upd_other _ _ (Ne.symm hk)]
  have hserved : ∀ st txn saved creq subj iss cfg ds, w.store req.transactionId = some st → st.stage = .deferred txn saved → creq.accessToken = req.accessToken →
      (Served P { w with store := upd w.store req.transactionId none, ops := w.ops + 2 } creq subj iss cfg ds ↔ Served P w creq subj iss cfg ds) := by
    intro st txn saved creq subj iss cfg ds h1 h2 hq
    constructor
    · rintro ⟨g1, s, t, auth, hs, g2, g3, g4, g5⟩
      exact ⟨g1, s, t, auth, ⟨hq ▸ (hsess _ _ _ _ _ h1 h2).1 (hq ▸ hs.session), hs.live, hs.nonce, hs.subject⟩, g2, g3, g4, g5⟩
    · rintro ⟨g1, s, t, auth, hs, g2, g3, g4, g5⟩
      exact ⟨g1, s, t, auth, ⟨hq ▸ (hsess _ _ _ _ _ h1 h2).2 (hq ▸ hs.session), hs.live, hs.nonce, hs.subject⟩, g2, g3, g4, g5⟩
  have hiff : ∀ st txn saved, w.store req.transactionId = some st → st.stage = .deferred txn saved → _ := fun st txn saved h1 h2 =>
    C181_credential_given_iff (P := P) (req := { saved with credentialIssuer := req.credentialIssuer, accessToken := req.accessToken }) (e := e)
      (w := { w with store := upd w.store req.transactionId none, ops := w.ops + 2 })
      (fun n h => hst n (Nat.le_trans (Nat.le_add_right _ 2) h)) hsign hn (fun s t h => hnt s t ((hsess _ _ _ _ _ h1 h2).1 h))
  constructor
  · rintro ⟨resp, c, w', h, hc⟩
    obtain ⟨st, txn, saved, -, -, h1, h2, h3, h4, c', hc'⟩ := deferred_ok_iff.1 h
    obtain ⟨subj, iss, cfg, ds, g1, g2, g3⟩ := (hiff st txn saved h1 h3).1 ⟨resp, c', w', h4, hc'⟩
    exact ⟨st, txn, saved, subj, iss, cfg, ds, h1, h2, h3, (hserved _ _ _ _ _ _ _ _ h1 h3 rfl).1 g1, g2, g3⟩
  · rintro ⟨st, txn, saved, subj, iss, cfg, ds, h1, h2, h3, g1, g2, g3⟩
    obtain ⟨resp, c, w', h4, hc⟩ := (hiff st txn saved h1 h3).2 ⟨subj, iss, cfg, ds, (hserved _ _ _ _ _ _ _ _ h1 h3 rfl).2 g1, g2, g3⟩
    exact ⟨resp, c, w', deferred_ok_iff.2 ⟨st, txn, saved, hst _ (Nat.le_refl _), hst _ (by omega), h1, h2, h3, h4, c, hc⟩, hc⟩

/-! ### Examples -/

theorem Demo.served (pending : Bool) : Served (Demo.provider pending) Demo.validated (Demo.credReq (Demo.rng 2) (Demo.rng 3)) "normal" Demo.issuer Demo.employee
    (Demo.data pending) := by
  obtain ⟨s, t, auth, h1, h2, h3, h4, h5, h6, -⟩ := Demo.liveSession
  refine ⟨rfl, s, t, auth, h1, .identifier h4, by rw [h5]; exact .head _, ?_, rfl⟩
  rw [h2]
  intro types h
  cases h
  refine ⟨.head _, nofun, fun j hj => ?_⟩
  rcases hj with ⟨_, h⟩ | ⟨_, _, h, _⟩
  · cases h; exact ⟨_, _, _, rfl, rfl, rfl, rfl, rfl⟩
  · cases h

theorem Demo.session_nodup : ∀ s t, Session Demo.validated (Demo.rng 2) s t → Dict.Nodup t.credentials := by
  rintro s t ⟨h1, h2⟩
  obtain ⟨s', t', _, hs, -, hn, -⟩ := Demo.liveSession
  have := hs.session.1.symm.trans h1
  cases this
  have := hs.session.2.symm.trans h2
  cases this
  exact hn

/-- C181 is not vacuous: the demo request gets a credential, or a transaction id if the dataset is pending; an empty list of proofs is as good as a proof, none at all is
not. -/
example : (∃ resp c w', (credential Demo.provider (Demo.credReq (Demo.rng 2) (Demo.rng 3))).run Demo.env Demo.validated = (.ok resp, w') ∧ resp.response = .credential c) ∧
    (∃ resp txn w', (credential (Demo.provider true) (Demo.credReq (Demo.rng 2) (Demo.rng 3))).run Demo.env Demo.validated = (.ok resp, w') ∧
      resp.response = .transactionId txn) ∧
    (∃ resp c w', (credential Demo.provider { Demo.credReq (Demo.rng 2) (Demo.rng 3) with proof := some (.multiple []) }).run Demo.env Demo.validated = (.ok resp, w') ∧
      resp.response = .credential c) ∧
    ¬ ∃ resp c w', (credential Demo.provider { Demo.credReq (Demo.rng 2) (Demo.rng 3) with proof := none }).run Demo.env Demo.validated = (.ok resp, w') ∧
      resp.response = .credential c := by
  have hmake : CanMake Demo.provider Demo.issuer "http://vercre.io" Demo.employee "normal" :=
    ⟨⟨_, rfl⟩, .inr ⟨_, _, _, _, _, rfl, rfl, by decide, rfl⟩⟩
  have hn : ∀ pending i iss, (Demo.provider pending).issuer i = some iss → Dict.Nodup iss.configs := fun _ => Demo.nodup
  refine ⟨?_, ?_, ?_, ?_⟩
  · exact (C181_credential_given_iff (Demo.working _) (fun _ _ => rfl) Demo.nodup Demo.session_nodup).2 ⟨_, _, _, _, Demo.served false, rfl, hmake⟩
  · exact (C181_deferred_iff (Demo.working _) (hn true) Demo.session_nodup).2 ⟨_, _, _, _, Demo.served true, rfl⟩
  · refine (C181_credential_given_iff (Demo.working _) (fun _ _ => rfl) Demo.nodup Demo.session_nodup).2 ⟨"normal", Demo.issuer, Demo.employee, Demo.data false, ?_, rfl, hmake⟩
    obtain ⟨s, t, auth, h1, h2, h3, h4, h5, h6, -⟩ := Demo.liveSession
    refine ⟨rfl, s, t, auth, h1, .identifier h4, by rw [h5]; exact .head _, ?_, rfl⟩
    intro types h
    cases h
    refine ⟨.head _, nofun, fun j hj => ?_⟩
    rcases hj with ⟨_, h⟩ | ⟨_, _, h, h'⟩
    · cases h
    · cases h; cases h'
  · intro h
    obtain ⟨subj, iss, cfg, ds, ⟨h1, s, t, auth, hs, hp, hc, hdo, -⟩, -⟩ :=
      (C181_credential_given_iff (Demo.working _) (fun _ _ => rfl) Demo.nodup Demo.session_nodup).1 h
    cases h1
    have hs1 : Demo.validated.store (Demo.rng 2) = some s := hs.session.1
    rw [Demo.session] at hs1
    cases hs1
    have hs2 := hs.session.2
    cases hs2
    cases hp with
    | identifier hm =>
      simp only [Demo.tok, List.mem_singleton, Prod.mk.injEq] at hm
      obtain ⟨-, rfl⟩ := hm
      have : cfg = Demo.employee := by
        simp only [Demo.issuer, List.mem_cons, Prod.mk.injEq, List.not_mem_nil, or_false] at hc
        rcases hc with ⟨-, h⟩ | ⟨h, -⟩
        · exact h
        · exact absurd h (by decide)
      subst this
      exact (hdo _ rfl).2.1 rfl

/-- C181 (deferred credentials) is not vacuous: the data of the demo subject are pending when the credential is asked for (transaction id `ttttt`), and there when it is
collected. -/
example : ∃ resp c w', (deferred Demo.provider { credentialIssuer := "http://vercre.io", accessToken := Demo.rng 2, transactionId := Demo.rng 4 }).run Demo.env
      ((credential (Demo.provider true) (Demo.credReq (Demo.rng 2) (Demo.rng 3))).run Demo.env Demo.validated).2 = (.ok resp, w') ∧
    resp.response = .credential c := by
  refine (C181_collected_iff (Demo.working _) (fun _ _ => rfl) Demo.nodup ?_).2
    ⟨_, _, _, "normal", Demo.issuer, Demo.employee, Demo.data false, rfl, by unfold Live; decide, rfl, ⟨rfl, _, Demo.tok, ⟨"emp-1", "Employee", none⟩,
      ⟨⟨rfl, rfl⟩, by unfold Live; decide, by decide, rfl⟩, .identifier (.head _), .head _, ?_, rfl⟩, rfl, ⟨_, rfl⟩, .inr ⟨_, _, _, _, _, rfl, rfl, by decide, rfl⟩⟩
  · rintro s t ⟨h1, h2⟩
    cases h1; cases h2
    exact authorizedCredentials_nodup _
  · intro types h
    cases h
    refine ⟨.head _, nofun, fun j hj => ?_⟩
    rcases hj with ⟨_, h⟩ | ⟨_, _, h, _⟩
    · cases h; exact ⟨_, _, _, rfl, rfl, rfl, rfl, rfl⟩
    · cases h

end Verif.Issuer
