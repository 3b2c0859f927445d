import Verif.Interop.CodeProps
import Verif.Issuer.ExactProps
/-!
# From a wallet's request for a scope to its token, and on to a credential named by its format
-/
namespace Verif.Issuer
open Prog

/-- What the code for a request for a scope stands for: only its first word counts. -/
theorem scope_items {P : Provider} {e : Env} {w w' : World State} {r : RequestObject} {resp : AuthorizationResponse}
    (h : (authorize P (.object r)).run e w = (.ok resp, w')) {iss : Issuer} (hiss : P.issuer r.credentialIssuer = some iss)
    (hnd : Dict.Nodup iss.configs) (hds : r.authorizationDetails = none) {scope : String} (hsc : r.scope = some scope) {word : String} {rest : List String}
    (hword : splitWs scope = word :: rest)
    (hist : r.issuerState = none) :
    ∃ items, w'.store resp.code = some (Authorize.stored r items w.now) ∧ w'.now = w.now ∧ (items.map (·.configId)).Nodup ∧
      (∀ it ∈ items, P.authorize r.subjectId it.configId = some it.identifiers ∧ (∃ s, it.item = .scope s) ∧
        ∃ cfg, (it.configId, cfg) ∈ iss.configs ∧ cfg.scope = some word) ∧
      ∀ cid cfg, (cid, cfg) ∈ iss.configs → cfg.scope = some word → ∃ it ∈ items, it.configId = cid := by
  obtain ⟨r', iss', client, server, dd, ss, items, h1, h2, _, _, _, _, h7, h8, _, h10, h11, h12, h13, _⟩ := authorize_ok h
  cases h1
  rw [hiss] at h2; cases h2
  rw [hds] at h7
  cases h7
  rw [hsc] at h8
  simp only [Authorize.verifyScopeOpt, Authorize.verifyScope, hword] at h8
  split at h8
  · cases h8
  cases h8
  obtain ⟨_, hperm, hit⟩ := Authorize.authorizeItems_spec h10
  simp only [List.map_nil, List.nil_append, List.map_map] at hperm
  have hkeys : ∀ cid, cid ∈ items.map (fun it => it.configId) ↔ ∃ cfg, (cid, cfg) ∈ iss.configs ∧ cfg.scope = some word := by
    intro cid
    rw [hperm.mem_iff]
    simp only [List.mem_map, List.mem_filter, Function.comp_apply, Prod.exists]
    constructor
    · rintro ⟨a, b, ⟨g1, g2⟩, rfl⟩
      exact ⟨b, g1, by simpa [Dict.has, Dict.get?] using g2⟩
    · rintro ⟨cfg, g1, g2⟩
      exact ⟨cid, cfg, ⟨g1, by simp [g2, Dict.has, Dict.get?]⟩, rfl⟩
  refine ⟨items, ?_, h13, ?_, ?_, ?_⟩
  · rw [h12, h11, hist]; simp
  · rw [hperm.nodup_iff]
    exact List.Nodup.sublist (List.Sublist.map _ List.filter_sublist) (show (iss.configs.map Prod.fst).Nodup from hnd)
  · intro it hi
    obtain ⟨a1, a2⟩ := hit it hi
    refine ⟨a1, ?_, (hkeys _).1 (List.mem_map.2 ⟨it, hi, rfl⟩)⟩
    rcases a2 with ⟨d, _, b2⟩ | ⟨s, b1, _⟩
    · cases b2
    · exact ⟨s, b1⟩
  · intro cid cfg hc hs
    obtain ⟨it, h1, h2⟩ := List.mem_map.1 ((hkeys cid).2 ⟨cfg, hc, hs⟩)
    exact ⟨it, h1, h2⟩

theorem authorizedDetails_scope {items : List AuthorizedItem} (h : ∀ it ∈ items, ∃ s, it.item = .scope s) : Token.authorizedDetails items = none := by
  have hd : Token.authorizedDetails items = (if (items.filterMap Interop.detailOf).isEmpty then none else some (items.filterMap Interop.detailOf)) := rfl
  have : items.filterMap Interop.detailOf = [] := by
    rw [List.filterMap_eq_nil_iff]
    intro it hit
    obtain ⟨s, hs⟩ := h it hit
    simp [Interop.detailOf, hs]
  rw [hd, this]
  rfl

/-- Serving a request for a W3C credential by its format: the response and the world after it. -/
theorem issue_format_runs {P : Provider} {req : CredentialRequest} {e : Env} {w : World State} (hst : Working e w) {subj : String} {s : State} {t : Token}
    (hs : LiveSession w req.accessToken subj s t) {iss : Issuer} (hiss : P.issuer req.credentialIssuer = some iss)
    (hn : Dict.Nodup iss.configs) {cid : String} {cfg : CredentialConfiguration} (hf : req.credential = .format cfg.format) (hcfg : (cid, cfg) ∈ iss.configs)
    (huniq : ∀ cid' cfg', (cid', cfg') ∈ iss.configs → cfg'.format.eqv cfg.format = true → cid' = cid) (hself : cfg.format.eqv cfg.format = true)
    (hauth : ∃ id auth, (id, auth) ∈ t.credentials ∧ auth.configId = cid)
    {ids : List String} (hall : ∀ id auth, (id, auth) ∈ t.credentials → auth.configId = cid → auth.claimIds = none ∧ auth.identifier ∈ ids)
    {did : String} (hp : ProofsFit P cfg t.cNonce req did) {claims : String → Dict Json}
    (hd : ∀ id ∈ ids, ∃ ds, P.dataset subj id = some ds ∧ ds.pending = false ∧ ds.claims = claims id)
    (hcan : CanIssue P iss req.credentialIssuer cfg subj) {d : CredentialDefinition} (hfmt : cfg.format = .jwtVcJson d) :
    ∃ signer vc id held, id ∈ ids ∧ (∀ k v, (k, v) ∈ held ↔ (k, v) ∈ claims id ∧ ∀ named, d.credentialSubject = some named → k ∈ Dict.keys named) ∧
      vc.issuer = .string iss.credentialIssuer ∧ vc.subject = .one { id := some did, claims := held } ∧
      (vc.validUntil = none ∧ ∃ types ty, d.type_ = some types ∧ types[1]? = some ty ∧ vc.type_ = .many ["VerifiableCredential", ty]) ∧
      (credential P req).run e w = (.ok (Credential.issuedResponse (.jwtVc signer vc (w.now.fdiv sec)) (e.rng w.drawn) (e.rng (w.drawn + 1)) w.now),
        { w with
          store := upd (upd w.store t.accessToken (some (renewed s t (e.rng w.drawn) (w.now + accessDur) (w.now + nonceDur)))) (e.rng (w.drawn + 1))
            (some (renewed s t (e.rng w.drawn) (w.now + accessDur) (w.now + nonceDur)))
          drawn := w.drawn + 2
          ops := w.ops + 3 }) := by
  have hcid : iss.configurationId cfg.format = some cid := by
    simp only [Issuer.configurationId, Option.map_eq_some_iff]
    cases hfi : iss.configs.find? fun e => e.2.format.eqv cfg.format with
    | none => exact absurd hself (List.find?_eq_none.1 hfi _ hcfg)
    | some x => exact ⟨x, rfl, huniq x.1 x.2 (List.mem_of_find?_eq_some hfi) (List.find?_some hfi :)⟩
  obtain ⟨auth, hfind⟩ : ∃ auth, (Dict.values (P.iter t.credentials)).find? (fun a => a.configId == cid) = some auth := by
    cases hfi : (Dict.values (P.iter t.credentials)).find? (fun a => a.configId == cid) with
    | some a => exact ⟨a, rfl⟩
    | none =>
      obtain ⟨id, auth, h1, h2⟩ := hauth
      have := List.find?_eq_none.1 hfi auth (List.mem_map.2 ⟨(id, auth), (P.iter_perm _).mem_iff.2 h1, rfl⟩)
      simp [h2] at this
  have hac : auth.configId = cid := by simpa using List.find?_some hfind
  obtain ⟨⟨id, auth'⟩, hmem, rfl⟩ := List.mem_map.1 (List.mem_of_find?_eq_some hfind)
  simp only at hfind hac
  obtain ⟨hlim, hin⟩ := hall id auth' ((P.iter_perm _).mem_iff.1 hmem) hac
  obtain ⟨ds, hds, hpend, hcl⟩ := hd _ hin
  have hctx : Credential.context P s req = .ok { state := s, issuer := iss, authorized := auth', config := cfg } := by
    refine Credential.context_ok.2 ⟨rfl, hiss, ?_, ?_⟩
    · simp only [Credential.authorized, hs.session.2, hf, Except.bind_ok, orErr_ok]
      exact ⟨cid, hcid, hfind⟩
    · rw [hac]; exact Dict.get?_of_mem hn hcfg
  have hnar : Credential.narrowing req = d.credentialSubject.map Dict.keys := by
    simp only [Credential.narrowing, hf, hfmt]
  have hdat : Credential.dataset P { state := s, issuer := iss, authorized := auth', config := cfg } req =
      .ok { ds with claims := Credential.narrow ds.claims (d.credentialSubject.map Dict.keys) } := by
    simp only [Credential.dataset, Except.bind_ok, orErr_ok, pure, Except.pure]
    refine ⟨subj, hs.subject, ds, hds, ?_⟩
    rw [hlim, hnar]
    rfl
  obtain ⟨c, hc, _⟩ := hcan.signed (ctx := { state := s, issuer := iss, authorized := auth', config := cfg }) (did := did) (now := w.now)
    (ds := { ds with claims := Credential.narrow ds.claims (d.credentialSubject.map Dict.keys) }) hs.subject
  have hsg := hc
  simp only [Credential.signed, Except.bind_ok, orErr_ok, hfmt, require_ok, pure, Except.pure, Except.ok.injEq] at hsg
  obtain ⟨k, _, vc, hvc, _, _, rfl⟩ := hsg
  obtain ⟨types, ty, _, _, hy1, hy2, _, _, _, _, hy3, h1, h2, _, _, _, hu⟩ := Credential.w3cVc_ok hvc
  refine ⟨k, vc, auth'.identifier, _, hin, ?_, h1, h2, ⟨hu, types, ty, hy1, hy2, hy3⟩, credential_ok_iff.2 ⟨s, _, t, did, _, hst _ (Nat.le_refl _),
    hs.session.1, hctx, hs.session.2, hs.live, hs.nonce, hp.checked, hdat, .inr ⟨hpend, _, hc, hst _ (by omega), hst _ (by omega), rfl, rfl⟩⟩⟩
  intro k v
  rw [Credential.mem_narrow, hcl]
  constructor
  · rintro ⟨g1, g2⟩; exact ⟨g1, fun named hn => g2 _ (by simp [hn])⟩
  · rintro ⟨g1, g2⟩
    refine ⟨g1, fun l hl => ?_⟩
    obtain ⟨named, hn, rfl⟩ := Option.map_eq_some_iff.1 hl
    exact g2 named hn

end Verif.Issuer

namespace Verif.Holder
open Verif HProg

variable {e : HEnv} {w : HWorld}

/-- Starting a flow for a scope. -/
theorem startFlow_scope {req : AuthorizeRequest} {client url scope subj : String} (hi : req.initiator = .wallet client url (some scope) subj)
    (hno : req.authorizationDetails = none) {md : Verif.Issuer} {sv : Server} (hmd : e.oracle w.log w.recent (.metadata url) = some md)
    (hsv : e.oracle w.log (w.recent ++ [⟨.metadata url, some md⟩]) (.oauthServer url) = some sv) :
    (startFlow req).run e w = (.ok { id := e.rng w.drawn, clientId := client, subjectId := subj, issuer := md, server := sv, scope := some scope }, { w with
      drawn := w.drawn + 1
      recent := w.recent ++ [⟨.metadata url, some md⟩, ⟨.oauthServer url, some sv⟩] }) := by
  simp only [startFlow, hi, hno, newIssuance, setIssuer, run_bind, run_lift, Option.isSome_none, Bool.false_and, Bool.not_false, check, if_true, run_draw, run_pure]
  rw [run_call (w := { w with drawn := w.drawn + 1 }) hmd]
  simp only
  rw [run_call (w := { w with drawn := w.drawn + 1, recent := w.recent ++ [⟨.metadata url, some md⟩] }) hsv]
  simp only [List.append_assoc, List.cons_append, List.nil_append]

/-- The request for a credential by its format, as `byFormat` makes it: /repo/vercre-holder/src/issuance/credentials.rs 157-165. -/
def formatRequest (i : Issuance) (jwt : String) (f : Format) : Issuer.CredentialRequest where
  credentialIssuer := i.issuer.credentialIssuer
  accessToken := i.token.accessToken
  credential := .format f
  proof := some (.single jwt)

/-- Collecting the credential of a scope and a format. -/
theorem credentials_runs_format (hf : ∀ n, e.fault n = .ok) {P : Provider} {k : String} {i : Issuance} (hi : w.store k = some (.issuance i))
    (hs : i.status = .tokenReceived) (hk : i.id = k) {scope : String} (hsc : i.scope = some scope) {jwt : String}
    (hj : P.signProof (proofClaims i w.now) = some jwt) {format : Format} {cid : String} {config : CredentialConfiguration}
    (hfind : i.issuer.configs.find? (fun e => e.2.scope == some scope && e.2.format.eqv format) = some (cid, config)) (hdisp : config.display ≠ some [])
    {r : CredentialResponse} (hr : e.oracle w.log w.recent (.credential (formatRequest i jwt config.format)) = some r) {text : String}
    (htext : r.response = .credential (.string text)) {claims : VcClaims} (hc : P.jose.decodeVc text = some claims)
    (ht : P.validTime claims.iat = true) :
    ∃ c resp evs dr, (credentials P ⟨k, none, some format⟩).run e w = (.ok resp, { w with
        store := upd w.store k (some (.issuance (i.record cid ([c], none))))
        ops := w.ops + 2
        drawn := dr
        recent := w.recent ++ ⟨.credential (formatRequest i jwt config.format), some r⟩ :: evs }) ∧ c.vc = claims.vc ∧ c.issued = text ∧
      c.issuanceDate = claims.iat ∧ c.issuer = (match claims.vc.issuer with | .string i => i | .object o => o.id) ∧
      ∀ ev ∈ evs, ∃ u, ev.call = .logo u := by
  obtain ⟨c, evs, dr, h1, h2, h3, h4, h5, h6⟩ := storable_runs (e := e)
    (w := { w with
      ops := w.ops + 1
      recent := w.recent ++ [⟨.credential (formatRequest i jwt config.format), some r⟩] }) hdisp hc ht
  refine ⟨c, .credentials k (i.record cid ([c], none)).outstanding, evs, dr, ?_, h2, h3, h4, h5, h6⟩
  have hrun : (byFormat P i ⟨k, none, some format⟩ jwt).run e { w with ops := w.ops + 1 } = (.ok (i.record cid ([c], none)), { w with
      ops := w.ops + 1
      drawn := dr
      recent := w.recent ++ ⟨.credential (formatRequest i jwt config.format), some r⟩ :: evs }) := by
    simp only [byFormat, run_bind, run_lift, check, Option.isNone_none, if_true, need, hsc, hfind]
    simp only [formatRequest] at hr h1 ⊢
    rw [run_call (w := { w with ops := w.ops + 1 }) hr]
    simp only [process, htext, run_bind, h1, run_pure, List.append_assoc, List.cons_append, List.nil_append]
  simp only [credentials, run_bind, run_get hf hi, run_lift, hs, check, beq_self_eq_true, if_true, run_now, hj, need, fetch, hsc,
    Option.isSome_some, hrun, run_pure, run_put hf]
  simp only [Issuance.record, hk, Issuance.outstanding]

end Verif.Holder
