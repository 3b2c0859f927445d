import Verif.Interop.Model
import Verif.Holder.Lemmas
/-!
# Running the wallet's endpoints when everything they call works
-/
namespace Verif.Holder
open Verif HProg

variable {e : HEnv} {w : HWorld} {α : Type}

theorem ok_bind {ε α β : Type} (a : α) (f : α → Except ε β) : ((Except.ok a : Except ε α) >>= f) = f a := rfl

theorem ok_pure {ε α : Type} (a : α) : (pure a : Except ε α) = .ok a := rfl

theorem run_lift (r : HRes α) : (lift r : HProg α).run e w = (r, w) := rfl

theorem run_pure (a : α) : (pure a : HProg α).run e w = (.ok a, w) := rfl

theorem run_draw : drawE.run e w = (.ok (e.rng w.drawn), { w with drawn := w.drawn + 1 }) := rfl

theorem run_now : nowE.run e w = (.ok w.now, w) := rfl

theorem run_get (hf : ∀ n, e.fault n = .ok) {k : String} {i : Issuance} (h : w.store k = some (.issuance i)) :
    (getIssuance k).run e w = (.ok i, { w with ops := w.ops + 1 }) := by
  simp [getIssuance, run, hf, Prog.getRes, h]

theorem run_put (hf : ∀ n, e.fault n = .ok) (k : String) (v : HVal) :
    (putE k v).run e w = (.ok (), { w with store := upd w.store k (some v), ops := w.ops + 1 }) := by
  simp [putE, run, hf, Prog.writeRes]

theorem run_purge (hf : ∀ n, e.fault n = .ok) (k : String) :
    (purgeE k).run e w = (.ok (), { w with store := upd w.store k none, ops := w.ops + 1 }) := by
  simp [purgeE, run, hf, Prog.writeRes]

theorem run_call {c : Call} {r : c.Reply} (h : e.oracle w.log w.recent c = some r) :
    (callE c).run e w = (.ok r, { w with recent := w.recent ++ [⟨c, some r⟩] }) := by
  simp [callE, run, h]

theorem run_callFail {c : Call} (h : e.oracle w.log w.recent c = none) :
    (callE c).run e w = (.error .provider, { w with recent := w.recent ++ [⟨c, none⟩] }) := by
  simp [callE, run, h]

theorem run_try {c : Call} :
    (callO c).run e w = (.ok (e.oracle w.log w.recent c), { w with recent := w.recent ++ [⟨c, e.oracle w.log w.recent c⟩] }) := rfl

/-- The flow an offer starts. -/
def offeredFlow (k : String) (req : OfferRequest) (md : Verif.Issuer) (sv : Server) : Issuance :=
  { id := k, clientId := req.clientId, subjectId := req.subjectId, status := .ready, offer := req.offer, issuer := md, server := sv }

theorem offeredConfigs_ok {configs : Dict CredentialConfiguration} {ids : List String} (h : ∀ id ∈ ids, ∃ c, configs.get? id = some c)
    (acc : Dict CredentialConfiguration) : ∃ r, offeredConfigs configs ids acc = .ok r := by
  induction ids generalizing acc with
  | nil => exact ⟨acc, rfl⟩
  | cons id ids ih =>
    obtain ⟨c, hc⟩ := h id (.head _)
    obtain ⟨r, hr⟩ := ih (fun x hx => h x (.tail _ hx)) (acc.insert id c)
    exact ⟨r, by simp [offeredConfigs, hc, need, ok_bind, hr]⟩

theorem offer_runs (hf : ∀ n, e.fault n = .ok) {req : OfferRequest} (hne : req.offer.configIds ≠ []) {md : Verif.Issuer} {sv : Server}
    (hmd : e.oracle w.log w.recent (.metadata req.offer.credentialIssuer) = some md)
    (hsv : e.oracle w.log (w.recent ++ [⟨.metadata req.offer.credentialIssuer, some md⟩]) (.oauthServer req.offer.credentialIssuer) = some sv)
    (hcs : ∀ id ∈ req.offer.configIds, ∃ c, md.configs.get? id = some c) :
    ∃ r, (offer req).run e w = (.ok r, { w with
      store := upd w.store (e.rng w.drawn) (some (.issuance (offeredFlow (e.rng w.drawn) req md sv)))
      drawn := w.drawn + 1
      ops := w.ops + 1
      recent := w.recent ++ [⟨.metadata req.offer.credentialIssuer, some md⟩, ⟨.oauthServer req.offer.credentialIssuer, some sv⟩] }) := by
  obtain ⟨cs, hcs⟩ := offeredConfigs_ok hcs []
  have hne' : (!req.offer.configIds.isEmpty) = true := by simpa using hne
  refine ⟨.offer (e.rng w.drawn) req.offer.credentialIssuer cs req.offer.grants, ?_⟩
  simp only [offer, newIssuance, setIssuer, run_bind, run_lift, check, hne', if_true, run_draw, run_pure]
  rw [run_call (w := { w with drawn := w.drawn + 1 }) hmd]
  simp only
  rw [run_call (w := { w with drawn := w.drawn + 1, recent := w.recent ++ [⟨.metadata req.offer.credentialIssuer, some md⟩] }) hsv]
  simp only
  rw [run_put hf]
  simp only [hcs, List.append_assoc, List.cons_append, List.nil_append]
  rfl

theorem accept_runs (hf : ∀ n, e.fault n = .ok) {k : String} {i : Issuance} (hi : w.store k = some (.issuance i)) (hs : i.status = .ready)
    (hk : i.id = k) : (accept ⟨k, none⟩).run e w = (.ok (.flow k), { w with
      store := upd w.store k (some (.issuance { i with
        accepted := none
        status := if needsPin i.offer then .pendingPin else .accepted }))
      ops := w.ops + 2 }) := by
  simp only [accept, run_bind, run_get hf hi, run_lift, hs, check, narrowScope, beq_self_eq_true, if_true]
  rw [run_put hf]
  simp [hk, run_pure]

theorem pin_runs (hf : ∀ n, e.fault n = .ok) {k : String} {i : Issuance} (hi : w.store k = some (.issuance i)) (hs : i.status = .pendingPin)
    (hk : i.id = k) (p : String) : (pin ⟨k, p⟩).run e w = (.ok (.flow k), { w with
      store := upd w.store k (some (.issuance { i with
        pin := some p
        status := .accepted }))
      ops := w.ops + 2 }) := by
  simp only [pin, run_bind, run_get hf hi, run_lift, hs, check, beq_self_eq_true, if_true]
  rw [run_put hf]
  simp [hk, run_pure]

/-- The token request of an accepted flow. -/
def flowTokenRequest (i : Issuance) (code : String) : Issuer.TokenRequest where
  credentialIssuer := i.issuer.credentialIssuer
  clientId := some i.clientId
  grantType := .preAuthorizedCode code i.pin
  authorizationDetails := i.accepted

theorem authorizedCredentials_ok (iss : Verif.Issuer) {l : List Issuer.AuthorizedDetail}
    (h : ∀ d ∈ l, ∃ id c, d.detail.credential = .configurationId id c) (acc : Dict (List String)) :
    ∃ m, authorizedCredentials iss l acc = .ok m := by
  induction l generalizing acc with
  | nil => exact ⟨acc, rfl⟩
  | cons d l ih =>
    obtain ⟨id, c, hc⟩ := h d (.head _)
    obtain ⟨m, hm⟩ := ih (fun x hx => h x (.tail _ hx)) (acc.insert id d.identifiers)
    exact ⟨m, by simp [authorizedCredentials, detailConfig, hc, ok_bind, hm]⟩

theorem token_runs (hf : ∀ n, e.fault n = .ok) {k : String} {i : Issuance} (hi : w.store k = some (.issuance i)) (hs : i.status = .accepted)
    (hk : i.id = k) {g : Issuer.Grants} {p : Issuer.PreAuthorizedCodeGrant} (hg : i.offer.grants = some g) (hp : g.preAuthorizedCode = some p)
    {t : Issuer.TokenResponse} (ht : e.oracle w.log w.recent (.token (flowTokenRequest i p.preAuthorizedCode)) = some t)
    {l : List Issuer.AuthorizedDetail} (hl : t.authorizationDetails = some l)
    (hd : ∀ d ∈ l, ∃ id c, d.detail.credential = .configurationId id c) :
    ∃ m, (token k).run e w = (.ok (.authorized k (some m)), { w with
      store := upd w.store k (some (.issuance { i with
        token := t
        status := .tokenReceived }))
      ops := w.ops + 2
      recent := w.recent ++ [⟨.token (flowTokenRequest i p.preAuthorizedCode), some t⟩] }) := by
  obtain ⟨m, hm⟩ := authorizedCredentials_ok i.issuer hd []
  refine ⟨m, ?_⟩
  have hreq : tokenRequest i = .ok (flowTokenRequest i p.preAuthorizedCode) := by
    simp [tokenRequest, hg, hp, need, flowTokenRequest, ok_bind, ok_pure]
  simp only [token, run_bind, run_get hf hi, run_lift, preAuthorized, hg, hp, hs, check, hreq, Option.bind_some, Option.isSome_some,
    Bool.true_and, beq_self_eq_true, if_true]
  rw [run_call (w := { w with ops := w.ops + 1 }) ht]
  simp only [hl, authorizedOf, hm, ok_bind, ok_pure]
  rw [run_put hf]
  simp [hk, run_pure]

/-- Everything works when a credential is taken in. -/
theorem storable_runs {P : Provider} {config : CredentialConfiguration} (hd : config.display ≠ some []) {text : String} {claims : VcClaims}
    (hc : P.jose.decodeVc text = some claims) (ht : P.validTime claims.iat = true) :
    ∃ c evs dr, (storable P config (.string text)).run e w = (.ok c, { w with
        drawn := dr
        recent := w.recent ++ evs }) ∧ c.vc = claims.vc ∧ c.issued = text ∧ c.issuanceDate = claims.iat ∧
      c.issuer = (match claims.vc.issuer with | .string i => i | .object o => o.id) ∧ ∀ ev ∈ evs, ∃ u, ev.call = .logo u := by
  have hid : ∃ id dr, (storableId claims.vc).run e w = (.ok id, { w with drawn := dr }) := by
    unfold storableId
    cases claims.vc.id with
    | some id => exact ⟨id, w.drawn, rfl⟩
    | none => exact ⟨"urn:uuid:" ++ e.rng w.drawn, w.drawn + 1, rfl⟩
  obtain ⟨id, dr, hid⟩ := hid
  have huri : ∃ u, logoUri config.display = .ok u := by
    unfold logoUri
    cases hdd : config.display with
    | none => exact ⟨none, rfl⟩
    | some l => cases l with
      | nil => exact absurd hdd hd
      | cons d l => exact ⟨d.logoUri, rfl⟩
  obtain ⟨u, hu⟩ := huri
  have hlogo : ∃ lg evs, (fetchLogo u).run e { w with drawn := dr } = (.ok lg, { w with
      drawn := dr
      recent := w.recent ++ evs }) ∧ ∀ ev ∈ evs, ∃ u, ev.call = .logo u := by
    cases u with
    | none => exact ⟨none, [], by simp [fetchLogo, run_pure], by intro ev h; cases h⟩
    | some uri => exact ⟨_, _, rfl, by intro ev h; simp at h; subst h; exact ⟨uri, rfl⟩⟩
  obtain ⟨lg, evs, hlogo, hev⟩ := hlogo
  refine ⟨⟨id, (match claims.vc.issuer with | .string i => i | .object o => o.id), claims.vc, text, claims.iat, config.display, lg⟩,
    evs, dr, ?_, rfl, rfl, rfl, rfl, hev⟩
  simp only [storable, run_bind, run_lift, Proof.verifyVc, hc, orErr, ok_bind, ok_pure, ofRes, check, ht, if_true, hid, hu, hlogo,
    run_pure]
  cases claims.vc.issuer <;> rfl

theorem byIdentifiers_skip {P : Provider} {jwt cfg : String} {config : CredentialConfiguration} {wanted : Option (List String)} {ids : List String}
    (h : ∀ x ∈ ids, wants wanted x = false) (i : Issuance) : (byIdentifiers P jwt cfg config wanted ids i).run e w = (.ok i, w) := by
  induction ids with
  | nil => rfl
  | cons x ids ih =>
    simp only [byIdentifiers, h x (.head _), Bool.false_eq_true, if_false]
    exact ih fun y hy => h y (.tail _ hy)

theorem byIdentifiers_append {P : Provider} {jwt cfg : String} {config : CredentialConfiguration} {wanted : Option (List String)} {ids : List String}
    (h : ∀ x ∈ ids, wants wanted x = false) (rest : List String) (i : Issuance) :
    byIdentifiers P jwt cfg config wanted (ids ++ rest) i = byIdentifiers P jwt cfg config wanted rest i := by
  induction ids with
  | nil => rfl
  | cons x ids ih =>
    simp only [List.cons_append, byIdentifiers, h x (.head _), Bool.false_eq_true, if_false]
    exact ih fun y hy => h y (.tail _ hy)

/-- A configuration of the issuer that credentials are authorized for. -/
def Known (iss : Verif.Issuer) (d : Issuer.AuthorizedDetail) : Prop :=
  ∃ cid cl config, d.detail.credential = .configurationId cid cl ∧ iss.configs.get? cid = some config

theorem byDetails_skip {P : Provider} {jwt : String} {wanted : Option (List String)} {i : Issuance} {l : List Issuer.AuthorizedDetail}
    (hk : ∀ d ∈ l, Known i.issuer d) (h : ∀ d ∈ l, ∀ x ∈ d.identifiers, wants wanted x = false) :
    (byDetails P jwt wanted l i).run e w = (.ok i, w) := by
  induction l with
  | nil => rfl
  | cons d l ih =>
    obtain ⟨cid, cl, config, h1, h2⟩ := hk d (.head _)
    simp only [byDetails, run_bind, run_lift, detailConfig, h1, h2, need, byIdentifiers_skip (h d (.head _)) i]
    exact ih (fun d hd => hk d (.tail _ hd)) fun d hd => h d (.tail _ hd)

theorem byDetails_append {P : Provider} {jwt : String} {wanted : Option (List String)} {i : Issuance} {l : List Issuer.AuthorizedDetail}
    (hk : ∀ d ∈ l, Known i.issuer d) (h : ∀ d ∈ l, ∀ x ∈ d.identifiers, wants wanted x = false) (rest : List Issuer.AuthorizedDetail) :
    (byDetails P jwt wanted (l ++ rest) i).run e w = (byDetails P jwt wanted rest i).run e w := by
  induction l with
  | nil => rfl
  | cons d l ih =>
    obtain ⟨cid, cl, config, h1, h2⟩ := hk d (.head _)
    simp only [List.cons_append, byDetails, run_bind, run_lift, detailConfig, h1, h2, need, byIdentifiers_skip (h d (.head _)) i]
    exact ih (fun d hd => hk d (.tail _ hd)) fun d hd => h d (.tail _ hd)

/-- Collecting one credential of a flow, which is the only one wanted: the issuer is asked for that one and no other. -/
theorem credentials_runs_wanted (hf : ∀ n, e.fault n = .ok) {P : Provider} {k : String} {i : Issuance} (hi : w.store k = some (.issuance i))
    (hs : i.status = .tokenReceived) (hk : i.id = k) (hsc : i.scope = none) {jwt : String} (hj : P.signProof (proofClaims i w.now) = some jwt)
    {a b : List Issuer.AuthorizedDetail} {d : Issuer.AuthorizedDetail} (hl : i.token.authorizationDetails = some (a ++ d :: b))
    (hkn : ∀ d' ∈ a ++ d :: b, Known i.issuer d') {cid : String} {cl : Option ProfileClaims}
    (hd : d.detail.credential = .configurationId cid cl) {x y : List String} {id : String} (hid : d.identifiers = x ++ id :: y)
    (ha : ∀ d' ∈ a, id ∉ d'.identifiers) (hb : ∀ d' ∈ b, id ∉ d'.identifiers) (hx : id ∉ x) (hy : id ∉ y)
    {wanted : Option (List String)} (hself : wants wanted id = true) (hw : ∀ d' ∈ a ++ d :: b, ∀ z ∈ d'.identifiers, id ≠ z → wants wanted z = false)
    {config : CredentialConfiguration}
    (hcfg : i.issuer.configs.get? cid = some config) (hdisp : config.display ≠ some []) {r : CredentialResponse}
    (hr : e.oracle w.log w.recent (.credential (identifierRequest i jwt id)) = some r) {text : String}
    (htext : r.response = .credential (.string text)) {claims : VcClaims} (hc : P.jose.decodeVc text = some claims)
    (ht : P.validTime claims.iat = true) :
    ∃ c resp evs dr, (credentials P ⟨k, wanted, none⟩).run e w = (.ok resp, { w with
        store := upd w.store k (some (.issuance ((i.record cid ([c], none)).renew r)))
        ops := w.ops + 2
        drawn := dr
        recent := w.recent ++ ⟨.credential (identifierRequest i jwt id), some r⟩ :: evs }) ∧ c.vc = claims.vc ∧ c.issued = text ∧
      c.issuanceDate = claims.iat ∧ c.issuer = (match claims.vc.issuer with | .string i => i | .object o => o.id) ∧
      ∀ ev ∈ evs, ∃ u, ev.call = .logo u := by
  obtain ⟨c, evs, dr, h1, h2, h3, h4, h5, h6⟩ := storable_runs (e := e)
    (w := { w with
      ops := w.ops + 1
      recent := w.recent ++ [⟨.credential (identifierRequest i jwt id), some r⟩] }) hdisp hc ht
  refine ⟨c, .credentials k ((i.record cid ([c], none)).renew r).outstanding, evs, dr, ?_, h2, h3, h4, h5, h6⟩
  have hrun : (byDetails P jwt wanted (a ++ d :: b) i).run e { w with ops := w.ops + 1 } = (.ok ((i.record cid ([c], none)).renew r), { w with
      ops := w.ops + 1
      drawn := dr
      recent := w.recent ++ ⟨.credential (identifierRequest i jwt id), some r⟩ :: evs }) := by
    rw [byDetails_append (fun d' hd' => hkn d' (List.mem_append_left _ hd')) fun d' hd' z hz => hw d' (List.mem_append_left _ hd') z hz fun he => ha d' hd' (he ▸ hz)]
    simp only [byDetails, run_bind, run_lift, detailConfig, hd, hcfg, need, hid,
      byIdentifiers_append (fun z hz => hw d (by simp) z (by rw [hid]; simp [hz]) fun he => hx (he ▸ hz)), byIdentifiers, hself, if_true,
      run_call (w := { w with ops := w.ops + 1 }) hr, process, htext, h1, run_pure,
      byIdentifiers_skip (fun z hz => hw d (by simp) z (by rw [hid]; simp [hz]) fun he => hy (he ▸ hz))]
    rw [byDetails_skip (i := (i.record cid ([c], none)).renew r) (fun d' hd' => hkn d' (List.mem_append_right _ (.tail _ hd')))
      fun d' hd' z hz => hw d' (by simp [hd']) z hz fun he => hb d' hd' (he ▸ hz)]
    simp only [List.append_assoc, List.cons_append, List.nil_append]
  simp only [credentials, run_bind, run_get hf hi, run_lift, hs, check, beq_self_eq_true, if_true, run_now, hj, need, fetch, hsc,
    Option.isSome_none, Bool.false_eq_true, if_false, byIdentifier, hl, hrun, run_pure, run_put hf]
  simp only [Issuance.record, Issuance.renew, hk, Issuance.outstanding]

/-- Everything works when credentials are put away. -/
theorem saveAll_runs {i : Issuance} (hs : ∀ log recent c, e.oracle log recent (.save c) = some ()) (l : List Credential) :
    (saveAll i l).run e w = (.ok (), { w with recent := w.recent ++ l.map fun c => ⟨.save c, some ()⟩ }) := by
  induction l generalizing w with
  | nil => simp [saveAll, run_pure]
  | cons c l ih =>
    simp only [saveAll, run_bind, run_try, hs, ih, List.map_cons, List.append_assoc, List.cons_append, List.nil_append]
    rfl

/-- Saving the credentials of a flow ends it. -/
theorem save_runs (hf : ∀ n, e.fault n = .ok) {k : String} {i : Issuance} (hi : w.store k = some (.issuance i)) (hd : i.deferred = [])
    (hn : i.notificationId = none) (hs : ∀ log recent c, e.oracle log recent (.save c) = some ()) :
    (save k).run e w = (.ok (.flow k), { w with
      store := upd w.store k none
      ops := w.ops + 2
      recent := w.recent ++ i.credentials.map fun c => ⟨.save c, some ()⟩ }) := by
  simp only [save, run_bind, run_get hf hi, saveAll_runs hs, run_pure, notifyOutcome, hn, endFlow, hd, List.isEmpty_nil, if_true,
    run_purge hf]

end Verif.Holder
