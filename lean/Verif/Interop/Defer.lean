import Verif.Interop.Props
/-!
# Credentials put off by the issuer: running both sides
-/
namespace Verif.Issuer
open Prog

/-- Serving a request for a credential whose data are pending. -/
theorem defer_runs {P : Provider} {req : CredentialRequest} {e : Env} {w : World State} (hst : Working e w) {subj : String} {s : State} {t : Token}
    (hs : LiveSession w req.accessToken subj s t) {iss : Issuer} (hiss : P.issuer req.credentialIssuer = some iss)
    (hn : Dict.Nodup iss.configs) (hnt : Dict.Nodup t.credentials) {id cid : String} (hid : req.credential = .identifier id)
    (hm : (id, ({ identifier := id, configId := cid, claimIds := none } : Authorized)) ∈ t.credentials) {cfg : CredentialConfiguration}
    (hcfg : (cid, cfg) ∈ iss.configs) {did : String} (hp : ProofsFit P cfg t.cNonce req did) {ds : Dataset} (hd : P.dataset subj id = some ds)
    (hpend : ds.pending = true) :
    (credential P req).run e w = (.ok { response := .transactionId (e.rng w.drawn) }, { w with
      store := upd w.store (e.rng w.drawn) (some (Credential.deferredState (e.rng w.drawn) req w.now))
      drawn := w.drawn + 1
      ops := w.ops + 2 }) := by
  have hctx : Credential.context P s req = .ok
      { state := s, issuer := iss, authorized := { identifier := id, configId := cid, claimIds := none }, config := cfg } :=
    Credential.context_ok.2 ⟨rfl, hiss, by simp [Credential.authorized, hs.session.2, hid, Dict.get?_of_mem hnt hm, orErr], Dict.get?_of_mem hn hcfg⟩
  have hds : Credential.dataset P { state := s, issuer := iss, authorized := { identifier := id, configId := cid, claimIds := none }, config := cfg }
      req = .ok ds := by
    simp only [Credential.dataset, Except.bind_ok, orErr_ok, pure, Except.pure]
    refine ⟨subj, hs.subject, ds, hd, ?_⟩
    simp [Credential.narrowing, hid, Credential.narrow]
  exact credential_ok_iff.2 ⟨s, _, t, did, ds, hst _ (Nat.le_refl _), hs.session.1, hctx, hs.session.2, hs.live, hs.nonce, hp.checked,
    hds, .inl ⟨hpend, hst _ (by omega), rfl, rfl⟩⟩

end Verif.Issuer

namespace Verif.Holder
open Verif HProg

variable {e : HEnv} {w : HWorld}

/-- Asking for one credential of a flow that the issuer puts off. -/
theorem credentials_waits (hf : ∀ n, e.fault n = .ok) {P : Provider} {k : String} {i : Issuance} (hi : w.store k = some (.issuance i))
    (hs : i.status = .tokenReceived) (hk : i.id = k) (hsc : i.scope = none) {jwt : String} (hj : P.signProof (proofClaims i w.now) = some jwt)
    {a b : List Issuer.AuthorizedDetail} {d : Issuer.AuthorizedDetail} (hl : i.token.authorizationDetails = some (a ++ d :: b))
    (hkn : ∀ d' ∈ a ++ d :: b, Known i.issuer d') {cid : String} {cl : Option ProfileClaims}
    (hd : d.detail.credential = .configurationId cid cl) {x y : List String} {id : String} (hid : d.identifiers = x ++ id :: y)
    (ha : ∀ d' ∈ a, id ∉ d'.identifiers) (hb : ∀ d' ∈ b, id ∉ d'.identifiers) (hx : id ∉ x) (hy : id ∉ y)
    {config : CredentialConfiguration} (hcfg : i.issuer.configs.get? cid = some config) {r : CredentialResponse}
    (hr : e.oracle w.log w.recent (.credential (identifierRequest i jwt id)) = some r) {txn : String} (htxn : r.response = .transactionId txn) :
    (credentials P ⟨k, some [id], none⟩).run e w = (.ok (.credentials k ((i.record cid ([], some txn)).renew r).outstanding), { w with
        store := upd w.store k (some (.issuance ((i.record cid ([], some txn)).renew r)))
        ops := w.ops + 2
        recent := w.recent ++ [⟨.credential (identifierRequest i jwt id), some r⟩] }) := by
  have hw : ∀ z, id ≠ z → wants (some [id]) z = false := by
    intro z hz
    simp [wants, Ne.symm hz]
  have hself : wants (some [id]) id = true := by simp [wants]
  have hrun : (byDetails P jwt (some [id]) (a ++ d :: b) i).run e { w with ops := w.ops + 1 } = (.ok ((i.record cid ([], some txn)).renew r), { w with
      ops := w.ops + 1
      recent := w.recent ++ [⟨.credential (identifierRequest i jwt id), some r⟩] }) := by
    rw [byDetails_append (fun d' hd' => hkn d' (List.mem_append_left _ hd')) fun d' hd' z hz => hw z fun he => ha d' hd' (he ▸ hz)]
    simp only [byDetails, run_bind, run_lift, detailConfig, hd, hcfg, need, hid,
      byIdentifiers_append (fun z hz => hw z fun he => hx (he ▸ hz)), byIdentifiers, hself, if_true,
      run_call (w := { w with ops := w.ops + 1 }) hr, process, htxn, run_pure,
      byIdentifiers_skip (fun z hz => hw z fun he => hy (he ▸ hz))]
    rw [byDetails_skip (i := (i.record cid ([], some txn)).renew r) (fun d' hd' => hkn d' (List.mem_append_right _ (.tail _ hd')))
      fun d' hd' z hz => hw z fun he => hb d' hd' (he ▸ hz)]
  simp only [credentials, run_bind, run_get hf hi, run_lift, hs, check, beq_self_eq_true, if_true, run_now, hj, need, fetch, hsc,
    Option.isSome_none, Bool.false_eq_true, if_false, byIdentifier, hl, hrun, run_pure, run_put hf]
  simp only [Issuance.record, Issuance.renew, hk, Issuance.outstanding]

/-- Collecting a credential that was put off. -/
theorem deferred_runs (hf : ∀ n, e.fault n = .ok) {P : Provider} {k : String} {i : Issuance} (hi : w.store k = some (.issuance i))
    (hs : i.status = .tokenReceived) (hk : i.id = k) {txn cid : String} {config : CredentialConfiguration}
    (hcfg : i.issuer.configs.get? cid = some config) (hdisp : config.display ≠ some []) {r : CredentialResponse}
    (hr : e.oracle w.log w.recent (.deferred { transactionId := txn, credentialIssuer := i.issuer.credentialIssuer, accessToken := i.token.accessToken }) =
      some r) {text : String} (htext : r.response = .credential (.string text)) {claims : VcClaims} (hc : P.jose.decodeVc text = some claims)
    (ht : P.validTime claims.iat = true) :
    ∃ c resp evs dr, (deferred P ⟨k, txn, cid⟩).run e w = (.ok resp, { w with
        store := upd w.store k (some (.issuance { i with
          credentials := i.credentials ++ [c]
          deferred := remove i.deferred txn }))
        ops := w.ops + 2
        drawn := dr
        recent := w.recent ++ ⟨.deferred { transactionId := txn, credentialIssuer := i.issuer.credentialIssuer, accessToken := i.token.accessToken },
          some r⟩ :: evs }) ∧ c.vc = claims.vc ∧
      c.issuer = (match claims.vc.issuer with | .string i => i | .object o => o.id) ∧ ∀ ev ∈ evs, ∃ u, ev.call = .logo u := by
  obtain ⟨c, evs, dr, h1, h2, h3, h4, h5, h6⟩ := storable_runs (e := e)
    (w := { w with
      ops := w.ops + 1
      recent := w.recent ++ [⟨.deferred { transactionId := txn, credentialIssuer := i.issuer.credentialIssuer, accessToken := i.token.accessToken },
        some r⟩] }) hdisp hc ht
  refine ⟨c, .credentials k (Issuance.record { i with deferred := remove i.deferred txn } cid ([c], none)).outstanding, evs, dr, ?_, h2, h5, h6⟩
  have hne : (i.credentials ++ [c]).isEmpty = false := by simp
  simp only [deferred, run_bind, run_get hf hi, run_lift, hs, check, beq_self_eq_true, if_true, run_call (w := { w with ops := w.ops + 1 }) hr, hcfg, need,
    process, htext, h1, run_pure, stash, Issuance.record, hne, Bool.and_false, Bool.false_eq_true, if_false, run_put hf, hk,
    Issuance.outstanding, List.append_assoc, List.cons_append, List.nil_append]
  rfl

end Verif.Holder

namespace Verif.Interop
open Verif

/-- The wallet's flow and the issuer's session while a credential is put off. Specification; models no code. -/
structure Waiting (n : Net) (W : Holder.Provider) (md : Verif.Issuer) (subj k tok txn cid cred : String) (creds : Dict Issuer.Authorized) (dl : Int)
    (hw : Holder.HWorld) (a : World Issuer.State) (i : Holder.Issuance) (s : Issuer.State) (t : Issuer.Token) (q : Issuer.CredentialRequest)
    (jwt : String) (at_ : Int) : Prop where
  stored : hw.store k = some (.issuance i)
  id : i.id = k
  status : i.status = .tokenReceived
  issuer : i.issuer = md
  deferred : i.deferred = [(txn, cid)]
  notification : i.notificationId = none
  token : i.token.accessToken = tok
  session : Issuer.Session a tok s t
  access : t.accessToken = tok
  subject : s.subjectId = some subj
  creds : t.credentials = creds
  live : dl ≤ s.expiresAt
  nonceLive : dl ≤ t.cNonceExpiresAt
  held : a.store txn = some (Issuer.Credential.deferredState txn q at_)
  heldLive : dl ≤ at_ + Issuer.accessDur
  asked : q.credential = .identifier cred
  proof : q.proof = some (.single jwt)
  decodes : ∀ j, ∃ p, (n.provider j).decodeProof jwt = some p ∧ p.typIsProof = true ∧ p.nonce = some t.cNonce ∧ p.kid = some W.kid
  ne : tok ≠ txn

/-- A request is put off. -/
theorem Linked.put_off {n : Net} (hfresh : Issuer.Env.Fresh n.env) {w1 : World Issuer.State} (hreach : Issuer.Reachable n.env w1) {skip : Nat}
    {e : Holder.HEnv} (ho : e.oracle = n.oracle w1 skip)
    (hf : ∀ m, e.fault m = .ok) (hfi : ∀ m, n.env.fault m = .ok) {W : Holder.Provider} {md : Verif.Issuer} {lo hi : Int}
    (hu : Understands n W lo hi) {subj k tok : String} {l : List Issuer.AuthorizedDetail}
    {creds : Dict Issuer.Authorized} (hnt : Dict.Nodup creds) {hw : Holder.HWorld} (hskip : skip ≤ hw.log.length) {i : Holder.Issuance}
    {s : Issuer.State} {t : Issuer.Token}
    (L : Linked md subj k tok l creds (w1.now + 5 * 60 * Issuer.sec) hw (n.after w1 (Net.made skip hw.log [])).2 i s t)
    (hmd : ∀ j, (n.provider j).issuer md.credentialIssuer = some md) (hnd : Dict.Nodup md.configs) {cid id : String}
    {cfg : CredentialConfiguration} (hcfg : (cid, cfg) ∈ md.configs) {types : List String} (hty : cfg.proofTypes = some types) (hjwt : "jwt" ∈ types)
    {ds : Issuer.Dataset} (hds : (n.provider (n.after w1 (Net.made skip hw.log [])).1).dataset subj id = some ds) (hpend : ds.pending = true)
    (hm : (id, ({ identifier := id, configId := cid, claimIds := none } : Issuer.Authorized)) ∈ creds)
    {a b : List Issuer.AuthorizedDetail} {d : Issuer.AuthorizedDetail} (hl : l = a ++ d :: b) (hkn : ∀ d' ∈ l, Holder.Known md d')
    {cl : Option ProfileClaims} (hd : d.detail.credential = .configurationId cid cl) {x y : List String} (hid : d.identifiers = x ++ id :: y)
    (ha : ∀ d' ∈ a, id ∉ d'.identifiers) (hb : ∀ d' ∈ b, id ∉ d'.identifiers) (hx : id ∉ x) (hy : id ∉ y)
    {st : Holder.HStep} (hst : st.provider = W) (hreq : st.req = .credentials ⟨k, some [id], none⟩)
    (hquiet : (n.arrival (n.after w1 (Net.made skip hw.log [])).1 (n.after w1 (Net.made skip hw.log [])).2).store tok =
      (n.after w1 (Net.made skip hw.log [])).2.store tok)
    (hintime : (n.arrival (n.after w1 (Net.made skip hw.log [])).1 (n.after w1 (Net.made skip hw.log [])).2).now < w1.now + 5 * 60 * Issuer.sec + Issuer.sec) :
    ∃ txn en i' q jwt at_, en.result = .ok (.credentials k (some [(txn, cid)])) ∧ (Holder.step e hw st).2.log = hw.log ++ [en] ∧
      (∀ ev ∈ en.events, ∀ c, ev.call ≠ .save c) ∧ (∃ q r, (⟨.credential q, some r⟩ : Holder.Event) ∈ en.events ∧ r.response = .transactionId txn) ∧
      (n.after w1 (Net.made skip (Holder.step e hw st).2.log [])).1 = (n.after w1 (Net.made skip hw.log [])).1 + 1 ∧
      Waiting n W md subj k tok txn cid id creds (w1.now + 5 * 60 * Issuer.sec) (Holder.step e hw st).2
        (n.after w1 (Net.made skip (Holder.step e hw st).2.log [])).2 i' s t q jwt at_ ∧ i'.credentials = i.credentials := by
  have hra : Issuer.Reachable n.env (n.arrival (n.after w1 (Net.made skip hw.log [])).1 (n.after w1 (Net.made skip hw.log [])).2) := by
    obtain ⟨l, hl⟩ := n.arrival_exec w1 (Net.made skip hw.log [])
    obtain ⟨t0, l0, rfl⟩ := hreach
    exact ⟨t0, l0 ++ l, by rw [hl, Issuer.exec_append]⟩
  generalize hA : Net.made skip hw.log [] = A at *
  generalize hi : (n.after w1 A).1 = ix at *
  generalize hax : (n.after w1 A).2 = ax at *
  have hnon : (Holder.proofClaims i (hw.now + st.wait)).nonce = some t.cNonce := L.nonce
  obtain ⟨jwt, hj, hdec⟩ := hu.proofs _ _ hnon
  obtain ⟨pf, hd1, hd2, hd3, hd4⟩ := hdec ix
  have hnow := n.arrival_now w1 A
  rw [hi, hax] at hnow
  have hses : (n.arrival ix ax).store tok = some s := by rw [hquiet]; exact L.session.1
  have hrun := Issuer.defer_runs (P := n.provider ix) (req := Holder.identifierRequest i jwt id) (e := n.env)
    (w := n.arrival ix ax) (fun _ _ => hfi _) (subj := subj) (s := s) (t := t)
    ⟨⟨by rw [show (Holder.identifierRequest i jwt id).accessToken = tok from L.token]; exact hses, L.session.2⟩,
      by unfold Issuer.Live; have := L.live; simp only [Issuer.sec] at *; omega, by have := L.nonceLive; omega, L.subject⟩
    (iss := md) (by rw [show (Holder.identifierRequest i jwt id).credentialIssuer = md.credentialIssuer from by rw [← L.issuer]; rfl]; exact hmd ix) hnd
    (by rw [L.creds]; exact hnt) (id := id) (cid := cid) rfl (by rw [L.creds]; exact hm) hcfg (did := beforeHash W.kid)
    (.inr ⟨types, hty, hjwt, .inl ⟨jwt, rfl, pf, W.kid, hd1, hd2, hd3, hd4, rfl⟩⟩) hds hpend
  have hserve : n.serve ix ax (.credential (Holder.identifierRequest i jwt id)) = _ :=
    Issuer.step_credential (e := n.env) (w := n.arrival ix ax)
      (s := { provider := n.provider ix, req := .credential (Holder.identifierRequest i jwt id) }) rfl
  simp only [show Issuer.World.wait (n.arrival ix ax) 0 = n.arrival ix ax from by simp [Issuer.World.wait]] at hserve
  rw [hrun] at hserve
  generalize htx : n.env.rng (n.arrival ix ax).drawn = txn at hserve
  have hor : e.oracle (Holder.before hw st).log (Holder.before hw st).recent (.credential (Holder.identifierRequest i jwt id)) =
      some { response := .transactionId txn } := by
    rw [ho]
    show n.answer w1 (Net.made skip hw.log []) _ _ = _
    rw [hA]
    unfold Net.answer
    rw [hi, hax, hserve]
    rfl
  have h1 := Holder.credentials_waits (e := e) (w := Holder.before hw st) hf (P := W) (k := k) (i := i) L.stored
    L.status L.id L.scope hj (a := a) (b := b) (d := d) (by rw [L.details, hl]) (by rw [L.issuer, ← hl]; exact hkn) hd hid ha hb hx hy
    (by rw [L.issuer]; exact Dict.get?_of_mem hnd hcfg) hor (txn := txn) rfl
  have hstep := step_of_run (e := e) (hw := hw) (st := st) (by rw [hst, hreq]; exact h1)
  have hlog : (Holder.step e hw st).2.log = hw.log ++ [⟨st.provider, hw.now + st.wait, st.req, .ok (.credentials k (some [(txn, cid)])),
      [⟨.credential (Holder.identifierRequest i jwt id), some { response := .transactionId txn }⟩]⟩] := by
    rw [hstep]
    simp only [Holder.Issuance.outstanding, Holder.Issuance.record, Holder.Issuance.renew, L.deferred]
    rfl
  have hstore : (Holder.step e hw st).2.store = upd hw.store k (some (.issuance
      ((i.record cid ([], some txn)).renew { response := .transactionId txn }))) := by
    rw [hstep]; rfl
  have hafter : n.after w1 (Net.made skip (Holder.step e hw st).2.log []) =
      (ix + 1, (n.serve ix ax (.credential (Holder.identifierRequest i jwt id))).2) := by
    rw [hlog, Net.made_snoc hskip, hA]
    simp only [List.map_cons, List.map_nil]
    rw [n.after_snoc w1 (r := .credential (Holder.identifierRequest i jwt id)) rfl, hi, hax]
  have hne : tok ≠ txn := by
    rintro rfl
    rw [← htx, (hra.unused hfresh (Nat.le_refl _)).1] at hses
    cases hses
  refine ⟨txn, _, (i.record cid ([], some txn)).renew { response := .transactionId txn }, Holder.identifierRequest i jwt id, jwt, (n.arrival ix ax).now,
    rfl, hlog, ?_, ⟨_, _, .head _, rfl⟩, by rw [hafter], ?_, by simp [Holder.Issuance.record, Holder.Issuance.renew]⟩
  · intro ev hev c' hc'
    simp only [List.mem_singleton] at hev
    subst hev; cases hc'
  · rw [hafter, hserve]
    refine ⟨by rw [hstore]; exact upd_same .., L.id, L.status, L.issuer, ?_, L.notification, L.token, ⟨?_, L.session.2⟩, L.access, L.subject, L.creds,
      L.live, L.nonceLive, ?_, ?_, rfl, rfl, hdec, hne⟩
    · simp only [Holder.Issuance.record, Holder.Issuance.renew, L.deferred]; rfl
    · show upd _ txn _ tok = some s
      rw [upd_other _ _ hne]; exact hses
    · show upd _ txn _ txn = _
      exact upd_same ..
    · simp only [Issuer.accessDur, Issuer.sec] at *; omega

/-- What was put off is collected. -/
theorem Waiting.collect {n : Net} {w1 : World Issuer.State} {skip : Nat} {e : Holder.HEnv} (ho : e.oracle = n.oracle w1 skip)
    (hf : ∀ m, e.fault m = .ok) (hfi : ∀ m, n.env.fault m = .ok) {W : Holder.Provider} {md : Verif.Issuer}
    (hu : Understands n W w1.now (w1.now + 5 * 60 * Issuer.sec + Issuer.sec)) {subj k tok txn cid id : String}
    {creds : Dict Issuer.Authorized} (hnt : Dict.Nodup creds) {hw : Holder.HWorld} (hskip : skip ≤ hw.log.length) {i : Holder.Issuance}
    {s : Issuer.State} {t : Issuer.Token} {q : Issuer.CredentialRequest} {jwt : String} {at_ : Int}
    (L : Waiting n W md subj k tok txn cid id creds (w1.now + 5 * 60 * Issuer.sec) hw (n.after w1 (Net.made skip hw.log [])).2 i s t q jwt at_)
    (hmd : ∀ j, (n.provider j).issuer md.credentialIssuer = some md) (hnd : Dict.Nodup md.configs) {claims : Dict Json}
    (hiss : Issues (n.provider (n.after w1 (Net.made skip hw.log [])).1) md subj cid id claims)
    (hm : (id, ({ identifier := id, configId := cid, claimIds := none } : Issuer.Authorized)) ∈ creds)
    {st : Holder.HStep} (hst : st.provider = W) (hreq : st.req = .deferred ⟨k, txn, cid⟩)
    (hquiet : ∀ key, key = tok ∨ key = txn → (n.arrival (n.after w1 (Net.made skip hw.log [])).1 (n.after w1 (Net.made skip hw.log [])).2).store key =
      (n.after w1 (Net.made skip hw.log [])).2.store key)
    (hintime : (n.arrival (n.after w1 (Net.made skip hw.log [])).1 (n.after w1 (Net.made skip hw.log [])).2).now < w1.now + 5 * 60 * Issuer.sec + Issuer.sec) :
    ∃ c i' en, (∃ r, en.result = .ok r) ∧ (Holder.step e hw st).2.log = hw.log ++ [en] ∧ (∀ ev ∈ en.events, ∀ c, ev.call ≠ .save c) ∧
      (Holder.step e hw st).2.store k = some (.issuance i') ∧ i'.deferred = [] ∧ i'.notificationId = none ∧ i'.credentials = i.credentials ++ [c] ∧
      c.issuer = md.credentialIssuer ∧ c.vc.subject = .one { id := some (beforeHash W.kid), claims } := by
  generalize hA : Net.made skip hw.log [] = A at *
  generalize hi : (n.after w1 A).1 = ix at *
  generalize hax : (n.after w1 A).2 = ax at *
  obtain ⟨⟨cfg, hcfg, ⟨df, hfmt⟩, hdisp, ⟨types, hty, hjwt⟩, hcan⟩, ds, hds, hpend, hcl⟩ := hiss
  have hnow := n.arrival_now w1 A
  rw [hi, hax] at hnow
  have hq1 := hquiet tok (.inl rfl)
  have hq2 := hquiet txn (.inr rfl)
  obtain ⟨pf, hd1, hd2, hd3, hd4⟩ := L.decodes ix
  obtain ⟨signer, vc, hvi, hvs, _, hrun⟩ := Issuer.issue_runs (P := n.provider ix)
    (req := { q with
      credentialIssuer := md.credentialIssuer
      accessToken := tok }) (e := n.env)
    (w := { n.arrival ix ax with
      store := upd (n.arrival ix ax).store txn none
      ops := (n.arrival ix ax).ops + 2 }) (fun _ _ => hfi _) (subj := subj) (s := s) (t := t)
    ⟨⟨by show upd _ txn none tok = some s; rw [upd_other _ _ L.ne, hq1]; exact L.session.1, L.session.2⟩,
      by unfold Issuer.Live; have := L.live; simp only [Issuer.sec] at *; omega, by have := L.nonceLive; simp only [Issuer.sec] at *; omega, L.subject⟩
    (iss := md) (hmd ix) hnd (by rw [L.creds]; exact hnt) (id := id) (cid := cid) L.asked (by rw [L.creds]; exact hm) hcfg (did := beforeHash W.kid)
    (.inr ⟨types, hty, hjwt, .inl ⟨jwt, L.proof, pf, W.kid, hd1, hd2, hd3, hd4, rfl⟩⟩) hds hpend hcan hfmt
  simp only at hrun
  obtain ⟨vcc, hv1, hv2, hv3⟩ := hu.credentials signer vc ((n.arrival ix ax).now.fdiv Issuer.sec)
  have hdrun : (Issuer.deferred (n.provider ix) { transactionId := txn, credentialIssuer := md.credentialIssuer, accessToken := tok }).run n.env
      (n.arrival ix ax) = _ :=
    Issuer.deferred_ok_iff.2 ⟨Issuer.Credential.deferredState txn q at_, txn, q, hfi _, hfi _, by rw [hq2]; exact L.held,
      by
        show (n.arrival ix ax).now < at_ + Issuer.accessDur + Issuer.sec
        have := L.heldLive; simp only [Issuer.sec] at *; omega, rfl, hrun, _, rfl⟩
  have hserve : n.serve ix ax (.deferred { transactionId := txn, credentialIssuer := md.credentialIssuer, accessToken := tok }) = _ :=
    Issuer.step_deferred (e := n.env) (w := n.arrival ix ax)
      (s := { provider := n.provider ix, req := .deferred { transactionId := txn, credentialIssuer := md.credentialIssuer, accessToken := tok } }) rfl
  simp only [show Issuer.World.wait (n.arrival ix ax) 0 = n.arrival ix ax from by simp [Issuer.World.wait]] at hserve
  rw [hdrun] at hserve
  generalize hrr : Issuer.Credential.issuedResponse (.jwtVc signer vc ((n.arrival ix ax).now.fdiv Issuer.sec)) (n.env.rng (n.arrival ix ax).drawn)
    (n.env.rng ((n.arrival ix ax).drawn + 1)) (n.arrival ix ax).now = rr at hserve
  have hor : e.oracle (Holder.before hw st).log (Holder.before hw st).recent
      (.deferred { transactionId := txn, credentialIssuer := i.issuer.credentialIssuer, accessToken := i.token.accessToken }) =
      some (deliver n.encode rr) := by
    rw [ho, L.issuer, L.token]
    show n.answer w1 (Net.made skip hw.log []) _ _ = _
    rw [hA]
    unfold Net.answer
    rw [hi, hax, hserve]
    rfl
  obtain ⟨c, resp, evs, dr, h1, h2, h5, h6⟩ := Holder.deferred_runs (e := e) (w := Holder.before hw st) hf (P := W) (k := k) (i := i) L.stored
    L.status L.id (by rw [L.issuer]; exact Dict.get?_of_mem hnd hcfg) hdisp hor
    (text := n.encode (.jwtVc signer vc ((n.arrival ix ax).now.fdiv Issuer.sec)))
    (by rw [← hrr]; rfl) hv1 (by rw [hv3]; exact hu.times _ hnow hintime)
  have hstep := step_of_run (e := e) (hw := hw) (st := st) (by rw [hst, hreq]; exact h1)
  have hstore : (Holder.step e hw st).2.store = upd hw.store k (some (.issuance { i with
      credentials := i.credentials ++ [c]
      deferred := Holder.remove i.deferred txn })) := by rw [hstep]; rfl
  refine ⟨c, { i with
      credentials := i.credentials ++ [c]
      deferred := Holder.remove i.deferred txn }, _, ⟨resp, rfl⟩, by rw [hstep]; rfl, ?_, by rw [hstore, upd_same], ?_, L.notification, rfl, ?_, ?_⟩
  · intro ev hev c' hc'
    simp only [Holder.before, List.nil_append, List.mem_cons] at hev
    rcases hev with rfl | hev
    · cases hc'
    · obtain ⟨u, hu'⟩ := h6 ev hev
      rw [hu'] at hc'; cases hc'
  · simp [L.deferred, Holder.remove]
  · rw [h5, hv2, hvi]
  · rw [h2, hv2, hvs, hcl]

/-- Credentials are collected, one after another. -/
theorem collect_some {n : Net} {w1 : World Issuer.State} {skip : Nat} {e : Holder.HEnv} (ho : e.oracle = n.oracle w1 skip)
    (hf : ∀ m, e.fault m = .ok) (hfi : ∀ m, n.env.fault m = .ok)
    {W : Holder.Provider} {md : Verif.Issuer} (hu : Understands n W w1.now (w1.now + 5 * 60 * Issuer.sec + Issuer.sec)) {subj k tok : String}
    {l : List Issuer.AuthorizedDetail} {creds : Dict Issuer.Authorized} (hnt : Dict.Nodup creds)
    (hmd : ∀ j, (n.provider j).issuer md.credentialIssuer = some md) (hnd : Dict.Nodup md.configs) (hkn : ∀ d' ∈ l, Holder.Known md d')
    (hids : (l.flatMap (·.identifiers)).Nodup) {claims : String → Dict Json} {keys : String → Prop} (htok : keys tok) {want : List String}
    (hwant : ∀ id ∈ want, ∃ d ∈ l, ∃ cid cl, d.detail.credential = .configurationId cid cl ∧ id ∈ d.identifiers ∧
      (id, ({ identifier := id, configId := cid, claimIds := none } : Issuer.Authorized)) ∈ creds ∧
      ∀ j, Issues (n.provider j) md subj cid id (claims id))
    {hist : List Holder.HStep} (hprov : ∀ st ∈ hist, st.provider = W) {rest : List Holder.Req}
    (hhist : hist.map (·.req) = want.map (fun id => .credentials ⟨k, some [id], none⟩) ++ rest)
    {hw : Holder.HWorld} (hskip : skip ≤ hw.log.length)
    (hquiet : ∀ pre, pre <+: Net.made skip (Holder.exec e hw hist).log [] → Undisturbed n w1 pre keys)
    {i : Holder.Issuance} {s : Issuer.State} {t : Issuer.Token}
    (L : Linked md subj k tok l creds (w1.now + 5 * 60 * Issuer.sec) hw (n.after w1 (Net.made skip hw.log [])).2 i s t) :
    ∃ hist' hw' new got i' s' t', (∀ st ∈ hist', st ∈ hist) ∧ hist'.map (·.req) = rest ∧ Holder.exec e hw hist = Holder.exec e hw' hist' ∧
      hw'.log = hw.log ++ new ∧ (∀ en ∈ new, ∃ r, en.result = .ok r) ∧ (∀ en ∈ new, ∀ ev ∈ en.events, ∀ c, ev.call ≠ .save c) ∧
      (n.after w1 (Net.made skip hw'.log [])).1 = (n.after w1 (Net.made skip hw.log [])).1 + want.length ∧
      Linked md subj k tok l creds (w1.now + 5 * 60 * Issuer.sec) hw' (n.after w1 (Net.made skip hw'.log [])).2 i' s' t' ∧
      i'.credentials = i.credentials ++ got ∧ got.map (fun c => (c.issuer, c.vc.subject)) =
        want.map (fun id => (md.credentialIssuer, .one { id := some (beforeHash W.kid), claims := claims id })) := by
  induction want generalizing hist hw i s t with
  | nil => exact ⟨hist, hw, [], [], i, s, t, fun _ h => h, hhist, rfl, by simp, by simp, by simp, by simp, L, by simp, rfl⟩
  | cons id want ih =>
    simp only [List.map_cons, List.cons_append] at hhist
    obtain ⟨st, hist, rfl, hreq, hhist⟩ := List.map_eq_cons_iff.1 hhist
    obtain ⟨d, hdl, cid, cl, hdc, hid, hm, hiss⟩ := hwant id (.head _)
    obtain ⟨a, b, x, y, hl, hxy, h1, h2, h3, h4⟩ := details_split hdl hid hids
    obtain ⟨tl, htl⟩ := Holder.exec_log e hw (st :: hist)
    have hq := hquiet (Net.made skip hw.log []) (by rw [htl]; exact Net.made_prefix hskip)
    obtain ⟨c, i', s', t', en, ⟨r, hr⟩, hlog, hns, hcount, L', hcr, ⟨hci, hcs, _⟩⟩ := L.collect ho hf hfi hu hnt hskip hmd hnd hiss hm hl hkn hdc hxy h1 h2 h3 h4
      (hprov st (.head _)) hreq (hq.intact tok htok) hq.intime
    obtain ⟨hist', hw', new, got, i'', s'', t'', g1, g2, g3, g4, g5, g6, g7, g8, g9, g10⟩ := ih (fun x hx => hwant x (.tail _ hx))
      (fun x hx => hprov x (.tail _ hx)) hhist (by rw [hlog]; simp; omega) hquiet L'
    refine ⟨hist', hw', en :: new, c :: got, i'', s'', t'', fun x hx => .tail _ (g1 x hx), g2, g3, by rw [g4, hlog]; simp, ?_, ?_, ?_, g8, ?_, ?_⟩
    · intro en' hen'
      rcases List.mem_cons.1 hen' with rfl | hen'
      · exact ⟨r, hr⟩
      · exact g5 en' hen'
    · intro en' hen'
      rcases List.mem_cons.1 hen' with rfl | hen'
      · exact hns
      · exact g6 en' hen'
    · rw [g7, hcount, List.length_cons]; omega
    · rw [g9, hcr]; simp
    · simp only [List.map_cons, g10, hci, hcs]

end Verif.Interop
