import Verif.Interop.Forward
import Verif.Holder.Trace
/-!
# The wallet's flow and the issuer's session move together
-/
namespace Verif.Issuer
open Prog

/-- Serving a request for a W3C credential: the response and the world after it. -/
theorem issue_runs {P : Provider} {req : CredentialRequest} {e : Env} {w : World State} (hst : Working e w) {subj : String} {s : State} {t : Token}
    (hs : LiveSession w req.accessToken subj s t) {iss : Issuer} (hiss : P.issuer req.credentialIssuer = some iss)
    (hn : Dict.Nodup iss.configs) (hnt : Dict.Nodup t.credentials) {id cid : String} (hid : req.credential = .identifier id)
    (hm : (id, ({ identifier := id, configId := cid, claimIds := none } : Authorized)) ∈ t.credentials) {cfg : CredentialConfiguration}
    (hcfg : (cid, cfg) ∈ iss.configs) {did : String} (hp : ProofsFit P cfg t.cNonce req did) {ds : Dataset} (hd : P.dataset subj id = some ds)
    (hpend : ds.pending = false) (hcan : CanIssue P iss req.credentialIssuer cfg subj) {d : CredentialDefinition}
    (hfmt : cfg.format = .jwtVcJson d) :
    ∃ signer vc, vc.issuer = .string iss.credentialIssuer ∧ vc.subject = .one { id := some did, claims := ds.claims } ∧
      (vc.validUntil = none ∧ ∃ types ty, d.type_ = some types ∧ types[1]? = some ty ∧ vc.type_ = .many ["VerifiableCredential", ty]) ∧
      (credential P req).run e w = (.ok (Credential.issuedResponse (.jwtVc signer vc (w.now.fdiv sec)) (e.rng w.drawn) (e.rng (w.drawn + 1)) w.now),
        { w with
          store := upd (upd w.store t.accessToken (some (renewed s t (e.rng w.drawn) (w.now + accessDur) (w.now + nonceDur)))) (e.rng (w.drawn + 1))
            (some (renewed s t (e.rng w.drawn) (w.now + accessDur) (w.now + nonceDur)))
          drawn := w.drawn + 2
          ops := w.ops + 3 }) := by
  have hctx : Credential.context P s req = .ok
      { state := s, issuer := iss, authorized := { identifier := id, configId := cid, claimIds := none }, config := cfg } :=
    Credential.context_ok.2 ⟨rfl, hiss, by simp [Credential.authorized, hs.session.2, hid, Dict.get?_of_mem hnt hm, orErr], Dict.get?_of_mem hn hcfg⟩
  have hds : Credential.dataset P { state := s, issuer := iss, authorized := { identifier := id, configId := cid, claimIds := none }, config := cfg }
      req = .ok ds := by
    simp only [Credential.dataset, Except.bind_ok, orErr_ok, pure, Except.pure]
    refine ⟨subj, hs.subject, ds, hd, ?_⟩
    simp [Credential.narrowing, hid, Credential.narrow]
  obtain ⟨c, hc, _⟩ := hcan.signed
    (ctx := { state := s, issuer := iss, authorized := { identifier := id, configId := cid, claimIds := none }, config := cfg })
    (did := did) (now := w.now) (ds := ds) hs.subject
  have hsg := hc
  simp only [Credential.signed, Except.bind_ok, orErr_ok, hfmt, require_ok, pure, Except.pure, Except.ok.injEq] at hsg
  obtain ⟨k, _, vc, hvc, _, _, rfl⟩ := hsg
  obtain ⟨types, ty, _, _, hy1, hy2, _, _, _, _, hy3, h1, h2, _, _, _, hu⟩ := Credential.w3cVc_ok hvc
  exact ⟨k, vc, h1, h2, ⟨hu, types, ty, hy1, hy2, hy3⟩, credential_ok_iff.2 ⟨s, _, t, did, ds, hst _ (Nat.le_refl _), hs.session.1, hctx, hs.session.2, hs.live, hs.nonce, hp.checked,
    hds, .inr ⟨hpend, _, hc, hst _ (by omega), hst _ (by omega), rfl, rfl⟩⟩⟩

end Verif.Issuer

namespace Verif.Interop
open Verif

section
variable (n : Net) (w : World Issuer.State)

theorem Net.after_append (a b : List Holder.Call) : n.after w (a ++ b) = b.foldl n.next (n.after w a) := by simp [Net.after]

theorem Net.after_others {b : List Holder.Call} (h : ∀ c ∈ b, request c = none) (a : List Holder.Call) : n.after w (a ++ b) = n.after w a := by
  rw [n.after_append]
  generalize n.after w a = s
  induction b generalizing s with
  | nil => rfl
  | cons c b ih =>
    simp only [List.foldl_cons, Net.next, h c (.head _)]
    exact ih (fun x hx => h x (.tail _ hx)) s

theorem Net.after_snoc {c : Holder.Call} {r : Issuer.Req} (h : request c = some r) (a : List Holder.Call) :
    n.after w (a ++ [c]) = ((n.after w a).1 + 1, (n.serve (n.after w a).1 (n.after w a).2 r).2) := by
  rw [n.after_append]
  simp [Net.next, h]

/-- The issuer only ever serves calls. -/
theorem Net.after_exec (calls : List Holder.Call) : ∃ l, (n.after w calls).2 = Issuer.exec n.env w l := by
  unfold Net.after
  have hinv : ∀ (calls : List Holder.Call) (s : Nat × World Issuer.State), (∃ l, s.2 = Issuer.exec n.env w l) →
      ∃ l, (calls.foldl n.next s).2 = Issuer.exec n.env w l := by
    intro calls
    induction calls with
    | nil => intro s h; exact h
    | cons c calls ih =>
      rintro s ⟨l, hl⟩
      refine ih _ ?_
      unfold Net.next
      split
      · exact ⟨l, hl⟩
      · rename_i r _
        refine ⟨l ++ (n.others s.1 ++ [{ provider := n.provider s.1, req := r }]), ?_⟩
        simp only [Issuer.exec_append, Net.serve, Net.arrival, hl]
        rfl
  exact hinv calls (0, w) ⟨[], rfl⟩

theorem Net.arrival_exec (calls : List Holder.Call) :
    ∃ l, n.arrival (n.after w calls).1 (n.after w calls).2 = Issuer.exec n.env w l := by
  obtain ⟨l, hl⟩ := n.after_exec w calls
  exact ⟨l ++ n.others _, by rw [Issuer.exec_append, ← hl]; rfl⟩

theorem Net.arrival_now (calls : List Holder.Call) : w.now ≤ (n.arrival (n.after w calls).1 (n.after w calls).2).now := by
  obtain ⟨l, hl⟩ := n.arrival_exec w calls
  rw [hl]
  exact Issuer.exec_now_le ..

end

theorem Net.made_recent (skip : Nat) (log : List Holder.Entry) (recent : List Holder.Event) :
    Net.made skip log recent = Net.made skip log [] ++ recent.map Holder.Event.call := by simp [Net.made]

theorem Net.made_snoc {skip : Nat} {log : List Holder.Entry} (h : skip ≤ log.length) (en : Holder.Entry) :
    Net.made skip (log ++ [en]) [] = Net.made skip log [] ++ en.events.map Holder.Event.call := by
  simp [Net.made, List.drop_append_of_le_length h]

theorem Net.made_prefix {skip : Nat} {log t : List Holder.Entry} (h : skip ≤ log.length) :
    Net.made skip log [] <+: Net.made skip (log ++ t) [] := by
  refine ⟨(t.flatMap Holder.Entry.events).map Holder.Event.call, ?_⟩
  simp [Net.made, List.drop_append_of_le_length h]

/-- A call of the wallet that comes back, and what it leaves behind. -/
theorem step_of_run {e : Holder.HEnv} {hw hw' : Holder.HWorld} {st : Holder.HStep} {r : Holder.Resp}
    (h : (Holder.serve st.provider st.req).run e (Holder.before hw st) = (.ok r, hw')) :
    Holder.step e hw st = (.ok r, { hw' with
      log := hw'.log ++ [⟨st.provider, hw.now + st.wait, st.req, .ok r, hw'.recent⟩]
      recent := [] }) := by
  unfold Holder.step
  rw [show ({ hw with now := hw.now + st.wait, recent := [] } : Holder.HWorld) = Holder.before hw st from rfl, h]

/-- The wallet and the issuer understand each other: the issuer can check the key proofs the wallet makes, and the wallet can check the
credentials the issuer makes; times from `lo` to before `hi` are dates. Specification; models no code. -/
structure Understands (n : Net) (W : Holder.Provider) (lo hi : Int) : Prop where
  proofs : ∀ claims nonce, claims.nonce = some nonce → ∃ j, W.signProof claims = some j ∧
    ∀ i, ∃ p, (n.provider i).decodeProof j = some p ∧ p.typIsProof = true ∧ p.nonce = some nonce ∧ p.kid = some W.kid
  credentials : ∀ signer vc iat, ∃ claims, W.jose.decodeVc (n.encode (.jwtVc signer vc iat)) = some claims ∧ claims.vc = vc ∧ claims.iat = iat
  times : ∀ t, lo ≤ t → t < hi → W.validTime (t.fdiv Issuer.sec) = true

/-- The issuer described by `md` can issue the credential `id` of configuration `cid`, with these claims, to `subj`: as a W3C credential bound to
a key, with data at hand. Specification; models no code. -/
structure Issues (P : Issuer.Provider) (md : Verif.Issuer) (subj cid id : String) (claims : Dict Json) : Prop where
  config : ∃ cfg, (cid, cfg) ∈ md.configs ∧ (∃ d, cfg.format = .jwtVcJson d) ∧ cfg.display ≠ some [] ∧
    (∃ types, cfg.proofTypes = some types ∧ "jwt" ∈ types) ∧ Issuer.CanIssue P md md.credentialIssuer cfg subj
  data : ∃ ds, P.dataset subj id = some ds ∧ ds.pending = false ∧ ds.claims = claims

/-- The wallet's flow `i` under `k` and the issuer's session for `tok` belong together. Specification; models no code. -/
structure Linked (md : Verif.Issuer) (subj k tok : String) (l : List Issuer.AuthorizedDetail) (creds : Dict Issuer.Authorized) (dl : Int)
    (hw : Holder.HWorld) (a : World Issuer.State) (i : Holder.Issuance) (s : Issuer.State) (t : Issuer.Token) : Prop where
  stored : hw.store k = some (.issuance i)
  id : i.id = k
  status : i.status = .tokenReceived
  scope : i.scope = none
  issuer : i.issuer = md
  deferred : i.deferred = []
  notification : i.notificationId = none
  token : i.token.accessToken = tok
  details : i.token.authorizationDetails = some l
  nonce : i.token.cNonce = some t.cNonce
  session : Issuer.Session a tok s t
  access : t.accessToken = tok
  subject : s.subjectId = some subj
  creds : t.credentials = creds
  live : dl ≤ s.expiresAt
  nonceLive : dl ≤ t.cNonceExpiresAt

/-- The wallet's credential `c` is the issuer's credential of configuration `cid`: made by the issuer, about the holder of the wallet's key, with these
claims, of the type the issuer publishes, without an end of validity; and the wallet has the text the issuer signed. Specification; models no code. -/
structure Collected (n : Net) (W : Holder.Provider) (md : Verif.Issuer) (cid : String) (claims : Dict Json) (c : Holder.Credential) : Prop where
  issuer : c.issuer = md.credentialIssuer
  subject : c.vc.subject = .one { id := some (beforeHash W.kid), claims }
  issued : c.vc.issuer = .string md.credentialIssuer
  type_ : ∃ cfg d types ty, (cid, cfg) ∈ md.configs ∧ cfg.format = .jwtVcJson d ∧ d.type_ = some types ∧ types[1]? = some ty ∧
    c.vc.type_ = .many ["VerifiableCredential", ty]
  endless : c.vc.validUntil = none
  text : ∃ signer iat, c.issued = n.encode (.jwtVc signer c.vc iat)

/-- One credential is collected, which is the only one wanted. -/
theorem Linked.collect_wanted {n : Net} {w1 : World Issuer.State} {skip : Nat} {e : Holder.HEnv} (ho : e.oracle = n.oracle w1 skip)
    (hf : ∀ m, e.fault m = .ok) (hfi : ∀ m, n.env.fault m = .ok) {W : Holder.Provider} {md : Verif.Issuer}
    (hu : Understands n W w1.now (w1.now + 5 * 60 * Issuer.sec + Issuer.sec)) {subj k tok : String} {l : List Issuer.AuthorizedDetail}
    {creds : Dict Issuer.Authorized} (hnt : Dict.Nodup creds) {hw : Holder.HWorld} (hskip : skip ≤ hw.log.length) {i : Holder.Issuance}
    {s : Issuer.State} {t : Issuer.Token}
    (L : Linked md subj k tok l creds (w1.now + 5 * 60 * Issuer.sec) hw (n.after w1 (Net.made skip hw.log [])).2 i s t)
    (hmd : ∀ j, (n.provider j).issuer md.credentialIssuer = some md) (hnd : Dict.Nodup md.configs) {cid id : String} {claims : Dict Json}
    (hiss : ∀ j, Issues (n.provider j) md subj cid id claims)
    (hm : (id, ({ identifier := id, configId := cid, claimIds := none } : Issuer.Authorized)) ∈ creds)
    {a b : List Issuer.AuthorizedDetail} {d : Issuer.AuthorizedDetail} (hl : l = a ++ d :: b) (hkn : ∀ d' ∈ l, Holder.Known md d')
    {cl : Option ProfileClaims} (hd : d.detail.credential = .configurationId cid cl) {x y : List String} (hid : d.identifiers = x ++ id :: y)
    (ha : ∀ d' ∈ a, id ∉ d'.identifiers) (hb : ∀ d' ∈ b, id ∉ d'.identifiers) (hx : id ∉ x) (hy : id ∉ y)
    {st : Holder.HStep} (hst : st.provider = W) {wanted : Option (List String)} (hself : Holder.wants wanted id = true)
    (hother : ∀ d' ∈ l, ∀ z ∈ d'.identifiers, id ≠ z → Holder.wants wanted z = false) (hreq : st.req = .credentials ⟨k, wanted, none⟩)
    (hquiet : (n.arrival (n.after w1 (Net.made skip hw.log [])).1 (n.after w1 (Net.made skip hw.log [])).2).store tok =
      (n.after w1 (Net.made skip hw.log [])).2.store tok)
    (hintime : (n.arrival (n.after w1 (Net.made skip hw.log [])).1 (n.after w1 (Net.made skip hw.log [])).2).now < w1.now + 5 * 60 * Issuer.sec + Issuer.sec) :
    ∃ c i' s' t' en, (∃ r, en.result = .ok r) ∧ (Holder.step e hw st).2.log = hw.log ++ [en] ∧ (∀ ev ∈ en.events, ∀ c, ev.call ≠ .save c) ∧
      (n.after w1 (Net.made skip (Holder.step e hw st).2.log [])).1 = (n.after w1 (Net.made skip hw.log [])).1 + 1 ∧
      Linked md subj k tok l creds (w1.now + 5 * 60 * Issuer.sec) (Holder.step e hw st).2
        (n.after w1 (Net.made skip (Holder.step e hw st).2.log [])).2 i' s' t' ∧
      i'.credentials = i.credentials ++ [c] ∧ Collected n W md cid claims c := by
  generalize hA : Net.made skip hw.log [] = A at *
  generalize hi : (n.after w1 A).1 = ix at *
  generalize hax : (n.after w1 A).2 = ax at *
  have hnon : (Holder.proofClaims i (hw.now + st.wait)).nonce = some t.cNonce := L.nonce
  obtain ⟨jwt, hj, hdec⟩ := hu.proofs _ _ hnon
  obtain ⟨pf, hd1, hd2, hd3, hd4⟩ := hdec ix
  obtain ⟨⟨cfg, hcfg, ⟨df, hfmt⟩, hdisp, ⟨types, hty, hjwt⟩, hcan⟩, ds, hds, hpend, hcl⟩ := hiss ix
  have hnow := n.arrival_now w1 A
  rw [hi, hax] at hnow
  obtain ⟨signer, vc, hvi, hvs, ⟨hend, tys, ty, hy1, hy2, hy3⟩, hrun⟩ := Issuer.issue_runs (P := n.provider ix) (req := Holder.identifierRequest i jwt id) (e := n.env)
    (w := n.arrival ix ax) (fun _ _ => hfi _) (subj := subj) (s := s) (t := t)
    ⟨⟨by rw [show (Holder.identifierRequest i jwt id).accessToken = tok from L.token, hquiet]; exact L.session.1, L.session.2⟩,
      by unfold Issuer.Live; have := L.live; simp only [Issuer.sec] at *; omega, by have := L.nonceLive; omega, L.subject⟩
    (iss := md) (by rw [show (Holder.identifierRequest i jwt id).credentialIssuer = md.credentialIssuer from by rw [← L.issuer]; rfl]; exact hmd ix) hnd
    (by rw [L.creds]; exact hnt) (id := id) (cid := cid) rfl (by rw [L.creds]; exact hm) hcfg (did := beforeHash W.kid)
    (.inr ⟨types, hty, hjwt, .inl ⟨jwt, rfl, pf, W.kid, hd1, hd2, hd3, hd4, rfl⟩⟩) hds hpend
    (by rw [show (Holder.identifierRequest i jwt id).credentialIssuer = md.credentialIssuer from by rw [← L.issuer]; rfl]; exact hcan) hfmt
  obtain ⟨vcc, hv1, hv2, hv3⟩ := hu.credentials signer vc ((n.arrival ix ax).now.fdiv Issuer.sec)
  have hserve : n.serve ix ax (.credential (Holder.identifierRequest i jwt id)) = _ :=
    Issuer.step_credential (e := n.env) (w := n.arrival ix ax)
      (s := { provider := n.provider ix, req := .credential (Holder.identifierRequest i jwt id) }) rfl
  simp only [show Issuer.World.wait (n.arrival ix ax) 0 = n.arrival ix ax from by simp [Issuer.World.wait]] at hserve
  rw [hrun] at hserve
  generalize hrr : Issuer.Credential.issuedResponse (.jwtVc signer vc ((n.arrival ix ax).now.fdiv Issuer.sec)) (n.env.rng (n.arrival ix ax).drawn)
    (n.env.rng ((n.arrival ix ax).drawn + 1)) (n.arrival ix ax).now = rr at hserve
  have hor : e.oracle (Holder.before hw st).log (Holder.before hw st).recent (.credential (Holder.identifierRequest i jwt id)) = some (deliver n.encode rr) := by
    rw [ho]
    show n.answer w1 (Net.made skip hw.log []) _ _ = _
    rw [hA]
    unfold Net.answer
    rw [hi, hax, hserve]
    rfl
  obtain ⟨c, resp, evs, dr, h1, h2, h3, h4, h5, h6⟩ := Holder.credentials_runs_wanted (e := e) (w := Holder.before hw st) hf (P := W) (k := k) (i := i) L.stored
    L.status L.id L.scope hj (a := a) (b := b) (d := d) (by rw [L.details, hl]) (by rw [L.issuer, ← hl]; exact hkn) hd hid ha hb hx hy hself (by rw [← hl]; exact hother)
    (by rw [L.issuer]; exact Dict.get?_of_mem hnd hcfg) hdisp hor (text := n.encode (.jwtVc signer vc ((n.arrival ix ax).now.fdiv Issuer.sec)))
    (by rw [← hrr]; rfl) hv1 (by rw [hv3]; exact hu.times _ hnow hintime)
  have hstep := step_of_run (e := e) (hw := hw) (st := st) (by rw [hst, hreq]; exact h1)
  have hlog : (Holder.step e hw st).2.log = hw.log ++ [⟨st.provider, hw.now + st.wait, st.req, .ok resp,
      ⟨.credential (Holder.identifierRequest i jwt id), some (deliver n.encode rr)⟩ :: evs⟩] := by rw [hstep]; rfl
  have hstore : (Holder.step e hw st).2.store = upd hw.store k (some (.issuance ((i.record cid ([c], none)).renew (deliver n.encode rr)))) := by
    rw [hstep]; rfl
  have hafter : n.after w1 (Net.made skip (Holder.step e hw st).2.log []) =
      (ix + 1, (n.serve ix ax (.credential (Holder.identifierRequest i jwt id))).2) := by
    rw [hlog, Net.made_snoc hskip, hA]
    simp only [List.map_cons]
    rw [← List.singleton_append, ← List.append_assoc, n.after_others, n.after_snoc w1 (r := .credential (Holder.identifierRequest i jwt id)) rfl, hi, hax]
    intro c' hc'
    obtain ⟨ev, hev, rfl⟩ := List.mem_map.1 hc'
    obtain ⟨u, hu'⟩ := h6 ev hev
    rw [hu']; rfl
  refine ⟨c, (i.record cid ([c], none)).renew (deliver n.encode rr),
    Issuer.renewed s t (n.env.rng (n.arrival ix ax).drawn) ((n.arrival ix ax).now + Issuer.accessDur) ((n.arrival ix ax).now + Issuer.nonceDur),
    { t with
      cNonce := n.env.rng (n.arrival ix ax).drawn
      cNonceExpiresAt := (n.arrival ix ax).now + Issuer.nonceDur }, _, ⟨resp, rfl⟩, hlog, ?_, by rw [hafter], ?_, rfl, ?_⟩
  · intro ev hev c' hc'
    simp only [List.mem_cons] at hev
    rcases hev with rfl | hev
    · cases hc'
    · obtain ⟨u, hu'⟩ := h6 ev hev
      rw [hu'] at hc'; cases hc'
  · rw [hafter, hserve]
    refine ⟨by rw [hstore]; exact upd_same .., L.id, L.status, L.scope, L.issuer, L.deferred, L.notification, L.token, L.details, ?_, ⟨?_, rfl⟩,
      L.access, L.subject, L.creds, ?_, ?_⟩
    · rw [← hrr]; rfl
    · simp only [upd, L.access, if_true]
      split <;> rfl
    · simp only [Issuer.renewed, Issuer.accessDur, Issuer.sec] at *
      omega
    · simp only [Issuer.nonceDur, Issuer.sec] at *
      omega
  · have hvc := h2.trans hv2
    exact ⟨by rw [h5, hv2, hvi], by rw [hvc, hvs, hcl], by rw [hvc, hvi], ⟨cfg, df, tys, ty, hcfg, hfmt, hy1, hy2, by rw [hvc, hy3]⟩, by rw [hvc, hend],
      signer, _, by rw [h3, hvc]⟩

/-- One credential is collected. -/
theorem Linked.collect {n : Net} {w1 : World Issuer.State} {skip : Nat} {e : Holder.HEnv} (ho : e.oracle = n.oracle w1 skip)
    (hf : ∀ m, e.fault m = .ok) (hfi : ∀ m, n.env.fault m = .ok) {W : Holder.Provider} {md : Verif.Issuer}
    (hu : Understands n W w1.now (w1.now + 5 * 60 * Issuer.sec + Issuer.sec)) {subj k tok : String} {l : List Issuer.AuthorizedDetail}
    {creds : Dict Issuer.Authorized} (hnt : Dict.Nodup creds) {hw : Holder.HWorld} (hskip : skip ≤ hw.log.length) {i : Holder.Issuance}
    {s : Issuer.State} {t : Issuer.Token}
    (L : Linked md subj k tok l creds (w1.now + 5 * 60 * Issuer.sec) hw (n.after w1 (Net.made skip hw.log [])).2 i s t)
    (hmd : ∀ j, (n.provider j).issuer md.credentialIssuer = some md) (hnd : Dict.Nodup md.configs) {cid id : String} {claims : Dict Json}
    (hiss : ∀ j, Issues (n.provider j) md subj cid id claims)
    (hm : (id, ({ identifier := id, configId := cid, claimIds := none } : Issuer.Authorized)) ∈ creds)
    {a b : List Issuer.AuthorizedDetail} {d : Issuer.AuthorizedDetail} (hl : l = a ++ d :: b) (hkn : ∀ d' ∈ l, Holder.Known md d')
    {cl : Option ProfileClaims} (hd : d.detail.credential = .configurationId cid cl) {x y : List String} (hid : d.identifiers = x ++ id :: y)
    (ha : ∀ d' ∈ a, id ∉ d'.identifiers) (hb : ∀ d' ∈ b, id ∉ d'.identifiers) (hx : id ∉ x) (hy : id ∉ y)
    {st : Holder.HStep} (hst : st.provider = W) (hreq : st.req = .credentials ⟨k, some [id], none⟩)
    (hquiet : (n.arrival (n.after w1 (Net.made skip hw.log [])).1 (n.after w1 (Net.made skip hw.log [])).2).store tok =
      (n.after w1 (Net.made skip hw.log [])).2.store tok)
    (hintime : (n.arrival (n.after w1 (Net.made skip hw.log [])).1 (n.after w1 (Net.made skip hw.log [])).2).now < w1.now + 5 * 60 * Issuer.sec + Issuer.sec) :
    ∃ c i' s' t' en, (∃ r, en.result = .ok r) ∧ (Holder.step e hw st).2.log = hw.log ++ [en] ∧ (∀ ev ∈ en.events, ∀ c, ev.call ≠ .save c) ∧
      (n.after w1 (Net.made skip (Holder.step e hw st).2.log [])).1 = (n.after w1 (Net.made skip hw.log [])).1 + 1 ∧
      Linked md subj k tok l creds (w1.now + 5 * 60 * Issuer.sec) (Holder.step e hw st).2
        (n.after w1 (Net.made skip (Holder.step e hw st).2.log [])).2 i' s' t' ∧
      i'.credentials = i.credentials ++ [c] ∧ Collected n W md cid claims c :=
  L.collect_wanted ho hf hfi hu hnt hskip hmd hnd hiss hm hl hkn hd hid ha hb hx hy hst (wanted := some [id]) (by simp [Holder.wants])
    (fun _ _ z _ hz => by simp [Holder.wants, Ne.symm hz]) hreq hquiet hintime

end Verif.Interop
