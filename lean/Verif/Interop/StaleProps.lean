import Verif.Interop.BatchProps
import Verif.Holder.NonceProps
/-!
# A flow whose nonce went out of date: C109
-/
namespace Verif.Interop
open Verif

/-! ### Specification -/

/-- The issuer asks for a key proof with every credential. -/
def ProofsAlways (n : Net) : Prop := ∀ j, Issuer.ProofsRequired (n.provider j)

/-- To the issuer, a proof of this wallet carries the nonce it was made for, at any time. -/
def ProofsTold (n : Net) (W : Holder.Provider) : Prop :=
  ∀ claims jwt, W.signProof claims = some jwt → ∀ j p, (n.provider j).decodeProof jwt = some p → p.nonce = claims.nonce

/-- The entry, which follows history `log`, is a call for flow `k` to which the issuer sent a new nonce: it issued a credential in a call for credentials
that fails, or in one that names the credential by its format, or in a call for a credential that was put off, or it refused a proof. -/
inductive Missed (n : Net) (w1 : World Issuer.State) (log : List Holder.Entry) (k : String) (en : Holder.Entry) : Prop
  | failed (r : Holder.CredentialsRequest) (q : Issuer.CredentialRequest) (x : Holder.CredentialResponse) (kind : Kind Vc) (err : Holder.HErr) :
      en.req = .credentials r → r.issuanceId = k → (⟨.credential q, some x⟩ : Holder.Event) ∈ en.events → x.response = .credential kind →
      en.result = .error err → Missed n w1 log k en
  | byFormat (r : Holder.CredentialsRequest) (q : Issuer.CredentialRequest) (x : Holder.CredentialResponse) (kind : Kind Vc) (f : Format) :
      en.req = .credentials r → r.issuanceId = k → (⟨.credential q, some x⟩ : Holder.Event) ∈ en.events → x.response = .credential kind →
      q.credential = .format f → Missed n w1 log k en
  | deferred (r : Holder.DeferredRequest) (q : Issuer.DeferredRequest) (x : Holder.CredentialResponse) :
      en.req = .deferred r → r.issuanceId = k → (⟨.deferred q, some x⟩ : Holder.Event) ∈ en.events → Missed n w1 log k en
  | rejected (r : Holder.CredentialsRequest) (q : Issuer.CredentialRequest) (x : Option Holder.CredentialResponse) (a b : List Holder.Event)
      (hint nonce : String) (exp : Int) :
      en.req = .credentials r → r.issuanceId = k → en.events = a ++ (⟨.credential q, x⟩ : Holder.Event) :: b →
      (n.serve (n.after w1 (Net.made 0 log a)).1 (n.after w1 (Net.made 0 log a)).2 (.credential q)).1 = .error (.invalidProof hint nonce exp) →
      Missed n w1 log k en

/-! ### Nonces the issuer sent -/

theorem token_known {e : Env} {w : World Issuer.State} {s : Issuer.Step} {req : Issuer.TokenRequest} (hreq : s.req = .token req)
    {resp : Issuer.TokenResponse} (h : (Issuer.step e w s).1 = .ok (.token resp)) {y : String} (hy : resp.cNonce = some y) :
    Issuer.KnownTok e (Issuer.step e w s).2.drawn y := by
  rw [Issuer.step_token hreq] at h ⊢
  obtain ⟨r, h, hr⟩ := Issuer.map_ok.1 h
  cases hr
  obtain ⟨state, items, _, _, _, h4, h5, h6, rfl, hw'⟩ := Issuer.token_ok_iff.1 (Issuer.pair_of_fst h)
  rw [hw']
  cases hy
  exact ⟨w.drawn + 1, by simp only [Issuer.World.wait]; omega, rfl⟩

theorem credential_known {e : Env} {w : World Issuer.State} {s : Issuer.Step} {req : Issuer.CredentialRequest} (hreq : s.req = .credential req)
    {resp : Issuer.CredentialResponse} (h : (Issuer.step e w s).1 = .ok (.credential resp)) {y : String} (hy : resp.cNonce = some y) :
    Issuer.KnownTok e (Issuer.step e w s).2.drawn y := by
  rw [Issuer.step_credential hreq] at h ⊢
  obtain ⟨r, h, hr⟩ := Issuer.map_ok.1 h
  cases hr
  obtain ⟨_, _, _, _, _, _, _, _, _, _, _, _, _, hx⟩ := Issuer.credential_ok_iff.1 (Issuer.pair_of_fst h)
  rcases hx with ⟨_, _, rfl, hw'⟩ | ⟨_, _, _, _, _, rfl, hw'⟩
  · cases hy
  · rw [hw']
    cases hy
    exact ⟨w.drawn, by simp only [Issuer.World.wait]; omega, rfl⟩

section
variable {n : Net} {w1 : World Issuer.State} {e : Holder.HEnv}

theorem made_split {log : List Holder.Entry} {en : Holder.Entry} {ev : Holder.Event} (hen : en ∈ log) (hev : ev ∈ en.events) :
    ∃ lpre lpost a b, log = lpre ++ en :: lpost ∧ en.events = a ++ ev :: b ∧
      Net.made 0 log [] = (Net.made 0 lpre a ++ [ev.call]) ++ (b ++ lpost.flatMap Holder.Entry.events).map Holder.Event.call := by
  obtain ⟨lpre, lpost, rfl⟩ := List.append_of_mem hen
  obtain ⟨a, b, hab⟩ := List.append_of_mem hev
  exact ⟨lpre, lpost, a, b, rfl, hab, by simp [Net.made, hab]⟩

/-- A nonce that reached the wallet was drawn by the issuer. -/
theorem sent_known (ho : e.oracle = n.oracle w1 0) {log : List Holder.Entry} (hg : Holder.Genuine e log) {y : String} (h : Holder.Sent y log) :
    Issuer.KnownTok n.env (n.after w1 (Net.made 0 log [])).2.drawn y := by
  obtain ⟨en, hen, ⟨q, t, hev, hy⟩ | ⟨q, r, hev, hy⟩⟩ := h
  · obtain ⟨lpre, lpost, a, b, hl, hab, hm⟩ := made_split hen hev
    have htr := hg lpre en lpost hl a _ b hab
    rw [ho] at htr
    have htr : n.answer w1 (Net.made 0 lpre a) (.token q) (.token q) = some t := htr.symm
    obtain ⟨l, hlater⟩ := n.after_later w1 (Net.made 0 lpre a ++ [.token q]) ((b ++ lpost.flatMap Holder.Entry.events).map Holder.Event.call)
    rw [hm, hlater, n.after_snoc w1 (r := .token q) rfl]
    exact (token_known rfl (reply_token htr) hy).mono (Issuer.exec_drawn_le ..)
  · obtain ⟨lpre, lpost, a, b, hl, hab, hm⟩ := made_split hen hev
    have htr := hg lpre en lpost hl a _ b hab
    rw [ho] at htr
    have htr : n.answer w1 (Net.made 0 lpre a) (.credential q) (.credential q) = some r := htr.symm
    obtain ⟨l, hlater⟩ := n.after_later w1 (Net.made 0 lpre a ++ [.credential q]) ((b ++ lpost.flatMap Holder.Entry.events).map Holder.Event.call)
    rw [hm, hlater, n.after_snoc w1 (r := .credential q) rfl]
    obtain ⟨cr, hcr, rfl⟩ := reply_credential htr
    exact (credential_known rfl hcr hy).mono (Issuer.exec_drawn_le ..)

theorem got_canonical (hfresh : Issuer.Env.Fresh n.env) (ho : e.oracle = n.oracle w1 0) {log : List Holder.Entry} (hg : Holder.Genuine e log)
    {en : Holder.Entry} (hen : en ∈ log) {q : Issuer.TokenRequest} {t : Issuer.TokenResponse} (hev : (⟨.token q, some t⟩ : Holder.Event) ∈ en.events) :
    Issuer.Canonical n.env t.accessToken (n.after w1 (Net.made 0 log [])).2 := by
  obtain ⟨lpre, lpost, a, b, hl, hab, hm⟩ := made_split hen hev
  have htr := hg lpre en lpost hl a _ b hab
  rw [ho] at htr
  have htr : n.answer w1 (Net.made 0 lpre a) (.token q) (.token q) = some t := htr.symm
  obtain ⟨l, hlater⟩ := n.after_later w1 (Net.made 0 lpre a ++ [.token q]) ((b ++ lpost.flatMap Holder.Entry.events).map Holder.Event.call)
  rw [hm, hlater, n.after_snoc w1 (r := .token q) rfl]
  exact (Issuer.canonical_token rfl (reply_token htr)).exec hfresh l

theorem reply_deferred {enc : Issuer.IssuedCredential → String} {q : Issuer.DeferredRequest} {x : Res Issuer.Resp} {t : Holder.CredentialResponse}
    (h : reply enc (.deferred q) x = some t) : ∃ r, x = .ok (.deferred r) ∧ t = deliver enc r := by
  rcases x with _ | x
  · cases h
  · cases x <;> first | (cases h; done) | skip
    cases h; exact ⟨_, rfl, rfl⟩

/-! ### The flow is stuck -/

/-- The flow `k` is gone, or holds an access token with a nonce that the issuer does not take any more. -/
structure Stale (n : Net) (w1 : World Issuer.State) (e : Holder.HEnv) (k tok : String) (x : Option String) (hw : Holder.HWorld) : Prop where
  drawn : ∃ m, m < hw.drawn ∧ k = e.rng m
  flow : ∀ j, hw.store k = some (.issuance j) → j.status = .tokenReceived ∧ j.token.accessToken = tok ∧ j.token.cNonce = x
  retired : ∀ y, x = some y → Issuer.Retired n.env tok y (n.after w1 (Net.made 0 hw.log [])).2

theorem made_snoc (log : List Holder.Entry) (en : Holder.Entry) (a b : List Holder.Event) (hab : en.events = a ++ b) :
    Net.made 0 (log ++ [en]) [] = Net.made 0 log a ++ b.map Holder.Event.call := by
  simp [Net.made, hab]

theorem step_drawn_le (e : Holder.HEnv) (w : Holder.HWorld) (s : Holder.HStep) : w.drawn ≤ (Holder.step e w s).2.drawn :=
  Holder.run_drawn e (Holder.serve s.provider s.req) (Holder.before w s)

/-- A credentials call with a request that is not answered fails. -/
theorem unanswered_fails {e : Holder.HEnv} {hw : Holder.HWorld} {st : Holder.HStep} {r : Holder.CredentialsRequest} (hreq : st.req = .credentials r)
    {q : Issuer.CredentialRequest} (hev : (⟨.credential q, none⟩ : Holder.Event) ∈ (Holder.entryOf e hw st).events) :
    ∃ err, (Holder.entryOf e hw st).result = .error err := by
  unfold Holder.entryOf at hev ⊢
  obtain ⟨⟨res, w2⟩, hrun⟩ : ∃ q, (Holder.serve st.provider st.req).run e (Holder.before hw st) = q := ⟨_, rfl⟩
  rw [hrun] at hev ⊢
  rw [hreq] at hrun
  obtain ⟨evs, ws, hE, h1⟩ := Holder.credentials_did hrun
  have hrec : w2.recent = evs := by rw [hE.recent]; rfl
  rcases h1 with ⟨hfl, _⟩ | ⟨_, _, _, _, _, _, _, ⟨hfl, _⟩ | ⟨_, _, hall, _⟩⟩
  · exact hfl.error
  · exact hfl.error
  · have hev2 : (⟨.credential q, none⟩ : Holder.Event) ∈ w2.recent := hev
    rw [hrec] at hev2
    have := hall q none hev2
    simp at this

/-- A credentials call for a flow with an outdated nonce gets nothing. -/
theorem Stale.refused (hp : ProofsAlways n) (hfresh : Issuer.Env.Fresh n.env) (ho : e.oracle = n.oracle w1 0) {hw : Holder.HWorld}
    (hr : Holder.Reachable e hw) {k tok : String} {x : Option String} (h : Stale n w1 e k tok x hw) {st : Holder.HStep} (ht : ProofsTold n st.provider)
    {r : Holder.CredentialsRequest} (hreq : st.req = .credentials r) (hk : r.issuanceId = k) {q : Issuer.CredentialRequest}
    {o : Option Holder.CredentialResponse} (hev : (⟨.credential q, o⟩ : Holder.Event) ∈ (Holder.entryOf e hw st).events) :
    o = none ∧ ∃ err, (Holder.entryOf e hw st).result = .error err := by
  have hg := (hr.step st).genuine
  rw [Holder.step_entry] at hg
  obtain ⟨a, b, hab⟩ := List.append_of_mem hev
  have hans := hg hw.log _ [] rfl a _ b hab
  have hev' := hev
  unfold Holder.entryOf at hev
  obtain ⟨⟨res, w2⟩, hrun⟩ : ∃ q, (Holder.serve st.provider st.req).run e (Holder.before hw st) = q := ⟨_, rfl⟩
  rw [hrun] at hev
  rw [hreq] at hrun
  rcases Holder.credentials_asks hrun rfl with h0 | ⟨i, jwt, hi, hs, hjwt, honly, hnames⟩
  · simp only [h0] at hev; cases hev
  obtain ⟨_, ft, fn⟩ := h.flow i (by rw [← hk]; exact hi)
  obtain ⟨q', hq', ha⟩ := (honly _ hev).resolve_right (by rintro ⟨u, hu⟩; cases hu)
  cases hq'
  have hnone : o = none := by
    rw [ho] at hans
    have hans : o = n.answer w1 (Net.made 0 hw.log a) (.credential q) (.credential q) := hans
    cases o with
    | none => rfl
    | some y =>
      exfalso
      obtain ⟨cr, hcr, _⟩ := reply_credential hans.symm
      unfold Net.serve at hcr
      rw [Issuer.step_credential rfl] at hcr
      obtain ⟨cr', hcr, hx⟩ := Issuer.map_ok.1 hcr
      obtain ⟨s, t, iss, auth, cfg, a1, a2, a3, a4, a5⟩ := Issuer.C23_proofs_bound_to_nonce_partial (Issuer.pair_of_fst hcr)
      obtain ⟨types, hty⟩ := Option.isSome_iff_exists.1 (hp _ _ _ _ _ a2 a4)
      obtain ⟨_, _, a6, _⟩ := a5 types hty
      obtain ⟨did, p, kid, b1, b2, b3, _⟩ := a6 jwt (.single jwt ha.2.2)
      have hnn := ht _ _ hjwt _ _ b1
      rw [b3] at hnn
      have hx : x = some t.cNonce := by rw [← fn]; exact hnn.symm
      have hret := h.retired _ hx
      have hm : Net.made 0 hw.log a = Net.made 0 hw.log [] ++ a.map Holder.Event.call := by simp [Net.made]
      rw [hm] at a1
      obtain ⟨l, hl⟩ := n.after_later w1 (Net.made 0 hw.log []) (a.map Holder.Event.call)
      have hret2 : Issuer.Retired n.env tok t.cNonce (n.arrival (n.after w1 (Net.made 0 hw.log [] ++ a.map Holder.Event.call)).1
          (n.after w1 (Net.made 0 hw.log [] ++ a.map Holder.Event.call)).2) := by
        unfold Net.arrival
        rw [hl]
        exact (hret.exec hfresh l).exec hfresh _
      have htk : q.accessToken = tok := by rw [ha.2.1, ft]
      rw [htk] at a1
      exact hret2.other _ _ a1.1 a1.2 rfl
  subst hnone
  exact ⟨rfl, unanswered_fails hreq hev'⟩

theorem Stale.step (hp : ProofsAlways n) (hfresh : Issuer.Env.Fresh n.env) (ho : e.oracle = n.oracle w1 0) (hf : e.Fresh) (hn : e.NoLate)
    {hw : Holder.HWorld} (hr : Holder.Reachable e hw) {k tok : String} {x : Option String} (h : Stale n w1 e k tok x hw) {st : Holder.HStep}
    (ht : ProofsTold n st.provider) : Stale n w1 e k tok x (Holder.step e hw st).2 := by
  refine ⟨?_, ?_, ?_⟩
  · obtain ⟨m, hm, hk⟩ := h.drawn
    exact ⟨m, Nat.lt_of_lt_of_le hm (step_drawn_le ..), hk⟩
  · intro j hj
    have habs : Holder.Stored e hw k → (∀ i, hw.store k = some (.issuance i) → i.status ≠ .tokenReceived) → False := by
      rintro (⟨i, hi⟩ | ⟨m, hm, hk⟩) hne
      · exact hne i hi (h.flow i hi).1
      · obtain ⟨m', hm', hk'⟩ := h.drawn
        have := hf _ _ (hk.symm.trans hk')
        omega
    cases Holder.step_moves hf hn hr st hj with
    | same h1 _ => exact h.flow j h1
    | early _ h1 h2 => exact (habs h2 h1).elim
    | token _ _ h1 h2 _ _ _ => exact (habs h2 h1).elim
    | asked i r jwt h1 h2 h3 h4 h5 h6 h7 h8 _ =>
      obtain ⟨f1, f2, f3⟩ := h.flow i h1
      refine ⟨h8.status.trans f1, h8.token.trans f2, ?_⟩
      have hreq : st.req = .credentials r := h3
      have hno : ∀ ev ∈ (Holder.entryOf e hw st).events, ∀ y, Holder.nonceBy y ev = y := by
        intro ev hev y
        rcases h5 ev hev with ⟨q, hq, _⟩ | ⟨u, hu⟩
        · cases ev with
          | mk c o =>
            cases hq
            obtain ⟨_, err, herr⟩ := h.refused hp hfresh ho hr ht hreq h4 hev
            obtain ⟨resp, hresp⟩ := h7
            rw [hresp] at herr; cases herr
        · cases ev with
          | mk c o => cases hu; rfl
      by_cases hsc : i.scope = none
      · rw [h8.renewed hsc, ← f3]
        generalize (Holder.entryOf e hw st).events = l at hno
        clear h8 h5
        induction l with
        | nil => rfl
        | cons ev l ih =>
          rw [List.foldl_cons, hno ev (.head _)]
          exact ih fun ev' h' => hno ev' (.tail _ h')
      · rw [h8.kept hsc, f3]
    | collected i r h1 h2 _ _ _ h5 _ h6 _ =>
      obtain ⟨f1, f2, f3⟩ := h.flow i h1
      exact ⟨h5.trans f1, by rw [h6, f2], by rw [h6, f3]⟩
  · intro y hy
    rw [Holder.step_entry, made_snoc hw.log (Holder.entryOf e hw st) [] (Holder.entryOf e hw st).events rfl]
    obtain ⟨l, hl⟩ := n.after_later w1 (Net.made 0 hw.log []) ((Holder.entryOf e hw st).events.map Holder.Event.call)
    rw [hl]
    exact (h.retired y hy).exec hfresh l

/-- An entry in which a nonce is missed leaves the flow with an outdated nonce. -/
theorem missed_stale (hfresh : Issuer.Env.Fresh n.env) (ho : e.oracle = n.oracle w1 0) (hf : e.Fresh) (hn : e.NoLate)
    {hw : Holder.HWorld} (hr : Holder.Reachable e hw) {k : String} {st : Holder.HStep} (hm : Missed n w1 hw.log k (Holder.entryOf e hw st)) :
    ∃ tok x, Stale n w1 e k tok x (Holder.step e hw st).2 := by
  have hI := Holder.reachable_inv hf hr
  have hg := (hr.step st).genuine
  rw [Holder.step_entry] at hg
  obtain ⟨⟨res, w2⟩, hrun⟩ : ∃ q, (Holder.serve st.provider st.req).run e (Holder.before hw st) = q := ⟨_, rfl⟩
  have hent : Holder.entryOf e hw st = ⟨st.provider, hw.now + st.wait, st.req, res, w2.recent⟩ := by
    unfold Holder.entryOf; rw [hrun]
  -- what the entry tells about the flow
  obtain ⟨i, hi, hs, a, ev, b, ri, hab, hreqof, hunder, hrenew⟩ : ∃ i, hw.store k = some (.issuance i) ∧ i.status = .tokenReceived ∧
      ∃ a ev b ri, (Holder.entryOf e hw st).events = a ++ ev :: b ∧ request ev.call = some ri ∧ ri.Under i.token.accessToken ∧
        Issuer.Renewing (n.serve (n.after w1 (Net.made 0 hw.log a)).1 (n.after w1 (Net.made 0 hw.log a)).2 ri).1 := by
    have hcred : ∀ r q x kind, st.req = .credentials r → r.issuanceId = k →
        (⟨.credential q, some x⟩ : Holder.Event) ∈ (Holder.entryOf e hw st).events → x.response = .credential kind →
        ∃ i, hw.store k = some (.issuance i) ∧ i.status = .tokenReceived ∧
          ∃ a ev b ri, (Holder.entryOf e hw st).events = a ++ ev :: b ∧ request ev.call = some ri ∧ ri.Under i.token.accessToken ∧
            Issuer.Renewing (n.serve (n.after w1 (Net.made 0 hw.log a)).1 (n.after w1 (Net.made 0 hw.log a)).2 ri).1 := by
      intro r q x kind h1 h2 h3 h4
      obtain ⟨a, b, hab⟩ := List.append_of_mem h3
      have hans := hg hw.log _ [] rfl a _ b hab
      rw [h1] at hrun
      rcases Holder.credentials_asks hrun rfl with h0 | ⟨i, jwt, hi, hs, hjwt, honly, hnames⟩
      · rw [hent] at h3; simp only [h0] at h3; cases h3
      obtain ⟨q', hq', ha⟩ := (honly _ (by rw [hent] at h3; exact h3)).resolve_right (by rintro ⟨u, hu⟩; cases hu)
      cases hq'
      refine ⟨i, by rw [← h2]; exact hi, hs, a, _, b, .credential q, hab, rfl, .credential _ ha.2.1, ?_⟩
      rw [ho] at hans
      have hans : n.answer w1 (Net.made 0 hw.log a) (.credential q) (.credential q) = some x := hans.symm
      obtain ⟨cr, hcr, rfl⟩ := reply_credential hans
      rw [hcr]
      cases hc : cr.response with
      | credential c => exact .credential cr c hc
      | transactionId t => simp [deliver, hc] at h4
    cases hm with
    | rejected r q x a b hint nonce exp h1 h2 hab hrej =>
      have h3 : (⟨.credential q, x⟩ : Holder.Event) ∈ (Holder.entryOf e hw st).events := by rw [hab]; simp
      have h1 : st.req = .credentials r := by rw [hent] at h1; exact h1
      rw [h1] at hrun
      rcases Holder.credentials_asks hrun rfl with h0 | ⟨i, jwt, hi, hs, hjwt, honly, hnames⟩
      · rw [hent] at h3; simp only [h0] at h3; cases h3
      obtain ⟨q', hq', ha⟩ := (honly _ (by rw [hent] at h3; exact h3)).resolve_right (by rintro ⟨u, hu⟩; cases hu)
      cases hq'
      exact ⟨i, by rw [← h2]; exact hi, hs, a, _, b, .credential q, hab, rfl, .credential _ ha.2.1, by rw [hrej]; exact .rejected ..⟩
    | failed r q x kind err h1 h2 h3 h4 h5 => exact hcred r q x kind (by rw [hent] at h1; exact h1) h2 h3 h4
    | byFormat r q x kind f h1 h2 h3 h4 h5 => exact hcred r q x kind (by rw [hent] at h1; exact h1) h2 h3 h4
    | deferred r q x h1 h2 h3 =>
      have h1 : st.req = .deferred r := by rw [hent] at h1; exact h1
      obtain ⟨a, b, hab⟩ := List.append_of_mem h3
      have hans := hg hw.log _ [] rfl a _ b hab
      rw [h1] at hrun
      obtain ⟨evs, ws, hE, hd⟩ := Holder.deferred_did hrun
      have hrec : w2.recent = evs := by rw [hE.recent]; rfl
      rcases hd with ⟨_, rfl, _⟩ | ⟨i, o, logos, hi, hs, hl, rfl, _⟩
      · rw [hent] at h3; simp only [hrec] at h3; cases h3
      refine ⟨i, by rw [← h2]; exact hi, hs, a, _, b, .deferred q, hab, rfl, ?_, ?_⟩
      · rw [hent] at h3
        simp only [hrec, List.mem_cons] at h3
        rcases h3 with h3 | h3
        · cases h3; exact .deferred _ rfl
        · obtain ⟨u, hu⟩ := hl _ h3; cases hu
      · rw [ho] at hans
        have hans : n.answer w1 (Net.made 0 hw.log a) (.deferred q) (.deferred q) = some x := hans.symm
        obtain ⟨cr, hcr, rfl⟩ := reply_deferred hans
        rw [hcr]
        exact .deferred cr
  have hv : Holder.FlowInv e hw.log k i := hI.val _ _ hi
  refine ⟨i.token.accessToken, i.token.cNonce, ?_, ?_, ?_⟩
  · obtain ⟨m, hm, hk⟩ := hI.key _ _ hi
    exact ⟨m, Nat.lt_of_lt_of_le hm (step_drawn_le ..), hk⟩
  · intro j hj
    cases Holder.step_moves hf hn hr st hj with
    | same h1 _ => rw [h1] at hi; cases hi; exact ⟨hs, rfl, rfl⟩
    | early _ h1 _ => exact absurd hs (h1 i hi)
    | token _ _ h1 _ _ _ _ => exact absurd hs (h1 i hi)
    | asked i' r jwt h1 h2 h3 h4 h5 h6 h7 h8 _ =>
      rw [hi] at h1; cases h1
      refine ⟨h8.status.trans hs, h8.token, ?_⟩
      apply h8.kept
      cases hm with
      | failed r' q x kind err g1 g2 g3 g4 g5 => obtain ⟨resp, h7⟩ := h7; rw [h7] at g5; cases g5
      | byFormat r' q x kind f g1 g2 g3 g4 g5 =>
        have hreq : st.req = .credentials r' := by rw [hent] at g1; exact g1
        rw [hreq] at hrun
        rcases Holder.credentials_asks hrun rfl with h0 | ⟨i2, jwt2, hi2, _, _, _, hnames⟩
        · rw [hent] at g3; simp only [h0] at g3; cases g3
        have hi2 : hw.store r'.issuanceId = some (.issuance i2) := hi2
        rw [g2, hi] at hi2; cases hi2
        intro hsc
        rw [hent] at g3
        obtain ⟨id, hid⟩ := (hnames q _ g3).1 hsc
        rw [g5] at hid; cases hid
      | deferred r' q x g1 g2 g3 => rw [h3] at g1; cases g1
      | rejected r' q x a b hint nonce exp g1 g2 hab hrej =>
        have hans := hg hw.log _ [] rfl a _ b hab
        rw [ho] at hans
        have hans : x = reply n.encode (.credential q) (n.serve (n.after w1 (Net.made 0 hw.log a)).1 (n.after w1 (Net.made 0 hw.log a)).2 (.credential q)).1 := hans
        rw [hrej] at hans
        have hx : x = none := hans
        subst hx
        obtain ⟨err, herr⟩ := unanswered_fails (st := st) (e := e) (hw := hw) (r := r') (by rw [hent] at g1; exact g1) (q := q)
          (by rw [hab]; exact List.mem_append_right _ (.head _))
        obtain ⟨resp, h7⟩ := h7
        rw [h7] at herr; cases herr
    | collected i' r h1 h2 _ _ _ h5 _ h6 _ =>
      rw [hi] at h1; cases h1
      exact ⟨h5.trans hs, by rw [h6], by rw [h6]⟩
  · intro y hy
    have hph := hv.phase
    unfold Holder.Phase at hph
    rw [hs] at hph
    obtain ⟨t, ht1, _, ht2⟩ := hph
    obtain ⟨pre, en, post, hlog, ⟨⟨tr, htr⟩, _⟩, _⟩ := ht2
    have hcan := got_canonical (t := t) hfresh ho hr.genuine (en := en) (by rw [hlog]; simp) htr
    rw [ht1] at hcan
    have hkn := sent_known ho hr.genuine ((Holder.reachable_holds hf hn hr hi hs).sent y hy)
    have hm1 : Net.made 0 hw.log a = Net.made 0 hw.log [] ++ a.map Holder.Event.call := by simp [Net.made]
    obtain ⟨l, hl⟩ := n.after_later w1 (Net.made 0 hw.log []) (a.map Holder.Event.call)
    have hcan2 : Issuer.Canonical n.env i.token.accessToken (n.arrival (n.after w1 (Net.made 0 hw.log a)).1 (n.after w1 (Net.made 0 hw.log a)).2) := by
      unfold Net.arrival; rw [hm1, hl]; exact (hcan.exec hfresh l).exec hfresh _
    have hkn2 : Issuer.KnownTok n.env (n.arrival (n.after w1 (Net.made 0 hw.log a)).1 (n.after w1 (Net.made 0 hw.log a)).2).drawn y := by
      unfold Net.arrival; rw [hm1, hl]
      exact (hkn.mono (Issuer.exec_drawn_le ..)).mono (Issuer.exec_drawn_le ..)
    have hret := Issuer.renewing_retires hfresh hcan2 (s := { provider := n.provider (n.after w1 (Net.made 0 hw.log a)).1, req := ri }) hunder hrenew hkn2
    rw [Holder.step_entry, made_snoc hw.log (Holder.entryOf e hw st) a _ hab, List.map_cons]
    rw [show Net.made 0 hw.log a ++ ev.call :: b.map Holder.Event.call = (Net.made 0 hw.log a ++ [ev.call]) ++ b.map Holder.Event.call by simp]
    obtain ⟨l2, hl2⟩ := n.after_later w1 (Net.made 0 hw.log a ++ [ev.call]) (b.map Holder.Event.call)
    rw [hl2, n.after_snoc w1 (r := ri) hreqof]
    exact hret.exec hfresh l2

/-- **C109**, refuted. Once the issuer has issued a credential in a call that fails, or that names the credential by its format, or that collects a
deferred credential, or has refused a proof, the flow gets no other credential: whatever wallet and issuer do later, every credential the wallet asks for in this flow is
refused. With each issued credential and each refused proof comes a new nonce, the only one the issuer takes from then on, and in these cases the wallet
does not keep it. -/
theorem C109_flow_stuck (hfresh : Issuer.Env.Fresh n.env) (hp : ProofsAlways n) (ho : e.oracle = n.oracle w1 0) (hf : e.Fresh) (hn : e.NoLate)
    {hw : Holder.HWorld} (hr : Holder.Reachable e hw) {st : Holder.HStep} {en : Holder.Entry} (hlog : (Holder.step e hw st).2.log = hw.log ++ [en])
    {k : String} (hm : Missed n w1 hw.log k en) {later : List Holder.HStep} {st2 : Holder.HStep} (ht : ∀ s ∈ later ++ [st2], ProofsTold n s.provider)
    {r : Holder.CredentialsRequest} (hreq : st2.req = .credentials r) (hk : r.issuanceId = k) {en2 : Holder.Entry}
    (hlog2 : (Holder.exec e (Holder.step e hw st).2 (later ++ [st2])).log = (Holder.exec e (Holder.step e hw st).2 later).log ++ [en2])
    {q : Issuer.CredentialRequest} {x : Option Holder.CredentialResponse} (hev : ⟨.credential q, x⟩ ∈ en2.events) :
    x = none ∧ ∃ err, en2.result = .error err := by
  rw [Holder.step_entry] at hlog
  have hen : en = Holder.entryOf e hw st := by simpa using hlog.symm
  subst hen
  obtain ⟨tok, y, hst⟩ := missed_stale hfresh ho hf hn hr hm
  have hall : ∀ (l : List Holder.HStep) (v : Holder.HWorld), (∀ s ∈ l, ProofsTold n s.provider) → Holder.Reachable e v → Stale n w1 e k tok y v →
      Holder.Reachable e (Holder.exec e v l) ∧ Stale n w1 e k tok y (Holder.exec e v l) := by
    intro l
    induction l with
    | nil => intro v _ h1 h2; exact ⟨h1, h2⟩
    | cons s l ih =>
      intro v hl h1 h2
      exact ih _ (fun s' h' => hl s' (.tail _ h')) (h1.step s) (h2.step hp hfresh ho hf hn h1 (hl s (.head _)))
  obtain ⟨hr2, hst2⟩ := hall later _ (fun s h => ht s (List.mem_append_left _ h)) (hr.step st) hst
  rw [Holder.exec_append] at hlog2
  generalize Holder.exec e (Holder.step e hw st).2 later = v at hr2 hst2 hlog2
  have hlog2 : (Holder.step e v st2).2.log = v.log ++ [en2] := hlog2
  rw [Holder.step_entry] at hlog2
  have hen2 : en2 = Holder.entryOf e v st2 := by simpa using hlog2.symm
  subst hen2
  exact hst2.refused hp hfresh ho hr2 (ht st2 (by simp)) hreq hk hev

end

end Verif.Interop
