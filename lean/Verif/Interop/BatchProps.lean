import Verif.Interop.Link
import Verif.Issuer.RenewProps
import Verif.Issuer.CredentialProps
import Verif.Holder.ReceiveProps
/-!
# Several credentials in one call, against the issuer of this repository: C102
-/
namespace Verif.Interop
open Verif

/-- One moment of the issuer comes after another. -/
theorem Net.after_later (n : Net) (w : World Issuer.State) (a b : List Holder.Call) :
    ∃ l, (n.after w (a ++ b)).2 = Issuer.exec n.env (n.after w a).2 l := by
  rw [n.after_append]
  generalize n.after w a = s
  induction b generalizing s with
  | nil => exact ⟨[], rfl⟩
  | cons c b ih =>
    obtain ⟨l, hl⟩ := ih (n.next s c)
    rw [List.foldl_cons, hl]
    unfold Net.next
    split
    · exact ⟨l, rfl⟩
    · rename_i r _
      refine ⟨n.others s.1 ++ [{ provider := n.provider s.1, req := r }] ++ l, ?_⟩
      simp only [Issuer.exec_append, Net.serve, Net.arrival]
      rfl

theorem reply_token {enc : Issuer.IssuedCredential → String} {q : Issuer.TokenRequest} {x : Res Issuer.Resp} {t : Issuer.TokenResponse}
    (h : reply enc (.token q) x = some t) : x = .ok (.token t) := by
  rcases x with _ | x
  · cases h
  · cases x <;> first | (cases h; done) | skip
    cases h; rfl

theorem reply_credential {enc : Issuer.IssuedCredential → String} {q : Issuer.CredentialRequest} {x : Res Issuer.Resp} {t : Holder.CredentialResponse}
    (h : reply enc (.credential q) x = some t) : ∃ r, x = .ok (.credential r) ∧ t = deliver enc r := by
  rcases x with _ | x
  · cases h
  · cases x <;> first | (cases h; done) | skip
    cases h; exact ⟨_, rfl, rfl⟩

/-! ### Specification -/

/-- Every credential of the issuer needs a key proof, and its data are at hand; and a proof reads the same at any time. -/
structure WantsProofs (n : Net) : Prop where
  proofs : ∀ j url iss cid cfg, (n.provider j).issuer url = some iss → (cid, cfg) ∈ iss.configs → cfg.proofTypes.isSome
  ready : ∀ j subj id ds, (n.provider j).dataset subj id = some ds → ds.pending = false
  same : ∀ i j jwt, (n.provider i).decodeProof jwt = (n.provider j).decodeProof jwt

/-- What a log says was answered to requests for tokens is what was answered. -/
def TokensGenuine (f : List Holder.Entry → List Holder.Event → (c : Holder.Call) → Option c.Reply) (log : List Holder.Entry) : Prop :=
  ∀ pre en post, log = pre ++ en :: post → ∀ a q t b, en.events = a ++ ⟨.token q, some t⟩ :: b → f pre a (.token q) = some t

/-- The issuer of this repository takes a proof once. -/
theorem single_use_at {n : Net} (hfresh : Issuer.Env.Fresh n.env) {w1 : World Issuer.State} (hreach : Issuer.Reachable n.env w1) (hp : WantsProofs n)
    {log : List Holder.Entry} (hg : TokensGenuine (n.oracle w1 0) log) {pre mid : List Holder.Event} {q r : Issuer.CredentialRequest}
    {x : Holder.CredentialResponse} {jwt : String} (hgot : Holder.GotToken log q.accessToken) (hq : n.oracle w1 0 log pre (.credential q) = some x)
    (hqp : q.proof = some (.single jwt)) (hrp : r.proof = some (.single jwt)) (hrt : r.accessToken = q.accessToken) :
    n.oracle w1 0 log (pre ++ ⟨.credential q, some x⟩ :: mid) (.credential r) = none := by
  obtain ⟨en, hen, tq, t, hev, htok⟩ := hgot
  obtain ⟨lpre, lpost, rfl⟩ := List.append_of_mem hen
  obtain ⟨a, b, hab⟩ := List.append_of_mem hev
  have htr := hg lpre en lpost rfl a _ _ b hab
  have htr : n.answer w1 (Net.made 0 lpre a) (.token tq) (.token tq) = some t := htr
  have hq : n.answer w1 (Net.made 0 (lpre ++ en :: lpost) pre) (.credential q) (.credential q) = some x := hq
  show n.answer w1 (Net.made 0 (lpre ++ en :: lpost) (pre ++ ⟨.credential q, some x⟩ :: mid)) (.credential r) (.credential r) = none
  have hQ : Net.made 0 (lpre ++ en :: lpost) pre = (Net.made 0 lpre a ++ [.token tq]) ++
      ((b ++ lpost.flatMap Holder.Entry.events ++ pre).map Holder.Event.call) := by
    simp [Net.made, hab]
  have hR : Net.made 0 (lpre ++ en :: lpost) (pre ++ ⟨.credential q, some x⟩ :: mid) =
      (Net.made 0 (lpre ++ en :: lpost) pre ++ [.credential q]) ++ mid.map Holder.Event.call := by
    simp [Net.made]
  have hcan : Issuer.Canonical n.env q.accessToken (n.after w1 (Net.made 0 (lpre ++ en :: lpost) pre)).2 := by
    obtain ⟨l, hl⟩ := n.after_later w1 (Net.made 0 lpre a ++ [.token tq]) ((b ++ lpost.flatMap Holder.Entry.events ++ pre).map Holder.Event.call)
    rw [hQ, hl, n.after_snoc w1 (r := .token tq) rfl, ← htok]
    exact (Issuer.canonical_token rfl (reply_token htr)).exec hfresh l
  rw [hR]
  generalize Net.made 0 (lpre ++ en :: lpost) pre = Q at hq hcan ⊢
  have hcan : Issuer.Canonical n.env q.accessToken (n.arrival (n.after w1 Q).1 (n.after w1 Q).2) := hcan.exec hfresh _
  have hra : Issuer.Reachable n.env (n.arrival (n.after w1 Q).1 (n.after w1 Q).2) := by
    obtain ⟨l, hl⟩ := n.arrival_exec w1 Q
    obtain ⟨t0, l0, rfl⟩ := hreach
    exact ⟨t0, l0 ++ l, by rw [hl, Issuer.exec_append]⟩
  obtain ⟨cr, hcr, _⟩ := reply_credential hq
  have hrun := hcr
  unfold Net.serve at hrun
  rw [Issuer.step_credential rfl] at hrun
  obtain ⟨cr', hrun, hx⟩ := Issuer.map_ok.1 hrun
  cases hx
  have hrun := Issuer.pair_of_fst hrun
  obtain ⟨s, ctx, tk, did, ds, _, h1, hctx, h2, _, _, hpc, hds, hend⟩ := Issuer.credential_ok_iff.1 hrun
  have hown : tk.accessToken = q.accessToken := hcan.own s tk ⟨h1, h2⟩
  obtain ⟨c, hc⟩ : ∃ c, cr.response = .credential c := by
    rcases hend with ⟨hpend, _⟩ | ⟨_, c, _, _, _, rfl, _⟩
    · simp only [Issuer.Credential.dataset, Except.bind_ok, orErr_ok, pure, Except.pure, Except.ok.injEq] at hds
      obtain ⟨subj, _, ds0, h7, rfl⟩ := hds
      have := hp.ready _ _ _ _ h7
      rw [this] at hpend
      cases hpend
    · exact ⟨c, rfl⟩
  obtain ⟨nn, hnn⟩ := (Issuer.C24_nonce_rotates hfresh hra (s := { provider := n.provider (n.after w1 Q).1, req := .credential q }) rfl).1 cr c hcr hc
  have hren : Issuer.RenewsNonce (Issuer.step n.env (n.arrival (n.after w1 Q).1 (n.after w1 Q).2)
      { provider := n.provider (n.after w1 Q).1, req := .credential q }).1 nn := by
    rw [show (Issuer.step n.env (n.arrival (n.after w1 Q).1 (n.after w1 Q).2)
      { provider := n.provider (n.after w1 Q).1, req := .credential q }).1 = _ from hcr]
    exact .issued cr c nn hc hnn
  obtain ⟨_, h3, h4, h5⟩ := Issuer.Credential.context_ok.1 hctx
  have hover : Issuer.ProofOver (n.provider (n.after w1 Q).1) jwt tk.cNonce := by
    obtain ⟨types, hty⟩ := Option.isSome_iff_exists.1 (hp.proofs _ _ _ _ _ h3 (Dict.mem_of_get? h5))
    obtain ⟨s', t', iss', auth', cfg', a1, a2, a3, a4, a5⟩ := Issuer.C23_proofs_bound_to_nonce_partial hrun
    have e1 := a1.1.symm.trans h1; cases e1
    have e2 := a1.2.symm.trans h2; cases e2
    obtain ⟨types', hty'⟩ := Option.isSome_iff_exists.1 (hp.proofs _ _ _ _ _ a2 (Dict.mem_of_get? a4))
    obtain ⟨_, _, a6, _⟩ := a5 types' hty'
    obtain ⟨_, pr, _, b1, _, b2, _⟩ := a6 jwt (.single jwt hqp)
    exact ⟨pr, b1, b2⟩
  obtain ⟨l, hl⟩ := n.after_later w1 (Q ++ [.credential q]) (mid.map Holder.Event.call)
  generalize hix : (n.after w1 (Q ++ [.credential q] ++ mid.map Holder.Event.call)).1 = ix
  have href := Issuer.C24_old_proof_refused hfresh hra (s := { provider := n.provider (n.after w1 Q).1, req := .credential q }) rfl hren
    (st := s) (t := tk) ⟨h1, h2⟩ (l ++ n.others ix) (later := { provider := n.provider ix, req := .credential r }) (req' := r) rfl
    (by rw [hrt, hown]) (jwt := jwt) (.single jwt hrp) (by obtain ⟨p, b1, b2⟩ := hover; exact ⟨p, by rw [← b1]; exact hp.same _ _ _, b2⟩)
    (fun _ _ _ _ _ _ b1 _ b2 => hp.proofs _ _ _ _ _ b1 (Dict.mem_of_get? b2))
  cases hans : n.answer w1 (Q ++ [.credential q] ++ mid.map Holder.Event.call) (.credential r) (.credential r) with
  | none => rfl
  | some y =>
    obtain ⟨cr2, hcr2, _⟩ := reply_credential hans
    refine absurd ?_ (href (.credential cr2))
    rw [Issuer.exec_append]
    rw [hl, n.after_snoc w1 (r := .credential q) rfl, hix] at hcr2
    exact hcr2

/-- See `single_use_at`. -/
theorem single_use {n : Net} (hfresh : Issuer.Env.Fresh n.env) {w1 : World Issuer.State} (hreach : Issuer.Reachable n.env w1) (hp : WantsProofs n)
    {e : Holder.HEnv} (ho : e.oracle = n.oracle w1 0) : Holder.SingleUseProofs e := by
  intro log hg pre mid q x r jwt hgot hq hqp hrp hrt
  rw [ho] at hq ⊢
  exact single_use_at hfresh hreach hp (fun pre en post h a q t b hev => by rw [← ho]; exact (hg pre en post h a _ b hev).symm) hgot hq hqp hrp hrt

/-- **C102**, refuted. A `credentials` call for two or more credentials never succeeds against the issuer of this repository, if its credentials need
key proofs: in any history of the wallet and of the issuer, whatever else either did, the call fails and nothing it received is kept. Both requests
of the call carry one proof, and the issuer takes it once. -/
theorem C102_batch_fails {n : Net} (hfresh : Issuer.Env.Fresh n.env) {w1 : World Issuer.State} (hreach : Issuer.Reachable n.env w1)
    (hp : WantsProofs n) {e : Holder.HEnv} (ho : e.oracle = n.oracle w1 0) (hf : e.Fresh) {w : Holder.HWorld} (hr : Holder.Reachable e w)
    (s : Holder.HStep) {r : Holder.CredentialsRequest} (hq : s.req = .credentials r)
    (ht : ∀ sc t, Holder.InOrder [Holder.IsToken r.issuanceId sc t] w.log →
      sc = none ∧ ∃ l, t.authorizationDetails = some l ∧ 2 ≤ (Holder.wantedIds r.identifiers (Holder.allIds l)).length) :
    (∃ x, (Holder.step e w s).1 = .error x) ∧ (Holder.step e w s).2.store = w.store :=
  Holder.C66_batch_fails hf (single_use hfresh hreach hp ho) hr s hq ht

end Verif.Interop
