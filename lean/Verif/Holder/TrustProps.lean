import Verif.Holder.Panic
import Verif.Holder.PresentProps
/-!
# Proofs of possession and signed requests
-/
namespace Verif.Holder
open Verif HProg

variable {e : HEnv} {w : HWorld}

/-! ### C83 Proofs of possession are made for the issuer -/

/-- In a flow that began with an offer, every credential request carries a proof of possession made out to the issuer that made the offer, in the
name of the wallet, and dated by the wallet's clock. -/
theorem C83_proof_for_offering_issuer_partial (hf : e.Fresh) (hr : Reachable e w) {pre post : List Entry} {en : Entry} (h : w.log = pre ++ en :: post)
    {r : CredentialsRequest} (hq : en.req = .credentials r) {q : Issuer.CredentialRequest} {o : Option CredentialResponse}
    (hev : ⟨.credential q, o⟩ ∈ en.events) {x : Entry} (hx : x ∈ pre) {or : OfferRequest} {a : String} {b : Dict CredentialConfiguration}
    {c : Option Issuer.Grants} (hxo : x.req = .offer or) (hxr : x.result = .ok (.offer r.issuanceId a b c)) :
    ∃ claims jwt, en.provider.signProof claims = some jwt ∧ q.proof = some (.single jwt) ∧ claims.aud = or.offer.credentialIssuer ∧
      claims.iss = some or.clientId ∧ claims.iat = timestamp en.now := by
  obtain ⟨w0, w2, hI, hlog, hrec, hnow, hrun, hevs⟩ := entry_run hf hr h
  rw [hq] at hrun
  obtain ⟨evs, ws, hE, h1⟩ := credentials_did hrun
  have hee : en.events = evs := by rw [← hevs, hE.recent, hrec, List.nil_append]
  rw [hee] at hev
  rcases h1 with ⟨_, hn, _⟩ | ⟨i, jwt, hi, hs, hj, hreq, _⟩
  · rw [hn] at hev; cases hev
  · have hv : FlowInv e pre r.issuanceId i := hI.val _ _ hi
    refine ⟨_, jwt, hj, ?_, ?_, ?_, by rw [← hnow]; rfl⟩
    · rcases hreq _ hev with ⟨q', hq', ha⟩ | ⟨u, hu⟩
      · cases hq'; exact ha.2.2
      · cases hu
    · rw [hv.offered x hx or a b c hxo hxr]; rfl
    · rw [hv.client x hx or a b c hxo hxr]; rfl

/-! ### C84 Presentation requests -/

/-- A request that was fetched was signed: it is what the token received says, and its signature was checked. -/
theorem C84_fetched_request_signed_partial (hf : e.Fresh) (hr : Reachable e w) {en : Entry} (hen : en ∈ w.log) {url : String} (hq : en.req = .request url)
    (hc : containsText "&presentation_definition".toList url.toList = false) {resp : Resp} (hok : en.result = .ok resp) :
    ∃ u t q pd d ds creds, en.provider.percentDecode url = some u ∧ en.provider.decodeRequest t = some q ∧
      q.presentationDefinition = .object pd ∧ pd.inputDescriptors = d :: ds ∧
      en.events = [⟨.requestObject u, some (.jwt t)⟩, ⟨.find d.constraints, some creds⟩] := by
  obtain ⟨pre, post, h⟩ := List.append_of_mem hen
  obtain ⟨w0, w2, hI, hlog, hrec, hnow, hrun, hevs⟩ := entry_run hf hr h
  rw [hq, hok] at hrun
  obtain ⟨evs, ws, hE, _, h1⟩ := request_did hrun
  have hee : en.events = evs := by rw [← hevs, hE.recent, hrec, List.nil_append]
  rcases h1 with ⟨hf', _⟩ | ⟨q, pre', f, creds, ho, hb, rfl, _⟩
  · exact absurd rfl hf'.ne_ok
  cases ho with
  | inline _ h' => rw [hc] at h'; cases h'
  | @fetched u t hu hd _ =>
    unfold buildFilter at hb
    cases hpd : q.presentationDefinition with
    | string s => rw [hpd] at hb; cases hb
    | object pd =>
      rw [hpd] at hb
      simp only at hb
      cases hds : pd.inputDescriptors with
      | nil => rw [hds] at hb; cases hb
      | cons d ds =>
        rw [hds] at hb
        cases hb
        exact ⟨u, t, q, pd, d, ds, creds, hu, hd, hpd, hds, hee⟩

/-- A request given in the text itself is taken as it stands, whoever wrote it: the verifier is not contacted and no signature is checked. -/
theorem C84_inline_request_unsigned (w : HWorld) (s : HStep) {url u : String} {q : Verifier.RequestObject} {pd : Dif.PresentationDefinition}
    {d : Dif.InputDescriptor} {ds : List Dif.InputDescriptor} {creds : List Credential} (hq : s.req = .request url)
    (hc : containsText "&presentation_definition".toList url.toList = true) (hu : s.provider.percentDecode url = some u)
    (hp : s.provider.parseRequest url = some q) (hpd : q.presentationDefinition = .object pd) (hds : pd.inputDescriptors = d :: ds)
    (hfind : e.oracle w.log [] (.find d.constraints) = some creds) (hok : e.fault w.ops = .ok) :
    (step e w s).1 = .ok (.request (e.rng w.drawn) .requested creds) ∧
    (step e w s).2.log = w.log ++ [⟨s.provider, w.now + s.wait, s.req, (step e w s).1, [⟨.find d.constraints, some creds⟩]⟩] := by
  have hb : buildFilter q = .ok d.constraints := by simp only [buildFilter, hpd, hds]
  have hrun : (serve s.provider s.req).run e (before w s) =
      (.ok (.request (e.rng w.drawn) .requested creds), { w with
        now := w.now + s.wait
        drawn := w.drawn + 1
        ops := w.ops + 1
        store := upd w.store (e.rng w.drawn) (some (.presentation ⟨e.rng w.drawn, .requested, q, creds, d.constraints⟩))
        recent := [⟨.find d.constraints, some creds⟩] }) := by
    rw [hq]
    show (request s.provider url).run e _ = _
    simp only [request, obtainRequest, hu, need, hc, if_true, hp, hb, lift, drawE, callE, putE, Bind.bind, HProg.bind, Pure.pure, run, before,
      List.nil_append]
    erw [hfind]
    simp only [HProg.bind, run, hok, Prog.writeRes, beq_self_eq_true, if_true]
    rfl
  refine ⟨by rw [(step_eq e w s).1, hrun], ?_⟩
  rw [step_log, (step_eq e w s).1, hrun]

end Verif.Holder
