import Verif.Interop.Props
import Verif.Interop.PresentProps
/-!
# C199: from an issuer to a verifier

The issuer, the wallet and the verifier of this repository together: what the issuer offers and the wallet collects is accepted by the verifier.
-/
namespace Verif.Interop
open Verif

/-! ### Specification -/

/-- The credentials a wallet has given to its storage, in some part of its history and in the call under way. -/
def given (log : List Holder.Entry) (recent : List Holder.Event) : List Holder.Credential := savedIn log ++ recent.filterMap saved

/-- Storage files credentials by their ids: it holds the last one given to it under each id. -/
def Held (l : List Holder.Credential) (c : Holder.Credential) : Prop := ∃ before after, l = before ++ c :: after ∧ ∀ c' ∈ after, c'.id ≠ c.id

/-- The wallet's storage takes in all credentials, and finds those it holds that satisfy what is asked for, in some order `find` of its own
(/repo/vercre-holder/tests/provider.rs 118-151). -/
structure Keeps (e : Holder.HEnv) (sat : Dif.Constraints → Vc → Prop) (find : List Holder.Credential → Dif.Constraints → List Holder.Credential) : Prop where
  saves : ∀ log recent c, e.oracle log recent (.save c) = some ()
  finds : ∀ log recent cs, e.oracle log recent (.find cs) = some (find (given log recent) cs)
  found : ∀ l cs c, c ∈ find l cs ↔ Held l c ∧ sat cs c.vc

/-- The verifier `v` reads the credentials that the issuer signs as they were signed, and understands constraints as the wallet's storage does. -/
structure Knows (v : VNet) (n : Net) (sat : Dif.Constraints → Vc → Prop) : Prop where
  credentials : ∀ i signer vc iat, ∃ k, (v.provider i).jose.decodeVc (n.encode (.jwtVc signer vc iat)) = some k ∧ k.vc = vc
  constraints : ∀ i cs vc, sat cs vc ↔ Verifier.Satisfies (v.provider i) cs vc

/-! ### Property -/

theorem given_of_fetches {log : List Holder.Entry} {recent : List Holder.Event} (h : ∀ ev ∈ recent, ∃ u, ev.call = .requestObject u) :
    given log recent = savedIn log := by
  have : recent.filterMap saved = [] := by
    rw [List.filterMap_eq_nil_iff]
    intro ev hev
    obtain ⟨u, hu⟩ := h ev hev
    unfold saved
    split
    · cases hu
    · rfl
  simp [given, this]

theorem Holder.Reachable.exec {e : Holder.HEnv} {w : Holder.HWorld} (h : Holder.Reachable e w) (l : List Holder.HStep) : Holder.Reachable e (Holder.exec e w l) := by
  obtain ⟨now, l0, rfl⟩ := h
  exact ⟨now, l0 ++ l, (Holder.exec_append ..).symm⟩

/-- **C199**. Take an offer, an issuer and a wallet as in C101. The wallet collects the wanted credentials and saves them; each of them is the issuer's
credential with the claims the issuer has for it. Later, after anything else the wallet has done, a verifier asks for a credential. If the wallet
still holds the credential `c`, and it satisfies what the verifier asks for, then `c` is among those the user is shown; and when the user has agreed, what the wallet sends
is accepted, whenever it is sent, whatever else the wallet and the verifier do in between. (If other credentials in the wallet satisfy the request too, one of them may be sent
instead, so they have to be ones the verifier can read and that have not expired.) -/
theorem C199_issued_is_accepted {n : Net} (hfresh : Issuer.Env.Fresh n.env) {w : World Issuer.State} (hreach : Issuer.Reachable n.env w)
    {s : Issuer.Step} {req : Issuer.CreateOfferRequest} (hreq : s.req = .createOffer req) {oresp : Issuer.CreateOfferResponse}
    (h : (Issuer.step n.env w s).1 = .ok (.createOffer oresp)) (hpre : req.requests .preAuthorizedCode) {subj : String}
    (hsub : req.subjectId = some subj) {offer : Issuer.CredentialOffer}
    (hdel : Issuer.Delivers req.credentialIssuer (Issuer.step n.env w s).2.store oresp.offerType offer)
    {md : Verif.Issuer} {client : String} (hclient : client ≠ "") (hserves : ∀ j, Serves (n.provider j) req.credentialIssuer md client)
    (hnd : Dict.Nodup md.configs) (hknown : ∀ cid ∈ offer.configIds, ∃ cfg, (cid, cfg) ∈ md.configs) (hfi : ∀ m, n.env.fault m = .ok)
    (hids : (offer.configIds.flatMap fun cid => (s.provider.authorize subj cid).getD []).Nodup) {claims : String → Dict Json} {want : List String}
    (hwant : ∀ id ∈ want, ∃ cid ∈ offer.configIds, (∃ ids, s.provider.authorize subj cid = some ids ∧ id ∈ ids) ∧
      ∀ j, Issues (n.provider j) md subj cid id (claims id))
    {e : Holder.HEnv} (hfr : e.Fresh) {hw : Holder.HWorld} (hwreach : Holder.Reachable e hw) (ho : e.oracle = n.oracle (Issuer.step n.env w s).2 hw.log.length)
    {sat : Dif.Constraints → Vc → Prop} {find : List Holder.Credential → Dif.Constraints → List Holder.Credential} (hkeeps : Keeps e sat find)
    (hf : ∀ m, e.fault m = .ok) {W : Holder.Provider}
    (hu : Understands n W (Issuer.step n.env w s).2.now ((Issuer.step n.env w s).2.now + 5 * 60 * Issuer.sec + Issuer.sec))
    {oreq : Holder.OfferRequest} (hoffer : oreq.offer = offer) (hoc : oreq.clientId = client) {hist : List Holder.HStep}
    (hprov : ∀ st ∈ hist, st.provider = W) (hhist : hist.map (·.req) = collectCalls (e.rng hw.drawn) oreq oresp.txCode want)
    (hquiet : ∀ pre, pre <+: Net.made hw.log.length (Holder.exec e hw hist).log [] →
      Undisturbed n (Issuer.step n.env w s).2 pre (Given offer ((Holder.exec e hw hist).log.drop hw.log.length))) :
    ∃ got, savedIn (Holder.exec e hw hist).log = savedIn hw.log ++ got ∧ want.length = got.length ∧ ∀ id c, (id, c) ∈ want.zip got →
      (∃ cid ∈ offer.configIds, (∃ ids, s.provider.authorize subj cid = some ids ∧ id ∈ ids) ∧ Collected n W md cid (claims id) c) ∧
      ∀ later wA, wA = Holder.exec e (Holder.exec e hw hist) later → Held (savedIn wA.log) c →
      ∀ (v : VNet) (preq : Verifier.CreateRequestRequest) (tok : String) (v1 : World Verifier.VState) (url : String) (d : Dif.InputDescriptor),
        Asked v preq tok v1 W url → Knows v n sat → e.oracle = v.oracle v1 wA.log.length → preq.inputDescriptors = [d] → AsksConst [d] →
        (∀ f, d.format = some f → "jwt_vc_json" ∈ Dict.keys f) → sat d.constraints c.vc →
        (∀ c', c' ≠ c → Held (savedIn wA.log) c' → sat d.constraints c'.vc → Trusts v c') →
      ∀ s1, s1.req = .request url → s1.provider = W →
      ∃ k creds w1, c ∈ creds ∧ Holder.step e wA s1 = (.ok (.request k .requested creds), w1) ∧
        ∀ mid1 s2, (∀ s ∈ mid1, s.req ≠ .authorizePresentation k) → s2.req = .authorizePresentation k →
        ∃ w2, Holder.step e (Holder.exec e w1 mid1) s2 = (.ok (.status .authorized), w2) ∧
          ∀ mid2 s3, (∀ s ∈ mid2, s.req ≠ .authorizePresentation k) → s3.req = .present k → s3.provider = W →
          NotAnswered tok ((Holder.exec e w2 mid2).log.drop wA.log.length) →
          (∀ at_, at_ = v.after v1 (Net.made wA.log.length (Holder.exec e w2 mid2).log []) →
            ∀ c', c' ≠ c → Held (savedIn wA.log) c' → sat d.constraints c'.vc → ∀ t, c'.vc.validUntil = some t → (v.arrival at_.1 at_.2).now ≤ t) →
          ∃ r, (Holder.step e (Holder.exec e w2 mid2) s3).1 = .ok (.presented r) := by
  obtain ⟨new, h1, _, h3, h4, _⟩ := offer_collected hfresh hreach hreq h hpre hsub hdel hclient hserves hnd hknown hfi hids hwant ho
    (fun log recent c => by have := hkeeps.saves log recent c; rw [ho] at this; exact this) hf hu hoffer hoc hprov hhist hquiet
  refine ⟨savedIn new, by rw [h1]; simp [savedIn], h3, fun id c hc => ?_⟩
  obtain ⟨cid, ⟨hcid, hauth⟩, hcol⟩ := h4 _ hc
  refine ⟨⟨cid, hcid, hauth, hcol⟩, ?_⟩
  rintro later wA hwA hheld v preq tok v1 url d A K ho2 hin hcst hfmt hsat htr s1 q1 p1
  have hinv : Holder.Inv e wA.log wA.store wA.drawn := by
    refine Holder.reachable_inv hfr ?_
    rw [hwA]
    exact Holder.Reachable.exec (Holder.Reachable.exec hwreach hist) later
  have hmem : c ∈ find (savedIn wA.log) d.constraints := (hkeeps.found ..).2 ⟨hheld, hsat⟩
  obtain ⟨k, w1, g1, g⟩ := accepted_iff (creds := find (savedIn wA.log) d.constraints) A hf hfr hinv ho2
    (by
      intro d' ds hd' recent hrec
      rw [hin] at hd'
      cases hd'
      have := hkeeps.finds wA.log recent d.constraints
      rw [ho2, given_of_fetches hrec] at this
      exact this)
    (fun c' hc' => by
      by_cases hx : c' = c
      · subst hx
        intro i
        obtain ⟨signer, iat, ht⟩ := hcol.text
        obtain ⟨cl, hcl⟩ := K.credentials i signer c'.vc iat
        exact ⟨cl, by rw [ht]; exact hcl.1, hcl.2⟩
      · exact htr c' hx ((hkeeps.found ..).1 hc').1 ((hkeeps.found ..).1 hc').2) q1 p1
  refine ⟨k, _, w1, hmem, g1, fun mid1 s2 hm1 q2 => ?_⟩
  obtain ⟨w2, g2, g⟩ := g mid1 s2 hm1 q2
  refine ⟨w2, g2, fun mid2 s3 hm2 q3 p3 hna ht => ?_⟩
  refine (g mid2 s3 hm2 q3 p3 _ rfl hna _ rfl).2 ⟨hin ▸ hcst, ?_⟩
  obtain ⟨c', rest, hcr⟩ : ∃ c' rest, find (savedIn wA.log) d.constraints = c' :: rest := by
    cases hl : find (savedIn wA.log) d.constraints with
    | nil => rw [hl] at hmem; cases hmem
    | cons c' rest => exact ⟨c', rest, rfl⟩
  have hc' := (hkeeps.found (savedIn wA.log) d.constraints c').1 (hcr ▸ .head _)
  refine ⟨c', rest, hcr, fun d' hd' => ?_⟩
  rw [hin, List.mem_singleton] at hd'
  subst hd'
  refine ⟨hfmt, (K.constraints _ _ _).1 hc'.2, ?_⟩
  by_cases hx : c' = c
  · intro t h
    rw [hx, hcol.endless] at h
    cases h
  · exact ht _ rfl c' hx hc'.1 hc'.2

end Verif.Interop
