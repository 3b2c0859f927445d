import Verif.Interop.Defer
/-!
# A credential that is not ready reaches the wallet: C108
-/
namespace Verif.Interop
open Verif

/-! ### Specification -/

/-- The calls of a wallet that collects some credentials of an offer and asks for one that is not ready. -/
def askCalls (k : String) (offer : Holder.OfferRequest) (txCode : Option String) (want : List String) (late : String) : List Holder.Req :=
  beginCalls k offer txCode ++ want.map (fun id => .credentials ⟨k, some [id], none⟩) ++ [.credentials ⟨k, some [late], none⟩]

/-- What the issuer gave the wallet that others must not use: the code of the offer, the access tokens, the transaction ids. -/
inductive Entrusted (offer : Issuer.CredentialOffer) (log : List Holder.Entry) : String → Prop
  | given (key : String) : Given offer log key → Entrusted offer log key
  | transaction (en : Holder.Entry) (q : Issuer.CredentialRequest) (r : Holder.CredentialResponse) (txn : String) : en ∈ log →
      (⟨.credential q, some r⟩ : Holder.Event) ∈ en.events → r.response = .transactionId txn → Entrusted offer log txn

/-- The issuer described by `md` has the credential `id` of configuration `cid`, bound to a key, but not yet the data for it. -/
def NotReady (P : Issuer.Provider) (md : Verif.Issuer) (subj cid id : String) : Prop :=
  (∃ cfg types, (cid, cfg) ∈ md.configs ∧ cfg.proofTypes = some types ∧ "jwt" ∈ types) ∧ ∃ ds, P.dataset subj id = some ds ∧ ds.pending = true

/-! ### Properties -/

/-- **C108**. A credential that is not ready when the wallet asks for it reaches the wallet. In the situation of C101, say the wallet collects some
credentials (`want`) one after another and then asks for one more (`late`), for which the issuer has no data yet (the wallet's call number
`want.length + 3` to the issuer, the first three being for the metadata and the token). The wallet is told of a transaction, and nothing fails.
Once the data are there, collecting that transaction and saving stores all the credentials, `late` the last, and ends the flow; all within five
minutes of the offer and whatever else the issuer serves, as long as nobody else uses the code, the token or the transaction. -/
theorem C108_late_credential_reaches_wallet {n : Net} (hfresh : Issuer.Env.Fresh n.env) {w : World Issuer.State} (hreach : Issuer.Reachable n.env w)
    {s : Issuer.Step} {req : Issuer.CreateOfferRequest} (hreq : s.req = .createOffer req) {oresp : Issuer.CreateOfferResponse}
    (h : (Issuer.step n.env w s).1 = .ok (.createOffer oresp)) (hpre : req.requests .preAuthorizedCode) {subj : String}
    (hsub : req.subjectId = some subj) {offer : Issuer.CredentialOffer}
    (hdel : Issuer.Delivers req.credentialIssuer (Issuer.step n.env w s).2.store oresp.offerType offer)
    {md : Verif.Issuer} {client : String} (hclient : client ≠ "") (hserves : ∀ j, Serves (n.provider j) req.credentialIssuer md client)
    (hnd : Dict.Nodup md.configs) (hknown : ∀ cid ∈ offer.configIds, ∃ cfg, (cid, cfg) ∈ md.configs) (hfi : ∀ m, n.env.fault m = .ok)
    (hids : (offer.configIds.flatMap fun cid => (s.provider.authorize subj cid).getD []).Nodup) {claims : String → Dict Json} {want : List String}
    (hwant : ∀ id ∈ want, ∃ cid ∈ offer.configIds, (∃ ids, s.provider.authorize subj cid = some ids ∧ id ∈ ids) ∧
      ∀ j, Issues (n.provider j) md subj cid id (claims id))
    {late cid : String} (hlate : cid ∈ offer.configIds ∧ ∃ ids, s.provider.authorize subj cid = some ids ∧ late ∈ ids)
    (hnot : NotReady (n.provider (want.length + 3)) md subj cid late)
    (hthen : Issues (n.provider (want.length + 4)) md subj cid late (claims late))
    {e : Holder.HEnv} {hw : Holder.HWorld} (ho : e.oracle = n.oracle (Issuer.step n.env w s).2 hw.log.length)
    (hsave : ∀ log recent c, n.rest log recent (.save c) = some ()) (hf : ∀ m, e.fault m = .ok) {W : Holder.Provider}
    (hu : Understands n W (Issuer.step n.env w s).2.now ((Issuer.step n.env w s).2.now + 5 * 60 * Issuer.sec + Issuer.sec))
    {oreq : Holder.OfferRequest} (hoffer : oreq.offer = offer) (hoc : oreq.clientId = client) {hist : List Holder.HStep}
    (hprov : ∀ st ∈ hist, st.provider = W) (hhist : hist.map (·.req) = askCalls (e.rng hw.drawn) oreq oresp.txCode want late)
    (hquiet : ∀ pre, pre <+: Net.made hw.log.length (Holder.exec e hw hist).log [] →
      Undisturbed n (Issuer.step n.env w s).2 pre (Entrusted offer ((Holder.exec e hw hist).log.drop hw.log.length))) :
    ∃ txn new last, (Holder.exec e hw hist).log = hw.log ++ new ++ [last] ∧ (∀ en ∈ new, ∃ r, en.result = .ok r) ∧
      last.result = .ok (.credentials (e.rng hw.drawn) (some [(txn, cid)])) ∧ savedIn (new ++ [last]) = [] ∧
      ∀ collect save : Holder.HStep, collect.provider = W → collect.req = .deferred ⟨e.rng hw.drawn, txn, cid⟩ → save.req = .save (e.rng hw.drawn) →
        (∀ pre, pre <+: Net.made hw.log.length (Holder.exec e hw (hist ++ [collect, save])).log [] →
          Undisturbed n (Issuer.step n.env w s).2 pre (Entrusted offer ((Holder.exec e hw (hist ++ [collect, save])).log.drop hw.log.length))) →
        ∃ more, (Holder.exec e hw (hist ++ [collect, save])).log = hw.log ++ new ++ [last] ++ more ∧ (∀ en ∈ more, ∃ r, en.result = .ok r) ∧
          (savedIn more).map (fun c => (c.issuer, c.vc.subject)) =
            (want ++ [late]).map (fun id => (req.credentialIssuer, .one { id := some (beforeHash W.kid), claims := claims id })) ∧
          (Holder.exec e hw (hist ++ [collect, save])).store (e.rng hw.drawn) = none := by
  have hmd : ∀ j, (n.provider j).issuer md.credentialIssuer = some md := fun j => by rw [(hserves j).itself]; exact (hserves j).metadata
  obtain ⟨hist2, wB, new0, i, sT, tT, tok, l, creds, b1, b2, b3, b4, b5, b6, b0, b7, L, b8, b9, b10, b11, b12⟩ := offer_links hfresh hreach hreq h hpre
    hsub hdel hclient hserves hnd hknown hfi hids ho hf hoffer hoc (hist := hist)
    (rest := want.map (fun id => .credentials ⟨e.rng hw.drawn, some [id], none⟩) ++ [.credentials ⟨e.rng hw.drawn, some [late], none⟩])
    (by rw [hhist, askCalls, List.append_assoc]) (keys := Entrusted offer ((Holder.exec e hw hist).log.drop hw.log.length))
    (fun _ h => .given _ h) hquiet
  have hr1 : Issuer.Reachable n.env (Issuer.step n.env w s).2 := hreach.step s
  generalize (Issuer.step n.env w s).2 = w1 at *
  obtain ⟨hist3, wC, new1, got, i', s', t', g1, g2, g3, g4, g5, g6, g7, L', g8, g9⟩ := collect_some ho hf hfi hu b9 hmd hnd b10 (by rw [b11]; exact hids)
    (claims := claims) b7 (want := want)
    (fun id hid => by
      obtain ⟨cid, h1, ⟨ids, h2, h3⟩, h4⟩ := hwant id hid
      obtain ⟨d, hd1, cl, hd2, hd3, hd4⟩ := b12 cid h1 ids h2 id h3
      exact ⟨d, hd1, cid, cl, hd2, hd3, hd4, h4⟩)
    (fun x hx => hprov x (b1 x hx)) b2 (by rw [b4]; simp) (by rw [← b3]; exact hquiet) L
  obtain ⟨st, rest, rfl, hstr, hnil⟩ := List.map_eq_cons_iff.1 g2
  cases List.map_eq_nil_iff.1 hnil
  obtain ⟨ids, hl1, hl2⟩ := hlate.2
  obtain ⟨d, hd1, cl, hd2, hd3, hd4⟩ := b12 cid hlate.1 ids hl1 late hl2
  obtain ⟨a, b, x, y, hl, hxy, h1, h2, h3, h4⟩ := details_split hd1 hd3 (by rw [b11]; exact hids)
  obtain ⟨⟨cfg, types, hcfg, hty, hjwt⟩, ds, hds, hpend⟩ := hnot
  have hskipC : hw.log.length ≤ wC.log.length := by rw [g4, b4]; simp
  have hexC : Holder.exec e hw hist = (Holder.step e wC st).2 := by rw [b3, g3]; rfl
  have hq := hquiet (Net.made hw.log.length wC.log []) (by rw [hexC, Holder.step_log]; exact Net.made_prefix hskipC)
  have hixC : (n.after w1 (Net.made hw.log.length wC.log [])).1 = want.length + 3 := by rw [g7, b0]; omega
  obtain ⟨txn, last, i'', q, jwt, at_, p1, p2, p3, p4, p5, P, p6⟩ := L'.put_off hfresh hr1 ho hf hfi hu b9 hskipC hmd hnd hcfg hty hjwt
    (by rw [hixC]; exact hds) hpend hd4 hl b10 hd2 hxy h1 h2 h3 h4 (hprov st (b1 st (g1 st (.head _)))) hstr (hq.intact tok b7) hq.intime
  have hlog : (Holder.exec e hw hist).log = hw.log ++ (new0 ++ new1) ++ [last] := by
    rw [hexC, p2, g4, b4]; simp
  refine ⟨txn, new0 ++ new1, last, hlog, ?_, p1, ?_, ?_⟩
  · intro en hen
    rcases List.mem_append.1 hen with hen | hen
    · exact b5 en hen
    · exact g5 en hen
  · refine savedIn_of_calls fun en hen => ?_
    rcases List.mem_append.1 hen with hen | hen
    · rcases List.mem_append.1 hen with hen | hen
      · exact b6 en hen
      · exact g6 en hen
    · simp only [List.mem_singleton] at hen
      subst hen; exact p3
  intro collect save hcp hcr hsr hquiet2
  have hex2 : Holder.exec e hw (hist ++ [collect, save]) = Holder.exec e (Holder.step e wC st).2 [collect, save] := by
    rw [Holder.exec_append, hexC]
  generalize hwD : (Holder.step e wC st).2 = wD at *
  have hskipD : hw.log.length ≤ wD.log.length := by rw [p2]; simp; omega
  obtain ⟨tl, htl⟩ := Holder.exec_log e wD [collect, save]
  have hq2 := hquiet2 (Net.made hw.log.length wD.log []) (by rw [hex2, htl]; exact Net.made_prefix hskipD)
  have hdrop : (Holder.exec e hw (hist ++ [collect, save])).log.drop hw.log.length = (new0 ++ new1) ++ [last] ++ tl := by
    rw [hex2, htl, ← hexC, hlog]; simp
  obtain ⟨q', r', hev, hr'⟩ := p4
  have htokD : Entrusted offer ((Holder.exec e hw (hist ++ [collect, save])).log.drop hw.log.length) tok := by
    have hb : ∀ key, Entrusted offer ((Holder.exec e hw hist).log.drop hw.log.length) key →
        Entrusted offer ((Holder.exec e hw (hist ++ [collect, save])).log.drop hw.log.length) key := by
      have hsub : ∀ en, en ∈ (Holder.exec e hw hist).log.drop hw.log.length →
          en ∈ (Holder.exec e hw (hist ++ [collect, save])).log.drop hw.log.length := by
        intro en hen
        rw [hdrop]
        rw [hlog, List.append_assoc, List.drop_left] at hen
        exact List.mem_append_left _ hen
      rintro key (⟨_, hg⟩ | ⟨en, q, r, t, m1, m2, m3⟩)
      · cases hg with
        | code g p m1 m2 => exact .given _ (.code g p m1 m2)
        | token en q t m1 m2 => exact .given _ (.token en q t (hsub en m1) m2)
      · exact .transaction en q r _ (hsub en m1) m2 m3
    exact hb tok b7
  have htxnD : Entrusted offer ((Holder.exec e hw (hist ++ [collect, save])).log.drop hw.log.length) txn :=
    .transaction last q' r' txn (by rw [hdrop]; simp) hev hr'
  obtain ⟨c, j, en, ⟨r, c1⟩, c2, c3, c4, c5, c6, c7, c8, c9⟩ := P.collect ho hf hfi hu b9 hskipD hmd hnd
    (by rw [p5, hixC]; exact hthen) hd4 hcp hcr
    (fun key hk => by
      rcases hk with rfl | rfl
      · exact hq2.intact _ htokD
      · exact hq2.intact _ htxnD) hq2.intime
  generalize hwE : (Holder.step e wD collect).2 = wE at *
  have hrun := Holder.save_runs (e := e) (w := Holder.before wE save) hf (k := e.rng hw.drawn) (i := j) c4 c5 c6 (by rw [ho]; exact hsave)
  have hstep := step_of_run (e := e) (hw := wE) (st := save) (by rw [hsr]; exact hrun)
  have hfin : Holder.exec e wD [collect, save] = (Holder.step e wE save).2 := by rw [← hwE]; rfl
  rw [hex2, hfin, hstep]
  refine ⟨[en, ⟨save.provider, wE.now + save.wait, save.req, .ok (.flow (e.rng hw.drawn)), j.credentials.map fun c => ⟨.save c, some ()⟩⟩], ?_, ?_, ?_,
    upd_same ..⟩
  · show wE.log ++ [_] = _
    rw [c2, ← hexC, hlog]
    simp only [List.append_assoc, List.cons_append, List.nil_append, Holder.before]
  · intro en' hen'
    simp only [List.mem_cons, List.not_mem_nil, or_false] at hen'
    rcases hen' with rfl | rfl
    · exact ⟨r, c1⟩
    · exact ⟨_, rfl⟩
  · have hno : savedIn [en] = [] := savedIn_of_calls fun en' hen' => by
      simp only [List.mem_singleton] at hen'
      subst hen'; exact c3
    have hsv : ∀ a b, savedIn (a ++ b) = savedIn a ++ savedIn b := by intro a b; simp [savedIn]
    rw [← List.singleton_append, hsv, hno]
    simp only [savedIn, List.flatMap_cons, List.flatMap_nil, List.append_nil, List.nil_append, List.filterMap_map]
    rw [show (saved ∘ fun c => (⟨.save c, some ()⟩ : Holder.Event)) = some from rfl, List.filterMap_some, c7, p6, g8, b8]
    simp only [List.nil_append, List.map_append, g9, List.map_cons, List.map_nil, c8, c9, (hserves 0).itself]

end Verif.Interop
