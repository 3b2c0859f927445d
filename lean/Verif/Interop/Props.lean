import Verif.Interop.Link
/-!
# The wallet and the issuer together: C101
-/
namespace Verif.Interop
open Verif

/-! ### Specification -/

/-- The issuer `url` describes itself as `md`, and lets `client` exchange pre-authorized codes. -/
structure Serves (P : Issuer.Provider) (url : String) (md : Verif.Issuer) (client : String) : Prop where
  metadata : P.issuer url = some md
  itself : md.credentialIssuer = url
  server : ∃ server supported scopes, P.server url = some server ∧ server.grantTypesSupported = some supported ∧
    GrantType.preAuthorizedCode ∈ supported ∧ server.scopesSupported = some scopes ∧
    ∃ c scope, P.client client = some c ∧ c.scope = some scope ∧ ∀ x ∈ splitWs scope, x ∈ scopes

/-- The calls that take a wallet from an offer to an access token: taking in the offer, accepting it, entering the transaction code if there is one,
getting a token. -/
def beginCalls (k : String) (offer : Holder.OfferRequest) (txCode : Option String) : List Holder.Req :=
  [.offer offer, .accept ⟨k, none⟩] ++ (match txCode with | some p => [.pin ⟨k, p⟩] | none => []) ++ [.token k]

/-- The calls that take a wallet from an offer to stored credentials: those up to the token, then collecting the credentials one at a time, saving
them. -/
def collectCalls (k : String) (offer : Holder.OfferRequest) (txCode : Option String) (want : List String) : List Holder.Req :=
  beginCalls k offer txCode ++ want.map (fun id => .credentials ⟨k, some [id], none⟩) ++ [.save k]

/-- A credential handed to storage, which took it. -/
def saved : Holder.Event → Option Holder.Credential
  | ⟨.save c, some ()⟩ => some c
  | _ => none

/-- All credentials stored in some part of a wallet's history. -/
def savedIn (log : List Holder.Entry) : List Holder.Credential := log.flatMap fun en => en.events.filterMap saved

/-- What the issuer gave the wallet that others must not use: the code of the offer, and the access tokens. -/
inductive Given (offer : Issuer.CredentialOffer) (log : List Holder.Entry) : String → Prop
  | code (g : Issuer.Grants) (p : Issuer.PreAuthorizedCodeGrant) : offer.grants = some g → g.preAuthorizedCode = some p →
      Given offer log p.preAuthorizedCode
  | token (en : Holder.Entry) (q : Issuer.TokenRequest) (t : Issuer.TokenResponse) : en ∈ log →
      (⟨.token q, some t⟩ : Holder.Event) ∈ en.events → Given offer log t.accessToken

/-- When the wallet's next call arrives at the issuer, less than five minutes (and a second) have passed since `w`, and what others did since
the wallet's last call left the entries for `keys` alone. -/
structure Undisturbed (n : Net) (w : World Issuer.State) (calls : List Holder.Call) (keys : String → Prop) : Prop where
  intact : ∀ key, keys key → (n.arrival (n.after w calls).1 (n.after w calls).2).store key = (n.after w calls).2.store key
  intime : (n.arrival (n.after w calls).1 (n.after w calls).2).now < w.now + 5 * 60 * Issuer.sec + Issuer.sec

/-! ### Helpers -/

theorem map_of_zip {α β γ : Type} {f : β → γ} {g : α → γ} {a : List α} {b : List β} (hl : a.length = b.length) (h : ∀ p ∈ a.zip b, f p.2 = g p.1) :
    b.map f = a.map g := by
  induction a generalizing b with
  | nil => cases b with
    | nil => rfl
    | cons => cases hl
  | cons x a ih => cases b with
    | nil => cases hl
    | cons y b =>
      simp only [List.map_cons, h (x, y) (.head _)]
      rw [ih (by simpa using hl) fun p hp => h p (.tail _ hp)]

theorem delivers_unique {url : String} {store : String → Option Issuer.State} {ot : Issuer.OfferType} {o o' : Issuer.CredentialOffer}
    (h : Issuer.Delivers url store ot o) (h' : Issuer.Delivers url store ot o') : o = o' := by
  cases h with
  | byVal => cases h'; rfl
  | byRef _ id s hs hp =>
    generalize hu : Issuer.OfferType.uri (url ++ "/credential_offer/" ++ id) = u at h'
    cases h' with
    | byVal => cases hu
    | byRef _ id' s' hs' hp' =>
      simp only [Issuer.OfferType.uri.injEq, String.append_right_inj] at hu
      subst hu
      rw [hs] at hs'; cases hs'
      rw [hp] at hp'; cases hp'
      rfl

theorem serve_metadata (n : Net) {i : Nat} {w : World Issuer.State} {url : String} {md : Verif.Issuer} (h : (n.provider i).issuer url = some md) :
    n.serve i w (.metadata url) = (.ok (.metadata md), n.arrival i w) := by
  simp only [Net.serve, Issuer.step, Issuer.call, Issuer.metadata, h, orErr]
  simp [Issuer.World.wait]
  rfl

theorem serve_oauth (n : Net) {i : Nat} {w : World Issuer.State} {url : String} {sv : Server} (h : (n.provider i).server url = some sv) :
    n.serve i w (.oauthServer url) = (.ok (.oauthServer sv), n.arrival i w) := by
  simp only [Net.serve, Issuer.step, Issuer.call, Issuer.oauthServer, h, orErr]
  simp [Issuer.World.wait]
  rfl

/-- Splitting a list at an element that occurs once. -/
theorem split_once {α : Type} {x : α} {l : List α} (h : x ∈ l) (hn : l.Nodup) : ∃ a b, l = a ++ x :: b ∧ x ∉ a ∧ x ∉ b := by
  obtain ⟨a, b, rfl⟩ := List.append_of_mem h
  refine ⟨a, b, rfl, ?_, ?_⟩
  · intro ha
    exact (List.nodup_append.1 hn).2.2 x ha x (.head _) rfl
  · exact (List.nodup_cons.1 (List.nodup_append.1 hn).2.1).1

theorem details_split {l : List Issuer.AuthorizedDetail} {d : Issuer.AuthorizedDetail} {id : String} (hd : d ∈ l) (hid : id ∈ d.identifiers)
    (hn : (l.flatMap (·.identifiers)).Nodup) :
    ∃ a b x y, l = a ++ d :: b ∧ d.identifiers = x ++ id :: y ∧ (∀ d' ∈ a, id ∉ d'.identifiers) ∧ (∀ d' ∈ b, id ∉ d'.identifiers) ∧
      id ∉ x ∧ id ∉ y := by
  obtain ⟨a, b, rfl⟩ := List.append_of_mem hd
  simp only [List.flatMap_append, List.flatMap_cons, List.nodup_append] at hn
  obtain ⟨_, ⟨h2, _, h4⟩, h5⟩ := hn
  obtain ⟨x, y, hxy, hx, hy⟩ := split_once hid h2
  refine ⟨a, b, x, y, rfl, hxy, ?_, ?_, hx, hy⟩
  · intro d' hd' hm
    exact h5 id (List.mem_flatMap.2 ⟨d', hd', hm⟩) id (List.mem_append_left _ hid) rfl
  · intro d' hd' hm
    exact h4 id hid id (List.mem_flatMap.2 ⟨d', hd', hm⟩) rfl

/-- Collecting any number of credentials one at a time, and saving them. -/
theorem collect_all {n : Net} {w1 : World Issuer.State} {skip : Nat} {e : Holder.HEnv} (ho : e.oracle = n.oracle w1 skip)
    (hsave : ∀ log recent c, n.rest log recent (.save c) = some ()) (hf : ∀ m, e.fault m = .ok) (hfi : ∀ m, n.env.fault m = .ok)
    {W : Holder.Provider} {md : Verif.Issuer} (hu : Understands n W w1.now (w1.now + 5 * 60 * Issuer.sec + Issuer.sec)) {subj k tok : String}
    {l : List Issuer.AuthorizedDetail} {creds : Dict Issuer.Authorized} (hnt : Dict.Nodup creds)
    (hmd : ∀ j, (n.provider j).issuer md.credentialIssuer = some md) (hnd : Dict.Nodup md.configs) (hkn : ∀ d' ∈ l, Holder.Known md d')
    (hids : (l.flatMap (·.identifiers)).Nodup) {claims : String → Dict Json} {keys : String → Prop} (htok : keys tok) {want : List String}
    {config : String → String → Prop}
    (hwant : ∀ id ∈ want, ∃ d ∈ l, ∃ cid cl, d.detail.credential = .configurationId cid cl ∧ id ∈ d.identifiers ∧
      (id, ({ identifier := id, configId := cid, claimIds := none } : Issuer.Authorized)) ∈ creds ∧
      (∀ j, Issues (n.provider j) md subj cid id (claims id)) ∧ config id cid)
    {hist : List Holder.HStep} (hprov : ∀ st ∈ hist, st.provider = W)
    (hhist : hist.map (·.req) = want.map (fun id => .credentials ⟨k, some [id], none⟩) ++ [.save k])
    {hw : Holder.HWorld} (hskip : skip ≤ hw.log.length)
    (hquiet : ∀ pre, pre <+: Net.made skip (Holder.exec e hw hist).log [] → Undisturbed n w1 pre keys)
    {i : Holder.Issuance} {s : Issuer.State} {t : Issuer.Token}
    (L : Linked md subj k tok l creds (w1.now + 5 * 60 * Issuer.sec) hw (n.after w1 (Net.made skip hw.log [])).2 i s t) :
    ∃ new got, (Holder.exec e hw hist).log = hw.log ++ new ∧ (∀ en ∈ new, ∃ r, en.result = .ok r) ∧ savedIn new = i.credentials ++ got ∧
      want.length = got.length ∧ (∀ p ∈ want.zip got, ∃ cid, config p.1 cid ∧ Collected n W md cid (claims p.1) p.2) ∧
      (Holder.exec e hw hist).store k = none := by
  induction want generalizing hist hw i s t with
  | nil =>
    simp only [List.map_nil, List.nil_append] at hhist
    obtain ⟨st, rest, rfl, hreq, hr⟩ := List.map_eq_cons_iff.1 hhist
    cases List.map_eq_nil_iff.1 hr
    have hrun := Holder.save_runs (e := e) (w := Holder.before hw st) hf (k := k) (i := i) L.stored L.deferred L.notification
      (by rw [ho]; exact hsave)
    have hstep := step_of_run (e := e) (hw := hw) (st := st) (by rw [hreq]; exact hrun)
    refine ⟨[⟨st.provider, hw.now + st.wait, st.req, .ok (.flow k), i.credentials.map fun c => ⟨.save c, some ()⟩⟩], [], ?_, ?_, ?_, rfl, by simp, ?_⟩
    · simp only [Holder.exec]; rw [hstep]; rfl
    · intro en hen
      simp only [List.mem_singleton] at hen
      subst hen; exact ⟨_, rfl⟩
    · simp only [savedIn, List.flatMap_cons, List.flatMap_nil, List.append_nil, List.filterMap_map]
      rw [show (saved ∘ fun c => (⟨.save c, some ()⟩ : Holder.Event)) = some from rfl, List.filterMap_some]
    · simp only [Holder.exec]; rw [hstep]; exact upd_same ..
  | cons id want ih =>
    simp only [List.map_cons, List.cons_append] at hhist
    obtain ⟨st, hist, rfl, hreq, hhist⟩ := List.map_eq_cons_iff.1 hhist
    obtain ⟨d, hdl, cid, cl, hdc, hid, hm, hiss, hcon⟩ := hwant id (.head _)
    obtain ⟨a, b, x, y, hl, hxy, h1, h2, h3, h4⟩ := details_split hdl hid hids
    obtain ⟨tl, htl⟩ := Holder.exec_log e hw (st :: hist)
    have hq := hquiet (Net.made skip hw.log []) (by rw [htl]; exact Net.made_prefix hskip)
    obtain ⟨c, i', s', t', en, ⟨r, hr⟩, hlog, hns, _, L', hcr, hcol⟩ := L.collect ho hf hfi hu hnt hskip hmd hnd hiss hm hl hkn hdc hxy h1 h2 h3 h4
      (hprov st (.head _)) hreq (hq.intact tok htok) hq.intime
    obtain ⟨new, got, g1, g2, g3, g4, g5, g6⟩ := ih (fun x hx => hwant x (.tail _ hx)) (fun x hx => hprov x (.tail _ hx)) hhist
      (by rw [hlog]; simp; omega) hquiet L'
    refine ⟨en :: new, c :: got, ?_, ?_, ?_, ?_, ?_, g6⟩
    · show (Holder.exec e (Holder.step e hw st).2 hist).log = _
      rw [g1, hlog]; simp
    · intro en' hen'
      rcases List.mem_cons.1 hen' with rfl | hen'
      · exact ⟨r, hr⟩
      · exact g2 en' hen'
    · have hno : en.events.filterMap saved = [] := by
        rw [List.filterMap_eq_nil_iff]
        intro ev hev
        have := hns ev hev
        unfold saved
        split
        · exact absurd rfl (this _)
        · rfl
      have : savedIn (en :: new) = savedIn new := by simp [savedIn, hno]
      rw [this, g3, hcr]; simp
    · simp [g4]
    · intro p hp
      rcases List.mem_cons.1 hp with rfl | hp
      · exact ⟨cid, hcon, hcol⟩
      · exact g5 p hp

/-- Nothing was stored. -/
theorem savedIn_of_calls {log : List Holder.Entry} (h : ∀ en ∈ log, ∀ ev ∈ en.events, ∀ c, ev.call ≠ .save c) : savedIn log = [] := by
  unfold savedIn
  rw [List.flatMap_eq_nil_iff]
  intro en hen
  rw [List.filterMap_eq_nil_iff]
  intro ev hev
  have := h en hen ev hev
  unfold saved
  split
  · exact absurd rfl (this _)
  · rfl

/-- From the offer to the accepted flow. -/
theorem begin_runs {n : Net} {w1 : World Issuer.State} {e : Holder.HEnv} {hw : Holder.HWorld} (ho : e.oracle = n.oracle w1 hw.log.length)
    (hf : ∀ m, e.fault m = .ok) {oreq : Holder.OfferRequest} {md : Verif.Issuer} {sv : Server} (hne : oreq.offer.configIds ≠ [])
    (hmd : (n.provider 0).issuer oreq.offer.credentialIssuer = some md) (hsv : (n.provider 1).server oreq.offer.credentialIssuer = some sv)
    (hkn : ∀ cid ∈ oreq.offer.configIds, ∃ c, md.configs.get? cid = some c) {txCode : Option String}
    (hpin : Holder.needsPin oreq.offer = txCode.isSome) {rest : List Holder.Req} {hist : List Holder.HStep}
    (hhist : hist.map (·.req) = [.offer oreq, .accept ⟨e.rng hw.drawn, none⟩] ++
      (match txCode with | some p => [.pin ⟨e.rng hw.drawn, p⟩] | none => []) ++ rest) :
    ∃ hist' hwA i new, (∀ st ∈ hist', st ∈ hist) ∧ hist'.map (·.req) = rest ∧ Holder.exec e hw hist = Holder.exec e hwA hist' ∧
      hwA.log = hw.log ++ new ∧ (∀ en ∈ new, ∃ r, en.result = .ok r) ∧ (∀ en ∈ new, ∀ ev ∈ en.events, ∀ c, ev.call ≠ .save c) ∧
      Net.made hw.log.length hwA.log [] = [.metadata oreq.offer.credentialIssuer, .oauthServer oreq.offer.credentialIssuer] ∧
      hwA.store (e.rng hw.drawn) = some (.issuance i) ∧ i.id = e.rng hw.drawn ∧ i.status = .accepted ∧ i.offer = oreq.offer ∧ i.issuer = md ∧
      i.clientId = oreq.clientId ∧ i.pin = txCode ∧ i.accepted = none ∧ i.scope = none ∧ i.deferred = [] ∧ i.notificationId = none ∧
      i.credentials = [] ∧ i.server = sv ∧ i.subjectId = oreq.subjectId := by
  simp only [List.cons_append, List.nil_append] at hhist
  obtain ⟨st0, hist1, rfl, hr0, hhist⟩ := List.map_eq_cons_iff.1 hhist
  obtain ⟨st1, hist2, rfl, hr1, hhist⟩ := List.map_eq_cons_iff.1 hhist
  have hnil : Net.made hw.log.length hw.log [] = [] := by simp [Net.made]
  have h1 : e.oracle hw.log [] (.metadata oreq.offer.credentialIssuer) = some md := by
    rw [ho]
    show n.answer w1 (Net.made hw.log.length hw.log []) _ _ = _
    rw [hnil]
    simp only [Net.answer, Net.after, List.foldl_nil, serve_metadata n hmd, reply]
    rfl
  have h2 : e.oracle hw.log ([] ++ [⟨.metadata oreq.offer.credentialIssuer, some md⟩]) (.oauthServer oreq.offer.credentialIssuer) = some sv := by
    rw [ho]
    show n.answer w1 (Net.made hw.log.length hw.log _) _ _ = _
    rw [Net.made_recent, hnil]
    simp only [Net.answer, Net.after, List.nil_append, List.map_cons, List.map_nil, List.foldl_cons, List.foldl_nil, Net.next, request, Nat.zero_add,
      serve_oauth n hsv, reply]
    rfl
  obtain ⟨r0, hrun0⟩ := Holder.offer_runs (e := e) (w := Holder.before hw st0) hf hne h1 h2 hkn
  have hstep0 := step_of_run (e := e) (hw := hw) (st := st0) (by rw [hr0]; exact hrun0)
  generalize hwa : (Holder.step e hw st0).2 = wa
  have la : wa.log = hw.log ++ [⟨st0.provider, hw.now + st0.wait, st0.req, .ok r0,
      [⟨.metadata oreq.offer.credentialIssuer, some md⟩, ⟨.oauthServer oreq.offer.credentialIssuer, some sv⟩]⟩] := by
    rw [← hwa, hstep0]; rfl
  have sa : wa.store (e.rng hw.drawn) = some (.issuance (Holder.offeredFlow (e.rng hw.drawn) oreq md sv)) := by
    rw [← hwa, hstep0]; exact upd_same ..
  have hrun1 := Holder.accept_runs (e := e) (w := Holder.before wa st1) hf sa rfl rfl
  have hstep1 := step_of_run (e := e) (hw := wa) (st := st1) (by rw [hr1]; exact hrun1)
  generalize hwb : (Holder.step e wa st1).2 = wb
  have lb : wb.log = wa.log ++ [⟨st1.provider, wa.now + st1.wait, st1.req, .ok (.flow (e.rng hw.drawn)), []⟩] := by rw [← hwb, hstep1]; rfl
  have sb : wb.store (e.rng hw.drawn) = some (.issuance { Holder.offeredFlow (e.rng hw.drawn) oreq md sv with
      accepted := none
      status := if Holder.needsPin oreq.offer then .pendingPin else .accepted }) := by
    rw [← hwb, hstep1]; exact upd_same ..
  have hexec : Holder.exec e hw (st0 :: st1 :: hist2) = Holder.exec e wb hist2 := by simp only [Holder.exec, hwa, hwb]
  cases txCode with
  | none =>
    simp only [Option.isSome_none] at hpin
    simp only [hpin, Bool.false_eq_true, if_false] at sb
    refine ⟨hist2, wb, _, _, fun st h => .tail _ (.tail _ h), hhist, hexec, by rw [lb, la, List.append_assoc], ?_, ?_, ?_, sb, rfl, rfl, rfl, rfl, rfl, rfl, rfl,
      rfl, rfl, rfl, rfl, rfl, rfl⟩
    · intro en hen
      simp only [List.cons_append, List.nil_append, List.mem_cons, List.not_mem_nil, or_false] at hen
      rcases hen with rfl | rfl <;> exact ⟨_, rfl⟩
    · intro en hen
      simp only [List.cons_append, List.nil_append, List.mem_cons, List.not_mem_nil, or_false] at hen
      rcases hen with rfl | rfl <;> simp
    · rw [lb, la]; simp [Net.made]
  | some p =>
    simp only [Option.isSome_some] at hpin
    simp only [hpin, if_true] at sb
    simp only [List.cons_append, List.nil_append] at hhist
    obtain ⟨st2, hist3, rfl, hr2, hhist⟩ := List.map_eq_cons_iff.1 hhist
    have hrun2 := Holder.pin_runs (e := e) (w := Holder.before wb st2) hf sb rfl rfl p
    have hstep2 := step_of_run (e := e) (hw := wb) (st := st2) (by rw [hr2]; exact hrun2)
    generalize hwc : (Holder.step e wb st2).2 = wc
    have lc : wc.log = wb.log ++ [⟨st2.provider, wb.now + st2.wait, st2.req, .ok (.flow (e.rng hw.drawn)), []⟩] := by rw [← hwc, hstep2]; rfl
    have sc : wc.store (e.rng hw.drawn) = some (.issuance { Holder.offeredFlow (e.rng hw.drawn) oreq md sv with
        accepted := none
        pin := some p
        status := .accepted }) := by rw [← hwc, hstep2]; exact upd_same ..
    refine ⟨hist3, wc, _, _, fun st h => .tail _ (.tail _ (.tail _ h)), hhist, by rw [hexec]; simp only [Holder.exec, hwc],
      by rw [lc, lb, la, List.append_assoc, List.append_assoc], ?_, ?_, ?_, sc, rfl, rfl, rfl, rfl, rfl, rfl, rfl, rfl, rfl, rfl, rfl,
      rfl, rfl⟩
    · intro en hen
      simp only [List.cons_append, List.nil_append, List.mem_cons, List.not_mem_nil, or_false] at hen
      rcases hen with rfl | rfl | rfl <;> exact ⟨_, rfl⟩
    · intro en hen
      simp only [List.cons_append, List.nil_append, List.mem_cons, List.not_mem_nil, or_false] at hen
      rcases hen with rfl | rfl | rfl <;> simp
    · rw [lc, lb, la]; simp [Net.made]

/-- What the wallet needs to know of an offer. -/
theorem offer_ready {n : Net} (hfresh : Issuer.Env.Fresh n.env) {w : World Issuer.State} (hreach : Issuer.Reachable n.env w)
    {s : Issuer.Step} {req : Issuer.CreateOfferRequest} (hreq : s.req = .createOffer req) {oresp : Issuer.CreateOfferResponse}
    (h : (Issuer.step n.env w s).1 = .ok (.createOffer oresp)) (hpre : req.requests .preAuthorizedCode) {offer : Issuer.CredentialOffer}
    (hdel : Issuer.Delivers req.credentialIssuer (Issuer.step n.env w s).2.store oresp.offerType offer) :
    offer.credentialIssuer = req.credentialIssuer ∧ offer.configIds ≠ [] ∧ Holder.needsPin offer = oresp.txCode.isSome := by
  obtain ⟨subj', offer', g, p, c1, c2, c3, c4, c5⟩ := Issuer.C18_offer_redeemable hfresh hreach hreq h hpre
  cases delivers_unique hdel c2
  have hstepq := Issuer.step_createOffer (e := n.env) (w := w) hreq
  have hrunq := h
  rw [hstepq] at hrunq
  obtain ⟨oresp', hrunq, hor⟩ := Issuer.map_ok.1 hrunq
  cases hor
  obtain ⟨_, _, o17, _, _, d17, a1, a2, a3, _, _, _, _, _, _, a4⟩ := Issuer.C17_offers_supported (Issuer.pair_of_fst hrunq)
  have : o17 = offer := delivers_unique d17 (by rw [hstepq] at hdel; exact hdel)
  subst this
  have hpin := a4 g p c3 c4
  refine ⟨a1, a3, ?_⟩
  simp only [Holder.needsPin, c3, c4]
  rw [Bool.eq_iff_iff, hpin, Option.isSome_iff_exists]

/-- From an accepted flow to an access token: the wallet's flow and the issuer's session belong together. -/
theorem token_links {n : Net} (hfresh : Issuer.Env.Fresh n.env) {w : World Issuer.State} (hreach : Issuer.Reachable n.env w)
    {s : Issuer.Step} {req : Issuer.CreateOfferRequest} (hreq : s.req = .createOffer req) {oresp : Issuer.CreateOfferResponse}
    (h : (Issuer.step n.env w s).1 = .ok (.createOffer oresp)) (hpre : req.requests .preAuthorizedCode) {subj : String}
    (hsub : req.subjectId = some subj) {offer : Issuer.CredentialOffer}
    (hdel : Issuer.Delivers req.credentialIssuer (Issuer.step n.env w s).2.store oresp.offerType offer)
    {md : Verif.Issuer} {client : String} (hclient : client ≠ "") (hserves : ∀ j, Serves (n.provider j) req.credentialIssuer md client)
    (hnd : Dict.Nodup md.configs) (hknown : ∀ cid ∈ offer.configIds, ∃ cfg, (cid, cfg) ∈ md.configs) (hfi : ∀ m, n.env.fault m = .ok)
    (hids : (offer.configIds.flatMap fun cid => (s.provider.authorize subj cid).getD []).Nodup)
    {e : Holder.HEnv} {skip : Nat} (ho : e.oracle = n.oracle (Issuer.step n.env w s).2 skip) (hf : ∀ m, e.fault m = .ok)
    {hwA : Holder.HWorld} {k : String} {i : Holder.Issuance} (hskipA : skip ≤ hwA.log.length)
    (b7 : Net.made skip hwA.log [] = [.metadata req.credentialIssuer, .oauthServer req.credentialIssuer])
    (b8 : hwA.store k = some (.issuance i)) (b9 : i.id = k) (b10 : i.status = .accepted) (b11 : i.offer = offer) (b12 : i.issuer = md)
    (b13 : i.clientId = client) (b14 : i.pin = oresp.txCode) (b15 : i.accepted = none) (b16 : i.scope = none) (b17 : i.deferred = [])
    (b18 : i.notificationId = none) {keys : String → Prop}
    (hcode : ∀ g p, offer.grants = some g → g.preAuthorizedCode = some p → keys p.preAuthorizedCode)
    (hquiet : ∀ pre, pre <+: [.metadata req.credentialIssuer, .oauthServer req.credentialIssuer] → Undisturbed n (Issuer.step n.env w s).2 pre keys)
    {st2 : Holder.HStep} (hr2 : st2.req = .token k) :
    ∃ en q tr i' sT tT l creds, (∃ r, en.result = .ok r) ∧ (Holder.step e hwA st2).2.log = hwA.log ++ [en] ∧
      en.events = [⟨.token q, some tr⟩] ∧
      (n.after (Issuer.step n.env w s).2 (Net.made skip (Holder.step e hwA st2).2.log [])).1 = 3 ∧
      Linked md subj k tr.accessToken l creds ((Issuer.step n.env w s).2.now + 5 * 60 * Issuer.sec) (Holder.step e hwA st2).2
        (n.after (Issuer.step n.env w s).2 (Net.made skip (Holder.step e hwA st2).2.log [])).2 i' sT tT ∧ i'.credentials = i.credentials ∧
      Dict.Nodup creds ∧ (∀ d ∈ l, Holder.Known md d) ∧
      (l.flatMap (·.identifiers)) = offer.configIds.flatMap (fun cid => (s.provider.authorize subj cid).getD []) ∧
      ∀ cid ∈ offer.configIds, ∀ ids, s.provider.authorize subj cid = some ids → ∀ id ∈ ids,
        ∃ d ∈ l, ∃ cl, d.detail.credential = .configurationId cid cl ∧ id ∈ d.identifiers ∧
          (id, ({ identifier := id, configId := cid, claimIds := none } : Issuer.Authorized)) ∈ creds := by
  obtain ⟨subj', offer', g, p, c1, c2, c3, c4, c5⟩ := Issuer.C18_offer_redeemable hfresh hreach hreq h hpre
  rw [hsub] at c1; cases c1
  cases delivers_unique hdel c2
  obtain ⟨hcids, st, k1, k2, k3, k4, k5⟩ := Issuer.offer_stored hfresh hreq h hpre hdel rfl c3 c4
  have hstepq := Issuer.step_createOffer (e := n.env) (w := w) hreq
  have hrunq := h
  rw [hstepq] at hrunq
  obtain ⟨oresp', hrunq, hor⟩ := Issuer.map_ok.1 hrunq
  cases hor
  obtain ⟨_, _, o17, _, _, d17, a1, a2, a3, _, _, _, _, _, _, a4⟩ := Issuer.C17_offers_supported (Issuer.pair_of_fst hrunq)
  have : o17 = offer := delivers_unique d17 (by rw [hstepq] at hdel; exact hdel)
  subst this
  have hw1now : (Issuer.step n.env w s).2.now = w.now + s.wait := Issuer.step_now ..
  generalize hw1 : (Issuer.step n.env w s).2 = w1 at *
  have hkn : ∀ cid ∈ o17.configIds, ∃ c, md.configs.get? cid = some c := fun cid hc => by
    obtain ⟨cfg, hcfg⟩ := hknown cid hc
    exact ⟨cfg, Dict.get?_of_mem hnd hcfg⟩
  obtain ⟨sv, supported, scopes, s1, s2, s3, s4, _⟩ := (hserves 1).server
  generalize hurl : req.credentialIssuer = url at *
  have q0 := hquiet [] (List.nil_prefix)
  have q1 := hquiet [.metadata url] ⟨[.oauthServer url], rfl⟩
  have q2 := hquiet _ (List.prefix_refl _)
  have e0 : n.after w1 [] = (0, w1) := rfl
  have e1 : n.after w1 [.metadata url] = (1, n.arrival 0 w1) := by
    have := n.after_snoc w1 (c := .metadata url) (r := .metadata url) rfl []
    rw [List.nil_append, e0, serve_metadata n (hserves 0).metadata] at this
    exact this
  have e2 : n.after w1 [.metadata url, .oauthServer url] = (2, n.arrival 1 (n.arrival 0 w1)) := by
    have := n.after_snoc w1 (c := .oauthServer url) (r := .oauthServer url) rfl [.metadata url]
    rw [List.cons_append, List.nil_append, e1, serve_oauth n s1] at this
    exact this
  have hstored : (n.arrival 2 (n.arrival 1 (n.arrival 0 w1))).store p.preAuthorizedCode = some st := by
    have i0 := q0.intact _ (hcode g p c3 c4)
    have i1 := q1.intact _ (hcode g p c3 c4)
    have i2 := q2.intact _ (hcode g p c3 c4)
    rw [e0] at i0
    rw [e1] at i1
    rw [e2] at i2
    exact i2.trans (i1.trans (i0.trans k1))
  have t2 := q2.intime
  rw [e2] at t2
  -- getting the token
  obtain ⟨lb, hlb⟩ := n.arrival_exec w1 [.metadata url, .oauthServer url]
  rw [e2] at hlb
  obtain ⟨sv2, supported2, scopes2, x1, x2, x3, x4, cl2, scope2, x5, x6, x7⟩ := (hserves 2).server
  obtain ⟨tr, l, y1, y2, y3, y4⟩ := c5 lb { provider := n.provider 2, req := .token (Holder.flowTokenRequest i p.preAuthorizedCode) }
    (Holder.flowTokenRequest i p.preAuthorizedCode) client cl2 sv2 scope2 scopes2 supported2 rfl
    (by simp only [Holder.flowTokenRequest, b14]) (by simp only [Holder.flowTokenRequest, b13]) hclient
    (by simp only [Holder.flowTokenRequest, b15])
    (by simp only [Holder.flowTokenRequest, b12, (hserves 2).itself]; exact x1) x2 x3 x5 x6 x4 x7
    ⟨by rw [← hlb, hstored]; simp, fun _ _ => hfi _, by rw [← hlb]; simp only [hw1now] at t2; simpa using t2⟩
  rw [← hlb] at y1
  have hserve : n.serve 2 (n.arrival 1 (n.arrival 0 w1)) (.token (Holder.flowTokenRequest i p.preAuthorizedCode)) =
      (.ok (.token tr), (n.serve 2 (n.arrival 1 (n.arrival 0 w1)) (.token (Holder.flowTokenRequest i p.preAuthorizedCode))).2) :=
    Prod.ext y1 rfl
  have hor : e.oracle hwA.log [] (.token (Holder.flowTokenRequest i p.preAuthorizedCode)) = some tr := by
    rw [ho]
    show n.answer w1 (Net.made skip hwA.log []) _ _ = _
    rw [b7]
    unfold Net.answer
    rw [e2, hserve]
    rfl
  have hl : ∀ d ∈ l, ∃ cid, cid ∈ o17.configIds ∧ d.detail.credential = .configurationId cid none ∧ s.provider.authorize subj cid = some d.identifiers := by
    intro d hd
    obtain ⟨ix, hix⟩ := List.mem_iff_getElem?.1 hd
    have z1 := congrArg (·[ix]?) y3
    have z2 := congrArg (·[ix]?) y4
    simp only [List.getElem?_map, hix, Option.map_some] at z1 z2
    cases hc : o17.configIds[ix]? with
    | none => rw [hc] at z1; cases z1
    | some cid =>
      rw [hc] at z1 z2
      simp only [Option.map_some, Option.some.injEq] at z1 z2
      exact ⟨cid, List.mem_iff_getElem?.2 ⟨ix, hc⟩, z1, z2.symm⟩
  have hl' : ∀ cid ∈ o17.configIds, ∃ d ∈ l, d.detail.credential = .configurationId cid none ∧ s.provider.authorize subj cid = some d.identifiers := by
    intro cid hcid
    obtain ⟨ix, hix⟩ := List.mem_iff_getElem?.1 hcid
    have z1 := congrArg (·[ix]?) y3
    have z2 := congrArg (·[ix]?) y4
    simp only [List.getElem?_map, hix, Option.map_some] at z1 z2
    cases hc : l[ix]? with
    | none => rw [hc] at z1; cases z1
    | some d =>
      rw [hc] at z1 z2
      simp only [Option.map_some, Option.some.injEq] at z1 z2
      exact ⟨d, List.mem_iff_getElem?.2 ⟨ix, hc⟩, z1, z2.symm⟩
  obtain ⟨m, hrun2⟩ := Holder.token_runs (e := e) (w := Holder.before hwA st2) hf b8 b10 b9 (by rw [b11]; exact c3) c4 hor y2
    (fun d hd => by obtain ⟨cid, _, h1, _⟩ := hl d hd; exact ⟨cid, none, h1⟩)
  have hstep2 := step_of_run (e := e) (hw := hwA) (st := st2) (by rw [hr2]; exact hrun2)
  generalize hwB : (Holder.step e hwA st2).2 = wB at *
  have lB : wB.log = hwA.log ++ [⟨st2.provider, hwA.now + st2.wait, st2.req, .ok (.authorized (k) (some m)),
      [⟨.token (Holder.flowTokenRequest i p.preAuthorizedCode), some tr⟩]⟩] := by rw [← hwB, hstep2]; rfl
  have sB : wB.store (k) = some (.issuance { i with
      token := tr
      status := .tokenReceived }) := by rw [← hwB, hstep2]; exact upd_same ..
  have eB : n.after w1 (Net.made skip wB.log []) =
      (3, (n.serve 2 (n.arrival 1 (n.arrival 0 w1)) (.token (Holder.flowTokenRequest i p.preAuthorizedCode))).2) := by
    rw [lB, Net.made_snoc hskipA, b7]
    have := n.after_snoc w1 (c := .token (Holder.flowTokenRequest i p.preAuthorizedCode)) (r := .token (Holder.flowTokenRequest i p.preAuthorizedCode)) rfl
      [.metadata url, .oauthServer url]
    rw [e2] at this
    exact this
  have hserve' := Issuer.step_token (e := n.env) (w := n.arrival 2 (n.arrival 1 (n.arrival 0 w1)))
      (s := { provider := n.provider 2, req := .token (Holder.flowTokenRequest i p.preAuthorizedCode) }) rfl
  rw [show Issuer.step n.env (n.arrival 2 (n.arrival 1 (n.arrival 0 w1))) { provider := n.provider 2, req := .token (Holder.flowTokenRequest i p.preAuthorizedCode) } =
    n.serve 2 (n.arrival 1 (n.arrival 0 w1)) (.token (Holder.flowTokenRequest i p.preAuthorizedCode)) from rfl] at hserve'
  have hok := hserve'
  rw [hserve] at hok
  obtain ⟨tr', hrunT, htr⟩ := Issuer.map_ok.1 (congrArg Prod.fst hok).symm
  cases htr
  obtain ⟨sT, tT, nonce, z1, z2, z3, z4, z5, z6, z7, z8⟩ := Issuer.token_session (Issuer.pair_of_fst hrunT)
    (by simp only [Holder.flowTokenRequest, b15]) (st := st) hstored
  have hnowA := n.arrival_now w1 [.metadata url, .oauthServer url]
  rw [e2] at hnowA
  have hidl : l.flatMap (·.identifiers) = o17.configIds.flatMap fun cid => (s.provider.authorize subj cid).getD [] := by
    have hj : ∀ (l : List Issuer.AuthorizedDetail) (cs : List String),
        l.map (fun d => some d.identifiers) = cs.map (s.provider.authorize subj) →
        l.flatMap (·.identifiers) = cs.flatMap fun cid => (s.provider.authorize subj cid).getD [] := by
      intro l
      induction l with
      | nil => intro cs hc; rw [List.map_nil, eq_comm, List.map_eq_nil_iff] at hc; subst hc; rfl
      | cons d l ih =>
        intro cs hc
        rw [List.map_cons] at hc
        obtain ⟨c, cs', rfl, hc1, hc2⟩ := List.map_eq_cons_iff.1 hc.symm
        simp only [List.flatMap_cons, hc1, Option.getD_some, ih cs' hc2.symm]
    exact hj l _ y4
  have L : Linked md subj (k) tr.accessToken l (Issuer.Token.authorizedCredentials st.grantItems) (w1.now + 5 * 60 * Issuer.sec) wB
      (n.after w1 (Net.made skip wB.log [])).2 { i with
        token := tr
        status := .tokenReceived } sT tT := by
    rw [eB, hserve']
    refine ⟨sB, b9, rfl, b16, b12, b17, b18, rfl, y2, by rw [z4]; exact z1, z2, z3, z7.trans (k3.trans hsub), z8, ?_, ?_⟩
    · rw [z6, k4, hw1now]; exact Int.le_refl _
    · rw [z5]
      show w1.now + 5 * 60 * Issuer.sec ≤ (n.arrival 2 (n.arrival 1 (n.arrival 0 w1))).now + 0 + Issuer.nonceDur
      simp only [Issuer.nonceDur, Issuer.sec] at *
      omega
  refine ⟨_, _, tr, _, sT, tT, l, _, ⟨_, rfl⟩, lB, rfl, by rw [eB], L, rfl, Issuer.authorizedCredentials_nodup _, ?_, hidl, ?_⟩
  · intro d hd
    obtain ⟨cid, h1, h2, _⟩ := hl d hd
    obtain ⟨c, hc⟩ := hkn cid h1
    exact ⟨cid, none, c, h2, hc⟩
  · intro cid h1 ids h2 id h3
    obtain ⟨d, hd1, hd2, hd3⟩ := hl' cid h1
    rw [h2] at hd3; cases hd3
    refine ⟨d, hd1, none, hd2, h3, ?_⟩
    refine Issuer.granted_only ((k5 subj hsub cid id).2 ⟨hcids ▸ h1, _, h2, h3⟩) fun cid' hg => ?_
    obtain ⟨b1', ids', b2', b3'⟩ := (k5 subj hsub cid' id).1 hg
    rw [← hcids] at b1'
    obtain ⟨d', hd1', hd2', hd3'⟩ := hl' cid' b1'
    rw [b2'] at hd3'; cases hd3'
    obtain ⟨A, B, X, Y, hl1, _, hA, hB, _, _⟩ := details_split hd1 h3 (by rw [hidl]; exact hids)
    rw [hl1] at hd1'
    rcases List.mem_append.1 hd1' with hx | hx
    · exact absurd b3' (hA d' hx)
    · rcases List.mem_cons.1 hx with rfl | hx
      · rw [hd2] at hd2'; cases hd2'; rfl
      · exact absurd b3' (hB d' hx)

/-- From an offer to an access token: the wallet's flow and the issuer's session belong together. -/
theorem offer_links {n : Net} (hfresh : Issuer.Env.Fresh n.env) {w : World Issuer.State} (hreach : Issuer.Reachable n.env w)
    {s : Issuer.Step} {req : Issuer.CreateOfferRequest} (hreq : s.req = .createOffer req) {oresp : Issuer.CreateOfferResponse}
    (h : (Issuer.step n.env w s).1 = .ok (.createOffer oresp)) (hpre : req.requests .preAuthorizedCode) {subj : String}
    (hsub : req.subjectId = some subj) {offer : Issuer.CredentialOffer}
    (hdel : Issuer.Delivers req.credentialIssuer (Issuer.step n.env w s).2.store oresp.offerType offer)
    {md : Verif.Issuer} {client : String} (hclient : client ≠ "") (hserves : ∀ j, Serves (n.provider j) req.credentialIssuer md client)
    (hnd : Dict.Nodup md.configs) (hknown : ∀ cid ∈ offer.configIds, ∃ cfg, (cid, cfg) ∈ md.configs) (hfi : ∀ m, n.env.fault m = .ok)
    (hids : (offer.configIds.flatMap fun cid => (s.provider.authorize subj cid).getD []).Nodup)
    {e : Holder.HEnv} {hw : Holder.HWorld} (ho : e.oracle = n.oracle (Issuer.step n.env w s).2 hw.log.length) (hf : ∀ m, e.fault m = .ok)
    {oreq : Holder.OfferRequest} (hoffer : oreq.offer = offer) (hoc : oreq.clientId = client) {hist : List Holder.HStep} {rest : List Holder.Req}
    (hhist : hist.map (·.req) = beginCalls (e.rng hw.drawn) oreq oresp.txCode ++ rest) {keys : String → Prop}
    (hkeys : ∀ key, Given offer ((Holder.exec e hw hist).log.drop hw.log.length) key → keys key)
    (hquiet : ∀ pre, pre <+: Net.made hw.log.length (Holder.exec e hw hist).log [] → Undisturbed n (Issuer.step n.env w s).2 pre keys) :
    ∃ hist2 wB new0 i sT tT tok l creds, (∀ st ∈ hist2, st ∈ hist) ∧ hist2.map (·.req) = rest ∧ Holder.exec e hw hist = Holder.exec e wB hist2 ∧
      wB.log = hw.log ++ new0 ∧ (∀ en ∈ new0, ∃ r, en.result = .ok r) ∧ (∀ en ∈ new0, ∀ ev ∈ en.events, ∀ c, ev.call ≠ .save c) ∧
      (n.after (Issuer.step n.env w s).2 (Net.made hw.log.length wB.log [])).1 = 3 ∧ keys tok ∧
      Linked md subj (e.rng hw.drawn) tok l creds ((Issuer.step n.env w s).2.now + 5 * 60 * Issuer.sec) wB
        (n.after (Issuer.step n.env w s).2 (Net.made hw.log.length wB.log [])).2 i sT tT ∧ i.credentials = [] ∧ Dict.Nodup creds ∧
      (∀ d ∈ l, Holder.Known md d) ∧
      (l.flatMap (·.identifiers)) = offer.configIds.flatMap (fun cid => (s.provider.authorize subj cid).getD []) ∧
      ∀ cid ∈ offer.configIds, ∀ ids, s.provider.authorize subj cid = some ids → ∀ id ∈ ids,
        ∃ d ∈ l, ∃ cl, d.detail.credential = .configurationId cid cl ∧ id ∈ d.identifiers ∧
          (id, ({ identifier := id, configId := cid, claimIds := none } : Issuer.Authorized)) ∈ creds := by
  obtain ⟨a1, a3, hpin⟩ := offer_ready hfresh hreach hreq h hpre hdel
  have hkn : ∀ cid ∈ offer.configIds, ∃ c, md.configs.get? cid = some c := fun cid hc => by
    obtain ⟨cfg, hcfg⟩ := hknown cid hc
    exact ⟨cfg, Dict.get?_of_mem hnd hcfg⟩
  obtain ⟨sv, supported, scopes, s1, _⟩ := (hserves 1).server
  obtain ⟨hist', hwA, i, new0, b1, b2, b3, b4, b5, b6, b7, b8, b9, b10, b11, b12, b13, b14, b15, b16, b17, b18, b19, _, _⟩ := begin_runs (n := n)
    (w1 := (Issuer.step n.env w s).2) (e := e) (hw := hw) ho hf (oreq := oreq) (md := md) (sv := sv) (by rw [hoffer]; exact a3)
    (by rw [hoffer, a1]; exact (hserves 0).metadata) (by rw [hoffer, a1]; exact s1) (by rw [hoffer]; exact hkn) (txCode := oresp.txCode)
    (by rw [hoffer]; exact hpin) (rest := .token (e.rng hw.drawn) :: rest) (hist := hist) (by rw [hhist]; simp [beginCalls])
  obtain ⟨tl, htl⟩ := Holder.exec_log e hwA hist'
  have hskipA : hw.log.length ≤ hwA.log.length := by rw [b4]; simp
  rw [hoffer, a1] at b7
  have hpfx : [.metadata req.credentialIssuer, .oauthServer req.credentialIssuer] <+: Net.made hw.log.length (Holder.exec e hw hist).log [] := by
    rw [b3, htl, ← b7]; exact Net.made_prefix hskipA
  obtain ⟨st2, hist2, rfl, hr2, hhist2⟩ := List.map_eq_cons_iff.1 b2
  obtain ⟨en, q, tr, i', sT, tT, l, creds, d1, d2, d3, d4, L, d5, d6, d7, d8, d9⟩ := token_links hfresh hreach hreq h hpre hsub hdel hclient hserves hnd hknown
    hfi hids ho hf hskipA b7 b8 b9 b10 (b11.trans hoffer) b12 (b13.trans hoc) b14 b15 b16 b17 b18 (keys := keys)
    (fun g p h1 h2 => hkeys _ (.code g p h1 h2)) (fun pre hpre => hquiet pre (hpre.trans hpfx)) hr2
  have hexB : Holder.exec e hw hist = Holder.exec e (Holder.step e hwA st2).2 hist2 := by rw [b3]; rfl
  obtain ⟨tl2, htl2⟩ := Holder.exec_log e (Holder.step e hwA st2).2 hist2
  refine ⟨hist2, (Holder.step e hwA st2).2, new0 ++ [en], i', sT, tT, tr.accessToken, l, creds, fun x hx => b1 x (.tail _ hx), hhist2, hexB,
    by rw [d2, b4]; simp, ?_, ?_, d4, ?_, L, d5.trans b19, d6, d7, d8, d9⟩
  · intro en' hen
    rcases List.mem_append.1 hen with hen | hen
    · exact b5 en' hen
    · simp only [List.mem_singleton] at hen
      subst hen; exact d1
  · intro en' hen
    rcases List.mem_append.1 hen with hen | hen
    · exact b6 en' hen
    · intro ev hev c
      simp only [List.mem_singleton] at hen
      subst hen
      rw [d3] at hev
      simp only [List.mem_singleton] at hev
      subst hev
      simp
  · refine hkeys _ (.token en q tr ?_ (by rw [d3]; exact .head _))
    rw [hexB, htl2, d2, b4]; simp

/-- From an offer to saved credentials. -/
theorem offer_collected {n : Net} (hfresh : Issuer.Env.Fresh n.env) {w : World Issuer.State} (hreach : Issuer.Reachable n.env w)
    {s : Issuer.Step} {req : Issuer.CreateOfferRequest} (hreq : s.req = .createOffer req) {oresp : Issuer.CreateOfferResponse}
    (h : (Issuer.step n.env w s).1 = .ok (.createOffer oresp)) (hpre : req.requests .preAuthorizedCode) {subj : String}
    (hsub : req.subjectId = some subj) {offer : Issuer.CredentialOffer}
    (hdel : Issuer.Delivers req.credentialIssuer (Issuer.step n.env w s).2.store oresp.offerType offer)
    {md : Verif.Issuer} {client : String} (hclient : client ≠ "") (hserves : ∀ j, Serves (n.provider j) req.credentialIssuer md client)
    (hnd : Dict.Nodup md.configs) (hknown : ∀ cid ∈ offer.configIds, ∃ cfg, (cid, cfg) ∈ md.configs) (hfi : ∀ m, n.env.fault m = .ok)
    (hids : (offer.configIds.flatMap fun cid => (s.provider.authorize subj cid).getD []).Nodup) {claims : String → Dict Json} {want : List String}
    (hwant : ∀ id ∈ want, ∃ cid ∈ offer.configIds, (∃ ids, s.provider.authorize subj cid = some ids ∧ id ∈ ids) ∧
      ∀ j, Issues (n.provider j) md subj cid id (claims id))
    {e : Holder.HEnv} {hw : Holder.HWorld} (ho : e.oracle = n.oracle (Issuer.step n.env w s).2 hw.log.length)
    (hsave : ∀ log recent c, n.rest log recent (.save c) = some ()) (hf : ∀ m, e.fault m = .ok) {W : Holder.Provider}
    (hu : Understands n W (Issuer.step n.env w s).2.now ((Issuer.step n.env w s).2.now + 5 * 60 * Issuer.sec + Issuer.sec))
    {oreq : Holder.OfferRequest} (hoffer : oreq.offer = offer) (hoc : oreq.clientId = client) {hist : List Holder.HStep}
    (hprov : ∀ st ∈ hist, st.provider = W) (hhist : hist.map (·.req) = collectCalls (e.rng hw.drawn) oreq oresp.txCode want)
    (hquiet : ∀ pre, pre <+: Net.made hw.log.length (Holder.exec e hw hist).log [] →
      Undisturbed n (Issuer.step n.env w s).2 pre (Given offer ((Holder.exec e hw hist).log.drop hw.log.length))) :
    ∃ new, (Holder.exec e hw hist).log = hw.log ++ new ∧ (∀ en ∈ new, ∃ r, en.result = .ok r) ∧
      want.length = (savedIn new).length ∧
      (∀ p ∈ want.zip (savedIn new), ∃ cid, (cid ∈ offer.configIds ∧ ∃ ids, s.provider.authorize subj cid = some ids ∧ p.1 ∈ ids) ∧
        Collected n W md cid (claims p.1) p.2) ∧
      (Holder.exec e hw hist).store (e.rng hw.drawn) = none := by
  obtain ⟨hist2, wB, new0, i, sT, tT, tok, l, creds, b1, b2, b3, b4, b5, b6, _, b7, L, b8, b9, b10, b11, b12⟩ := offer_links hfresh hreach hreq h hpre
    hsub hdel hclient hserves hnd hknown hfi hids ho hf hoffer hoc (hist := hist)
    (rest := want.map (fun id => .credentials ⟨e.rng hw.drawn, some [id], none⟩) ++ [.save (e.rng hw.drawn)])
    (by rw [hhist, collectCalls, List.append_assoc]) (keys := Given offer ((Holder.exec e hw hist).log.drop hw.log.length)) (fun _ h => h) hquiet
  obtain ⟨new, got, g1, g2, g3, g4, g5, g6⟩ := collect_all ho hsave hf hfi hu b9 (fun j => by rw [(hserves j).itself]; exact (hserves j).metadata) hnd b10 (by rw [b11]; exact hids)
    (claims := claims) b7 (want := want)
    (config := fun id cid => cid ∈ offer.configIds ∧ ∃ ids, s.provider.authorize subj cid = some ids ∧ id ∈ ids)
    (fun id hid => by
      obtain ⟨cid, h1, ⟨ids, h2, h3⟩, h4⟩ := hwant id hid
      obtain ⟨d, hd1, cl, hd2, hd3, hd4⟩ := b12 cid h1 ids h2 id h3
      exact ⟨d, hd1, cid, cl, hd2, hd3, hd4, h4, h1, ids, h2, h3⟩)
    (fun x hx => hprov x (b1 x hx)) b2 (by rw [b4]; simp) (by rw [← b3]; exact hquiet) L
  have hsaved : savedIn (new0 ++ new) = got := by
    have hsv : ∀ a b, savedIn (a ++ b) = savedIn a ++ savedIn b := by intro a b; simp [savedIn]
    rw [hsv, savedIn_of_calls b6, g3, b8]; rfl
  refine ⟨new0 ++ new, by rw [b3, g1, b4, List.append_assoc], ?_, by rw [hsaved]; exact g4, by rw [hsaved]; exact g5, by rw [b3]; exact g6⟩
  · intro en hen
    rcases List.mem_append.1 hen with hen | hen
    · exact b5 en hen
    · exact g2 en hen

/-! ### Properties -/

/-- **C101**. The wallet and the issuer of this repository work together. Take any offer with a pre-authorized code that the issuer made, in any
state it can be in, and any of the credentials the offer's subject is authorized for (`want`); and a wallet, with any past of its own, that takes in
the offer, accepts it, enters the transaction code if there is one, gets a token, collects the wanted credentials one after another and saves
them, at any times within five minutes of the offer. Whatever else the issuer serves in between, as long as nobody else uses the code or the token:
every one of those calls succeeds, and the credentials saved are the wanted ones, in order: made by the offering issuer, about the holder of the
wallet's key, with the claims the issuer's Subject provider has for each. The flow is gone from the wallet afterwards.

Assumed of the surroundings: no storage faults; both sides can read what the other signs (`Understands`); the issuer and its authorization server
are registered for this client (`Serves`) and have the data and keys for the wanted credentials (`Issues`). -/
theorem C101_wallet_collects_offer {n : Net} (hfresh : Issuer.Env.Fresh n.env) {w : World Issuer.State} (hreach : Issuer.Reachable n.env w)
    {s : Issuer.Step} {req : Issuer.CreateOfferRequest} (hreq : s.req = .createOffer req) {oresp : Issuer.CreateOfferResponse}
    (h : (Issuer.step n.env w s).1 = .ok (.createOffer oresp)) (hpre : req.requests .preAuthorizedCode) {subj : String}
    (hsub : req.subjectId = some subj) {offer : Issuer.CredentialOffer}
    (hdel : Issuer.Delivers req.credentialIssuer (Issuer.step n.env w s).2.store oresp.offerType offer)
    {md : Verif.Issuer} {client : String} (hclient : client ≠ "") (hserves : ∀ j, Serves (n.provider j) req.credentialIssuer md client)
    (hnd : Dict.Nodup md.configs) (hknown : ∀ cid ∈ offer.configIds, ∃ cfg, (cid, cfg) ∈ md.configs) (hfi : ∀ m, n.env.fault m = .ok)
    (hids : (offer.configIds.flatMap fun cid => (s.provider.authorize subj cid).getD []).Nodup) {claims : String → Dict Json} {want : List String}
    (hwant : ∀ id ∈ want, ∃ cid ∈ offer.configIds, (∃ ids, s.provider.authorize subj cid = some ids ∧ id ∈ ids) ∧
      ∀ j, Issues (n.provider j) md subj cid id (claims id))
    {e : Holder.HEnv} {hw : Holder.HWorld} (ho : e.oracle = n.oracle (Issuer.step n.env w s).2 hw.log.length)
    (hsave : ∀ log recent c, n.rest log recent (.save c) = some ()) (hf : ∀ m, e.fault m = .ok) {W : Holder.Provider}
    (hu : Understands n W (Issuer.step n.env w s).2.now ((Issuer.step n.env w s).2.now + 5 * 60 * Issuer.sec + Issuer.sec))
    {oreq : Holder.OfferRequest} (hoffer : oreq.offer = offer) (hoc : oreq.clientId = client) {hist : List Holder.HStep}
    (hprov : ∀ st ∈ hist, st.provider = W) (hhist : hist.map (·.req) = collectCalls (e.rng hw.drawn) oreq oresp.txCode want)
    (hquiet : ∀ pre, pre <+: Net.made hw.log.length (Holder.exec e hw hist).log [] →
      Undisturbed n (Issuer.step n.env w s).2 pre (Given offer ((Holder.exec e hw hist).log.drop hw.log.length))) :
    ∃ new, (Holder.exec e hw hist).log = hw.log ++ new ∧ (∀ en ∈ new, ∃ r, en.result = .ok r) ∧
      (savedIn new).map (fun c => (c.issuer, c.vc.subject)) =
        want.map (fun id => (req.credentialIssuer, .one { id := some (beforeHash W.kid), claims := claims id })) ∧
      (Holder.exec e hw hist).store (e.rng hw.drawn) = none := by
  obtain ⟨new, h1, h2, h3, h4, h5⟩ := offer_collected hfresh hreach hreq h hpre hsub hdel hclient hserves hnd hknown hfi hids hwant ho hsave hf hu hoffer hoc
    hprov hhist hquiet
  refine ⟨new, h1, h2, ?_, h5⟩
  rw [← (hserves 0).itself]
  exact map_of_zip h3 fun p hp => (h4 p hp).elim fun _ hc => by rw [hc.2.issuer, hc.2.subject]

end Verif.Interop
